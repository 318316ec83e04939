import Verif.Lemmas.FieldShown
import Verif.Lemmas.Dropped

/-!
# Printed matches

Entries and whole matches: what `oxm2str` prints, and what it raises, for every byte string.
-/

namespace Ofpstr
open Spec

set_option linter.unusedSimpArgs false

theorem u8_byte (l : Nat) (h : l < 256) : ∃ y : UInt8, u8 l = [y] ∧ y.toNat = l := by
  refine ⟨UInt8.ofNat (l / 256 ^ 0 % 256), rfl, ?_⟩
  simp
  omega

theorem byte_u8 (y : UInt8) : [y] = u8 y.toNat := by
  show [y] = [UInt8.ofNat (y.toNat / 256 ^ 0 % 256)]
  have : y.toNat < 256 := y.toNat_lt
  simp [Nat.mod_eq_of_lt this]

theorem be_of_val (k : Nat) (b : Bytes) (h : b.length = k) : b = be k (beVal b) := by
  rw [spec_be, beBytes_beVal' k b h]

theorem beVal_four (b : Bytes) (h : b.length = 4) : beVal b < 2 ^ 32 := by
  have := beVal_lt b
  rw [h] at this
  simpa using this

/-- `oxm2strOne` after the four bytes of the header. -/
def oneText (cl x l : Nat) (r : Bytes) : Py Str :=
  if cl = 0xffff then
    if r.length < 4 then .error .structError
    else if beVal (r.take 4) = 0xff00e04d then do
      let d ← getDec ⟨.stratos, x / 2⟩
      decText d ((r.drop 4).take (l - 4)) (x % 2 == 1)
    else .ok t!"?"
  else if cl = 0x8000 then do
    let d ← getDec ⟨.basic, x / 2⟩
    decText d (r.take l) (x % 2 == 1)
  else if cl = 0 then do
    let d ← getDec ⟨.nxm0, x / 2⟩
    decText d (r.take l) (x % 2 == 1)
  else if cl = 1 then do
    let d ← getDec ⟨.nxm1, x / 2⟩
    decText d (r.take l) (x % 2 == 1)
  else .ok t!"?"

theorem one_eq (cl : Nat) (h : cl < 65536) (x l : UInt8) (r : Bytes) :
    oxm2strOne (u16 cl ++ x :: l :: r) = oneText cl x.toNat l.toNat r := by
  have h0 : uAt (u16 cl ++ x :: l :: r) 0 2 = cl := uAt_u16_here _ _ h
  have h2 : uAt (u16 cl ++ x :: l :: r) 2 1 = x.toNat := by
    rw [uAt_u16 _ _ _ _ (by omega)]; simp [uAt, slice, beVal]
  have h3 : uAt (u16 cl ++ x :: l :: r) 3 1 = l.toNat := by
    rw [uAt_u16 _ _ _ _ (by omega)]; simp [uAt, slice, beVal]
  have hl : (u16 cl ++ x :: l :: r).length = 4 + r.length := by simp [u16_length]; omega
  have h4 : uAt (u16 cl ++ x :: l :: r) 4 4 = beVal (r.take 4) := by
    rw [uAt_u16 _ _ _ _ (by omega)]; simp [uAt, slice]
  have hs : slice (u16 cl ++ x :: l :: r) 4 (4 + l.toNat) = r.take l.toNat := by
    rw [slice_right _ _ _ _ (by simp [u16_length]), u16_length]
    simp only [slice]
    rw [show 4 + l.toNat - 2 = l.toNat + 1 + 1 by omega]
    simp
  have hs8 : slice (u16 cl ++ x :: l :: r) 8 (4 + l.toNat) = (r.drop 4).take (l.toNat - 4) := by
    rw [slice_right _ _ _ _ (by simp [u16_length]), u16_length]
    simp only [slice]
    rw [show 4 + l.toNat - 2 = l.toNat + 1 + 1 by omega]
    show List.drop 6 (List.take (l.toNat + 1 + 1) (x :: l :: r)) = _
    rw [List.take_succ_cons, List.take_succ_cons]
    show List.drop 4 (r.take l.toNat) = _
    rw [List.drop_take]
  generalize hw : u16 cl ++ x :: l :: r = w at *
  unfold oxm2strOne oneText
  dsimp only
  rw [h0, h2, h3]
  simp only [OFPXMC_EXPERIMENTER, OFPXMC_OPENFLOW_BASIC, OFPXMC_NXM_0, OFPXMC_NXM_1, STRATOS_EXPERIMENTER_ID,
    beq_iff_eq]
  by_cases c1 : cl = 0xffff
  · rw [if_pos c1, if_pos c1]
    by_cases hr : r.length < 4
    · rw [if_pos hr, need_err _ _ _ (by omega), err_bind]
    · rw [if_neg hr, need_ok _ _ _ (by omega), ok_bind, h4, hs8]
  · rw [if_neg c1, if_neg c1, hs]

theorem field_byte (f : Field) (hf : f ∈ fields) (hm : Bool) :
    ∃ y : UInt8, fieldByte f hm = [y] ∧ y.toNat / 2 = f.num ∧ (y.toNat % 2 == 1) = hm := by
  have := (field_short f hf).2
  obtain ⟨y, h1, h2⟩ := u8_byte (2 * f.num + if hm then 1 else 0) (by split <;> omega)
  refine ⟨y, h1, ?_, ?_⟩
  · rw [h2]; split <;> omega
  · rw [h2]
    cases hm with
    | true => rw [if_pos rfl, beq_iff_eq]; omega
    | false => rw [if_neg (by simp), beq_eq_false_iff_ne]; omega

theorem byte_field (f : Field) (y : UInt8) (h : f.num = y.toNat / 2) :
    fieldByte f (y.toNat % 2 == 1) = [y] := by
  unfold fieldByte
  rw [byte_u8 y, h]
  congr 1
  by_cases hb : y.toNat % 2 = 1
  · rw [if_pos (by simpa using hb)]; omega
  · rw [if_neg (by simpa using hb)]; omega

theorem get_decOf (f : Field) (hf : f ∈ fields) : getDec (fieldKey f) = .ok (decOf f) := by
  unfold getDec
  rw [lookup_decOf f hf]

theorem cls_cases : ∀ f ∈ fields, f.cls = 0xffff ∨ f.cls = 0x8000 ∨ f.cls = 0 ∨ f.cls = 1 := by decide +kernel

theorem one_field (f : Field) (hf : f ∈ fields) (hc : f.cls ≠ 0xffff) (hm : Bool) (l : Nat) (hl : l < 256) (r : Bytes) :
    oxm2strOne (u16 f.cls ++ (fieldByte f hm ++ (u8 l ++ r))) = decText (decOf f) (r.take l) hm := by
  obtain ⟨x, h1, h2, h3⟩ := field_byte f hf hm
  obtain ⟨y, h4, h5⟩ := u8_byte l hl
  have hg := get_decOf f hf
  rw [h1, h4]
  show oxm2strOne (u16 f.cls ++ x :: y :: r) = _
  rw [one_eq _ (field_short f hf).1, h5]
  unfold oneText
  rw [h2, h3]
  rcases cls_cases f hf with h | h | h | h
  · exact absurd h hc
  · rw [if_neg (by omega), if_pos h]
    rw [show fieldKey f = ⟨.basic, f.num⟩ by unfold fieldKey; rw [if_pos h]] at hg
    rw [hg, ok_bind]
  · rw [if_neg (by omega), if_neg (by omega), if_pos h]
    rw [show fieldKey f = ⟨.nxm0, f.num⟩ by unfold fieldKey; rw [if_neg (by omega), if_pos h]] at hg
    rw [hg, ok_bind]
  · rw [if_neg (by omega), if_neg (by omega), if_neg (by omega), if_pos h]
    rw [show fieldKey f = ⟨.nxm1, f.num⟩ by
      unfold fieldKey; rw [if_neg (by omega), if_neg (by omega), if_pos h]] at hg
    rw [hg, ok_bind]

theorem one_exp (f : Field) (hf : f ∈ fields) (hc : f.cls = 0xffff) (hm : Bool) (l : Nat) (hl : l < 256) (r : Bytes) :
    oxm2strOne (u16 f.cls ++ (fieldByte f hm ++ (u8 l ++ (u32 0xff00e04d ++ r)))) =
      decText (decOf f) (r.take (l - 4)) hm := by
  obtain ⟨x, h1, h2, h3⟩ := field_byte f hf hm
  obtain ⟨y, h4, h5⟩ := u8_byte l hl
  have hg := get_decOf f hf
  rw [h1, h4]
  show oxm2strOne (u16 f.cls ++ x :: y :: (u32 0xff00e04d ++ r)) = _
  rw [one_eq _ (field_short f hf).1, h5]
  unfold oneText
  rw [h2, h3, if_pos hc, if_neg (by simp [u32_length]), List.take_left' (u32_length _), List.drop_left' (u32_length _)]
  rw [show beVal (u32 0xff00e04d) = 0xff00e04d by decide +kernel, if_pos rfl]
  rw [show fieldKey f = ⟨.stratos, f.num⟩ by
      unfold fieldKey; rw [if_neg (by omega), if_neg (by omega), if_neg (by omega)]] at hg
  rw [hg, ok_bind]

def noDec (c : Nat) (k : Cls) : Bool :=
  (List.range 128).all fun n => fields.any (fun f => f.cls == c && f.num == n) || (lookupDec ⟨k, n⟩).isNone

theorem noDec_table : noDec 0xffff .stratos = true ∧ noDec 0x8000 .basic = true ∧ noDec 0 .nxm0 = true ∧
    noDec 1 .nxm1 = true := by decide +kernel

theorem get_none (c : Nat) (k : Cls) (ht : noDec c k = true) (n : Nat) (hn : n < 128)
    (h : ∀ f ∈ fields, f.cls = c → f.num ≠ n) : getDec ⟨k, n⟩ = .error .keyError := by
  have h1 := (List.all_eq_true.1 ht) n (List.mem_range.2 hn)
  rw [Bool.or_eq_true] at h1
  rcases h1 with h1 | h1
  · obtain ⟨f, hf, h2⟩ := List.any_eq_true.1 h1
    simp at h2
    exact absurd h2.2 (h f hf h2.1)
  · unfold getDec
    rw [Option.isNone_iff_eq_none.1 h1]

/-- The bytes have an entry, with a text or an exception. -/
theorem outcome_entry (a b c l : UInt8) (r : Bytes) :
    Outcome (oxm2strOne (a :: b :: c :: l :: r)) (EntryText (a :: b :: c :: l :: r))
      (EntryFails (a :: b :: c :: l :: r)) := by
  have hc2 : c.toNat / 2 < 128 := by have := c.toNat_lt; omega
  refine ⟨?_, ?_, ?_⟩
  · intro s h
    generalize a :: b :: c :: l :: r = w at h
    cases h with
    | field f hm l r s h1 h2 h3 h4 =>
      rw [one_field f h1 h2 hm l h3 r]
      exact (outcome_field f h1 hm _).1 _ h4
    | exp f hm l r s h1 h2 h3 h4 =>
      rw [one_exp f h1 h2 hm l h3 r]
      exact (outcome_field f h1 hm _).1 _ h4
    | otherExp x l id r h1 h2 =>
      rw [one_eq _ (by omega)]
      unfold oneText
      rw [if_pos rfl, if_neg (by simp [u32_length]), List.take_left' (u32_length _)]
      rw [show beVal (u32 id) = id from beVal_be 4 id (by simpa using h1), if_neg h2]
    | otherClass cl x l r h1 h2 =>
      rw [one_eq _ h1]
      simp at h2
      unfold oneText
      rw [if_neg (by omega), if_neg (by omega), if_neg (by omega), if_neg (by omega)]
  · intro e h
    generalize a :: b :: c :: l :: r = w at h
    cases h with
    | field f hm l r s h1 h2 h3 h4 =>
      rw [one_field f h1 h2 hm l h3 r]
      exact (outcome_field f h1 hm _).2.1 _ h4
    | exp f hm l r s h1 h2 h3 h4 =>
      rw [one_exp f h1 h2 hm l h3 r]
      exact (outcome_field f h1 hm _).2.1 _ h4
    | noField cl x l r h1 h2 =>
      have hx : x.toNat / 2 < 128 := by have := x.toNat_lt; omega
      simp at h1
      rw [one_eq _ (by omega)]
      unfold oneText
      rcases h1 with rfl | rfl | rfl
      · rw [if_neg (by omega), if_neg (by omega), if_pos rfl, get_none 0 .nxm0 noDec_table.2.2.1 _ hx h2, err_bind]
      · rw [if_neg (by omega), if_neg (by omega), if_neg (by omega), if_pos rfl,
          get_none 1 .nxm1 noDec_table.2.2.2 _ hx h2, err_bind]
      · rw [if_neg (by omega), if_pos rfl, get_none 0x8000 .basic noDec_table.2.1 _ hx h2, err_bind]
    | noExpField x l r h2 =>
      have hx : x.toNat / 2 < 128 := by have := x.toNat_lt; omega
      rw [one_eq _ (by omega)]
      unfold oneText
      rw [if_pos rfl, if_neg (by simp [u32_length]), List.take_left' (u32_length _)]
      rw [show beVal (u32 0xff00e04d) = 0xff00e04d by decide +kernel, if_pos rfl,
        get_none 0xffff .stratos noDec_table.1 _ hx h2, err_bind]
    | noId x l r h =>
      rw [one_eq _ (by omega)]
      unfold oneText
      rw [if_pos rfl, if_pos h]
  · have hcl : beVal [a, b] < 65536 := by simpa using beVal_lt [a, b]
    have hw : a :: b :: c :: l :: r = u16 (beVal [a, b]) ++ c :: l :: r := by
      rw [show u16 (beVal [a, b]) = [a, b] from (be_of_val 2 [a, b] rfl).symm]
      rfl
    have hll : l.toNat < 256 := l.toNat_lt
    rw [hw]
    generalize beVal [a, b] = cl at hcl
    by_cases he : cl = 0xffff
    · rw [he]
      by_cases hr : r.length < 4
      · exact Or.inr ⟨_, .noId c l r hr⟩
      · obtain ⟨i, r', rfl, hi⟩ : ∃ i r', r = i ++ r' ∧ i.length = 4 :=
          ⟨r.take 4, r.drop 4, (List.take_append_drop 4 r).symm, by simp; omega⟩
        rw [be_of_val 4 i hi]
        by_cases hid : beVal i = 0xff00e04d
        · rw [hid]
          by_cases hf : ∀ f ∈ fields, f.cls = 0xffff → f.num ≠ c.toNat / 2
          · exact Or.inr ⟨_, .noExpField c l r' hf⟩
          · push Not at hf
            obtain ⟨f, h1, h2, h3⟩ := hf
            have hb := byte_field f c h3
            rcases (outcome_field f h1 (c.toNat % 2 == 1) (r'.take (l.toNat - 4))).2.2 with ⟨s, hs⟩ | ⟨e, he⟩
            · have := EntryText.exp f _ _ r' s h1 h2 hll hs
              rw [hb, ← byte_u8, h2] at this
              exact Or.inl ⟨s, this⟩
            · have := EntryFails.exp f _ _ r' e h1 h2 hll he
              rw [hb, ← byte_u8, h2] at this
              exact Or.inr ⟨e, this⟩
        · exact Or.inl ⟨_, .otherExp c l _ r' (beVal_four i hi) hid⟩
    · by_cases hk : cl ∈ [0, 1, 0x8000]
      · by_cases hf : ∀ f ∈ fields, f.cls = cl → f.num ≠ c.toNat / 2
        · exact Or.inr ⟨_, .noField cl c l r hk hf⟩
        · push Not at hf
          obtain ⟨f, h1, h2, h3⟩ := hf
          have hb := byte_field f c h3
          rcases (outcome_field f h1 (c.toNat % 2 == 1) (r.take l.toNat)).2.2 with ⟨s, hs⟩ | ⟨e, he'⟩
          · have := EntryText.field f _ _ r s h1 (by omega) hll hs
            rw [hb, ← byte_u8, h2] at this
            exact Or.inl ⟨s, this⟩
          · have := EntryFails.field f _ _ r e h1 (by omega) hll he'
            rw [hb, ← byte_u8, h2] at this
            exact Or.inr ⟨e, this⟩
      · refine Or.inl ⟨_, .otherClass cl c l r hcl ?_⟩
        simp at hk ⊢
        exact ⟨hk.1, hk.2.1, hk.2.2, he⟩

theorem fails_long {b : Bytes} {e : Err} (h : EntryFails b e) : ∃ x y z w r, b = x :: y :: z :: w :: r := by
  have hl : 4 ≤ b.length := by
    cases h <;> simp [u16_length, u8_length, u32_length, fieldByte] <;> omega
  match b, hl with
  | x :: y :: z :: w :: r, _ => exact ⟨x, y, z, w, r, rfl⟩

theorem len_byte (a b c l : UInt8) (r : Bytes) : uAt (a :: b :: c :: l :: r) 3 1 = l.toNat := by
  simp [uAt, slice, beVal]

theorem go_shown : ∀ (fuel : Nat) (b : Bytes) (ss : List Str), b.length < fuel → MatchShown b ss →
    oxm2strGo fuel b = .ok ss := by
  intro fuel
  induction fuel with
  | zero => intro b ss h; omega
  | succ fuel ih =>
    intro b ss hl h
    unfold oxm2strGo
    cases h with
    | done _ h => rw [if_pos h]
    | more a b c l r s ss h1 h2 =>
      rw [if_neg (by simp), (outcome_entry a b c l r).1 s h1, ok_bind, len_byte]
      rw [show List.drop (4 + l.toNat) (a :: b :: c :: l :: r) = r.drop l.toNat by
        rw [show 4 + l.toNat = l.toNat + 1 + 1 + 1 + 1 by omega]; simp]
      rw [ih _ _ (by simp at hl ⊢; omega) h2, ok_bind]

theorem go_fails : ∀ (fuel : Nat) (b : Bytes) (e : Err), b.length < fuel → MatchFails b e →
    oxm2strGo fuel b = .error e := by
  intro fuel
  induction fuel with
  | zero => intro b ss h; omega
  | succ fuel ih =>
    intro b e hl h
    unfold oxm2strGo
    cases h with
    | now _ _ h =>
      obtain ⟨a, x, c, l, r, rfl⟩ := fails_long h
      rw [if_neg (by simp), (outcome_entry a x c l r).2.1 e h, err_bind]
    | later a b c l r s e h1 h2 =>
      rw [if_neg (by simp), (outcome_entry a b c l r).1 s h1, ok_bind, len_byte]
      rw [show List.drop (4 + l.toNat) (a :: b :: c :: l :: r) = r.drop l.toNat by
        rw [show 4 + l.toNat = l.toNat + 1 + 1 + 1 + 1 by omega]; simp]
      rw [ih _ _ (by simp at hl ⊢; omega) h2, err_bind]

theorem go_all (b : Bytes) : (∃ ss, MatchShown b ss) ∨ ∃ e, MatchFails b e := by
  match b with
  | [] => exact Or.inl ⟨_, .done _ (by simp)⟩
  | [_] => exact Or.inl ⟨_, .done _ (by simp)⟩
  | [_, _] => exact Or.inl ⟨_, .done _ (by simp)⟩
  | [_, _, _] => exact Or.inl ⟨_, .done _ (by simp)⟩
  | a :: b :: c :: l :: r =>
    rcases (outcome_entry a b c l r).2.2 with ⟨s, hs⟩ | ⟨e, he⟩
    · rcases go_all (r.drop l.toNat) with ⟨ss, h⟩ | ⟨e, h⟩
      · exact Or.inl ⟨_, .more _ _ _ _ _ _ _ hs h⟩
      · exact Or.inr ⟨_, .later _ _ _ _ _ _ _ hs h⟩
    · exact Or.inr ⟨e, .now _ _ he⟩
termination_by b.length
decreasing_by simp; omega

/-- Every match has a text or an exception. -/
theorem outcome_match (b : Bytes) :
    Outcome (oxm2str b) (fun s => ∃ ss, MatchShown b ss ∧ s = joinStr t!"," ss) (MatchFails b) := by
  refine ⟨?_, ?_, ?_⟩
  · rintro s ⟨ss, h, rfl⟩
    unfold oxm2str
    rw [go_shown _ b ss (by omega) h, ok_bind]
  · intro e h
    unfold oxm2str
    rw [go_fails _ b e (by omega) h, err_bind]
  · rcases go_all b with ⟨ss, h⟩ | h
    · exact Or.inl ⟨_, ss, h, rfl⟩
    · exact Or.inr h

theorem outcome_match1 (b : Bytes) :
    Outcome (oxm2str1 b) (fun s => (b.length < 4 ∧ s = []) ∨ EntryText b s) (EntryFails b) := by
  unfold oxm2str1
  by_cases hl : b.length < 4
  · rw [if_pos hl]
    refine ⟨?_, ?_, Or.inl ⟨[], Or.inl ⟨hl, rfl⟩⟩⟩
    · rintro s (⟨_, rfl⟩ | h)
      · rfl
      · exfalso
        revert hl
        cases h <;> simp [u16_length, u8_length, u32_length, fieldByte] <;> omega
    · intro e h
      obtain ⟨_, _, _, _, _, rfl⟩ := fails_long h
      simp at hl
      omega
  · rw [if_neg hl]
    match b, Nat.le_of_not_lt hl with
    | a :: b :: c :: l :: r, _ =>
      refine ⟨?_, (outcome_entry a b c l r).2.1, ?_⟩
      · rintro s (⟨h, _⟩ | h)
        · simp at h; omega
        · exact (outcome_entry a b c l r).1 s h
      · rcases (outcome_entry a b c l r).2.2 with ⟨s, hs⟩ | h
        · exact Or.inl ⟨s, Or.inr hs⟩
        · exact Or.inr h

/-! ## Lists of fields -/

/-- `oxmid2strOne` after the four bytes of the header. -/
def idText (cl x : Nat) (r : Bytes) : Py (Str × Nat) :=
  if cl = 0xffff then
    if r.length < 4 then .error .structError
    else if beVal (r.take 4) = 0xff00e04d then do
      let d ← getDec ⟨.stratos, x / 2⟩
      .ok (decId d, 8)
    else .ok (t!"?", 8)
  else if cl = 0x8000 then do
    let d ← getDec ⟨.basic, x / 2⟩
    .ok (decId d, 4)
  else if cl = 0 then do
    let d ← getDec ⟨.nxm0, x / 2⟩
    .ok (decId d, 4)
  else if cl = 1 then do
    let d ← getDec ⟨.nxm1, x / 2⟩
    .ok (decId d, 4)
  else .ok (t!"?", 4)

theorem id_eq (cl : Nat) (h : cl < 65536) (x l : UInt8) (r : Bytes) :
    oxmid2strOne (u16 cl ++ x :: l :: r) = idText cl x.toNat r := by
  have h0 : uAt (u16 cl ++ x :: l :: r) 0 2 = cl := uAt_u16_here _ _ h
  have h2 : uAt (u16 cl ++ x :: l :: r) 2 1 = x.toNat := by
    rw [uAt_u16 _ _ _ _ (by omega)]; simp [uAt, slice, beVal]
  have hl : (u16 cl ++ x :: l :: r).length = 4 + r.length := by simp [u16_length]; omega
  have h4 : uAt (u16 cl ++ x :: l :: r) 4 4 = beVal (r.take 4) := by
    rw [uAt_u16 _ _ _ _ (by omega)]; simp [uAt, slice]
  generalize hw : u16 cl ++ x :: l :: r = w at *
  unfold oxmid2strOne idText
  dsimp only
  rw [h0, h2]
  simp only [OFPXMC_EXPERIMENTER, OFPXMC_OPENFLOW_BASIC, OFPXMC_NXM_0, OFPXMC_NXM_1, STRATOS_EXPERIMENTER_ID,
    beq_iff_eq]
  by_cases c1 : cl = 0xffff
  · rw [if_pos c1, if_pos c1]
    by_cases hr : r.length < 4
    · rw [if_pos hr, need_err _ _ _ (by omega), err_bind]
    · rw [if_neg hr, need_ok _ _ _ (by omega), ok_bind, h4]
  · rw [if_neg c1, if_neg c1]

theorem decId_field : ∀ f ∈ fields, decId (decOf f) = f.shownName := by decide +kernel

theorem drop_head4 (c : Nat) (x l : UInt8) (r : Bytes) : (u16 c ++ x :: l :: r).drop 4 = r := by
  rw [List.drop_append, u16_length, List.drop_eq_nil_of_le (by rw [u16_length]; omega)]
  rfl

theorem drop_head8 (c i : Nat) (x l : UInt8) (r : Bytes) : (u16 c ++ x :: l :: (u32 i ++ r)).drop 8 = r := by
  have h := drop_head4 c x l (u32 i ++ r)
  rw [show (8 : Nat) = 4 + 4 from rfl, ← List.drop_drop, h, List.drop_left' (u32_length i)]

theorem id_shown {b : Bytes} {s : Str} {r : Bytes} (h : HeadShown b s r) :
    ∃ k, oxmid2strOne b = .ok (s, k) ∧ b.drop k = r ∧ 4 ≤ b.length ∧ r.length + 4 ≤ b.length := by
  cases h with
  | field f hm l r h1 h2 =>
    obtain ⟨x, e1, e2, e3⟩ := field_byte f h1 hm
    have hg := get_decOf f h1
    rw [e1]
    refine ⟨4, ?_, drop_head4 _ x l r, by simp [u16_length]; omega, by simp [u16_length]; omega⟩
    show oxmid2strOne (u16 f.cls ++ x :: l :: r) = _
    rw [id_eq _ (field_short f h1).1]
    unfold idText
    rw [e2]
    rcases cls_cases f h1 with h | h | h | h
    · exact absurd h h2
    · rw [if_neg (by omega), if_pos h]
      rw [show fieldKey f = ⟨.basic, f.num⟩ by unfold fieldKey; rw [if_pos h]] at hg
      rw [hg, ok_bind, decId_field f h1]
    · rw [if_neg (by omega), if_neg (by omega), if_pos h]
      rw [show fieldKey f = ⟨.nxm0, f.num⟩ by unfold fieldKey; rw [if_neg (by omega), if_pos h]] at hg
      rw [hg, ok_bind, decId_field f h1]
    · rw [if_neg (by omega), if_neg (by omega), if_neg (by omega), if_pos h]
      rw [show fieldKey f = ⟨.nxm1, f.num⟩ by
        unfold fieldKey; rw [if_neg (by omega), if_neg (by omega), if_pos h]] at hg
      rw [hg, ok_bind, decId_field f h1]
  | exp f hm l r h1 h2 =>
    obtain ⟨x, e1, e2, e3⟩ := field_byte f h1 hm
    have hg := get_decOf f h1
    rw [e1]
    refine ⟨8, ?_, drop_head8 _ _ x l r, by simp [u16_length]; omega, by simp [u16_length, u32_length]; omega⟩
    show oxmid2strOne (u16 f.cls ++ x :: l :: (u32 0xff00e04d ++ r)) = _
    rw [id_eq _ (field_short f h1).1]
    unfold idText
    rw [e2, if_pos h2, if_neg (by simp [u32_length]), List.take_left' (u32_length _)]
    rw [show beVal (u32 0xff00e04d) = 0xff00e04d by decide +kernel, if_pos rfl]
    rw [show fieldKey f = ⟨.stratos, f.num⟩ by
        unfold fieldKey; rw [if_neg (by omega), if_neg (by omega), if_neg (by omega)]] at hg
    rw [hg, ok_bind, decId_field f h1]
  | otherExp x l id r h1 h2 =>
    refine ⟨8, ?_, drop_head8 _ _ x l r, by simp [u16_length]; omega, by simp [u16_length, u32_length]; omega⟩
    rw [id_eq _ (by omega)]
    unfold idText
    rw [if_pos rfl, if_neg (by simp [u32_length]), List.take_left' (u32_length _)]
    rw [show beVal (u32 id) = id from beVal_be 4 id (by simpa using h1), if_neg h2]
  | otherClass cl x l r h1 h2 =>
    refine ⟨4, ?_, drop_head4 _ x l r, by simp [u16_length]; omega, by simp [u16_length]; omega⟩
    rw [id_eq _ h1]
    simp at h2
    unfold idText
    rw [if_neg (by omega), if_neg (by omega), if_neg (by omega), if_neg (by omega)]

theorem id_fails {b : Bytes} {e : Err} (h : HeadFails b e) : oxmid2strOne b = .error e ∧ 4 ≤ b.length := by
  cases h with
  | noField cl x l r h1 h2 =>
    refine ⟨?_, by simp [u16_length]; omega⟩
    have hx : x.toNat / 2 < 128 := by have := x.toNat_lt; omega
    simp at h1
    rw [id_eq _ (by omega)]
    unfold idText
    rcases h1 with rfl | rfl | rfl
    · rw [if_neg (by omega), if_neg (by omega), if_pos rfl, get_none 0 .nxm0 noDec_table.2.2.1 _ hx h2, err_bind]
    · rw [if_neg (by omega), if_neg (by omega), if_neg (by omega), if_pos rfl,
        get_none 1 .nxm1 noDec_table.2.2.2 _ hx h2, err_bind]
    · rw [if_neg (by omega), if_pos rfl, get_none 0x8000 .basic noDec_table.2.1 _ hx h2, err_bind]
  | noExpField x l r h2 =>
    refine ⟨?_, by simp [u16_length]; omega⟩
    have hx : x.toNat / 2 < 128 := by have := x.toNat_lt; omega
    rw [id_eq _ (by omega)]
    unfold idText
    rw [if_pos rfl, if_neg (by simp [u32_length]), List.take_left' (u32_length _)]
    rw [show beVal (u32 0xff00e04d) = 0xff00e04d by decide +kernel, if_pos rfl,
      get_none 0xffff .stratos noDec_table.1 _ hx h2, err_bind]
  | noId x l r h =>
    refine ⟨?_, by simp [u16_length]; omega⟩
    rw [id_eq _ (by omega)]
    unfold idText
    rw [if_pos rfl, if_pos h]

theorem id_all (a b c l : UInt8) (r : Bytes) :
    (∃ s r', HeadShown (a :: b :: c :: l :: r) s r') ∨ ∃ e, HeadFails (a :: b :: c :: l :: r) e := by
  have hcl : beVal [a, b] < 65536 := by simpa using beVal_lt [a, b]
  have hw : a :: b :: c :: l :: r = u16 (beVal [a, b]) ++ c :: l :: r := by
    rw [show u16 (beVal [a, b]) = [a, b] from (be_of_val 2 [a, b] rfl).symm]
    rfl
  rw [hw]
  generalize beVal [a, b] = cl at hcl
  by_cases he : cl = 0xffff
  · rw [he]
    by_cases hr : r.length < 4
    · exact Or.inr ⟨_, .noId c l r hr⟩
    · obtain ⟨i, r', rfl, hi⟩ : ∃ i r', r = i ++ r' ∧ i.length = 4 :=
        ⟨r.take 4, r.drop 4, (List.take_append_drop 4 r).symm, by simp; omega⟩
      rw [be_of_val 4 i hi]
      by_cases hid : beVal i = 0xff00e04d
      · rw [hid]
        by_cases hf : ∀ f ∈ fields, f.cls = 0xffff → f.num ≠ c.toNat / 2
        · exact Or.inr ⟨_, .noExpField c l r' hf⟩
        · push Not at hf
          obtain ⟨f, h1, h2, h3⟩ := hf
          have := HeadShown.exp f (c.toNat % 2 == 1) l r' h1 h2
          rw [byte_field f c h3, h2] at this
          exact Or.inl ⟨_, _, this⟩
      · exact Or.inl ⟨_, _, .otherExp c l _ r' (beVal_four i hi) hid⟩
  · by_cases hk : cl ∈ [0, 1, 0x8000]
    · by_cases hf : ∀ f ∈ fields, f.cls = cl → f.num ≠ c.toNat / 2
      · exact Or.inr ⟨_, .noField cl c l r hk hf⟩
      · push Not at hf
        obtain ⟨f, h1, h2, h3⟩ := hf
        have := HeadShown.field f (c.toNat % 2 == 1) l r h1 (by omega)
        rw [byte_field f c h3, h2] at this
        exact Or.inl ⟨_, _, this⟩
    · refine Or.inl ⟨_, _, .otherClass cl c l r hcl ?_⟩
      simp at hk ⊢
      exact ⟨hk.1, hk.2.1, hk.2.2, he⟩

theorem ids_shown : ∀ (fuel : Nat) (b : Bytes) (ss : List Str), b.length < fuel → HeadsShown b ss →
    oxmid2strGo fuel b = .ok ss := by
  intro fuel
  induction fuel with
  | zero => intro b ss h; omega
  | succ fuel ih =>
    intro b ss hl h
    unfold oxmid2strGo
    cases h with
    | done _ h => rw [if_pos h]
    | more _ s r ss h1 h2 =>
      obtain ⟨k, e1, e2, e3, e4⟩ := id_shown h1
      rw [if_neg (by omega), e1, ok_bind]
      dsimp only
      rw [e2, ih r ss (by omega) h2, ok_bind]

theorem ids_fail : ∀ (fuel : Nat) (b : Bytes) (e : Err), b.length < fuel → HeadsFail b e →
    oxmid2strGo fuel b = .error e := by
  intro fuel
  induction fuel with
  | zero => intro b ss h; omega
  | succ fuel ih =>
    intro b e hl h
    unfold oxmid2strGo
    cases h with
    | now _ _ h =>
      obtain ⟨h1, h2⟩ := id_fails h
      rw [if_neg (by omega), h1, err_bind]
    | later _ s r e h1 h2 =>
      obtain ⟨k, e1, e2, e3, e4⟩ := id_shown h1
      rw [if_neg (by omega), e1, ok_bind]
      dsimp only
      rw [e2, ih r e (by omega) h2, err_bind]

theorem ids_all : ∀ (n : Nat) (b : Bytes), b.length < n → (∃ ss, HeadsShown b ss) ∨ ∃ e, HeadsFail b e := by
  intro n
  induction n with
  | zero => intro b h; omega
  | succ n ih =>
    intro b hn
    by_cases hl : b.length < 4
    · exact Or.inl ⟨_, .done _ hl⟩
    · match b, Nat.le_of_not_lt hl with
      | a :: b :: c :: l :: r, _ =>
        rcases id_all a b c l r with ⟨s, r', hs⟩ | ⟨e, he⟩
        · obtain ⟨_, _, _, _, h4⟩ := id_shown hs
          rcases ih r' (by omega) with ⟨ss, h⟩ | ⟨e, h⟩
          · exact Or.inl ⟨_, .more _ _ _ _ hs h⟩
          · exact Or.inr ⟨_, .later _ _ _ _ hs h⟩
        · exact Or.inr ⟨e, .now _ _ he⟩

theorem outcome_ids (b : Bytes) :
    Outcome (oxmid2str b) (fun s => ∃ ss, HeadsShown b ss ∧ s = joinStr t!"," ss) (HeadsFail b) := by
  refine ⟨?_, ?_, ?_⟩
  · rintro s ⟨ss, h, rfl⟩
    unfold oxmid2str
    rw [ids_shown _ b ss (by omega) h, ok_bind]
  · intro e h
    unfold oxmid2str
    rw [ids_fail _ b e (by omega) h, err_bind]
  · rcases ids_all _ b (Nat.lt_succ_self _) with ⟨ss, h⟩ | h
    · exact Or.inl ⟨_, ss, h, rfl⟩
    · exact Or.inr h

theorem outcome_id1 (b : Bytes) :
    Outcome (oxmid2str1 b) (fun s => (b.length < 4 ∧ s = []) ∨ ∃ r, HeadShown b s r) (HeadFails b) := by
  unfold oxmid2str1
  by_cases hl : b.length < 4
  · rw [if_pos hl]
    refine ⟨?_, ?_, Or.inl ⟨[], Or.inl ⟨hl, rfl⟩⟩⟩
    · rintro s (⟨_, rfl⟩ | ⟨r, h⟩)
      · rfl
      · obtain ⟨_, _, _, h, _⟩ := id_shown h
        omega
    · intro e h
      have := (id_fails h).2
      omega
  · rw [if_neg hl]
    refine ⟨?_, ?_, ?_⟩
    · rintro s (⟨h, _⟩ | ⟨r, h⟩)
      · exact absurd h hl
      · obtain ⟨k, h, _⟩ := id_shown h
        rw [h, ok_bind]
    · intro e h
      rw [(id_fails h).1, err_bind]
    · match b, Nat.le_of_not_lt hl with
      | a :: b :: c :: l :: r, _ =>
        rcases id_all a b c l r with ⟨s, r', hs⟩ | h
        · exact Or.inl ⟨s, Or.inr ⟨r', hs⟩⟩
        · exact Or.inr h

end Ofpstr
