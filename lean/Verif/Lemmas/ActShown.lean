import Verif.Lemmas.MatchShown
import Verif.Spec.ActPrint

/-!
# Printed actions: the parts

What the pieces of `Spec/ActPrint.lean` are in the model, and the standard actions.
-/

namespace Ofpstr
open Spec

set_option linter.unusedSimpArgs false

/-! ## Cutting bytes -/

theorem cut_be (k : Nat) (p : Bytes) (h : k ≤ p.length) : ∃ n r, n < 256 ^ k ∧ p = be k n ++ r := by
  have hl : (p.take k).length = k := by rw [List.length_take]; omega
  refine ⟨beVal (p.take k), p.drop k, ?_, ?_⟩
  · have := beVal_lt (p.take k)
    rwa [hl] at this
  · rw [← be_of_val k _ hl, List.take_append_drop]

theorem cut16 (p : Bytes) (h : 2 ≤ p.length) : ∃ n r, n < 65536 ∧ p = u16 n ++ r := cut_be 2 p h
theorem cut32 (p : Bytes) (h : 4 ≤ p.length) : ∃ n r, n < 2 ^ 32 ∧ p = u32 n ++ r := cut_be 4 p h
theorem cut64 (p : Bytes) (h : 8 ≤ p.length) : ∃ n r, n < 2 ^ 64 ∧ p = u64 n ++ r := cut_be 8 p h

theorem cut_list (k : Nat) (p : Bytes) (h : k ≤ p.length) : ∃ x r, x.length = k ∧ p = x ++ r :=
  ⟨p.take k, p.drop k, by rw [List.length_take]; omega, (List.take_append_drop k p).symm⟩

theorem cut_byte (p : Bytes) (h : 1 ≤ p.length) : ∃ (y : UInt8) (r : Bytes), p = y :: r := by
  cases p with
  | nil => simp at h
  | cons y r => exact ⟨y, r, rfl⟩

theorem cut_words (n : Nat) : ∀ q : Bytes, 2 * n ≤ q.length →
    ∃ ns r, ns.length = n ∧ (∀ i ∈ ns, i < 65536) ∧ q = wordsOf ns ++ r := by
  induction n with
  | zero => intro q _; exact ⟨[], q, rfl, by simp, rfl⟩
  | succ n ih =>
    intro q h
    obtain ⟨m, r, hm, rfl⟩ := cut16 q (by omega)
    rw [List.length_append, u16_length] at h
    obtain ⟨ns, r', h1, h2, rfl⟩ := ih r (by omega)
    refine ⟨m :: ns, r', by simp [h1], ?_, by simp [wordsOf]⟩
    intro i hi
    cases hi with
    | head => exact hm
    | tail _ hi => exact h2 i hi

theorem wordsOf_length (ns : List Nat) : (wordsOf ns).length = 2 * ns.length := by
  induction ns with
  | nil => rfl
  | cons n ns ih =>
    show (u16 n ++ wordsOf ns).length = _
    rw [List.length_append, ih, u16_length, List.length_cons]
    omega

theorem as_be (x : Bytes) (k : Nat) (h : x.length = k) : ∃ m, m < 256 ^ k ∧ x = be k m := by
  refine ⟨beVal x, ?_, be_of_val k x h⟩
  have := beVal_lt x
  rwa [h] at this

/-- Reading a number out of what the bytes consist of. -/
macro "uat" : tactic => `(tactic| (
  repeat first
    | rw [uAt_u16 _ _ _ _ (by omega)]
    | rw [uAt_u32 _ _ _ _ (by omega)]
    | rw [uAt_u64 _ _ _ _ (by omega)]
    | rw [uAt_skip _ _ _ _ _ (by omega)]
    | rw [uAt_skip_pad _ _ _ _ (by omega)]
  first
    | rw [uAt_u16_here _ _ (by omega)]
    | rw [uAt_u32_here _ _ (by omega)]
    | rw [uAt_u64_here _ _ (by omega)]))

/-! ## Numbers and names -/

theorem hexShown_iff (w : Nat) (s : Str) (n : Nat) : NumShown (.hex w) s n ↔ s = fmtX w n := numShown_iff (.hex w) s n

theorem nameShown_iff (b : Bytes) (s : Str) : NameShown b s ↔ oxmid2str1 b = .ok s := by
  rw [(outcome_id1 b).ok]
  constructor
  · intro h
    cases h with
    | short h => exact Or.inl ⟨h, rfl⟩
    | head r _ h => exact Or.inr ⟨_, h⟩
  · rintro (⟨h, rfl⟩ | ⟨r, h⟩)
    · exact .short _ h
    · exact .head _ _ r h

theorem headFails_iff (b : Bytes) (e : Err) : HeadFails b e ↔ oxmid2str1 b = .error e := ((outcome_id1 b).error e).symm

theorem name_total (b : Bytes) : (∃ s, NameShown b s) ∨ ∃ e, HeadFails b e := by
  cases h : oxmid2str1 b with
  | ok s => exact Or.inl ⟨s, (nameShown_iff b s).2 h⟩
  | error e => exact Or.inr ⟨e, (headFails_iff b e).2 h⟩

theorem rangeShown_iff (name : Str) (ofs n : Nat) (s : Str) : RangeShown name ofs n s ↔ s = fmtRange name ofs (ofs + n) := by
  constructor
  · intro h
    cases h with
    | mk s t h1 h2 => rw [decimal_eq h1, decimal_eq h2]; rfl
  · rintro rfl
    exact .mk _ _ (decimal_fmtD _) (decimal_fmtD _)

theorem bitsShown_iff (name : Str) (size ofs n : Nat) (s : Str) : BitsShown name size ofs n s ↔ s = rangeText name size ofs n := by
  unfold rangeText
  constructor
  · intro h
    cases h with
    | whole h1 h2 => rw [if_pos]; simp [h1, h2]; omega
    | bits s h1 h2 =>
      rw [if_neg, (rangeShown_iff _ _ _ _).1 h2]
      simp only [Bool.and_eq_true, beq_iff_eq]
      omega
  · intro h
    by_cases hc : ofs = 0 ∧ n = 8 * size
    · rw [if_pos (by simp only [Bool.and_eq_true, beq_iff_eq]; omega)] at h
      rw [h]
      exact .whole hc.1 hc.2
    · rw [if_neg (by simp only [Bool.and_eq_true, beq_iff_eq]; omega)] at h
      exact .bits s hc ((rangeShown_iff _ _ _ _).2 h)

theorem reserved_low : ∀ e ∈ reservedPorts, ∀ e' ∈ reservedPorts, e.1 % 65536 = e'.1 % 65536 → e = e' := by decide

theorem bundlePortText_cases (n : Nat) : (∃ e ∈ reservedPorts, e.1 % 65536 = n ∧ bundlePortText n = e.2) ∨
    ((∀ e ∈ reservedPorts, e.1 % 65536 ≠ n) ∧ bundlePortText n = fmtD n) := by
  have hof : ofpp = reservedPorts := by decide
  unfold bundlePortText
  rw [hof]
  cases hf : reservedPorts.find? (fun e => e.1 % 65536 == n) with
  | some e => exact Or.inl ⟨e, List.mem_of_find?_eq_some hf, by simpa using List.find?_some hf, rfl⟩
  | none =>
    refine Or.inr ⟨fun e he => ?_, rfl⟩
    simpa using List.find?_eq_none.1 hf e he

theorem slaveShown_iff (s : Str) (n : Nat) : SlaveShown s n ↔ s = bundlePortText n := by
  constructor
  · intro h
    cases h with
    | name k s h =>
      rcases bundlePortText_cases (k % 65536) with ⟨e, he, h1, h2⟩ | ⟨h1, _⟩
      · rw [h2, reserved_low e he (k, s) h h1]
      · exact absurd rfl (h1 (k, s) h)
    | num s n h1 h2 =>
      rcases bundlePortText_cases n with ⟨e, he, h3, _⟩ | ⟨_, h3⟩
      · exact absurd h3 (h1 e he)
      · rw [h3, decimal_eq h2]
  · rintro rfl
    rcases bundlePortText_cases n with ⟨e, he, h1, h2⟩ | ⟨h1, h2⟩
    · rw [h2, ← h1]; exact .name e.1 e.2 he
    · rw [h2]; exact .num _ _ h1 (decimal_fmtD n)

theorem numsShown_iff {P : Str → Nat → Prop} {g : Nat → Str} (hP : ∀ t n, P t n ↔ t = g n) (ts : List Str) (ns : List Nat) :
    NumsShown P ts ns ↔ (∀ n ∈ ns, n < 65536) ∧ ts = ns.map g := by
  constructor
  · intro h
    induction h with
    | nil => exact ⟨by simp, rfl⟩
    | cons t n ts ns h1 h2 _ ih =>
      refine ⟨?_, by rw [(hP t n).1 h1, ih.2]; rfl⟩
      intro i hi
      cases hi with
      | head => exact h2
      | tail _ hi => exact ih.1 i hi
  · rintro ⟨h1, rfl⟩
    induction ns with
    | nil => exact .nil
    | cons n ns ih =>
      exact .cons _ _ _ _ ((hP _ _).2 rfl) (h1 n (.head _)) (ih fun i hi => h1 i (.tail _ hi))

theorem resubmitShown_iff (s : Str) (p : Nat) : ResubmitShown s p ↔ s = resubmitPortText p := by
  unfold ResubmitShown resubmitPortText
  by_cases h : p = 0xfff8
  · rw [if_pos (by simpa using h)]
    exact ⟨fun g => by rcases g with ⟨_, g⟩ | ⟨g, _⟩; exacts [g, absurd h g], fun g => Or.inl ⟨h, g⟩⟩
  · rw [if_neg (by simpa using h)]
    exact ⟨fun g => by rcases g with ⟨g, _⟩ | ⟨_, g⟩; exacts [absurd g h, decimal_eq g],
      fun g => Or.inr ⟨h, (decimal_iff _ _).2 g⟩⟩

theorem tupleGet_some (l : List Str) (i : Nat) (s : Str) (h : l[i]? = some s) : tupleGet l i = .ok s := by
  unfold tupleGet; rw [h]

theorem tupleGet_none (l : List Str) (i : Nat) (h : l.length ≤ i) : tupleGet l i = .error .indexError := by
  unfold tupleGet; rw [List.getElem?_eq_none h]

theorem hash_words : nxHashNames = hashWords := by decide
theorem mpAlg_words : nxMpAlgNames = mpAlgWords := by decide
theorem bdAlg_words : nxBdAlgNames = bdAlgWords := by decide

theorem get_total (l : List Str) (i : Nat) : (∃ s, l[i]? = some s) ∨ l.length ≤ i := by
  by_cases h : l.length ≤ i
  · exact Or.inr h
  · exact Or.inl ⟨_, List.getElem?_eq_getElem (by omega)⟩

/-! ## Standard actions -/

theorem std_dec : ∀ a ∈ stdActs, lookupActDec (.std a.type) = some (match a.arg with
    | .none => .generic a.name
    | .ttl => .uint a.name 1 (if a.type = 15 then 3 else 0)
    | .word => .uint a.name 4 0
    | .ether => .push a.name) := by decide +kernel

theorem output_eq (p m : Nat) (r : Bytes) (hp : p < 2 ^ 32) (hm : m < 65536) (hr : r.length = 6) :
    outputAct2str (u32 p ++ (u16 m ++ r)) = .ok (t!"output=" ++ (if p == 0xfffffffd && m != 0xffff then
      nameOrD ofpp p ++ ':' :: fmtX 0 m else nameOrD ofpp p)) := by
  have h0 : uAt (u32 p ++ (u16 m ++ r)) 0 4 = p := by uat
  have h4 : uAt (u32 p ++ (u16 m ++ r)) 4 2 = m := by uat
  have hl : (u32 p ++ (u16 m ++ r)).length = 12 := by simp [u32_length, u16_length, hr]
  unfold outputAct2str
  rw [if_neg (by simp [hl])]
  dsimp only
  rw [h0, h4]
  by_cases c : (p == 0xfffffffd && m != 0xffff) = true
  · have c' : (p == OFPP_CONTROLLER && m != OFPCML_NO_BUFFER) = true := c
    rw [if_pos c, if_pos c']
  · have c' : ¬ (p == OFPP_CONTROLLER && m != OFPCML_NO_BUFFER) = true := c
    rw [if_neg c, if_neg c']

theorem nameOrD_portName (p : Nat) : nameOrD ofpp p = portName 4 p := by
  have hof : ofpp = reservedPorts := by decide
  have hlow : ∀ e ∈ reservedPorts, e.1 % 256 ^ 4 = e.1 := by decide
  have hinj : ∀ e ∈ reservedPorts, ∀ e' ∈ reservedPorts, e.1 = e'.1 → e = e' := by decide
  unfold nameOrD
  rw [hof]
  cases hf : reservedPorts.find? (fun e => e.1 == p) with
  | some e =>
    have he := List.mem_of_find?_eq_some hf
    have h1 : e.1 = p := by simpa using List.find?_some hf
    rcases portName_cases 4 p with ⟨e', h2, h3, h4⟩ | ⟨h2, _⟩
    · rw [h4, hinj e he e' h2 (by rw [h1, ← h3, hlow e' h2])]
    · exact absurd (by rw [hlow e he, h1]) (h2 e he)
  | none =>
    rcases portName_cases 4 p with ⟨e', h2, h3, h4⟩ | ⟨_, h2⟩
    · exact absurd (by rw [← h3, hlow e' h2]; simp) (List.find?_eq_none.1 hf e' h2)
    · exact h2.symm

theorem beVal_u32 (p : Nat) (hp : p < 2 ^ 32) : beVal (u32 p) = p := by
  have h := uAt_u32_here p [] (by omega)
  rwa [List.append_nil, uAt_self _ _ (u32_length p)] at h

theorem std_shown {t : Nat} {p : Bytes} {s : Str} (h : StdText t p s) :
    ∃ d, lookupActDec (.std t) = some d ∧ runActDec d p = .ok s := by
  cases h with
  | output q m r s h1 h2 h3 h4 h5 =>
    refine ⟨.output, rfl, ?_⟩
    show outputAct2str _ = _
    obtain ⟨_, g⟩ := (portShown_iff 4 (Or.inr rfl) _ _).1 h5
    rw [output_eq q m r h1 h2 h3, if_neg, nameOrD_portName q, g, beVal_u32 q h1]
    simp only [Bool.and_eq_true, beq_iff_eq, bne_iff_ne]
    omega
  | controller m r s h1 h2 h3 =>
    refine ⟨.output, rfl, ?_⟩
    show outputAct2str _ = _
    rw [output_eq _ m r (by omega) (by omega) h2, if_pos, (hexShown_iff _ _ _).1 h3]
    · rfl
    · simp only [Bool.and_eq_true, beq_iff_eq, bne_iff_ne]
      exact ⟨trivial, by omega⟩
  | plain a h1 h2 =>
    refine ⟨_, std_dec a h1, ?_⟩
    rw [h2]
    rfl
  | ttl a n r s h1 h2 h3 h4 =>
    refine ⟨_, std_dec a h1, ?_⟩
    rw [h2]
    show uintAct2str _ _ _ _ = _
    unfold uintAct2str
    rw [need_ok, ok_bind, decimal_eq h4]
    · simp [uAt, slice, beVal]
    · simp only [List.length_cons]
      split
      · rename_i hc; have := h3 hc; omega
      · omega
  | word a n r s h1 h2 h3 h4 =>
    refine ⟨_, std_dec a h1, ?_⟩
    rw [h2]
    show uintAct2str _ _ _ _ = _
    unfold uintAct2str
    rw [need_ok _ _ _ (by simp [u32_length]), ok_bind, decimal_eq h4, uAt_u32_here _ _ (by omega)]
  | ether a n r s h1 h2 h3 h4 =>
    refine ⟨_, std_dec a h1, ?_⟩
    rw [h2]
    show pushAct2str _ _ = _
    unfold pushAct2str
    rw [need_ok _ _ _ (by simp [u16_length]), ok_bind, (hexShown_iff _ _ _).1 h4, uAt_u16_here _ _ h3]

theorem std_fails {t : Nat} {p : Bytes} {e : Err} (h : StdFails t p e) :
    ∃ d, lookupActDec (.std t) = some d ∧ runActDec d p = .error e := by
  cases h with
  | output _ h1 =>
    refine ⟨.output, rfl, ?_⟩
    show outputAct2str _ = _
    unfold outputAct2str
    rw [if_pos (by simpa using h1)]
  | plain a _ h1 h2 h3 =>
    refine ⟨_, std_dec a h1, ?_⟩
    rw [h2]
    show genericAct2str _ _ = _
    unfold genericAct2str
    rw [assert_false (by rw [beq_eq_false_iff_ne]; exact h3), err_bind]
  | ttl a _ h1 h2 h3 =>
    refine ⟨_, std_dec a h1, ?_⟩
    rw [h2]
    show uintAct2str _ _ _ _ = _
    unfold uintAct2str
    rw [need_err, err_bind]
    split at h3 <;> rename_i hc
    · rw [if_pos hc]; omega
    · rw [if_neg hc]; omega
  | word a _ h1 h2 h3 =>
    refine ⟨_, std_dec a h1, ?_⟩
    rw [h2]
    show uintAct2str _ _ _ _ = _
    unfold uintAct2str
    rw [need_err _ _ _ (by omega), err_bind]
  | ether a _ h1 h2 h3 =>
    refine ⟨_, std_dec a h1, ?_⟩
    rw [h2]
    show pushAct2str _ _ = _
    unfold pushAct2str
    rw [need_err _ _ _ (by omega), err_bind]

theorem std_all (t : Nat) (p : Bytes) (ht : t = 0 ∨ ∃ a ∈ stdActs, a.type = t) :
    (∃ s, StdText t p s) ∨ ∃ e, StdFails t p e := by
  rcases ht with rfl | ⟨a, ha, rfl⟩
  · by_cases hl : p.length = 12
    · left
      obtain ⟨q, r, hq, rfl⟩ := cut32 p (by omega)
      rw [List.length_append, u32_length] at hl
      obtain ⟨m, r, hm, rfl⟩ := cut16 r (by omega)
      rw [List.length_append, u16_length] at hl
      by_cases hc : q ≠ 0xfffffffd ∨ m = 0xffff
      · exact ⟨_, .output q m r _ hq hm (by omega) hc ((portShown_iff 4 (Or.inr rfl) _ _).2 ⟨u32_length q, rfl⟩)⟩
      · have : q = 0xfffffffd := by omega
        subst this
        exact ⟨_, .controller m r _ (by omega) (by omega) ((hexShown_iff _ _ _).2 rfl)⟩
    · exact Or.inr ⟨_, .output p hl⟩
  · cases harg : a.arg with
    | none =>
      by_cases h : p = pad 4
      · subst h; exact Or.inl ⟨_, .plain a ha harg⟩
      · exact Or.inr ⟨_, .plain a p ha harg h⟩
    | ttl =>
      by_cases h : p.length < (if a.type = 15 then 4 else 1)
      · exact Or.inr ⟨_, .ttl a p ha harg h⟩
      · have h1 : 1 ≤ p.length := by split at h <;> omega
        obtain ⟨y, r, rfl⟩ := cut_byte p h1
        refine Or.inl ⟨_, .ttl a y r _ ha harg ?_ (decimal_fmtD _)⟩
        intro hc
        rw [if_pos hc, List.length_cons] at h
        omega
    | word =>
      by_cases h : p.length < 4
      · exact Or.inr ⟨_, .word a p ha harg h⟩
      · obtain ⟨n, r, hn, rfl⟩ := cut32 p (by omega)
        exact Or.inl ⟨_, .word a n r _ ha harg hn (decimal_fmtD _)⟩
    | ether =>
      by_cases h : p.length < 2
      · exact Or.inr ⟨_, .ether a p ha harg h⟩
      · obtain ⟨n, r, hn, rfl⟩ := cut16 p (by omega)
        exact Or.inl ⟨_, .ether a n r _ ha harg hn ((hexShown_iff _ _ _).2 rfl)⟩

end Ofpstr
