import Verif.Spec.MatchPrint
import Verif.Lemmas.FieldText
import Verif.Lemmas.TripField
import Verif.Lemmas.ValueList

/-!
# Printed numbers, byte strings and addresses

The relations of `Spec/MatchPrint.lean` determine the text, and it is the one the printers of the model give.
-/

namespace Ofpstr
open Spec

set_option linter.unusedSimpArgs false

theorem lower_digit : ∀ c ∈ t!"0123456789abcdef", digitChar ((digitVal c).getD 0) = c := by decide
theorem lower_digitChar : ∀ d, d < 16 → digitChar d ∈ t!"0123456789abcdef" := by decide
theorem zero_digit : ∀ c ∈ t!"0123456789abcdef", (digitVal c).getD 0 = 0 → c = '0' := by decide

theorem split_zeros (l : List Nat) : ∃ j es, l = List.replicate j 0 ++ es ∧ es.head? ≠ some 0 := by
  induction l with
  | nil => exact ⟨0, [], rfl, by simp⟩
  | cons d l ih =>
    by_cases hd : d = 0
    · obtain ⟨j, es, h1, h2⟩ := ih
      exact ⟨j + 1, es, by rw [h1, hd, List.replicate_succ]; rfl, h2⟩
    · exact ⟨0, d :: l, rfl, by simpa using hd⟩

theorem lowerHex_eq {k : Nat} {s : Str} {n : Nat} (h : LowerHex k s n) : s = fmtHexRaw k n := by
  obtain ⟨hn, hlow, hk, hz⟩ := h
  obtain ⟨h1, h2, h3⟩ := (numeral_iff 16 (by omega) _ _).1 hn
  obtain ⟨j, es, hje, hes⟩ := split_zeros (s.map fun c => (digitVal c).getD 0)
  have hs : s = (s.map fun c => (digitVal c).getD 0).map digitChar := by
    rw [List.map_map]
    conv => lhs; rw [← List.map_id s]
    apply List.map_congr_left
    intro c hc
    exact (lower_digit c (hlow c hc)).symm
  have hlen : s.length = j + es.length := by
    have := congrArg List.length hje
    simpa using this
  have hlt : ∀ d ∈ s.map (fun c => (digitVal c).getD 0), d < 16 := by
    intro d hd
    obtain ⟨c, hc, rfl⟩ := List.mem_map.1 hd
    obtain ⟨e, he⟩ := h2 c hc
    have := (digit_iff 16 (by omega) c e).1 he
    rw [this.1]; exact this.2
  have hd0 : digitChar 0 = '0' := by decide
  have hhead : 0 < j → s.length ≤ max k 1 := by
    intro hj
    obtain ⟨i, rfl⟩ : ∃ i, j = i + 1 := ⟨j - 1, by omega⟩
    rw [hs, hje, List.replicate_succ, List.cons_append, List.map_cons, hd0] at hz
    rw [hs, hje, List.replicate_succ, List.cons_append, List.map_cons, hd0]
    exact hz _ rfl
  have hval : ofDigits 16 es = n := by
    rw [← h3, hje, ofDigits_replicate_zero]
  obtain ⟨g1, g2, g3, g4, g5⟩ := digitsOf_spec 16 n (by omega)
  rw [hje] at hlt hs
  by_cases hn0 : n = 0
  · have he : es = [] := by
      rcases es with _ | ⟨d, es⟩
      · rfl
      · have := ofDigits_pos 16 (by omega) (d :: es) (by simp) hes
        omega
    subst he
    have hj : 0 < j := by
      rcases Nat.eq_zero_or_pos j with h | h
      · rw [h] at hlen
        simp at hlen
        exact absurd hlen h1
      · exact h
    have := hhead hj
    rw [hs]
    unfold fmtHexRaw
    rw [g4 hn0]
    simp only [List.append_nil, List.map_replicate, List.map_cons, List.map_nil, List.length_cons,
      List.length_nil, hd0]
    have hj2 : j = (k - 1) + 1 := by simp at hlen; omega
    rw [hj2, List.replicate_succ']
  · have he : es = digitsOf 16 n :=
      ofDigits_inj 16 _ _ _ (Nat.le_refl _) (fun d hd => hlt d (by simp [hd])) g2 hes (g5 hn0)
        (by rw [hval, g3])
    rw [hs]
    unfold fmtHexRaw
    dsimp only
    rw [List.map_append, List.map_replicate, hd0, ← he, List.length_map]
    congr 2
    rcases Nat.eq_zero_or_pos j with h | h
    · omega
    · have := hhead h
      have : 0 < es.length := by rw [he]; exact List.length_pos_iff.2 g1
      omega

theorem lowerHex_fmt (k n : Nat) : LowerHex k (fmtHexRaw k n) n := by
  obtain ⟨g1, g2, g3, g4, g5⟩ := digitsOf_spec 16 n (by omega)
  refine ⟨(numeral_iff 16 (by omega) _ _).2 ⟨fmtHexRaw_ne_nil k n, ?_, ?_⟩, ?_, ?_, ?_⟩
  · intro c hc
    exact (isHex_iff c).1 (fmtHexRaw_isHex k n c hc)
  · have := intOfDigits_fmtHexRaw k n
    unfold intOfDigits at this
    split at this
    · cases this
    · exact Except.ok.inj this
  · intro c hc
    simp only [fmtHexRaw, List.mem_append, List.mem_replicate, List.mem_map] at hc
    rcases hc with ⟨_, rfl⟩ | ⟨d, hd, rfl⟩
    · decide
    · exact lower_digitChar d (g2 d hd)
  · simp [fmtHexRaw]; omega
  · intro t ht
    unfold fmtHexRaw at ht ⊢
    dsimp only at ht ⊢
    simp only [List.length_append, List.length_replicate, List.length_map] at ht ⊢
    by_cases hk : (digitsOf 16 n).length < k
    · omega
    · rw [Nat.sub_eq_zero_of_le (by omega)] at ht ⊢
      by_cases hn : n = 0
      · rw [g4 hn] at hk ⊢
        simp at hk ⊢
      · exfalso
        cases hd : digitsOf 16 n with
        | nil => exact g1 hd
        | cons d ds =>
          rw [hd] at ht
          simp only [List.replicate_zero, List.nil_append, List.map_cons, List.cons.injEq] at ht
          refine digitChar_ne_zero d (g2 d (by simp [hd])) ?_ ht.1
          intro h0
          have := g5 hn
          rw [hd, h0] at this
          exact this rfl

theorem lowerHex_iff (k : Nat) (s : Str) (n : Nat) : LowerHex k s n ↔ s = fmtHexRaw k n :=
  ⟨lowerHex_eq, fun h => h ▸ lowerHex_fmt k n⟩

/-- The conversion of the model for a style. -/
def styleFmt : NumStyle → IFmt
  | .dec => .dec
  | .hex w => .hex w

theorem numShown_iff (st : NumStyle) (s : Str) (n : Nat) : NumShown st s n ↔ s = fmtI (styleFmt st) n := by
  constructor
  · intro h
    cases h with
    | dec _ _ h => exact decimal_eq h
    | hex w s _ h => rw [lowerHex_eq h]; rfl
  · rintro rfl
    cases st with
    | dec => exact .dec _ _ (decimal_fmtD n)
    | hex w => exact .hex w _ _ (lowerHex_fmt _ n)

theorem numText_be (st : NumStyle) (s : Str) (p : Bytes) :
    NumText be st s p ↔ s = fmtI (styleFmt st) (beVal p) := by
  constructor
  · rintro ⟨v, h1, h2, h3⟩
    rw [(numShown_iff _ _ _).1 h1]
    congr 1
    conv => rhs; rw [h3]
    exact (beVal_be _ _ h2).symm
  · rintro rfl
    exact ⟨beVal p, (numShown_iff _ _ _).2 rfl, beVal_lt p, by rw [spec_be, beBytes_beVal]⟩

theorem leVal_le (k n : Nat) (h : n < 256 ^ k) : leVal (le k n) = n := by
  rw [spec_le, leVal_leBytes, Nat.mod_eq_of_lt h]

theorem numText_le (st : NumStyle) (s : Str) (p : Bytes) :
    NumText le st s p ↔ s = fmtI (styleFmt st) (leVal p) := by
  constructor
  · rintro ⟨v, h1, h2, h3⟩
    rw [(numShown_iff _ _ _).1 h1]
    congr 1
    conv => rhs; rw [h3]
    exact (leVal_le _ _ h2).symm
  · rintro rfl
    exact ⟨leVal p, (numShown_iff _ _ _).2 rfl, leVal_lt p, by rw [spec_le, leBytes_leVal]⟩

/-! ## Byte strings -/

theorem lowerPairs_iff (s : Str) (b : Bytes) : LowerPairs s b ↔ s = b2aHex b := by
  constructor
  · rintro ⟨h, hl⟩
    induction h with
    | nil => rfl
    | cons x y i j s b hx hy _ ih =>
      have ex := (digit_iff 16 (by omega) x i).1 hx
      have ey := (digit_iff 16 (by omega) y j).1 hy
      have lx := lower_digit x (hl x (by simp))
      have ly := lower_digit y (hl y (by simp))
      rw [ex.1] at lx
      rw [ey.1] at ly
      simp only [Option.getD_some] at lx ly
      rw [ih (fun c hc => hl c (by simp [hc]))]
      have h1 : (UInt8.ofNat (16 * i + j)).toNat = 16 * i + j := by
        simp; omega
      simp only [b2aHex, List.flatMap_cons, hex2, h1]
      rw [show (16 * i + j) / 16 = i by omega, show (16 * i + j) % 16 = j by omega, lx, ly]
      rfl
  · rintro rfl
    refine ⟨a2b_hexText _ _ (a2bHex_b2aHex _), ?_⟩
    intro c hc
    simp only [b2aHex, List.mem_flatMap, hex2] at hc
    obtain ⟨x, _, hx⟩ := hc
    have := x.toNat_lt
    simp only [List.mem_cons, List.not_mem_nil, or_false] at hx
    rcases hx with rfl | rfl <;> apply lower_digitChar <;> omega

theorem b2aHex_inj {a b : Bytes} (h : b2aHex a = b2aHex b) : a = b := by
  have h1 := a2bHex_b2aHex a
  rw [h, a2bHex_b2aHex b] at h1
  exact (Except.ok.inj h1).symm

theorem macShown_iff (s : Str) (b : Bytes) : MacShown s b ↔ b.length = 6 ∧ s = macText b := by
  constructor
  · intro h
    cases h with
    | mk x1 y1 x2 y2 x3 y3 x4 y4 x5 y5 x6 y6 _ h =>
      have h' := (lowerPairs_iff _ _).1 h
      have hl : b.length = 6 := by
        have := congrArg List.length h'
        simp [b2aHex, hex2] at this
        omega
      refine ⟨hl, ?_⟩
      match b, hl with
      | [a1, a2, a3, a4, a5, a6], _ =>
        simp only [b2aHex, List.flatMap_cons, List.flatMap_nil, hex2, List.cons_append, List.nil_append,
          List.cons.injEq, and_true] at h'
        obtain ⟨rfl, rfl, rfl, rfl, rfl, rfl, rfl, rfl, rfl, rfl, rfl, rfl⟩ := h'
        rfl
  · rintro ⟨hl, rfl⟩
    match b, hl with
    | [a1, a2, a3, a4, a5, a6], _ =>
      exact MacShown.mk _ _ _ _ _ _ _ _ _ _ _ _ _ ((lowerPairs_iff _ _).2 rfl)

theorem quadShown_iff (s : Str) (b : Bytes) : DottedQuad s b ↔ b.length = 4 ∧ s = dotted b :=
  ⟨fun h => ⟨(quad_dotted h).2, (quad_dotted h).1⟩, fun ⟨h1, h2⟩ => h2 ▸ quad_exists b h1⟩

theorem reserved_apart (n : Nat) (hn : n = 2 ∨ n = 4) : ∀ e ∈ reservedPorts, ∀ e' ∈ reservedPorts,
    e.1 % 256 ^ n = e'.1 % 256 ^ n → e.2 = e'.2 := by
  rcases hn with rfl | rfl <;> decide +kernel

theorem portShown_iff (n : Nat) (hn : n = 2 ∨ n = 4) (s : Str) (b : Bytes) :
    PortShown n s b ↔ b.length = n ∧ s = portName n (beVal b) := by
  constructor
  · intro h
    cases h with
    | name k s h =>
      refine ⟨by rw [spec_be, beBytes_length], ?_⟩
      rw [beVal_be _ _ (Nat.mod_lt _ (Nat.pow_pos (by omega)))]
      rcases portName_cases n (k % 256 ^ n) with ⟨e, he, h1, h2⟩ | ⟨h1, h2⟩
      · rw [h2]
        exact reserved_apart n hn _ h _ he h1.symm
      · exact absurd rfl (h1 _ h)
    | num v s h1 h2 h3 =>
      refine ⟨by rw [spec_be, beBytes_length], ?_⟩
      rw [beVal_be _ _ h1]
      rcases portName_cases n v with ⟨e, he, h4, h5⟩ | ⟨_, h5⟩
      · exact absurd h4 (h2 e he)
      · rw [h5, decimal_eq h3]
  · rintro ⟨rfl, rfl⟩
    have hb : be b.length (beVal b) = b := by rw [spec_be, beBytes_beVal]
    rcases portName_cases b.length (beVal b) with ⟨e, he, h4, h5⟩ | ⟨h4, h5⟩
    · have := PortShown.name (n := b.length) e.1 e.2 he
      rw [h4, hb] at this
      rw [h5]; exact this
    · have := PortShown.num (n := b.length) _ _ (beVal_lt b) h4 (decimal_fmtD _)
      rw [hb] at this
      rw [h5]; exact this

theorem be2_take (v : Nat) (x : Bytes) : (be 2 v ++ x).take 2 = be 2 v ∧ (be 2 v ++ x).drop 2 = x := by
  have : (be 2 v).length = 2 := by rw [spec_be, beBytes_length]
  exact ⟨List.take_left' this, List.drop_left' this⟩

theorem twoShown_iff (st st' : NumStyle) (s : Str) (b : Bytes) : TwoShown st st' s b ↔ b.length = 4 ∧
    s = fmtI (styleFmt st) (uAt b 0 2) ++ ':' :: fmtI (styleFmt st') (uAt b 2 2) := by
  constructor
  · intro h
    cases h with
    | mk s v t w h1 h2 h3 h4 =>
      have hl : ∀ v, (be 2 v).length = 2 := fun v => by rw [spec_be, beBytes_length]
      refine ⟨by rw [List.length_append, hl, hl], ?_⟩
      have e1 : uAt (be 2 v ++ be 2 w) 0 2 = v := by
        show beVal (((be 2 v ++ be 2 w).take 2).drop 0) = v
        rw [(be2_take v _).1, List.drop_zero, beVal_be _ _ h3]
      have e2 : uAt (be 2 v ++ be 2 w) 2 2 = w := by
        show beVal (((be 2 v ++ be 2 w).take 4).drop 2) = w
        rw [List.take_of_length_le (by rw [List.length_append, hl, hl]), (be2_take v _).2, beVal_be _ _ h4]
      rw [e1, e2, (numShown_iff _ _ _).1 h1, (numShown_iff _ _ _).1 h2]
  · rintro ⟨hl, rfl⟩
    have := TwoShown.mk (st := st) (st' := st') _ (uAt b 0 2) _ (uAt b 2 2) ((numShown_iff _ _ _).2 rfl)
      ((numShown_iff _ _ _).2 rfl) (uAt_lt b 0 2) (uAt_lt b 2 2)
    rw [spec_be, spec_be, beBytes_uAt _ _ _ (by omega), beBytes_uAt _ _ _ (by omega)] at this
    rw [slice_join b 0 2 4 (by omega) (by omega)] at this
    have e : slice b 0 4 = b := by
      show (b.take 4).drop 0 = b
      rw [List.drop_zero, List.take_of_length_le (by omega)]
    rw [e] at this
    exact this

theorem take2_zero (p : Bytes) (h : p.length = 4) : p.take 2 = [0, 0] ↔ uAt p 0 2 = 0 := by
  match p, h with
  | [a, b, c, d], _ =>
    have ha := a.toNat_lt
    have hb := b.toNat_lt
    have : uAt [a, b, c, d] 0 2 = 256 * a.toNat + b.toNat := by
      simp [uAt, slice, beVal]
      omega
    rw [this]
    simp only [List.take_succ_cons, List.take_zero, List.cons.injEq, and_true, ← UInt8.toNat_inj]
    simp

/-- What `chBin2str` prints of the mask. -/
theorem channelMask_iff (s : Str) (b : Bytes) : ChannelMaskShown s b ↔ b.length = 4 ∧
    s = chMaskText (uAt b 0 2) ++ ':' :: fmtX 6 (uAt b 2 2) := by
  constructor
  · intro h
    cases h with
    | zero t w h1 h2 =>
      have := (twoShown_iff .dec (.hex 6) (fmtD 0 ++ ':' :: t) (be 2 0 ++ be 2 w)).1
        (TwoShown.mk _ _ _ _ (NumShown.dec _ _ (decimal_fmtD 0)) h1 (by omega) h2)
      obtain ⟨g1, g2⟩ := this
      have e1 : uAt (be 2 0 ++ be 2 w) 0 2 = 0 := (take2_zero _ g1).1 (be2_take 0 _).1
      rw [e1] at g2
      have g3 := List.append_cancel_left g2
      refine ⟨g1, ?_⟩
      rw [e1, g3]
      rfl
    | both s p h hn =>
      obtain ⟨g1, g2⟩ := (twoShown_iff _ _ _ _).1 h
      refine ⟨g1, ?_⟩
      rw [chMaskText, if_neg (fun h => hn ((take2_zero _ g1).2 h))]
      exact g2
  · rintro ⟨hl, rfl⟩
    by_cases hz : uAt b 0 2 = 0
    · rw [chMaskText, if_pos hz]
      have := ChannelMaskShown.zero (fmtX 6 (uAt b 2 2)) _ ((numShown_iff (.hex 6) _ _).2 rfl) (uAt_lt b 2 2)
      have e : be 2 0 ++ be 2 (uAt b 2 2) = b := by
        rw [← hz, spec_be, spec_be, beBytes_uAt _ _ _ (by omega), beBytes_uAt _ _ _ (by omega),
          slice_join b 0 2 4 (by omega) (by omega)]
        show (b.take 4).drop 0 = b
        rw [List.drop_zero, List.take_of_length_le (by omega)]
      rw [e] at this
      exact this
    · refine ChannelMaskShown.both _ _ ((twoShown_iff _ _ _ _).2 ⟨hl, ?_⟩) (fun h => hz ((take2_zero _ hl).1 h))
      rw [chMaskText, if_neg hz]
      rfl

/-! ## Rates, signed bytes -/

/-- What `rateBin2str` prints. -/
def rateText (n : Nat) : Str :=
  if n < 2 then fmtD (n * 500) ++ t!".0K" else fmtD (n / 2) ++ (if n % 2 == 1 then t!".5M" else t!".0M")

theorem rateShown_iff (s : Str) (n : Nat) : RateShown s n ↔ s = rateText n := by
  constructor
  · intro h
    cases h with
    | zero => decide +kernel
    | one => decide +kernel
    | even s n h1 h2 =>
      rw [rateText, if_neg (by omega), decimal_eq h2, show 2 * n / 2 = n by omega]
      rw [if_neg (by simp)]
    | odd s n h1 h2 =>
      rw [rateText, if_neg (by omega), decimal_eq h2, show (2 * n + 1) / 2 = n by omega]
      rw [if_pos (by simp)]
  · rintro rfl
    rw [rateText]
    split
    · rename_i h
      match n, h with
      | 0, _ => exact (show fmtD (0 * 500) ++ t!".0K" = t!"0.0K" by decide +kernel) ▸ .zero
      | 1, _ => exact (show fmtD (1 * 500) ++ t!".0K" = t!"500.0K" by decide +kernel) ▸ .one
    · rename_i h
      split
      · rename_i hm
        have := RateShown.odd _ (n / 2) (by omega) (decimal_fmtD _)
        rwa [show 2 * (n / 2) + 1 = n by simp at hm; omega] at this
      · rename_i hm
        have := RateShown.even _ (n / 2) (by omega) (decimal_fmtD _)
        rwa [show 2 * (n / 2) = n by simp at hm; omega] at this

theorem signedShown_iff (s : Str) (x : UInt8) : SignedShown s x ↔ s = fmtInt (s8Val x) := by
  have hx := x.toNat_lt
  have e : fmtInt (s8Val x) = if x.toNat < 128 then fmtD x.toNat else '-' :: fmtD (256 - x.toNat) := by
    unfold fmtInt s8Val
    split
    · rw [if_neg (by omega)]
      rfl
    · rw [if_pos (by omega), show ((x.toNat : Int) - 256).natAbs = 256 - x.toNat by omega]
  rw [e]
  constructor
  · intro h
    cases h with
    | pos _ _ h1 h2 => rw [if_pos h1, decimal_eq h2]
    | neg _ _ h1 h2 => rw [if_neg (by omega), decimal_eq h2]
  · rintro rfl
    split
    · exact .pos _ _ (by assumption) (decimal_fmtD _)
    · exact .neg _ _ (by omega) (decimal_fmtD _)

/-! ## Parts -/

theorem partShown_iff (st : NumStyle) (s : Str) (v : Nat) :
    PartShown st s v ↔ s = if v == 0 then [] else fmtI (styleFmt st) v := by
  unfold PartShown
  rw [numShown_iff]
  by_cases hv : v = 0
  · simp [hv]
  · simp [hv]

/-- The text of the parts of a body, in the model. -/
def partsText (l : List (Nat × NumStyle)) (b : Bytes) : Str :=
  joinStr t!":" ((List.zip (unpackSizesLE (l.map (·.1)) b) (l.map fun e => styleFmt e.2)).map fun (n, f) =>
    if n == 0 then [] else fmtI f n)

theorem partsText_one (n : Nat) (st : NumStyle) (b : Bytes) :
    partsText [(n, st)] b = if leVal (b.take n) == 0 then [] else fmtI (styleFmt st) (leVal (b.take n)) := rfl

theorem partsText_cons (n : Nat) (st : NumStyle) (e : Nat × NumStyle) (l : List (Nat × NumStyle)) (b : Bytes) :
    partsText ((n, st) :: e :: l) b =
      (if leVal (b.take n) == 0 then [] else fmtI (styleFmt st) (leVal (b.take n))) ++
        ':' :: partsText (e :: l) (b.drop n) := by
  show joinStr t!":" (_ :: _ :: _) = _
  rw [joinStr]
  simp only [List.append_assoc]
  rfl

theorem partsShown_sound {l : List (Nat × NumStyle)} {s : Str} {p : Bytes} (h : PartsShown l s p) :
    p.length = (l.map (·.1)).sum ∧ l ≠ [] ∧ ∀ r, s = partsText l (p ++ r) := by
  have hll : ∀ n v, (le n v).length = n := fun n v => by rw [spec_le, leBytes_length]
  induction h with
  | one n st s v h1 h2 =>
    refine ⟨by simp [hll], by simp, fun r => ?_⟩
    rw [partsText_one, List.take_left' (hll n v), leVal_le _ _ h2]
    exact (partShown_iff _ _ _).1 h1
  | cons n st s v l t p h1 h2 _ ih =>
    obtain ⟨g1, g2, g3⟩ := ih
    refine ⟨by simp [hll, g1], by simp, fun r => ?_⟩
    match l, g2 with
    | e :: l, _ =>
      rw [partsText_cons, List.append_assoc, List.take_left' (hll n v), List.drop_left' (hll n v), leVal_le _ _ h2,
        ← g3 r, ← (partShown_iff _ _ _).1 h1]

theorem partsShown_of (l : List (Nat × NumStyle)) (hl : l ≠ []) (b : Bytes) (h : (l.map (·.1)).sum ≤ b.length) :
    PartsShown l (partsText l b) (b.take (l.map (·.1)).sum) := by
  induction l generalizing b with
  | nil => exact absurd rfl hl
  | cons e l ih =>
    obtain ⟨n, st⟩ := e
    have hn : n ≤ b.length := by simp at h; omega
    have hle : le n (leVal (b.take n)) = b.take n := by
      rw [spec_le]
      exact leBytes_leVal' n _ (by simp; omega)
    have hlt : leVal (b.take n) < 256 ^ n := by
      have := leVal_lt (b.take n)
      rwa [List.length_take, Nat.min_eq_left hn] at this
    cases l with
    | nil =>
      have := PartsShown.one n st _ _ ((partShown_iff st _ _).2 rfl) hlt
      rw [hle] at this
      simpa [partsText_one] using this
    | cons e l =>
      have := PartsShown.cons n st _ _ _ _ _ ((partShown_iff st _ _).2 rfl) hlt
        (ih (by simp) (b.drop n) (by simp at h ⊢; omega))
      rw [hle] at this
      rw [partsText_cons]
      have e2 : b.take n ++ (b.drop n).take (((e :: l).map (·.1)).sum) =
          b.take (((n, st) :: e :: l).map (·.1)).sum := by
        show _ = b.take (n + ((e :: l).map (·.1)).sum)
        rw [List.take_add]
      rw [← e2]
      exact this

end Ofpstr
