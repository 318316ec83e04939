import Verif.Lemmas.ValueList

/-!
# Exactly which texts are values: data rates and MAC addresses
-/

set_option linter.unusedSimpArgs false

namespace Ofpstr
open Spec

theorem numeral_dec {s : Str} {n : Nat} (h : Numeral 10 s n) : s ≠ [] ∧ ∀ c ∈ s, isDec c = true := by
  obtain ⟨h1, h2, _⟩ := (numeral_iff 10 (by omega) _ _).1 h
  exact ⟨h1, fun c hc => (isDec_iff c).2 (h2 c hc)⟩

theorem digits_numeral {s : Str} {n : Nat} (hs : ∀ c ∈ s, isDec c = true) :
    intOfDigits 10 s = .ok n ↔ Numeral 10 s n :=
  intOfDigits_numeral 10 (by omega) s (fun c hc => (isDec_iff c).1 (hs c hc)) n

/-- The part of `parseFloat` after the sign. -/
def floatGo (u : Str) : Py ((Nat × Nat) × Nat) := do
  let l := longest isDec u
  let n ← intOfDigits 10 (u.take l)
  if startsWith (u.drop l) t!"." then
    let l2 := longest isDec (u.drop (l + 1))
    let f ← intOfDigits 10 (slice u (l + 1) (l + l2 + 1))
    .ok ((n * 10 ^ l2 + f, 10 ^ l2), l + (l2 + 1))
  else .ok ((n, 1), l)

theorem parseFloat_eq (u : Str) : parseFloat u = floatGo (if startsWith u t!"-" then u.drop 1 else u) := rfl

theorem slice_part (a b r : Str) (c : Char) :
    slice (a ++ c :: (b ++ r)) (a.length + 1) (a.length + b.length + 1) = b := by
  unfold slice
  have e : a ++ c :: (b ++ r) = (a ++ c :: b) ++ r := by simp
  have hl : a.length + b.length + 1 = (a ++ c :: b).length := by simp; omega
  rw [e, hl, List.take_left, drop_sep]

theorem floatGo_take {u : Str} {n d l : Nat} (h : floatGo u = .ok ((n, d), l)) :
    ∃ a r, u = a ++ r ∧ a.length = l ∧ Fraction a n d := by
  unfold floatGo at h
  dsimp only at h
  obtain ⟨e1, e2, _⟩ := longest_split isDec u
  generalize hl : longest isDec u = k at *
  obtain ⟨x, h1, h⟩ := bind_ok h
  have hk : (u.take k).length = k := by
    rw [List.length_take]
    have : k ≤ u.length := by
      rw [← hl]; unfold longest
      exact (List.takeWhile_prefix isDec).length_le
    omega
  have hn := (digits_numeral e2).1 h1
  split at h
  · rename_i hs
    obtain ⟨t, ht⟩ := (startsWith_one _ _).1 hs
    have ht' : u.drop (k + 1) = t := by rw [← List.drop_drop, ht]; rfl
    rw [ht'] at h
    obtain ⟨e3, e4, _⟩ := longest_split isDec t
    generalize hl2 : longest isDec t = k2 at *
    obtain ⟨f, h2, h⟩ := bind_ok h
    have hk2 : (t.take k2).length = k2 := by
      rw [List.length_take]
      have : k2 ≤ t.length := by
        rw [← hl2]; unfold longest
        exact (List.takeWhile_prefix isDec).length_le
      omega
    have hu : u = u.take k ++ '.' :: (t.take k2 ++ t.drop k2) := by
      rw [← e3, ← ht]; exact e1
    have hsl : slice u (k + 1) (k + k2 + 1) = t.take k2 := by
      have := slice_part (u.take k) (t.take k2) (t.drop k2) '.'
      rw [hk, hk2, ← hu] at this
      exact this
    rw [hsl] at h2
    have hf := (digits_numeral e4).1 h2
    simp only [Except.ok.injEq, Prod.mk.injEq] at h
    obtain ⟨⟨rfl, rfl⟩, rfl⟩ := h
    have := Fraction.point (u.take k) x (t.take k2) f hn hf
    rw [hk2] at this
    refine ⟨u.take k ++ '.' :: t.take k2, t.drop k2, ?_, by simp [hk, hk2], this⟩
    conv => lhs; rw [hu]
    simp
  · simp only [Except.ok.injEq, Prod.mk.injEq] at h
    obtain ⟨⟨rfl, rfl⟩, rfl⟩ := h
    exact ⟨u.take k, u.drop k, e1, hk, .whole _ _ hn⟩

theorem floatGo_mk {a : Str} {n d : Nat} (h : Fraction a n d) (c : Char) (t : Str) (hc : isDec c = false)
    (hd : c ≠ '.') : floatGo (a ++ c :: t) = .ok ((n, d), a.length) := by
  unfold floatGo
  dsimp only
  cases h with
  | whole _ _ h =>
    obtain ⟨_, h2⟩ := numeral_dec h
    rw [longest_append isDec a (c :: t) h2 (noStart_cons hc t), List.take_left, (digits_numeral h2).2 h, ok_bind,
      List.drop_left, if_neg]
    intro hs
    obtain ⟨t', ht'⟩ := (startsWith_one _ _).1 hs
    cases ht'
    exact hd rfl
  | point s n t' m h h' =>
    obtain ⟨_, h2⟩ := numeral_dec h
    obtain ⟨_, h3⟩ := numeral_dec h'
    have e : (s ++ '.' :: t') ++ c :: t = s ++ '.' :: (t' ++ c :: t) := by simp
    rw [e, longest_append isDec s _ h2 (noStart_cons (by decide) _), List.take_left, (digits_numeral h2).2 h, ok_bind,
      List.drop_left, if_pos ((startsWith_one _ _).2 ⟨_, rfl⟩), drop_sep,
      longest_append isDec t' (c :: t) h3 (noStart_cons hc t), slice_part, (digits_numeral h3).2 h', ok_bind]
    simp

/-- A fraction ends in a digit, and does not start with a sign. -/
theorem fraction_facts {a : Str} {n d : Nat} (h : Fraction a n d) : (∃ s c, a = s ++ [c] ∧ isDec c = true) ∧
    (∃ c t, a = c :: t ∧ isDec c = true) ∧ 0 < d := by
  have key : ∀ {s : Str} {n}, Numeral 10 s n → (∃ r c, s = r ++ [c] ∧ isDec c = true) ∧ ∃ c t, s = c :: t ∧ isDec c = true := by
    intro s n h
    obtain ⟨h1, h2⟩ := numeral_dec h
    constructor
    · refine ⟨s.dropLast, s.getLast h1, (List.dropLast_concat_getLast h1).symm, h2 _ (List.getLast_mem h1)⟩
    · cases s with
      | nil => exact absurd rfl h1
      | cons c t => exact ⟨c, t, rfl, h2 c (by simp)⟩
  cases h with
  | whole _ _ h => exact ⟨(key h).1, (key h).2, by omega⟩
  | point s n t m h h' =>
    obtain ⟨_, c, r, rfl, hc⟩ := key h
    obtain ⟨⟨r', c', rfl, hc'⟩, _⟩ := key h'
    exact ⟨⟨(c :: r) ++ '.' :: r', c', by simp, hc'⟩, ⟨c, _, rfl, hc⟩, Nat.pow_pos (by omega)⟩

theorem fitsIn_one (k : Nat) : FitsIn 1 (k : Int) ↔ k < 256 := by
  unfold FitsIn
  have : ((256 ^ 1 : Nat) : Int) = 256 := by decide
  rw [this]
  omega

theorem be_one (k : Nat) (h : k < 256) : be 1 k = [UInt8.ofNat k] := by
  have : be 1 k = [UInt8.ofNat (k / 256 ^ 0 % 256)] := rfl
  rw [this, Nat.pow_zero, Nat.div_one, Nat.mod_eq_of_lt h]

theorem packOne {k : Nat} {b : Bytes} : packU 1 (k : Int) = .ok b ↔ k < 256 ∧ b = [UInt8.ofNat k] := by
  rw [packU_wire]
  by_cases h : k < 256
  · rw [if_pos ((fitsIn_one k).2 h), Int.toNat_natCast, be_one k h]
    constructor
    · intro h'; cases h'; exact ⟨h, rfl⟩
    · rintro ⟨_, rfl⟩; rfl
  · rw [if_neg (fun h' => h ((fitsIn_one k).1 h'))]
    constructor
    · intro h'; cases h'
    · rintro ⟨h', _⟩; exact absurd h' h

theorem rate_exact (key : Key) (v : Str) : ExactOn key .rate .rate v := by
  intro bin l
  show (rateStr2bin key v = _ ∧ _) ↔ ∃ p m, (RateValue v p ∧ m = none) ∧ _
  have hKM : ∀ c : Char, isDec c = true → c ≠ 'K' ∧ c ≠ 'M' := by
    intro c hc
    constructor
    · rintro rfl; revert hc; decide
    · rintro rfl; revert hc; decide
  constructor
  · rintro ⟨h, hl⟩
    unfold rateStr2bin at h
    rw [parseFloat_eq] at h
    obtain ⟨⟨⟨n, d⟩, rlen⟩, h1, h⟩ := bind_ok h
    dsimp only at h
    obtain ⟨a, r, ha, hlen, hfr⟩ := floatGo_take h1
    by_cases hm : startsWith v t!"-" = true
    · exfalso
      obtain ⟨t, rfl⟩ := (startsWith_one _ _).1 hm
      rw [if_pos hm] at ha
      have ha' : t = a ++ r := ha
      obtain ⟨⟨s, c, rfl, hc⟩, _⟩ := fraction_facts hfr
      subst ha'
      have e : ('-' :: (s ++ [c] ++ r)).drop rlen = c :: r := by
        have e1 : '-' :: (s ++ [c] ++ r) = ('-' :: s) ++ c :: r := by simp
        have e2 : rlen = ('-' :: s).length := by rw [← hlen]; simp
        rw [e1, e2, List.drop_left]
      rw [e] at h
      dsimp only at h
      rw [if_neg (by simpa using (hKM c hc).1), if_neg (by simpa using (hKM c hc).2)] at h
      cases h
    · rw [if_neg hm] at ha
      subst ha
      rw [← hlen, List.drop_left] at h
      cases r with
      | nil => cases h
      | cons c t =>
        dsimp only at h
        split at h
        · rename_i hc
          obtain ⟨b, h2, h⟩ := bind_ok h
          cases h
          have hc' := beq_iff_eq.1 hc
          subst hc'
          have ht : t = [] := List.length_eq_zero_iff.1 (by simp only [List.length_append, List.length_cons] at hl; omega)
          subst ht
          obtain ⟨h3, rfl⟩ := packOne.1 h2
          rw [Nat.mul_comm] at h3
          refine ⟨_, none, ⟨.kilo a n d hfr h3, rfl⟩, hl, by simp [fieldBytes, Nat.mul_comm]⟩
        · split at h
          · rename_i hc
            obtain ⟨b, h2, h⟩ := bind_ok h
            cases h
            have hc' := beq_iff_eq.1 hc
            subst hc'
            have ht : t = [] := List.length_eq_zero_iff.1 (by simp only [List.length_append, List.length_cons] at hl; omega)
            subst ht
            obtain ⟨h3, rfl⟩ := packOne.1 h2
            rw [Nat.mul_comm] at h3
            refine ⟨_, none, ⟨.mega a n d hfr h3, rfl⟩, hl, by simp [fieldBytes, Nat.mul_comm]⟩
          · cases h
  · rintro ⟨p, m, ⟨h, rfl⟩, rfl, rfl⟩
    refine ⟨?_, rfl⟩
    have nosign : ∀ {s : Str} {n d c}, Fraction s n d → ¬ startsWith (s ++ [c]) t!"-" = true := by
      intro s n d c h hs
      obtain ⟨_, ⟨x, t, rfl, hx⟩, _⟩ := fraction_facts h
      obtain ⟨t', ht'⟩ := (startsWith_one _ _).1 hs
      cases ht'
      revert hx; decide
    cases h with
    | kilo s n d h h2 =>
      unfold rateStr2bin
      rw [parseFloat_eq, if_neg (nosign h), floatGo_mk h 'K' [] (by decide) (by decide), ok_bind]
      dsimp only
      rw [List.drop_left]
      dsimp only
      rw [if_pos (by rfl), packOne.2 ⟨by rw [Nat.mul_comm]; exact h2, rfl⟩, ok_bind]
      simp [fieldBytes, Nat.mul_comm]
    | mega s n d h h2 =>
      unfold rateStr2bin
      rw [parseFloat_eq, if_neg (nosign h), floatGo_mk h 'M' [] (by decide) (by decide), ok_bind]
      dsimp only
      rw [List.drop_left]
      dsimp only
      rw [if_neg (by decide), if_pos (by rfl), packOne.2 ⟨by rw [Nat.mul_comm]; exact h2, rfl⟩, ok_bind]
      simp [fieldBytes, Nat.mul_comm]

/-! ## MAC addresses -/

theorem hexRun_iff (n : Nat) (s g r : Str) : hexRun n s = some (g, r) ↔
    s = g ++ r ∧ g.length = n ∧ ∀ c ∈ g, isHex c = true := by
  constructor
  · intro h
    unfold hexRun at h
    split at h
    · rename_i hc
      cases h
      simp only [Bool.and_eq_true, beq_iff_eq, List.all_eq_true] at hc
      exact ⟨(List.take_append_drop n s).symm, hc.1, hc.2⟩
    · cases h
  · rintro ⟨rfl, rfl, h⟩
    exact hexRun_exact g r _ rfl h

theorem hexGroups_iff (n : Nat) (sep : Char → Bool) (k : Nat) (s g : Str) :
    hexGroups n sep (k + 2) s = some g ↔ ∃ g1 c r g2, s = g1 ++ c :: r ∧ g1.length = n ∧
      (∀ x ∈ g1, isHex x = true) ∧ sep c = true ∧ hexGroups n sep (k + 1) r = some g2 ∧ g = g1 ++ g2 := by
  rw [hexGroups]
  constructor
  · intro h
    split at h
    · rename_i g1 c r hr
      split at h
      · rename_i hc
        rw [Option.map_eq_some_iff] at h
        obtain ⟨g2, h1, rfl⟩ := h
        obtain ⟨h2, h3, h4⟩ := (hexRun_iff _ _ _ _).1 hr
        exact ⟨g1, c, r, g2, h2, h3, h4, hc, h1, rfl⟩
      · cases h
    · cases h
  · rintro ⟨g1, c, r, g2, rfl, h1, h2, h3, h4, rfl⟩
    rw [hexRun_exact g1 _ n h1 h2]
    simp [h3, h4]

theorem hexGroups_last (n : Nat) (sep : Char → Bool) (s g : Str) :
    hexGroups n sep 1 s = some g ↔ ∃ r, s = g ++ r ∧ g.length = n ∧ ∀ x ∈ g, isHex x = true := by
  rw [hexGroups, Option.map_eq_some_iff]
  constructor
  · rintro ⟨⟨g', r⟩, h, rfl⟩
    exact ⟨r, (hexRun_iff _ _ _ _).1 h⟩
  · rintro ⟨r, h⟩
    exact ⟨(g, r), (hexRun_iff _ _ _ _).2 h, rfl⟩

theorem hexText_of {g : Str} (k : Nat) (hl : g.length = 2 * k) (h : ∀ c ∈ g, isHex c = true) :
    ∃ b, HexText g b ∧ b.length = k := by
  induction k generalizing g with
  | zero => exact ⟨[], by rw [List.length_eq_zero_iff.1 (by omega : g.length = 0)]; exact .nil, rfl⟩
  | succ k ih =>
    match g, hl with
    | x :: y :: g, hl =>
      obtain ⟨b, hb, hk⟩ := ih (g := g) (by simp at hl; omega) (fun c hc => h c (by simp [hc]))
      obtain ⟨i, hi⟩ := (isHex_iff x).1 (h x (by simp))
      obtain ⟨j, hj⟩ := (isHex_iff y).1 (h y (by simp))
      exact ⟨_, .cons x y i j g b hi hj hb, by simp [hk]⟩
    | [x], hl => simp at hl; omega
    | [], hl => simp at hl

theorem two_of {g : Str} (h : g.length = 2) : ∃ x y, g = [x, y] := by
  match g, h with
  | [x, y], _ => exact ⟨x, y, rfl⟩

theorem pairs_iff (d : Char) (s g : Str) (h : hexGroups 2 (fun c => c == d) 6 s = some g) :
    ∃ x1 y1 x2 y2 x3 y3 x4 y4 x5 y5 x6 y6 r, g = [x1, y1, x2, y2, x3, y3, x4, y4, x5, y5, x6, y6] ∧
      s = [x1, y1, d, x2, y2, d, x3, y3, d, x4, y4, d, x5, y5, d, x6, y6] ++ r ∧ ∀ c ∈ g, isHex c = true := by
  obtain ⟨a1, c1, r1, g1, rfl, l1, i1, e1, k1, rfl⟩ := (hexGroups_iff 2 _ 4 _ _).1 h
  obtain ⟨a2, c2, r2, g2, rfl, l2, i2, e2, k2, rfl⟩ := (hexGroups_iff 2 _ 3 _ _).1 k1
  obtain ⟨a3, c3, r3, g3, rfl, l3, i3, e3, k3, rfl⟩ := (hexGroups_iff 2 _ 2 _ _).1 k2
  obtain ⟨a4, c4, r4, g4, rfl, l4, i4, e4, k4, rfl⟩ := (hexGroups_iff 2 _ 1 _ _).1 k3
  obtain ⟨a5, c5, r5, g5, rfl, l5, i5, e5, k5, rfl⟩ := (hexGroups_iff 2 _ 0 _ _).1 k4
  obtain ⟨r, rfl, l6, i6⟩ := (hexGroups_last 2 _ _ _).1 k5
  simp only [beq_iff_eq] at e1 e2 e3 e4 e5
  subst e1; subst e2; subst e3; subst e4; subst e5
  obtain ⟨x1, y1, rfl⟩ := two_of l1
  obtain ⟨x2, y2, rfl⟩ := two_of l2
  obtain ⟨x3, y3, rfl⟩ := two_of l3
  obtain ⟨x4, y4, rfl⟩ := two_of l4
  obtain ⟨x5, y5, rfl⟩ := two_of l5
  obtain ⟨x6, y6, rfl⟩ := two_of l6
  refine ⟨x1, y1, x2, y2, x3, y3, x4, y4, x5, y5, x6, y6, r, rfl, rfl, ?_⟩
  intro c hc
  simp only [List.mem_append] at hc
  rcases hc with hc | hc | hc | hc | hc | hc
  · exact i1 c hc
  · exact i2 c hc
  · exact i3 c hc
  · exact i4 c hc
  · exact i5 c hc
  · exact i6 c hc

/-- What is scanned is one of the notations. -/
theorem macScan_take {u g : Str} {l : Nat} (h : macScan u = .ok (g, l)) :
    ∃ a r b, u = a ++ r ∧ a.length = l ∧ MacValue a b ∧ HexText g b := by
  unfold macScan at h
  split at h
  · rename_i g' hg
    cases h
    obtain ⟨r, rfl, hl, hx⟩ := (hexGroups_last 12 _ _ _).1 hg
    obtain ⟨b, hb, hk⟩ := hexText_of 6 hl hx
    exact ⟨g, r, b, rfl, hl, .bare g b hb hk, hb⟩
  · rename_i hno
    split at h
    · rename_i g' hg
      cases h
      obtain ⟨a1, c, r1, g1, rfl, l1, i1, e1, k1, rfl⟩ := (hexGroups_iff 4 _ 1 _ _).1 hg
      obtain ⟨a2, d, r2, g2, rfl, l2, i2, e2, k2, rfl⟩ := (hexGroups_iff 4 _ 0 _ _).1 k1
      obtain ⟨r, rfl, l3, i3⟩ := (hexGroups_last 4 _ _ _).1 k2
      have hx : ∀ x ∈ a1 ++ (a2 ++ g2), isHex x = true := by
        intro x hx
        simp only [List.mem_append] at hx
        rcases hx with hx | hx | hx
        · exact i1 x hx
        · exact i2 x hx
        · exact i3 x hx
      obtain ⟨b, hb, hk⟩ := hexText_of 6 (by simp [l1, l2, l3]) hx
      refine ⟨a1 ++ c :: (a2 ++ d :: g2), r, b, by simp, by simp [l1, l2, l3],
        .groups a1 a2 g2 c d b hb hk l1 l2 (by simpa using e1) (by simpa using e2) ?_, hb⟩
      intro i j hc hd
      have hc' := (isHex_iff c).2 ⟨i, hc⟩
      have hd' := (isHex_iff d).2 ⟨j, hd⟩
      match g2, l3 with
      | [w, x, y, z], _ =>
        have : hexGroups 12 (fun _ => false) 1 (a1 ++ c :: (a2 ++ d :: ([w, x, y, z] ++ r))) =
            some (a1 ++ c :: (a2 ++ d :: [w, x])) := by
          refine (hexGroups_last 12 _ _ _).2 ⟨y :: z :: r, by simp, by simp [l1, l2], ?_⟩
          intro t ht
          simp only [List.mem_append, List.mem_cons, List.not_mem_nil, or_false] at ht
          rcases ht with ht | rfl | ht | rfl | rfl | rfl
          · exact i1 t ht
          · exact hc'
          · exact i2 t ht
          · exact hd'
          · exact i3 _ (by simp)
          · exact i3 _ (by simp)
        rw [this] at hno
        cases hno
    · split at h
      · rename_i g' hg
        cases h
        obtain ⟨x1, y1, x2, y2, x3, y3, x4, y4, x5, y5, x6, y6, r, rfl, rfl, hx⟩ := pairs_iff ':' _ _ hg
        obtain ⟨b, hb, hk⟩ := hexText_of 6 (by simp) hx
        exact ⟨_, r, b, rfl, rfl, .pairs ':' _ _ _ _ _ _ _ _ _ _ _ _ b (Or.inl rfl) hb, hb⟩
      · split at h
        · rename_i g' hg
          cases h
          obtain ⟨x1, y1, x2, y2, x3, y3, x4, y4, x5, y5, x6, y6, r, rfl, rfl, hx⟩ := pairs_iff '-' _ _ hg
          obtain ⟨b, hb, hk⟩ := hexText_of 6 (by simp) hx
          exact ⟨_, r, b, rfl, rfl, .pairs '-' _ _ _ _ _ _ _ _ _ _ _ _ b (Or.inr rfl) hb, hb⟩
        · cases h

/-- Every notation is scanned, whatever follows. -/
theorem macScan_value {s : Str} {b : Bytes} (h : MacValue s b) (r : Str) :
    ∃ g, macScan (s ++ r) = .ok (g, s.length) ∧ HexText g b := by
  cases h with
  | bare _ _ h hb => exact macScan_text (.bare s b h hb) r
  | pairs c x1 y1 x2 y2 x3 y3 x4 y4 x5 y5 x6 y6 _ hc h => exact macScan_text (.pairs c _ _ _ _ _ _ _ _ _ _ _ _ b hc h) r
  | groups g1 g2 g3 c d _ hg hb l1 l2 hc hd hno =>
    obtain ⟨h1, h2, h3⟩ := hexText_a2b hg
    have l3 : g3.length = 4 := by simp at h3; omega
    have hx1 : ∀ c ∈ g1, isHex c = true := fun c hc => h2 c (by simp [hc])
    have hx2 : ∀ c ∈ g2, isHex c = true := fun c hc => h2 c (by simp [hc])
    have hx3 : ∀ c ∈ g3, isHex c = true := fun c hc => h2 c (by simp [hc])
    refine ⟨g1 ++ (g2 ++ g3), ?_, hg⟩
    have e : (g1 ++ c :: (g2 ++ d :: g3)) ++ r = g1 ++ c :: (g2 ++ d :: (g3 ++ r)) := by simp
    unfold macScan
    have hn : hexGroups 12 (fun _ => false) 1 (g1 ++ c :: (g2 ++ d :: (g3 ++ r))) = none := by
      cases hh : hexGroups 12 (fun _ => false) 1 (g1 ++ c :: (g2 ++ d :: (g3 ++ r))) with
      | none => rfl
      | some g =>
        exfalso
        obtain ⟨r', he, hl, hx⟩ := (hexGroups_last 12 _ _ _).1 hh
        have e2 : g1 ++ c :: (g2 ++ d :: (g3 ++ r)) = (g1 ++ c :: (g2 ++ [d])) ++ (g3 ++ r) := by simp
        rw [e2] at he
        have hpre : g1 ++ c :: (g2 ++ [d]) <+: g := by
          refine List.prefix_of_prefix_length_le (List.prefix_append _ (g3 ++ r)) ?_ (by simp [l1, l2, hl])
          rw [he]; exact List.prefix_append _ _
        have mem : ∀ x ∈ g1 ++ c :: (g2 ++ [d]), isHex x = true := fun x hx' => hx x (hpre.subset hx')
        obtain ⟨i, hi⟩ := (isHex_iff c).1 (mem c (by simp))
        obtain ⟨j, hj⟩ := (isHex_iff d).1 (mem d (by simp))
        exact hno i j hi hj
    have hy : hexGroups 4 (fun c => c != '\n') 3 (g1 ++ c :: (g2 ++ d :: (g3 ++ r))) = some (g1 ++ (g2 ++ g3)) :=
      (hexGroups_iff 4 _ 1 _ _).2 ⟨g1, c, _, g2 ++ g3, rfl, l1, hx1, by simpa using hc,
        (hexGroups_iff 4 _ 0 _ _).2 ⟨g2, d, _, g3, rfl, l2, hx2, by simpa using hd,
          (hexGroups_last 4 _ _ _).2 ⟨r, rfl, l3, hx3⟩, rfl⟩, rfl⟩
    rw [e, hn, hy]
    simp [l1, l2, l3]

theorem macValue_len {s : Str} {b : Bytes} (h : MacValue s b) : b.length = 6 := by
  cases h with
  | bare _ _ _ h => exact h
  | groups _ _ _ _ _ _ _ h => exact h
  | pairs c x1 y1 x2 y2 x3 y3 x4 y4 x5 y5 x6 y6 _ hc h =>
    have := (hexText_a2b h).2.2
    simp at this; omega

theorem mac_exact (key : Key) (v : Str) : ExactOn key .mac .mac v := by
  intro bin l
  show (macStr2bin key v = _ ∧ _) ↔ ∃ p m, Masked MacValue MacValue v p m ∧ _
  constructor
  · rintro ⟨h, hl⟩
    unfold macStr2bin at h
    obtain ⟨⟨g, rlen⟩, h1, h⟩ := bind_ok h
    dsimp only at h
    obtain ⟨a, r, b, rfl, ha, hw, hx⟩ := macScan_take h1
    subst ha
    rw [List.drop_left] at h
    split at h
    · rename_i hs
      obtain ⟨t, rfl⟩ := (startsWith_one _ _).1 hs
      obtain ⟨⟨g', e⟩, h2, h⟩ := bind_ok h
      obtain ⟨pl, h3, h⟩ := bind_ok h
      cases h
      rw [drop_sep] at h2
      dsimp only at h3
      obtain ⟨a', r, b', rfl, hb, hw2, hx2⟩ := macScan_take h2
      have hr : r = [] := List.length_eq_zero_iff.1 (by simp only [List.length_append, List.length_cons] at hl; omega)
      subst hr
      rw [List.append_nil] at *
      rw [(hexText_a2b (hexText_append hx hx2)).1] at h3
      cases h3
      exact ⟨b, some b', .mask a a' _ _ hw hw2, hl, by simp [fieldBytes, macValue_len hw]⟩
    · obtain ⟨pl, h3, h⟩ := bind_ok h
      cases h
      have hr : r = [] := eq_nil_of_len hl
      subst hr
      rw [List.append_nil] at *
      rw [(hexText_a2b hx).1] at h3
      cases h3
      exact ⟨b, none, .plain a _ hw, hl, by simp [fieldBytes, macValue_len hw]⟩
  · rintro ⟨p, m, h, rfl, rfl⟩
    refine ⟨?_, rfl⟩
    cases h with
    | plain _ _ h =>
      obtain ⟨g, h1, h2⟩ := macScan_value h []
      rw [List.append_nil] at h1
      unfold macStr2bin
      rw [h1, ok_bind]
      dsimp only
      rw [List.drop_length, if_neg (by decide), (hexText_a2b h2).1, ok_bind]
      simp [fieldBytes, macValue_len h]
    | mask a b _ q h h' =>
      obtain ⟨g, h1, h2⟩ := macScan_value h ('/' :: b)
      obtain ⟨g', h3, h4⟩ := macScan_value h' []
      rw [List.append_nil] at h3
      unfold macStr2bin
      rw [h1, ok_bind]
      dsimp only
      rw [List.drop_left, if_pos (startsWith_slash b), drop_sep, h3, ok_bind]
      dsimp only
      rw [(hexText_a2b (hexText_append h2 h4)).1, ok_bind]
      simp [fieldBytes, macValue_len h]
      omega

end Ofpstr
