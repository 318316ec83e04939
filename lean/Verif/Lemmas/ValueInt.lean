import Verif.Spec.Value
import Verif.Lemmas.Built
import Verif.Lemmas.Dict

/-!
# Exactly which texts are values: numbers
-/

set_option linter.unusedSimpArgs false

namespace Ofpstr
open Spec

/-- What the encoders build. -/
def fieldBytes (key : Key) (p : Bytes) (m : Option Bytes) : Bytes :=
  header key p.length m.isSome ++ (p ++ m.getD [])

/-- The encoder takes exactly the texts of the kind. -/
def ExactOn (key : Key) (k : Enc) (kind : Kind) (v : Str) : Prop :=
  ∀ bin l, (encText key k v = .ok (bin, l) ∧ l = v.length) ↔
    ∃ p m, ValueText kind v p m ∧ l = v.length ∧ bin = fieldBytes key p m

/-- The integer at the start of a text, taken alone. -/
theorem intSyntax_take {u : Str} {v : Int} {l : Nat} (h : IntSyntax u v l) :
    ∃ a r, u = a ++ r ∧ a.length = l ∧ IntSyntax a v l := by
  have nd : ∀ b, NoDigit b [] := by intro b c t d h; cases h
  cases h with
  | neg ds r n h1 h2 =>
    refine ⟨'-' :: ds, r, by simp, by simp; omega, ?_⟩
    simpa using IntSyntax.neg ds [] n h1 (nd _)
  | hex x ds r n h0 h1 h2 =>
    refine ⟨'0' :: x :: ds, r, by simp, by simp; omega, ?_⟩
    simpa using IntSyntax.hex x ds [] n h0 h1 (nd _)
  | oct ds r n h1 h2 h3 =>
    refine ⟨'0' :: ds, r, by simp, by simp; omega, ?_⟩
    by_cases hl : 2 < ('0' :: ds).length
    · simpa using IntSyntax.oct ds [] n h1 (nd _) (by simpa using hl)
    · have hne := ((numeral_iff 8 (by omega) _ _).1 h1).1
      match ds, h1, hne, hl with
      | [a], h1, _, _ =>
        have hd : Digit 8 a n := by
          generalize hx : [a] = x at h1
          cases h1 with
          | one c d hd => cases hx; exact hd
          | snoc s m c d hs _ =>
            have := ((numeral_iff 8 (by omega) _ _).1 hs).1
            have hlen := congrArg List.length hx
            simp at hlen
            exact absurd hlen this
        have hd10 : Digit 10 a n := hd.mono (by have := hd.lt; omega)
        have hnum : Numeral 10 ['0', a] n := by
          have := Numeral.snoc ['0'] 0 a n (Numeral.one (b := 10) '0' 0 (by constructor <;> decide)) hd10
          simpa using this
        have := IntSyntax.dec ['0', a] [] n hnum (nd _) (by
          intro t
          constructor
          · intro he
            simp at he
            have : ∀ d, ¬ Digit 8 'x' d := by
              intro d hd; cases hd with | mk _ hm => simp at hm
            exact this n (he.1 ▸ hd)
          · intro he
            simp at he
            have : ∀ d, ¬ Digit 8 'X' d := by
              intro d hd; cases hd with | mk _ hm => simp at hm
            exact this n (he.1 ▸ hd)) (by
          intro c d t h
          simp at h)
        simpa using this
      | a :: b :: t, _, _, hl => simp at hl
  | dec ds r n h1 h2 h3 h4 =>
    refine ⟨ds, r, rfl, rfl, ?_⟩
    have := IntSyntax.dec ds [] n h1 (nd _) (by
      intro t
      rw [List.append_nil]
      constructor
      · intro he; exact (h3 (t ++ r)).1 (by rw [he]; simp)
      · intro he; exact (h3 (t ++ r)).2 (by rw [he]; simp)) (by
      intro c d t hl he
      rw [List.append_nil] at hl he
      exact h4 c d (t ++ r) (by rw [List.length_append]; omega) (by rw [he]; simp))
    simpa using this

theorem parseInt_take {u : Str} {v : Int} {l : Nat} (h : parseInt u = .ok (v, l)) :
    ∃ a r, u = a ++ r ∧ a.length = l ∧ WholeInt a v := by
  obtain ⟨a, r, h1, h2, h3⟩ := intSyntax_take ((parseInt_iff _ _ _).1 h)
  exact ⟨a, r, h1, h2, by unfold WholeInt; rw [h2]; exact h3⟩

theorem startsWith_one (c : Char) (s : Str) : startsWith s [c] = true ↔ ∃ t, s = c :: t := by
  cases s with
  | nil => simp [startsWith]
  | cons d t =>
    unfold startsWith
    simp only [List.isPrefixOf, Bool.and_true, beq_iff_eq]
    constructor
    · rintro rfl; exact ⟨t, rfl⟩
    · rintro ⟨t', h⟩; cases h; rfl

theorem eq_nil_of_len {a r : Str} (h : a.length = (a ++ r).length) : r = [] := by simpa using h

theorem wholeInt_parse {s : Str} {v : Int} (h : WholeInt s v) : parseInt s = .ok (v, s.length) :=
  (parseInt_iff _ _ _).2 h

theorem wholeInt_parse_sep {s : Str} {v : Int} (h : WholeInt s v) (c : Char) (t : Str)
    (hc : isHex c = false) (hx : c ≠ 'x' ∧ c ≠ 'X') : parseInt (s ++ c :: t) = .ok (v, s.length) :=
  (parseInt_iff _ _ _).2 (intSyntax_more h c t hc hx)

theorem be_len (k n : Nat) : (be k n).length = k := by simp [be]
theorem le_len (k n : Nat) : (le k n).length = k := by simp [le]

theorem uint_exact (key : Key) (n : Nat) (v : Str) : ExactOn key (.uint n) (.uint n) v := by
  intro bin l
  show (uintStr2bin key n v = _ ∧ _) ↔ ∃ p m, Masked (UintValue n) (UintValue n) v p m ∧ _
  constructor
  · rintro ⟨h, hl⟩
    unfold uintStr2bin at h
    obtain ⟨⟨num, rlen⟩, h1, h⟩ := bind_ok h
    dsimp only at h
    obtain ⟨a, r, rfl, ha, hw⟩ := parseInt_take h1
    subst ha
    rw [List.drop_left] at h
    split at h
    · rename_i hs
      obtain ⟨t, rfl⟩ := (startsWith_one _ _).1 hs
      obtain ⟨⟨m, e⟩, h2, h⟩ := bind_ok h
      cases h
      rw [drop_sep] at h2
      obtain ⟨b, r, rfl, hb, hw2⟩ := parseInt_take h2
      have hr : r = [] := List.length_eq_zero_iff.1 (by simp only [List.length_append, List.length_cons] at hl; omega)
      subst hr
      rw [List.append_nil] at *
      refine ⟨_, _, Masked.mask a b _ _ ⟨num, hw, rfl⟩ ⟨m, hw2, rfl⟩, hl, ?_⟩
      simp [fieldBytes, be_len, intBE_eq, spec_be]
    · cases h
      have hr : r = [] := eq_nil_of_len hl
      subst hr
      rw [List.append_nil] at *
      refine ⟨_, _, Masked.plain a _ ⟨num, hw, rfl⟩, hl, ?_⟩
      simp [fieldBytes, be_len, intBE_eq, spec_be]
  · rintro ⟨p, m, h, rfl, rfl⟩
    refine ⟨?_, rfl⟩
    cases h with
    | plain _ _ h =>
      obtain ⟨x, hx, rfl⟩ := h
      rw [uintStr2bin_plain key n v x hx]
      simp [fieldBytes, be_len]
    | mask a b _ q h h' =>
      obtain ⟨x, hx, rfl⟩ := h
      obtain ⟨y, hy, rfl⟩ := h'
      rw [uintStr2bin_mask key n a b x y hx hy]
      simp [fieldBytes, be_len]

theorem intLE_eq (size : Nat) (v : Int) : intLE size v = le size (v % (256 ^ size : Nat)).toNat := by
  have h1 : ∀ v, intLE size v = (intBE size v).reverse := by
    intro v
    simp [intLE, intBE]
  have h2 : ∀ n, le size n = (be size n).reverse := by intro n; simp [le, be]
  rw [h1, h2, intBE_eq, spec_be]

theorem le_exact (key : Key) (n : Nat) (v : Str) : ExactOn key (.le n) (.le n) v := by
  intro bin l
  show (leStr2bin key n v = _ ∧ _) ↔ ∃ p m, ((∃ x, WholeInt v x ∧ p = le n (x % (256 ^ n : Nat)).toNat) ∧ m = none) ∧ _
  constructor
  · rintro ⟨h, hl⟩
    unfold leStr2bin at h
    obtain ⟨⟨num, rlen⟩, h1, h⟩ := bind_ok h
    dsimp only at h
    obtain ⟨a, r, rfl, ha, hw⟩ := parseInt_take h1
    subst ha
    rw [List.drop_left] at h
    split at h
    · obtain ⟨⟨m, e⟩, h2, h⟩ := bind_ok h
      cases h
    · cases h
      have hr : r = [] := eq_nil_of_len hl
      subst hr
      rw [List.append_nil] at *
      refine ⟨_, _, ⟨⟨num, hw, rfl⟩, rfl⟩, hl, ?_⟩
      simp [fieldBytes, le_len, intLE_eq]
  · rintro ⟨p, m, ⟨⟨x, hx, rfl⟩, rfl⟩, rfl, rfl⟩
    refine ⟨?_, rfl⟩
    unfold leStr2bin
    rw [wholeInt_parse hx, ok_bind]
    simp [fieldBytes, le_len, intLE_eq, startsWith_nil_slash]

theorem s8_exact (key : Key) (v : Str) : ExactOn key .s8 .signed v := by
  intro bin l
  show (s8Str2bin key v = _ ∧ _) ↔ ∃ p m, ((∃ x, WholeInt v x ∧ -128 ≤ x ∧ x < 128 ∧
    p = [UInt8.ofNat (x % 256).toNat]) ∧ m = none) ∧ _
  constructor
  · rintro ⟨h, hl⟩
    unfold s8Str2bin at h
    obtain ⟨⟨num, rlen⟩, h1, h⟩ := bind_ok h
    obtain ⟨pl, h2, h⟩ := bind_ok h
    cases h
    obtain ⟨a, r, rfl, ha, hw⟩ := parseInt_take h1
    subst ha
    have hr : r = [] := eq_nil_of_len hl
    subst hr
    rw [List.append_nil] at *
    unfold packS8 at h2
    split at h2
    · rename_i hr
      cases h2
      exact ⟨_, _, ⟨⟨num, hw, hr.1, hr.2, rfl⟩, rfl⟩, hl, by simp [fieldBytes]⟩
    · cases h2
  · rintro ⟨p, m, ⟨⟨x, hx, h1, h2, rfl⟩, rfl⟩, rfl, rfl⟩
    refine ⟨?_, rfl⟩
    unfold s8Str2bin packS8
    rw [wholeInt_parse hx, ok_bind]
    simp [h1, h2, fieldBytes, ok_bind]

/-! ## Ports -/

theorem portNames_foldl (n : Nat) (u : Str) (l : List (Nat × Str)) (st : Nat × Bytes) :
    (l.foldl (init := st) fun st (e : Nat × Str) =>
      if startsWith u (lowerStr e.2) || startsWith u (upperStr e.2) then
        (e.2.length, beBytes n (e.1 % 256 ^ n)) else st) = st ∨
    ∃ e ∈ l, (startsWith u (lowerStr e.2) = true ∨ startsWith u (upperStr e.2) = true) ∧
      (l.foldl (init := st) fun st (e : Nat × Str) =>
        if startsWith u (lowerStr e.2) || startsWith u (upperStr e.2) then
        (e.2.length, beBytes n (e.1 % 256 ^ n)) else st) = (e.2.length, beBytes n (e.1 % 256 ^ n)) := by
  induction l generalizing st with
  | nil => exact Or.inl rfl
  | cons e l ih =>
    rw [List.foldl_cons]
    rcases ih (if startsWith u (lowerStr e.2) || startsWith u (upperStr e.2) then
        (e.2.length, beBytes n (e.1 % 256 ^ n)) else st) with h | ⟨x, hx, h1, h2⟩
    · rw [h]
      by_cases hc : (startsWith u (lowerStr e.2) || startsWith u (upperStr e.2)) = true
      · right
        refine ⟨e, by simp, by simpa using hc, ?_⟩
        rw [if_pos hc]
      · left
        rw [if_neg hc]
    · exact Or.inr ⟨x, by simp [hx], h1, h2⟩

theorem startsWith_full {u p : Str} (h : startsWith u p = true) (hl : p.length = u.length) : u = p := by
  obtain ⟨t, rfl⟩ := List.isPrefixOf_iff_prefix.1 h
  rw [List.length_append] at hl
  rw [List.length_eq_zero_iff.1 (show t.length = 0 by omega), List.append_nil]

theorem ofpp_reserved : ∀ e ∈ ofpp, (e.1, lowerStr e.2) ∈ reservedPorts ++ reservedPortsUpper ∧
    (e.1, upperStr e.2) ∈ reservedPorts ++ reservedPortsUpper ∧ (lowerStr e.2).length = e.2.length ∧
    (upperStr e.2).length = e.2.length ∧ e.2.length ≠ 0 := by decide +kernel

theorem port_exact (key : Key) (n : Nat) (hn : n = 2 ∨ n = 4) (v : Str) : ExactOn key (.port n) (.port n) v := by
  intro bin l
  show (portStr2bin key n v = _ ∧ _) ↔ ∃ p m, (PortValue n v p ∧ m = none) ∧ _
  have hz : ∀ k, (beBytes n k).isEmpty = false := by
    intro k
    rw [List.isEmpty_eq_false_iff]
    intro h
    have := congrArg List.length h
    simp at this
    omega
  constructor
  · rintro ⟨h, hl⟩
    unfold portStr2bin at h
    rcases portNames_foldl n v ofpp (0, []) with h0 | ⟨e, he, hs, h0⟩
    · have : portNames n v = (0, []) := h0
      rw [this] at h
      dsimp only at h
      rw [if_pos (by rfl)] at h
      obtain ⟨⟨num, rlen⟩, h1, h⟩ := bind_ok h
      obtain ⟨pl, h2, h⟩ := bind_ok h
      cases h
      obtain ⟨a, r, rfl, ha, hw⟩ := parseInt_take h1
      subst ha
      have hr : r = [] := eq_nil_of_len hl
      subst hr
      rw [List.append_nil] at *
      rw [packU_wire] at h2
      split at h2
      · rename_i hf
        cases h2
        exact ⟨_, _, ⟨PortValue.num a num hw hf, rfl⟩, hl, by simp [fieldBytes, be_len]⟩
      · cases h2
    · have : portNames n v = (e.2.length, beBytes n (e.1 % 256 ^ n)) := h0
      rw [this] at h
      dsimp only at h
      rw [if_neg (by rw [hz]; simp)] at h
      cases h
      obtain ⟨h1, h2, h3, h4, h5⟩ := ofpp_reserved e he
      refine ⟨be n (e.1 % 256 ^ n), none, ⟨?_, rfl⟩, hl, by simp [fieldBytes, be_len, spec_be]⟩
      rcases hs with hs | hs
      · rw [startsWith_full hs (by omega)]
        exact PortValue.name _ _ h1
      · rw [startsWith_full hs (by omega)]
        exact PortValue.name _ _ h2
  · rintro ⟨p, m, ⟨h, rfl⟩, rfl, rfl⟩
    refine ⟨?_, rfl⟩
    cases h with
    | name k s h =>
      rw [portStr2bin_reserved key n hn (k, v) (by simpa using h)]
      simp [fieldBytes, be_len, spec_be, beBytes_mod]
    | num s x hx hf =>
      rw [portStr2bin_num key n v x hx, if_pos ⟨hf.1, hf.2⟩]
      simp [fieldBytes, be_len]

end Ofpstr
