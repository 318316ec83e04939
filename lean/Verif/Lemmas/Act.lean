import Verif.Lemmas.Match
import Verif.Lemmas.Split
import Verif.Lemmas.FieldText
import Verif.Spec.Action
import Verif.Model.Ofp4

/-!
# Action encoders
-/

namespace Ofpstr
open Spec

theorem spec_u8 (n : Nat) : u8 n = beBytes 1 n := spec_be 1 n
theorem spec_u16 (n : Nat) : u16 n = beBytes 2 n := spec_be 2 n
theorem spec_u32 (n : Nat) : u32 n = beBytes 4 n := spec_be 4 n
theorem spec_u64 (n : Nat) : u64 n = beBytes 8 n := spec_be 8 n

theorem be_length (k n : Nat) : (be k n).length = k := by rw [spec_be, beBytes_length]
theorem u8_length (n : Nat) : (u8 n).length = 1 := be_length 1 n
theorem u16_length (n : Nat) : (u16 n).length = 2 := be_length 2 n
theorem u32_length (n : Nat) : (u32 n).length = 4 := be_length 4 n
theorem u64_length (n : Nat) : (u64 n).length = 8 := be_length 8 n
theorem pad_length (n : Nat) : (pad n).length = n := by simp [pad]

theorem packU_int (k : Nat) (v : Int) : packU k v =
    if 0 ≤ v ∧ v < (256 ^ k : Nat) then .ok (be k v.toNat) else .error .structError := by
  unfold packU
  rw [spec_be]
  norm_cast

theorem fill_align (n : Nat) : fill n = zeros (align8 n - n) := by
  unfold fill pad zeros align8
  congr 1
  omega

theorem fill_length (n : Nat) : (fill n).length = align8 n - n := by rw [fill_align, zeros_length]

theorem align8_facts (n : Nat) : n ≤ align8 n ∧ align8 n < n + 8 ∧ 8 ∣ align8 n := by
  unfold align8
  refine ⟨by omega, by omega, ⟨_, Nat.mul_comm _ _⟩⟩

/-- The word style `name…`. -/
theorem str2act_word (h name r : Str) (k : ActEnc) (hh : Head h) (hc : Clean name) (hn : name ≠ [])
    (hr : AtEnd r) (hl : lookupAct name = some k) :
    str2act (h ++ (name ++ r)) =
      (runActEnc k r true).bind fun x => .ok (x.1, h.length + name.length + x.2) := by
  unfold str2act
  simp only [getToken_head hh hc.token hr hc.plainStart hn, parseFunc_bare name hc.notOpen, hl, bind,
    Except.bind]

/-- The text of a call. -/
theorem call_token (name a : Str) (hc : Clean name) (ha : Inside ')' a) :
    Token (name ++ '(' :: a ++ [')']) := by
  induction name with
  | nil => exact Token.group '(' ')' a [] .round ha .nil
  | cons c s ih =>
    have h := hc c (by simp)
    exact Token.char c _ h.notSep h.2.2.1 h.2.2.2 (ih (fun x hx => hc x (by simp [hx])))

theorem getToken_call (h name a r : Str) (hh : Head h) (hc : Clean name) (hn : name ≠ [])
    (ha : Inside ')' a) (hr : AtEnd r) :
    getToken (h ++ ((name ++ '(' :: a ++ [')']) ++ r)) = (h, name ++ '(' :: a ++ [')'], r) := by
  apply getToken_head hh (call_token name a hc ha) hr
  · cases name with
    | nil => exact absurd rfl hn
    | cons c s =>
      intro x t hx
      simp only [List.cons_append, List.cons.injEq] at hx
      have := hc c (by simp)
      rw [← hx.1]
      exact ⟨this.1, this.2.1, this.2.2.1⟩
  · simp

theorem parseFunc_paren (name a : Str) (hc : Clean name) (ha : Inside ')' a) :
    parseFunc (name ++ '(' :: a ++ [')']) = .ok (name, some a) := by
  have := parseFunc_call name a [] '(' ')' hc.notOpen .round ha
  simpa using this

/-- The call style `name(arguments)`. -/
theorem str2act_call (h name a r : Str) (k : ActEnc) (hh : Head h) (hc : Clean name) (hn : name ≠ [])
    (ha : Inside ')' a) (han : a ≠ []) (hr : AtEnd r) (hl : lookupAct name = some k) :
    str2act (h ++ ((name ++ '(' :: a ++ [')']) ++ r)) =
      (runActEnc k a false).bind
        fun x => .ok (x.1, h.length + (name ++ '(' :: a ++ [')']).length) := by
  unfold str2act
  rw [getToken_call h name a r hh hc hn ha hr]
  dsimp only
  rw [parseFunc_paren name a hc ha]
  cases a with
  | nil => exact absurd rfl han
  | cons c s => simp only [hl, bind, Except.bind]

theorem clean_inside {s : Str} (e : Char) (h : Clean s) (he : ∀ c ∈ s, c ≠ e) : Inside e s := by
  induction s with
  | nil => exact .nil e
  | cons c s ih =>
    exact .char e c s (he c (by simp)) (h c (by simp)).2.2.2
      (ih (fun x hx => h x (by simp [hx])) (fun x hx => he x (by simp [hx])))

/-- The characters of an integer. -/
theorem intSyntax_ne {s : Str} {v : Int} (h : IntSyntax s v s.length) :
    ∀ c ∈ s, isHex c = true ∨ c = '-' ∨ c = 'x' ∨ c = 'X' := by
  generalize hl : s.length = l at h
  cases h with
  | neg ds r n h1 h2 =>
    have hr : r = [] := by
      have : r.length = 0 := by simp at hl; omega
      exact List.length_eq_zero_iff.1 this
    subst hr
    intro c hc
    simp at hc
    rcases hc with rfl | hc
    · simp
    · exact Or.inl (numeral_hex (by decide) h1 c hc)
  | hex x ds r n hx h1 h2 =>
    have hr : r = [] := by
      have : r.length = 0 := by simp at hl; omega
      exact List.length_eq_zero_iff.1 this
    subst hr
    intro c hc
    simp at hc
    rcases hc with rfl | rfl | hc
    · left; decide
    · rcases hx with rfl | rfl <;> simp
    · exact Or.inl (numeral_hex (by decide) h1 c hc)
  | oct ds r n h1 h2 h3 =>
    have hr : r = [] := by
      have : r.length = 0 := by simp at hl; omega
      exact List.length_eq_zero_iff.1 this
    subst hr
    intro c hc
    simp at hc
    rcases hc with rfl | hc
    · left; decide
    · exact Or.inl (numeral_hex (by decide) h1 c hc)
  | dec ds r n h1 h2 h3 h4 =>
    have hr : r = [] := by
      have : r.length = 0 := by rw [List.length_append] at hl; omega
      exact List.length_eq_zero_iff.1 this
    subst hr
    intro c hc
    simp at hc
    exact Or.inl (numeral_hex (by decide) h1 c hc)

theorem isHex_close {c : Char} (h : isHex c = true) : c ≠ ')' ∧ c ≠ ']' ∧ c ≠ '}' ∧ c ≠ '>' := by
  refine ⟨?_, ?_, ?_, ?_⟩ <;> rintro rfl <;> revert h <;> decide

theorem intSyntax_inside {s : Str} {v : Int} (h : IntSyntax s v s.length) : Inside ')' s := by
  apply clean_inside _ (intSyntax_clean h).1
  intro c hc
  rcases intSyntax_ne h c hc with h | rfl | rfl | rfl
  · exact (isHex_close h).1
  all_goals decide

end Ofpstr
