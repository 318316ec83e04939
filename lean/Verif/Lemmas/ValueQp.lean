import Verif.Lemmas.ValueRate

/-!
# Exactly which texts are values: SSIDs
-/

set_option linter.unusedSimpArgs false

namespace Ofpstr
open Spec

theorem dropWhile_eol (ds : Str) : ('\n' ∉ ds ∧ (ds.dropWhile (· != '\n')).drop 1 = []) ∨
    ∃ t s, ds = t ++ '\n' :: s ∧ '\n' ∉ t ∧ (ds.dropWhile (· != '\n')).drop 1 = s := by
  induction ds with
  | nil => exact Or.inl ⟨by simp, rfl⟩
  | cons c ds ih =>
    by_cases hc : c = '\n'
    · subst hc
      exact Or.inr ⟨[], ds, rfl, by simp, by simp⟩
    · have e : (c :: ds).dropWhile (· != '\n') = ds.dropWhile (· != '\n') := by simp [hc]
      rw [e]
      rcases ih with ⟨h1, h2⟩ | ⟨t, s, rfl, h1, h2⟩
      · exact Or.inl ⟨by simp only [List.mem_cons, not_or]; exact ⟨fun h => hc h.symm, h1⟩, h2⟩
      · exact Or.inr ⟨c :: t, s, rfl, by simp only [List.mem_cons, not_or]; exact ⟨fun h => hc h.symm, h1⟩, h2⟩

theorem dropWhile_eol_mk (t s : Str) (h : '\n' ∉ t) : ((t ++ '\n' :: s).dropWhile (· != '\n')).drop 1 = s := by
  induction t with
  | nil => simp
  | cons c t ih =>
    have hc : c ≠ '\n' := fun he => h (by simp [he])
    have e : ((c :: t) ++ '\n' :: s).dropWhile (· != '\n') = (t ++ '\n' :: s).dropWhile (· != '\n') := by simp [hc]
    rw [e]
    exact ih (fun he => h (by simp [he]))

theorem dropWhile_eol_none (t : Str) (h : '\n' ∉ t) : (t.dropWhile (· != '\n')).drop 1 = [] := by
  rcases dropWhile_eol t with ⟨_, h2⟩ | ⟨a, b, rfl, _⟩
  · exact h2
  · simp at h

theorem qpGo_char (fuel : Nat) (c : Char) (cs : Str) (h : c ≠ '=') :
    a2bQpGo (fuel + 1) (c :: cs) = UInt8.ofNat c.toNat :: a2bQpGo fuel cs := by
  rw [a2bQpGo.eq_def]
  simp [h]

theorem qpGo_eq (fuel : Nat) (d : Char) (ds : Str) : a2bQpGo (fuel + 1) ('=' :: d :: ds) =
    if d == '\n' then a2bQpGo fuel ds
    else if d == '\r' then a2bQpGo fuel ((ds.dropWhile (· != '\n')).drop 1)
    else if d == '=' then 61 :: a2bQpGo fuel ds
    else match digitVal d, ds with
      | some x, e :: es =>
        match digitVal e with
        | some y => UInt8.ofNat (16 * x + y) :: a2bQpGo fuel es
        | none => 61 :: a2bQpGo fuel (d :: ds)
      | _, _ => 61 :: a2bQpGo fuel (d :: ds) := rfl

theorem qpMeans_go (fuel : Nat) (s : Str) (h : s.length < fuel) : QpMeans s (a2bQpGo fuel s) := by
  induction fuel generalizing s with
  | zero => omega
  | succ fuel ih =>
    cases s with
    | nil => rw [a2bQpGo]; exact .nil
    | cons c cs =>
      have hcs : cs.length < fuel := by simp at h; omega
      by_cases hc : c = '='
      · subst hc
        cases cs with
        | nil => rw [a2bQpGo, if_pos (by rfl)]; exact .cut
        | cons d ds =>
          rw [qpGo_eq]
          have hds : ds.length < fuel := by simp at hcs; omega
          by_cases h1 : d = '\n'
          · subst h1
            rw [if_pos (by rfl)]
            exact .soft _ _ (ih ds hds)
          rw [if_neg (by simpa using h1)]
          by_cases h2 : d = '\r'
          · subst h2
            rw [if_pos (by rfl)]
            rcases dropWhile_eol ds with ⟨h3, h4⟩ | ⟨t, s, rfl, h3, h4⟩
            · rw [h4]
              have : a2bQpGo fuel [] = [] := by cases fuel <;> rfl
              rw [this]
              exact .cutCr ds h3
            · rw [h4]
              exact .softCr t s _ h3 (ih s (by simp at hds; omega))
          rw [if_neg (by simpa using h2)]
          by_cases h3 : d = '='
          · subst h3
            rw [if_pos (by rfl)]
            exact .twice _ _ (ih ds hds)
          rw [if_neg (by simpa using h3)]
          split
          · rename_i o l x e es hx
            split
            · rename_i y hy
              exact .hex d e x y es _ ((digitVal_iff d x).1 hx) ((digitVal_iff e y).1 hy) (ih es (by simp at hds; omega))
            · rename_i hy
              refine .other d _ _ h1 h2 h3 ?_ (ih _ hcs)
              intro y t i j he _ hj
              cases he
              rw [(digitVal_iff _ j).2 hj] at hy
              cases hy
          · rename_i hno
            refine .other d _ _ h1 h2 h3 ?_ (ih _ hcs)
            intro y t i j he hi hj
            subst he
            exact hno i y t ((digitVal_iff d i).2 hi) rfl
      · rw [qpGo_char _ _ _ hc]
        exact .char c cs _ hc (ih cs hcs)

theorem go_of_qpMeans {s : Str} {b : Bytes} (h : QpMeans s b) (fuel : Nat) (hf : s.length < fuel) :
    a2bQpGo fuel s = b := by
  have digit : ∀ (c : Char) (i : Nat), Digit 16 c i → c ≠ '\n' ∧ c ≠ '\r' ∧ c ≠ '=' := by
    intro c i hd
    have := (isHex_iff c).2 ⟨i, hd⟩
    refine ⟨?_, ?_, ?_⟩ <;> (rintro rfl; revert this; decide)
  induction h generalizing fuel with
  | nil => cases fuel <;> rfl
  | char c s b hc _ ih =>
    cases fuel with
    | zero => omega
    | succ fuel =>
      rw [qpGo_char _ _ _ hc, ih fuel (by simp at hf; omega)]
  | hex x y i j s b hx hy _ ih =>
    cases fuel with
    | zero => omega
    | succ fuel =>
      obtain ⟨d1, d2, d3⟩ := digit x i hx
      rw [qpGo_eq]
      rw [if_neg (by simpa using d1), if_neg (by simpa using d2), if_neg (by simpa using d3)]
      rw [(digitVal_iff x i).2 hx]
      dsimp only
      rw [(digitVal_iff y j).2 hy]
      dsimp only
      rw [ih fuel (by simp at hf; omega)]
  | soft s b _ ih =>
    cases fuel with
    | zero => omega
    | succ fuel =>
      rw [qpGo_eq]
      rw [if_pos (by rfl), ih fuel (by simp at hf; omega)]
  | softCr t s b ht _ ih =>
    cases fuel with
    | zero => omega
    | succ fuel =>
      rw [qpGo_eq]
      rw [if_neg (by decide), if_pos (by rfl), dropWhile_eol_mk t s ht, ih fuel (by simp at hf; omega)]
  | cut =>
    cases fuel with
    | zero => omega
    | succ fuel => rw [a2bQpGo, if_pos (by rfl)]
  | cutCr t ht =>
    cases fuel with
    | zero => omega
    | succ fuel =>
      rw [qpGo_eq]
      rw [if_neg (by decide), if_pos (by rfl), dropWhile_eol_none t ht]
      cases fuel <;> rfl
  | twice s b _ ih =>
    cases fuel with
    | zero => omega
    | succ fuel =>
      rw [qpGo_eq]
      rw [if_neg (by decide), if_neg (by decide), if_pos (by rfl), ih fuel (by simp at hf; omega)]
  | other d s b h1 h2 h3 hno _ ih =>
    cases fuel with
    | zero => omega
    | succ fuel =>
      rw [qpGo_eq]
      rw [if_neg (by simpa using h1), if_neg (by simpa using h2), if_neg (by simpa using h3)]
      have hi := ih fuel (by simp at hf ⊢; omega)
      split
      · rename_i x e es hx _
        split
        · rename_i y hy
          exact absurd ((digitVal_iff e y).1 hy) (hno e es x y rfl ((digitVal_iff d x).1 hx))
        · rw [hi]
      · rw [hi]

theorem a2bQp_iff (s : Str) (b : Bytes) : a2bQp s = .ok b ↔ (∀ c ∈ s, c.toNat < 128) ∧ QpMeans s b := by
  unfold a2bQp
  by_cases h : ∀ c ∈ s, c.toNat < 128
  · rw [if_pos (by simpa using h)]
    constructor
    · intro h'; cases h'; exact ⟨h, qpMeans_go _ _ (by omega)⟩
    · rintro ⟨_, h'⟩; rw [go_of_qpMeans h' _ (by omega)]
  · rw [if_neg (by simpa using h)]
    constructor
    · intro h'; cases h'
    · rintro ⟨h', _⟩; exact absurd h' h

theorem ssid_exact (key : Key) (v : Str) (hg : getToken v = ([], v, [])) : ExactOn key .ssid .ssid v := by
  intro bin l
  show (ssidStr2bin key v = _ ∧ _) ↔ ∃ p m, Filled SsidValue SsidMask v p m ∧ _
  unfold ssidStr2bin
  rw [hg]
  dsimp only
  constructor
  · rintro ⟨h0, hl⟩
    rcases hs : splitAll '/' v with _ | ⟨a, ms⟩
    · exact absurd hs (splitAll_ne_nil _ _)
    · rw [hs] at h0
      dsimp only at h0
      obtain ⟨p, h1, h⟩ := bind_ok h0
      clear h0
      obtain ⟨h2, h3⟩ := splitAll_inv '/' v a ms hs
      have hp : SsidValue a p := ⟨h2, (a2bQp_iff _ _).1 h1⟩
      rcases h3 with ⟨rfl, rfl⟩ | ⟨u, rfl, rfl⟩
      · dsimp only at h
        cases h
        exact ⟨p, none, .plain _ _ hp, hl, by simp [fieldBytes]⟩
      · rcases hs2 : splitAll '/' u with _ | ⟨m, ms⟩
        · exact absurd hs2 (splitAll_ne_nil _ _)
        · rw [hs2] at h
          dsimp only at h
          obtain ⟨q, h4, h⟩ := bind_ok h
          cases h
          have hm := a2b_hexText _ _ h4
          obtain ⟨_, h6⟩ := splitAll_inv '/' u m ms hs2
          refine ⟨_, _, .mask a u p q hp ?_, hl, by simp [fieldBytes, padMask_eq]⟩
          rcases h6 with ⟨rfl, _⟩ | ⟨w, rfl, _⟩
          · exact .hex _ _ hm
          · exact .junk _ _ _ hm
  · rintro ⟨p, m, h, rfl, rfl⟩
    refine ⟨?_, rfl⟩
    cases h with
    | plain _ _ h =>
      rw [splitAll_none '/' v (fun c hc he => h.1 (he ▸ hc))]
      dsimp only
      rw [(a2bQp_iff _ _).2 h.2, ok_bind]
      simp [fieldBytes]
    | mask a b p' q h1 h2 =>
      rw [splitAll_some '/' a b (fun c hc he => h1.1 (he ▸ hc))]
      dsimp only
      rw [(a2bQp_iff _ _).2 h1.2, ok_bind]
      cases h2 with
      | hex _ _ h =>
        rw [splitAll_none '/' b (fun c hc he => hexText_noslash h (he ▸ hc))]
        dsimp only
        rw [(hexText_a2b h).1, ok_bind]
        simp [fieldBytes, padMask_eq]
      | junk s _ r h =>
        rw [splitAll_some '/' s r (fun c hc he => hexText_noslash h (he ▸ hc))]
        dsimp only
        rw [(hexText_a2b h).1, ok_bind]
        simp [fieldBytes, padMask_eq]

end Ofpstr
