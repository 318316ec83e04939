import Verif.Lemmas.ValueAton

/-!
# Exactly which texts are values: IPv4 addresses
-/

set_option linter.unusedSimpArgs false

namespace Ofpstr
open Spec

/-- The digits that `strtoul` takes. -/
def ulRun (b : Nat) (p : Char → Bool) (t : Str) : Nat × Str :=
  (ofDigits b ((t.takeWhile p).map fun c => (digitVal c).getD 0), t.dropWhile p)

theorem strtoul_hex (x d : Char) (t : Str) (hx : x = 'x' ∨ x = 'X') (hd : isHex d = true) :
    strtoul ('0' :: x :: d :: t) = ulRun 16 isHex (d :: t) := by
  show (if (x == 'x' || x == 'X') && isHex d then ulRun 16 isHex (d :: t) else _) = _
  rw [if_pos (by rcases hx with rfl | rfl <;> simp [hd])]

theorem strtoul_oct (t : Str) (h : ∀ x d r, t = x :: d :: r → (x = 'x' ∨ x = 'X') → isHex d = false) :
    strtoul ('0' :: t) = ulRun 8 isOct ('0' :: t) := by
  match t with
  | [] => rfl
  | [x] => rfl
  | x :: d :: r =>
    show (if (x == 'x' || x == 'X') && isHex d then ulRun 16 isHex (d :: r) else ulRun 8 isOct ('0' :: x :: d :: r)) = _
    rw [if_neg]
    intro hc
    simp only [Bool.and_eq_true, Bool.or_eq_true, beq_iff_eq] at hc
    rw [h x d r rfl hc.1] at hc
    exact absurd hc.2 (by simp)

theorem strtoul_dec (c : Char) (t : Str) (h : c ≠ '0') : strtoul (c :: t) = ulRun 10 isDec (c :: t) := by
  unfold strtoul
  dsimp only
  split
  · rename_i he; cases he; exact absurd rfl h
  · rename_i he; cases he; exact absurd rfl h
  · rfl

theorem ulRun_take (b : Nat) (hb : b ≤ 16) (p : Char → Bool) (hp : ∀ c, p c = true ↔ ∃ d, Digit b c d) (c : Char) (t : Str)
    (hc : p c = true) {v : Nat} {rest : Str} (h : ulRun b p (c :: t) = (v, rest)) :
    ∃ a, c :: t = a ++ rest ∧ Numeral b a v ∧ ∃ a', a = c :: a' := by
  unfold ulRun at h
  cases h
  refine ⟨(c :: t).takeWhile p, (List.takeWhile_append_dropWhile).symm, ?_, ?_⟩
  · refine (numeral_iff b hb _ _).2 ⟨by simp [hc], ?_, rfl⟩
    intro x hx
    exact (hp x).1 (List.all_eq_true.1 (List.all_takeWhile (l := c :: t) (p := p)) x hx)
  · exact ⟨t.takeWhile p, by simp [hc]⟩

theorem ulRun_mk (b : Nat) (hb : b ≤ 16) (p : Char → Bool) (hp : ∀ c, p c = true ↔ ∃ d, Digit b c d) (a r : Str) (n : Nat)
    (ha : Numeral b a n) (hr : ∀ c t, r = c :: t → p c = false) : ulRun b p (a ++ r) = (n, r) := by
  obtain ⟨_, h2, h3⟩ := (numeral_iff b hb _ _).1 ha
  have hall : ∀ c ∈ a, p c = true := fun c hc => (hp c).2 (h2 c hc)
  have e1 : (a ++ r).takeWhile p = a := by
    rw [List.takeWhile_append_of_pos hall]
    cases r with
    | nil => simp
    | cons c t => simp [hr c t rfl]
  have e2 : (a ++ r).dropWhile p = r := by
    rw [List.dropWhile_append_of_pos hall]
    cases r with
    | nil => simp
    | cons c t => simp [hr c t rfl]
  unfold ulRun
  rw [e1, e2, h3]

theorem strtoul_take (c : Char) (t : Str) (hc : isDec c = true) {v : Nat} {rest : Str}
    (h : strtoul (c :: t) = (v, rest)) : ∃ a, c :: t = a ++ rest ∧ CNum a v := by
  by_cases h0 : c = '0'
  · subst h0
    by_cases hx : ∃ x d r, t = x :: d :: r ∧ (x = 'x' ∨ x = 'X') ∧ isHex d = true
    · obtain ⟨x, d, r, rfl, hx, hd⟩ := hx
      rw [strtoul_hex x d r hx hd] at h
      obtain ⟨a, h1, h2, _⟩ := ulRun_take 16 (by omega) isHex isHex_iff d r hd h
      exact ⟨'0' :: x :: a, by rw [h1]; rfl, .hex x a v hx h2⟩
    · rw [strtoul_oct] at h
      · obtain ⟨a, h1, h2, a', rfl⟩ := ulRun_take 8 (by omega) isOct isOct_iff '0' t (by decide) h
        exact ⟨_, h1, .oct a' v h2⟩
      · intro x d r ht hxx
        cases hd : isHex d with
        | false => rfl
        | true => exact absurd ⟨x, d, r, ht, hxx, hd⟩ hx
  · rw [strtoul_dec c t h0] at h
    obtain ⟨a, h1, h2, a', rfl⟩ := ulRun_take 10 (by omega) isDec isDec_iff c t hc h
    exact ⟨_, h1, .dec c a' v h0 h2⟩

/-- The characters of a number as in C. -/
def CChar (c : Char) : Prop := isHex c = true ∨ c = 'x' ∨ c = 'X' ∨ c = '.'

theorem digit_le {b b' : Nat} {c : Char} {d : Nat} (h : Digit b c d) (hb : b ≤ 16) (hb' : b' ≤ 16) (hd : d < b') :
    Digit b' c d := by
  rw [digit_iff b hb] at h
  rw [digit_iff b' hb']
  exact ⟨h.1, hd⟩

theorem numeral_hexes {b : Nat} (hb : b ≤ 16) {s : Str} {n : Nat} (h : Numeral b s n) : ∀ c ∈ s, isHex c = true := by
  intro c hc
  obtain ⟨d, hd⟩ := ((numeral_iff b hb _ _).1 h).2.1 c hc
  have := (digit_iff b hb c d).1 hd
  unfold isHex
  rw [this.1]
  rfl

theorem cnum_facts {s : Str} {n : Nat} (h : CNum s n) : (∀ c ∈ s, CChar c) ∧ ∃ c t, s = c :: t ∧ isDec c = true := by
  have h0 : isHex '0' = true := by decide
  cases h with
  | hex x ds _ hx hn =>
    refine ⟨?_, '0', x :: ds, rfl, by decide⟩
    intro c hc
    simp only [List.mem_cons] at hc
    rcases hc with rfl | rfl | hc
    · exact Or.inl h0
    · rcases hx with h | h
      · exact Or.inr (Or.inl h)
      · exact Or.inr (Or.inr (Or.inl h))
    · exact Or.inl (numeral_hexes (by omega) hn c hc)
  | oct ds _ hn => exact ⟨fun c hc => Or.inl (numeral_hexes (by omega) hn c hc), '0', ds, rfl, by decide⟩
  | dec c ds _ h0 hn =>
    exact ⟨fun c hc => Or.inl (numeral_hexes (by omega) hn c hc), c, ds, rfl,
      (isDec_iff c).2 (((numeral_iff 10 (by omega) _ _).1 hn).2.1 c (by simp))⟩

theorem strtoul_mk (a r : Str) (n : Nat) (ha : CNum a n) (hr : r = [] ∨ ∃ t, r = '.' :: t) :
    strtoul (a ++ r) = (n, r) := by
  have stop : ∀ p : Char → Bool, p '.' = false → ∀ c t, r = c :: t → p c = false := by
    intro p hp c t he
    rcases hr with rfl | ⟨t', rfl⟩
    · cases he
    · cases he; exact hp
  cases ha with
  | hex x ds _ hx hn =>
    obtain ⟨h1, h2, _⟩ := (numeral_iff 16 (by omega) _ _).1 hn
    cases ds with
    | nil => exact absurd rfl h1
    | cons d ds =>
      show strtoul ('0' :: x :: d :: (ds ++ r)) = _
      rw [strtoul_hex x d (ds ++ r) hx ((isHex_iff d).2 (h2 d (by simp)))]
      exact ulRun_mk 16 (by omega) isHex isHex_iff (d :: ds) r n hn (stop _ (by decide))
  | oct ds _ hn =>
    show strtoul ('0' :: (ds ++ r)) = _
    rw [strtoul_oct]
    · exact ulRun_mk 8 (by omega) isOct isOct_iff ('0' :: ds) r n hn (stop _ (by decide))
    · intro x d q he hx
      exfalso
      cases ds with
      | nil =>
        rcases hr with rfl | ⟨t', rfl⟩
        · simp at he
        · simp at he
          rcases hx with rfl | rfl <;> exact absurd he.1 (by decide)
      | cons y ds =>
        have hy := ((numeral_iff 8 (by omega) _ _).1 hn).2.1 y (by simp)
        have hy := (isOct_iff y).2 hy
        simp at he
        rw [he.1] at hy
        rcases hx with rfl | rfl <;> revert hy <;> decide
  | dec c ds _ h0 hn =>
    show strtoul (c :: (ds ++ r)) = _
    rw [strtoul_dec c _ h0]
    exact ulRun_mk 10 (by omega) isDec isDec_iff (c :: ds) r n hn (stop _ (by decide))

/-- The parts of an address and its last number. -/
inductive AtonP : Str → List Nat → Nat → Prop
  | last (s n) : CNum s n → AtonP s [] n
  | part (sa a s qs n) : CNum sa a → a < 256 → AtonP s qs n → AtonP (sa ++ '.' :: s) (a :: qs) n

theorem atonP_chars {s qs n} (h : AtonP s qs n) : (∀ c ∈ s, CChar c) ∧ ∃ c t, s = c :: t ∧ isDec c = true := by
  induction h with
  | last s n h => exact cnum_facts h
  | part sa a s qs n h1 h2 h3 ih =>
    obtain ⟨g1, c, t, rfl, g2⟩ := cnum_facts h1
    refine ⟨?_, c, t ++ '.' :: s, rfl, g2⟩
    intro x hx
    simp only [List.mem_append, List.mem_cons] at hx
    rcases hx with hx | rfl | hx
    · exact g1 x (by simpa using hx)
    · exact Or.inr (Or.inr (Or.inr rfl))
    · exact ih.1 x hx

theorem aton_iff (k : Nat) (s : Str) (b : Bytes) : Aton k s b ↔ ∃ qs n, AtonP s qs n ∧ qs.length < k ∧
    n < 256 ^ (k - qs.length) ∧ b = qs.map UInt8.ofNat ++ be (k - qs.length) n := by
  constructor
  · intro h
    induction h with
    | last k s n h1 h2 => exact ⟨[], n, .last _ _ h1, by simp, by simpa using h2, by simp⟩
    | part k sa a s b h1 h2 h3 ih =>
      obtain ⟨qs, n, g1, g2, g3, rfl⟩ := ih
      exact ⟨a :: qs, n, .part _ _ _ _ _ h1 h2 g1, by simpa using g2, by simpa using g3, by simp⟩
  · rintro ⟨qs, n, h, h1, h2, rfl⟩
    induction h generalizing k with
    | last s n h =>
      cases k with
      | zero => simp at h1
      | succ k => exact .last k s n h (by simpa using h2)
    | part sa a s qs n g1 g2 g3 ih =>
      cases k with
      | zero => simp at h1
      | succ k =>
        have := ih k (by simpa using h1) (by simpa using h2)
        simpa using Aton.part k sa a s _ g1 g2 this

theorem inetAtonGo_inv (f : Nat) (ps : List Nat) (s : Str) (r : List Nat × Nat) (h : inetAtonGo f ps s = some r) :
    (∃ qs, AtonP s qs r.2 ∧ r.1 = ps ++ qs) ∨
    ∃ pre w junk, s = pre ++ w :: junk ∧ isAsciiWs w = true ∧ ∀ c ∈ pre, CChar c := by
  induction f generalizing ps s with
  | zero => cases h
  | succ f ih =>
    cases s with
    | nil => cases h
    | cons c cs =>
      rw [inetAtonGo] at h
      dsimp only at h
      split at h
      · cases h
      · rename_i hc
        have hc : isDec c = true := by simpa using hc
        rcases hst : strtoul (c :: cs) with ⟨v, rest⟩
        obtain ⟨a, ha, hn⟩ := strtoul_take c cs hc hst
        rw [hst] at h
        dsimp only at h
        split at h
        · cases h
        · split at h
          · rename_i rest'
            split at h
            · cases h
            · rename_i hc2
              simp only [Bool.or_eq_true, decide_eq_true_eq, not_or] at hc2
              rcases ih _ _ h with ⟨qs, h1, h2⟩ | ⟨pre, w, junk, h1, h2, h3⟩
              · refine Or.inl ⟨v :: qs, ?_, by rw [h2]; simp⟩
                rw [ha]
                exact .part _ _ _ _ _ hn (by omega) h1
              · refine Or.inr ⟨a ++ '.' :: pre, w, junk, by rw [ha, h1]; simp, h2, ?_⟩
                intro x hx
                simp only [List.mem_append, List.mem_cons] at hx
                rcases hx with hx | rfl | hx
                · exact (cnum_facts hn).1 x hx
                · exact Or.inr (Or.inr (Or.inr rfl))
                · exact h3 x hx
          · rename_i d tl _
            split at h
            · rename_i hw
              exact Or.inr ⟨a, d, tl, ha, hw, (cnum_facts hn).1⟩
            · cases h
          · cases h
            refine Or.inl ⟨[], ?_, by simp⟩
            rw [ha, List.append_nil]
            exact .last _ _ hn

theorem inetAtonGo_mk (s : Str) (qs : List Nat) (n : Nat) (h : AtonP s qs n) (ps : List Nat) (f : Nat)
    (hf : s.length < f) (hl : ps.length + qs.length ≤ 3) (hn : n ≤ 0xffffffff) :
    inetAtonGo f ps s = some (ps ++ qs, n) := by
  induction h generalizing ps f with
  | last s n h =>
    cases f with
    | zero => omega
    | succ f =>
      obtain ⟨_, c, t, rfl, hc⟩ := cnum_facts h
      have e := strtoul_mk (c :: t) [] n h (Or.inl rfl)
      rw [List.append_nil] at e
      rw [inetAtonGo, e]
      simp [hc, Nat.not_lt.2 hn]
  | part sa a s qs n g1 g2 g3 ih =>
    cases f with
    | zero => omega
    | succ f =>
      have e := strtoul_mk sa ('.' :: s) a g1 (Or.inr ⟨s, rfl⟩)
      obtain ⟨_, c, t, rfl, hc⟩ := cnum_facts g1
      rw [List.cons_append] at e ⊢
      rw [inetAtonGo, e]
      simp only [List.length_cons] at hl
      simp only [List.length_append, List.length_cons] at hf
      have h1 : ¬ a > 0xffffffff := by omega
      have h2 : ¬ (ps.length > 2 ∨ a > 0xff) := by omega
      simp only [hc, Bool.not_true, Bool.false_eq_true, if_false, h1, Bool.or_eq_true, decide_eq_true_eq, h2]
      rw [ih (ps ++ [a]) f (by omega) (by simp; omega) hn]
      simp

theorem cchar_nul : ¬ CChar '\x00' := by unfold CChar; decide

theorem inetAton_of {s : Str} {b : Bytes} (h : Aton 4 s b) : inetAton s = .ok b := by
  obtain ⟨qs, n, h1, h2, h3, rfl⟩ := (aton_iff 4 s b).1 h
  have hn : n ≤ 0xffffffff := by
    have : 256 ^ (4 - qs.length) ≤ 256 ^ 4 := Nat.pow_le_pow_right (by omega) (by omega)
    have e : 256 ^ 4 = 4294967296 := by decide
    omega
  have e := inetAtonGo_mk s qs n h1 [] (s.length + 1) (by omega) (by simp; omega) hn
  unfold inetAton
  rw [if_neg, e]
  · dsimp only
    simp only [List.nil_append]
    rw [if_pos h3, spec_be]
  · intro hc
    exact cchar_nul ((atonP_chars h1).1 _ (by simpa using hc))

theorem aton_or {s : Str} {b : Bytes} (h : inetAton s = .ok b) : Aton 4 s b ∨
    ∃ pre w junk, s = pre ++ w :: junk ∧ isAsciiWs w = true ∧ ∀ c ∈ pre, CChar c := by
  unfold inetAton at h
  split at h
  · cases h
  · split at h
    · cases h
    · rename_i ps v hg
      have hl := inetAtonGo_parts _ _ _ _ (by simp) hg
      dsimp only at h hl
      split at h
      · rename_i hv
        cases h
        rcases inetAtonGo_inv _ _ _ _ hg with ⟨qs, h1, h2⟩ | h1
        · simp only [List.nil_append] at h2
          subst h2
          exact Or.inl ((aton_iff _ _ _).2 ⟨_, v, h1, by omega, hv, by rw [spec_be]⟩)
        · exact Or.inr h1
      · cases h

/-- No white space comes in a token before a bracket opens. -/
theorem token_no_ws {pre junk : Str} {w : Char} (hp : ∀ c ∈ pre, NotOpen c) (hw : SepChar w) (hwo : NotOpen w) :
    ¬ Token (pre ++ w :: junk) ∧ ¬ OpenToken (pre ++ w :: junk) := by
  have pair : ∀ o e, Pair o e → NotOpen o → False := by
    intro o e h
    cases h <;> (intro h; revert h; decide)
  induction pre with
  | nil =>
    constructor
    · intro h
      cases h with
      | char _ _ h => exact h hw
      | group o e p s h => exact pair _ _ h hwo
    · intro h
      cases h with
      | start _ e _ h => exact pair _ _ h hwo
      | char _ _ h => exact h hw
      | group o e p s h => exact pair _ _ h hwo
  | cons c pre ih =>
    have hc := hp c (by simp)
    have ih := ih (fun x hx => hp x (by simp [hx]))
    constructor
    · intro h
      rw [List.cons_append] at h
      generalize hs : c :: (pre ++ w :: junk) = s at h
      cases h with
      | nil => cases hs
      | char _ _ _ _ _ h => cases hs; exact ih.1 h
      | group o e p s h => simp only [List.cons_append, List.cons.injEq] at hs; exact pair _ _ h (hs.1 ▸ hc)
    · intro h
      rw [List.cons_append] at h
      generalize hs : c :: (pre ++ w :: junk) = s at h
      cases h with
      | start _ e _ h => cases hs; exact pair _ _ h hc
      | char _ _ _ _ _ h => cases hs; exact ih.2 h
      | group o e p s h => simp only [List.cons_append, List.cons.injEq] at hs; exact pair _ _ h (hs.1 ▸ hc)

theorem cchar_notOpen {c : Char} (h : CChar c) : NotOpen c := by
  unfold NotOpen
  refine ⟨?_, ?_, ?_, ?_⟩ <;> (rintro rfl; revert h; unfold CChar; decide)

theorem ws_sep {w : Char} (h : isAsciiWs w = true) : SepChar w ∧ NotOpen w := by
  unfold isAsciiWs at h
  simp only [Bool.or_eq_true, beq_iff_eq] at h
  rcases h with ((((rfl | rfl) | rfl) | rfl) | rfl) | rfl <;> decide

theorem token_of_self {v : Str} (hg : getToken v = ([], v, [])) : Token v ∨ OpenToken v := by
  have := getToken_cases v
  rw [hg] at this
  rcases this with h | h
  · exact Or.inl h.1
  · exact Or.inr h.1

theorem inetAton_tok {v x s y : Str} (hg : getToken v = ([], v, [])) (hv : v = x ++ s ++ y) (hx : ∀ c ∈ x, NotOpen c)
    (b : Bytes) : inetAton s = .ok b ↔ Aton 4 s b := by
  constructor
  · intro h
    rcases aton_or h with h | ⟨pre, w, junk, rfl, h2, h3⟩
    · exact h
    · exfalso
      have hw := ws_sep h2
      have := token_no_ws (pre := x ++ pre) (junk := junk ++ y) (w := w)
        (by intro c hc; rcases List.mem_append.1 hc with hc | hc
            · exact hx c hc
            · exact cchar_notOpen (h3 c hc)) hw.1 hw.2
      have e : v = x ++ pre ++ w :: (junk ++ y) := by rw [hv]; simp
      rw [e] at hg
      rcases token_of_self hg with h | h
      · exact this.1 h
      · exact this.2 h
  · exact inetAton_of

theorem aton_chars {k s b} (h : Aton k s b) : ∀ c ∈ s, CChar c := by
  obtain ⟨qs, n, h1, _⟩ := (aton_iff _ _ _).1 h
  exact (atonP_chars h1).1

theorem aton_noslash {k s b} (h : Aton k s b) : '/' ∉ s := by
  intro hc
  have := aton_chars h _ hc
  revert this; unfold CChar; decide

theorem aton_len {k s b} (h : Aton k s b) : b.length = k := by
  induction h with
  | last k s n => simp [be_len]
  | part k sa a s b _ _ _ ih => simp [ih]

theorem ipv4_exact (key : Key) (v : Str) (hg : getToken v = ([], v, [])) :
    ExactOn key .ipv4 .ipv4 v := by
  intro bin l
  have key' := split_iff (d := inetAton) (dm := ipv4Mask)
    (F := fun p q => (header key 4 true ++ (p ++ q), 0 + v.length))
    (G := fun p => (header key 4 false ++ p, 0 + v.length))
    (P := fun s p => '/' ∉ s ∧ inetAton s = .ok p) (Q := fun s q => inetAton s = .ok q)
    (fun s p => Iff.rfl)
    (fun s p => (ipv4Mask_eq _ _).symm) v (bin, l)
  show (ipv4Str2bin key v = _ ∧ _) ↔ ∃ p m, Masked (Aton 4) (Aton 4) v p m ∧ _
  unfold ipv4Str2bin
  rw [hg]
  refine (Iff.and key' Iff.rfl).trans ?_
  constructor
  · rintro ⟨⟨p, h1, h2⟩ | ⟨a, b, p, q, hv, h1, h2, h3⟩, hl⟩
    · cases h2
      have h1 := (inetAton_tok hg (x := []) (y := []) (by simp) (by simp) p).1 h1.2
      exact ⟨p, none, .plain _ _ h1, hl, by simp [fieldBytes, aton_len h1]⟩
    · cases h3
      have h1 := (inetAton_tok hg (x := []) (s := a) (y := '/' :: b) (by simp [hv]) (by simp) p).1 h1.2
      have h2 := (inetAton_tok hg (x := a ++ ['/']) (s := b) (y := []) (by simp [hv]) (by
        intro c hc
        rcases List.mem_append.1 hc with hc | hc
        · exact cchar_notOpen (aton_chars h1 c hc)
        · simp at hc; subst hc; decide) q).1 h2
      refine ⟨p, some q, ?_, hl, by simp [fieldBytes, aton_len h1]⟩
      rw [hv]
      exact .mask _ _ _ _ h1 h2
  · rintro ⟨p, m, h, rfl, rfl⟩
    refine ⟨?_, rfl⟩
    cases h with
    | plain _ _ h1 => exact Or.inl ⟨p, ⟨aton_noslash h1, inetAton_of h1⟩, by simp [fieldBytes, aton_len h1]⟩
    | mask a b _ q h1 h2 =>
      exact Or.inr ⟨a, b, p, q, rfl, ⟨aton_noslash h1, inetAton_of h1⟩, inetAton_of h2, by simp [fieldBytes, aton_len h1]⟩

end Ofpstr
