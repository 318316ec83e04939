import Verif.Lemmas.OxmId

/-!
# Decimal texts
-/

namespace Ofpstr
open Spec

theorem ofDigits_append_one (b : Nat) (l : List Nat) (d : Nat) :
    ofDigits b (l ++ [d]) = ofDigits b l * b + d := ofDigits_snoc b l d

theorem ofDigits_pos (b : Nat) (hb : 0 < b) (l : List Nat) (hl : l ≠ []) (h : l.head? ≠ some 0) :
    0 < ofDigits b l := by
  have key : ∀ (m : List Nat) (a : Nat), 0 < a → 0 < m.foldl (fun a d => a * b + d) a := by
    intro m
    induction m with
    | nil => intro a ha; exact ha
    | cons x m ih =>
      intro a ha
      rw [List.foldl_cons]
      exact ih _ (Nat.add_pos_left (Nat.mul_pos ha hb) _)
  cases l with
  | nil => exact absurd rfl hl
  | cons x l =>
    unfold ofDigits
    rw [List.foldl_cons]
    apply key
    simp at h
    omega

/-- A number has one digit list without leading zeros. -/
theorem ofDigits_inj (b : Nat) (n : Nat) : ∀ (l m : List Nat), l.length ≤ n → (∀ d ∈ l, d < b) →
    (∀ d ∈ m, d < b) → l.head? ≠ some 0 → m.head? ≠ some 0 → ofDigits b l = ofDigits b m →
    l = m := by
  induction n with
  | zero =>
    intro l m hl h1 h2 h3 h4 he
    have hl' : l = [] := List.length_eq_zero_iff.1 (by omega)
    subst hl'
    by_cases hm : m = []
    · exact hm.symm
    · cases m with
      | nil => exact absurd rfl hm
      | cons x m =>
        have hb : 0 < b := by have := h2 x (by simp); omega
        have := ofDigits_pos b hb _ hm h4
        rw [← he] at this
        simp [ofDigits] at this
  | succ n ih =>
    intro l m hl h1 h2 h3 h4 he
    rcases List.eq_nil_or_concat l with rfl | ⟨l', d, rfl⟩
    · exact ih [] m (by simp) h1 h2 h3 h4 he
    · have hb : 0 < b := by have := h1 d (by simp); omega
      rcases List.eq_nil_or_concat m with rfl | ⟨m', e, rfl⟩
      · have := ofDigits_pos b hb _ (by simp) h3
        rw [he] at this
        simp [ofDigits] at this
      · simp only [List.concat_eq_append] at *
        rw [ofDigits_snoc, ofDigits_snoc] at he
        have hd := h1 d (by simp)
        have hE := h2 e (by simp)
        have hde : d = e := by
          have := congrArg (· % b) he
          simpa [Nat.mod_eq_of_lt hd, Nat.mod_eq_of_lt hE, Nat.add_mod, Nat.mul_mod] using this
        subst hde
        have hq : ofDigits b l' = ofDigits b m' := by
          have : ofDigits b l' * b = ofDigits b m' * b := by omega
          exact Nat.eq_of_mul_eq_mul_right hb this
        have hh : ∀ (x : List Nat), (x ++ [d]).head? ≠ some 0 → x.head? ≠ some 0 := by
          intro x hx
          cases x with
          | nil => simp
          | cons y x => simpa using hx
        rw [ih l' m' (by simp at hl; omega) (fun x hx => h1 x (by simp [hx]))
          (fun x hx => h2 x (by simp [hx])) (hh _ h3) (hh _ h4) hq]

theorem digitChar_digitVal {c : Char} (h : isDec c = true) : digitChar ((digitVal c).getD 0) = c := by
  obtain ⟨d, hd⟩ := (isDec_iff c).1 h
  have h1 := ((digit_iff 10 (by omega) c d).1 hd)
  rw [h1.1]
  cases hd with
  | mk _ hm =>
    simp at hm
    have h2 := h1.2
    rcases hm with ⟨rfl, rfl⟩ | ⟨rfl, rfl⟩ | ⟨rfl, rfl⟩ | ⟨rfl, rfl⟩ | ⟨rfl, rfl⟩ | ⟨rfl, rfl⟩ |
      ⟨rfl, rfl⟩ | ⟨rfl, rfl⟩ | ⟨rfl, rfl⟩ | ⟨rfl, rfl⟩ | h
    all_goals first | decide | (exfalso; omega)

theorem decimal_fmtD (n : Nat) : Decimal (fmtD n) n := by
  obtain ⟨h1, h2, h3, h4, h5⟩ := digitsOf_spec 10 n (by omega)
  refine ⟨(numeral_iff 10 (by omega) _ _).2 ⟨fmtD_ne_nil n, ?_, ?_⟩, ?_⟩
  · intro c hc
    exact (isDec_iff c).1 (fmtD_isDec n c hc)
  · unfold fmtD
    rw [map_digitVal_digitChar _ (fun d hd => by have := h2 d hd; omega), h3]
  · intro t ht
    by_cases hn : n = 0
    · subst hn
      have : fmtD 0 = ['0'] := by decide
      rw [this] at ht
      cases ht; rfl
    · have := h5 hn
      unfold fmtD at ht
      cases hd : digitsOf 10 n with
      | nil => rw [hd] at ht; cases ht
      | cons d ds =>
        rw [hd] at ht this
        simp only [List.map_cons, List.cons.injEq] at ht
        exfalso
        refine digitChar_ne_zero d (by have := h2 d (by simp [hd]); omega) ?_ ht.1
        intro h0; simp [h0] at this

theorem decimal_eq {s : Str} {n : Nat} (h : Decimal s n) : s = fmtD n := by
  obtain ⟨hn, h0⟩ := h
  obtain ⟨h1, h2, h3⟩ := (numeral_iff 10 (by omega) _ _).1 hn
  have hdec : ∀ c ∈ s, isDec c = true := fun c hc => (isDec_iff c).2 (h2 c hc)
  have hs : s = (s.map fun c => (digitVal c).getD 0).map digitChar := by
    rw [List.map_map]
    conv => lhs; rw [← List.map_id s]
    apply List.map_congr_left
    intro c hc
    exact (digitChar_digitVal (hdec c hc)).symm
  by_cases hz : s = ['0']
  · subst hz
    have : n = 0 := by rw [← h3]; decide
    subst this
    decide
  · have hlt : ∀ d ∈ s.map (fun c => (digitVal c).getD 0), d < 10 := by
      intro d hd
      obtain ⟨c, hc, rfl⟩ := List.mem_map.1 hd
      obtain ⟨e, he⟩ := h2 c hc
      have := (digit_iff 10 (by omega) c e).1 he
      rw [this.1]; exact this.2
    have hhead : (s.map fun c => (digitVal c).getD 0).head? ≠ some 0 := by
      cases s with
      | nil => exact absurd rfl h1
      | cons c t =>
        intro hh
        simp only [List.map_cons, List.head?_cons, Option.some.injEq] at hh
        have hc : c = '0' := by
          have := digitChar_digitVal (hdec c (by simp))
          rw [hh] at this
          rw [← this]; decide
        subst hc
        exact hz (by rw [h0 t rfl])
    obtain ⟨g1, g2, g3, g4, g5⟩ := digitsOf_spec 10 n (by omega)
    have hn0 : n ≠ 0 := by
      have := ofDigits_pos 10 (by omega) _ (by simpa using h1) hhead
      omega
    unfold fmtD
    rw [hs]
    congr 1
    exact ofDigits_inj 10 _ _ _ (Nat.le_refl _) hlt g2 hhead (g5 hn0) (by rw [h3, g3])

theorem decimal_iff (s : Str) (n : Nat) : Decimal s n ↔ s = fmtD n :=
  ⟨decimal_eq, fun h => h ▸ decimal_fmtD n⟩

/-! ## integer texts before another character -/

theorem noDigit_cons {b : Nat} (hb : b ≤ 16) {c : Char} (t : Str) (hc : isHex c = false) :
    NoDigit b (c :: t) := by
  intro c' t' d he hd
  cases he
  have := (isHex_iff c).2 ⟨d, hd.mono hd.lt16⟩
  rw [hc] at this; cases this

/-- An integer text stays one before any character that is no hexadecimal digit and no `x`. -/
theorem intSyntax_more {s : Str} {v : Int} (h : IntSyntax s v s.length) (c : Char) (t : Str)
    (hc : isHex c = false) (hx : c ≠ 'x' ∧ c ≠ 'X') : IntSyntax (s ++ c :: t) v s.length := by
  generalize hl : s.length = l at h
  cases h with
  | neg ds r n h1 h2 =>
    have hr : r = [] := List.length_eq_zero_iff.1 (by simp at hl; omega)
    subst hr
    simpa using IntSyntax.neg ds (c :: t) n h1 (noDigit_cons (by omega) t hc)
  | hex x ds r n h0 h1 h2 =>
    have hr : r = [] := List.length_eq_zero_iff.1 (by simp at hl; omega)
    subst hr
    simpa using IntSyntax.hex x ds (c :: t) n h0 h1 (noDigit_cons (by omega) t hc)
  | oct ds r n h1 h2 h3 =>
    have hr : r = [] := List.length_eq_zero_iff.1 (by simp at hl; omega)
    subst hr
    have := IntSyntax.oct ds (c :: t) n h1 (noDigit_cons (by omega) t hc) (by simp at h3 ⊢; omega)
    simpa using this
  | dec ds r n h1 h2 h3 h4 =>
    have hr : r = [] := List.length_eq_zero_iff.1 (by rw [List.length_append] at hl; omega)
    subst hr
    rw [List.append_nil] at *
    by_cases ho : ∃ a d, ds = ['0', a] ∧ Digit 8 a d
    · obtain ⟨a, d, rfl, hd⟩ := ho
      have hv : n = d := by
        have := ((numeral_iff 10 (by omega) _ _).1 h1).2.2
        have ha := ((digit_iff 8 (by omega) a d).1 hd).1
        simp [ofDigits, ha] at this
        have h0 : digitVal '0' = some 0 := by decide
        rw [h0] at this
        simpa using this.symm
      subst hv
      have := IntSyntax.oct [a] (c :: t) n (Numeral.one a n hd) (noDigit_cons (by omega) t hc)
        (by simp)
      simpa using this
    · refine IntSyntax.dec ds (c :: t) n h1 (noDigit_cons (by omega) t hc) ?_ ?_
      · intro u
        have := h3
        match ds, h1 with
        | [], h1 => exact absurd rfl ((numeral_iff 10 (by omega) _ _).1 h1).1
        | [a], _ =>
          constructor
          · intro he; simp at he; exact hx.1 he.2.1
          · intro he; simp at he; exact hx.2 he.2.1
        | a :: b :: ds, _ =>
          constructor
          · intro he
            simp only [List.cons_append, List.cons.injEq] at he
            exact (h3 ds).1 (by rw [he.1, he.2.1])
          · intro he
            simp only [List.cons_append, List.cons.injEq] at he
            exact (h3 ds).2 (by rw [he.1, he.2.1])
      · intro a d u hlen he hd
        match ds, h1 with
        | [], h1 => exact absurd rfl ((numeral_iff 10 (by omega) _ _).1 h1).1
        | [x], _ =>
          simp at he
          exact absurd ((isHex_iff a).2 ⟨d, hd.mono hd.lt16⟩) (by rw [← he.2.1, hc]; simp)
        | [x, y], _ =>
          simp at he
          exact ho ⟨a, d, by rw [he.1, he.2.1], hd⟩
        | x :: y :: z :: ds, _ =>
          simp only [List.cons_append, List.cons.injEq] at he
          exact h4 a d (z :: ds) (by simp) (by rw [he.1, he.2.1]) hd

/-! ## prefix lengths -/

theorem pyIntBody_dec (s : Str) (hs : ∀ c ∈ s, isDec c = true) (hne : s ≠ [] ∨ true) (b : Bool)
    (hb : b = true ∨ s ≠ []) :
    pyIntBody b s = some (s.map fun c => (digitVal c).getD 0) := by
  induction s generalizing b with
  | nil => simp at hb; subst hb; simp [pyIntBody]
  | cons c s ih =>
    rw [pyIntBody]
    simp [hs c (by simp), ih (fun x hx => hs x (by simp [hx])) (Or.inr rfl) true (Or.inl rfl)]

theorem isDec_notSpace {c : Char} (h : isDec c = true) : isReSpace c = false := by
  obtain ⟨d, hd⟩ := (isDec_iff c).1 h
  cases hd with
  | mk hlt hm =>
    simp at hm
    rcases hm with ⟨rfl, rfl⟩ | ⟨rfl, rfl⟩ | ⟨rfl, rfl⟩ | ⟨rfl, rfl⟩ | ⟨rfl, rfl⟩ | ⟨rfl, rfl⟩ |
      ⟨rfl, rfl⟩ | ⟨rfl, rfl⟩ | ⟨rfl, rfl⟩ | ⟨rfl, rfl⟩ | h
    all_goals first | decide | (exfalso; omega)

theorem dropWhile_none {α : Type} (p : α → Bool) (l : List α) (h : ∀ x ∈ l, p x = false) :
    l.dropWhile p = l := by
  cases l with
  | nil => rfl
  | cons x l => simp [List.dropWhile, h x (by simp)]

theorem pyInt_fmtD (n : Nat) : pyInt (fmtD n) = .ok (n : Int) := by
  have hd := fmtD_isDec n
  have hne := fmtD_ne_nil n
  have h1 : (fmtD n).dropWhile isReSpace = fmtD n :=
    dropWhile_none _ _ fun c hc => isDec_notSpace (hd c hc)
  have h2 : (fmtD n).reverse.dropWhile isReSpace = (fmtD n).reverse :=
    dropWhile_none _ _ fun c hc => isDec_notSpace (hd c (List.mem_reverse.1 hc))
  have hval := ((numeral_iff 10 (by omega) _ _).1 (decimal_fmtD n).1).2.2
  unfold pyInt
  simp only [h1, h2, List.reverse_reverse]
  cases hf : fmtD n with
  | nil => exact absurd hf hne
  | cons c t =>
    have hc : isDec c = true := hd c (by simp [hf])
    have hm : c ≠ '-' := by intro h; subst h; revert hc; decide
    have hp : c ≠ '+' := by intro h; subst h; revert hc; decide
    rw [pyInt.match_1.eq_3 _ _ _ _ _ (by intro t' h; cases h; exact hm rfl) (by intro t' h; cases h; exact hp rfl)]
    dsimp only
    rw [← hf, pyIntBody_dec _ hd (Or.inr rfl) false (Or.inr hne)]
    simp [hval]

theorem pton6Go_digits (s : Str) (hs : ∀ c ∈ s, isHex c = true) (cur : Str) (seen val : Nat) :
    (inetPton6Go [] none cur seen val s).bind inetPton6Fin = none := by
  induction s generalizing seen val with
  | nil =>
    rw [inetPton6Go]
    split
    · simp [inetPton6Fin]
    · simp [inetPton6Fin]
  | cons c s ih =>
    rw [inetPton6Go]
    have := hs c (by simp)
    unfold isHex at this
    cases hd : digitVal c with
    | none => simp [hd] at this
    | some d =>
      dsimp only
      split
      · rfl
      · exact ih (fun x hx => hs x (by simp [hx])) _ _

/-- A decimal number is no IPv6 address. -/
theorem inetPton_fmtD (n : Nat) : inetPton (fmtD n) = .error .osError := by
  have hd := fmtD_isDec n
  have hx : ∀ c ∈ fmtD n, isHex c = true := fun c hc => isDec_isHex (hd c hc)
  unfold inetPton
  rw [contains_false_of (fun x h => (isHex_ne (hx x h)).2.2.2.2.2.2)]
  have h6 : inetPton6 (fmtD n) = none := by
    unfold inetPton6
    have hgo := pton6Go_digits (fmtD n) hx (fmtD n) 0 0
    split
    · rfl
    · rename_i s' heq
      exact absurd rfl ((isHex_ne (hx ':' (by simp [heq]))).2.1)
    · exact hgo
  simp [h6]

theorem inetAton_fmtD (n : Nat) (h : n < 256) : inetAton (fmtD n) = .ok [0, 0, 0, UInt8.ofNat n] := by
  have hx : ∀ c ∈ fmtD n, isHex c = true := fun c hc => isDec_isHex (fmtD_isDec n c hc)
  unfold inetAton
  rw [contains_false_of (fun x h => (isHex_ne (hx x h)).2.2.2.2.2.2), inetAtonGo_fmtD_last _ _ _ h]
  have : n < 256 ^ (4 - 0) := by omega
  simp [this, beBytes, Nat.div_eq_of_lt, h, show n < 65536 by omega, show n < 16777216 by omega,
    show n < 4294967296 by omega]

end Ofpstr
