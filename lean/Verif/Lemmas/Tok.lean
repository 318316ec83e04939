import Verif.Lemmas.TripLearn
import Verif.Spec.Flow

/-!
# `get_token` characterised
-/

namespace Ofpstr
open Spec

theorem tokenBody_open {b : Str} (h : OpenToken b) (fuel : Nat) (hf : b.length < fuel) :
    tokenBody fuel b = b := by
  induction h generalizing fuel with
  | start o e s hp hu =>
    cases fuel with
    | zero => simp at hf
    | succ fuel =>
      have hd : isDelimiter o = false := by cases hp <;> decide
      have he : o ≠ '=' := by cases hp <;> decide
      have hsc := scanParen_unclosed hu (s.length + 1) (by omega)
      cases fuel with
      | zero => simp at hf
      | succ fuel => simp [tokenBody, hd, he, (pars_some_iff o e).2 hp, hsc]
  | char c s hs he ho _ ih =>
    cases fuel with
    | zero => simp at hf
    | succ fuel =>
      have hd : isDelimiter c = false := by
        rw [← Bool.not_eq_true, isDelimiter_iff]; exact hs
      have := ih fuel (by simp at hf ⊢; omega)
      simp [tokenBody, hd, he, (pars_none_iff c).2 ho, this]
  | group o e p s hp hi _ ih =>
    cases fuel with
    | zero => simp at hf
    | succ fuel =>
      have hd : isDelimiter o = false := by cases hp <;> decide
      have he : o ≠ '=' := by cases hp <;> decide
      have := ih fuel (by simp at hf ⊢; omega)
      have hsc := scanParen_inside hi s (((p ++ e :: s).length) + 1) (by omega)
      simp only [List.cons_append] at hsc ⊢
      simp [tokenBody, hd, he, (pars_some_iff o e).2 hp] at hsc ⊢
      rw [hsc]
      simp [this]

theorem tokenHead_of_headOf {s h : Str} (hh : HeadOf s h) : tokenHead s = h := by
  cases hh with
  | eq w1 w2 r h1 h2 h3 =>
    unfold tokenHead
    have e1 : (w1 ++ '=' :: w2 ++ r).dropWhile isReSpace = '=' :: (w2 ++ r) := by
      have := dropWhile_append_stop (p := isReSpace) (a := w1) (b := '=' :: (w2 ++ r))
        (fun c hc => (isReSpace_iff c).2 (h1 c hc)) (by intro c t h; cases h; decide)
      simpa using this
    have e2 : (w1 ++ '=' :: w2 ++ r).takeWhile isReSpace = w1 := by
      have := takeWhile_append_stop (p := isReSpace) (a := w1) (b := '=' :: (w2 ++ r))
        (fun c hc => (isReSpace_iff c).2 (h1 c hc)) (by intro c t h; cases h; decide)
      simpa using this
    have e3 : (w2 ++ r).takeWhile isReSpace = w2 :=
      takeWhile_append_stop (fun c hc => (isReSpace_iff c).2 (h2 c hc))
        (fun c t h => by rw [← Bool.not_eq_true, isReSpace_iff]; exact h3 c t h)
    rw [e1, e2]
    simp [e3]
  | run h r h1 h2 h3 =>
    unfold tokenHead
    have key : (h ++ r).takeWhile (fun c => isReSpace c || c == ',') = h := by
      apply takeWhile_append_stop
      · intro c hc
        rcases h2 c hc with h | h
        · simp [(isReSpace_iff c).2 h]
        · simp [h]
      · intro c t hc
        have := h3 c t hc
        have h4 : isReSpace c = false := by rw [← Bool.not_eq_true, isReSpace_iff]; exact this.1
        simp [h4, this.2]
    split
    · rename_i x hx
      exfalso
      have hs := List.takeWhile_append_dropWhile (p := isReSpace) (l := h ++ r)
      rw [hx] at hs
      obtain ⟨c, hc, hn⟩ := h1 _ x hs.symm
      exact hn ((isReSpace_iff c).1 (List.all_eq_true.1 (List.all_takeWhile (l := h ++ r) (p := isReSpace)) c hc))
    · exact key

theorem getToken_iff (s h b r : Str) : getToken s = (h, b, r) ↔ Tok s h b r := by
  constructor
  · intro hg
    have h1 := getToken_append s
    have h2 := tokenHead_headOf s
    have h3 := getToken_cases s
    rw [← getToken_fst] at h2
    rw [hg] at h1 h2 h3
    dsimp only at h1 h2 h3
    exact ⟨by rw [← h1, List.append_assoc], h2, h3⟩
  · rintro ⟨h1, h2, h3⟩
    have hh := tokenHead_of_headOf h2
    have hd : s.drop h.length = b ++ r := by rw [h1]; simp
    have hb : tokenBody ((b ++ r).length + 1) (b ++ r) = b := by
      rcases h3 with ⟨h4, h5⟩ | ⟨h4, rfl⟩
      · exact tokenBody_token h4 r h5 _ (by omega)
      · rw [List.append_nil]; exact tokenBody_open h4 _ (by omega)
    simp only [getToken, hh, hd, hb]
    rw [← List.drop_drop, hd]
    simp

theorem split1_inv {c : Char} {s a : Str} {o : Option Str} (h : split1 c s = (a, o)) :
    (∀ x ∈ a, x ≠ c) ∧ match o with | none => s = a | some b => s = a ++ c :: b := by
  induction s generalizing a o with
  | nil => simp [split1] at h; obtain ⟨rfl, rfl⟩ := h; simp
  | cons x s ih =>
    rw [split1] at h
    by_cases hx : x = c
    · subst hx
      simp at h
      obtain ⟨rfl, rfl⟩ := h
      simp
    · rw [if_neg (by simpa using hx)] at h
      rcases hg : split1 c s with ⟨a', o'⟩
      rw [hg] at h
      simp at h
      obtain ⟨rfl, rfl⟩ := h
      obtain ⟨h1, h2⟩ := ih hg
      refine ⟨?_, ?_⟩
      · intro y hy
        rcases List.mem_cons.1 hy with rfl | hy
        · exact hx
        · exact h1 y hy
      · cases o' with
        | none => simpa using h2
        | some b => simpa using h2

theorem pyAssert_inv {b : Bool} {u : Unit} (h : pyAssert b = .ok u) : b = true := by
  cases b with
  | true => rfl
  | false => cases h

theorem hasChar_iff (s : Str) (c : Char) : hasChar s c = true ↔ c ∈ s := by
  unfold hasChar; simp

theorem intSyntax_noslash {s : Str} {v : Int} (h : IntSyntax s v s.length) : ∀ c ∈ s, c ≠ '/' := by
  intro c hc
  exact ((intSyntax_clean h).2.2 c hc).1

theorem bind_def {α β : Type} (x : Py α) (f : α → Py β) : (x >>= f) = x.bind f := rfl

theorem intArg_iff (s r : Str) (n : Int) :
    intArg s = .ok (n, r) ↔ ∃ op p, Tok s op p r ∧ '=' ∈ op ∧ IntSyntax p n p.length := by
  unfold intArg
  rcases hg : getToken s with ⟨op, p, t⟩
  dsimp only
  constructor
  · intro h
    obtain ⟨u, h1, h⟩ := bind_ok h
    obtain ⟨⟨num, l⟩, h2, h⟩ := bind_ok h
    obtain ⟨u', h3, h⟩ := bind_ok h
    cases h
    have h4 := pyAssert_inv h3
    simp only [beq_iff_eq] at h4
    refine ⟨op, p, (getToken_iff _ _ _ _).1 hg, (hasChar_iff _ _).1 (pyAssert_inv h1), ?_⟩
    rw [h4]; exact (parseInt_iff _ _ _).1 h2
  · rintro ⟨op', p', ht, he, hi⟩
    rw [← getToken_iff, hg] at ht
    cases ht
    rw [(hasChar_iff _ _).2 he, pyAssert_ok, ok_bind, (parseInt_iff _ _ _).2 hi, ok_bind]
    simp only [beq_self_eq_true, pyAssert_ok, ok_bind]

theorem procArg_iff (s r : Str) (n : Int) :
    procArg s = .ok (n, r) ↔ ∃ op p, Tok s op p r ∧ '=' ∈ op ∧ IntSyntax p n p.length := by
  unfold procArg
  rcases hg : getToken s with ⟨op, p, t⟩
  dsimp only
  constructor
  · intro h
    obtain ⟨u, h1, h⟩ := bind_ok h
    obtain ⟨⟨num, l⟩, h2, h⟩ := bind_ok h
    obtain ⟨u', h3, h⟩ := bind_ok h
    cases h
    have h4 := pyAssert_inv h3
    simp only [beq_iff_eq] at h4
    have h5 := pyAssert_inv h1
    rw [Bool.and_eq_true] at h5
    refine ⟨op, p, (getToken_iff _ _ _ _).1 hg, (hasChar_iff _ _).1 h5.1, ?_⟩
    rw [h4]; exact (parseInt_iff _ _ _).1 h2
  · rintro ⟨op', p', ht, he, hi⟩
    rw [← getToken_iff, hg] at ht
    cases ht
    rw [(hasChar_iff _ _).2 he, hasChar_false (intSyntax_noslash hi)]
    simp only [Bool.not_false, Bool.and_true, pyAssert_ok, ok_bind]
    rw [(parseInt_iff _ _ _).2 hi, ok_bind]
    simp only [beq_self_eq_true, pyAssert_ok, ok_bind]

theorem nameOrInt_inv {names : List (Nat × Str)} {p : Str} {n : Int} (h : nameOrInt names p = .ok n) :
    (∃ e ∈ names, e.2 = p ∧ n = e.1) ∨ IntSyntax p n p.length := by
  unfold nameOrInt at h
  cases hf : names.find? (fun e => e.2 == p) with
  | some e =>
    rw [hf] at h
    cases h
    exact Or.inl ⟨e, List.mem_of_find?_eq_some hf, by simpa using List.find?_some hf, rfl⟩
  | none =>
    rw [hf] at h
    dsimp only at h
    obtain ⟨⟨num, l⟩, h2, h⟩ := bind_ok h
    obtain ⟨u', h3, h⟩ := bind_ok h
    cases h
    have h4 := pyAssert_inv h3
    simp only [beq_iff_eq] at h4
    right
    rw [h4]; exact (parseInt_iff _ _ _).1 h2

theorem nameOrInt_ofpg (s : Str) (v : Int) (h : GroupText s v) : nameOrInt ofpg s = .ok v := by
  cases h with
  | name n s h =>
    have key : ∀ e ∈ reservedGroups, nameOrInt ofpg e.2 = .ok (e.1 : Int) := by decide +kernel
    exact key (n, s) h
  | num s v h =>
    apply nameOrInt_int ofpg s v h
    · intro e he c t hc
      exact (ofpg_start e he).2 c (by rw [hc]; rfl)
    · intro e he
      exact (ofpg_start e he).1

theorem nameOrInt_port_iff (p : Str) (n : Int) : nameOrInt ofpp p = .ok n ↔ PortText p n := by
  constructor
  · intro h
    rcases nameOrInt_inv h with ⟨e, he, rfl, rfl⟩ | h
    · have key : ∀ e ∈ ofpp, (e.1, e.2) ∈ reservedPorts := by decide
      exact .name _ _ (key e he)
    · exact .num _ _ h
  · exact nameOrInt_ofpp p n

theorem nameOrInt_group_iff (p : Str) (n : Int) : nameOrInt ofpg p = .ok n ↔ GroupText p n := by
  constructor
  · intro h
    rcases nameOrInt_inv h with ⟨e, he, rfl, rfl⟩ | h
    · have key : ∀ e ∈ ofpg, (e.1, e.2) ∈ reservedGroups := by decide
      exact .name _ _ (key e he)
    · exact .num _ _ h
  · exact nameOrInt_ofpg p n

theorem groupText_clean {s : Str} {v : Int} (h : GroupText s v) :
    Clean s ∧ s ≠ [] ∧ (∀ c ∈ s, c ≠ '/') := by
  cases h with
  | name n s h =>
    have key : ∀ e ∈ reservedGroups, Clean e.2 ∧ e.2 ≠ [] ∧ (∀ c ∈ e.2, c ≠ '/') := by decide +kernel
    exact key (n, s) h
  | num s v h =>
    obtain ⟨h1, h2, h3⟩ := intSyntax_clean h
    exact ⟨h1, h2, fun c hc => (h3 c hc).1⟩

theorem nameArg_iff (names : List (Nat × Str)) (T : Str → Int → Prop)
    (hT : ∀ p n, nameOrInt names p = .ok n ↔ T p n) (hs : ∀ p n, T p n → ∀ c ∈ p, c ≠ '/')
    (s r : Str) (n : Int) :
    nameArg names s = .ok (n, r) ↔ ∃ op p, Tok s op p r ∧ '=' ∈ op ∧ T p n := by
  unfold nameArg
  rcases hg : getToken s with ⟨op, p, t⟩
  dsimp only
  constructor
  · intro h
    obtain ⟨u, h1, h⟩ := bind_ok h
    obtain ⟨num, h2, h⟩ := bind_ok h
    cases h
    have h5 := pyAssert_inv h1
    rw [Bool.and_eq_true] at h5
    exact ⟨op, p, (getToken_iff _ _ _ _).1 hg, (hasChar_iff _ _).1 h5.1, (hT _ _).1 h2⟩
  · rintro ⟨op', p', ht, he, hi⟩
    rw [← getToken_iff, hg] at ht
    cases ht
    rw [(hasChar_iff _ _).2 he, hasChar_false (hs _ _ hi)]
    simp only [Bool.not_false, Bool.and_true, pyAssert_ok, ok_bind]
    rw [(hT _ _).2 hi, ok_bind]

end Ofpstr
