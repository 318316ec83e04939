import Verif.Lemmas.ValueQp

/-!
# Exactly which texts are values: IPv4 addresses, and what `int` takes
-/

set_option linter.unusedSimpArgs false

namespace Ofpstr
open Spec

/-! ## `int` -/

theorem isDec_not_us {c : Char} (h : isDec c = true) : c ≠ '_' := by rintro rfl; revert h; decide

theorem noTwice_cons (c : Char) (cs : Str) : (∀ a b, c :: cs ≠ a ++ '_' :: '_' :: b) ↔
    (c = '_' → cs.head? ≠ some '_') ∧ ∀ a b, cs ≠ a ++ '_' :: '_' :: b := by
  constructor
  · intro h
    constructor
    · rintro rfl h2
      cases cs with
      | nil => simp at h2
      | cons d ds => simp at h2; subst h2; exact h [] ds rfl
    · intro a b he
      exact h (c :: a) b (by rw [he]; rfl)
  · rintro ⟨h1, h2⟩ a b he
    cases a with
    | nil => cases he; exact h1 rfl rfl
    | cons x a => simp at he; exact h2 a b he.2

theorem pyIntBody_iff (prev : Bool) (s : Str) (ds : List Nat) : pyIntBody prev s = some ds ↔
    (∀ c ∈ s, isDec c = true ∨ c = '_') ∧ ds = (s.filter (· != '_')).map (fun c => (digitVal c).getD 0) ∧
    (prev = false → s ≠ [] ∧ s.head? ≠ some '_') ∧ s.getLast? ≠ some '_' ∧ ∀ a b, s ≠ a ++ '_' :: '_' :: b := by
  induction s generalizing prev ds with
  | nil =>
    cases prev with
    | true => simp only [pyIntBody]; simp
    | false => simp [pyIntBody]
  | cons c cs ih =>
    rw [pyIntBody, noTwice_cons]
    by_cases hd : isDec c = true
    · have hc := isDec_not_us hd
      rw [if_pos hd, Option.map_eq_some_iff]
      have hl : (c :: cs).getLast? ≠ some '_' ↔ cs.getLast? ≠ some '_' := by
        cases cs with
        | nil => simpa using hc
        | cons d ds => rw [List.getLast?_cons_cons]
      rw [hl]
      constructor
      · rintro ⟨a, h, rfl⟩
        obtain ⟨h1, rfl, _, h4, h5⟩ := (ih _ _).1 h
        refine ⟨?_, by simp [hc], by simp [hc], h4, fun h => absurd h hc, h5⟩
        intro x hx
        rcases List.mem_cons.1 hx with rfl | hx
        · exact Or.inl hd
        · exact h1 x hx
      · rintro ⟨h1, rfl, _, h4, _, h5⟩
        exact ⟨_, (ih true _).2 ⟨fun x hx => h1 x (by simp [hx]), rfl, by simp, h4, h5⟩, by simp [hc]⟩
    · rw [if_neg hd]
      by_cases hu : c = '_'
      · subst hu
        cases prev with
        | false => simp
        | true =>
          rw [if_pos (by rfl), ih]
          have hl : (cs ≠ [] ∧ cs.getLast? ≠ some '_') ↔ ('_' :: cs).getLast? ≠ some '_' := by
            cases cs with
            | nil => simp
            | cons d ds => rw [List.getLast?_cons_cons]; simp
          rw [← hl]
          constructor
          · rintro ⟨h1, rfl, h3, h4, h5⟩
            refine ⟨?_, by simp, by simp, ⟨(h3 rfl).1, h4⟩, fun _ => (h3 rfl).2, h5⟩
            intro x hx
            rcases List.mem_cons.1 hx with rfl | hx
            · exact Or.inr rfl
            · exact h1 x hx
          · rintro ⟨h1, rfl, _, ⟨h3, h4⟩, h5, h6⟩
            exact ⟨fun x hx => h1 x (by simp [hx]), by simp, fun _ => ⟨h3, h5 rfl⟩, h4, h6⟩
      · rw [if_neg (by simp [hu])]
        constructor
        · intro h; cases h
        · rintro ⟨h1, _⟩
          rcases h1 c (by simp) with h | h
          · exact absurd h hd
          · exact absurd h hu

theorem pyIntBody_under (s : Str) (n : Nat) :
    (∃ ds, pyIntBody false s = some ds ∧ ofDigits 10 ds = n) ↔ Underscored s n := by
  unfold Underscored
  rw [numeral_iff 10 (by omega)]
  constructor
  · rintro ⟨ds, h, rfl⟩
    obtain ⟨h1, rfl, h3, h4, h5⟩ := (pyIntBody_iff _ _ _).1 h
    obtain ⟨h6, h7⟩ := h3 rfl
    refine ⟨⟨?_, ?_, rfl⟩, h7, h4, h5⟩
    · cases s with
      | nil => exact absurd rfl h6
      | cons c cs =>
        have hc : c ≠ '_' := by simpa using h7
        simp [hc]
    · intro c hc
      rw [List.mem_filter] at hc
      rcases h1 c hc.1 with h | h
      · exact (isDec_iff c).1 h
      · simp [h] at hc
  · rintro ⟨⟨h1, h2, h3⟩, h4, h5, h6⟩
    refine ⟨_, (pyIntBody_iff _ _ _).2 ⟨?_, rfl, fun _ => ⟨?_, h4⟩, h5, h6⟩, h3⟩
    · intro c hc
      by_cases hu : c = '_'
      · exact Or.inr hu
      · exact Or.inl ((isDec_iff c).2 (h2 c (List.mem_filter.2 ⟨hc, by simpa using hu⟩)))
    · rintro rfl; simp at h1

/-- Digits at both ends. -/
theorem under_ends {s : Str} {n : Nat} (h : Underscored s n) : (∀ c ∈ s, isDec c = true ∨ c = '_') ∧
    (∃ c t, s = c :: t ∧ isDec c = true) ∧ ∃ t c, s = t ++ [c] ∧ isDec c = true := by
  obtain ⟨ds, h1, _⟩ := (pyIntBody_under s n).2 h
  obtain ⟨h2, _, h3, h4, _⟩ := (pyIntBody_iff _ _ _).1 h1
  obtain ⟨h5, h6⟩ := h3 rfl
  refine ⟨h2, ?_, ?_⟩
  · cases s with
    | nil => exact absurd rfl h5
    | cons c t =>
      refine ⟨c, t, rfl, ?_⟩
      rcases h2 c (by simp) with h | h
      · exact h
      · simp [h] at h6
  · refine ⟨s.dropLast, s.getLast h5, (List.dropLast_concat_getLast h5).symm, ?_⟩
    rcases h2 _ (List.getLast_mem h5) with h | h
    · exact h
    · rw [List.getLast?_eq_some_getLast h5, h] at h4
      exact absurd rfl h4

theorem strip_parts (s : Str) : ∃ w z, (∀ c ∈ w ++ z, Space c) ∧
    s = w ++ ((s.dropWhile isReSpace).reverse.dropWhile isReSpace).reverse ++ z := by
  refine ⟨s.takeWhile isReSpace, ((s.dropWhile isReSpace).reverse.takeWhile isReSpace).reverse, ?_, ?_⟩
  · intro c hc
    rw [List.mem_append] at hc
    rcases hc with hc | hc
    · exact (isReSpace_iff c).1 (List.all_eq_true.1 (List.all_takeWhile (l := s) (p := isReSpace)) c hc)
    · rw [List.mem_reverse] at hc
      exact (isReSpace_iff c).1
        (List.all_eq_true.1 (List.all_takeWhile (l := (s.dropWhile isReSpace).reverse) (p := isReSpace)) c hc)
  · rw [List.append_assoc, ← List.reverse_append, List.takeWhile_append_dropWhile, List.reverse_reverse,
      List.takeWhile_append_dropWhile]

theorem dropWhile_spaces (w : Str) (hw : ∀ c ∈ w, Space c) (c : Char) (t : Str) (hc : isReSpace c = false) :
    (w ++ c :: t).dropWhile isReSpace = c :: t := by
  induction w with
  | nil => simp [hc]
  | cons x w ih =>
    have hx := (isReSpace_iff x).2 (hw x (by simp))
    simp [hx, ih (fun c hc => hw c (by simp [hc]))]

theorem strip_mk (w s z : Str) (h : ∀ c ∈ w ++ z, Space c) (h1 : ∃ c t, s = c :: t ∧ isReSpace c = false)
    (h2 : ∃ t c, s = t ++ [c] ∧ isReSpace c = false) :
    (((w ++ s ++ z).dropWhile isReSpace).reverse.dropWhile isReSpace).reverse = s := by
  obtain ⟨c, t, hs, hc⟩ := h1
  obtain ⟨t', d, hs', hd⟩ := h2
  have e1 : (w ++ s ++ z).dropWhile isReSpace = s ++ z := by
    rw [hs]
    have := dropWhile_spaces w (fun c hc => h c (by simp [hc])) c (t ++ z) hc
    simpa using this
  rw [e1]
  have e2 : (s ++ z).reverse.dropWhile isReSpace = s.reverse := by
    rw [hs']
    have := dropWhile_spaces z.reverse (fun c hc => h c (by simp at hc; simp [hc])) d t'.reverse hd
    simpa using this
  rw [e2, List.reverse_reverse]

theorem dec_facts (c : Char) (hc : isDec c = true) : isReSpace c = false ∧ c ≠ '-' ∧ c ≠ '+' := by
  refine ⟨isDec_notSpace hc, ?_, ?_⟩
  · rintro rfl; revert hc; decide
  · rintro rfl; revert hc; decide

/-- What `int` does with the text without white space around it. -/
def pySigned (t : Str) : Py Int :=
  let (neg, s) := match t with
    | '-' :: t => (true, t)
    | '+' :: t => (false, t)
    | t => (false, t)
  match pyIntBody false s with
  | some ds => let n : Int := ofDigits 10 ds; .ok (if neg then -n else n)
  | none => .error .valueError

theorem pyInt_signed (s : Str) :
    pyInt s = pySigned ((s.dropWhile isReSpace).reverse.dropWhile isReSpace).reverse := rfl

theorem pySigned_minus (t : Str) (v : Int) : pySigned ('-' :: t) = .ok v ↔ ∃ n : Nat, Underscored t n ∧ v = -n := by
  have : pySigned ('-' :: t) = match pyIntBody false t with
    | some ds => .ok (-(ofDigits 10 ds : Int))
    | none => .error .valueError := rfl
  rw [this]
  constructor
  · intro h
    cases hb : pyIntBody false t with
    | none => rw [hb] at h; cases h
    | some ds => rw [hb] at h; cases h; exact ⟨_, (pyIntBody_under t _).1 ⟨ds, hb, rfl⟩, rfl⟩
  · rintro ⟨n, hn, rfl⟩
    obtain ⟨ds, h1, rfl⟩ := (pyIntBody_under t n).2 hn
    rw [h1]

theorem pySigned_plus (t : Str) (v : Int) : pySigned ('+' :: t) = .ok v ↔ ∃ n : Nat, Underscored t n ∧ v = n := by
  have : pySigned ('+' :: t) = match pyIntBody false t with
    | some ds => .ok (ofDigits 10 ds : Int)
    | none => .error .valueError := rfl
  rw [this]
  constructor
  · intro h
    cases hb : pyIntBody false t with
    | none => rw [hb] at h; cases h
    | some ds => rw [hb] at h; cases h; exact ⟨_, (pyIntBody_under t _).1 ⟨ds, hb, rfl⟩, rfl⟩
  · rintro ⟨n, hn, rfl⟩
    obtain ⟨ds, h1, rfl⟩ := (pyIntBody_under t n).2 hn
    rw [h1]

theorem pySigned_pos (t : Str) (v : Int) (h1 : ∀ r, t ≠ '-' :: r) (h2 : ∀ r, t ≠ '+' :: r) :
    pySigned t = .ok v ↔ ∃ n : Nat, Underscored t n ∧ v = n := by
  have : pySigned t = match pyIntBody false t with
    | some ds => .ok (ofDigits 10 ds : Int)
    | none => .error .valueError := by
    unfold pySigned
    split
    rename_i neg u hu
    split at hu
    · exact absurd rfl (h1 _)
    · exact absurd rfl (h2 _)
    · cases hu
      simp
  rw [this]
  constructor
  · intro h
    cases hb : pyIntBody false t with
    | none => rw [hb] at h; cases h
    | some ds => rw [hb] at h; cases h; exact ⟨_, (pyIntBody_under t _).1 ⟨ds, hb, rfl⟩, rfl⟩
  · rintro ⟨n, hn, rfl⟩
    obtain ⟨ds, h1, rfl⟩ := (pyIntBody_under t n).2 hn
    rw [h1]

theorem pyInt_iff (s : Str) (v : Int) : pyInt s = .ok v ↔ PyInt s v := by
  rw [pyInt_signed]
  constructor
  · intro h
    obtain ⟨w, z, hwz, hs⟩ := strip_parts s
    generalize ((s.dropWhile isReSpace).reverse.dropWhile isReSpace).reverse = t at *
    subst hs
    by_cases h1 : ∃ r, t = '-' :: r
    · obtain ⟨r, rfl⟩ := h1
      obtain ⟨n, hn, rfl⟩ := (pySigned_minus r v).1 h
      exact .minus w r z n hwz hn
    · by_cases h2 : ∃ r, t = '+' :: r
      · obtain ⟨r, rfl⟩ := h2
        obtain ⟨n, hn, rfl⟩ := (pySigned_plus r v).1 h
        exact .plus w r z n hwz hn
      · obtain ⟨n, hn, rfl⟩ := (pySigned_pos t v (fun r e => h1 ⟨r, e⟩) (fun r e => h2 ⟨r, e⟩)).1 h
        exact .pos w t z n hwz hn
  · intro h
    cases h with
    | pos w t z n hwz hu =>
      obtain ⟨_, ⟨c, r, hr, hc⟩, ⟨r', d, hr', hd⟩⟩ := under_ends hu
      rw [strip_mk w t z hwz ⟨c, r, hr, (dec_facts c hc).1⟩ ⟨r', d, hr', (dec_facts d hd).1⟩]
      refine (pySigned_pos t n ?_ ?_).2 ⟨n, hu, rfl⟩
      · intro q e; rw [hr] at e; simp at e; exact (dec_facts c hc).2.1 e.1
      · intro q e; rw [hr] at e; simp at e; exact (dec_facts c hc).2.2 e.1
    | plus w t z n hwz hu =>
      obtain ⟨_, ⟨c, r, hr, hc⟩, ⟨r', d, hr', hd⟩⟩ := under_ends hu
      have := strip_mk w ('+' :: t) z hwz ⟨'+', t, rfl, by decide⟩ ⟨'+' :: r', d, by rw [hr']; rfl, (dec_facts d hd).1⟩
      rw [this]
      exact (pySigned_plus t n).2 ⟨n, hu, rfl⟩
    | minus w t z n hwz hu =>
      obtain ⟨_, ⟨c, r, hr, hc⟩, ⟨r', d, hr', hd⟩⟩ := under_ends hu
      have := strip_mk w ('-' :: t) z hwz ⟨'-', t, rfl, by decide⟩ ⟨'-' :: r', d, by rw [hr']; rfl, (dec_facts d hd).1⟩
      rw [this]
      exact (pySigned_minus t (-n)).2 ⟨n, hu, rfl⟩

theorem pyInt_nul {s : Str} {v : Int} (h : pyInt s = .ok v) : '\x00' ∉ s := by
  have h0 : ¬ Space '\x00' := by decide
  have key : ∀ {w t z : Str} {n}, (∀ c ∈ w ++ z, Space c) → Underscored t n → '\x00' ∉ w ∧ '\x00' ∉ t ∧ '\x00' ∉ z := by
    intro w t z n hwz hu
    refine ⟨fun hc => h0 (hwz _ (by simp [hc])), ?_, fun hc => h0 (hwz _ (by simp [hc]))⟩
    intro hc
    rcases (under_ends hu).1 _ hc with h | h
    · revert h; decide
    · revert h; decide
  intro hc
  cases (pyInt_iff _ _).1 h with
  | pos w t z n hwz hu => have := key hwz hu; simp only [List.mem_append] at hc; tauto
  | plus w t z n hwz hu =>
    have := key hwz hu
    simp only [List.mem_append, List.mem_cons] at hc
    have hd : '\x00' ≠ '+' := by decide
    tauto
  | minus w t z n hwz hu =>
    have := key hwz hu
    simp only [List.mem_append, List.mem_cons] at hc
    have hd : '\x00' ≠ '-' := by decide
    tauto

/-- The prefix-length branch of IPv4 masks is never taken to an end. -/
theorem ipv4Mask_eq (m : Str) (q : Bytes) : ipv4Mask m = .ok q ↔ inetAton m = .ok q := by
  unfold ipv4Mask
  cases h : inetAton m with
  | ok b => simp
  | error e =>
    cases e with
    | valueError =>
      constructor
      · intro h'
        exfalso
        obtain ⟨n, h1, _⟩ := bind_ok h'
        unfold inetAton at h
        split at h
        · rename_i hc
          exact pyInt_nul h1 (by simpa using hc)
        · split at h
          · cases h
          · dsimp only at h
            split at h <;> cases h
      · intro h'; cases h'
    | _ => simp

end Ofpstr
