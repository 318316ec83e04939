import Verif.Lemmas.QpCut
import Verif.Spec.Qp

/-!
# C63: quoted-printable
-/

set_option linter.unusedSimpArgs false

namespace Ofpstr
open Spec

theorem nlAs_unix (b : Bytes) : nlAs false b = unixLines b := by
  fun_induction nlAs false b with
  | case1 => rfl
  | case2 r ih => rw [unixLines, ih]; rfl
  | case3 r ih => rw [unixLines, ih]; rfl; simp
  | case4 c r h1 h2 ih => rw [unixLines, ih]; exact fun r => h1 r

theorem nlAs_dos (b : Bytes) : nlAs true b = dosLines b := by
  unfold dosLines
  rw [← nlAs_unix]
  fun_induction nlAs true b with
  | case1 => rfl
  | case2 r ih => rw [nlAs, ih]; rfl
  | case3 r ih => rw [nlAs, ih]; rfl
  | case4 c r h1 h2 ih =>
    rw [nlAs, ih, List.flatMap_cons, if_neg (fun h => h2 h)]
    · rfl
    · exact h1
    · exact h2

theorem qpCrlf_iff (b : Bytes) : qpCrlf b = true ↔ FirstDos b := by
  fun_induction qpCrlf b with
  | case1 => simp [FirstDos]
  | case2 r => simpa using ⟨[], r, rfl, by simp⟩
  | case3 r =>
    simp only [Bool.false_eq_true, false_iff]
    rintro ⟨p, q, h, hp⟩
    cases p with
    | nil => simp at h
    | cons x p => simp at h hp; exact hp.1 h.1
  | case4 c r h1 h2 ih =>
    rw [ih]
    constructor
    · rintro ⟨p, q, rfl, hp⟩
      exact ⟨c :: p, q, rfl, by simpa using ⟨fun h => h2 h.symm, hp⟩⟩
    · rintro ⟨p, q, h, hp⟩
      cases p with
      | nil =>
        simp only [List.nil_append, List.cons.injEq] at h
        exact absurd h.2 (h1 q h.1)
      | cons x p =>
        simp only [List.cons_append, List.cons.injEq] at h
        exact ⟨p, q, h.2, by simp at hp; exact hp.2⟩

theorem unix_le (b : Bytes) : (unixLines b).length ≤ b.length := by
  fun_induction unixLines b with
  | case1 r ih => simp only [List.length_cons]; omega
  | case2 c r h ih => simp only [List.length_cons]; omega
  | case3 => simp

theorem unix_same (b : Bytes) : unixLines b = b ↔ NoDos b := by
  fun_induction unixLines b with
  | case1 r ih =>
    constructor
    · intro h
      have := congrArg List.length h
      simp only [List.length_cons] at this
      have := unix_le r
      omega
    · intro h; exact absurd rfl (h [] r)
  | case2 c r h ih =>
    rw [List.cons.injEq, ih]
    constructor
    · rintro ⟨_, hn⟩ p q he
      cases p with
      | nil =>
        simp only [List.nil_append, List.cons.injEq] at he
        exact h q he.1 he.2
      | cons x p =>
        simp only [List.cons_append, List.cons.injEq] at he
        exact hn p q he.2
    · intro hn
      exact ⟨rfl, fun p q he => hn (c :: p) q (by rw [he]; rfl)⟩
  | case3 => simp [NoDos]

theorem nlAs_ge (b : Bytes) : b.length ≤ (nlAs true b).length := by
  fun_induction nlAs true b with
  | case1 => simp
  | case2 r ih => simp; omega
  | case3 r ih => simp; omega
  | case4 c r h1 h2 ih => simp; omega

/-- Every LF comes after a CR, where `c` is the byte before. -/
def AllDosFrom (c : Option UInt8) (b : Bytes) : Prop := ∀ p r, b = p ++ 10 :: r →
  (∃ q, p = q ++ [13]) ∨ (p = [] ∧ c = some 13)

theorem allDosFrom_cons (c : Option UInt8) (x : UInt8) (r : Bytes) :
    AllDosFrom c (x :: r) ↔ (x = 10 → c = some 13) ∧ AllDosFrom (some x) r := by
  constructor
  · intro h
    refine ⟨?_, ?_⟩
    · rintro rfl
      rcases h [] r rfl with ⟨q, hq⟩ | h
      · simp at hq
      · exact h.2
    · intro p q he
      rcases h (x :: p) q (by rw [he]; rfl) with ⟨q', hq⟩ | h
      · cases q' with
        | nil => simp at hq; exact Or.inr ⟨hq.2, by rw [hq.1]⟩
        | cons y q' => simp at hq; exact Or.inl ⟨q', hq.2⟩
      · exact absurd h.1 (by simp)
  · rintro ⟨h1, h2⟩ p q he
    cases p with
    | nil => simp at he; exact Or.inr ⟨rfl, h1 he.1⟩
    | cons y p =>
      simp at he
      obtain ⟨rfl, rfl⟩ := he
      rcases h2 p q rfl with ⟨q', rfl⟩ | ⟨rfl, hx⟩
      · exact Or.inl ⟨x :: q', rfl⟩
      · exact Or.inl ⟨[], by simpa using hx⟩

theorem dos_same (b : Bytes) (c : Option UInt8) (hc : c ≠ some 13) : nlAs true b = b ↔ AllDosFrom c b := by
  induction hn : b.length using Nat.strong_induction_on generalizing b c with
  | h n ih =>
    subst hn
    match b with
    | [] => simp [nlAs, AllDosFrom]
    | x :: r =>
      by_cases h1 : x = 10
      · subst h1
        rw [allDosFrom_cons]
        constructor
        · intro h
          have h1 := congrArg List.length h
          rw [nlAs] at h1
          have h2 := nlAs_ge r
          simp only [if_true, List.length_append, List.length_cons, List.length_nil] at h1
          omega
        · intro h; exact absurd (h.1 rfl) hc
      · by_cases h2 : x = 13 ∧ r.head? = some 10
        · obtain ⟨rfl, hr⟩ := h2
          cases r with
          | nil => cases hr
          | cons y r =>
            cases hr
            rw [nlAs, allDosFrom_cons, allDosFrom_cons]
            simp only [if_true, List.cons_append, List.nil_append, List.cons.injEq, true_and]
            rw [ih r.length (by simp; omega) r (some 10) (by decide) rfl]
            simp
        · have hnl : nlAs true (x :: r) = x :: nlAs true r := by
            rw [nlAs]
            · rintro q rfl rfl; exact h2 ⟨rfl, rfl⟩
            · exact h1
          rw [hnl, allDosFrom_cons, List.cons.injEq]
          simp only [true_and, h1, false_implies]
          by_cases h3 : x = 13
          · subst h3
            have hr : ∀ q, r ≠ 10 :: q := by rintro q rfl; exact h2 ⟨rfl, rfl⟩
            rw [ih r.length (by simp) r none (by decide) rfl]
            unfold AllDosFrom
            constructor
            · intro h p q he
              rcases h p q he with h | h
              · exact Or.inl h
              · exact absurd h.2 (by decide)
            · intro h p q he
              rcases h p q he with h | ⟨rfl, _⟩
              · exact Or.inl h
              · exact absurd he (hr q)
          · rw [ih r.length (by simp) r (some x) (by simpa using h3) rfl]

theorem allDos_from (b : Bytes) : AllDosFrom none b ↔ AllDos b := by
  unfold AllDosFrom AllDos
  simp

/-- C63: decoding the quoted-printable text of any bytes gives them back with all newlines in the style
of the first. -/
theorem C63_newlines (b : Bytes) :
    (FirstDos b → a2bQp (b2aQp b) = .ok (dosLines b)) ∧ (¬ FirstDos b → a2bQp (b2aQp b) = .ok (unixLines b)) := by
  rw [a2b_b2a]
  constructor
  · intro h
    rw [(qpCrlf_iff b).2 h, nlAs_dos]
  · intro h
    rw [← qpCrlf_iff, Bool.not_eq_true] at h
    rw [h, nlAs_unix]

/-- C63: the bytes come back unchanged if and only if their newlines are of one style. -/
theorem C63_exact (b : Bytes) : a2bQp (b2aQp b) = .ok b ↔ NoDos b ∨ AllDos b := by
  rw [a2b_b2a, Except.ok.injEq]
  cases hc : qpCrlf b with
  | true =>
    rw [dos_same b none (by decide), allDos_from]
    obtain ⟨p, r, rfl, _⟩ := (qpCrlf_iff b).1 hc
    exact ⟨Or.inr, fun h => h.resolve_left fun h => h p r rfl⟩
  | false =>
    rw [nlAs_unix, unix_same]
    refine ⟨Or.inl, fun h => h.elim id fun h p r he => ?_⟩
    have hnf : ¬ FirstDos b := by rw [← qpCrlf_iff, hc]; decide
    have hm : (10 : UInt8) ∈ b := by rw [he]; simp
    obtain ⟨s, t, hst, hns⟩ := List.eq_append_cons_of_mem hm
    obtain ⟨q, rfl⟩ := h s t hst
    exact hnf ⟨q, t, by rw [hst]; simp, fun hq => hns (by simp [hq])⟩

/-- C63: without LF everything comes back. -/
theorem C63_lossless (b : Bytes) (h : (10 : UInt8) ∉ b) : a2bQp (b2aQp b) = .ok b := by
  rw [C63_exact]
  refine Or.inl fun p r he => h ?_
  rw [he]; simp

example : (10 : UInt8) ∉ [0, 13, 32, 61, 255, 9] ∧ b2aQp [0, 13, 32, 61, 255, 9] = t!"=00\r =3D=FF=09" := by decide

/-- C63 is false for bytes with both styles. -/
theorem C63_mixed_refuted : b2aQp [97, 32, 10, 13, 10] = t!"a=20\n\n" ∧
    a2bQp (b2aQp [97, 32, 10, 13, 10]) = .ok [97, 32, 10, 10] := by decide

/-- The hypotheses of `C63_newlines` are met on both sides. -/
example : FirstDos [97, 13, 10, 98, 10] ∧ ¬ FirstDos [97, 10, 13, 10] := by
  refine ⟨⟨[97], [98, 10], rfl, by decide⟩, ?_⟩
  rw [← qpCrlf_iff]; decide

end Ofpstr
