import Verif.Lemmas.LostAll
import Verif.Props.ActTrip

/-!
# C61: exactly which actions come back from their text
-/

set_option linter.unusedSimpArgs false

namespace Ofpstr
open Spec

/-! ## C61 -/

/-- C61: a well-formed action with plain byte strings is printed as a text that parses to exactly its
bytes if and only if it is one of those that `Act.Lossless` names.  The right side speaks of the numbers
and fields of the action only. -/
theorem C61_action_exact (a : Act) (hv : a.Valid) (hp : a.Plain) :
    (∃ text, act2str a.wire = .ok text ∧ str2act text = .ok (a.wire, text.length)) ↔ a.Lossless := by
  constructor
  · rintro ⟨text, h1, h2⟩
    by_contra hl
    have hlost := act_lost a hv hp hl
    have h1' : act2str ([a].flatMap Act.wire) = .ok text := by simpa using h1
    obtain ⟨ts, hts, rfl⟩ := act2str_inv [a] (by simpa using ⟨hv, hp⟩) text h1'
    cases hts with
    | @cons _ t _ l hpr hrest =>
      cases hrest
      rcases hlost.lost with ⟨e, _, he⟩ | ⟨text, hpt, hne, hst, hmis⟩
      · have := hpr []
        rw [he] at this
        cases this
      · have ht : text = t := by
          have := hpt []
          rw [hpr] at this
          exact (Except.ok.inj this).symm
        subst ht
        exact hmis [] [] _ _ (Or.inl rfl) (Or.inl rfl) (by simpa [commaList] using h2) rfl
  · intro hl
    obtain ⟨text, h1, h2, _⟩ := C49_roundtrip_partial a hv hl
    exact ⟨text, h1, h2⟩

/-- C61 for lists: what an apply instruction holds after printing and parsing is what it held before if
and only if every action is lossless. -/
theorem C61_list_exact (as : List Act) (hv : ∀ a ∈ as, a.Valid ∧ a.Plain) (hne : as ≠ [])
    (hfit : 8 + (as.flatMap Act.wire).length < 65536) :
    (∃ text, act2str (as.flatMap Act.wire) = .ok text ∧
      str2dict (t!"@apply," ++ text) = .ok { inst := (Inst.apply (as.flatMap Act.wire)).wire }) ↔
    ∀ a ∈ as, a.Lossless := by
  constructor
  · rintro ⟨text, h1, h2⟩
    obtain ⟨ts, hts, rfl⟩ := act2str_inv as hv text h1
    unfold str2dict at h2
    rw [dictGo, if_neg (by simp)] at h2
    have hstep : dictStep {} (t!"@apply," ++ commaList ts) =
        .ok ({ func := some 4, phase := .action }, [','] ++ (commaList ts ++ [])) := by
      have hg : getToken (t!"@apply" ++ ',' :: commaList ts) = ([], t!"@apply", ',' :: commaList ts) :=
        getToken_clean (by decide) (by decide) (atEnd_comma _)
      have hg' : getToken (t!"@apply," ++ commaList ts) = ([], t!"@apply", ',' :: commaList ts) := hg
      unfold dictStep
      rw [hg', List.append_nil]
      rfl
    rw [hstep, ok_bind] at h2
    refine dictGo_lost as hv ts hts [','] [] (Or.inr rfl) (Or.inl rfl) _ (f := 4) (by decide) rfl rfl h2
      (n := 8 + (as.flatMap Act.wire).length) (x := []) ?_
    simp only [List.nil_append, List.append_nil]
    rfl
  · intro hl
    obtain ⟨text, h1, h2, _⟩ := C28_roundtrip_partial as (fun a ha => ⟨(hv a ha).1, hl a ha⟩) hne hfit
    exact ⟨text, h1, h2⟩

/-- The hypotheses are met by actions of both sorts. -/
example : (∀ a ∈ [Act.output 1 0xffff, .resubmit 0xff01, .note [97, 41], .cntIds []], a.Valid ∧ a.Plain) ∧
    (Act.output 1 0xffff).Lossless ∧ ¬ (Act.resubmit 0xff01).Lossless ∧ ¬ (Act.note [97, 41]).Lossless ∧
    ¬ (Act.cntIds []).Lossless := by
  refine ⟨?_, Or.inr rfl, by simp [Act.Lossless], by simp [Act.Lossless], by simp [Act.Lossless]⟩
  intro a ha
  simp only [List.mem_cons, List.not_mem_nil, or_false] at ha
  rcases ha with rfl | rfl | rfl | rfl <;> (unfold Act.Valid Act.Plain; dsimp only; decide)

/-- A note with a closing bracket is printed, and its text is refused. -/
example : act2str (Act.note [97, 41]).wire = .ok t!"note(a))" ∧
    (str2act t!"note(a))").isOk = false := by decide +kernel

end Ofpstr
