import Verif.Lemmas.RuleStep
import Verif.Props.RuleText

/-!
# Which exceptions rules raise
-/

set_option linter.unusedSimpArgs false
set_option linter.unusedVariables false

namespace Ofpstr
open Spec

theorem actWord_fails {α : Type} (u : Str) (f : Bytes → Nat → α) :
    Fails (str2act u >>= fun x => if x.2 == 0 then (.error .valueError : Py α) else .ok (f x.1 x.2)) (ActWordRejects u) := by
  intro e
  rw [bindErr]
  constructor
  · rintro (h | ⟨⟨b, l⟩, h1, h2⟩)
    · exact .action u e ((act_rejects u e).1 h)
    · dsimp only at h2
      split at h2
      · rename_i hl
        have hl : l = 0 := by simpa using hl
        subst hl
        cases h2
        exact .nothing u b ((C69_action u b 0).1 h1)
      · cases h2
  · intro h
    cases h with
    | action _ h => exact Or.inl ((act_rejects u e).2 h)
    | nothing b h => exact Or.inr ⟨_, (C69_action u b 0).2 h, rfl⟩

theorem dictStep_err {st : DictSt} {p : Place} {s h n t : Str} (hp : st.phase = phaseOf p) (ht : Tok s h n t) (e : Err) :
    dictStep st s = .error e ↔ ('=' ∈ h ∧ e = .assertionError) ∨
      ('=' ∉ h ∧ n.head? = some '@' ∧ (runFunc st = .error e ∨ ∃ i, runFunc st = .ok i ∧ (InstRejects n t e ∨ (e = .structError ∧ TooLarge n t)))) ∨
      ('=' ∉ h ∧ n.head? ≠ some '@' ∧ ((p = .start ∧ KeyRejects n t e) ∨ (p = .acts ∧ ActWordRejects (n ++ t) e) ∨ (p = .done ∧ e = .valueError))) := by
  by_cases he : '=' ∈ h
  · have : dictStep st s = .error .assertionError := by
      rw [← getToken_iff] at ht
      unfold dictStep
      rw [ht]
      dsimp only
      rw [(hasChar_iff _ _).2 he]
      rfl
    rw [this]
    constructor
    · intro h; cases h; exact Or.inl ⟨he, rfl⟩
    · rintro (⟨_, rfl⟩ | ⟨h, _⟩ | ⟨h, _⟩)
      · rfl
      · exact absurd he h
      · exact absurd he h
  · by_cases ha : n.head? = some '@'
    · rw [dictStep_at ht he ((startsWith_at n).2 ha), bindErr]
      simp only [dictInst_err]
      simp [he, ha]
    · rw [dictStep_noat ht he (at_none ha)]
      obtain ⟨i0, a0, f0, ph⟩ := st
      dsimp only at hp
      subst hp
      simp only [he, ha, false_and, not_false_eq_true, true_and, ne_eq, false_or]
      cases p with
      | start =>
        simp only [phaseOf]
        refine Iff.trans (fails_then (f := fun x : Info × Str => (.ok (({ info := x.1, actions := a0, func := f0, phase := .mtch } : DictSt), x.2) : Py (DictSt × Str)))
          (dictMatch_fails n i0 t) (fun a => ⟨_, rfl⟩) e) ?_
        simp
      | acts =>
        simp only [phaseOf]
        refine Iff.trans (actWord_fails (n ++ t) (fun b l => (({ info := i0, actions := a0 ++ b, func := f0, phase := .action } : DictSt),
          (n ++ t).drop l)) e) ?_
        simp
      | done =>
        simp only [phaseOf]
        constructor
        · intro h; cases h; simp
        · rintro (⟨h, _⟩ | ⟨h, _⟩ | ⟨_, rfl⟩)
          · cases h
          · cases h
          · rfl

/-! ## The words and the instructions -/

theorem readsWords_append {o a : Str → Bytes → Nat → Prop} {ws vs : List Word} {s u r : Str} (h : ReadsWords o a ws s u)
    (h' : ReadsWords o a vs u r) : ReadsWords o a (ws ++ vs) s r := by
  induction h with
  | nil => exact h'
  | cons s h name t w u ws r h1 h2 h3 h4 _ ih => exact .cons s h name t w u _ _ h1 h2 h3 h4 (ih h')

theorem leading_stop (ws : List Word) {w : Word} (hw : ∀ b, w ≠ .act b) (vs : List Word) : leading (ws ++ w :: vs) = leading ws := by
  induction ws with
  | nil => cases w <;> first | rfl | exact absurd rfl (hw _)
  | cons x ws ih =>
    cases x <;> simp only [List.cons_append, leading, ih]

theorem instsOf_stop (ws : List Word) {w : Word} (hw : ∀ b, w ≠ .act b) (vs : List Word) :
    instsOf (ws ++ w :: vs) = instsOf ws ++ instsOf (w :: vs) := by
  induction ws with
  | nil => simp [instsOf]
  | cons x ws ih =>
    cases x <;> simp only [List.cons_append, instsOf, ih, leading_stop ws hw vs]

/-- Words that end behind `@apply` or `@write`. -/
theorem open_words {ws : List Word} {p : Place} (hp : p ≠ .acts) (h : placeAfter p ws = some .acts) :
    ∃ (vs : List Word) (w : Word) (bs : List Bytes), ws = vs ++ w :: bs.map Word.act ∧ (w = .apply ∨ w = .write) ∧ placeAfter p vs ≠ none := by
  induction ws using List.reverseRecOn with
  | nil =>
    simp only [placeAfter, Option.some.injEq] at h
    exact absurd h hp
  | append_singleton ws w ih =>
    rw [placeAfter_append] at h
    cases hq : placeAfter p ws with
    | none => rw [hq] at h; cases h
    | some q =>
      rw [hq, Option.bind_some, placeAfter] at h
      cases hn : w.next q with
      | none => rw [hn] at h; cases h
      | some x =>
        rw [hn] at h
        dsimp only at h
        simp only [placeAfter, Option.some.injEq] at h
        subst h
        cases w with
        | act b =>
          have : q = .acts := by cases q <;> first | rfl | cases hn
          subst this
          obtain ⟨vs, w, bs, rfl, hw, h1⟩ := ih hq
          exact ⟨vs, w, bs ++ [b], by simp, hw, h1⟩
        | apply => exact ⟨ws, .apply, [], by simp, Or.inl rfl, by rw [hq]; simp⟩
        | write => exact ⟨ws, .write, [], by simp, Or.inr rfl, by rw [hq]; simp⟩
        | _ => cases q <;> cases hn

theorem foldWords_acts (st : DictSt) (bs : List Bytes) : ∃ st', foldWords st (bs.map Word.act) = .ok st' := by
  induction bs generalizing st with
  | nil => exact ⟨st, rfl⟩
  | cons b bs ih => exact ih _

theorem instsOf_onlyActs (bs : List Bytes) : instsOf (bs.map Word.act) = [] := by
  induction bs with
  | nil => rfl
  | cons b bs ih => exact ih

theorem foldWords_end (ws : List Word) (hp : placeAfter .start ws ≠ none) :
    (∀ e, (foldWords {} ws >>= runFunc) = .error e ↔ e = .structError ∧ ∃ i ∈ instsOf ws, ¬ i.Fits) := by
  intro e
  rw [foldWords_eq good_init ws hp]
  have e0 : pend (({} : DictSt)).func ((({} : DictSt)).actions ++ leading ws) ++ instsOf ws = instsOf ws := rfl
  rw [e0]
  unfold guardFits
  split
  · rename_i h
    constructor
    · intro h; cases h
    · rintro ⟨_, i, hi, hf⟩
      exact absurd (h i hi) hf
  · rename_i h
    simp only [not_forall] at h
    obtain ⟨i, hi, hf⟩ := h
    constructor
    · intro h; cases h; exact ⟨rfl, i, hi, hf⟩
    · rintro ⟨rfl, _⟩; rfl

/-- The words raise `struct.error` exactly if an instruction that is put together with them does not fit. -/
theorem foldWords_written {ws : List Word} {q : Place} (hp : placeAfter .start ws = some q) (e : Err) :
    foldWords {} ws = .error e ↔ e = .structError ∧ ∃ i ∈ writtenInsts q ws, ¬ i.Fits := by
  unfold writtenInsts
  by_cases hq : q = .acts
  · subst hq
    rw [if_pos rfl]
    obtain ⟨vs, w, bs, rfl, hw, h1⟩ := open_words (by decide) hp
    have hna : ∀ b, w ≠ .act b := by rintro b rfl; rcases hw with h | h <;> cases h
    have e1 : (instsOf (vs ++ w :: bs.map Word.act)).dropLast = instsOf vs := by
      rw [instsOf_stop vs hna]
      rcases hw with rfl | rfl <;> simp [instsOf, instsOf_onlyActs]
    rw [e1, ← foldWords_end vs h1 e, foldWords_append]
    cases hv : foldWords {} vs with
    | error e' => simp only [error_bind]; exact ⟨fun h => by cases h; rfl, fun h => by cases h; rfl⟩
    | ok st =>
      rw [ok_bind, ok_bind, foldWords]
      have acts : ∀ t, (stepActs st t >>= fun st => foldWords st (bs.map Word.act)) = .error e ↔ runFunc st = .error e := by
        intro t
        rw [stepActs_bind]
        cases hr : runFunc st with
        | error e' => rw [error_bind]; exact ⟨fun h => by cases h; rfl, fun h => by cases h; rfl⟩
        | ok i =>
          rw [ok_bind]
          obtain ⟨st', h'⟩ := foldWords_acts { info := i, actions := [], func := some t, phase := .action } bs
          rw [h']
          exact ⟨fun h => by (cases h), fun h => by (cases h)⟩
      rcases hw with rfl | rfl
      · exact acts 4
      · exact acts 3
  · rw [if_neg hq, ← foldWords_end ws (by rw [hp]; simp) e]
    cases hv : foldWords {} ws with
    | error e' => simp only [error_bind]; exact ⟨fun h => by cases h; rfl, fun h => by cases h; rfl⟩
    | ok st =>
      have hg := foldWords_good good_init _ hp hv
      rw [ok_bind, runFunc_eq hg, hg.other hq]
      rw [guard_pos (by intro i hi; cases hi)]
      exact ⟨fun h => by (cases h), fun h => by (cases h)⟩

/-! ## The loop -/

theorem dictGo_stop {s : Str} {st : DictSt} {p : Place} (hg : GoodSt st p) (fuel : Nat) (hf : s.length < fuel) {e : Err}
    (h : dictGo fuel st s = .error e) : ∃ ws u q st', ReadsWords oxmP actP ws s u ∧ placeAfter p ws = some q ∧
      foldWords st ws = .ok st' ∧ ((u = [] ∧ runFunc st' = .error e) ∨ (u ≠ [] ∧ dictStep st' u = .error e)) := by
  induction fuel generalizing st p s with
  | zero => omega
  | succ fuel ih =>
    rw [dictGo] at h
    by_cases hs : s = []
    · subst hs
      rw [if_pos (by decide)] at h
      exact ⟨[], [], p, st, .nil _, rfl, rfl, Or.inl ⟨rfl, h⟩⟩
    · rw [if_neg (by simpa using hs)] at h
      rcases bindErr.1 h with h1 | ⟨⟨st1, u⟩, h1, h2⟩
      · exact ⟨[], s, p, st, .nil _, rfl, rfl, Or.inr ⟨hs, h1⟩⟩
      · obtain ⟨hh, name, t, w, q, ht, he, hb, hn, ha⟩ := dictStep_inv hg.phase h1
        have hl := body_shorter hs ht hb
        obtain ⟨ws, r, q', st', h3, h4, h5, h6⟩ := ih (applyWord_good hg hn ha) (by omega) h2
        refine ⟨w :: ws, r, q', st', .cons s hh name t w u ws r hs ht he hb h3, ?_, ?_, h6⟩
        · rw [placeAfter, hn]; exact h4
        · rw [foldWords, ha, ok_bind, h5]

theorem tooLarge_next {n t : Str} (h : TooLarge n t) (p : Place) : ∃ w u i, Body oxmP actP n t w u ∧ w.next p = some .done ∧
    (∀ b, w ≠ .act b) ∧ instsOf [w] = [i] ∧ ¬ i.Fits := by
  obtain ⟨w, u, i, hb, hi, hf⟩ := h
  refine ⟨w, u, i, hb, ?_, ?_, ?_, hf⟩
  · cases w <;> first | (cases hi; done) | (cases p <;> rfl)
  · rintro b rfl; cases hi
  · cases w <;> first | (cases hi; rfl) | cases hi

theorem rule_rejects (s : Str) : Fails (str2dict s) (RuleRejects s) := by
  intro e
  unfold str2dict
  constructor
  · intro hgo
    obtain ⟨ws, u, q, st, h1, h2, h3, h4⟩ := dictGo_stop good_init _ (by omega) hgo
    have hsw : StartsWith s ws q u := ⟨(readsWords_len _ _ _).1 h1, h2⟩
    have hg := foldWords_good good_init _ h2 h3
    have hrun : ∀ e, runFunc st = .error e → e = .structError ∧ ∃ i ∈ instsOf ws, ¬ i.Fits := by
      intro e he
      refine (foldWords_end ws (by rw [h2]; simp) e).1 ?_
      rw [h3, ok_bind, he]
    have hwr : ∀ i ∈ writtenInsts q ws, i.Fits := by
      intro i hi
      by_contra hf
      have := (foldWords_written h2 .structError).2 ⟨rfl, i, hi, hf⟩
      rw [h3] at this
      cases this
    have hok : ∀ i, runFunc st = .ok i → ∀ i ∈ instsOf ws, i.Fits := by
      intro i hr j hj
      by_contra hf
      have := (foldWords_end ws (by rw [h2]; simp) .structError).2 ⟨rfl, j, hj, hf⟩
      rw [h3, ok_bind, hr] at this
      cases this
    rcases h4 with ⟨rfl, h4⟩ | ⟨hu, h4⟩
    · obtain ⟨rfl, i, hi, hf⟩ := hrun e h4
      exact .close s ws q [] i hsw (Or.inl rfl) hi hf
    · rcases hgt : getToken u with ⟨h, n, t⟩
      have ht := eq_tok hgt
      have hno : ¬ ('=' ∉ h ∧ n.head? = some '@') → ¬ NextInst u := by
        rintro hc (h' | ⟨h', n', t', ht', hh⟩)
        · exact hu h'
        · obtain ⟨rfl, rfl, rfl⟩ := tok_unique ht ht'
          exact hc hh
      rcases (dictStep_err hg.phase ht e).1 h4 with ⟨he, rfl⟩ | ⟨he, ha, hr⟩ | ⟨he, ha, hr⟩
      · exact .word s ws q u _ hsw hwr (fun hn => absurd hn (hno fun hc => hc.1 he)) hu (.equals _ _ h n t ht he)
      · rcases hr with hr | ⟨i, hr, hx⟩
        · obtain ⟨rfl, i, hi, hf⟩ := hrun e hr
          exact .close s ws q u i hsw (Or.inr ⟨h, n, t, ht, he, ha⟩) hi hf
        · rcases hx with hx | ⟨rfl, hx⟩
          · exact .word s ws q u _ hsw hwr (fun _ => hok i hr) hu (.inst _ _ h n t e ht he ha hx)
          · obtain ⟨w, r, j, hb, hn, hna, hi, hf⟩ := tooLarge_next hx q
            refine .size s (ws ++ [w]) .done r j ⟨?_, ?_⟩ ?_ hf
            · exact (readsWords_len _ _ _).1 (readsWords_append h1 (.cons u h n t w r [] r hu ht he hb (.nil r)))
            · rw [placeAfter_append, h2, Option.bind_some, placeAfter, hn]; rfl
            · unfold writtenInsts
              rw [if_neg (by decide), instsOf_stop ws hna, hi]
              simp
      · have hnn := hno fun hc => ha hc.2
        rcases hr with ⟨rfl, hr⟩ | ⟨rfl, hr⟩ | ⟨rfl, rfl⟩
        · exact .word s ws _ u _ hsw hwr (fun hn => absurd hn hnn) hu (.key _ h n t e ht he ha hr)
        · exact .word s ws _ u _ hsw hwr (fun hn => absurd hn hnn) hu (.act _ h n t e ht he ha hr)
        · exact .word s ws _ u _ hsw hwr (fun hn => absurd hn hnn) hu (.late _ h n t ht he ha)
  · intro h
    cases h with
    | word ws q u _ hsw hwr hnx hu hw =>
      obtain ⟨h1, h2⟩ := hsw
      obtain ⟨fuel, hf, hgo⟩ := dictGo_words ((readsWords_len _ _ _).2 h1) good_init (by rw [h2]; simp) (s.length + 1) (by omega)
      rw [hgo]
      cases hv : foldWords {} ws with
      | error e' =>
        obtain ⟨_, i, hi, hf⟩ := (foldWords_written h2 e').1 hv
        exact absurd (hwr i hi) hf
      | ok st =>
        have hg := foldWords_good good_init _ h2 hv
        rw [ok_bind]
        cases fuel with
        | zero => omega
        | succ fuel =>
          rw [dictGo, if_neg (by simpa using hu)]
          refine bindErr.2 (Or.inl ?_)
          have hrun : NextInst u → ∃ i, runFunc st = .ok i := by
            intro hn
            cases hr : runFunc st with
            | ok i => exact ⟨i, rfl⟩
            | error e' =>
              obtain ⟨_, i, hi, hf⟩ := (foldWords_end ws (by rw [h2]; simp) e').1 (by rw [hv, ok_bind, hr])
              exact absurd (hnx hn i hi) hf
          cases hw with
          | equals _ _ h n t ht he => exact (dictStep_err hg.phase ht _).2 (Or.inl ⟨he, rfl⟩)
          | inst _ _ h n t _ ht he ha hx =>
            obtain ⟨i, hi⟩ := hrun (Or.inr ⟨h, n, t, ht, he, ha⟩)
            exact (dictStep_err hg.phase ht _).2 (Or.inr (Or.inl ⟨he, ha, Or.inr ⟨i, hi, Or.inl hx⟩⟩))
          | key _ h n t _ ht he ha hx => exact (dictStep_err hg.phase ht _).2 (Or.inr (Or.inr ⟨he, ha, Or.inl ⟨rfl, hx⟩⟩))
          | act _ h n t _ ht he ha hx => exact (dictStep_err hg.phase ht _).2 (Or.inr (Or.inr ⟨he, ha, Or.inr (Or.inl ⟨rfl, hx⟩)⟩))
          | late _ h n t ht he ha => exact (dictStep_err hg.phase ht _).2 (Or.inr (Or.inr ⟨he, ha, Or.inr (Or.inr ⟨rfl, rfl⟩)⟩))
    | size ws q u i hsw hi hf =>
      obtain ⟨h1, h2⟩ := hsw
      obtain ⟨fuel, _, hgo⟩ := dictGo_words ((readsWords_len _ _ _).2 h1) good_init (by rw [h2]; simp) (s.length + 1) (by omega)
      rw [hgo, (foldWords_written h2 .structError).2 ⟨rfl, i, hi, hf⟩]
      rfl
    | close ws q u i hsw hnx hi hf =>
      obtain ⟨h1, h2⟩ := hsw
      obtain ⟨fuel, hfu, hgo⟩ := dictGo_words ((readsWords_len _ _ _).2 h1) good_init (by rw [h2]; simp) (s.length + 1) (by omega)
      rw [hgo]
      have hend := (foldWords_end ws (by rw [h2]; simp) .structError).2 ⟨rfl, i, hi, hf⟩
      cases hv : foldWords {} ws with
      | error e' =>
        rw [hv, error_bind] at hend
        rw [error_bind]
        cases hend
        rfl
      | ok st =>
        have hg := foldWords_good good_init _ h2 hv
        rw [hv, ok_bind] at hend
        rw [ok_bind]
        rcases hnx with rfl | ⟨h, n, t, ht, he, ha⟩
        · rw [dictGo_nil fuel (by simpa using hfu)]; exact hend
        · cases fuel with
          | zero => omega
          | succ fuel =>
            have hu : u ≠ [] := by
              rintro rfl
              have e1 := ht.1
              have : n = [] := by
                have := congrArg List.length e1
                simp at this
                exact List.length_eq_zero_iff.1 (by omega)
              rw [this] at ha
              cases ha
            rw [dictGo, if_neg (by simpa using hu)]
            exact bindErr.2 (Or.inl ((dictStep_err hg.phase ht _).2 (Or.inr (Or.inl ⟨he, ha, Or.inl hend⟩))))

theorem flow_rejects (s : Str) (c x : Int) : Fails (str2mod s c x) (FlowRejects c x s) := by
  intro e
  unfold FlowRejects
  constructor
  · intro h
    have h' := h
    rw [str2mod_pack] at h'
    rcases bindErr.1 h' with h1 | ⟨i, h1, h2⟩
    · exact Or.inl ((rule_rejects s e).1 h1)
    · obtain ⟨ws, h3, h4⟩ := str2dict_inv h1
      have hr : RuleText s ws := ⟨(readsWords_len _ _ _).1 h3, h4⟩
      rcases C70_flow_command hr c x with ⟨_, h5⟩ | ⟨h5, h6⟩
      · rw [h] at h5; cases h5
      · rw [h] at h6
        cases h6
        exact Or.inr ⟨rfl, ws, hr, h5⟩
  · rintro (h | ⟨rfl, ws, hr, hf⟩)
    · rw [str2mod_pack, (rule_rejects s e).2 h]
      rfl
    · rcases C70_flow_command hr c x with ⟨h5, _⟩ | ⟨_, h6⟩
      · exact absurd h5 hf
      · exact h6

end Ofpstr
