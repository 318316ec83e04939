import Verif.Lemmas.GroupRejects
import Verif.Props.ActReject

/-!
# C81: exactly which exception every text raises that is no flow rule or no group
-/

set_option linter.unusedSimpArgs false
set_option linter.unusedVariables false

namespace Ofpstr
open Spec

/-! ## Flow rules -/

/-- C81: `str2dict` raises an exception exactly if the first wrong word of the text raises it, or if an
instruction in front of that word is too large. -/
theorem C81_rule_error (s : Str) (e : Err) : str2dict s = .error e ↔ RuleRejects s e := rule_rejects s e

/-- C81: `str2mod` raises the exceptions of the rule, and `struct.error` if a number or the whole is too large. -/
theorem C81_flow_error (s : Str) (c x : Int) (e : Err) : str2mod s c x = .error e ↔ FlowRejects c x s e := flow_rejects s c x e

/-- C81: every text is a rule whose numbers fit, or raises one exception. -/
theorem C81_one_way (s : Str) (c x : Int) :
    ((∃ ws, RuleText s ws ∧ FlowFits c x ws) ∧ ¬ ∃ e, FlowRejects c x s e) ∨
    ((∃! e, FlowRejects c x s e) ∧ ¬ ∃ ws, RuleText s ws ∧ FlowFits c x ws) := by
  cases ho : str2mod s c x with
  | ok b =>
    obtain ⟨ws, h1, h2, _⟩ := (C70_flow s c x b).1 ho
    refine Or.inl ⟨⟨ws, h1, h2⟩, ?_⟩
    rintro ⟨e, he⟩
    rw [(C81_flow_error s c x e).2 he] at ho
    cases ho
  | error e =>
    refine Or.inr ⟨⟨e, (C81_flow_error s c x e).1 ho, ?_⟩, ?_⟩
    · intro e' he
      rw [(C81_flow_error s c x e').2 he] at ho
      cases ho
      rfl
    · rintro ⟨ws, h1, h2⟩
      rw [(C70_flow s c x _).2 ⟨ws, h1, h2, rfl⟩] at ho
      cases ho

/-- C81: exceptions other than `struct.error` depend on neither the command nor the transaction id. -/
theorem C81_same (s : Str) (c x c' x' : Int) (e : Err) (he : e ≠ .structError) (h : str2mod s c x = .error e) :
    str2mod s c' x' = .error e := by
  rcases (C81_flow_error s c x e).1 h with h | ⟨h, _⟩
  · exact (C81_flow_error s c' x' e).2 (Or.inl h)
  · exact absurd h he

/-- The word with which the first part of a text is left over decides. -/
theorem flow_word {s u : Str} {ws : List Word} {p : Place} (h : StartsWith s ws p u) (hf : ∀ i ∈ instsOf ws, i.Fits) (hu : u ≠ [])
    {e : Err} (hw : WordRejects p u e) (c x : Int) : str2mod s c x = .error e := by
  refine (C81_flow_error s c x e).2 (Or.inl (.word s ws p u e h ?_ (fun _ => hf) hu hw))
  intro i hi
  unfold writtenInsts at hi
  split at hi
  · exact hf i (List.mem_of_mem_dropLast hi)
  · exact hf i hi

/-- C81: an unknown instruction raises `ValueError`, wherever it is and whatever follows. -/
theorem C81_unknown {s u h n t : Str} {ws : List Word} {p : Place} (hs : StartsWith s ws p u) (hf : ∀ i ∈ instsOf ws, i.Fits)
    (ht : Tok u h n t) (he : '=' ∉ h) (ha : n.head? = some '@') (hn : n ∉ instNames) (c x : Int) : str2mod s c x = .error .valueError := by
  refine flow_word hs hf ?_ (.inst p u h n t _ ht he ha (.unknown n t hn)) c x
  rintro rfl
  have h1 := congrArg List.length ht.1
  simp only [List.length_nil, List.length_append] at h1
  have : n = [] := List.length_eq_zero_iff.1 (by omega)
  rw [this] at ha
  cases ha

/-- C81: what follows an instruction without actions must be another instruction. -/
theorem C81_late {s u h n t : Str} {ws : List Word} (hs : StartsWith s ws .done u) (hf : ∀ i ∈ instsOf ws, i.Fits) (hu : u ≠ [])
    (ht : Tok u h n t) (he : '=' ∉ h) (ha : n.head? ≠ some '@') (c x : Int) : str2mod s c x = .error .valueError :=
  flow_word hs hf hu (.late u h n t ht he ha) c x

/-- C81: separators at the end of a text raise `ValueError`, in whatever place. -/
theorem C81_trailing {s u : Str} {ws : List Word} {p : Place} (hs : StartsWith s ws p u) (hf : ∀ i ∈ instsOf ws, i.Fits) (hu : u ≠ [])
    (ht : Tok u u [] []) (he : '=' ∉ u) (c x : Int) : str2mod s c x = .error .valueError := by
  refine flow_word hs hf hu ?_ c x
  cases p with
  | start => exact .key u u [] [] _ ht he (by simp) .nothing
  | acts => exact .act u u [] [] _ ht he (by simp) (.nothing _ [] ((C69_action [] [] 0).1 (by decide +kernel)))
  | done => exact .late u u [] [] ht he (by simp)

/-! ## Groups -/

/-- C81: the exceptions of `str2group`. -/
theorem C81_group_error (s : Str) (c x : Int) (e : Err) : str2group s c x = .error e ↔ GroupRejects c x s e := group_rejects s c x e

/-- C81: every text is a group whose numbers fit, or raises one exception. -/
theorem C81_group_one_way (s : Str) (c x : Int) :
    ((∃ gs bs, GroupRule s gs bs ∧ GroupFits c x gs bs) ∧ ¬ ∃ e, GroupRejects c x s e) ∨
    ((∃! e, GroupRejects c x s e) ∧ ¬ ∃ gs bs, GroupRule s gs bs ∧ GroupFits c x gs bs) := by
  cases ho : str2group s c x with
  | ok b =>
    obtain ⟨gs, bs, h1, h2, _⟩ := (C70_group s c x b).1 ho
    refine Or.inl ⟨⟨gs, bs, h1, h2⟩, ?_⟩
    rintro ⟨e, he⟩
    rw [(C81_group_error s c x e).2 he] at ho
    cases ho
  | error e =>
    refine Or.inr ⟨⟨e, (C81_group_error s c x e).1 ho, ?_⟩, ?_⟩
    · intro e' he
      rw [(C81_group_error s c x e').2 he] at ho
      cases ho
      rfl
    · rintro ⟨gs, bs, h1, h2⟩
      rw [(C70_group s c x _).2 ⟨gs, bs, h1, h2, rfl⟩] at ho
      cases ho

/-- C81: here too, exceptions other than `struct.error` depend on neither the command nor the transaction id. -/
theorem C81_group_same (s : Str) (c x c' x' : Int) (e : Err) (he : e ≠ .structError) (h : str2group s c x = .error e) :
    str2group s c' x' = .error e := by
  rw [C81_group_error] at h ⊢
  cases h with
  | head _ h => exact .head s e h
  | buckets gs u _ h1 h2 => exact .buckets s gs u e h1 h2
  | size => exact absurd rfl he

/-- C81: a bucket that does not fit raises `struct.error`, whatever is wrong behind it. -/
theorem C81_group_bucket {s u r : Str} {gs : List GWord} {ws : List BWord} (h1 : HeadText gs s u) (h2 : BucketText ActLen ws u r)
    (hf : ¬ BucketFits (groupType gs) ws) (c x : Int) : str2group s c x = .error .structError :=
  (C81_group_error s c x _).2 (.buckets s gs u _ h1 (.size u ws r h2 hf))

/-- C81: a word behind the head that neither starts a bucket nor is `@bucket` raises `AssertionError`. -/
theorem C81_group_other {s u h n r : Str} {gs : List GWord} (h1 : HeadText gs s u) (hu : u ≠ []) (h2 : BucketText ActLen [] u u)
    (ht : Tok u h n r) (hn : n ∉ [[], t!"@bucket"]) (c x : Int) : str2group s c x = .error .assertionError :=
  (C81_group_error s c x _).2 (.buckets s gs u _ h1 (.other u h n r hu h2 ht hn))

/-! ## Concrete cases -/

example : FlowRejects 0 0 t!"=priority=1" .assertionError := (C81_flow_error _ _ _ _).1 (by decide +kernel)
example : FlowRejects 0 0 t!"priority 1" .assertionError := (C81_flow_error _ _ _ _).1 (by decide +kernel)
example : FlowRejects 0 0 t!"priority=1/2" .assertionError := (C81_flow_error _ _ _ _).1 (by decide +kernel)
example : FlowRejects 0 0 t!"priority=x" .valueError := (C81_flow_error _ _ _ _).1 (by decide +kernel)
example : FlowRejects 0 0 t!"priority=65536" .structError := (C81_flow_error _ _ _ _).1 (by decide +kernel)
example : FlowRejects 0 0 t!"cookie=1/x" .valueError := (C81_flow_error _ _ _ _).1 (by decide +kernel)
example : FlowRejects 0 0 t!"out_port=none" .valueError := (C81_flow_error _ _ _ _).1 (by decide +kernel)
example : FlowRejects 0 0 t!"nothing=1" .keyError := (C81_flow_error _ _ _ _).1 (by decide +kernel)
example : FlowRejects 0 0 t!"eth_type=1," .valueError := (C81_flow_error _ _ _ _).1 (by decide +kernel)
example : FlowRejects 0 0 t!"@goto=256" .structError := (C81_flow_error _ _ _ _).1 (by decide +kernel)
example : FlowRejects 0 0 t!"@goto=1,output=1" .valueError := (C81_flow_error _ _ _ _).1 (by decide +kernel)
example : FlowRejects 0 0 t!"@metadata=1/x" .valueError := (C81_flow_error _ _ _ _).1 (by decide +kernel)
example : FlowRejects 0 0 t!"@meter=1/2" .assertionError := (C81_flow_error _ _ _ _).1 (by decide +kernel)
example : FlowRejects 0 0 t!"@apply,output=1," .valueError := (C81_flow_error _ _ _ _).1 (by decide +kernel)
example : FlowRejects 0 0 t!"@apply,priority=1" .valueError := (C81_flow_error _ _ _ _).1 (by decide +kernel)
example : FlowRejects 0 0 t!"@apply,output=1,output=1/2" .assertionError := (C81_flow_error _ _ _ _).1 (by decide +kernel)
example : FlowRejects 0 0 t!"@nothing" .valueError := (C81_flow_error _ _ _ _).1 (by decide +kernel)
/-- The first of two wrong words decides: an instruction that is too large counts before the next word, a
number in front of the instructions after the last one. -/
example : FlowRejects 0 0 t!"@goto=256,@nothing" .structError := (C81_flow_error _ _ _ _).1 (by decide +kernel)
example : FlowRejects 0 0 t!"priority=65536,@nothing" .valueError := (C81_flow_error _ _ _ _).1 (by decide +kernel)

/-- Refused by the specification alone. -/
example : FlowRejects 0 0 t!"@nothing" .valueError :=
  Or.inl (.word _ [] .start t!"@nothing" _ ⟨.nil _, rfl⟩ (by decide) (by intro _ i hi; cases hi) (by decide)
    (.inst .start _ [] t!"@nothing" [] _ (eq_tok (by decide +kernel)) (by decide) (by decide) (.unknown _ _ (by decide))))

theorem clear_start {s u : Str} (h : getToken s = ([], t!"@clear", u)) : StartsWith s [.clear] .done u := by
  refine ⟨.cons s [] t!"@clear" u .clear u [] u ?_ (eq_tok h) (by decide) (.clear _ _ (by decide)) (.nil _), rfl⟩
  rintro rfl
  cases h

/-- The hypotheses of `C81_unknown`, `C81_late` and `C81_trailing` hold of texts. -/
example (c x : Int) : str2mod t!"@clear,@nothing,@goto=256" c x = .error .valueError :=
  C81_unknown (clear_start (u := t!",@nothing,@goto=256") (by decide +kernel)) (by decide +kernel) (h := t!",") (n := t!"@nothing") (t := t!",@goto=256")
    (eq_tok (by decide +kernel)) (by decide) (by decide) (by decide) c x
example (c x : Int) : str2mod t!"@clear,output=1" c x = .error .valueError :=
  C81_late (clear_start (u := t!",output=1") (by decide +kernel)) (by decide +kernel) (by decide) (h := t!",") (n := t!"output") (t := t!"=1")
    (eq_tok (by decide +kernel)) (by decide) (by decide) c x
example (c x : Int) : str2mod t!"@clear, " c x = .error .valueError :=
  C81_trailing (clear_start (u := t!", ") (by decide +kernel)) (by decide +kernel) (by decide) (eq_tok (by decide +kernel)) (by decide) c x

example : GroupRejects 0 0 t!"group=x" .valueError := (C81_group_error _ _ _ _).1 (by decide +kernel)
example : GroupRejects 0 0 t!"group=1x" .assertionError := (C81_group_error _ _ _ _).1 (by decide +kernel)
example : GroupRejects 0 0 t!"group=0x100000000" .structError := (C81_group_error _ _ _ _).1 (by decide +kernel)
example : GroupRejects 0 0 t!"group=1,weight 1" .assertionError := (C81_group_error _ _ _ _).1 (by decide +kernel)
example : GroupRejects 0 0 t!"group=1,weight=x" .valueError := (C81_group_error _ _ _ _).1 (by decide +kernel)
example : GroupRejects 0 0 t!"group=1,=all" .assertionError := (C81_group_error _ _ _ _).1 (by decide +kernel)
example : GroupRejects 0 0 t!"group=1,@bucket,output=1/2" .assertionError := (C81_group_error _ _ _ _).1 (by decide +kernel)
example : GroupRejects 0 0 t!"group=1,@bucket,set_nothing=1" .keyError := (C81_group_error _ _ _ _).1 (by decide +kernel)
example : GroupRejects 0 0 t!"group=1,@bucket,nothing" .assertionError := (C81_group_error _ _ _ _).1 (by decide +kernel)
example : GroupRejects 0 0 t!"group=1,weight=65536,@nothing" .structError := (C81_group_error _ _ _ _).1 (by decide +kernel)
example : GroupRejects 0 0 t!"group=0x100000000,weight=1,@nothing" .assertionError := (C81_group_error _ _ _ _).1 (by decide +kernel)
example : GroupRejects 65536 0 t!"group=1" .structError := (C81_group_error _ _ _ _).1 (by decide +kernel)

/-- The hypotheses of `C81_group_bucket` and `C81_group_other` hold of texts. -/
example (c x : Int) : str2group t!",,weight=65536,@nothing" c x = .error .structError := by
  have h1 : HeadText [] t!",,weight=65536,@nothing" t!",,weight=65536,@nothing" :=
    .stop _ t!",," t!"weight" t!"=65536,@nothing" (eq_tok (by decide +kernel)) (by decide)
  have h2 : BucketText ActLen [.weight 65536] t!",,weight=65536,@nothing" t!",@nothing" :=
    .cons _ _ t!",@nothing" [] _ (by decide) (.weight _ t!",," t!"=65536,@nothing" t!"=" t!"65536" 65536 _ (eq_tok (by decide +kernel)) (by decide)
      (eq_tok (by decide +kernel)) (by decide) ((parseInt_iff _ _ _).1 (by decide +kernel)))
      (.nil _ (Or.inr ⟨t!",", t!"@nothing", [], eq_tok (by decide +kernel), by decide, Or.inl (by decide)⟩))
  exact C81_group_bucket h1 h2 (by decide +kernel) c x
example (c x : Int) : str2group t!"@nothing" c x = .error .assertionError :=
  C81_group_other (gs := []) (u := t!"@nothing") (h := []) (n := t!"@nothing") (r := []) (.stop _ [] t!"@nothing" [] (eq_tok (by decide +kernel)) (by decide)) (by decide)
    (.nil _ (Or.inr ⟨[], t!"@nothing", [], eq_tok (by decide +kernel), by decide, Or.inl (by decide)⟩))
    (eq_tok (by decide +kernel)) (by decide) c x

end Ofpstr
