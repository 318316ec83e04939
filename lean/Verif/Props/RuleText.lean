import Verif.Lemmas.RuleText

/-!
# C70: exactly which texts are flow rules and groups
-/

namespace Ofpstr
open Spec

/-- For concrete cases. -/
theorem ok_of_isOk {α : Type} {x : Py α} (h : x.isOk = true) : ∃ a, x = .ok a := by
  cases x with
  | ok a => exact ⟨a, rfl⟩
  | error e => cases h

/-- C70: `str2mod` accepts exactly the texts of the grammar `RuleText`, in which match items and actions are
given by their grammars too, if the numbers fit; the message is the one of the words. -/
theorem C70_flow (s : Str) (c x : Int) (b : Bytes) : str2mod s c x = .ok b ↔
    ∃ ws, RuleText s ws ∧ FlowFits c x ws ∧ b = flowOf c x ws := by
  rw [C33_fields]
  simp only [RuleText, readsWords_len, and_assoc]

/-- C70: a text is a rule in one way only. -/
theorem C70_flow_unique {s : Str} {ws ws' : List Word} (h : RuleText s ws) (h' : RuleText s ws') : ws = ws' :=
  ruleText_unique h h'

/-- C70: a text that is no rule gives no message, whatever command and xid; neither does one with
a number that does not fit. -/
theorem C70_flow_refused (s : Str) (c x : Int) : (∀ b, str2mod s c x ≠ .ok b) ↔ ∀ ws, RuleText s ws → ¬ FlowFits c x ws := by
  constructor
  · intro h ws h1 h2
    exact h _ ((C70_flow s c x _).2 ⟨ws, h1, h2, rfl⟩)
  · intro h b hb
    obtain ⟨ws, h1, h2, -⟩ := (C70_flow s c x b).1 hb
    exact h ws h1 h2

/-- C70: the words of a text do not depend on the command: a text that one command accepts is refused by
another only because of a number, and then with `struct.error`. -/
theorem C70_flow_command {s : Str} {ws : List Word} (h : RuleText s ws) (c x : Int) :
    (FlowFits c x ws ∧ str2mod s c x = .ok (flowOf c x ws)) ∨ (¬ FlowFits c x ws ∧ str2mod s c x = .error .structError) := by
  obtain ⟨h1, h2⟩ := h
  rw [← readsWords_len] at h1
  by_cases hf : FlowFits c x ws
  · exact .inl ⟨hf, (str2mod_words h1 h2 c x).1 hf⟩
  · exact .inr ⟨hf, (str2mod_words h1 h2 c x).2 hf⟩

/-- C70: `str2group` accepts exactly the texts of the grammar `GroupRule`, in which the actions are given by
their grammar too, if the numbers fit; the message is the one of the words. -/
theorem C70_group (s : Str) (c x : Int) (b : Bytes) : str2group s c x = .ok b ↔
    ∃ gs bs, GroupRule s gs bs ∧ GroupFits c x gs bs ∧ b = groupMod c x gs bs := by
  rw [C39_message, actP_len]
  constructor
  · rintro ⟨gs, bs, u, h1, h2, h3, h4⟩
    exact ⟨gs, bs, ⟨u, h1, h2⟩, h3, h4⟩
  · rintro ⟨gs, bs, ⟨u, h1, h2⟩, h3, h4⟩
    exact ⟨gs, bs, u, h1, h2, h3, h4⟩

/-- C70: a text is a group in one way only. -/
theorem C70_group_unique {s : Str} {gs gs' : List GWord} {bs bs' : List (List BWord)} (h : GroupRule s gs bs) (h' : GroupRule s gs' bs') :
    gs = gs' ∧ bs = bs' :=
  groupRule_unique h h'

/-- C70: the same for groups. -/
theorem C70_group_command {s : Str} {gs : List GWord} {bs : List (List BWord)} (h : GroupRule s gs bs) (c x : Int) :
    (GroupFits c x gs bs ∧ str2group s c x = .ok (groupMod c x gs bs)) ∨ (¬ GroupFits c x gs bs ∧ str2group s c x = .error .structError) := by
  obtain ⟨u, h1, h2⟩ := h
  rw [← actP_len] at h2
  rw [str2group_text h1 h2]
  by_cases hf : GroupFits c x gs bs
  · exact .inl ⟨hf, if_pos hf⟩
  · exact .inr ⟨hf, if_neg hf⟩

/-- A rule in words: a key, a match item, `@apply` with an action in brackets. -/
example : RuleText t!"priority=1,in_port=3,@apply,output(2)" [.key .priority 1, .oxm [0x80, 0, 0, 4, 0, 0, 0, 3], .apply,
    .act [0, 0, 0, 16, 0, 0, 0, 2, 255, 255, 0, 0, 0, 0, 0, 0]] := by
  have tk : ∀ {s h b r : Str}, getToken s = (h, b, r) → Tok s h b r := fun h => (getToken_iff _ _ _ _).1 h
  refine ⟨(readsWords_len _ _ _).1 ?_, by decide⟩
  refine .cons _ [] t!"priority" t!"=1,in_port=3,@apply,output(2)" _ t!",in_port=3,@apply,output(2)" _ _ (by decide) (tk (by decide +kernel)) (by decide)
    (.key .priority _ ['='] t!"1" 1 _ (tk (by decide +kernel)) (by decide) ((parseInt_iff t!"1" 1 1).1 (by decide))) ?_
  refine .cons _ [','] t!"in_port" t!"=3,@apply,output(2)" _ t!",@apply,output(2)" _ _ (by decide) (tk (by decide +kernel)) (by decide)
    (.oxm _ _ _ 9 (by decide) (by decide) (by unfold oxmP; decide +kernel) (by decide)) ?_
  refine .cons _ [','] t!"@apply" t!",output(2)" _ t!",output(2)" _ _ (by decide) (tk (by decide +kernel)) (by decide)
    (.apply _ _ (by decide)) ?_
  exact .cons _ [','] t!"output(2)" [] _ [] _ _ (by decide) (tk (by decide +kernel)) (by decide)
    (.act _ _ _ 9 (by decide) (by unfold actP; decide +kernel) (by decide)) (.nil _)
/-- Not rules: an action without `@apply`, a match item after it, a comma at the end. -/
theorem ruleText_not {s : Str} {e : Err} (h : str2mod s 0 0 = .error e) (he : e ≠ .structError) (ws : List Word) : ¬ RuleText s ws := by
  intro hr
  rcases C70_flow_command hr 0 0 with ⟨_, h1⟩ | ⟨_, h1⟩
  · rw [h] at h1; cases h1
  · rw [h] at h1
    exact he (by simpa using h1)

example (ws : List Word) : ¬ RuleText t!"output=2" ws ∧ ¬ RuleText t!"@apply,in_port=2" ws ∧ ¬ RuleText t!"priority=1," ws :=
  ⟨ruleText_not (e := .keyError) (by decide +kernel) (by decide) ws, ruleText_not (e := .valueError) (by decide +kernel) (by decide) ws,
   ruleText_not (e := .valueError) (by decide +kernel) (by decide) ws⟩
/-- A text with keys, a match with a mask, actions in both forms and two instructions; a group with two buckets. -/
example : (∃ ws, RuleText t!"table=1, priority=0x10,ipv4_dst=10.0.0.0/8,@apply,set_vlan_vid=5,output(2),@goto=3" ws) ∧
    ∃ gs bs, GroupRule t!"group=7,select,weight=2,output=1,@bucket,weight=3,output(2)" gs bs := by
  constructor
  · have h : ∃ b, str2mod t!"table=1, priority=0x10,ipv4_dst=10.0.0.0/8,@apply,set_vlan_vid=5,output(2),@goto=3" 0 0 = .ok b :=
      ok_of_isOk (by decide +kernel)
    obtain ⟨b, h⟩ := h
    obtain ⟨ws, h1, -⟩ := (C70_flow _ _ _ _).1 h
    exact ⟨ws, h1⟩
  · have h : ∃ b, str2group t!"group=7,select,weight=2,output=1,@bucket,weight=3,output(2)" 0 0 = .ok b :=
      ok_of_isOk (by decide +kernel)
    obtain ⟨b, h⟩ := h
    obtain ⟨gs, bs, h1, -⟩ := (C70_group _ _ _ _).1 h
    exact ⟨gs, bs, h1⟩

end Ofpstr
