import Verif.Lemmas.RejectKinds
import Verif.Props.RuleReject

/-!
# C82: exactly which exception every text raises that is no multipart message
-/

set_option linter.unusedSimpArgs false
set_option linter.unusedVariables false

namespace Ofpstr
open Spec

/-! ## Flow statistics -/

/-- C82: the exceptions of `text2mpflow`: all lines are read before the first one is put together. -/
theorem C82_flow_error (txt : Str) (type xid : Int) (e : Err) : text2mpflow txt type xid = .error e ↔ FlowTextRejects type xid txt e :=
  flowText_rejects txt type xid e

/-- C82: every text gives a message or raises one exception. -/
theorem C82_flow_one_way (txt : Str) (type xid : Int) :
    ((∃ ls es, TextLines txt ls ∧ List.Forall₂ StatLine ls es ∧ (∀ e ∈ es, LineFits type e) ∧ MpFits type xid (es.flatMap (lineOf type))) ∧
      ¬ ∃ e, FlowTextRejects type xid txt e) ∨
    ((∃! e, FlowTextRejects type xid txt e) ∧
      ¬ ∃ ls es, TextLines txt ls ∧ List.Forall₂ StatLine ls es ∧ (∀ e ∈ es, LineFits type e) ∧ MpFits type xid (es.flatMap (lineOf type))) := by
  cases ho : text2mpflow txt type xid with
  | ok b =>
    obtain ⟨ls, es, h1, h2, h3, h4, _⟩ := (C71_flow txt type xid b).1 ho
    refine Or.inl ⟨⟨ls, es, h1, h2, h3, h4⟩, ?_⟩
    rintro ⟨e, he⟩
    rw [(C82_flow_error txt type xid e).2 he] at ho
    cases ho
  | error e =>
    refine Or.inr ⟨⟨e, (C82_flow_error txt type xid e).1 ho, ?_⟩, ?_⟩
    · intro e' he
      rw [(C82_flow_error txt type xid e').2 he] at ho
      cases ho
      rfl
    · rintro ⟨ls, es, h1, h2, h3, h4⟩
      rw [(C71_flow txt type xid _).2 ⟨ls, es, h1, h2, h3, h4, rfl⟩] at ho
      cases ho

/-- C82: a `NameError` means exactly that all lines can be read, and that some of them from the first on are
right and make a message of more than 65535 bytes. -/
theorem C82_flow_long (txt : Str) (type xid : Int) : text2mpflow txt type xid = .error .nameError ↔
    ∃ pre post bs, TextLines txt (pre ++ post) ∧ (∀ t ∈ pre ++ post, ∃ x, StatReads t x) ∧ List.Forall₂ (FlowEntry type) pre bs ∧
      65536 ≤ 16 + bs.flatten.length := by
  rw [C82_flow_error]
  constructor
  · intro h
    cases h with
    | line _ _ _ _ _ _ h => exact absurd rfl (mild_stat _ _ h).1
    | message ls _ h1 h2 h3 =>
      obtain ⟨pre, post, bs, rfl, h4, h5⟩ := (mp_name (mild_flowSize type) type xid ls).1 h3
      exact ⟨pre, post, bs, h1, h2, h4, h5⟩
  · rintro ⟨pre, post, bs, h1, h2, h3, h4⟩
    exact .message txt _ _ h1 h2 ((mp_name (mild_flowSize type) type xid _).2 ⟨pre, post, bs, rfl, h3, h4⟩)

/-- C82: a line that cannot be read counts before numbers that do not fit, wherever they are, and neither the
lines behind it nor type and transaction id matter. -/
theorem C82_flow_first {txt s : Str} {pre post : List Str} {e : Err} (h1 : TextLines txt (pre ++ s :: post)) (h2 : ∀ t ∈ pre, ∃ x, StatReads t x)
    (h3 : StatRejects s e) (type xid : Int) : text2mpflow txt type xid = .error e :=
  (C82_flow_error txt type xid e).2 (.line txt pre s post e h1 h2 h3)

/-! ## Group descriptions -/

/-- C82: the exceptions of replies with group descriptions: lines are read and put together one by one. -/
theorem C82_desc_error (txt : Str) (xid : Int) (e : Err) : text2mpgroupdesc txt 19 xid = .error e ↔ DescTextRejects xid txt e :=
  descText_rejects txt xid e

/-- C82: a request for descriptions only fails if its type or its transaction id does not fit. -/
theorem C82_desc_request (txt : Str) (type xid : Int) (ht : type ≠ 19) (e : Err) : text2mpgroupdesc txt type xid = .error e ↔
    e = .structError ∧ ¬ (FitsIn 1 type ∧ FitsIn 4 xid) := descAsk_rejects txt type xid ht e

/-- C82: every text gives a message or raises one exception. -/
theorem C82_desc_one_way (txt : Str) (xid : Int) :
    ((∃ ls es, TextLines txt ls ∧ List.Forall₂ DescLine ls es ∧ (∀ e ∈ es, DescFits e) ∧ MpFits 19 xid (es.flatMap descOf)) ∧
      ¬ ∃ e, DescTextRejects xid txt e) ∨
    ((∃! e, DescTextRejects xid txt e) ∧
      ¬ ∃ ls es, TextLines txt ls ∧ List.Forall₂ DescLine ls es ∧ (∀ e ∈ es, DescFits e) ∧ MpFits 19 xid (es.flatMap descOf)) := by
  cases ho : text2mpgroupdesc txt 19 xid with
  | ok b =>
    obtain ⟨ls, es, h1, h2, h3, h4, _⟩ := (C71_desc txt xid b).1 ho
    refine Or.inl ⟨⟨ls, es, h1, h2, h3, h4⟩, ?_⟩
    rintro ⟨e, he⟩
    rw [(C82_desc_error txt xid e).2 he] at ho
    cases ho
  | error e =>
    refine Or.inr ⟨⟨e, (C82_desc_error txt xid e).1 ho, ?_⟩, ?_⟩
    · intro e' he
      rw [(C82_desc_error txt xid e').2 he] at ho
      cases ho
      rfl
    · rintro ⟨ls, es, h1, h2, h3, h4⟩
      rw [(C71_desc txt xid _).2 ⟨ls, es, h1, h2, h3, h4, rfl⟩] at ho
      cases ho

/-- C82: here a `NameError` says nothing about the lines behind those that are too long together. -/
theorem C82_desc_long (txt : Str) (xid : Int) : text2mpgroupdesc txt 19 xid = .error .nameError ↔
    ∃ pre post bs, TextLines txt (pre ++ post) ∧ List.Forall₂ DescEntry pre bs ∧ 65536 ≤ 16 + bs.flatten.length := by
  rw [C82_desc_error]
  constructor
  · rintro ⟨ls, h1, h2⟩
    obtain ⟨pre, post, bs, rfl, h3, h4⟩ := (mp_name mild_desc 19 xid ls).1 h2
    exact ⟨pre, post, bs, h1, h3, h4⟩
  · rintro ⟨pre, post, bs, h1, h3, h4⟩
    exact ⟨_, h1, (mp_name mild_desc 19 xid _).2 ⟨pre, post, bs, rfl, h3, h4⟩⟩

/-- C82: the first wrong line decides, be it not readable or too large; the lines behind it and the transaction id do
not matter. -/
theorem C82_desc_first {txt s : Str} {pre post : List Str} {bs : List Bytes} {e : Err} (h1 : TextLines txt (pre ++ s :: post))
    (h2 : List.Forall₂ DescEntry pre bs) (hl : 16 + bs.flatten.length < 65536) (h3 : DescRejects s e) (xid : Int) :
    text2mpgroupdesc txt 19 xid = .error e :=
  (C82_desc_error txt xid e).2 ⟨_, h1, .lines _ _ (join_behind 0 h2 (by omega) h3 post)⟩

/-! ## Group statistics -/

/-- C82: the exceptions of replies with group statistics. -/
theorem C82_group_error (txt : Str) (xid : Int) (e : Err) : text2mpgroup txt 19 xid = .error e ↔ GroupTextRejects xid txt e :=
  groupText_rejects txt xid e

/-- C82: the exceptions of requests for group statistics. -/
theorem C82_group_request (txt : Str) (type xid : Int) (ht : type ≠ 19) (e : Err) : text2mpgroup txt type xid = .error e ↔
    GroupAskRejects type xid txt e := groupAsk_rejects txt type xid ht e

/-- C82: every text gives a message or raises one exception. -/
theorem C82_group_one_way (txt : Str) (xid : Int) :
    ((∃ ls es, TextLines txt ls ∧ List.Forall₂ GStatLine ls es ∧ (∀ e ∈ es, e.Fits) ∧ MpFits 19 xid (es.flatMap GStat.wire)) ∧
      ¬ ∃ e, GroupTextRejects xid txt e) ∨
    ((∃! e, GroupTextRejects xid txt e) ∧
      ¬ ∃ ls es, TextLines txt ls ∧ List.Forall₂ GStatLine ls es ∧ (∀ e ∈ es, e.Fits) ∧ MpFits 19 xid (es.flatMap GStat.wire)) := by
  cases ho : text2mpgroup txt 19 xid with
  | ok b =>
    obtain ⟨ls, es, h1, h2, h3, h4, _⟩ := (C71_group txt xid b).1 ho
    refine Or.inl ⟨⟨ls, es, h1, h2, h3, h4⟩, ?_⟩
    rintro ⟨e, he⟩
    rw [(C82_group_error txt xid e).2 he] at ho
    cases ho
  | error e =>
    refine Or.inr ⟨⟨e, (C82_group_error txt xid e).1 ho, ?_⟩, ?_⟩
    · intro e' he
      rw [(C82_group_error txt xid e').2 he] at ho
      cases ho
      rfl
    · rintro ⟨ls, es, h1, h2, h3, h4⟩
      rw [(C71_group txt xid _).2 ⟨ls, es, h1, h2, h3, h4, rfl⟩] at ho
      cases ho

/-- C82: the `NameError` of group statistics. -/
theorem C82_group_long (txt : Str) (xid : Int) : text2mpgroup txt 19 xid = .error .nameError ↔
    ∃ pre post bs, TextLines txt (pre ++ post) ∧ List.Forall₂ GStatEntry pre bs ∧ 65536 ≤ 16 + bs.flatten.length := by
  rw [C82_group_error]
  constructor
  · rintro ⟨ls, h1, h2⟩
    obtain ⟨pre, post, bs, rfl, h3, h4⟩ := (mp_name mild_gstat 19 xid ls).1 h2
    exact ⟨pre, post, bs, h1, h3, h4⟩
  · rintro ⟨pre, post, bs, h1, h3, h4⟩
    exact ⟨_, h1, (mp_name mild_gstat 19 xid _).2 ⟨pre, post, bs, rfl, h3, h4⟩⟩

/-- C82: the first wrong line decides. -/
theorem C82_group_first {txt s : Str} {pre post : List Str} {bs : List Bytes} {e : Err} (h1 : TextLines txt (pre ++ s :: post))
    (h2 : List.Forall₂ GStatEntry pre bs) (hl : 16 + bs.flatten.length < 65536) (h3 : GStatRejects s e) (xid : Int) :
    text2mpgroup txt 19 xid = .error e :=
  (C82_group_error txt xid e).2 ⟨_, h1, .lines _ _ (join_behind 0 h2 (by omega) h3 post)⟩

/-! ## Other messages -/

/-- C82: nothing else that reads a text raises a `NameError`: no rule, no group and no action, and no request for
groups. -/
theorem C82_only_long (s : Str) (c x : Int) : str2dict s ≠ .error .nameError ∧ str2mod s c x ≠ .error .nameError ∧
    str2group s c x ≠ .error .nameError ∧ str2act s ≠ .error .nameError ∧ str2oxm s ≠ .error .nameError ∧
    (c ≠ 19 → text2mpgroupdesc s c x ≠ .error .nameError ∧ text2mpgroup s c x ≠ .error .nameError) := by
  refine ⟨fun h => (mild_rule _ _ ((C81_rule_error _ _).1 h)).1 rfl, fun h => (mild_flow _ _ _ _ ((C81_flow_error _ _ _ _).1 h)).1 rfl,
    fun h => (mild_group _ _ _ _ ((C81_group_error _ _ _ _).1 h)).1 rfl, fun h => (mild_act _ _ ((act_rejects _ _).1 h)).1 rfl,
    (C79_ends s).2, fun hc => ⟨fun h => ?_, fun h => ?_⟩⟩
  · have := (C82_desc_request s c x hc _).1 h
    cases this.1
  · obtain ⟨l, ls, _, h | ⟨h, _⟩⟩ := (C82_group_request s c x hc _).1 h
    · exact (mild_headS _ _ h).1 rfl
    · cases h

/-! ## Concrete cases -/

example : FlowTextRejects 19 0 t!"packet_count 1" .assertionError := (C82_flow_error _ _ _ _).1 (by decide +kernel)
example : FlowTextRejects 19 0 t!"packet_count=1/2" .assertionError := (C82_flow_error _ _ _ _).1 (by decide +kernel)
example : FlowTextRejects 19 0 t!"packet_count=1\nbyte_count=x" .valueError := (C82_flow_error _ _ _ _).1 (by decide +kernel)
example : FlowTextRejects 19 0 t!"byte_count=1,nothing=1" .keyError := (C82_flow_error _ _ _ _).1 (by decide +kernel)
example : FlowTextRejects 19 0 t!"duration_sec=0x100000000" .structError := (C82_flow_error _ _ _ _).1 (by decide +kernel)
example : FlowTextRejects 256 0 t!"table=1" .structError := (C82_flow_error _ _ _ _).1 (by decide +kernel)
example : DescTextRejects 0 t!"group 1" .assertionError := (C82_desc_error _ _ _).1 (by decide +kernel)
example : DescTextRejects 0 t!"group=x" .valueError := (C82_desc_error _ _ _).1 (by decide +kernel)
example : DescTextRejects 0 t!"group=1,@bucket,output=1,set_nothing=1" .keyError := (C82_desc_error _ _ _).1 (by decide +kernel)
example : DescTextRejects 0 t!"group=1,weight=65536,@bucket,output=x" .structError := (C82_desc_error _ _ _).1 (by decide +kernel)
example : DescTextRejects (-1) t!"group=1" .structError := (C82_desc_error _ _ _).1 (by decide +kernel)
example : GroupTextRejects 0 t!"group=1/2" .assertionError := (C82_group_error _ _ _).1 (by decide +kernel)
example : GroupTextRejects 0 t!"group=1,ref_count=x" .valueError := (C82_group_error _ _ _).1 (by decide +kernel)
example : GroupTextRejects 0 t!"group=1,nothing" .assertionError := (C82_group_error _ _ _).1 (by decide +kernel)
example : GroupTextRejects 0 t!"group=1,@bucket,byte_count=-1" .structError := (C82_group_error _ _ _).1 (by decide +kernel)
example : GroupAskRejects 18 0 t!"group=x" .valueError := (C82_group_request _ _ _ (by decide) _).1 (by decide +kernel)
example : GroupAskRejects 18 0 t!"group=-1\n" .structError := (C82_group_request _ _ _ (by decide) _).1 (by decide +kernel)
/-- Of two wrong lines, one with a number too large and one that cannot be read: the second decides for flows, the
first for groups. -/
example : FlowTextRejects 19 0 t!"priority=65536\nnothing=1" .keyError ∧ DescTextRejects 0 t!"group=0x100000000\ngroup=x" .structError ∧
    GroupTextRejects 0 t!"group=0x100000000\ngroup=x" .structError :=
  ⟨(C82_flow_error _ _ _ _).1 (by decide +kernel), (C82_desc_error _ _ _).1 (by decide +kernel), (C82_group_error _ _ _).1 (by decide +kernel)⟩

/-- Refused by the specification alone, with the hypotheses of `C82_group_first`. -/
example (xid : Int) : text2mpgroup t!"\ngroup\n@bucket" 19 xid = .error .assertionError := by
  have h1 : TextLines t!"\ngroup\n@bucket" ([[]] ++ t!"group" :: [t!"@bucket"]) := by unfold TextLines; decide
  have h2 : List.Forall₂ GStatEntry [[]] [(⟨[], [], []⟩ : GStat).wire] :=
    .cons ⟨⟨[], [], []⟩, ⟨[], .nil, .nil _⟩, by unfold GStat.Fits; decide, by unfold GStat.Small; decide, rfl⟩ .nil
  exact C82_group_first h1 h2 (by decide) (.head _ _ (.id _ [] [] _ (eq_tok (by decide +kernel))
    ⟨[], [], [], eq_tok (by decide +kernel), Or.inl ⟨by decide, rfl⟩⟩)) xid
/-- The same for descriptions and flows. -/
example (xid : Int) : text2mpgroupdesc t!"\ngroup\n@bucket" 19 xid = .error .assertionError := by
  have h1 : TextLines t!"\ngroup\n@bucket" ([[]] ++ t!"group" :: [t!"@bucket"]) := by unfold TextLines; decide
  have h2 : List.Forall₂ DescEntry [[]] [descOf ([], [])] :=
    .cons ⟨([], []), ⟨[], .nil, .nil⟩, by unfold DescFits; decide, by unfold DescSmall; decide, rfl⟩ .nil
  exact C82_desc_first h1 h2 (by decide) (.head _ _ (.id _ [] [] _ (eq_tok (by decide +kernel))
    ⟨[], [], [], eq_tok (by decide +kernel), Or.inl ⟨by decide, rfl⟩⟩)) xid
example (type xid : Int) : text2mpflow t!"\nbyte_count\n@bucket" type xid = .error .assertionError := by
  have h1 : TextLines t!"\nbyte_count\n@bucket" ([[]] ++ t!"byte_count" :: [t!"@bucket"]) := by unfold TextLines; decide
  refine C82_flow_first h1 ?_ (Or.inl (.number _ [] t!"byte_count" [] _ (by decide) (eq_tok (by decide +kernel)) (by decide)
    ⟨[], [], [], eq_tok (by decide +kernel), Or.inl ⟨by decide, rfl⟩⟩)) type xid
  intro t ht
  simp only [List.mem_singleton] at ht
  subst ht
  exact (parseStat_reads []).1 (show ∃ a, parseStat [] = .ok a from ⟨_, rfl⟩)
/-- The hypotheses of `C82_desc_long` can be met: 8190 lines or more of 8 bytes each. -/
example (n : Nat) (hn : 8190 ≤ n) (xid : Int) : text2mpgroupdesc (lineList (List.replicate n t!"")) 19 xid = .error .nameError := by
  have h2 : ∀ n, List.Forall₂ DescEntry (List.replicate n []) (List.replicate n (descOf ([], []))) := by
    intro n
    induction n with
    | zero => exact .nil
    | succ n ih => exact .cons ⟨([], []), ⟨[], .nil, .nil⟩, by unfold DescFits; decide, by unfold DescSmall; decide, rfl⟩ ih
  refine (C82_desc_long _ _).2 ⟨List.replicate n [], [], _, ?_, h2 n, ?_⟩
  · rw [List.append_nil]
    refine ⟨?_, ?_, rfl⟩
    · intro h
      have := congrArg List.length h
      rw [List.length_replicate, List.length_nil] at this
      omega
    · intro t ht
      rw [List.eq_of_mem_replicate ht]
      decide
  · rw [List.length_flatten, List.map_replicate, List.sum_replicate_nat, show (descOf ([], [])).length = 8 from rfl]
    omega

end Ofpstr
