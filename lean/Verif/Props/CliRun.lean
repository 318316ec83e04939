import Verif.Lemmas.CliRuns
import Verif.Props.Cli
import Verif.Props.RuleReject
import Verif.Props.MsgPrint
import Verif.Props.Switch

/-!
# C84: exactly what the command line tool does

`Spec/CliRun.lean` says what is sent, printed and raised for every command, every text and everything that arrives.
-/

set_option linter.unusedSimpArgs false

namespace Ofpstr
open Spec

/-- C84: `msgs` yields a message exactly as `MsgRead` says and raises `struct.error` exactly if none comes. -/
theorem C84_message (s : Sock) : (∀ m s', nextMsg s = .ok (m, s') ↔ MsgRead s m s') ∧
    ∀ e, nextMsg s = .error e ↔ e = .structError ∧ NoMsg s :=
  ⟨nextMsg_ok s, nextMsg_error s⟩

theorem flow_number {c : Str} {n : Nat} (h : (c, n) ∈ flowNumbers) : c ∈ cliFlowCmds ∧ cliFlowCmds.idxOf c = n := by
  have hm : ∀ c ∈ flowNumbers, c.1 ∈ cliFlowCmds ∧ cliFlowCmds.idxOf c.1 = c.2 := by decide
  exact hm _ h

theorem group_number {c : Str} {n : Nat} (h : (c, n) ∈ groupNumbers) : c ∈ cliGroupCmds ∧ cliGroupCmds.idxOf c = n := by
  have hm : ∀ c ∈ groupNumbers, c.1 ∈ cliGroupCmds ∧ cliGroupCmds.idxOf c.1 = c.2 := by decide
  exact hm _ h

theorem number_flow {c : Str} (h : c ∈ cliFlowCmds) : (c, cliFlowCmds.idxOf c) ∈ flowNumbers := by
  have hm : ∀ c ∈ cliFlowCmds, (c, cliFlowCmds.idxOf c) ∈ flowNumbers := by decide
  exact hm _ h

theorem number_group {c : Str} (h : c ∈ cliGroupCmds) : (c, cliGroupCmds.idxOf c) ∈ groupNumbers := by
  have hm : ∀ c ∈ cliGroupCmds, (c, cliGroupCmds.idxOf c) ∈ groupNumbers := by decide
  exact hm _ h

/-- What is specified is what is done. -/
theorem does_run {c : Str} {args : List Str} {s sent : List Bytes} {ts : List Str} {o : Ending} (h : Does c args s sent ts o) :
    ofctl c args s = { sent := sent, printed := ts, outcome := outcomeOf o } := by
  cases h with
  | dumpFlows _ _ _ _ hd =>
    rw [ofctl_dump_flows, (dump_iff C78_flow_stats C78_flow_stats_error _ _ _).2 hd, hello_message]
  | dumpGroups _ _ _ _ hd =>
    rw [ofctl_dump_groups, (dump_iff C78_group_desc C78_group_desc_error _ _ _).2 hd, hello_message]
  | flow _ n _ _ ws _ hc ht hf hw =>
    obtain ⟨h1, h2⟩ := flow_number hc
    rw [ofctl_flow c args s h1, h2, (C70_flow _ _ _ _).2 ⟨ws, ht, hf, rfl⟩, hello_message, barrier_message]
    dsimp only
    rw [(wait_iff s o).2 hw]
  | noFlow _ n _ _ e hc he =>
    obtain ⟨h1, h2⟩ := flow_number hc
    rw [ofctl_flow c args s h1, h2, (C81_flow_error _ _ _ _).2 he, hello_message]
    rfl
  | group _ n _ _ gs bs _ hc ht hf hw =>
    obtain ⟨h1, h2⟩ := group_number hc
    rw [ofctl_group c args s h1, h2, (C70_group _ _ _ _).2 ⟨gs, bs, ht, hf, rfl⟩, hello_message, barrier_message]
    dsimp only
    rw [(wait_iff s o).2 hw]
  | noGroup _ n _ _ e hc he =>
    obtain ⟨h1, h2⟩ := group_number hc
    rw [ofctl_group c args s h1, h2, (C81_group_error _ _ _ _).2 he, hello_message]
    rfl
  | unknown _ _ _ hc => exact C55_unknown c args s hc

/-- Something is specified for every command, every text and everything that arrives. -/
theorem does_all (c : Str) (args : List Str) (s : List Bytes) : ∃ sent ts o, Does c args s sent ts o := by
  by_cases h1 : c = t!"dump-flows"
  · subst h1
    obtain ⟨o, _, hd⟩ := dump_sound (k := 1) (fun b t => (C78_flow_stats b t).1) (fun b e => (C78_flow_stats_error b e).1)
      (sockBytes s + 1) s (Nat.lt_succ_self _)
    exact ⟨_, _, o, .dumpFlows args s _ o hd⟩
  by_cases h2 : c = t!"dump-groups"
  · subst h2
    obtain ⟨o, _, hd⟩ := dump_sound (k := 7) (fun b t => (C78_group_desc b t).1) (fun b e => (C78_group_desc_error b e).1)
      (sockBytes s + 1) s (Nat.lt_succ_self _)
    exact ⟨_, _, o, .dumpGroups args s _ o hd⟩
  obtain ⟨o, _, hw⟩ := wait_sound (sockBytes s + 1) s (Nat.lt_succ_self _)
  by_cases h3 : c ∈ cliFlowCmds
  · have hn := number_flow h3
    cases hx : str2mod (joinStr t!" " args) (cliFlowCmds.idxOf c : Nat) 2 with
    | ok x =>
      obtain ⟨ws, ht, hf, _⟩ := (C70_flow _ _ _ _).1 hx
      exact ⟨_, _, o, .flow c _ args s ws o hn ht hf hw⟩
    | error e => exact ⟨_, _, _, .noFlow c _ args s e hn ((C81_flow_error _ _ _ _).1 hx)⟩
  by_cases h4 : c ∈ cliGroupCmds
  · have hn := number_group h4
    cases hx : str2group (joinStr t!" " args) (cliGroupCmds.idxOf c : Nat) 2 with
    | ok x =>
      obtain ⟨gs, bs, ht, hf, _⟩ := (C70_group _ _ _ _).1 hx
      exact ⟨_, _, o, .group c _ args s gs bs o hn ht hf hw⟩
    | error e => exact ⟨_, _, _, .noGroup c _ args s e hn ((C81_group_error _ _ _ _).1 hx)⟩
  refine ⟨_, _, _, .unknown c args s ?_⟩
  have hf : flowNumbers.map Prod.fst = cliFlowCmds := by decide
  have hg : groupNumbers.map Prod.fst = cliGroupCmds := by decide
  unfold allCommands
  rw [hf, hg, List.mem_append, List.mem_append]
  simp only [not_or]
  exact ⟨by simp [h1, h2], h3, h4⟩

/-- C84: what `ofctl` sends, prints and raises once it is connected, for every command, all arguments and all that
arrives, in whatever pieces. -/
theorem C84_run (command : Str) (args : List Str) (reads sent : List Bytes) (printed : List Str) (o : Ending) :
    ofctl command args reads = { sent := sent, printed := printed, outcome := outcomeOf o } ↔
      Does command args reads sent printed o := by
  constructor
  · intro h
    obtain ⟨s', t', o', hd⟩ := does_all command args reads
    have h' := does_run hd
    rw [h] at h'
    simp only [CliRun.mk.injEq] at h'
    obtain ⟨rfl, rfl, ho⟩ := h'
    obtain rfl := outcomeOf_inj ho
    exact hd
  · exact does_run

/-- C84: a run is specified in exactly one way. -/
theorem C84_one_way (command : Str) (args : List Str) (reads : List Bytes) :
    ∃! r : List Bytes × List Str × Ending, Does command args reads r.1 r.2.1 r.2.2 := by
  obtain ⟨sent, ts, o, hd⟩ := does_all command args reads
  refine ⟨(sent, ts, o), hd, ?_⟩
  rintro ⟨sent', ts', o'⟩ hd'
  have h := (does_run hd').symm.trans (does_run hd)
  simp only [CliRun.mk.injEq] at h
  obtain ⟨h1, h2, h3⟩ := h
  rw [Prod.mk.injEq, Prod.mk.injEq]
  exact ⟨h1, h2, outcomeOf_inj h3⟩

/-- C84: the same from the whole command line: where to, what then. -/
theorem C84_command_line (connect : Target → Except Err Sock) (sw command : Str) (args : List Str) (t : Target) (reads : Sock)
    (ht : (∃ p, UnixPath sw p ∧ t = .unix p) ∨ ∃ u n, TcpFirst sw u ∧ Numeral 10 u.port n ∧ t = .tcp u.host n)
    (hc : connect t = .ok reads) (sent : List Bytes) (printed : List Str) (o : Ending) :
    ofctlMain connect sw command args = { sent := sent, printed := printed, outcome := outcomeOf o } ↔
      Does command args reads sent printed o := by
  have hs : switchTarget sw = .ok t := by
    rcases ht with ⟨p, h, rfl⟩ | ⟨u, n, h1, h2, rfl⟩
    · exact (C83_unix sw p).2 h
    · exact (C83_tcp sw _ _).2 ⟨u, n, h1, rfl, h2, rfl⟩
  rw [← C84_run]
  unfold ofctlMain
  rw [hs]
  dsimp only
  rw [hc]

/-- The messages that a run reads in front of the rest `s'`. -/
inductive ReadsTo : List Bytes → List Bytes → List Bytes → Prop
  | nil (s) : ReadsTo s [] s
  | cons (s m s1 ms s') : MsgRead s m s1 → ReadsTo s1 ms s' → ReadsTo s (m :: ms) s'

/-- C84: `Result`, the report of a rejected modification, is raised exactly if a header comes with type 1 and the length 2,
which no message has, and no barrier reply and no such header in front of it. -/
theorem C84_result (s : List Bytes) : Wait s .failed ↔
    ∃ ms m s1 s', ReadsTo s ms s1 ∧ MsgRead s1 m s' ∧ IsFailure m ∧ ∀ x ∈ ms, ¬ IsFailure x ∧ ¬ IsBarrier x := by
  constructor
  · intro h
    generalize ho : Ending.failed = o at h
    induction h with
    | closed => cases ho
    | failed s m s' hm hf => exact ⟨[], m, s, s', .nil s, hm, hf, by simp⟩
    | done => cases ho
    | other s m s' o hm h1 h2 _ ih =>
      obtain ⟨ms, m', s1, s2, hr, hm', hf, hn⟩ := ih ho
      refine ⟨m :: ms, m', s1, s2, .cons s m s' ms s1 hm hr, hm', hf, ?_⟩
      intro x hx
      rcases List.mem_cons.1 hx with rfl | hx
      · exact ⟨h1, h2⟩
      · exact hn x hx
  · rintro ⟨ms, m, s1, s', hr, hm, hf, hn⟩
    induction hr with
    | nil s => exact .failed s m s' hm hf
    | cons s x s2 ms s3 hx _ ih =>
      have h := hn x (by simp)
      exact .other s x s2 _ hx h.1 h.2 (ih hm fun y hy => hn y (by simp [hy]))

/-- C84: a modification succeeds exactly if a barrier reply comes, with no such header in front of it. -/
theorem C84_success (s : List Bytes) : Wait s .fine ↔
    ∃ ms m s1 s', ReadsTo s ms s1 ∧ MsgRead s1 m s' ∧ IsBarrier m ∧ ∀ x ∈ ms, ¬ IsFailure x ∧ ¬ IsBarrier x := by
  constructor
  · intro h
    generalize ho : Ending.fine = o at h
    induction h with
    | closed => cases ho
    | failed => cases ho
    | done s m s' hm hf => exact ⟨[], m, s, s', .nil s, hm, hf, by simp⟩
    | other s m s' o hm h1 h2 _ ih =>
      obtain ⟨ms, m', s1, s2, hr, hm', hf, hn⟩ := ih ho
      refine ⟨m :: ms, m', s1, s2, .cons s m s' ms s1 hm hr, hm', hf, ?_⟩
      intro x hx
      rcases List.mem_cons.1 hx with rfl | hx
      · exact ⟨h1, h2⟩
      · exact hn x hx
  · rintro ⟨ms, m, s1, s', hr, hm, hf, hn⟩
    induction hr with
    | nil s => exact .done s m s' hm hf
    | cons s x s2 ms s3 hx _ ih =>
      have h := hn x (by simp)
      exact .other s x s2 _ hx h.1 h.2 (ih hm fun y hy => hn y (by simp [hy]))

/-- C84: a dump succeeds exactly if a part comes whose flags are 0, and it and all parts in front of it can be printed;
then exactly the parts up to this one are printed, in order. -/
theorem C84_dump (k : Nat) (P : Bytes → Str → Prop) (F : Bytes → Err → Prop) (s : List Bytes) (ts : List Str) : Dump k P F s ts .fine ↔
    ∃ ms m s1 s', ReadsTo s ms s1 ∧ MsgRead s1 m s' ∧ IsPart k m ∧ partFlags m = 0 ∧
      (∀ x ∈ ms, IsPart k x → partFlags x ≠ 0) ∧ List.Forall₂ P ((ms.filter fun x => IsPart k x) ++ [m]) ts := by
  constructor
  · intro h
    generalize ho : Ending.fine = o at h
    induction h with
    | closed => cases ho
    | other s m s' ts o hm hp _ ih =>
      obtain ⟨ms, m', s1, s2, hr, hm', hp', h0, hn, hf⟩ := ih ho
      refine ⟨m :: ms, m', s1, s2, .cons s m s' ms s1 hm hr, hm', hp', h0, ?_, ?_⟩
      · intro x hx hxp
        rcases List.mem_cons.1 hx with rfl | hx
        · exact absurd hxp hp
        · exact hn x hx hxp
      · rw [List.filter_cons_of_neg (by simpa using hp)]
        exact hf
    | bad => cases ho
    | last s m s' t hm hp ht h0 => exact ⟨[], m, s, s', .nil s, hm, hp, h0, by simp, .cons ht .nil⟩
    | more s m s' t ts o hm hp ht h0 _ ih =>
      obtain ⟨ms, m', s1, s2, hr, hm', hp', h0', hn, hf⟩ := ih ho
      refine ⟨m :: ms, m', s1, s2, .cons s m s' ms s1 hm hr, hm', hp', h0', ?_, ?_⟩
      · intro x hx hxp
        rcases List.mem_cons.1 hx with rfl | hx
        · exact h0
        · exact hn x hx hxp
      · rw [List.filter_cons_of_pos (by simpa using hp), List.cons_append]
        exact .cons ht hf
  · rintro ⟨ms, m, s1, s', hr, hm, hp, h0, hn, hf⟩
    induction hr generalizing ts with
    | nil s =>
      obtain ⟨ht, hn'⟩ : ∃ t, P m t ∧ ts = [t] := by
        cases hf with
        | cons h1 h2 => cases h2; exact ⟨_, h1, rfl⟩
      rw [hn'.2]
      exact .last s m s' _ hm hp hn'.1 h0
    | cons s x s2 ms s3 hx _ ih =>
      by_cases hxp : IsPart k x
      · rw [List.filter_cons_of_pos (by simpa using hxp), List.cons_append] at hf
        cases hf with
        | cons h1 h2 => exact .more s x s2 _ _ _ hx hxp h1 (hn x (by simp) hxp) (ih _ hm (fun y hy => hn y (by simp [hy])) h2)
      · rw [List.filter_cons_of_neg (by simpa using hxp)] at hf
        exact .other s x s2 _ _ hx hxp (ih _ hm (fun y hy => hn y (by simp [hy])) hf)

/-- A header that says it has two bytes, which is taken for the error. -/
example : Does t!"add-flow" [t!"priority=1"] [[4, 1, 0, 2, 0, 0, 0, 9]]
    [message 0 1 [], (ofctl t!"add-flow" [t!"priority=1"] []).sent.getD 1 [], message 20 3 []] [] .failed :=
  (C84_run _ _ _ _ _ _).1 (by decide +kernel)

/-- A real error message, in one read with the barrier reply: the command succeeds. -/
example : Does t!"add-flow" [t!"priority=1"] [[4, 1, 0, 12, 0, 0, 0, 2, 0, 1, 0, 0, 4, 21, 0, 8, 0, 0, 0, 3]]
    [message 0 1 [], (ofctl t!"add-flow" [t!"priority=1"] []).sent.getD 1 [], message 20 3 []] [] .fine :=
  (C84_run _ _ _ _ _ _).1 (by decide +kernel)

/-- The first part of a dump, cut inside its body: it is printed as nothing, and the rest of it is taken for a header.
Not cut, all parts are printed. -/
example : Does t!"dump-flows" [] [exPart1.take 8, (exPart1.drop 8).take 30, exPart1.drop 38, exPart2]
      (ofctl t!"dump-flows" [] []).sent [[]] (.raised .structError) ∧
    Does t!"dump-flows" [] [exPart1, exPart2] (ofctl t!"dump-flows" [] []).sent
      [t!"table=1,priority=5,@goto=3", t!"table=2,priority=6"] .fine :=
  ⟨(C84_run _ _ _ _ _ _).1 (by decide +kernel), (C84_run _ _ _ _ _ _).1 (by decide +kernel)⟩

example : Does t!"add-flow" [t!"foo=1"] [] [message 0 1 []] [] (.raised .keyError) := (C84_run _ _ _ _ _ _).1 (by decide +kernel)
example : Does t!"add-flows" [] [] [message 0 1 []] [] .usage := (C84_run _ _ _ _ _ _).1 (by decide +kernel)

end Ofpstr
