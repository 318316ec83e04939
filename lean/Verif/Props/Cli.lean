import Verif.Lemmas.Cli
import Verif.Props.Group
import Verif.Props.Multipart

/-!
# Properties C52-C55: the command line client
-/

namespace Ofpstr
open Spec

/-! ## C52 -/

/-- C52: when no read cuts a header or the rest of a message, `msgs` yields exactly the messages; when the switch
closes the connection it raises `struct.error`.  Missing, and false (`C52_refuted`): reads that cut elsewhere. -/
theorem C52_messages_partial (ms reads : List Bytes) (h : ∀ m ∈ ms, IsMsg m) (hc : CutAtParts ms reads) :
    cliMsgs (sockBytes reads + 1) reads = (ms, .structError) :=
  cliMsgs_cut ms reads _ h hc (Nat.lt_succ_self _)

/-- The condition of `C52_messages_partial` is the weakest one. -/
theorem C52_messages_iff (ms reads : List Bytes) (h : ∀ m ∈ ms, IsMsg m) (hs : Segments ms reads) :
    cliMsgs (sockBytes reads + 1) reads = (ms, .structError) ↔ CutAtParts ms reads :=
  ⟨cut_of_cliMsgs ms reads _ _ h hs, C52_messages_partial ms reads h⟩

/-- C52 is false of every stream: if the first read returns one byte, nothing is yielded. -/
theorem C52_refuted (ms : List Bytes) (hn : ms ≠ []) (h : ∀ m ∈ ms, IsMsg m) :
    ∃ reads, Segments ms reads ∧ cliMsgs (sockBytes reads + 1) reads = ([], .structError) := by
  obtain ⟨m, ms, rfl⟩ := List.exists_cons_of_ne_nil hn
  have h8 := (h m List.mem_cons_self).1
  obtain ⟨a, m, rfl⟩ := List.exists_cons_of_ne_nil (l := m) (by intro h; rw [h] at h8; simp at h8)
  have hm : m ++ ms.flatten ≠ [] := by
    intro h0
    rw [(List.append_eq_nil_iff.1 h0).1] at h8
    simp at h8
  refine ⟨[[a], m ++ ms.flatten], ⟨by simp, ?_⟩, rfl⟩
  intro h0
  rcases List.mem_cons.1 h0 with h0 | h0
  · cases h0
  · exact hm (List.mem_singleton.1 h0).symm

/-- C52 is false of every message with a rest of two bytes: a read that ends inside the rest makes `msgs` yield the
message without its end. -/
theorem C52_truncated_refuted (m : Bytes) (k : Nat) (hm : IsMsg m) (h8 : 8 < k) (hk : k < m.length) :
    Segments [m] [m.take 8, (m.take k).drop 8, m.drop k] ∧
    ∃ ms e, cliMsgs (m.length + 1) [m.take 8, (m.take k).drop 8, m.drop k] = (m.take k :: ms, e) := by
  have l8 : (m.take 8).length = 8 := by rw [List.length_take]; omega
  have e8 : m.take 8 = (m.take k).take 8 := by rw [List.take_take, Nat.min_eq_left (by omega)]
  refine ⟨⟨?_, ?_⟩, ?_⟩
  · simp only [List.flatten_cons, List.flatten_nil, List.append_nil]
    rw [← List.append_assoc, e8, List.take_append_drop, List.take_append_drop]
  · intro h
    simp only [List.mem_cons, List.not_mem_nil, or_false] at h
    rcases h with h | h | h <;> have := congrArg List.length h <;>
      simp only [List.length_drop, List.length_take, List.length_nil] at this <;> omega
  · have hn : nextMsg [m.take 8, (m.take k).drop 8, m.drop k] = .ok (m.take k, [m.drop k]) := by
      unfold nextMsg
      rw [recv, if_pos (by omega)]
      dsimp only
      rw [if_neg (by simp; omega), uAt_take8, ← word16_uAt m 2 (by omega), hm.2, if_pos (by omega), recv, if_pos (by
        rw [List.length_drop, List.length_take]; omega)]
      dsimp only
      rw [e8, List.take_append_drop]
    rw [cliMsgs, hn]
    exact ⟨_, _, rfl⟩

/-- Hello, barrier reply; read in three ways. -/
def exStream : List Bytes := [[4, 0, 0, 8, 0, 0, 0, 1], [4, 1, 0, 12, 0, 0, 0, 2, 0, 1, 0, 0], [4, 21, 0, 8, 0, 0, 0, 3]]
example : ∀ m ∈ exStream, IsMsg m := by decide
example : CutAtParts exStream exStream :=
  ⟨[[[4, 0, 0, 8, 0, 0, 0, 1]], [[4, 1, 0, 12, 0, 0, 0, 2], [0, 1, 0, 0]], [[4, 21, 0, 8, 0, 0, 0, 3]]], by decide, by decide, by decide⟩
example : CutAtParts exStream [exStream.flatten] :=
  ⟨[[[4, 0, 0, 8, 0, 0, 0, 1], [4, 1, 0, 12, 0, 0, 0, 2], [0, 1, 0, 0], [4, 21, 0, 8, 0, 0, 0, 3]]], by decide, by decide, by decide⟩
example : CutAtParts exStream [[4, 0, 0, 8, 0, 0, 0, 1, 4, 1, 0, 12, 0, 0, 0, 2], [0, 1, 0, 0, 4, 21, 0, 8, 0, 0, 0, 3]] :=
  ⟨[[[4, 0, 0, 8, 0, 0, 0, 1], [4, 1, 0, 12, 0, 0, 0, 2]], [[0, 1, 0, 0], [4, 21, 0, 8, 0, 0, 0, 3]]], by decide, by decide, by decide⟩

/-! ## What is sent -/

theorem flowCmds_idx : ∀ c ∈ cliFlowCmds, c ≠ t!"dump-flows" ∧ c ≠ t!"dump-groups" := by decide
theorem groupCmds_idx : ∀ c ∈ cliGroupCmds, c ≠ t!"dump-flows" ∧ c ≠ t!"dump-groups" ∧ c ∉ cliFlowCmds := by decide

theorem ofctl_flow (command : Str) (args : List Str) (s : Sock) (h : command ∈ cliFlowCmds) :
    ofctl command args s = match str2mod (joinStr t!" " args) (cliFlowCmds.idxOf command : Nat) 2 with
      | .error e => { sent := [cliHello], printed := [], outcome := .error (.py e) }
      | .ok x => { sent := [cliHello, x, cliBarrier], printed := [], outcome := waitGo (sockBytes s + 1) s } := by
  obtain ⟨h1, h2⟩ := flowCmds_idx command h
  unfold ofctl
  rw [if_neg (by simpa using h1), if_neg (by simpa using h2), if_pos (by simpa using h)]
  cases str2mod (joinStr t!" " args) (cliFlowCmds.idxOf command : Nat) 2 <;> rfl

theorem ofctl_group (command : Str) (args : List Str) (s : Sock) (h : command ∈ cliGroupCmds) :
    ofctl command args s = match str2group (joinStr t!" " args) (cliGroupCmds.idxOf command : Nat) 2 with
      | .error e => { sent := [cliHello], printed := [], outcome := .error (.py e) }
      | .ok x => { sent := [cliHello, x, cliBarrier], printed := [], outcome := waitGo (sockBytes s + 1) s } := by
  obtain ⟨h1, h2, h3⟩ := groupCmds_idx command h
  unfold ofctl
  rw [if_neg (by simpa using h1), if_neg (by simpa using h2), if_neg (by simpa using h3), if_pos (by simpa using h)]
  cases str2group (joinStr t!" " args) (cliGroupCmds.idxOf command : Nat) 2 <;> rfl

theorem ofctl_dump_flows (args : List Str) (s : Sock) : ofctl t!"dump-flows" args s =
    { sent := [cliHello, mpWire 18 2 1 0 (FlowReq.wire ⟨255, 0xffffffff, 0xffffffff, 0, 0⟩ [])],
      printed := (dumpGo 1 mpflow2text (sockBytes s + 1) s).1, outcome := (dumpGo 1 mpflow2text (sockBytes s + 1) s).2 } := by
  unfold ofctl
  rw [if_pos (by decide), show text2mpflow [] 18 2 = .ok (mpWire 18 2 1 0 (FlowReq.wire ⟨255, 0xffffffff, 0xffffffff, 0, 0⟩ []))
    from by decide +kernel]

theorem ofctl_dump_groups (args : List Str) (s : Sock) : ofctl t!"dump-groups" args s =
    { sent := [cliHello, mpWire 18 2 7 0 []],
      printed := (dumpGo 7 mpgroupdesc2text (sockBytes s + 1) s).1,
      outcome := (dumpGo 7 mpgroupdesc2text (sockBytes s + 1) s).2 } := by
  unfold ofctl
  rw [if_neg (by decide), if_pos (by decide), show text2mpgroupdesc [] 18 2 = .ok (mpWire 18 2 7 0 []) from by decide +kernel]

theorem hello_message : cliHello = message 0 1 [] := by decide
theorem barrier_message : cliBarrier = message 20 3 [] := by decide

/-! ## C55 -/

/-- The commands and the numbers OpenFlow gives them (`OFPFC_ADD`, …; `OFPGC_ADD`, …). -/
def flowCommands : List (Str × Nat) := [(t!"add-flow", 0), (t!"mod-flow", 1), (t!"mod-flow-strict", 2), (t!"del-flow", 3),
  (t!"del-flow-strict", 4)]
def groupCommands : List (Str × Nat) := [(t!"add-group", 0), (t!"mod-group", 1), (t!"del-group", 2)]

/-- C55 for flows: a rule that `str2mod` accepts is sent as the modification its command names, between a hello and a
barrier request; another one is not sent. -/
theorem C55_flow_commands (command : Str) (n : Nat) (hc : (command, n) ∈ flowCommands) (args : List Str) (s : Sock) :
    (∀ x, str2mod (joinStr t!" " args) n 2 = .ok x →
      (ofctl command args s).sent = [message 0 1 [], x, message 20 3 []] ∧
      x.take 8 = u8 4 ++ (u8 14 ++ (u16 x.length ++ u32 2)) ∧ (x.drop 25).take 1 = u8 n) ∧
    (∀ e, str2mod (joinStr t!" " args) n 2 = .error e →
      ofctl command args s = { sent := [message 0 1 []], printed := [], outcome := .error (.py e) }) := by
  have hm : ∀ c ∈ flowCommands, c.1 ∈ cliFlowCmds ∧ cliFlowCmds.idxOf c.1 = c.2 := by decide
  obtain ⟨h1, h2⟩ := hm _ hc
  dsimp only at h1 h2
  rw [ofctl_flow command args s h1, h2]
  refine ⟨fun x hx => ?_, fun e he => ?_⟩
  · rw [hx]
    obtain ⟨g1, -, -, -, g2⟩ := C32_header _ _ _ _ hx
    exact ⟨by rw [← hello_message, ← barrier_message], g1, g2⟩
  · rw [he]
    show CliRun.mk _ _ _ = CliRun.mk _ _ _
    rw [hello_message]

/-- C55 for groups. -/
theorem C55_group_commands (command : Str) (n : Nat) (hc : (command, n) ∈ groupCommands) (args : List Str) (s : Sock) :
    (∀ x, str2group (joinStr t!" " args) n 2 = .ok x →
      (ofctl command args s).sent = [message 0 1 [], x, message 20 3 []] ∧
      x.take 10 = u8 4 ++ (u8 15 ++ (u16 x.length ++ (u32 2 ++ u16 n)))) ∧
    (∀ e, str2group (joinStr t!" " args) n 2 = .error e →
      ofctl command args s = { sent := [message 0 1 []], printed := [], outcome := .error (.py e) }) := by
  have hm : ∀ c ∈ groupCommands, c.1 ∈ cliGroupCmds ∧ cliGroupCmds.idxOf c.1 = c.2 := by decide
  obtain ⟨h1, h2⟩ := hm _ hc
  dsimp only at h1 h2
  rw [ofctl_group command args s h1, h2]
  refine ⟨fun x hx => ?_, fun e he => ?_⟩
  · rw [hx]
    obtain ⟨gs, bs, -, -, -, -, g1, -⟩ := C39_header _ _ _ _ hx
    refine ⟨by rw [← hello_message, ← barrier_message], ?_⟩
    have : x.take 10 = (x.take 16).take 10 := by rw [List.take_take]; rfl
    rw [this, g1]
    have e : ∀ (a b c d f r : Bytes), a ++ (b ++ (c ++ (d ++ (f ++ r)))) = (a ++ (b ++ (c ++ (d ++ f)))) ++ r := by simp
    rw [e, List.take_left' (by simp [u8_length, u16_length, u32_length])]
    rfl
  · rw [he]
    show CliRun.mk _ _ _ = CliRun.mk _ _ _
    rw [hello_message]

/-- C55 for the dumps: all tables, any port, any group, any cookie, any match; all groups. -/
theorem C55_dump_requests (args : List Str) (s : Sock) :
    (ofctl t!"dump-flows" args s).sent =
      [message 0 1 [], mpWire 18 2 1 0 (FlowReq.wire ⟨255, 0xffffffff, 0xffffffff, 0, 0⟩ [])] ∧
    (ofctl t!"dump-groups" args s).sent = [message 0 1 [], mpWire 18 2 7 0 []] := by
  rw [ofctl_dump_flows, ofctl_dump_groups, hello_message]
  exact ⟨rfl, rfl⟩

/-- C55: any other command sends nothing but the hello, and fails. -/
theorem C55_unknown (command : Str) (args : List Str) (s : Sock)
    (h : command ∉ [t!"dump-flows", t!"dump-groups"] ++ (flowCommands.map Prod.fst ++ groupCommands.map Prod.fst)) :
    ofctl command args s = { sent := [message 0 1 []], printed := [], outcome := .error .eparam } := by
  have hf : flowCommands.map Prod.fst = cliFlowCmds := by decide
  have hg : groupCommands.map Prod.fst = cliGroupCmds := by decide
  rw [hf, hg, List.mem_append, List.mem_append] at h
  simp only [not_or] at h
  obtain ⟨h1, h2, h3⟩ := h
  unfold ofctl
  rw [if_neg (by intro h; rw [eq_of_beq h] at h1; exact h1 (by decide)),
    if_neg (by intro h; rw [eq_of_beq h] at h1; exact h1 (by decide)),
    if_neg (by simpa using h2), if_neg (by simpa using h3), hello_message]

example : (ofctl t!"del-flow" [t!"table=3", t!"@goto=4"] exStream).sent.length = 3 := by decide +kernel
example : t!"delete-flows" ∉ [t!"dump-flows", t!"dump-groups"] ++ (flowCommands.map Prod.fst ++ groupCommands.map Prod.fst) := by decide

/-! ## C53 -/

/-- What is sent says which loop was run. -/
theorem ofctl_waits (command : Str) (args : List Str) (s : Sock) (h : (ofctl command args s).sent.length = 3) :
    (ofctl command args s).outcome = waitGo (sockBytes s + 1) s := by
  by_cases h1 : command = t!"dump-flows"
  · subst h1; rw [ofctl_dump_flows] at h; exact absurd h (by simp)
  · by_cases h2 : command = t!"dump-groups"
    · subst h2; rw [ofctl_dump_groups] at h; exact absurd h (by simp)
    · by_cases h3 : command ∈ cliFlowCmds
      · rw [ofctl_flow command args s h3] at h ⊢
        split at h
        · simp at h
        · rfl
      · by_cases h4 : command ∈ cliGroupCmds
        · rw [ofctl_group command args s h4] at h ⊢
          split at h
          · simp at h
          · rfl
        · unfold ofctl at h
          rw [if_neg (by simpa using h1), if_neg (by simpa using h2), if_neg (by simpa using h3), if_neg (by simpa using h4)] at h
          simp at h

/-- C53: after a modification was sent (and the barrier request), the command succeeds exactly if a barrier reply
comes; else it fails when the connection is closed.  Missing, and false (`C53_refuted`): that an error message before
the barrier reply makes the command fail. -/
theorem C53_outcome_partial (command : Str) (args : List Str) (ms reads : List Bytes) (h : ∀ m ∈ ms, IsMsg m)
    (hc : CutAtParts ms reads) (hs : (ofctl command args reads).sent.length = 3) :
    (ofctl command args reads).outcome =
      if ∃ m ∈ ms, msgType m = 21 ∧ msgXid m = 3 then .ok () else .error (.py .structError) := by
  rw [ofctl_waits command args reads hs]
  exact waitGo_cut ms reads _ h hc (Nat.lt_succ_self _)

/-- C53 is false of every reply: whatever errors the switch sends before the barrier reply, the command succeeds
(cli.py:81 compares the length of the message with the xid). -/
theorem C53_refuted (command : Str) (args : List Str) (pre post : List Bytes) (err barrier : Bytes) (reads : List Bytes)
    (h : ∀ m ∈ pre ++ err :: barrier :: post, IsMsg m) (hc : CutAtParts (pre ++ err :: barrier :: post) reads)
    (_ : msgType err = 1 ∧ msgXid err = 2) (hb : msgType barrier = 21 ∧ msgXid barrier = 3)
    (hs : (ofctl command args reads).sent.length = 3) : (ofctl command args reads).outcome = .ok () := by
  rw [C53_outcome_partial command args _ reads h hc hs, if_pos ⟨barrier, by simp, hb⟩]

/-- C53: "failed" is never reported. -/
theorem C53_never_failed_refuted (command : Str) (args : List Str) (ms reads : List Bytes) (h : ∀ m ∈ ms, IsMsg m)
    (hc : CutAtParts ms reads) (hs : (ofctl command args reads).sent.length = 3) :
    (ofctl command args reads).outcome ≠ .error .result := by
  rw [C53_outcome_partial command args ms reads h hc hs]
  split <;> intro h <;> cases h

/-- C53: the wait ends, whatever the switch sends before it closes the connection. -/
theorem C53_ends (command : Str) (args : List Str) (reads : List Bytes) (hs : (ofctl command args reads).sent.length = 3) :
    (ofctl command args reads).outcome ≠ .error (.py .loops) := by
  rw [ofctl_waits command args reads hs]
  exact waitGo_ends reads _ (Nat.lt_succ_self _)

example : (ofctl t!"add-flow" [t!"in_port=1", t!"@apply", t!"output=2"] exStream).sent.length = 3 ∧
    (ofctl t!"add-flow" [t!"in_port=1", t!"@apply", t!"output=2"] exStream).outcome = .ok () ∧
    msgType [4, 1, 0, 12, 0, 0, 0, 2, 0, 1, 0, 0] = 1 ∧ msgXid [4, 1, 0, 12, 0, 0, 0, 2, 0, 1, 0, 0] = 2 ∧
    msgType [4, 21, 0, 8, 0, 0, 0, 3] = 21 ∧ msgXid [4, 21, 0, 8, 0, 0, 0, 3] = 3 := by decide +kernel

/-! ## C54 -/

/-- The dump loop on messages before the last part. -/
theorem dumpGo_pre (k : Nat) (decode : Bytes → Py Str) (txt : Bytes → Str) (pre post : List Bytes) (s : Sock) (fuel : Nat)
    (h : ∀ m ∈ pre ++ post, IsMsg m) (hc : CutAtParts (pre ++ post) s) (hf : sockBytes s < fuel)
    (hp : ∀ m ∈ pre, IsPart k m → partFlags m ≠ 0 ∧ decode m = .ok (txt m)) :
    ∃ s' fuel', CutAtParts post s' ∧ sockBytes s' < fuel' ∧ dumpGo k decode fuel s =
      ((pre.filter fun m => IsPart k m).map txt ++ (dumpGo k decode fuel' s').1, (dumpGo k decode fuel' s').2) := by
  induction pre generalizing s fuel with
  | nil => exact ⟨s, fuel, hc, hf, rfl⟩
  | cons m pre ih =>
    cases fuel with
    | zero => omega
    | succ f =>
      have hrest : ∀ x ∈ pre ++ post, IsMsg x := fun x hx => h x (List.mem_cons_of_mem _ hx)
      have hp' : ∀ m ∈ pre, IsPart k m → partFlags m ≠ 0 ∧ decode m = .ok (txt m) :=
        fun x hx => hp x (List.mem_cons_of_mem _ hx)
      by_cases hm : IsPart k m
      · obtain ⟨s1, c1, b1, e1⟩ := dumpGo_part k decode m (pre ++ post) s f h hc hm
        obtain ⟨s2, f2, c2, b2, e2⟩ := ih s1 f hrest c1 (by omega) hp'
        refine ⟨s2, f2, c2, b2, ?_⟩
        obtain ⟨g1, g2⟩ := hp m List.mem_cons_self hm
        rw [e1, g2]
        dsimp only
        rw [if_neg g1, e2, List.filter_cons_of_pos (by simpa using hm)]
        rfl
      · obtain ⟨s1, c1, b1, e1⟩ := dumpGo_skip k decode m (pre ++ post) s f h hc hm
        obtain ⟨s2, f2, c2, b2, e2⟩ := ih s1 f hrest c1 (by omega) hp'
        refine ⟨s2, f2, c2, b2, ?_⟩
        rw [e1, e2, List.filter_cons_of_neg (by simpa using hm)]

/-- The dump loop up to the last part. -/
theorem dumpGo_all (k : Nat) (decode : Bytes → Py Str) (txt : Bytes → Str) (pre post : List Bytes) (last : Bytes) (s : Sock)
    (h : ∀ m ∈ pre ++ last :: post, IsMsg m) (hc : CutAtParts (pre ++ last :: post) s)
    (hp : ∀ m ∈ pre, IsPart k m → partFlags m ≠ 0 ∧ decode m = .ok (txt m))
    (hl : IsPart k last ∧ partFlags last = 0 ∧ decode last = .ok (txt last)) :
    dumpGo k decode (sockBytes s + 1) s = ((pre.filter fun m => IsPart k m).map txt ++ [txt last], .ok ()) := by
  obtain ⟨s', f', c, b, e⟩ := dumpGo_pre k decode txt pre (last :: post) s _ h hc (Nat.lt_succ_self _) hp
  rw [e]
  cases f' with
  | zero => omega
  | succ f' =>
    obtain ⟨s2, _, _, e2⟩ := dumpGo_part k decode last post s' f' (fun x hx => h x (List.mem_append_right _ hx)) c hl.1
    rw [e2, hl.2.2]
    dsimp only
    rw [if_pos hl.2.1]

/-- C54 for `dump-flows`: every part of the reply is printed in order, messages that are no parts are skipped, and the
command succeeds at the part whose flags are 0, whatever follows.
Missing: flags other than 0 and 1 (false, `C54_reserved_refuted`), parts that cannot be decoded
(`C54_undecodable_partial`) and reads that cut elsewhere (see C52). -/
theorem C54_flows_partial (args : List Str) (txt : Bytes → Str) (pre post : List Bytes) (last : Bytes) (reads : List Bytes)
    (h : ∀ m ∈ pre ++ last :: post, IsMsg m) (hc : CutAtParts (pre ++ last :: post) reads)
    (hp : ∀ m ∈ pre, IsPart 1 m → partFlags m = 1 ∧ mpflow2text m = .ok (txt m))
    (hl : IsPart 1 last ∧ partFlags last = 0 ∧ mpflow2text last = .ok (txt last)) :
    (ofctl t!"dump-flows" args reads).printed = (pre.filter fun m => IsPart 1 m).map txt ++ [txt last] ∧
    (ofctl t!"dump-flows" args reads).outcome = .ok () := by
  rw [ofctl_dump_flows, dumpGo_all 1 mpflow2text txt pre post last reads h hc (fun m hm hi => by
    obtain ⟨a, b⟩ := hp m hm hi; exact ⟨by omega, b⟩) hl]
  exact ⟨rfl, rfl⟩

/-- C54 for `dump-groups`. Missing as in `C54_flows_partial`. -/
theorem C54_groups_partial (args : List Str) (txt : Bytes → Str) (pre post : List Bytes) (last : Bytes) (reads : List Bytes)
    (h : ∀ m ∈ pre ++ last :: post, IsMsg m) (hc : CutAtParts (pre ++ last :: post) reads)
    (hp : ∀ m ∈ pre, IsPart 7 m → partFlags m = 1 ∧ mpgroupdesc2text m = .ok (txt m))
    (hl : IsPart 7 last ∧ partFlags last = 0 ∧ mpgroupdesc2text last = .ok (txt last)) :
    (ofctl t!"dump-groups" args reads).printed = (pre.filter fun m => IsPart 7 m).map txt ++ [txt last] ∧
    (ofctl t!"dump-groups" args reads).outcome = .ok () := by
  rw [ofctl_dump_groups, dumpGo_all 7 mpgroupdesc2text txt pre post last reads h hc (fun m hm hi => by
    obtain ⟨a, b⟩ := hp m hm hi; exact ⟨by omega, b⟩) hl]
  exact ⟨rfl, rfl⟩

/-- C54: when the connection is closed before the last part, the parts that came are printed and the command fails. -/
theorem C54_closed (args : List Str) (txt : Bytes → Str) (ms reads : List Bytes) (h : ∀ m ∈ ms, IsMsg m)
    (hc : CutAtParts ms reads) (hp : ∀ m ∈ ms, IsPart 1 m → partFlags m ≠ 0 ∧ mpflow2text m = .ok (txt m)) :
    (ofctl t!"dump-flows" args reads).printed = (ms.filter fun m => IsPart 1 m).map txt ∧
    (ofctl t!"dump-flows" args reads).outcome = .error (.py .structError) := by
  obtain ⟨s', f', c, b, e⟩ := dumpGo_pre 1 mpflow2text txt ms [] reads _ (by simpa using h) (by simpa using hc)
    (Nat.lt_succ_self _) hp
  rw [ofctl_dump_flows, e, cut_nil c]
  cases f' with
  | zero => omega
  | succ f' =>
    rw [dumpGo, nextMsg_closed]
    exact ⟨List.append_nil _, rfl⟩

/-- C54: a part that cannot be decoded ends the command, after what came before was printed. -/
theorem C54_undecodable_partial (args : List Str) (txt : Bytes → Str) (pre post : List Bytes) (bad : Bytes) (e : Err)
    (reads : List Bytes) (h : ∀ m ∈ pre ++ bad :: post, IsMsg m) (hc : CutAtParts (pre ++ bad :: post) reads)
    (hp : ∀ m ∈ pre, IsPart 1 m → partFlags m ≠ 0 ∧ mpflow2text m = .ok (txt m))
    (hb : IsPart 1 bad ∧ mpflow2text bad = .error e) :
    (ofctl t!"dump-flows" args reads).printed = (pre.filter fun m => IsPart 1 m).map txt ∧
    (ofctl t!"dump-flows" args reads).outcome = .error (.py e) := by
  obtain ⟨s', f', c, b, e'⟩ := dumpGo_pre 1 mpflow2text txt pre (bad :: post) reads _ h hc (Nat.lt_succ_self _) hp
  rw [ofctl_dump_flows, e']
  cases f' with
  | zero => omega
  | succ f' =>
    obtain ⟨s2, _, _, e2⟩ := dumpGo_part 1 mpflow2text bad post s' f' (fun x hx => h x (List.mem_append_right _ hx)) c hb.1
    rw [e2, hb.2]
    exact ⟨List.append_nil _, rfl⟩

/-- C54 is false of a last part with a reserved flag: the command goes on reading (cli.py:58 compares all flags with 0). -/
theorem C54_reserved_refuted : ∃ last : Bytes, IsMsg last ∧ IsPart 1 last ∧ partFlags last % 2 = 0 ∧
    (∃ t, mpflow2text last = .ok t) ∧ (ofctl t!"dump-flows" [] [last]).outcome = .error (.py .structError) :=
  ⟨mpWire 19 2 1 2 [], by decide +kernel, by decide +kernel, by decide +kernel, ⟨[], by decide +kernel⟩, by decide +kernel⟩

/-- A dump in two parts, between them an echo request. -/
def exPart1 : Bytes := mpWire 19 2 1 1 (FlowStat.wire ⟨1, 0, 0, 5, 0, 0, 0, 0, 0, 0, [], [.goto 3]⟩)
def exPart2 : Bytes := mpWire 19 2 1 0 (FlowStat.wire ⟨2, 0, 0, 6, 0, 0, 0, 0, 0, 0, [], []⟩)
example : (∀ m ∈ [message 0 1 [], exPart1, message 2 9 []] ++ exPart2 :: [], IsMsg m) ∧
    IsPart 1 exPart1 ∧ partFlags exPart1 = 1 ∧ IsPart 1 exPart2 ∧ partFlags exPart2 = 0 ∧
    mpflow2text exPart1 = .ok t!"table=1,priority=5,@goto=3" ∧ mpflow2text exPart2 = .ok t!"table=2,priority=6" ∧
    (ofctl t!"dump-flows" [] [message 0 1 [], exPart1, message 2 9 [], exPart2]).printed =
      [t!"table=1,priority=5,@goto=3", t!"table=2,priority=6"] := by decide +kernel

end Ofpstr
