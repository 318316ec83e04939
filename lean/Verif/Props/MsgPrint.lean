import Verif.Lemmas.MpShown
import Verif.Props.FlowExact
import Verif.Props.Multipart

/-!
# What instructions and messages are printed as (C78)
-/

namespace Ofpstr
open Spec

/-! ## Instructions -/

/-- C78: `inst2str` returns a text exactly if every instruction of the bytes has tokens, and then it returns
those, with commas between. -/
theorem C78_instructions (b : Bytes) (s : Str) :
    inst2str b = .ok s ↔ ∃ tss, InstsPrinted b tss ∧ s = joinStr t!"," tss.flatten := (outcome_insts b).ok s

/-- C78: `inst2str` raises an exception exactly if some instruction is refused with it and the ones before are
printed; it does not end exactly if one that is printed has length zero. -/
theorem C78_instructions_error (b : Bytes) (e : Err) : inst2str b = .error e ↔ InstsFail b e := (outcome_insts b).error e

/-- C78: the same for one instruction, `loop=False`. -/
theorem C78_instruction (b : Bytes) (s : Str) :
    inst2str1 b = .ok s ↔ (b.length ≤ 4 ∧ s = []) ∨ (4 < b.length ∧ ∃ ts, InstPrinted b ts ∧ s = joinStr t!"," ts) :=
  (outcome_inst1 b).ok s

/-- C78: the same for one instruction, `loop=False`. -/
theorem C78_instruction_error (b : Bytes) (e : Err) : inst2str1 b = .error e ↔ 4 < b.length ∧ InstFails b e :=
  (outcome_inst1 b).error e

/-- Metadata, an unknown instruction, an empty `@apply` and a meter; three more bytes are ignored. -/
def oddInsts : Bytes := u16 2 ++ (u16 24 ++ (pad 4 ++ (u64 5 ++ u64 255))) ++ (u16 9 ++ (u16 6 ++ [1, 2])) ++
  (u16 4 ++ (u16 8 ++ pad 4)) ++ (u16 6 ++ (u16 8 ++ u32 3)) ++ [0, 1, 0]

example : ∃ tss, InstsPrinted oddInsts tss ∧ t!"@metadata=0x5/0xff,?,@apply,@meter=3" = joinStr t!"," tss.flatten :=
  (C78_instructions oddInsts _).1 (by decide +kernel)

/-- Refused: a goto of length 16, metadata that are cut, a length that is not a multiple of 8, an action that is
refused; and an instruction of length zero is printed for ever. -/
example : InstsFail (u16 1 ++ (u16 16 ++ pad 12)) .assertionError ∧ InstsFail (u16 2 ++ (u16 24 ++ pad 19)) .structError ∧
    InstsFail (u16 4 ++ (u16 12 ++ pad 8)) .assertionError ∧
    InstsFail (u16 4 ++ (u16 16 ++ (pad 4 ++ (u16 0 ++ (u16 8 ++ u32 1))))) .structError ∧
    InstsFail (u16 7 ++ (u16 0 ++ pad 4)) .loops :=
  ⟨(C78_instructions_error _ _).1 (by decide +kernel), (C78_instructions_error _ _).1 (by decide +kernel),
    (C78_instructions_error _ _).1 (by decide +kernel), (C78_instructions_error _ _).1 (by decide +kernel),
    (C78_instructions_error _ _).1 (by decide +kernel)⟩

/-! ## Flow-mods -/

/-- C78: which text `mod2str` returns, for every byte string. -/
theorem C78_flow_mod (b : Bytes) (s : Str) : mod2str b = .ok s ↔ ModPrinted b s := (outcome_mod b).ok s

/-- C78: which exception `mod2str` raises, for every byte string. -/
theorem C78_flow_mod_error (b : Bytes) (e : Err) : mod2str b = .error e ↔ ModFails b e := (outcome_mod b).error e

/-- A flow-mod with unknown flag bits, a version and a type of something else, and an output to a port as its only
instruction. -/
def oddMod : Bytes := [1, 99] ++ (u16 80 ++ (u32 7 ++ (u64 0 ++ (u64 3 ++ ([0, 3] ++ (u16 0 ++ (u16 9 ++ (u16 0x8000 ++
  (u32 0 ++ (u32 0xffffffff ++ (u32 0xfffffffc ++ (u16 0x1001 ++ (pad 2 ++ (u16 1 ++ (u16 4 ++ (pad 4 ++
  (u16 4 ++ (u16 24 ++ (pad 4 ++ (u16 0 ++ (u16 16 ++ (u32 1 ++ pad 8))))))))))))))))))))))

example : ModPrinted oddMod t!"cookie=0x0/0x3,table=0,out_group=all,hard_timeout=9,send_flow_rem,@apply,output=1" :=
  (C78_flow_mod _ _).1 (by decide +kernel)

example : ModFails (oddMod.take 51) .structError ∧ ModFails (oddMod.take 48 ++ (u16 0 ++ u16 4)) .valueError :=
  ⟨(C78_flow_mod_error _ _).1 (by decide +kernel), (C78_flow_mod_error _ _).1 (by decide +kernel)⟩

/-! ## Group-mods -/

/-- C78: which text `group2str` returns, for every byte string. -/
theorem C78_group (b : Bytes) (s : Str) : group2str b = .ok s ↔ GroupModPrinted b s := (outcome_group b).ok s

/-- C78: which exception `group2str` raises, for every byte string. -/
theorem C78_group_error (b : Bytes) (e : Err) : group2str b = .error e ↔ GroupModFails b e := (outcome_group b).error e

/-- A select group with a bucket that has an action, and one that has none and is not printed as it is the last
16 bytes. -/
def oddGroup : Bytes := pad 10 ++ ([1, 0] ++ (u32 0xfffffffc ++ ((u16 32 ++ (u16 5 ++ (u32 2 ++ (u32 0xffffffff ++ (pad 4 ++
  (u16 0 ++ (u16 16 ++ (u32 1 ++ pad 8)))))))) ++ (u16 16 ++ (u16 6 ++ (u32 2 ++ (u32 3 ++ pad 4)))))))

example : GroupModPrinted oddGroup t!"group=all,select,@bucket,weight=5,watch_port=2,output=1" :=
  (C78_group _ _).1 (by decide +kernel)

example : GroupModFails (pad 15) .structError ∧ GroupModFails (pad 10 ++ ([4, 0] ++ u32 1)) .indexError ∧
    GroupModFails (pad 16 ++ (u16 12 ++ pad 20)) .structError ∧ GroupModFails (pad 16 ++ (u16 24 ++ (pad 14 ++ (u16 99 ++ pad 6)))) .loops :=
  ⟨(C78_group_error _ _).1 (by decide +kernel), (C78_group_error _ _).1 (by decide +kernel),
    (C78_group_error _ _).1 (by decide +kernel), (C78_group_error _ _).1 (by decide +kernel)⟩

/-- C78: which text `bucket2str` returns, for every byte string, and which exception it raises. -/
theorem C78_bucket (type : Nat) (b : Bytes) : (∀ s, bucket2str type b = .ok s ↔ BucketPrinted type b s) ∧
    ∀ e, bucket2str type b = .error e ↔ BucketFails b e :=
  ⟨(outcome_bucket type b).ok, (outcome_bucket type b).error⟩

example : BucketPrinted 0 (u16 16 ++ (u16 5 ++ (u32 2 ++ (u32 3 ++ pad 4)))) t!"watch_port=2,watch_group=3" :=
  ((C78_bucket _ _).1 _).1 (by decide +kernel)

/-! ## Multipart messages -/

theorem outcome_mpflow (b : Bytes) : OutcomeOf (mpflow2text b)
    (fun s => ∃ rows, MsgsPrinted FlowMsg b rows ∧ s = joinStr t!"\n" rows.flatten) (MsgsFail FlowMsg FlowMsgFails b) :=
  ((outcome_msgs outcome_mpflow1 _ b (by omega)).map (f := joinStr t!"\n")).congr
    (fun s => ⟨fun ⟨_, ⟨rows, h, h'⟩, h''⟩ => ⟨rows, h, by rw [h'', h']⟩, fun ⟨rows, h, h'⟩ => ⟨_, ⟨rows, h, rfl⟩, h'⟩⟩)
    (fun _ => Iff.rfl)

/-- C78: which text `mpflow2text` returns, for every byte string. -/
theorem C78_flow_stats (b : Bytes) (s : Str) :
    mpflow2text b = .ok s ↔ ∃ rows, MsgsPrinted FlowMsg b rows ∧ s = joinStr t!"\n" rows.flatten := (outcome_mpflow b).ok s

/-- C78: which exception `mpflow2text` raises, for every byte string, and when it does not end. -/
theorem C78_flow_stats_error (b : Bytes) (e : Err) : mpflow2text b = .error e ↔ MsgsFail FlowMsg FlowMsgFails b e :=
  (outcome_mpflow b).error e

example : ∃ rows, MsgsPrinted FlowMsg (mpReply 9 1 (exFlows.flatMap FlowStat.wire)) rows ∧
    t!"packet_count=5,byte_count=18446744073709551615,duration_sec=10,duration_nsec=20 " ++
    (t!"cookie=0x1234,table=2,priority=7,idle_timeout=60,send_flow_rem,check_overlap,in_port=1," ++
    t!"ipv4_dst=10.0.0.0/255.255.0.0,@metadata=0x1/0xff,@apply,output=1,pop_vlan,@clear,@goto=4\npriority=0") =
    joinStr t!"\n" rows.flatten := (C78_flow_stats _ _).1 (by decide +kernel)

example : MsgsFail FlowMsg FlowMsgFails (pad 7) .structError ∧ MsgsFail FlowMsg FlowMsgFails (mpReply 9 2 []) .assertionError ∧
    MsgsFail FlowMsg FlowMsgFails (mpWire 18 9 1 0 (pad 32 ++ (u16 1 ++ (u16 4 ++ pad 4)))) .typeError ∧
    MsgsFail FlowMsg FlowMsgFails (mpReply 9 1 (pad 48 ++ (u16 1 ++ (u16 4 ++ pad 4)))) .loops :=
  ⟨(C78_flow_stats_error _ _).1 (by decide +kernel), (C78_flow_stats_error _ _).1 (by decide +kernel),
    (C78_flow_stats_error _ _).1 (by decide +kernel), (C78_flow_stats_error _ _).1 (by decide +kernel)⟩

theorem outcome_mpdesc (b : Bytes) : OutcomeOf (mpgroupdesc2text b)
    (fun s => ∃ rows, MsgsPrinted DescMsg b rows ∧ s = joinStr t!"\n" rows.flatten) (MsgsFail DescMsg DescMsgFails b) :=
  ((outcome_msgs outcome_mpdesc1 _ b (by omega)).map (f := joinStr t!"\n")).congr
    (fun s => ⟨fun ⟨_, ⟨rows, h, h'⟩, h''⟩ => ⟨rows, h, by rw [h'', h']⟩, fun ⟨rows, h, h'⟩ => ⟨_, ⟨rows, h, rfl⟩, h'⟩⟩)
    (fun _ => Iff.rfl)

/-- C78: which text `mpgroupdesc2text` returns, for every byte string. -/
theorem C78_group_desc (b : Bytes) (s : Str) :
    mpgroupdesc2text b = .ok s ↔ ∃ rows, MsgsPrinted DescMsg b rows ∧ s = joinStr t!"\n" rows.flatten := (outcome_mpdesc b).ok s

/-- C78: which exception `mpgroupdesc2text` raises, for every byte string, and when it does not end. -/
theorem C78_group_desc_error (b : Bytes) (e : Err) : mpgroupdesc2text b = .error e ↔ MsgsFail DescMsg DescMsgFails b e :=
  (outcome_mpdesc b).error e

example : ∃ rows, MsgsPrinted DescMsg (mpReply 9 7 (exDescs.flatMap GroupDesc.wire)) rows ∧
    t!"group=5,select,@bucket,weight=3,watch_port=2,@bucket,output=1\ngroup=7,all,@bucket,output=1,@bucket," =
    joinStr t!"\n" rows.flatten := (C78_group_desc _ _).1 (by decide +kernel)

example : MsgsFail DescMsg DescMsgFails (mpReply 9 7 (u16 7 ++ pad 6)) .assertionError ∧
    MsgsFail DescMsg DescMsgFails (mpReply 9 7 (u16 8 ++ (4 :: pad 5))) .indexError :=
  ⟨(C78_group_desc_error _ _).1 (by decide +kernel), (C78_group_desc_error _ _).1 (by decide +kernel)⟩

theorem outcome_mpgroup (b : Bytes) : OutcomeOf (mpgroup2text b)
    (fun s => ∃ rows, MsgsPrinted GroupMsg b rows ∧ s = joinStr t!"\n" rows.flatten) (MsgsFail GroupMsg GroupMsgFails b) :=
  ((outcome_msgs outcome_mpgroup1 _ b (by omega)).map (f := joinStr t!"\n")).congr
    (fun s => ⟨fun ⟨_, ⟨rows, h, h'⟩, h''⟩ => ⟨rows, h, by rw [h'', h']⟩, fun ⟨rows, h, h'⟩ => ⟨_, ⟨rows, h, rfl⟩, h'⟩⟩)
    (fun _ => Iff.rfl)

/-- C78: which text `mpgroup2text` returns, for every byte string. -/
theorem C78_group_stats (b : Bytes) (s : Str) :
    mpgroup2text b = .ok s ↔ ∃ rows, MsgsPrinted GroupMsg b rows ∧ s = joinStr t!"\n" rows.flatten := (outcome_mpgroup b).ok s

/-- C78: which exception `mpgroup2text` raises, for every byte string. -/
theorem C78_group_stats_error (b : Bytes) (e : Err) : mpgroup2text b = .error e ↔ MsgsFail GroupMsg GroupMsgFails b e :=
  (outcome_mpgroup b).error e

example : ∃ rows, MsgsPrinted GroupMsg (mpReply 9 6 (exStats.flatMap GroupStat.wire)) rows ∧
    t!"group=1 duration_sec=3\ngroup=7 ref_count=1,packet_count=18446744073709551615,byte_count=3,duration_sec=4,duration_nsec=5,@bucket,@bucket,packet_count=2,byte_count=9223372036854775808" =
    joinStr t!"\n" rows.flatten := (C78_group_stats _ _).1 (by decide +kernel)

example : MsgsFail GroupMsg GroupMsgFails (mpReply 9 6 (u16 39 ++ pad 38)) .assertionError ∧
    MsgsFail GroupMsg GroupMsgFails (mpWire 18 9 6 0 (u32 1 ++ pad 3)) .structError :=
  ⟨(C78_group_stats_error _ _).1 (by decide +kernel), (C78_group_stats_error _ _).1 (by decide +kernel)⟩

end Ofpstr
