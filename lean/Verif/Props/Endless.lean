import Verif.Lemmas.EndlessOwn
import Verif.Props.MpReject

/-!
# C85: exactly which inputs keep the library busy for ever
-/

namespace Ofpstr
open Spec

/-! ## Bytes -/

/-- C85: printing actions never ends exactly if, going by the lengths of actions that are printed, one comes to
one that says it has no bytes and is printed nevertheless. -/
theorem C85_actions (b : Bytes) : act2str b = .error .loops ↔ ActionsHang b := by
  rw [C77_actions_error, hang_actions]

/-- C85: the same for instructions. -/
theorem C85_instructions (b : Bytes) : inst2str b = .error .loops ↔ InstsHang b := by
  rw [C78_instructions_error, hang_insts]

/-- C85: the same for flow-mods. -/
theorem C85_flow_mod (b : Bytes) : mod2str b = .error .loops ↔ ModHang b := by
  rw [C78_flow_mod_error, hang_mod]

/-- C85: the same for group-mods; the lengths of buckets are harmless. -/
theorem C85_group_mod (b : Bytes) : group2str b = .error .loops ↔ GroupModHang b := by
  rw [C78_group_error, hang_group]

/-- C85: the same for flow statistics. -/
theorem C85_flow_stats (b : Bytes) : mpflow2text b = .error .loops ↔ FlowStatsHang b := by
  rw [C78_flow_stats_error]
  refine hang_msgs (fun _ _ h => mp_long h) (fun _ h => h.1)
    (hang_reply (by omega) ?_ fun c hc => hang_stat c (by omega)) b
  intro len r h
  generalize r.take (len - 16) = q at h
  generalize he : Err.loops = e at h
  cases h with
  | short | mtype | row => cases he
  | mtch x l r e h1 h2 h3 => subst he; exact match_ends _ h3

/-- C85: the same for group descriptions; the lengths of messages, descriptions and buckets are harmless. -/
theorem C85_group_desc (b : Bytes) : mpgroupdesc2text b = .error .loops ↔ DescsHang b := by
  rw [C78_group_desc_error]
  exact hang_msgs (fun _ _ h => mp_long h) (fun _ h => h.1)
    (hang_reply (by omega) (fun _ _ h => h) fun c hc => hang_desc c hc) b

/-- C85: matches, ids and group statistics are printed in the end, whatever the bytes. -/
theorem C85_always (b : Bytes) : oxm2str b ≠ .error .loops ∧ oxmid2str b ≠ .error .loops ∧ mpgroup2text b ≠ .error .loops :=
  ⟨ends_oxm2str b, ends_oxmid2str b, ends_mpgroup2text b⟩

/-- C85: which actions these are, independently of what is printed for them: those that have more than four
bytes, say they have none, and are printed. -/
theorem C85_zero (b : Bytes) : ZeroAction b ↔ 4 < b.length ∧ (∃ s, act2str1 b = .ok s) ∧ lenField b = 0 := by
  rw [zero_action]
  refine and_congr_right fun h => and_congr_left fun _ => exists_congr fun s => ?_
  rw [C77_action]
  exact ⟨fun hs => Or.inr ⟨h, hs⟩, fun hs => hs.elim (fun hs => absurd hs.1 (by omega)) (·.2)⟩

/-! ## Texts -/

/-- C85: every text is read in the end. -/
theorem C85_texts (s : Str) (c x : Int) : str2oxm s ≠ .error .loops ∧ str2act s ≠ .error .loops ∧ str2mod s c x ≠ .error .loops ∧
    str2group s c x ≠ .error .loops ∧ text2mpflow s c x ≠ .error .loops ∧ text2mpgroupdesc s c x ≠ .error .loops ∧
    text2mpgroup s c x ≠ .error .loops :=
  ⟨ends_str2oxmL true s, ends_str2act s, ends_str2mod s c x, ends_str2group s c x, ends_text2mpflow s c x,
    ends_text2mpgroupdesc s c x, ends_text2mpgroup s c x⟩

/-- C85: what the library itself reads from a text is printed in the end. -/
theorem C85_own_action (s : Str) (b : Bytes) (n : Nat) (h : str2act s = .ok (b, n)) : act2str b ≠ .error .loops := by
  obtain ⟨r, h1, h2⟩ := (C69_action s b n).1 h
  exact ends_act2str b (lenWalk_one (trueAct_read ⟨r, h1, h2⟩))

/-- C85: the same for rules. -/
theorem C85_own_flow (s : Str) (c x : Int) (b : Bytes) (h : str2mod s c x = .ok b) : mod2str b ≠ .error .loops := by
  obtain ⟨ws, h1, h2, rfl⟩ := (C70_flow s c x b).1 h
  rw [ne_eq, C85_flow_mod]
  exact flow_ends h1 h2

/-- C85: the same for groups. -/
theorem C85_own_group (s : Str) (c x : Int) (b : Bytes) (h : str2group s c x = .ok b) : group2str b ≠ .error .loops := by
  obtain ⟨gs, bs, h1, h2, rfl⟩ := (C70_group s c x b).1 h
  rw [ne_eq, C85_group_mod]
  exact group_ends h1 h2

/-- C85: the same for multipart messages. -/
theorem C85_own_multipart (s : Str) (type xid : Int) (b : Bytes) :
    (text2mpflow s type xid = .ok b → mpflow2text b ≠ .error .loops) ∧
    (text2mpgroupdesc s type xid = .ok b → mpgroupdesc2text b ≠ .error .loops) := by
  refine ⟨fun h => ?_, fun h => ?_⟩
  · rw [ne_eq, C85_flow_stats]
    exact flow_text_ends s type xid b h
  · rw [ne_eq, C85_group_desc]
    exact desc_text_ends s type xid b h

/-! ## Cases -/

/-- An output that is fine, then an unknown action that says it has no bytes. -/
example : ActionsHang (outputWire 1 0 ++ [0, 99, 0, 0, 7]) :=
  ⟨[0, 99, 0, 0, 7], .next _ _ (by decide) ((C77_action _ t!"output=1").1 (by decide +kernel) |>.elim (fun h => absurd h.1 (by decide))
    (fun h => ⟨_, h.2⟩)) (by decide) (.here _), .type 99 [7] (by decide) (by decide) (by decide) (by decide) (by decide)⟩

example : act2str (outputWire 1 0 ++ [0, 99, 0, 0, 7]) = .error .loops := by decide +kernel

/-- `exit` without a body is printed for ever, `resubmit` without one is refused. -/
example : ActionsHang [255, 255, 0, 0, 0, 0, 0x23, 0x20, 0, 17] ∧ ¬ ActionsHang [255, 255, 0, 0, 0, 0, 0x23, 0x20, 0, 1] :=
  ⟨⟨_, .here _, .nx 17 [] (by decide) (by decide) (by decide)⟩,
    fun h => absurd ((C85_actions _).2 h) (by decide +kernel)⟩

/-- A flow-mod of 60 bytes whose `@apply` says it has no bytes. -/
def hangMod : Bytes := [4, 14] ++ (u16 64 ++ (pad 44 ++ (u16 1 ++ (u16 4 ++ (pad 4 ++ (u16 4 ++ (u16 0 ++ pad 4)))))))

example : ModHang hangMod := (C85_flow_mod _).1 (by decide +kernel)

/-- A bucket that says it has no bytes is refused; an action in it makes the printer run for ever. -/
example : group2str (pad 16 ++ pad 20) = .error .structError ∧
    GroupModHang (pad 16 ++ (u16 24 ++ (pad 14 ++ (u16 99 ++ (u16 0 ++ pad 4))))) :=
  ⟨by decide +kernel, (C85_group_mod _).1 (by decide +kernel)⟩

example : FlowStatsHang (mpReply 9 1 (pad 48 ++ (u16 1 ++ (u16 4 ++ pad 4)))) := (C85_flow_stats _).1 (by decide +kernel)

example : DescsHang (mpReply 0 7 (u16 32 ++ (u8 0 ++ (pad 1 ++ (u32 1 ++ (bucketWire 0 0 0 (u16 99 ++ (u16 0 ++ pad 4)))))))) :=
  (C85_group_desc _).1 (by decide +kernel)

/-- Ten messages of nothing are refused. -/
example : ¬ FlowStatsHang (pad 40) := fun h => absurd ((C85_flow_stats _).2 h) (by decide +kernel)

/-- Texts that give messages, with actions of an odd length. -/
example : (str2mod t!"in_port=1,@apply,set_nw_ttl=64,note(abc),output=1" 0 0).isOk = true ∧
    (str2group t!"group=1,select,@bucket,set_nw_ttl=64,note(abc)" 0 0).isOk = true ∧
    (text2mpflow t!"packet_count=1 in_port=1,@apply,note(abc),output=1" 19 0).isOk = true ∧
    (text2mpgroupdesc t!"group=1,select,@bucket,note(abc),output=1" 19 0).isOk = true := by decide +kernel

end Ofpstr
