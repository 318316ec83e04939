import Verif.Spec.MsgPrint

/-!
# Specification: the bytes that are printed for ever

The printers go from one part to the next by the length that the part says it has.  They never come further
exactly at a part that says it has no bytes, if it is one that is printed nevertheless.  Which ones these are is
said here by numbers.
-/

namespace Ofpstr.Spec

/-- Going by the lengths from part to part one gets from `b` to `c`; the parts before are printed. -/
inductive Reach (least : Nat) (len : Bytes → Nat) (P : Bytes → Prop) : Bytes → Bytes → Prop
  | here (b) : Reach least len P b b
  | next (b c) : least ≤ b.length → P b → len b ≠ 0 → Reach least len P (b.drop (len b)) c → Reach least len P b c

/-- The types of the actions that cannot be printed if they have no bytes. -/
def needBody : List Nat := [0, 11, 12, 15, 16, 17, 18, 19, 20, 21, 22, 23, 24, 26, 27]

/-- The same for the sub-types of Nicira actions. -/
def needNxBody : List Nat := [1, 2, 6, 7, 9, 10, 12, 13, 14, 15, 16, 21, 32]

/-- Actions that say they have no bytes and are printed: unknown ones, `set_` if the match entry is printed, and
Nicira actions that need no body (`pop_queue`, `note`, `exit`, `reg_load2`). -/
inductive ZeroAction : Bytes → Prop
  | type (t r) : t < 65536 → t ∉ needBody → t ≠ 25 → t ≠ 0xffff → r ≠ [] → ZeroAction (u16 t ++ (u16 0 ++ r))
  | set (r s) : EntryText r s → ZeroAction (u16 25 ++ (u16 0 ++ r))
  | setShort (r) : r ≠ [] → r.length < 4 → ZeroAction (u16 25 ++ (u16 0 ++ r))
  | vendor (id r) : id < 2 ^ 32 → id ≠ 0x2320 → ZeroAction (u16 0xffff ++ (u16 0 ++ (u32 id ++ r)))
  | nx (t r) : t < 65536 → t ∉ needNxBody → t ≠ 25 → ZeroAction (u16 0xffff ++ (u16 0 ++ (u32 0x2320 ++ (u16 t ++ r))))
  | setNx (r s) : EntryText (u32 0x2320 ++ (u16 25 ++ r)) s →
      ZeroAction (u16 0xffff ++ (u16 0 ++ (u32 0x2320 ++ (u16 25 ++ r))))

/-- Actions that are printed for ever. -/
def ActionsHang (b : Bytes) : Prop := ∃ c, Reach 5 lenField (fun b => ∃ s, ActionText b s) b c ∧ ZeroAction c

/-- An instruction that is printed for ever: it says it has no bytes and is of no kind with a fixed length, or
its actions are printed for ever. -/
inductive InstHang : Bytes → Prop
  | zero (k r) : k < 65536 → k ∉ [1, 2, 5, 6] → InstHang (u16 k ++ (u16 0 ++ r))
  | acts (k l r) : k ∈ [3, 4] → l < 65536 → l % 8 = 0 → ActionsHang ((r.take (l - 4)).drop 4) → InstHang (u16 k ++ (u16 l ++ r))

def InstsHang (b : Bytes) : Prop :=
  ∃ c, Reach 5 lenField (fun b => ∃ ts, InstPrinted b ts) b c ∧ 5 ≤ c.length ∧ InstHang c

/-- The match of a rule is printed. -/
def MatchPrints (b : Bytes) : Prop := ∃ ms, MatchShown ((b.drop 52).take (word16 b 50 - 4)) ms

/-- A flow-mod: its match is printed, its instructions are printed for ever. -/
def ModHang (b : Bytes) : Prop := 52 ≤ b.length ∧ word16 b 48 = 1 ∧ MatchPrints b ∧
  InstsHang ((b.take (word16 b 2)).drop (48 + roundUp8 (word16 b 50)))

/-- Buckets: only their actions can be printed for ever. -/
def BucketsHang (type least : Nat) (b : Bytes) : Prop :=
  ∃ c, Reach least (word16 · 0) (fun b => ∃ s, BucketPrinted type (b.take (word16 b 0)) s) b c ∧ least ≤ c.length ∧
    ActionsHang ((c.take (word16 c 0)).drop 16)

/-- A group-mod of a known type. -/
def GroupModHang (b : Bytes) : Prop := 16 ≤ b.length ∧ (b.getD 10 0).toNat < 4 ∧ BucketsHang (b.getD 10 0).toNat 17 (b.drop 16)

/-- An entry of flow statistics: its match is printed, and it says it has no bytes, or its instructions are
printed for ever. -/
def FlowStatHang (b : Bytes) : Prop := word16 b 48 = 1 ∧ MatchPrints b ∧
  (word16 b 0 = 0 ∨ InstsHang ((b.take (word16 b 0)).drop (48 + roundUp8 (word16 b 50))))

/-- A group description of a known type. -/
def DescHang (b : Bytes) : Prop := (b.getD 2 0).toNat < 4 ∧
  BucketsHang (b.getD 2 0).toNat 16 ((b.drop 8).take (word16 b 0 - 8))

/-- A reply of the right kind with an entry that is printed for ever; the ones before are printed. -/
def ReplyHang {α : Type} (kind least : Nat) (P : Bytes → α → Prop) (H : Bytes → Prop) (b : Bytes) : Prop :=
  16 ≤ b.length ∧ b.getD 1 0 = 19 ∧ word16 b 8 = kind ∧
  ∃ c, Reach least (word16 · 0) (fun b => ∃ x, P b x) ((b.drop 16).take (word16 b 2 - 16)) c ∧ least ≤ c.length ∧ H c

/-- A message that is printed for ever, after messages that are printed; each is cut to its length. -/
def MsgsHang (P : Bytes → List Str → Prop) (H : Bytes → Prop) (b : Bytes) : Prop :=
  ∃ c, Reach 1 lenField (fun b => 8 ≤ b.length ∧ ∃ rows, P (b.take (lenField b)) rows) b c ∧ H (c.take (lenField c))

def FlowStatsHang : Bytes → Prop := MsgsHang FlowMsg (ReplyHang 1 56 FlowStatPrinted FlowStatHang)
def DescsHang : Bytes → Prop := MsgsHang DescMsg (ReplyHang 7 8 DescPrinted DescHang)

end Ofpstr.Spec
