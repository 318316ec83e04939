import Verif.Spec.Group

/-!
# Specification: multipart messages

`struct ofp_multipart_reply` of OpenFlow 1.3 (A.3.5) with the bodies `struct ofp_flow_stats`,
`struct ofp_group_desc` and `struct ofp_group_stats`, and the walk through such messages by the length
fields in them.
-/

namespace Ofpstr.Spec

/-! ## Walks -/

/-- The two bytes at position `i` as a number. -/
def word16 (b : Bytes) (i : Nat) : Nat := (b.getD i 0).toNat * 256 + (b.getD (i + 1) 0).toNat

/-- `n` rounded up to a multiple of eight. -/
def roundUp8 (n : Nat) : Nat := (n + 7) / 8 * 8

/-- Going through flow statistics by the length fields: no entry, instruction or action has length 0. -/
inductive FlowWalk : Bytes → Prop
  | done (b) : b.length < 56 → FlowWalk b
  | step (b) : 56 ≤ b.length → word16 b 0 ≠ 0 →
      InstWalk ((b.take (word16 b 0)).drop (48 + roundUp8 (word16 b 50))) →
      FlowWalk (b.drop (word16 b 0)) → FlowWalk b

/-- Going through buckets: up to the first one that is too short for its header, no action has
length 0. -/
inductive BucketWalk : Bytes → Prop
  | done (b) : b.length < 16 → BucketWalk b
  | short (b) : 16 ≤ b.length → word16 b 0 < 16 → BucketWalk b
  | step (b) : 16 ≤ b.length → 16 ≤ word16 b 0 → LenWalk ((b.take (word16 b 0)).drop 16) →
      BucketWalk (b.drop (word16 b 0)) → BucketWalk b

/-- Going through group descriptions: up to the first one that is too short for its header, no action has
length 0. -/
inductive DescWalk : Bytes → Prop
  | done (b) : b.length < 8 → DescWalk b
  | short (b) : 8 ≤ b.length → word16 b 0 < 8 → DescWalk b
  | step (b) : 8 ≤ b.length → 8 ≤ word16 b 0 → BucketWalk ((b.take (word16 b 0)).drop 8) →
      DescWalk (b.drop (word16 b 0)) → DescWalk b

/-- Going through messages: up to the first one that is too short for its header, the body of every
reply (type 19) can be walked through. -/
inductive MsgWalk (walk : Bytes → Prop) : Bytes → Prop
  | done (b) : b.length < 16 → MsgWalk walk b
  | short (b) : 16 ≤ b.length → word16 b 2 < 16 → MsgWalk walk b
  | step (b) : 16 ≤ b.length → 16 ≤ word16 b 2 →
      ((b.getD 1 0).toNat = 19 → walk ((b.take (word16 b 2)).drop 16)) →
      MsgWalk walk (b.drop (word16 b 2)) → MsgWalk walk b

/-! ## Messages -/

/-- A multipart message: its type (18 request, 19 reply), xid, kind, flags and body. -/
def mpWire (type xid kind flags : Nat) (body : Bytes) : Bytes :=
  message type xid (u16 kind ++ (u16 flags ++ (pad 4 ++ body)))

/-- A reply that is not continued in a further message. -/
def mpReply (xid kind : Nat) (body : Bytes) : Bytes := mpWire 19 xid kind 0 body

example : mpReply 7 13 [1, 2] = [4, 19, 0, 18, 0, 0, 0, 7, 0, 13, 0, 0, 0, 0, 0, 0, 1, 2] := by decide

/-! ## Flow statistics -/

/-- One entry of flow statistics. -/
structure FlowStat where
  table : Nat
  sec : Nat
  nsec : Nat
  priority : Nat
  idle : Nat
  hard : Nat
  flags : Nat
  cookie : Nat
  packets : Nat
  bytes : Nat
  mtch : List Tlv
  insts : List FInst

/-- The match and the instructions of the entry. -/
def FlowStat.tail (e : FlowStat) : Bytes :=
  matchWire (e.mtch.flatMap Tlv.wire) ++ e.insts.flatMap fun i => i.inst.wire

/-- `struct ofp_flow_stats`. -/
def FlowStat.wire (e : FlowStat) : Bytes :=
  u16 (48 + e.tail.length) ++ (u8 e.table ++ (pad 1 ++ (u32 e.sec ++ (u32 e.nsec ++ (u16 e.priority ++
  (u16 e.idle ++ (u16 e.hard ++ (u16 e.flags ++ (pad 4 ++ (u64 e.cookie ++ (u64 e.packets ++ (u64 e.bytes ++
  e.tail))))))))))))

/-- A well-formed entry. -/
def FlowStat.Valid (e : FlowStat) : Prop :=
  e.table < 256 ∧ e.sec < 256 ^ 4 ∧ e.nsec < 256 ^ 4 ∧ e.priority < 256 ^ 2 ∧ e.idle < 256 ^ 2 ∧
  e.hard < 256 ^ 2 ∧ e.flags < 256 ^ 2 ∧ e.cookie < 256 ^ 8 ∧ e.packets < 256 ^ 8 ∧ e.bytes < 256 ^ 8 ∧
  (∀ t ∈ e.mtch, t.Valid) ∧ (∀ i ∈ e.insts, i.Valid) ∧ e.wire.length < 65536

/-- The match items and actions of the entry survive printing. -/
def FlowStat.PartsLossless (e : FlowStat) : Prop :=
  (∀ t ∈ e.mtch, t.Lossless) ∧ ∀ i ∈ e.insts, ∀ a ∈ i.actions, a.Lossless

/-- The entries that survive printing: also the flags are the five of OpenFlow 1.3, and the priority is not
the default of flow-mods, which is not printed. -/
def FlowStat.Lossless (e : FlowStat) : Prop :=
  e.flags < 32 ∧ e.priority ≠ 0x8000 ∧ e.PartsLossless

/-- What comes back of an entry: the flags of OpenFlow 1.3 only, and priority 0 instead of 0x8000. -/
def FlowStat.seen (e : FlowStat) : FlowStat :=
  { e with flags := e.flags % 32, priority := if e.priority = 0x8000 then 0 else e.priority }

/-- A request for flow statistics: table, output port and group to look for, cookie and its mask. -/
structure FlowReq where
  table : Int
  outPort : Int
  outGroup : Int
  cookie : Int
  mask : Int
  deriving DecidableEq

/-- `struct ofp_flow_stats_request`. -/
def FlowReq.wire (r : FlowReq) (oxm : Bytes) : Bytes :=
  u8 r.table.toNat ++ (pad 3 ++ (u32 r.outPort.toNat ++ (u32 r.outGroup.toNat ++ (pad 4 ++ (u64 r.cookie.toNat ++
  (u64 r.mask.toNat ++ matchWire oxm))))))

def FlowReq.Fits (r : FlowReq) : Prop :=
  FitsIn 1 r.table ∧ FitsIn 4 r.outPort ∧ FitsIn 4 r.outGroup ∧ FitsIn 8 r.cookie ∧ FitsIn 8 r.mask

/-- What the words ask for; without a word all tables, any port, any group, any cookie. -/
def reqOf (ws : List Word) : FlowReq :=
  ⟨(lastOf (Word.keyArg .table) ws).getD 255, (lastOf (Word.keyArg .outPort) ws).getD 0xffffffff,
    (lastOf (Word.keyArg .outGroup) ws).getD 0xffffffff, (lastOf Word.cookieArg ws).getD 0, (lastOf Word.maskArg ws).getD 0⟩

/-! ## Group descriptions -/

structure GroupDesc where
  type : Nat
  gid : Nat
  buckets : List Bucket

/-- `struct ofp_group_desc`. -/
def GroupDesc.wire (e : GroupDesc) : Bytes :=
  u16 (8 + (e.buckets.flatMap Bucket.wire).length) ++ (u8 e.type ++ (pad 1 ++ (u32 e.gid ++
  e.buckets.flatMap Bucket.wire)))

/-- A well-formed description. -/
def GroupDesc.Valid (e : GroupDesc) : Prop :=
  e.type < 4 ∧ e.gid < 256 ^ 4 ∧ (∀ b ∈ e.buckets, b.Valid) ∧ e.wire.length < 65536

/-- The descriptions that survive printing: no weights outside select groups, actions that survive, no
blank bucket but possibly the last one. -/
def GroupDesc.Lossless (e : GroupDesc) : Prop :=
  (∀ b ∈ e.buckets, (e.type ≠ 1 → b.weight = 0) ∧ ∀ a ∈ b.acts, a.Lossless) ∧
  ∀ b ∈ e.buckets.dropLast, ¬ b.Blank e.type

/-! ## Group statistics -/

/-- The counters of a bucket. -/
structure BucketStat where
  packets : Nat
  bytes : Nat

def BucketStat.wire (b : BucketStat) : Bytes := u64 b.packets ++ u64 b.bytes

structure GroupStat where
  gid : Nat
  refs : Nat
  packets : Nat
  bytes : Nat
  sec : Nat
  nsec : Nat
  buckets : List BucketStat

/-- `struct ofp_group_stats`. -/
def GroupStat.wire (e : GroupStat) : Bytes :=
  u16 (40 + (e.buckets.flatMap BucketStat.wire).length) ++ (pad 2 ++ (u32 e.gid ++ (u32 e.refs ++ (pad 4 ++
  (u64 e.packets ++ (u64 e.bytes ++ (u32 e.sec ++ (u32 e.nsec ++ e.buckets.flatMap BucketStat.wire))))))))

/-- A well-formed entry. -/
def GroupStat.Valid (e : GroupStat) : Prop :=
  e.gid < 256 ^ 4 ∧ e.refs < 256 ^ 4 ∧ e.packets < 256 ^ 8 ∧ e.bytes < 256 ^ 8 ∧ e.sec < 256 ^ 4 ∧
  e.nsec < 256 ^ 4 ∧ (∀ b ∈ e.buckets, b.packets < 256 ^ 8 ∧ b.bytes < 256 ^ 8) ∧ e.wire.length < 65536

/-- There is something to print besides the group. -/
def GroupStat.Counts (e : GroupStat) : Prop :=
  e.refs ≠ 0 ∨ e.packets ≠ 0 ∨ e.bytes ≠ 0 ∨ e.sec ≠ 0 ∨ e.nsec ≠ 0 ∨ e.buckets ≠ []

/-- The entries that survive printing: those of a real group, with something to print. -/
def GroupStat.Lossless (e : GroupStat) : Prop :=
  e.gid ≠ 0xfffffffc ∧ e.gid ≠ 0xffffffff ∧ e.Counts

end Ofpstr.Spec
