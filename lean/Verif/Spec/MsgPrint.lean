import Verif.Spec.ActPrint
import Verif.Spec.GroupExact

/-!
# Specification: the texts that instructions and messages are printed as

What is printed for which bytes, and which bytes are refused with which exception, for instructions, flow-mods,
group-mods and multipart messages.  It is about arbitrary bytes, not only about well-formed messages.
-/

namespace Ofpstr.Spec

/-! ## Going by length fields -/

/-- What is printed of one part after the other: at each place `P` holds, and `len` says where the next one
starts.  Fewer than `least` bytes at the end are ignored. -/
inductive Parts {α : Type} (least : Nat) (len : Bytes → Nat) (P : Bytes → α → Prop) : Bytes → List α → Prop
  | done (b) : b.length < least → Parts least len P b []
  | more (b x xs) : least ≤ b.length → P b x → len b ≠ 0 → Parts least len P (b.drop (len b)) xs →
      Parts least len P b (x :: xs)

/-- Some part is refused, or has length zero and is printed for ever. -/
inductive PartsFail {α : Type} (least : Nat) (len : Bytes → Nat) (P : Bytes → α → Prop) (F : Bytes → Err → Prop) :
    Bytes → Err → Prop
  | now (b e) : least ≤ b.length → F b e → PartsFail least len P F b e
  | stuck (b x) : least ≤ b.length → P b x → len b = 0 → PartsFail least len P F b .loops
  | later (b x e) : least ≤ b.length → P b x → len b ≠ 0 → PartsFail least len P F (b.drop (len b)) e →
      PartsFail least len P F b e

/-- A text that is left out if it is empty. -/
def unlessEmpty (s : Str) : List Str := if s = [] then [] else [s]

/-! ## Instructions -/

/-- The tokens for the first instruction of the bytes. -/
inductive InstPrinted : Bytes → List Str → Prop
  | goto (n : UInt8) (r s) : Decimal s n.toNat → InstPrinted (u16 1 ++ (u16 8 ++ n :: r)) [t!"@goto=" ++ s]
  | metadata (x v r s) : x.length = 4 → v < 2 ^ 64 → NumShown (.hex 0) s v →
      InstPrinted (u16 2 ++ (u16 24 ++ (x ++ (u64 v ++ (u64 0 ++ r))))) [t!"@metadata=" ++ s]
  | masked (x v m r s t) : x.length = 4 → v < 2 ^ 64 → 0 < m → m < 2 ^ 64 → NumShown (.hex 0) s v →
      NumShown (.hex 0) t m →
      InstPrinted (u16 2 ++ (u16 24 ++ (x ++ (u64 v ++ (u64 m ++ r))))) [t!"@metadata=" ++ (s ++ '/' :: t)]
  | acts (k name l r ss) : (k, name) ∈ [(3, t!"@write"), (4, t!"@apply")] → l < 65536 → l % 8 = 0 →
      ActionsShown ((r.take (l - 4)).drop 4) ss →
      InstPrinted (u16 k ++ (u16 l ++ r)) (name :: unlessEmpty (joinStr t!"," ss))
  | clear (r) : InstPrinted (u16 5 ++ (u16 8 ++ r)) [t!"@clear"]
  | meter (n r s) : n < 2 ^ 32 → Decimal s n → InstPrinted (u16 6 ++ (u16 8 ++ (u32 n ++ r))) [t!"@meter=" ++ s]
  | unknown (k l r) : k < 65536 → l < 65536 → k = 0 ∨ 6 < k → InstPrinted (u16 k ++ (u16 l ++ r)) [t!"?"]

/-- The lengths of the instructions of a fixed length. -/
def instSizes : List (Nat × Nat) := [(1, 8), (2, 24), (5, 8), (6, 8)]

inductive InstFails : Bytes → Err → Prop
  | size (k n l r) : (k, n) ∈ instSizes → l < 65536 → l ≠ n → InstFails (u16 k ++ (u16 l ++ r)) .assertionError
  | metadata (r) : r.length < 20 → InstFails (u16 2 ++ (u16 24 ++ r)) .structError
  | meter (r) : r.length < 4 → InstFails (u16 6 ++ (u16 8 ++ r)) .structError
  | eights (k l r) : k ∈ [3, 4] → l < 65536 → l % 8 ≠ 0 → InstFails (u16 k ++ (u16 l ++ r)) .assertionError
  | acts (k l r e) : k ∈ [3, 4] → l < 65536 → l % 8 = 0 → ActionsFail ((r.take (l - 4)).drop 4) e →
      InstFails (u16 k ++ (u16 l ++ r)) e

/-- All instructions; four or fewer bytes at the end are ignored. -/
def InstsPrinted (b : Bytes) (tss : List (List Str)) : Prop := Parts 5 lenField InstPrinted b tss
def InstsFail (b : Bytes) (e : Err) : Prop := PartsFail 5 lenField InstPrinted InstFails b e

/-! ## Keys of rules -/

/-- A key that is left out if it has its default. -/
inductive KeyPrinted (name : Str) (P : Str → Nat → Prop) (dflt v : Nat) : List Str → Prop
  | hidden : v = dflt → KeyPrinted name P dflt v []
  | shown (s) : v ≠ dflt → P s v → KeyPrinted name P dflt v [name ++ '=' :: s]

/-- The cookie is shown if it or its mask is not zero. -/
inductive CookiePrinted (c m : Nat) : List Str → Prop
  | hidden : c = 0 → m = 0 → CookiePrinted c m []
  | plain (s) : c ≠ 0 → m = 0 → NumShown (.hex 0) s c → CookiePrinted c m [t!"cookie=" ++ s]
  | masked (s t) : m ≠ 0 → NumShown (.hex 0) s c → NumShown (.hex 0) t m → CookiePrinted c m [t!"cookie=" ++ (s ++ '/' :: t)]

/-- The words for the flags that are set. -/
def flagsPrinted (f : Nat) : List Str := (flagWords.filter fun e => f.testBit e.2).map (·.1)

/-- A port: a reserved name or the number. -/
def PortPrinted (s : Str) (n : Nat) : Prop := PortShown 4 s (u32 n)

/-- A group: a reserved name or the number. -/
inductive GroupPrinted : Str → Nat → Prop
  | name (n s) : (n, s) ∈ reservedGroups → GroupPrinted s n
  | num (s n) : (∀ e ∈ reservedGroups, e.1 ≠ n) → Decimal s n → GroupPrinted s n

/-- The match and the instructions of a rule, as tokens.  `b` is the rule, its match starts with its header at
byte 48, `len` is the length the rule says it has. -/
inductive RulePrinted (b : Bytes) (len mlen : Nat) : List Str → Prop
  | mk (ms is) : MatchShown ((b.drop 52).take (mlen - 4)) ms →
      InstsPrinted ((b.take len).drop (48 + roundUp8 mlen)) is →
      RulePrinted b len mlen (unlessEmpty (joinStr t!"," ms) ++ unlessEmpty (joinStr t!"," is.flatten))

inductive RuleFails (b : Bytes) (len mlen : Nat) : Err → Prop
  | mtch (e) : MatchFails ((b.drop 52).take (mlen - 4)) e → RuleFails b len mlen e
  | inst (ms e) : MatchShown ((b.drop 52).take (mlen - 4)) ms →
      InstsFail ((b.take len).drop (48 + roundUp8 mlen)) e → RuleFails b len mlen e

/-! ## Flow-mods -/

/-- The first 52 bytes of a flow-mod, whatever they are. -/
structure RawMod where
  version : UInt8
  type : UInt8
  len : Nat
  xid : Nat
  cookie : Nat
  mask : Nat
  table : UInt8
  command : UInt8
  idle : Nat
  hard : Nat
  priority : Nat
  buffer : Nat
  outPort : Nat
  outGroup : Nat
  flags : Nat
  unused : Bytes
  mtype : Nat
  mlen : Nat

def RawMod.wire (m : RawMod) : Bytes := [m.version, m.type] ++ (u16 m.len ++ (u32 m.xid ++ (u64 m.cookie ++ (u64 m.mask ++
  ([m.table, m.command] ++ (u16 m.idle ++ (u16 m.hard ++ (u16 m.priority ++ (u32 m.buffer ++ (u32 m.outPort ++
  (u32 m.outGroup ++ (u16 m.flags ++ (m.unused ++ (u16 m.mtype ++ u16 m.mlen))))))))))))))

structure RawMod.Fits (m : RawMod) : Prop where
  len : m.len < 2 ^ 16
  xid : m.xid < 2 ^ 32
  cookie : m.cookie < 2 ^ 64
  mask : m.mask < 2 ^ 64
  idle : m.idle < 2 ^ 16
  hard : m.hard < 2 ^ 16
  priority : m.priority < 2 ^ 16
  buffer : m.buffer < 2 ^ 32
  outPort : m.outPort < 2 ^ 32
  outGroup : m.outGroup < 2 ^ 32
  flags : m.flags < 2 ^ 16
  unused : m.unused.length = 2
  mtype : m.mtype < 2 ^ 16
  mlen : m.mlen < 2 ^ 16

/-- Those that delete have other defaults. -/
def RawMod.Deletes (m : RawMod) : Prop := m.command = 3 ∨ m.command = 4

instance (m : RawMod) : Decidable m.Deletes := by unfold RawMod.Deletes; infer_instance

/-- The keys of a flow-mod. -/
inductive RawMod.Keys (m : RawMod) : List Str → Prop
  | mk (a b c d e f g h) : CookiePrinted m.cookie m.mask a →
      KeyPrinted t!"table" Decimal (if m.Deletes then 255 else 0) m.table.toNat b →
      KeyPrinted t!"priority" Decimal 0x8000 m.priority c →
      KeyPrinted t!"buffer" (NumShown (.hex 0)) (if m.Deletes then 0 else 0xffffffff) m.buffer d →
      KeyPrinted t!"out_port" PortPrinted (if m.Deletes then 0xffffffff else 0) m.outPort e →
      KeyPrinted t!"out_group" GroupPrinted (if m.Deletes then 0xffffffff else 0) m.outGroup f →
      KeyPrinted t!"idle_timeout" Decimal 0 m.idle g → KeyPrinted t!"hard_timeout" Decimal 0 m.hard h →
      m.Keys (a ++ (b ++ (c ++ (d ++ (e ++ (f ++ (g ++ (h ++ flagsPrinted m.flags))))))))

/-- The text of a flow-mod. -/
inductive ModPrinted : Bytes → Str → Prop
  | mk (m : RawMod) (r ks ts) : m.Fits → m.mtype = 1 → m.Keys ks → RulePrinted (m.wire ++ r) m.len m.mlen ts →
      ModPrinted (m.wire ++ r) (joinStr t!"," (ks ++ ts))

inductive ModFails : Bytes → Err → Prop
  | short (b) : b.length < 52 → ModFails b .structError
  | mtype (m : RawMod) (r) : m.Fits → m.mtype ≠ 1 → ModFails (m.wire ++ r) .valueError
  | rule (m : RawMod) (r e) : m.Fits → m.mtype = 1 → RuleFails (m.wire ++ r) m.len m.mlen e → ModFails (m.wire ++ r) e

/-! ## Buckets and groups -/

/-- The text of a bucket in a group of that type; the weight is shown in a select group only. -/
inductive BucketPrinted (type : Nat) : Bytes → Str → Prop
  | mk (len weight port group x r a b c ss) : len < 65536 → weight < 65536 → port < 2 ^ 32 → group < 2 ^ 32 →
      x.length = 4 → KeyPrinted t!"weight" Decimal (if type = 1 then 1 else weight) weight a →
      KeyPrinted t!"watch_port" Decimal 0xffffffff port b → KeyPrinted t!"watch_group" Decimal 0xffffffff group c →
      ActionsShown (r.take (len - 16)) ss →
      BucketPrinted type (u16 len ++ (u16 weight ++ (u32 port ++ (u32 group ++ (x ++ r)))))
        (joinStr t!"," (a ++ (b ++ (c ++ unlessEmpty (joinStr t!"," ss)))))

inductive BucketFails : Bytes → Err → Prop
  | short (b) : b.length < 16 → BucketFails b .structError
  | acts (len x r e) : len < 65536 → x.length = 14 → ActionsFail (r.take (len - 16)) e →
      BucketFails (u16 len ++ (x ++ r)) e

/-- Buckets go by the length at their start; each is cut to its length. -/
def BucketsPrinted (type least : Nat) (b : Bytes) (ss : List Str) : Prop :=
  Parts least (word16 · 0) (fun b s => BucketPrinted type (b.take (word16 b 0)) s) b ss
def BucketsFail (type least : Nat) (b : Bytes) (e : Err) : Prop :=
  PartsFail least (word16 · 0) (fun b s => BucketPrinted type (b.take (word16 b 0)) s)
    (fun b e => BucketFails (b.take (word16 b 0)) e) b e

/-- The tokens of the buckets. -/
def bucketTokens (ss : List Str) : List Str := ss.flatMap fun s => [t!"@bucket", s]

/-- The group in the text of a group-mod. -/
inductive GidPrinted : Nat → List Str → Prop
  | all : GidPrinted 0xfffffffc [t!"group=all"]
  | any : GidPrinted 0xffffffff []
  | num (n s) : n ≠ 0xfffffffc → n ≠ 0xffffffff → Decimal s n → GidPrinted n [t!"group=" ++ s]

/-- The text of a group-mod: its length field is not looked at, all bytes up to the last 16 are buckets. -/
inductive GroupModPrinted : Bytes → Str → Prop
  | mk (x) (type z : UInt8) (gid r g name ss) : x.length = 10 → gid < 2 ^ 32 → GidPrinted gid g →
      groupTypes[type.toNat]? = some name → BucketsPrinted type.toNat 17 r ss →
      GroupModPrinted (x ++ type :: z :: (u32 gid ++ r)) (joinStr t!"," (g ++ name :: bucketTokens ss))

inductive GroupModFails : Bytes → Err → Prop
  | short (b) : b.length < 16 → GroupModFails b .structError
  | type (x) (type : UInt8) (r) : x.length = 10 → 5 ≤ r.length → 4 ≤ type.toNat → GroupModFails (x ++ type :: r) .indexError
  | bucket (x) (type z : UInt8) (gid r e) : x.length = 10 → gid < 2 ^ 32 → type.toNat < 4 →
      BucketsFail type.toNat 17 r e → GroupModFails (x ++ type :: z :: (u32 gid ++ r)) e

/-! ## Multipart messages -/

/-- A counter, left out if it is zero. -/
def Count (name : Str) (n : Nat) (ts : List Str) : Prop := KeyPrinted name Decimal 0 n ts

/-- Two lists of tokens with a space between; an empty one is left out. -/
def beside (a b : List Str) : Str :=
  if a = [] then joinStr t!"," b else if b = [] then joinStr t!"," a else joinStr t!"," a ++ ' ' :: joinStr t!"," b

/-- The first 52 bytes of an entry of flow statistics, whatever they are. -/
structure RawStat where
  len : Nat
  table : UInt8
  z : UInt8
  sec : Nat
  nsec : Nat
  priority : Nat
  idle : Nat
  hard : Nat
  flags : Nat
  unused : Bytes
  cookie : Nat
  packets : Nat
  bytes : Nat
  mtype : Nat
  mlen : Nat

def RawStat.wire (m : RawStat) : Bytes := u16 m.len ++ ([m.table, m.z] ++ (u32 m.sec ++ (u32 m.nsec ++ (u16 m.priority ++
  (u16 m.idle ++ (u16 m.hard ++ (u16 m.flags ++ (m.unused ++ (u64 m.cookie ++ (u64 m.packets ++ (u64 m.bytes ++
  (u16 m.mtype ++ u16 m.mlen))))))))))))

structure RawStat.Fits (m : RawStat) : Prop where
  len : m.len < 2 ^ 16
  sec : m.sec < 2 ^ 32
  nsec : m.nsec < 2 ^ 32
  priority : m.priority < 2 ^ 16
  idle : m.idle < 2 ^ 16
  hard : m.hard < 2 ^ 16
  flags : m.flags < 2 ^ 16
  unused : m.unused.length = 4
  cookie : m.cookie < 2 ^ 64
  packets : m.packets < 2 ^ 64
  bytes : m.bytes < 2 ^ 64
  mtype : m.mtype < 2 ^ 16
  mlen : m.mlen < 2 ^ 16

inductive RawStat.Keys (m : RawStat) : List Str → Prop
  | mk (a b c g h) : CookiePrinted m.cookie 0 a → KeyPrinted t!"table" Decimal 0 m.table.toNat b →
      KeyPrinted t!"priority" Decimal 0x8000 m.priority c → KeyPrinted t!"idle_timeout" Decimal 0 m.idle g →
      KeyPrinted t!"hard_timeout" Decimal 0 m.hard h →
      m.Keys (a ++ (b ++ (c ++ (g ++ (h ++ flagsPrinted m.flags)))))

inductive RawStat.Counts (m : RawStat) : List Str → Prop
  | mk (a b c d) : Count t!"packet_count" m.packets a → Count t!"byte_count" m.bytes b →
      Count t!"duration_sec" m.sec c → Count t!"duration_nsec" m.nsec d → m.Counts (a ++ (b ++ (c ++ d)))

/-- The line for the first entry of flow statistics. -/
inductive FlowStatPrinted : Bytes → Str → Prop
  | mk (m : RawStat) (r cs ks ts) : m.Fits → m.mtype = 1 → m.Counts cs → m.Keys ks →
      RulePrinted (m.wire ++ r) m.len m.mlen ts → FlowStatPrinted (m.wire ++ r) (beside cs (ks ++ ts))

inductive FlowStatFails : Bytes → Err → Prop
  | mtype (m : RawStat) (r) : m.Fits → m.mtype ≠ 1 → FlowStatFails (m.wire ++ r) .valueError
  | rule (m : RawStat) (r e) : m.Fits → m.mtype = 1 → RuleFails (m.wire ++ r) m.len m.mlen e →
      FlowStatFails (m.wire ++ r) e

/-- The line for the first group description. -/
inductive DescPrinted : Bytes → Str → Prop
  | mk (len) (type z : UInt8) (gid r s name ss) : len < 65536 → 8 ≤ len → gid < 2 ^ 32 → Decimal s gid →
      groupTypes[type.toNat]? = some name → BucketsPrinted type.toNat 16 (r.take (len - 8)) ss →
      DescPrinted (u16 len ++ type :: z :: (u32 gid ++ r)) (joinStr t!"," ((t!"group=" ++ s) :: name :: bucketTokens ss))

inductive DescFails : Bytes → Err → Prop
  | len (len r) : len < 8 → DescFails (u16 len ++ r) .assertionError
  | type (len) (type : UInt8) (r) : len < 65536 → 8 ≤ len → 4 ≤ type.toNat → DescFails (u16 len ++ type :: r) .indexError
  | bucket (len) (type z : UInt8) (gid r e) : len < 65536 → 8 ≤ len → gid < 2 ^ 32 → type.toNat < 4 →
      BucketsFail type.toNat 16 (r.take (len - 8)) e → DescFails (u16 len ++ type :: z :: (u32 gid ++ r)) e

/-- The counters of the buckets, 16 bytes each. -/
inductive BucketCounts : Bytes → List Str → Prop
  | done (b) : b.length < 16 → BucketCounts b []
  | more (p n r a b ts) : p < 2 ^ 64 → n < 2 ^ 64 → Count t!"packet_count" p a → Count t!"byte_count" n b →
      BucketCounts r ts → BucketCounts (u64 p ++ (u64 n ++ r)) (t!"@bucket" :: (a ++ (b ++ ts)))

/-- The line for the first entry of group statistics. -/
inductive GroupStatPrinted : Bytes → Str → Prop
  | mk (len x gid ref y packets bytes sec nsec r g a b c d e ts) : len < 65536 → 40 ≤ len → x.length = 2 →
      gid < 2 ^ 32 → ref < 2 ^ 32 → y.length = 4 → packets < 2 ^ 64 → bytes < 2 ^ 64 → sec < 2 ^ 32 → nsec < 2 ^ 32 →
      GidPrinted gid g → Count t!"ref_count" ref a → Count t!"packet_count" packets b → Count t!"byte_count" bytes c →
      Count t!"duration_sec" sec d → Count t!"duration_nsec" nsec e → BucketCounts (r.take (len - 40)) ts →
      GroupStatPrinted (u16 len ++ (x ++ (u32 gid ++ (u32 ref ++ (y ++ (u64 packets ++ (u64 bytes ++ (u32 sec ++
        (u32 nsec ++ r))))))))) (g.flatMap (· ++ t!" ") ++ joinStr t!"," (a ++ (b ++ (c ++ (d ++ (e ++ ts))))))

inductive GroupStatFails : Bytes → Err → Prop
  | len (len r) : len < 40 → GroupStatFails (u16 len ++ r) .assertionError

/-- The lines for one message: `kind` is its multipart type; `R` is for the body of a reply (type 19), as long as the
message says, `S` for what follows the header of another message, and the length. -/
inductive MpPrinted (kind : Nat) (R : Bytes → List Str → Prop) (S : Nat → Bytes → List Str → Prop) : Bytes → List Str → Prop
  | reply (v : UInt8) (len x y r rows) : len < 65536 → x.length = 4 → y.length = 6 → R (r.take (len - 16)) rows →
      MpPrinted kind R S (v :: 19 :: (u16 len ++ (x ++ (u16 kind ++ (y ++ r))))) rows
  | other (v t : UInt8) (len x y r rows) : t ≠ 19 → len < 65536 → x.length = 4 → y.length = 6 →
      S len r rows → MpPrinted kind R S (v :: t :: (u16 len ++ (x ++ (u16 kind ++ (y ++ r))))) rows

inductive MpFails (kind : Nat) (R : Bytes → Err → Prop) (S : Nat → Bytes → Err → Prop) : Bytes → Err → Prop
  | short (b) : b.length < 16 → MpFails kind R S b .structError
  | kind (x k r) : x.length = 8 → 6 ≤ r.length → k < 65536 → k ≠ kind → MpFails kind R S (x ++ (u16 k ++ r)) .assertionError
  | reply (v : UInt8) (len x y r e) : len < 65536 → x.length = 4 → y.length = 6 → R (r.take (len - 16)) e →
      MpFails kind R S (v :: 19 :: (u16 len ++ (x ++ (u16 kind ++ (y ++ r))))) e
  | other (v t : UInt8) (len x y r e) : t ≠ 19 → len < 65536 → x.length = 4 → y.length = 6 →
      S len r e → MpFails kind R S (v :: t :: (u16 len ++ (x ++ (u16 kind ++ (y ++ r))))) e

/-- Messages one after the other, each cut to its length. -/
def MsgsPrinted (P : Bytes → List Str → Prop) (b : Bytes) (rows : List (List Str)) : Prop :=
  Parts 1 lenField (fun b rows => 8 ≤ b.length ∧ P (b.take (lenField b)) rows) b rows
def MsgsFail (P : Bytes → List Str → Prop) (F : Bytes → Err → Prop) (b : Bytes) (e : Err) : Prop :=
  PartsFail 1 lenField (fun b rows => 8 ≤ b.length ∧ P (b.take (lenField b)) rows)
    (fun b e => (b.length < 8 ∧ e = .structError) ∨ (8 ≤ b.length ∧ F (b.take (lenField b)) e)) b e

/-- No request for flow statistics has a text. -/
inductive FlowReqFails : Bytes → Err → Prop
  | short (b) : b.length < 36 → FlowReqFails b .structError
  | mtype (x t r) : x.length = 32 → 2 ≤ r.length → t < 65536 → t ≠ 1 → FlowReqFails (x ++ (u16 t ++ r)) .valueError
  | mtch (x l r e) : x.length = 32 → l < 65536 → MatchFails (r.take (l - 4)) e → FlowReqFails (x ++ (u16 1 ++ (u16 l ++ r))) e
  | row (x l r ss) : x.length = 32 → l < 65536 → MatchShown (r.take (l - 4)) ss →
      FlowReqFails (x ++ (u16 1 ++ (u16 l ++ r))) .typeError

/-- A request for group statistics. -/
inductive GroupReqPrinted : Bytes → List Str → Prop
  | all (r) : 4 ≤ r.length → GroupReqPrinted (u32 0xfffffffc ++ r) []
  | any (r) : 4 ≤ r.length → GroupReqPrinted (u32 0xffffffff ++ r) [t!"group=any"]
  | num (n r s) : 4 ≤ r.length → n < 2 ^ 32 → n ≠ 0xfffffffc → n ≠ 0xffffffff → Decimal s n →
      GroupReqPrinted (u32 n ++ r) [t!"group=" ++ s]

/-- The lines for one message of flow statistics. -/
def FlowMsg : Bytes → List Str → Prop := MpPrinted 1 (Parts 56 (word16 · 0) FlowStatPrinted) (fun _ _ _ => False)
def FlowMsgFails : Bytes → Err → Prop := MpFails 1 (PartsFail 56 (word16 · 0) FlowStatPrinted FlowStatFails)
  (fun len r e => FlowReqFails (r.take (len - 16)) e)

/-- The lines for one message of group descriptions; none for a request. -/
def DescMsg : Bytes → List Str → Prop := MpPrinted 7 (Parts 8 (word16 · 0) DescPrinted) (fun _ _ rows => rows = [])
def DescMsgFails : Bytes → Err → Prop := MpFails 7 (PartsFail 8 (word16 · 0) DescPrinted DescFails) (fun _ _ _ => False)

/-- The lines for one message of group statistics. -/
def GroupMsg : Bytes → List Str → Prop := MpPrinted 6 (Parts 40 (word16 · 0) GroupStatPrinted) (fun _ r rows => GroupReqPrinted r rows)
def GroupMsgFails : Bytes → Err → Prop := MpFails 6 (PartsFail 40 (word16 · 0) GroupStatPrinted GroupStatFails)
  (fun _ r e => r.length < 8 ∧ e = .structError)

end Ofpstr.Spec
