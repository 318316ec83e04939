import Verif.Spec.Action

/-!
# Specification: flow rules

The words of a rule, what a list of words means, and `struct ofp_flow_mod` of OpenFlow 1.3 (A.3.4.1).
The two parts that are specified elsewhere, match items and actions, are parameters: `oxm u b l` says
that the text `u` starts with a match item of `l` characters and the bytes `b`, `act` the same for
actions.
-/

namespace Ofpstr.Spec

/-- `Tok s h b r`: the text `s` is the separator text `h`, the token `b` and the rest `r`. -/
def Tok (s h b r : Str) : Prop :=
  s = h ++ (b ++ r) ∧ HeadOf s h ∧ ((Token b ∧ Boundary r) ∨ (OpenToken b ∧ r = []))

/-! ## Words -/

/-- The keys that take a number. -/
inductive FKey where
  | table | priority | idle | hard | buffer | outPort | outGroup
  deriving DecidableEq

def FKey.name : FKey → Str
  | .table => t!"table"
  | .priority => t!"priority"
  | .idle => t!"idle_timeout"
  | .hard => t!"hard_timeout"
  | .buffer => t!"buffer"
  | .outPort => t!"out_port"
  | .outGroup => t!"out_group"

/-- The reserved group numbers. -/
def reservedGroups : List (Nat × Str) := [(0xffffff00, t!"max"), (0xfffffffc, t!"all"), (0xffffffff, t!"any")]

/-- How a group is written: a reserved name or a number. -/
inductive GroupText : Str → Int → Prop
  | name (n : Nat) (s : Str) : (n, s) ∈ reservedGroups → GroupText s n
  | num (s : Str) (v : Int) : IntSyntax s v s.length → GroupText s v

/-- The bytes of the number in the message. -/
def FKey.size : FKey → Nat
  | .table => 1
  | .priority => 2
  | .idle => 2
  | .hard => 2
  | .buffer => 4
  | .outPort => 4
  | .outGroup => 4

def FKey.Arg : FKey → Str → Int → Prop
  | .outPort, p, n => PortText p n
  | .outGroup, p, n => GroupText p n
  | _, p, n => IntSyntax p n p.length

/-- The flag words and their bits (`enum ofp_flow_mod_flags`). -/
def flagWords : List (Str × Nat) := [(t!"send_flow_rem", 0), (t!"check_overlap", 1), (t!"reset_counts", 2),
  (t!"no_pkt_counts", 3), (t!"no_byt_counts", 4)]

/-- The words with a fixed meaning before the first instruction. -/
def matchKeys : List Str := [t!"table", t!"priority", t!"idle_timeout", t!"hard_timeout", t!"buffer",
  t!"send_flow_rem", t!"check_overlap", t!"reset_counts", t!"no_pkt_counts", t!"no_byt_counts",
  t!"cookie", t!"out_port", t!"out_group"]

/-- The instruction words. -/
def instNames : List Str := [t!"@goto", t!"@goto_table", t!"@metadata", t!"@write_metadata", t!"@apply",
  t!"@apply_actions", t!"@write", t!"@write_actions", t!"@clear", t!"@clear_actions", t!"@meter"]

/-- A word of a rule. -/
inductive Word where
  | key (k : FKey) (n : Int)
  | cookie (n : Int) (mask : Option Int)
  | flag (bit : Nat)
  | oxm (b : Bytes)
  | goto (n : Int)
  | metadata (n mask : Int)
  | apply
  | write
  | clear
  | meter (n : Int)
  | act (b : Bytes)
  deriving DecidableEq

/-- `Body oxm act name s w r`: the token `name` and the text `s` after it start with the word `w`,
`r` is what is left. -/
inductive Body (oxm act : Str → Bytes → Nat → Prop) : Str → Str → Word → Str → Prop
  | key (k s op p n r) : Tok s op p r → '=' ∈ op → k.Arg p n → Body oxm act k.name s (.key k n) r
  | cookie (s op p n r) : Tok s op p r → '=' ∈ op → IntSyntax p n p.length →
      Body oxm act t!"cookie" s (.cookie n none) r
  | cookieMask (s op v m n w l r) : Tok s op (v ++ '/' :: m) r → '=' ∈ op → IntSyntax v n v.length →
      IntSyntax m w l → Body oxm act t!"cookie" s (.cookie n (some w)) r
  | flag (name bit s) : (name, bit) ∈ flagWords → Body oxm act name s (.flag bit) s
  | oxm (name s b l) : name ∉ matchKeys → name.head? ≠ some '@' → oxm (name ++ s) b l → l ≠ 0 →
      Body oxm act name s (.oxm b) ((name ++ s).drop l)
  | goto (name s op p n r) : name ∈ [t!"@goto", t!"@goto_table"] → Tok s op p r → '=' ∈ op →
      IntSyntax p n p.length → Body oxm act name s (.goto n) r
  | metadata (name s op p n r) : name ∈ [t!"@metadata", t!"@write_metadata"] → Tok s op p r → '=' ∈ op →
      IntSyntax p n p.length → Body oxm act name s (.metadata n 0) r
  | metadataMask (name s op v m n w r) : name ∈ [t!"@metadata", t!"@write_metadata"] →
      Tok s op (v ++ '/' :: m) r → '=' ∈ op → IntSyntax v n v.length → IntSyntax m w m.length →
      Body oxm act name s (.metadata n w) r
  | apply (name s) : name ∈ [t!"@apply", t!"@apply_actions"] → Body oxm act name s .apply s
  | write (name s) : name ∈ [t!"@write", t!"@write_actions"] → Body oxm act name s .write s
  | clear (name s) : name ∈ [t!"@clear", t!"@clear_actions"] → Body oxm act name s .clear s
  | meter (s op p n r) : Tok s op p r → '=' ∈ op → IntSyntax p n p.length →
      Body oxm act t!"@meter" s (.meter n) r
  | act (name s b l) : name.head? ≠ some '@' → act (name ++ s) b l → l ≠ 0 →
      Body oxm act name s (.act b) ((name ++ s).drop l)

/-- `ReadsWords oxm act ws s r`: the text `s` starts with the words `ws`, `r` is what is left. -/
inductive ReadsWords (oxm act : Str → Bytes → Nat → Prop) : List Word → Str → Str → Prop
  | nil (s) : ReadsWords oxm act [] s s
  | cons (s h name t w u ws r) : s ≠ [] → Tok s h name t → '=' ∉ h → Body oxm act name t w u →
      ReadsWords oxm act ws u r → ReadsWords oxm act (w :: ws) s r

/-- Where a word stands: before the first instruction, after `@apply` or `@write` and its actions,
after another instruction. -/
inductive Place where
  | start | acts | done
  deriving DecidableEq

/-- The place after a word; none if the word must not stand there. -/
def Word.next : Word → Place → Option Place
  | .key _ _, .start => some .start
  | .cookie _ _, .start => some .start
  | .flag _, .start => some .start
  | .oxm _, .start => some .start
  | .act _, .acts => some .acts
  | .apply, _ => some .acts
  | .write, _ => some .acts
  | .goto _, _ => some .done
  | .metadata _ _, _ => some .done
  | .clear, _ => some .done
  | .meter _, _ => some .done
  | _, _ => none

/-- The place after the words, none if one of them stands in the wrong place. -/
def placeAfter : Place → List Word → Option Place
  | p, [] => some p
  | p, w :: ws => match w.next p with
    | some q => placeAfter q ws
    | none => none

/-! ## Instructions -/

/-- An instruction. -/
inductive Inst where
  | goto (n : Int)
  | metadata (n mask : Int)
  | write (actions : Bytes)
  | apply (actions : Bytes)
  | clear
  | meter (n : Int)
  deriving DecidableEq

/-- The number fits into `k` bytes. -/
def FitsIn (k : Nat) (n : Int) : Prop := 0 ≤ n ∧ n < (256 ^ k : Nat)

instance (k : Nat) (n : Int) : Decidable (FitsIn k n) := by unfold FitsIn; infer_instance

def Inst.wire : Inst → Bytes
  | .goto n => u16 1 ++ (u16 8 ++ (u8 n.toNat ++ pad 3))
  | .metadata n m => u16 2 ++ (u16 24 ++ (pad 4 ++ (u64 n.toNat ++ u64 m.toNat)))
  | .write a => u16 3 ++ (u16 (8 + a.length) ++ (pad 4 ++ a))
  | .apply a => u16 4 ++ (u16 (8 + a.length) ++ (pad 4 ++ a))
  | .clear => u16 5 ++ (u16 8 ++ pad 4)
  | .meter n => u16 6 ++ (u16 8 ++ u32 n.toNat)

def Inst.Fits : Inst → Prop
  | .goto n => FitsIn 1 n
  | .metadata n m => FitsIn 8 n ∧ FitsIn 8 m
  | .write a => 8 + a.length < 65536
  | .apply a => 8 + a.length < 65536
  | .clear => True
  | .meter n => FitsIn 4 n

/-- The actions at the start of the words. -/
def leading : List Word → Bytes
  | .act b :: ws => b ++ leading ws
  | _ => []

/-- The instructions of the words, each `@apply` and `@write` with the actions right after it. -/
def instsOf : List Word → List Inst
  | [] => []
  | .goto n :: ws => .goto n :: instsOf ws
  | .metadata n m :: ws => .metadata n m :: instsOf ws
  | .apply :: ws => .apply (leading ws) :: instsOf ws
  | .write :: ws => .write (leading ws) :: instsOf ws
  | .clear :: ws => .clear :: instsOf ws
  | .meter n :: ws => .meter n :: instsOf ws
  | _ :: ws => instsOf ws

/-! ## The other fields -/

def Word.keyArg (k : FKey) : Word → Option Int
  | .key k' n => if k' = k then some n else none
  | _ => none

def Word.cookieArg : Word → Option Int
  | .cookie n _ => some n
  | _ => none

def Word.maskArg : Word → Option Int
  | .cookie _ m => m
  | _ => none

def Word.oxmBytes : Word → Bytes
  | .oxm b => b
  | _ => []

/-- The last value among the words. -/
def lastOf (f : Word → Option Int) (ws : List Word) : Option Int := (ws.filterMap f).getLast?

/-- The flags: the sum of the bits that occur. -/
def flagsOf (ws : List Word) : Nat :=
  ((List.range 5).map fun i => if .flag i ∈ ws then 2 ^ i else 0).sum

/-! ## The message -/

/-- The numbers in a flow-mod. -/
structure FlowHead where
  xid : Int
  command : Int
  cookie : Int
  cookieMask : Int
  table : Int
  idle : Int
  hard : Int
  priority : Int
  buffer : Int
  outPort : Int
  outGroup : Int
  flags : Int
  deriving DecidableEq

/-- Match: type OXM, length, the TLVs, zero bytes up to a multiple of eight. -/
def matchWire (oxm : Bytes) : Bytes := u16 1 ++ (u16 (4 + oxm.length) ++ (oxm ++ fill (4 + oxm.length)))

/-- The message after its first eight bytes. -/
def FlowHead.body (h : FlowHead) (oxm inst : Bytes) : Bytes :=
  u64 h.cookie.toNat ++ (u64 h.cookieMask.toNat ++ (u8 h.table.toNat ++ (u8 h.command.toNat ++
  (u16 h.idle.toNat ++ (u16 h.hard.toNat ++ (u16 h.priority.toNat ++ (u32 h.buffer.toNat ++
  (u32 h.outPort.toNat ++ (u32 h.outGroup.toNat ++ (u16 h.flags.toNat ++ (pad 2 ++
  (matchWire oxm ++ inst))))))))))))

/-- An OpenFlow 1.3 message: version, type, length of the whole, xid, the rest. -/
def message (type : Nat) (xid : Nat) (body : Bytes) : Bytes :=
  u8 4 ++ (u8 type ++ (u16 (8 + body.length) ++ (u32 xid ++ body)))

/-- `struct ofp_flow_mod`. -/
def FlowHead.wire (h : FlowHead) (oxm inst : Bytes) : Bytes := message 14 h.xid.toNat (h.body oxm inst)

def FlowHead.Fits (h : FlowHead) : Prop :=
  FitsIn 4 h.xid ∧ FitsIn 1 h.command ∧ FitsIn 8 h.cookie ∧ FitsIn 8 h.cookieMask ∧ FitsIn 1 h.table ∧
  FitsIn 2 h.idle ∧ FitsIn 2 h.hard ∧ FitsIn 2 h.priority ∧ FitsIn 4 h.buffer ∧ FitsIn 4 h.outPort ∧
  FitsIn 4 h.outGroup ∧ FitsIn 2 h.flags

/-- What a command starts with before the text says anything: `OFPFC_DELETE` (3) and
`OFPFC_DELETE_STRICT` (4) concern all tables, any port and any group; the others concern table 0 and
no buffered packet. -/
def defaults (command xid : Int) : FlowHead :=
  if command = 3 ∨ command = 4 then
    ⟨xid, command, 0, 0, 255, 0, 0, 0x8000, 0, 0xffffffff, 0xffffffff, 0⟩
  else ⟨xid, command, 0, 0, 0, 0, 0, 0x8000, 0xffffffff, 0, 0, 0⟩

/-- The numbers that the words set. -/
def headOf (command xid : Int) (ws : List Word) : FlowHead :=
  let d := defaults command xid
  ⟨xid, command, (lastOf Word.cookieArg ws).getD d.cookie, (lastOf Word.maskArg ws).getD d.cookieMask,
    (lastOf (Word.keyArg .table) ws).getD d.table, (lastOf (Word.keyArg .idle) ws).getD d.idle,
    (lastOf (Word.keyArg .hard) ws).getD d.hard, (lastOf (Word.keyArg .priority) ws).getD d.priority,
    (lastOf (Word.keyArg .buffer) ws).getD d.buffer, (lastOf (Word.keyArg .outPort) ws).getD d.outPort,
    (lastOf (Word.keyArg .outGroup) ws).getD d.outGroup, flagsOf ws⟩

/-- The match and instruction bytes of the words. -/
def oxmOf (ws : List Word) : Bytes := ws.flatMap Word.oxmBytes
def instBytes (ws : List Word) : Bytes := (instsOf ws).flatMap Inst.wire

/-- The message that the words stand for. -/
def flowOf (command xid : Int) (ws : List Word) : Bytes :=
  (headOf command xid ws).wire (oxmOf ws) (instBytes ws)

/-- All numbers fit their places. -/
def FlowFits (command xid : Int) (ws : List Word) : Prop :=
  (headOf command xid ws).Fits ∧ (∀ i ∈ instsOf ws, i.Fits) ∧
  8 + ((headOf command xid ws).body (oxmOf ws) (instBytes ws)).length < 65536

/-! ## Texts -/

/-- The texts with commas between them. -/
def commaList : List Str → Str
  | [] => []
  | [t] => t
  | t :: u :: ts => t ++ ',' :: commaList (u :: ts)

/-- The text `t` is the word `w` wherever it stands between separators. -/
def IsWord (oxm act : Str → Bytes → Nat → Prop) (w : Word) (t : Str) : Prop :=
  t ≠ [] ∧ ∀ h r, (∀ c ∈ h, Space c ∨ c = ',') → Boundary r →
    ∃ name u, Tok (h ++ (t ++ r)) h name u ∧ Body oxm act name u w r

/-- How the keys and flags are written. -/
inductive KeyText : Word → Str → Prop
  | key (k p n) : k.Arg p n → KeyText (.key k n) (k.name ++ '=' :: p)
  | cookie (p n) : IntSyntax p n p.length → KeyText (.cookie n none) (t!"cookie=" ++ p)
  | cookieMask (v m n w) : IntSyntax v n v.length → IntSyntax m w m.length →
      KeyText (.cookie n (some w)) (t!"cookie=" ++ (v ++ '/' :: m))
  | flag (name bit) : (name, bit) ∈ flagWords → KeyText (.flag bit) name

/-- How an instruction is written: its word, and the texts of its actions. -/
inductive InstText (oxm act : Str → Bytes → Nat → Prop) : Inst → List Str → Prop
  | goto (name p n) : name ∈ [t!"@goto", t!"@goto_table"] → IntSyntax p n p.length →
      InstText oxm act (.goto n) [name ++ '=' :: p]
  | metadata (name p n) : name ∈ [t!"@metadata", t!"@write_metadata"] → IntSyntax p n p.length →
      InstText oxm act (.metadata n 0) [name ++ '=' :: p]
  | metadataMask (name v m n w) : name ∈ [t!"@metadata", t!"@write_metadata"] → IntSyntax v n v.length →
      IntSyntax m w m.length → InstText oxm act (.metadata n w) [name ++ '=' :: (v ++ '/' :: m)]
  | apply (name) (as : List (Bytes × Str)) : name ∈ [t!"@apply", t!"@apply_actions"] →
      (∀ a ∈ as, IsWord oxm act (.act a.1) a.2) → InstText oxm act (.apply (as.flatMap (·.1))) (name :: as.map (·.2))
  | write (name) (as : List (Bytes × Str)) : name ∈ [t!"@write", t!"@write_actions"] →
      (∀ a ∈ as, IsWord oxm act (.act a.1) a.2) → InstText oxm act (.write (as.flatMap (·.1))) (name :: as.map (·.2))
  | clear (name) : name ∈ [t!"@clear", t!"@clear_actions"] → InstText oxm act .clear [name]
  | meter (p n) : IntSyntax p n p.length → InstText oxm act (.meter n) [t!"@meter" ++ '=' :: p]

/-- The two words can change places: they are keys for different numbers, or flags, or one of them is a
match item. -/
def Indep : Word → Word → Prop
  | .key k _, .key k' _ => k ≠ k'
  | .cookie .., .cookie .. => False
  | .oxm _, .oxm _ => False
  | _, _ => True

/-- The second list comes from the first by exchanging independent neighbours: a permutation that
keeps the order of any two words that are not independent. -/
inductive Reorder : List (Word × Str) → List (Word × Str) → Prop
  | refl (l) : Reorder l l
  | swap (l a b r) : Indep a.1 b.1 → Reorder (l ++ a :: b :: r) (l ++ b :: a :: r)
  | trans (l m n) : Reorder l m → Reorder m n → Reorder l n

/-- The names of the actions, apart from `set_…`. -/
def actNames : List Str := t!"output" :: (stdActs.map (·.name) ++ nxActs.map (·.1))

/-- The word stands before the instructions. -/
def StartWord : Word → Prop
  | .key .. => True
  | .cookie .. => True
  | .flag .. => True
  | .oxm .. => True
  | _ => False

/-! ## Flow-mods with structure -/

/-- An instruction with structured actions. -/
inductive FInst where
  | goto (table : Nat)
  | metadata (value mask : Nat)
  | write (actions : List Act)
  | apply (actions : List Act)
  | clear
  | meter (id : Nat)
  deriving DecidableEq

/-- The instruction without the structure of its actions. -/
def FInst.inst : FInst → Inst
  | .goto n => .goto n
  | .metadata n m => .metadata n m
  | .write as => .write (as.flatMap Act.wire)
  | .apply as => .apply (as.flatMap Act.wire)
  | .clear => .clear
  | .meter n => .meter n

def FInst.actions : FInst → List Act
  | .write as => as
  | .apply as => as
  | _ => []

/-- A well-formed instruction: numbers that fit, well-formed actions, a multiple of eight bytes. -/
def FInst.Valid (i : FInst) : Prop :=
  i.inst.Fits ∧ (∀ a ∈ i.actions, a.Valid) ∧ 8 ∣ (i.actions.flatMap Act.wire).length

/-- A flow-mod. -/
structure FlowMod where
  head : FlowHead
  mtch : List Tlv
  insts : List FInst

def FlowMod.wire (m : FlowMod) : Bytes :=
  m.head.wire (m.mtch.flatMap Tlv.wire) (m.insts.flatMap fun i => i.inst.wire)

/-- A well-formed flow-mod. -/
def FlowMod.Valid (m : FlowMod) : Prop :=
  m.head.Fits ∧ (∀ t ∈ m.mtch, t.Valid) ∧ (∀ i ∈ m.insts, i.Valid) ∧ m.wire.length < 65536

/-- The match items and actions survive printing. -/
def FlowMod.PartsLossless (m : FlowMod) : Prop :=
  (∀ t ∈ m.mtch, t.Lossless) ∧ ∀ i ∈ m.insts, ∀ a ∈ i.actions, a.Lossless

/-- The flow-mods that survive printing: the flags are the five of OpenFlow 1.3, and the match items
and actions survive. -/
def FlowMod.Lossless (m : FlowMod) : Prop := m.head.flags < 32 ∧ m.PartsLossless

/-- The flow-mod with the flags of OpenFlow 1.3 only. -/
def FlowMod.knownFlags (m : FlowMod) : FlowMod := { m with head := { m.head with flags := m.head.flags % 32 } }

end Ofpstr.Spec
