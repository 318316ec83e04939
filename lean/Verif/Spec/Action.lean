import Verif.Spec.Oxm

/-!
# Specification: actions

The standard actions follow the structures of the OpenFlow 1.3 specification (A.2.5), the Nicira
actions those of `nicira-ext.h` of Open vSwitch as far as the library follows them.
-/

namespace Ofpstr.Spec

/-- What stands after type and length of an action of eight bytes. -/
inductive ActArg where
  /-- four pad bytes -/
  | none
  /-- one byte and three pad bytes -/
  | ttl
  /-- four bytes -/
  | word
  /-- two bytes and two pad bytes -/
  | ether
  deriving DecidableEq, Repr

/-- The number of bytes of the argument. -/
def ActArg.size : ActArg → Nat
  | .none => 0
  | .ttl => 1
  | .word => 4
  | .ether => 2

def ActArg.body : ActArg → Nat → Bytes
  | .none, _ => pad 4
  | .ttl, n => u8 n ++ pad 3
  | .word, n => u32 n
  | .ether, n => u16 n ++ pad 2

/-- An action of eight bytes. -/
structure StdAct where
  name : Str
  type : Nat
  arg : ActArg
  deriving DecidableEq, Repr

/-- The standard actions but `output` and `set_field`. -/
def stdActs : List StdAct := [
  ⟨t!"copy_ttl_out", 11, .none⟩, ⟨t!"copy_ttl_in", 12, .none⟩, ⟨t!"set_mpls_ttl", 15, .ttl⟩,
  ⟨t!"dec_mpls_ttl", 16, .none⟩, ⟨t!"push_vlan", 17, .ether⟩, ⟨t!"pop_vlan", 18, .none⟩,
  ⟨t!"push_mpls", 19, .ether⟩, ⟨t!"pop_mpls", 20, .ether⟩, ⟨t!"set_queue", 21, .word⟩,
  ⟨t!"group", 22, .word⟩, ⟨t!"set_nw_ttl", 23, .ttl⟩, ⟨t!"dec_nw_ttl", 24, .none⟩,
  ⟨t!"push_pbb", 26, .ether⟩, ⟨t!"pop_pbb", 27, .none⟩]

def StdAct.wire (a : StdAct) (n : Nat) : Bytes := u16 a.type ++ (u16 8 ++ a.arg.body n)

/-- `struct ofp_action_output`. -/
def outputWire (port maxLen : Nat) : Bytes :=
  u16 0 ++ (u16 16 ++ (u32 port ++ (u16 maxLen ++ pad 6)))

/-- The zero bytes that bring `n` bytes to a multiple of eight. -/
def fill (n : Nat) : Bytes := pad ((8 - n % 8) % 8)

/-- `struct ofp_action_set_field`. -/
def setFieldWire (oxm : Bytes) : Bytes :=
  u16 25 ++ (u16 (4 + oxm.length + (fill (4 + oxm.length)).length) ++ (oxm ++ fill (4 + oxm.length)))

/-- How a port is written: a reserved name or a number. -/
inductive PortText : Str → Int → Prop
  | name (n : Nat) (s : Str) : (n, s) ∈ reservedPorts → PortText s n
  | num (s : Str) (v : Int) : IntSyntax s v s.length → PortText s v

/-- The names of the Nicira actions and their sub-types. -/
def nxActs : List (Str × Nat) := [(t!"resubmit", 1), (t!"set_tunnel", 2), (t!"pop_queue", 5),
  (t!"reg_move", 6), (t!"reg_load", 7), (t!"note", 8), (t!"set_tunnel64", 9), (t!"multipath", 10),
  (t!"bundle", 12), (t!"bundle_load", 13), (t!"resubmit_table", 14), (t!"output_reg", 15),
  (t!"learn", 16), (t!"exit", 17), (t!"cnt_ids", 21), (t!"output_reg2", 32), (t!"reg_load2", 33)]

/-- A Nicira action without padding. -/
def nxRaw (subtype : Nat) (body : Bytes) : Bytes :=
  u16 0xffff ++ (u16 (10 + body.length) ++ (u32 0x2320 ++ (u16 subtype ++ body)))

/-- A Nicira action: the body is padded with zero bytes to a multiple of eight bytes in all. -/
def nxWire (subtype : Nat) (body : Bytes) : Bytes := nxRaw subtype (body ++ fill (10 + body.length))

example : nxWire 17 [] = [255, 255, 0, 16, 0, 0, 0x23, 0x20, 0, 17, 0, 0, 0, 0, 0, 0] := by decide

/-- An action of type `t`: type, the length of the whole action, the rest. -/
def ActHead (t : Nat) (b : Bytes) : Prop :=
  t < 65536 ∧ b.length < 65536 ∧ ∃ body, b = u16 t ++ (u16 b.length ++ body)

/-- A Nicira action of that sub-type. -/
def NxHead (subtype : Nat) (b : Bytes) : Prop :=
  b.length < 65536 ∧ ∃ body, b = u16 0xffff ++ (u16 b.length ++ (u32 0x2320 ++ (u16 subtype ++ body)))

/-- The type and the length in the header of an action or instruction. -/
def typeField (b : Bytes) : Nat := (b.getD 0 0).toNat * 256 + (b.getD 1 0).toNat
def lenField (b : Bytes) : Nat := (b.getD 2 0).toNat * 256 + (b.getD 3 0).toNat

/-- Going through `b` by the length fields of its actions, none of them is zero. -/
inductive LenWalk : Bytes → Prop
  | done (b) : b.length ≤ 4 → LenWalk b
  | step (b) : 4 < b.length → lenField b ≠ 0 → LenWalk (b.drop (lenField b)) → LenWalk b

/-- The same for instructions and the actions in those of type 3 (write) and 4 (apply). -/
inductive InstWalk : Bytes → Prop
  | done (b) : b.length ≤ 4 → InstWalk b
  | step (b) : 4 < b.length → lenField b ≠ 0 →
      (typeField b = 3 ∨ typeField b = 4 → LenWalk ((b.take (lenField b)).drop 8)) →
      InstWalk (b.drop (lenField b)) → InstWalk b

/-! ## All actions -/

/-- The OXM id (header) of a field of fixed size. -/
def Field.id (f : Field) : Bytes := f.header false (f.kind.size.getD 0)

/-- The number of bits of a field of fixed size. -/
def Field.bits (f : Field) : Nat := 8 * f.kind.size.getD 0

/-- Offset and width of a bit range in one word. -/
def ofsNbits (ofs nbits : Nat) : Nat := ofs * 64 + (nbits - 1)

/-- Where a `learn` specification takes its bits from. -/
inductive LearnFrom where
  | field (f : Field) (ofs : Nat)
  | imm (value : Nat)
  deriving DecidableEq

/-- One `flow_mod_spec` of `learn`: match or load `nbits` bits of `dst`. -/
structure LearnItem where
  load : Bool
  src : LearnFrom
  dst : Field
  dstOfs : Nat
  nbits : Nat
  deriving DecidableEq

def LearnFrom.wire (nbits : Nat) : LearnFrom → Bytes
  | .field f ofs => f.id ++ u16 ofs
  | .imm v => be ((nbits + 15) / 16 * 2) v

def LearnFrom.flag : LearnFrom → Nat
  | .field _ _ => 0
  | .imm _ => 1

def LearnItem.wire (i : LearnItem) : Bytes :=
  u16 (i.src.flag * 4096 + (if i.load then 1024 else 0) + i.nbits) ++
    (i.src.wire i.nbits ++ (i.dst.id ++ u16 i.dstOfs))

/-- The fixed fields of `learn`. -/
structure LearnFixed where
  idle : Nat := 0
  hard : Nat := 0
  priority : Nat := 0
  cookie : Nat := 0
  flags : Nat := 0
  table : Nat := 0
  finIdle : Nat := 0
  finHard : Nat := 0
  deriving DecidableEq

def LearnFixed.wire (l : LearnFixed) : Bytes :=
  u16 l.idle ++ (u16 l.hard ++ (u16 l.priority ++ (u64 l.cookie ++ (u16 l.flags ++ (u8 l.table ++
    (pad 1 ++ (u16 l.finIdle ++ u16 l.finHard)))))))

/-- An action. -/
inductive Act where
  | output (port maxLen : Nat)
  | std (a : StdAct) (n : Nat)
  | setField (t : Tlv)
  | resubmit (port : Nat)
  | resubmitTable (port table : Nat)
  | setTunnel (id : Nat)
  | setTunnel64 (id : Nat)
  | popQueue
  | exit
  | note (b : Bytes)
  | cntIds (ids : List Nat)
  | regLoad (f : Field) (ofs nbits value : Nat)
  | regLoad2 (t : Tlv)
  | regMove (src : Field) (srcOfs : Nat) (dst : Field) (dstOfs nbits : Nat)
  | multipath (hash basis alg maxLink arg : Nat) (dst : Field) (ofs nbits : Nat)
  | bundle (hash basis alg : Nat) (slaveType : Field) (slaves : List Nat)
  | bundleLoad (hash basis alg : Nat) (slaveType dst : Field) (ofs nbits : Nat) (slaves : List Nat)
  | outputReg (src : Field) (ofs nbits maxLen : Nat)
  | outputReg2 (src : Field) (ofs nbits maxLen : Nat)
  | learn (fixed : LearnFixed) (specs : List LearnItem)
  deriving DecidableEq

/-- The bytes of an action.  The two tunnel actions have their number right after the sub-type, as
the library has it; `nicira-ext.h` has pad bytes before it. -/
def Act.wire : Act → Bytes
  | .output port maxLen => outputWire port maxLen
  | .std a n => a.wire n
  | .setField t => setFieldWire t.wire
  | .resubmit port => nxWire 1 (u16 port ++ u8 0xff)
  | .resubmitTable port table => nxWire 14 (u16 port ++ u8 table)
  | .setTunnel id => nxWire 2 (u32 id)
  | .setTunnel64 id => nxWire 9 (u64 id)
  | .popQueue => nxWire 5 []
  | .exit => nxWire 17 []
  | .note b => nxRaw 8 b
  | .cntIds ids => nxWire 21 (u16 ids.length ++ (pad 4 ++ ids.flatMap u16))
  | .regLoad f ofs nbits value => nxWire 7 (u16 (ofsNbits ofs nbits) ++ (f.id ++ u64 value))
  | .regLoad2 t => nxWire 33 t.wire
  | .regMove src srcOfs dst dstOfs nbits =>
    nxWire 6 (u16 nbits ++ (u16 srcOfs ++ (u16 dstOfs ++ (src.id ++ dst.id))))
  | .multipath hash basis alg maxLink arg dst ofs nbits =>
    nxWire 10 (u16 hash ++ (u16 basis ++ (pad 2 ++ (u16 alg ++ (u16 maxLink ++ (u32 arg ++ (pad 2 ++
      (u16 (ofsNbits ofs nbits) ++ dst.id))))))))
  | .bundle hash basis alg slaveType slaves =>
    nxWire 12 (u16 alg ++ (u16 hash ++ (u16 basis ++ (slaveType.id ++ (u16 slaves.length ++ (pad 10 ++
      slaves.flatMap u16))))))
  | .bundleLoad hash basis alg slaveType dst ofs nbits slaves =>
    nxWire 13 (u16 alg ++ (u16 hash ++ (u16 basis ++ (slaveType.id ++ (u16 slaves.length ++
      (u16 (ofsNbits ofs nbits) ++ (dst.id ++ (pad 4 ++ slaves.flatMap u16))))))))
  | .outputReg src ofs nbits maxLen =>
    nxWire 15 (u16 (ofsNbits ofs nbits) ++ (src.id ++ (u16 maxLen ++ pad 6)))
  | .outputReg2 src ofs nbits maxLen =>
    nxWire 32 (u16 (ofsNbits ofs nbits) ++ (u16 maxLen ++ src.id))
  | .learn fixed specs => nxWire 16 (fixed.wire ++ specs.flatMap LearnItem.wire)

/-- A non-empty bit range within a field of fixed size. -/
def Range (f : Field) (ofs nbits : Nat) : Prop :=
  f ∈ fields ∧ f.kind.size ≠ none ∧ 0 < nbits ∧ ofs + nbits ≤ f.bits

/-- A well-formed `learn` specification. -/
def LearnItem.Valid (i : LearnItem) : Prop :=
  Range i.dst i.dstOfs i.nbits ∧ i.dst.experimenter = false ∧
  match i.src with
  | .field f ofs => Range f ofs i.nbits ∧ f.experimenter = false
  | .imm v => v < 2 ^ i.nbits

/-- A well-formed action: known fields, numbers that fit their place, bit ranges within the field.
The fields of `regLoad`, `outputReg`, `bundle` and `bundleLoad` have four bytes for the id. -/
def Act.Valid : Act → Prop
  | .output port maxLen => port < 256 ^ 4 ∧ maxLen < 256 ^ 2
  | .std a n => a ∈ stdActs ∧ n < 256 ^ a.arg.size
  | .setField t => t.Valid
  | .resubmit port => port < 256 ^ 2
  | .resubmitTable port table => port < 256 ^ 2 ∧ table < 256
  | .setTunnel id => id < 256 ^ 4
  | .setTunnel64 id => id < 256 ^ 8
  | .popQueue => True
  | .exit => True
  | .note b => b.length < 60000
  | .cntIds ids => (∀ i ∈ ids, i < 256 ^ 2) ∧ ids.length < 30000
  | .regLoad f ofs nbits value =>
    Range f ofs nbits ∧ nbits ≤ 64 ∧ f.experimenter = false ∧ value < 2 ^ nbits
  | .regLoad2 t => t.Valid
  | .regMove src srcOfs dst dstOfs nbits => Range src srcOfs nbits ∧ Range dst dstOfs nbits
  | .multipath hash basis alg maxLink arg dst ofs nbits =>
    hash < 2 ∧ basis < 256 ^ 2 ∧ alg < 4 ∧ maxLink < 256 ^ 2 ∧ arg < 256 ^ 4 ∧ Range dst ofs nbits ∧
      nbits ≤ 64
  | .bundle hash basis alg slaveType slaves =>
    hash < 2 ∧ basis < 256 ^ 2 ∧ alg < 2 ∧ slaveType ∈ fields ∧ slaveType.kind.size ≠ none ∧
      slaveType.experimenter = false ∧ (∀ p ∈ slaves, p < 256 ^ 2) ∧ slaves.length < 30000
  | .bundleLoad hash basis alg slaveType dst ofs nbits slaves =>
    hash < 2 ∧ basis < 256 ^ 2 ∧ alg < 2 ∧ slaveType ∈ fields ∧ slaveType.kind.size ≠ none ∧
      slaveType.experimenter = false ∧ Range dst ofs nbits ∧ nbits ≤ 64 ∧ dst.experimenter = false ∧
      (∀ p ∈ slaves, p < 256 ^ 2) ∧ slaves.length < 30000
  | .outputReg src ofs nbits maxLen =>
    Range src ofs nbits ∧ nbits ≤ 64 ∧ src.experimenter = false ∧ maxLen < 256 ^ 2
  | .outputReg2 src ofs nbits maxLen => Range src ofs nbits ∧ nbits ≤ 64 ∧ maxLen < 256 ^ 2
  | .learn fixed specs =>
    (fixed.idle < 256 ^ 2 ∧ fixed.hard < 256 ^ 2 ∧ fixed.priority < 256 ^ 2 ∧ fixed.cookie < 256 ^ 8 ∧
      fixed.flags < 256 ^ 2 ∧ fixed.table < 256 ∧ fixed.finIdle < 256 ^ 2 ∧ fixed.finHard < 256 ^ 2) ∧
      (∀ i ∈ specs, i.Valid) ∧ (specs.flatMap LearnItem.wire).length < 60000

/-- The fields whose name stands for another id than that of the field. -/
def badIds : List Str := [t!"nxm_ip_frag", t!"nxm_ct_label"]

/-- The kinds whose id has no mask bit when the library asks for one. -/
def Kind.noMaskId : Kind → Bool
  | .port _ => true
  | .packetType => true
  | .rate => true
  | .signed => true
  | _ => false

/-- The low halves of the reserved port numbers. -/
def reservedLow : List Nat := reservedPorts.map fun e => e.1 % 65536

/-- The actions that survive printing, see the refutations in `Props/ActTrip.lean` for the others. -/
def Act.Lossless : Act → Prop
  | .output port maxLen => port = 0xfffffffd ∨ maxLen = 0xffff
  | .std a _ => a.name ≠ t!"set_nw_ttl"
  | .setField t => t.Lossless
  | .resubmit port => port < 0xff00 ∨ port = 0xfff8
  | .resubmitTable port _ => port < 0xff00 ∨ port = 0xfff8
  | .setTunnel _ => True
  | .setTunnel64 id => 256 ^ 4 ≤ id
  | .popQueue => True
  | .exit => True
  | .note b => PlainSsid b ∧ 41 ∉ b
  | .cntIds ids => ids ≠ []
  | .regLoad f ofs nbits _ => f.name ∉ lossyNames ∧
    ((ofs = 0 ∧ nbits = f.bits) ∨ f.maskable = true)
  | .regLoad2 t => t.Lossless ∧ (t.field.kind = .ssid → 41 ∉ t.value)
  | .regMove src _ dst dstOfs nbits => src.name ∉ badIds ∧ dst.name ∉ badIds ∧
    (src.experimenter = false → dstOfs = 0 → nbits = src.bits → nbits = dst.bits)
  | .multipath _ _ _ _ _ dst _ _ => dst.name ∉ badIds
  | .bundle _ _ _ slaveType slaves => slaveType.name ∉ badIds ∧ slaveType.kind.noMaskId = true ∧
    ∀ p ∈ slaves, p ∉ reservedLow
  | .bundleLoad _ _ _ slaveType dst ofs _ slaves => slaveType.name ∉ badIds ∧
    slaveType.kind.noMaskId = true ∧ dst.name ∉ badIds ∧ dst.kind.noMaskId = true ∧ ofs = 0 ∧
    ∀ p ∈ slaves, p ∉ reservedLow
  | .outputReg src ofs nbits maxLen => src.name ∉ badIds ∧ ofs % 64 = 0 ∧ nbits < 64 ∧ maxLen = 0xffff
  | .outputReg2 src ofs nbits maxLen => src.name ∉ badIds ∧ ofs % 64 = 0 ∧ nbits < 64 ∧ maxLen = 0xffff
  | .learn fixed specs => fixed = {} ∧ specs ≠ [] ∧ ∀ i ∈ specs, i.dst.name ∉ badIds ∧
    match i.src with
    | .field f _ => f.name ∉ badIds
    | .imm _ => True

/-- The byte strings in it are plain: a note, and the value of an SSID that is set or loaded. -/
def Act.Plain : Act → Prop
  | .setField t => t.field.kind = .ssid → t.Lossless
  | .regLoad2 t => t.field.kind = .ssid → t.Lossless
  | .note b => PlainSsid b
  | _ => True

end Ofpstr.Spec
