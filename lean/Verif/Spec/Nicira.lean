import Verif.Spec.Action

/-!
# The structures of nicira-ext.h

Each structure is the list of its members with their byte offsets, as the header of Open vSwitch has
them; bytes that belong to no member are zero.  Written from the C structures, not from the library:
the sub-type is at offset 8, and a structure is padded to a multiple of eight bytes.
-/

namespace Ofpstr.Spec

/-- The bytes of a structure from offset `at_` on: members in the order of their offsets. -/
def place (at_ : Nat) : List (Nat × Bytes) → Bytes
  | [] => []
  | (o, b) :: ms => pad (o - at_) ++ (b ++ place (o + b.length) ms)

/-- The members of `struct nx_action_header`, and the others. -/
def nxMembers (len subtype : Nat) (ms : List (Nat × Bytes)) : List (Nat × Bytes) :=
  (0, u16 0xffff) :: (2, u16 len) :: (4, u32 0x2320) :: (8, u16 subtype) :: ms

/-- The first multiple of eight that is not less. -/
def up8 (n : Nat) : Nat := (n + 7) / 8 * 8

/-- A structure of `size` bytes, padded to a multiple of eight. -/
def nxStruct (subtype size : Nat) (ms : List (Nat × Bytes)) : Bytes :=
  let b := place 0 (nxMembers (up8 size) subtype ms)
  b ++ pad (up8 size - b.length)

/-- The first word of a `flow_mod_spec`: the number of bits in bits 0 to 10, what to do (match, load,
output) in bits 11 and 12, whether the value is given (rather than a field) in bit 13. -/
def learnWord (imm : Nat) (load : Bool) (nbits : Nat) : Nat :=
  imm * 2 ^ 13 + (if load then 2 ^ 11 else 0) + nbits

/-- One `flow_mod_spec`. -/
def LearnItem.struct (i : LearnItem) : Bytes :=
  u16 (learnWord i.src.flag i.load i.nbits) ++ (i.src.wire i.nbits ++ (i.dst.id ++ u16 i.dstOfs))

/-- The structure of an action: sub-type, size without padding at the end, members.  Nothing for the
actions of OpenFlow itself and for `note`, whose length is not a matter of the structure. -/
def Act.struct : Act → Option (Nat × Nat × List (Nat × Bytes))
  | .output _ _ => none
  | .std _ _ => none
  | .setField _ => none
  | .note _ => none
  | .resubmit port => some (1, 16, [(10, u16 port), (12, u8 0xff)])
  | .setTunnel id => some (2, 16, [(12, u32 id)])
  | .popQueue => some (5, 16, [])
  | .regMove src srcOfs dst dstOfs nbits =>
    some (6, 16 + src.id.length + dst.id.length, [(10, u16 nbits), (12, u16 srcOfs), (14, u16 dstOfs),
      (16, src.id), (16 + src.id.length, dst.id)])
  | .regLoad f ofs nbits value => some (7, 24, [(10, u16 (ofsNbits ofs nbits)), (12, f.id), (16, u64 value)])
  | .setTunnel64 id => some (9, 24, [(16, u64 id)])
  | .multipath hash basis alg maxLink arg dst ofs nbits =>
    some (10, 28 + dst.id.length, [(10, u16 hash), (12, u16 basis), (16, u16 alg), (18, u16 maxLink), (20, u32 arg),
      (26, u16 (ofsNbits ofs nbits)), (28, dst.id)])
  | .bundle hash basis alg slaveType slaves =>
    some (12, 32 + 2 * slaves.length, [(10, u16 alg), (12, u16 hash), (14, u16 basis), (16, slaveType.id),
      (20, u16 slaves.length), (32, slaves.flatMap u16)])
  | .bundleLoad hash basis alg slaveType dst ofs nbits slaves =>
    some (13, 32 + 2 * slaves.length, [(10, u16 alg), (12, u16 hash), (14, u16 basis), (16, slaveType.id),
      (20, u16 slaves.length), (22, u16 (ofsNbits ofs nbits)), (24, dst.id), (32, slaves.flatMap u16)])
  | .resubmitTable port table => some (14, 16, [(10, u16 port), (12, u8 table)])
  | .outputReg src ofs nbits maxLen =>
    some (15, 24, [(10, u16 (ofsNbits ofs nbits)), (12, src.id), (16, u16 maxLen), (18, pad 6)])
  | .learn fixed specs =>
    some (16, 32 + (specs.flatMap LearnItem.struct).length, [(10, u16 fixed.idle), (12, u16 fixed.hard),
      (14, u16 fixed.priority), (16, u64 fixed.cookie), (24, u16 fixed.flags), (26, u8 fixed.table),
      (28, u16 fixed.finIdle), (30, u16 fixed.finHard), (32, specs.flatMap LearnItem.struct)])
  | .exit => some (17, 16, [])
  | .cntIds ids => some (21, 16 + 2 * ids.length, [(10, u16 ids.length), (16, ids.flatMap u16)])
  | .outputReg2 src ofs nbits maxLen =>
    some (32, 14 + src.id.length, [(10, u16 (ofsNbits ofs nbits)), (12, u16 maxLen), (14, src.id)])
  | .regLoad2 t => some (33, 10 + t.wire.length, [(10, t.wire)])

example : nxStruct 14 16 [(10, u16 1), (12, u8 3)] =
    [255, 255, 0, 16, 0, 0, 0x23, 0x20, 0, 14, 0, 1, 3, 0, 0, 0] := by decide
example : nxStruct 9 24 [(16, u64 5)] =
    [255, 255, 0, 24, 0, 0, 0x23, 0x20, 0, 9, 0, 0, 0, 0, 0, 0, 0, 0, 0, 0, 0, 0, 0, 5] := by decide

end Ofpstr.Spec
