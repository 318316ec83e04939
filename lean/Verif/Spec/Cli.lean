import Verif.Spec.Multipart

/-!
# Specification: the messages of a stream

A TCP connection gives a stream of bytes; the messages in it are found by their length fields.  What one read returns is
any part of the stream.  Nothing here refers to the model of the code.
-/

namespace Ofpstr.Spec

/-- An OpenFlow message: a header of 8 bytes, in it the length of the whole message. -/
def IsMsg (m : Bytes) : Prop := 8 ≤ m.length ∧ word16 m 2 = m.length

instance (m : Bytes) : Decidable (IsMsg m) := inferInstanceAs (Decidable (_ ∧ _))

/-- `reads` are non-empty parts of the stream of the messages `ms`. -/
def Segments (ms reads : List Bytes) : Prop := reads.flatten = ms.flatten ∧ [] ∉ reads

/-- The header and the rest of a message, if there is any. -/
def msgParts (m : Bytes) : List Bytes := if m.length ≤ 8 then [m] else [m.take 8, m.drop 8]

/-- `reads` cut the stream only between messages and between a header and the rest of its message: each one is some
number of such parts in a row. -/
def CutAtParts (ms reads : List Bytes) : Prop :=
  ∃ groups : List (List Bytes), reads = groups.map List.flatten ∧ [] ∉ groups ∧ groups.flatten = ms.flatMap msgParts

/-- Type and xid of a message. -/
def msgType (m : Bytes) : Nat := (m.getD 1 0).toNat
def msgXid (m : Bytes) : Nat := word16 m 4 * 65536 + word16 m 6

/-- A part of a multipart reply of that kind. -/
def IsPart (kind : Nat) (m : Bytes) : Prop := 16 ≤ m.length ∧ msgType m = 19 ∧ word16 m 8 = kind

instance (k : Nat) (m : Bytes) : Decidable (IsPart k m) := inferInstanceAs (Decidable (_ ∧ _))

/-- The flags of a part; 1 is "more parts follow". -/
def partFlags (m : Bytes) : Nat := word16 m 10

end Ofpstr.Spec
