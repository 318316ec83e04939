import Verif.Spec.Text

/-!
# Specification: the address of a switch

How the first argument of the command line names a switch.  The address of a host is four runs of digits with one
character between them, whatever it is; a colon and the port follow, and what stands behind the port is not looked
at.  Where this can be cut in more than one way, the longest first run counts, then the longest second one, and so on.
-/

namespace Ofpstr.Spec

/-- A run of decimal digits. -/
def Digits (d : Str) : Prop := d ≠ [] ∧ ∀ c ∈ d, ∃ k, Digit 10 c k

/-- The parts of an address: four runs of digits, what stands between them, the port. -/
structure TcpParts where
  a : Str
  x : Char
  b : Str
  y : Char
  c : Str
  z : Char
  d : Str
  port : Str

def TcpParts.host (t : TcpParts) : Str := t.a ++ t.x :: (t.b ++ t.y :: (t.c ++ t.z :: t.d))

/-- The text starts with these parts. -/
def TcpCut (s : Str) (t : TcpParts) : Prop :=
  Digits t.a ∧ Digits t.b ∧ Digits t.c ∧ Digits t.d ∧ Digits t.port ∧ t.x ≠ '\n' ∧ t.y ≠ '\n' ∧ t.z ≠ '\n' ∧
    ∃ r, s = t!"tcp:" ++ (t.host ++ ':' :: (t.port ++ r))

/-- The lengths of the runs. -/
def TcpParts.lengths (t : TcpParts) : List Nat := [t.a.length, t.b.length, t.c.length, t.d.length, t.port.length]

/-- The parts that count: no other parts of the text come later in the order of dictionaries. -/
def TcpFirst (s : Str) (t : TcpParts) : Prop := TcpCut s t ∧ ∀ u, TcpCut s u → ¬ t.lengths < u.lengths

/-- The path of a local socket ends at the first line feed. -/
def UnixPath (s p : Str) : Prop := '\n' ∉ p ∧ ∃ r, s = t!"unix:" ++ (p ++ r) ∧ r.head? ∈ [none, some '\n']

end Ofpstr.Spec
