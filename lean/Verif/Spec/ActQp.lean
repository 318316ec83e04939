import Verif.Spec.Qp
import Verif.Spec.Action

/-!
# Actions with byte strings

`Act.Lossless` asks for plain byte strings.  Here is the exact condition.
-/

namespace Ofpstr.Spec

/-- Notes that can be read back: not empty, the newlines of one style, and the quoted-printable text is
one token with all brackets closed. -/
def NoteText (b : Bytes) : Prop := b ≠ [] ∧ (NoDos b ∨ AllDos b) ∧ Token (b2aQp b) ∧ Inside ')' (b2aQp b)

/-- The text of an SSID, without the zero bytes at the end if there is a mask, can stand in brackets. -/
def Tlv.Boxed (t : Tlv) : Prop := t.field.kind = .ssid → ∀ p k, t.value = p ++ pad k → (t.mask = none → k = 0) →
  (t.mask ≠ none → p.getLast? ≠ some 0) → Inside ')' (b2aQp p)

/-- The actions that survive printing, as `Act.Lossless` but with the exact condition on byte strings. -/
def Act.Survives (last : Prop) : Act → Prop
  | .setField t => t.Survives last
  | .regLoad2 t => t.Survives False ∧ t.Boxed
  | .note b => NoteText b
  | a => a.Lossless

end Ofpstr.Spec
