import Verif.Model.Lib
import Verif.Spec.Oxm
import Verif.Spec.Text

/-!
# Newlines of byte strings: the specification for quoted-printable

Quoted-printable is a text encoding: the newlines of the data are newlines of the text.
-/

namespace Ofpstr.Spec

/-- Every CR LF as a single LF. -/
def unixLines : Bytes → Bytes
  | 13 :: 10 :: r => 10 :: unixLines r
  | c :: r => c :: unixLines r
  | [] => []

/-- Every newline, LF or CR LF, as CR LF. -/
def dosLines (b : Bytes) : Bytes := (unixLines b).flatMap fun c => if c = 10 then [13, 10] else [c]

/-- The first newline is a CR LF. -/
def FirstDos (b : Bytes) : Prop := ∃ p r, b = p ++ 13 :: 10 :: r ∧ (10 : UInt8) ∉ p

/-- No newline is a CR LF. -/
def NoDos (b : Bytes) : Prop := ∀ p r, b ≠ p ++ 13 :: 10 :: r

/-- Every newline is a CR LF. -/
def AllDos (b : Bytes) : Prop := ∀ p r, b = p ++ 10 :: r → ∃ q, p = q ++ [13]

/-! ## SSIDs

`b2aQp` is `binascii.b2a_qp` of the standard library. -/

/-- SSIDs that can be read back: not empty, the newlines of one style, and the quoted-printable text is
one token without `/`.  In the last item of a text, brackets may stay open. -/
def SsidText (last : Prop) (p : Bytes) : Prop :=
  p ≠ [] ∧ (NoDos p ∨ AllDos p) ∧ '/' ∉ b2aQp p ∧ (Token (b2aQp p) ∨ (last ∧ OpenToken (b2aQp p)))

/-- The matches that survive printing, as `Tlv.Lossless` but with the exact condition on SSIDs. -/
structure Tlv.Survives (last : Prop) (t : Tlv) : Prop where
  name : t.field.name ∉ lossyNames
  bytes : t.field.kind = .bytes → t.mask = none → t.value ≠ []
  ssid : t.field.kind = .ssid → t.mask = none → SsidText last t.value
  ssidMask : t.field.kind = .ssid → t.mask ≠ none →
    ∃ p k, SsidText last p ∧ p.getLast? ≠ some 0 ∧ t.value = p ++ pad k
  vht : t.field.kind = .vht → vhtUsers t.value ≠ [0, 0, 0, 0]
  vhtMask : t.field.kind = .vht → ∀ m, t.mask = some m → vhtUsers m ≠ [0, 0, 0, 0]

end Ofpstr.Spec
