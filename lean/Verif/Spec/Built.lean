import Verif.Spec.Oxm

/-!
# Specification: the matches that texts build, and what printing shows of them
-/

namespace Ofpstr.Spec

/-- A match on one field as text can give it: value of the right size (four bytes for the
connection-tracking label, which has sixteen), mask of the size of the value.  Masks are also accepted for
numbers of fields that have none. -/
structure Tlv.Built (t : Tlv) : Prop where
  mem : t.field ∈ fields
  size : ∀ n, t.field.kind.size = some n →
    t.value.length = if t.field.name = t!"nxm_ct_label" then 4 else n
  mask : ∀ m, t.mask = some m →
    m.length = t.value.length ∧ (t.field.maskable = true ∨ ∃ n, t.field.kind = .uint n)

/-- The bytes fit the length byte. -/
def Tlv.Short (t : Tlv) : Prop := t.body.length + t.field.extra < 256

/-- The bytes of the match, with the length byte 255 if it is longer. -/
def Tlv.cut (t : Tlv) : Bytes :=
  t.field.header t.mask.isSome (min t.body.length (255 - t.field.extra)) ++ t.body

/-- What is printed of a match: no mask if the field has none. -/
def Tlv.shown (t : Tlv) : Tlv := if t.field.maskable then t else { t with mask := none }

example : (Tlv.mk ⟨t!"eth_type", 0x8000, 5, .uint 2, false⟩ [8, 0] (some [255, 0])).shown =
    ⟨⟨t!"eth_type", 0x8000, 5, .uint 2, false⟩, [8, 0], none⟩ := by decide

end Ofpstr.Spec
