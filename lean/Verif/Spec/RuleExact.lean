import Verif.Spec.ActQp
import Verif.Spec.Flow
import Verif.Spec.Multipart

/-!
# Which rules survive printing

Match items and actions stand in one comma list; only the very last one of the whole rule may have
brackets that are not closed.
-/

namespace Ofpstr.Spec

/-- Every match item and every action survives where it stands. -/
def PartsSurvive (ts : List Tlv) (is : List FInst) : Prop :=
  (∀ a t b, ts = a ++ t :: b → t.Survives (b = [] ∧ is = [])) ∧
  ∀ a i b, is = a ++ i :: b → ∀ c x d, i.actions = c ++ x :: d → x.Survives (d = [] ∧ b = [])

/-- The flow-mods that survive printing. -/
def FlowMod.Survives (m : FlowMod) : Prop := m.head.flags < 32 ∧ PartsSurvive m.mtch m.insts

/-! ## Entries of multipart messages

There each entry is one line, so no text may hold a line feed. -/

/-- The text of an SSID, without the zero bytes at the end if there is a mask, is on one line. -/
def Tlv.OneLine (t : Tlv) : Prop := t.field.kind = .ssid → ∀ p k, t.value = p ++ pad k → (t.mask = none → k = 0) →
  (t.mask ≠ none → p.getLast? ≠ some 0) → '\n' ∉ b2aQp p

/-- The text of a note or an SSID in an action is on one line. -/
def Act.OneLine : Act → Prop
  | .setField t => t.OneLine
  | .regLoad2 t => t.OneLine
  | .note b => '\n' ∉ b2aQp b
  | _ => True

/-- The entries of flow statistics that survive printing: only the five flags, not the priority of flow-mods,
parts that survive in this line. -/
def FlowStat.Survives (e : FlowStat) : Prop :=
  e.flags < 32 ∧ e.priority ≠ 0x8000 ∧ PartsSurvive e.mtch e.insts ∧
  (∀ t ∈ e.mtch, t.OneLine) ∧ ∀ i ∈ e.insts, ∀ a ∈ i.actions, a.OneLine

end Ofpstr.Spec
