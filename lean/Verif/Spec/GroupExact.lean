import Verif.Spec.RuleExact
import Verif.Spec.Group
import Verif.Spec.Multipart

/-!
# Which groups survive printing

The actions of all buckets stand in one comma list; only the very last one may have brackets that are not
closed.
-/

namespace Ofpstr.Spec

/-- The bucket survives printing; `last` says whether it is the last one. -/
def Bucket.Survives (type : Nat) (last : Prop) (b : Bucket) : Prop :=
  (type ≠ 1 → b.weight = 0) ∧ ∀ c x d, b.acts = c ++ x :: d → x.Survives (d = [] ∧ last)

/-- The group-mods that survive printing: something is printed of every bucket, the last one has actions, no
weight outside select groups, and actions that survive. -/
def GroupMod.Survives (m : GroupMod) : Prop :=
  (∀ a b c, m.buckets = a ++ b :: c → ¬ b.Blank m.type ∧ b.Survives m.type (c = [])) ∧
  ∀ b, m.buckets.getLast? = some b → b.acts ≠ []

/-- The group descriptions that survive printing: only the last bucket can be blank, no weight outside select
groups, actions that survive and stay on their line. -/
def GroupDesc.Survives (e : GroupDesc) : Prop :=
  (∀ a b c, e.buckets = a ++ b :: c → (b.Blank e.type → c = []) ∧ b.Survives e.type (c = [])) ∧
  ∀ b ∈ e.buckets, ∀ x ∈ b.acts, x.OneLine

end Ofpstr.Spec
