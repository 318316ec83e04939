import Verif.Spec.RuleReject

/-!
# Specification: the texts that are no groups

Which exception a text raises that is not a group.  The head is read up to the first word that is none of
its words.  Then buckets are read; each is put together as soon as its words end, so that one with a number
that does not fit raises `struct.error` before the next is looked at.  The numbers of the head are put
together last.
-/

namespace Ofpstr.Spec

/-- A group id that is no number. -/
inductive HeadRejects : Str → Refuses
  | id (s h t op p r e) : Tok s h t!"group" t → Tok t op p r → p.map Char.toLower ≠ t!"all" → WholeRejects p e → HeadRejects s e
  | later (s w u e) : s ≠ [] → ReadsG s w u → HeadRejects u e → HeadRejects s e

/-- The word with which the text of a bucket starts. -/
inductive BWordRejects : Str → Refuses
  | equals (s h n t) : Tok s h n t → '=' ∈ h → BWordRejects s .assertionError
  | number (s h n t e) : Tok s h n t → '=' ∉ h → n ∈ bucketKeys → EqRejects numberParts t e → BWordRejects s e
  | action (s h n t e) : Tok s h n t → '=' ∉ h → n.head? ≠ some '@' → n ∉ bucketKeys → ActRejects s e → BWordRejects s e

/-- The words of a bucket up to the first wrong one. -/
inductive BucketRejects : Str → Refuses
  | word (s e) : s ≠ [] → BWordRejects s e → BucketRejects s e
  | later (s w u e) : s ≠ [] → ReadsB ActLen s w u → BucketRejects u e → BucketRejects s e

/-- The buckets of a group of the given type up to the first wrong one. -/
inductive BucketsReject (type : Nat) : Str → Refuses
  | bucket (s e) : s ≠ [] → BucketRejects s e → BucketsReject type s e
  | size (s ws u) : BucketText ActLen ws s u → ¬ BucketFits type ws → BucketsReject type s .structError
  | other (s h n r) : s ≠ [] → BucketText ActLen [] s s → Tok s h n r → n ∉ [[], t!"@bucket"] → BucketsReject type s .assertionError
  | skip (s h n r e) : s ≠ [] → BucketText ActLen [] s s → Tok s h n r → n ∈ [[], t!"@bucket"] → BucketsReject type r e →
      BucketsReject type s e
  | later (s ws u e) : ws ≠ [] → BucketText ActLen ws s u → BucketFits type ws → BucketsReject type u e → BucketsReject type s e

/-- The exceptions of group texts: those of the head, those of the buckets behind it, and `struct.error` if
a number or the whole is too large. -/
inductive GroupRejects (command xid : Int) : Str → Refuses
  | head (s e) : HeadRejects s e → GroupRejects command xid s e
  | buckets (s gs u e) : HeadText gs s u → BucketsReject (groupType gs) u e → GroupRejects command xid s e
  | size (s gs bs) : GroupRule s gs bs → ¬ GroupFits command xid gs bs → GroupRejects command xid s .structError

end Ofpstr.Spec
