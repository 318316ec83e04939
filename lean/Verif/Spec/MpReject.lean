import Verif.Spec.MpText
import Verif.Spec.GroupReject
import Mathlib.Data.List.Forall2

/-!
# Specification: the texts that are no multipart messages

Which exception a text raises that is no multipart message.  Lines of flow statistics are all read before
the first is put together; lines of group descriptions and group statistics are read and put together one by
one.  A line with which the message would be longer than 65535 bytes raises `NameError`: the code that should
start another message uses a name that is not defined.  The type and the transaction id come last.
-/

namespace Ofpstr.Spec

/-! ## Lines -/

/-- Lines are put together one after the other, with `n` bytes so far.  `Entry s b` says that the line `s` gives the bytes
`b`, `R s e` that it raises `e`. -/
inductive JoinRejects (Entry : Str → Bytes → Prop) (R : Str → Refuses) : Nat → List Str → Refuses
  | line (n s ss e) : R s e → JoinRejects Entry R n (s :: ss) e
  | full (n s b ss) : Entry s b → 65536 ≤ 16 + (n + b.length) → JoinRejects Entry R n (s :: ss) .nameError
  | later (n s b ss e) : Entry s b → 16 + (n + b.length) < 65536 → JoinRejects Entry R (n + b.length) ss e →
      JoinRejects Entry R n (s :: ss) e

/-- The lines of a message, then its header. -/
inductive MpRejects (Entry : Str → Bytes → Prop) (R : Str → Refuses) (type xid : Int) : List Str → Refuses
  | lines (ls e) : JoinRejects Entry R 0 ls e → MpRejects Entry R type xid ls e
  | header (ls bs) : List.Forall₂ Entry ls bs → 16 + bs.flatten.length < 65536 → ¬ (FitsIn 1 type ∧ FitsIn 4 xid) →
      MpRejects Entry R type xid ls .structError

/-! ## Flow statistics -/

/-- A counter whose value is no number. -/
inductive CountRejects (names : List Str) : Str → Refuses
  | number (s h name t e) : s ≠ [] → Tok s h name t → name ∈ names → EqRejects unmaskedParts t e → CountRejects names s e
  | later (s h name t n u e) : s ≠ [] → Tok s h name t → name ∈ names → NumArg t n u → CountRejects names u e → CountRejects names s e

/-- A line: a wrong counter, or something wrong in the rule behind the counters. -/
def StatRejects (s : Str) : Refuses :=
  fun e => CountRejects flowCounters s e ∨ ∃ l r, CountText flowCounters l s r ∧ RuleRejects r e

/-- A line that can be read. -/
def StatReads (s : Str) (x : List (Str × Int) × List Word) : Prop := StatLine s x ∧ ∀ i ∈ instsOf x.2, i.Fits

/-- The lengths in an entry fit their places. -/
def LineSmall (type : Int) (x : List (Str × Int) × List Word) : Prop :=
  4 + (oxmOf x.2).length < 65536 ∧ (type = 19 → 48 + (statTail x.2).length < 65536)

def FlowEntry (type : Int) (s : Str) (b : Bytes) : Prop :=
  ∃ x, StatLine s x ∧ LineFits type x ∧ LineSmall type x ∧ b = lineOf type x

def FlowSize (type : Int) (s : Str) : Refuses :=
  fun e => e = .structError ∧ ∃ x, StatLine s x ∧ ¬ (LineFits type x ∧ LineSmall type x)

inductive FlowTextRejects (type xid : Int) : Str → Refuses
  | line (txt pre s post e) : TextLines txt (pre ++ s :: post) → (∀ t ∈ pre, ∃ x, StatReads t x) → StatRejects s e →
      FlowTextRejects type xid txt e
  | message (txt ls e) : TextLines txt ls → (∀ t ∈ ls, ∃ x, StatReads t x) → MpRejects (FlowEntry type) (FlowSize type) type xid ls e →
      FlowTextRejects type xid txt e

/-! ## Group descriptions -/

/-- A group id that is no number. -/
inductive HeadDRejects : Str → Refuses
  | id (s h t e) : Tok s h t!"group" t → EqRejects unmaskedParts t e → HeadDRejects s e
  | later (s w u e) : s ≠ [] → ReadsD s w u → HeadDRejects u e → HeadDRejects s e

/-- The buckets of a line up to the first wrong one. -/
inductive BucketsDReject (type : Nat) : Str → Refuses
  | bucket (s h n t e) : s ≠ [] → Tok s h n t → n ≠ t!"@bucket" → BucketRejects s e → BucketsDReject type s e
  | size (s ws u) : BucketText ActLen ws s u → ¬ BucketFits type ws → BucketsDReject type s .structError
  | mark (s h r e) : s ≠ [] → Tok s h t!"@bucket" r → BucketsDReject type r e → BucketsDReject type s e
  | later (s ws u e) : ws ≠ [] → BucketText ActLen ws s u → BucketFits type ws → BucketsDReject type u e → BucketsDReject type s e

/-- The length of a description fits its place. -/
def DescSmall (x : List GWord × List (List BWord)) : Prop := 8 + (x.2.flatMap (bucketOf (groupType x.1))).length < 65536

def DescEntry (s : Str) (b : Bytes) : Prop := ∃ x, DescLine s x ∧ DescFits x ∧ DescSmall x ∧ b = descOf x

inductive DescRejects : Str → Refuses
  | head (s e) : HeadDRejects s e → DescRejects s e
  | buckets (s gs u e) : HeadD gs s u → BucketsDReject (groupType gs) u e → DescRejects s e
  | size (s x) : DescLine s x → (∀ ws ∈ x.2, BucketFits (groupType x.1) ws) → ¬ (FitsIn 4 (lineGroup x.1) ∧ DescSmall x) →
      DescRejects s .structError

/-! ## Group statistics -/

/-- A group id that is no number. -/
inductive HeadSRejects : Str → Refuses
  | id (s h t e) : Tok s h t!"group" t → EqRejects unmaskedParts t e → HeadSRejects s e
  | later (s h t n u e) : s ≠ [] → Tok s h t!"group" t → NumArg t n u → HeadSRejects u e → HeadSRejects s e

/-- A number is needed behind every word but `@bucket`, also behind those that are not known. -/
inductive PartsReject : List Str → Str → Refuses
  | number (names s h name t e) : s ≠ [] → Tok s h name t → name ≠ t!"@bucket" → EqRejects unmaskedParts t e → PartsReject names s e
  | mark (names s h r e) : s ≠ [] → Tok s h t!"@bucket" r → PartsReject bucketCounters r e → PartsReject names s e
  | count (names s h name t n r e) : s ≠ [] → Tok s h name t → name ∈ names → NumArg t n r → PartsReject names r e → PartsReject names s e

/-- The length of an entry fits its place. -/
def GStat.Small (x : GStat) : Prop := 40 + 16 * x.buckets.length < 65536

def GStatEntry (s : Str) (b : Bytes) : Prop := ∃ x, GStatLine s x ∧ x.Fits ∧ x.Small ∧ b = x.wire

inductive GStatRejects : Str → Refuses
  | head (s e) : HeadSRejects s e → GStatRejects s e
  | parts (s ids u e) : HeadS ids s u → PartsReject groupCounters u e → GStatRejects s e
  | size (s x) : GStatLine s x → ¬ (x.Fits ∧ x.Small) → GStatRejects s .structError

/-! ## Texts -/

/-- A reply with group descriptions. -/
def DescTextRejects (xid : Int) (txt : Str) : Refuses :=
  fun e => ∃ ls, TextLines txt ls ∧ MpRejects DescEntry DescRejects 19 xid ls e

/-- A reply with group statistics. -/
def GroupTextRejects (xid : Int) (txt : Str) : Refuses :=
  fun e => ∃ ls, TextLines txt ls ∧ MpRejects GStatEntry GStatRejects 19 xid ls e

/-- A request for group statistics: only the first line is looked at, and of it only the group. -/
def GroupAskRejects (type xid : Int) (txt : Str) : Refuses := fun e => ∃ line lines, TextLines txt (line :: lines) ∧
  (HeadSRejects line e ∨ (e = .structError ∧ ∃ ids r, HeadS ids line r ∧ ¬ (FitsIn 4 (ids.getLast?.getD 0) ∧ FitsIn 1 type ∧ FitsIn 4 xid)))

end Ofpstr.Spec
