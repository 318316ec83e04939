import Verif.Spec.Flow

/-!
# The text of bit ranges

Independent of the model: `field`, `field[a:b]`, `field[a:]`, `field[:b]` and `field[:]`, where the
bounds are decimal, the lower bound is the first bit and the upper bound is one after the last bit.
-/

namespace Ofpstr.Spec

/-- A bound of a range: a decimal numeral, or nothing, which stands for `d`. -/
inductive Bound (d : Nat) : Str → Nat → Prop
  | absent : Bound d [] d
  | num (ds n) : Numeral 10 ds n → Bound d ds n

/-- `RangeText f a b s`: the text `s` names the bits of `f` from `a` up to but not including `b`. -/
inductive RangeText (f : Field) : Nat → Nat → Str → Prop
  | whole : RangeText f 0 f.bits f.name
  | bits (s t : Str) (a b : Nat) : Bound 0 s a → Bound f.bits t b →
      RangeText f a b (f.name ++ '[' :: (s ++ ':' :: t) ++ [']'])

/-- The same with both bounds written out. -/
inductive ClosedText (f : Field) : Nat → Nat → Str → Prop
  | bits (s t : Str) (a b : Nat) : Numeral 10 s a → Numeral 10 t b →
      ClosedText f a b (f.name ++ '[' :: (s ++ ':' :: t) ++ [']'])

theorem ClosedText.range {f : Field} {a b : Nat} {s : Str} (h : ClosedText f a b s) : RangeText f a b s := by
  cases h with
  | bits s t _ _ hs ht => exact .bits s t a b (.num _ _ hs) (.num _ _ ht)

/-- The bits from `a` up to but not including `b` are bits of `f`, and there is at least one. -/
def BitsOf (f : Field) (a b : Nat) : Prop := a < b ∧ Range f a (b - a)

instance (f : Field) (a n : Nat) : Decidable (Range f a n) := by unfold Range; infer_instance

instance (f : Field) (a b : Nat) : Decidable (BitsOf f a b) := by unfold BitsOf; infer_instance

/-- The second argument of `output_reg`: nothing, or a number. -/
inductive MaxLenText : Str → Int → Prop
  | absent : MaxLenText [] 0xffff
  | num (s v) : IntSyntax s v s.length → MaxLenText (',' :: s) v

/-- The slaves of a bundle, written as numbers. -/
inductive SlaveTexts : List Str → List Int → Prop
  | nil : SlaveTexts [] []
  | cons (s ss v vs) : IntSyntax s v s.length → SlaveTexts ss vs → SlaveTexts (s :: ss) (v :: vs)

/-- `slaves(...)`. -/
def slavesArg (ss : List Str) : Str := t!"slaves" ++ '(' :: commaList ss ++ [')']

/-- `NX_HASH_FIELDS_*`. -/
def hashWords : List Str := [t!"eth_src", t!"symmetric_l4"]

/-- `NX_MP_ALG_*`. -/
def mpAlgWords : List Str := [t!"modulo_n", t!"hash_threshold", t!"hrw", t!"iter_hash"]

/-- `NX_BD_ALG_*`. -/
def bdAlgWords : List Str := [t!"active_backup", t!"hrw"]

/-- The two ways of writing an action with one argument. -/
inductive OneArg (name s : Str) : Str → Prop
  | call : OneArg name s (name ++ '(' :: s ++ [')'])
  | assign : OneArg name s (name ++ '=' :: s)

/-- The fixed keys of `learn` with the width of their values. -/
def learnWidths : List (Str × Nat) := [(t!"idle_timeout", 2), (t!"hard_timeout", 2), (t!"priority", 2), (t!"cookie", 8),
  (t!"flags", 2), (t!"table", 1), (t!"fin_idle_timeout", 2), (t!"fin_hard_timeout", 2)]

/-- A list of settings `key=number` for `learn`. -/
inductive LearnSets : List Str → List (Str × Int) → Prop
  | nil : LearnSets [] []
  | cons (k s : Str) (v : Int) (w : Nat) (ts : List Str) (l : List (Str × Int)) : (k, w) ∈ learnWidths →
      IntSyntax s v s.length → LearnSets ts l → LearnSets ((k ++ '=' :: s) :: ts) ((k, v) :: l)

end Ofpstr.Spec
