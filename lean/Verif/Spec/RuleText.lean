import Verif.Spec.Group
import Verif.Spec.ActText

/-!
# Specification: exactly which texts are flow rules and groups

The grammars of `Spec.Flow` and `Spec.Group` have the match items and the actions as parameters.  Here
these are the grammars of `Spec.Value` and `Spec.ActText`, so nothing of the parser is left in them.
-/

namespace Ofpstr.Spec

/-- The text `u` starts with a match item of bytes `b` that is `l` characters long; an item with an empty
value is nothing. -/
def OxmLen (u : Str) (b : Bytes) (l : Nat) : Prop :=
  ∃ v t r, MatchItem u v t r ∧ b = (if v = [] then [] else t.cut) ∧ l = u.length - r.length

/-- The text `u` starts with an action of bytes `b` that is `l` characters long. -/
def ActLen (u : Str) (b : Bytes) (l : Nat) : Prop := ∃ r, ActText u b r ∧ l = u.length - r.length

/-- The text `s` is a rule of the words `ws`. -/
def RuleText (s : Str) (ws : List Word) : Prop := ReadsWords OxmLen ActLen ws s [] ∧ placeAfter .start ws ≠ none

/-- The text `s` is a group with the head words `gs` and the buckets `bs`. -/
def GroupRule (s : Str) (gs : List GWord) (bs : List (List BWord)) : Prop :=
  ∃ u, HeadText gs s u ∧ Buckets ActLen bs u

end Ofpstr.Spec
