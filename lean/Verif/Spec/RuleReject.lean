import Verif.Spec.RuleText
import Verif.Spec.ActReject

/-!
# Specification: the texts that are no flow rules

Which exception a text raises that is not a flow rule: the other half of `Spec/RuleText.lean`.  Words are
read up to the first wrong one.  The instructions are put together on the way: most with their word,
`@apply` and `@write` when the next instruction or the end of the text is reached.  One that is too large by
then raises `struct.error` before anything further is looked at.  The numbers in front of the instructions
are put together last.
-/

namespace Ofpstr.Spec

/-! ## Arguments -/

/-- The argument of a word: a token behind `=`, of which `parts` lists what is looked at. -/
def EqRejects (parts : Str → List Refuses) (t : Str) : Refuses :=
  fun e => ∃ op p r, Tok t op p r ∧ FirstWrong (Needs ('=' ∈ op) .assertionError :: parts p) e

/-- A number. -/
def numberParts (p : Str) : List Refuses := [WholeRejects p]

/-- A number where a mask might be expected, but is not taken. -/
def unmaskedParts (p : Str) : List Refuses := [Needs ('/' ∉ p) .assertionError, WholeRejects p]

/-- The part in front of the first slash. -/
def BeforeSlash (p v : Str) : Prop := '/' ∉ v ∧ (p = v ∨ ∃ m, p = v ++ '/' :: m)

/-- The part behind the first slash. -/
def BehindSlash (p m : Str) : Prop := ∃ v, '/' ∉ v ∧ p = v ++ '/' :: m

/-- A number and possibly a mask. -/
def maskedParts (p : Str) : List Refuses :=
  [fun e => ∃ v, BeforeSlash p v ∧ WholeRejects v e, fun e => ∃ m, BehindSlash p m ∧ WholeRejects m e]

/-- A cookie: what follows the number of the mask is not looked at. -/
def cookieParts (p : Str) : List Refuses :=
  [fun e => ∃ v, BeforeSlash p v ∧ WholeRejects v e, fun e => ∃ m, BehindSlash p m ∧ LooseRejects m e]

/-- A reserved port or group, or a number. -/
def GroupNameRejects (s : Str) : Refuses := fun e => (∀ n, (n, s) ∉ reservedGroups) ∧ WholeRejects s e

def FKey.parts (k : FKey) (p : Str) : List Refuses :=
  [Needs ('/' ∉ p) .assertionError, match k with
    | .outPort => PortNameRejects p
    | .outGroup => GroupNameRejects p
    | _ => WholeRejects p]

/-! ## Words -/

/-- An instruction, by its name and the text behind. -/
inductive InstRejects : Str → Str → Refuses
  | unknown (n t) : n ∉ instNames → InstRejects n t .valueError
  | goto (n t e) : n ∈ [t!"@goto", t!"@goto_table"] → EqRejects numberParts t e → InstRejects n t e
  | metadata (n t e) : n ∈ [t!"@metadata", t!"@write_metadata"] → EqRejects maskedParts t e → InstRejects n t e
  | meter (t e) : EqRejects unmaskedParts t e → InstRejects t!"@meter" t e

/-- A word in front of the instructions; what is no key must be a match item. -/
inductive KeyRejects : Str → Str → Refuses
  | key (k t e) : EqRejects (FKey.parts k) t e → KeyRejects (FKey.name k) t e
  | cookie (t e) : EqRejects cookieParts t e → KeyRejects t!"cookie" t e
  | item (n t e) : n ∉ matchKeys → n ++ t ≠ [] → ItemRejects (n ++ t) e → KeyRejects n t e
  | nothing : KeyRejects [] [] .valueError

/-- A word behind `@apply` or `@write`. -/
inductive ActWordRejects : Str → Refuses
  | action (u e) : ActRejects u e → ActWordRejects u e
  | nothing (u b) : ActLen u b 0 → ActWordRejects u .valueError

/-- The word with which the text starts, at its place. -/
inductive WordRejects : Place → Str → Refuses
  | equals (p s h n t) : Tok s h n t → '=' ∈ h → WordRejects p s .assertionError
  | inst (p s h n t e) : Tok s h n t → '=' ∉ h → n.head? = some '@' → InstRejects n t e → WordRejects p s e
  | key (s h n t e) : Tok s h n t → '=' ∉ h → n.head? ≠ some '@' → KeyRejects n t e → WordRejects .start s e
  | act (s h n t e) : Tok s h n t → '=' ∉ h → n.head? ≠ some '@' → ActWordRejects (n ++ t) e → WordRejects .acts s e
  | late (s h n t) : Tok s h n t → '=' ∉ h → n.head? ≠ some '@' → WordRejects .done s .valueError

/-! ## Rules -/

/-- The text ends, or an instruction follows. -/
def NextInst (u : Str) : Prop := u = [] ∨ ∃ h n t, Tok u h n t ∧ '=' ∉ h ∧ n.head? = some '@'

/-- The instructions that are put together with the words: all but the `@apply` or `@write` that is still
open. -/
def writtenInsts (p : Place) (ws : List Word) : List Inst := if p = .acts then (instsOf ws).dropLast else instsOf ws

/-- The words `ws` are at the start of `s`, each in its place; `u` is left over, at the place `p`. -/
def StartsWith (s : Str) (ws : List Word) (p : Place) (u : Str) : Prop :=
  ReadsWords OxmLen ActLen ws s u ∧ placeAfter .start ws = some p

inductive RuleRejects : Str → Refuses
  | word (s ws p u e) : StartsWith s ws p u → (∀ i ∈ writtenInsts p ws, i.Fits) → (NextInst u → ∀ i ∈ instsOf ws, i.Fits) →
      u ≠ [] → WordRejects p u e → RuleRejects s e
  | size (s ws p u i) : StartsWith s ws p u → i ∈ writtenInsts p ws → ¬ i.Fits → RuleRejects s .structError
  | close (s ws p u i) : StartsWith s ws p u → NextInst u → i ∈ instsOf ws → ¬ i.Fits → RuleRejects s .structError

/-- The exceptions of flow-mods: those of the rule, and `struct.error` if a number or the whole is too large. -/
def FlowRejects (command xid : Int) (s : Str) : Refuses :=
  fun e => RuleRejects s e ∨ (e = .structError ∧ ∃ ws, RuleText s ws ∧ ¬ FlowFits command xid ws)

end Ofpstr.Spec
