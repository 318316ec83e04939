import Verif.Spec.ActText
import Verif.Spec.MatchReject

/-!
# Specification: the texts that are no actions

Which exception a text raises that is not an action: the other half of `Spec/ActText.lean`.  The arguments
of every action are read in a fixed order (`ArgParts`), and the exception is that of the first one that is
wrong.  If each of them reads well and still there is no action, a number does not fit its place or the
action gets too long; that is a `struct.error`.  Nothing here runs the parsers of the model.
-/

namespace Ofpstr.Spec

/-- What can be wrong with a part of a text, with the exception it raises. -/
abbrev Refuses := Err → Prop

/-- The part is as it should be. -/
def Right (p : Refuses) : Prop := ∀ e, ¬ p e

/-- The exception of the first part that is wrong. -/
def FirstWrong : List Refuses → Refuses
  | [], _ => False
  | p :: ps, e => p e ∨ (Right p ∧ FirstWrong ps e)

/-- The first part that is wrong; or none is, and there is no `good` result. -/
def Stops (ps : List Refuses) (good : Prop) (e : Err) : Prop :=
  FirstWrong ps e ∨ ((∀ p ∈ ps, Right p) ∧ ¬ good ∧ e = .structError)

/-- The exception `k` unless `p`. -/
def Needs (p : Prop) (k : Err) : Refuses := fun e => ¬ p ∧ e = k

/-! ## Words -/

/-- A number must come first; the rest is not looked at. -/
def LooseRejects (s : Str) : Refuses := fun e => NoInt s ∧ e = .valueError

/-- The whole word must be a number. -/
inductive WholeRejects : Str → Refuses
  | none (s) : NoInt s → WholeRejects s .valueError
  | junk (s v c r) : IntThen s v (c :: r) → WholeRejects s .assertionError

/-- All words must start with a number. -/
def LooseAll (ts : List Str) : Refuses := fun e => (∃ t ∈ ts, NoInt t) ∧ e = .valueError

/-- The word must be one of the list. -/
def OneOf (words : List Str) (s : Str) : Refuses := Needs (s ∈ words) .valueError

/-- Text behind the bracket that closes the first one. -/
def FuncRejects (s : Str) : Refuses := Needs (∃ n a, Func s n a) .assertionError

/-- A reserved port or a number. -/
def PortNameRejects (s : Str) : Refuses := fun e => (∀ n, (n, s) ∉ reservedPorts) ∧ WholeRejects s e

/-- A port of `resubmit`. -/
inductive ResubmitPortRejects : Str → Refuses
  | word (s e) : ¬ AnyCase s t!"IN_PORT" → WholeRejects s e → ResubmitPortRejects s e
  | big (s v) : WholeInt s v → 0xff00 ≤ v → ResubmitPortRejects s .assertionError

/-- A table of `resubmit_table`. -/
def ResubmitTableRejects (s : Str) : Refuses := fun e => s ≠ [] ∧ ¬ AnyCase s t!"ALL" ∧ WholeRejects s e

/-! ## Bit ranges -/

def Unknown (n : Str) : Prop := ∀ f ∈ fields, f.name ≠ n

/-- Bits of a field. -/
inductive BitsRejects (t : Str) : Refuses
  | func (e) : FuncRejects t e → BitsRejects t e
  | field (n a) : Func t n a → Unknown n → BitsRejects t .structError
  | range (f a) : f ∈ fields → Func t (Field.name f) (some a) → a ≠ [] →
      (∀ x y c d, IntBound 0 x c → IntBound 0 y d → a ≠ x ++ ':' :: y) → BitsRejects t .valueError

/-- Bits with a start, and with an end that is read later. -/
inductive StartRejects (exper : Bool) (t : Str) : Refuses
  | func (e) : FuncRejects t e → StartRejects exper t e
  | field (n a) : Func t n a → NoArg a → (∀ f ∈ fields, f.name = n → f.experimenter = true ∧ exper = false) →
      StartRejects exper t .structError
  | range (n a) : Func t n (some a) → a ≠ [] → (∀ v, ¬ PyInt a v) → (∀ x y c d, PyInt x c → PyInt y d → a ≠ x ++ ':' :: y) →
      StartRejects exper t .valueError

/-- The end is missing: the argument is a number. -/
def EndMissing (t : Str) : Refuses := fun e => (∃ n a v, Func t n (some a) ∧ PyInt a v) ∧ e = .indexError

/-- Bits in `learn`, where both bounds may be left out, but not the colon. -/
inductive BoundsRejects : Str → Refuses
  | colon (a v) : PyInt a v → BoundsRejects a .indexError
  | number (a) : (∀ v, ¬ PyInt a v) → (∀ x y c d, IntBound 0 x c → IntBound 0 y d → a ≠ x ++ ':' :: y) → BoundsRejects a .valueError

/-! ## `bundle` -/

/-- The slaves of a bundle.  Names of ports are read, but do not fit. -/
inductive SlavesRejects (s : Str) : Refuses
  | func (e) : FuncRejects s e → SlavesRejects s e
  | name (n a) : Func s n a → n ≠ t!"slaves" → SlavesRejects s .assertionError
  | number (a ts t) : Func s t!"slaves" (some a) → Pieces a ts → t ∈ ts → (∀ n, (n, t) ∉ reservedPorts) → NoInt t →
      SlavesRejects s .valueError

/-! ## `learn` -/

inductive LearnSourceRejects (s : Str) : Refuses
  | func (e) : FuncRejects s e → LearnSourceRejects s e
  | number (n a) : Func s n a → Unknown n → NoInt n → LearnSourceRejects s .valueError
  | exper (f a) : f ∈ fields → Func s (Field.name f) a → f.experimenter = true → LearnSourceRejects s .assertionError
  | range (f a e) : f ∈ fields → Func s (Field.name f) (some a) → f.experimenter = false → a ≠ [] → BoundsRejects a e →
      LearnSourceRejects s e
  | offset (f a w) : LearnSource s (.inl (f, a, w)) → f.experimenter = false → ¬ FitsIn 2 a → LearnSourceRejects s .structError

inductive LearnDestRejects (s : Str) : Refuses
  | func (e) : FuncRejects s e → LearnDestRejects s e
  | field (n a) : Func s n a → (∀ f ∈ fields, f.name = n → f.experimenter = true) → LearnDestRejects s .assertionError
  | range (f a e) : f ∈ fields → Func s (Field.name f) (some a) → f.experimenter = false → a ≠ [] → BoundsRejects a e →
      LearnDestRejects s e

/-- Source and destination have the same width, unless that of the source is 0. -/
def SameWidth (s d : Str) : Prop :=
  ∀ f a w g c k, LearnSource s (.inl (f, a, w)) → LearnDest d g c k → w = 0 ∨ w = k

/-- The parts of a specification.  A missing destination is a `TypeError`, after the source is read. -/
def specParts (s : Str) (dst mode : Option Str) : List Refuses :=
  LearnSourceRejects s :: (if mode = some t!"output" then [] else match dst with
    | none => [fun e => e = .typeError]
    | some d => [LearnDestRejects d, Needs (SameWidth s d) .assertionError])

def LearnSpecRejects (s : Str) (dst mode : Option Str) : Refuses :=
  Stops (specParts s dst mode) (∃ b, LearnSpec s dst mode b)

/-- A word that stands alone. -/
inductive LearnWordRejects (w : Str) : Refuses
  | func (e) : w ≠ [] → FuncRejects w e → LearnWordRejects w e
  | bare (n a) : w ≠ [] → Func w n a → NoArg a → LearnWordRejects w .assertionError
  | equals (n a h d u h' s r) : Func w n (some a) → a ≠ [] → Tok a h d u → Tok u h' s r → '=' ∉ h' → LearnWordRejects w .assertionError
  | spec (n a h d u h' s r e) : Func w n (some a) → a ≠ [] → Tok a h d u → Tok u h' s r → '=' ∈ h' →
      LearnSpecRejects s (some d) (some n) e → LearnWordRejects w e

/-- Settings, specifications and words up to the first one that is wrong. -/
inductive LearnRejects : Str → Refuses
  | noDest (u h s r e) : Tok u h s r → '=' ∈ h → LearnSpecRejects s none none e → LearnRejects u e
  | set (u h k u' h' v r w) : Tok u h k u' → '=' ∉ h → Tok u' h' v r → '=' ∈ h' → (k, w) ∈ learnWidths → NoInt v →
      LearnRejects u .valueError
  | spec (u h d u' h' s r e) : Tok u h d u' → '=' ∉ h → Tok u' h' s r → '=' ∈ h' → (∀ x ∈ learnWidths, x.1 ≠ d) →
      LearnSpecRejects s (some d) none e → LearnRejects u e
  | word (u h w r e) : u ≠ [] → Tok u h w r → '=' ∉ h → NoEq r → LearnWordRejects w e → LearnRejects u e
  | afterSet (u h k u' h' v r n l w e) : Tok u h k u' → '=' ∉ h → Tok u' h' v r → '=' ∈ h' → (k, w) ∈ learnWidths →
      IntSyntax v n l → LearnRejects r e → LearnRejects u e
  | afterSpec (u h d u' h' s r x e) : Tok u h d u' → '=' ∉ h → Tok u' h' s r → '=' ∈ h' → (∀ e ∈ learnWidths, e.1 ≠ d) →
      LearnSpec s (some d) none x → LearnRejects r e → LearnRejects u e
  | afterWord (u h w r x e) : u ≠ [] → Tok u h w r → '=' ∉ h → NoEq r → LearnWord w x → LearnRejects r e → LearnRejects u e

/-! ## The arguments of the actions, in the order in which they are looked at -/

/-- An action that must have its argument in brackets. -/
def Brackets : List Refuses := [fun e => e = .valueError]

/-- The field of `reg_load`. -/
def RegItem (u : Str) : Refuses := fun e => (u = [] ∧ e = .valueError) ∨ (u ≠ [] ∧ ItemRejects u e)

/-- The mask of `reg_load` has a one. -/
def HasOnes (u : Str) : Prop :=
  ∀ v t r p m, MatchItem u v t r → v ≠ [] → t.mask ≠ none → t.loadBytes = p ++ m → p.length = m.length → ∃ s k, MaskRun m s k

inductive ArgParts : Bool → Str → Str → List Refuses → Prop
  | std (eq a u h v r) : a ∈ stdActs → Tok u h v r → ArgParts eq a.name u (match a.arg with
      | .none => []
      | .ether => [LooseRejects v]
      | _ => [WholeRejects v])
  | output (eq u h v r) : Tok u h v r → ':' ∉ v → ArgParts eq t!"output" u [Needs ('/' ∉ v) .assertionError, PortNameRejects v]
  | outputMax (eq u h p m r) : Tok u h (p ++ ':' :: m) r → ':' ∉ p → ':' ∉ m →
      ArgParts eq t!"output" u [Needs ('/' ∉ p ++ ':' :: m) .assertionError, PortNameRejects p, WholeRejects m]
  | outputJunk (eq u h p m x r) : Tok u h (p ++ ':' :: (m ++ ':' :: x)) r → ':' ∉ p → ':' ∉ m →
      ArgParts eq t!"output" u [Needs ('/' ∉ p ++ ':' :: (m ++ ':' :: x)) .assertionError, PortNameRejects p, WholeRejects m]
  | note (eq u h v r) : Tok u h v r →
      ArgParts eq t!"note" u [Needs (eq = true → '=' ∈ h) .assertionError, Needs (∀ c ∈ v, c.toNat < 128) .valueError]
  | popQueue (eq u) : ArgParts eq t!"pop_queue" u []
  | exit (eq u) : ArgParts eq t!"exit" u []
  | tunnel (eq u h v r x) : x ∈ tunnelActs → Tok u h v r →
      ArgParts eq x.1 u [Needs (eq = true → '=' ∈ h) .assertionError, WholeRejects v]
  | resubmit (eq u h p r) : Tok u h p r →
      ArgParts eq t!"resubmit" u [ResubmitPortRejects p, Needs (eq = true → '=' ∈ h) .assertionError]
  | resubmitEq (u h p r) : Tok u h p r →
      ArgParts true t!"resubmit_table" u [ResubmitPortRejects p, Needs ('=' ∈ h) .assertionError]
  | resubmitTable (u p t r) : Words u [p, t] r →
      ArgParts false t!"resubmit_table" u [ResubmitPortRejects p, ResubmitTableRejects t]
  | cntIdsEq (u h v r ts) : Tok u h v r → Cut v ts → ArgParts true t!"cnt_ids" u [Needs ('=' ∈ h) .assertionError, LooseAll ts]
  | cntIds (u ts) : Pieces u ts → ArgParts false t!"cnt_ids" u [LooseAll ts]
  | brackets (n u) : n ∈ [t!"reg_load", t!"reg_load2", t!"reg_move", t!"multipath", t!"bundle", t!"bundle_load", t!"learn"] →
      ArgParts true n u Brackets
  | regLoad (u) : ArgParts false t!"reg_load" u [RegItem u, Needs (HasOnes u) .typeError]
  | regLoad2 (u) : ArgParts false t!"reg_load2" u [RegItem u]
  | regMove (u s d r) : Words u [s, d] r → ArgParts false t!"reg_move" u [BitsRejects s, BitsRejects d,
      Needs (∀ f a b u' g c d r, Bits u f a b u' → Bits u' g c d r → b - a = d - c) .assertionError]
  | multipath (u hs bs as ls gs ds r) : Words u [hs, bs, as, ls, gs, ds] r → ArgParts false t!"multipath" u
      [OneOf hashWords hs, WholeRejects bs, OneOf mpAlgWords as, WholeRejects ls, LooseRejects gs, BitsRejects ds]
  | bundle (u hs bs as st sl r) : Words u [hs, bs, as, st, sl] r → ArgParts false t!"bundle" u
      [OneOf hashWords hs, LooseRejects bs, OneOf bdAlgWords as, SlavesRejects sl]
  | bundleLoad (u hs bs as st ds sl r) : Words u [hs, bs, as, st, ds, sl] r → ArgParts false t!"bundle_load" u
      [OneOf hashWords hs, LooseRejects bs, OneOf bdAlgWords as, StartRejects false ds, SlavesRejects sl,
        Needs (∀ v l, IntSyntax bs v l → FitsIn 2 v) .structError, EndMissing ds]
  | outputReg (eq n u s m r) : n ∈ [t!"output_reg", t!"output_reg2"] → Words u [s, m] r →
      ArgParts eq n u [StartRejects true s, fun e => m ≠ [] ∧ LooseRejects m e, EndMissing s]
  | learn (u) : ArgParts false t!"learn" u [LearnRejects u]

/-- What is wrong with the arguments of the action `name`; `eq` says that they follow the name. -/
def ArgRejects (eq : Bool) (name u : Str) (e : Err) : Prop :=
  ∃ ps, ArgParts eq name u ps ∧ Stops ps (∃ b r, ActArgs eq name u b r) e

/-- What is wrong with the field of `set_…`. -/
def SetRejects (u : Str) (e : Err) : Prop :=
  (u ≠ [] ∧ ItemRejects u e) ∨ (∃ v t r, MatchItem u v t r ∧ v ≠ [] ∧ 65536 ≤ (setFieldWire t.cut).length ∧ e = .structError)

/-- What is wrong with the action at the start of a text. -/
inductive ActRejects : Str → Err → Prop
  | func (s h w r e) : Tok s h w r → FuncRejects w e → ActRejects s e
  | call (s h w r n a e) : Tok s h w r → Func w n (some a) → a ≠ [] → n ∈ actNames → ArgRejects false n a e → ActRejects s e
  | plain (s h w u e) : Tok s h w u → w ∈ actNames → ArgRejects true w u e → ActRejects s e
  | setCall (s h w r x a h' v r' e) : Tok s h w r → Func w (t!"set_" ++ x) (some a) → a ≠ [] → t!"set_" ++ x ∉ actNames →
      Tok a h' v r' → SetRejects (x ++ '=' :: v) e → ActRejects s e
  | setPlain (s h x u n a op v r e) : Tok s h (t!"set_" ++ x) u → Func (t!"set_" ++ x) n a → NoArg a → t!"set_" ++ x ∉ actNames →
      Tok u op v r → SetRejects (x ++ (op ++ v)) e → ActRejects s e

end Ofpstr.Spec
