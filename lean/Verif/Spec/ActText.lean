import Verif.Spec.Value
import Verif.Spec.Range

/-!
# Specification: the texts of actions

Which texts are actions, and what bytes they mean.  As in `Spec/Value.lean` the relations are grammars;
they say what the library takes, also where that is more than one would expect (text behind a number that
is ignored, names that are no fields).
-/

namespace Ofpstr.Spec

/-- A name, or a name with an argument in brackets; the closing bracket may be missing. -/
inductive Func : Str → Str → Option Str → Prop
  | bare (n) : (∀ c ∈ n, NotOpen c) → Func n n none
  | call (n o e p) : (∀ c ∈ n, NotOpen c) → Pair o e → Inside e p → Func (n ++ o :: (p ++ [e])) n (some p)
  | cut (n o e p) : (∀ c ∈ n, NotOpen c) → Pair o e → Unclosed e p → Func (n ++ o :: p) n (some p)

/-- No argument, or an empty one. -/
def NoArg (a : Option Str) : Prop := a = none ∨ a = some []

/-- Numbers of the given sizes that fit, big endian, one after the other. -/
def Packed (l : List (Nat × Int)) (b : Bytes) : Prop :=
  (∀ e ∈ l, FitsIn e.1 e.2) ∧ b = l.flatMap fun e => be e.1 e.2.toNat

/-- Texts that start with a number; the rest of each is ignored. -/
inductive LooseNums : List Str → List Int → Prop
  | nil : LooseNums [] []
  | cons (s v l ss vs) : IntSyntax s v l → LooseNums ss vs → LooseNums (s :: ss) (v :: vs)

/-- `Words u ts r`: `u` starts with the tokens `ts`, and `r` follows. -/
inductive Words : Str → List Str → Str → Prop
  | nil (u) : Words u [] u
  | cons (u h t u' ts r) : Tok u h t u' → Words u' ts r → Words u (t :: ts) r

/-- `ClosedPiece s t`: a piece of a list between separators; what is left of it is `t`: opening brackets
are lost. -/
inductive ClosedPiece : Str → Str → Prop
  | nil : ClosedPiece [] []
  | char (c s t) : ¬ SepChar c → NotOpen c → ClosedPiece s t → ClosedPiece (c :: s) (c :: t)
  | group (o e p s t) : Pair o e → Inside e p → ClosedPiece s t → ClosedPiece (o :: (p ++ e :: s)) (p ++ e :: t)

/-- The same, with a bracket that is not closed at the end. -/
inductive OpenPiece : Str → Str → Prop
  | start (o e p) : Pair o e → Unclosed e p → OpenPiece (o :: p) p
  | char (c s t) : ¬ SepChar c → NotOpen c → OpenPiece s t → OpenPiece (c :: s) (c :: t)
  | group (o e p s t) : Pair o e → Inside e p → OpenPiece s t → OpenPiece (o :: (p ++ e :: s)) (p ++ e :: t)

/-- Empty pieces do not count. -/
def nonEmpty (t : Str) : List Str := if t = [] then [] else [t]

/-- The pieces of a list. -/
inductive Pieces : Str → List Str → Prop
  | last (s t) : ClosedPiece s t → Pieces s (nonEmpty t)
  | open (s t) : OpenPiece s t → Pieces s (nonEmpty t)
  | cons (s t c r ts) : ClosedPiece s t → SepChar c → Pieces r ts → Pieces (s ++ c :: r) (nonEmpty t ++ ts)

/-! ## Fields and bit ranges -/

/-- The length in the id that the library makes of the name of a field; byte strings have 255. -/
def Field.nameLen (f : Field) (mask : Bool) : Nat :=
  min ((if mask && !f.textKind.noMaskId then 2 else 1) * f.textKind.size.getD 255) (255 - f.extra)

/-- The id that the library makes of the name of a field. -/
def Field.nameId (f : Field) (mask : Bool) : Bytes := f.header (mask && !f.textKind.noMaskId) (f.nameLen mask)

/-- A name where a field is expected.  Names that are not in the list stand for nothing. -/
inductive IdText (mask : Bool) : Str → Bytes → Prop
  | known (f) : f ∈ fields → IdText mask f.name (f.nameId mask)
  | unknown (s) : (∀ f ∈ fields, f.name ≠ s) → IdText mask s []

/-- A bound that may be left out. -/
inductive IntBound (d : Int) : Str → Int → Prop
  | absent : IntBound d [] d
  | num (s v) : PyInt s v → IntBound d s v

/-- `Bits u f a b r`: the text `u` starts with the bits of `f` from `a` up to but not including `b`. -/
inductive Bits : Str → Field → Int → Int → Str → Prop
  | whole (u h t f arg r) : Tok u h t r → Func t f.name arg → NoArg arg → f ∈ fields →
      Bits u f 0 (8 * f.nameLen false : Nat) r
  | range (u h t f x y a b r) : Tok u h t r → Func t f.name (some (x ++ ':' :: y)) → f ∈ fields →
      IntBound 0 x a → IntBound (8 * f.nameLen false : Nat) y b → Bits u f a b r

/-- Bits with both bounds, where the name need not be a field, or a whole field (with its id).  The
length of a whole field is the one of the id, which counts the experimenter of an experimenter field. -/
inductive EndBits (mask exper : Bool) : Str → Bytes → Int → Int → Prop
  | whole (s f arg) : Func s f.name arg → NoArg arg → f ∈ fields → (f.experimenter = true → exper = true) →
      EndBits mask exper s (f.nameId mask) 0 (8 * (f.nameLen mask + f.extra) : Nat)
  | range (s n x y id a b) : Func s n (some (x ++ ':' :: y)) → IdText mask n id → PyInt x a → PyInt y b →
      EndBits mask exper s id a b

/-! ## Arguments of the standard actions -/

/-- The argument of a standard action, if it has one.  What stands between the name and the argument is
not looked at.  An ethertype may have more text behind it. -/
inductive StdArg : StdAct → Str → Bytes → Str → Prop
  | none (a u) : a.arg = .none → StdArg a u (a.wire 0) u
  | ether (a u h v n l r) : a.arg = .ether → Tok u h v r → IntSyntax v n l → FitsIn 2 n →
      StdArg a u (a.wire n.toNat) r
  | number (a u h v n r) : a.arg = .ttl ∨ a.arg = .word → a.name ≠ t!"set_nw_ttl" → Tok u h v r → WholeInt v n →
      FitsIn a.arg.size n → StdArg a u (a.wire n.toNat) r
  | nwTtl (a u h v n r) : a.name = t!"set_nw_ttl" → Tok u h v r → WholeInt v n → FitsIn 1 n →
      StdArg a u (u16 23 ++ (u16 5 ++ u8 n.toNat)) r

/-- The argument of `output`: a port, and the number of bytes to send to a controller.  What follows a
second colon is ignored. -/
inductive OutputText : Str → Int → Int → Prop
  | port (p n) : PortText p n → OutputText p n 0xffff
  | max (p m n k) : PortText p n → WholeInt m k → OutputText (p ++ ':' :: m) n k
  | junk (p m r n k) : PortText p n → WholeInt m k → OutputText (p ++ ':' :: (m ++ ':' :: r)) n k

/-! ## Arguments of the Nicira actions -/

/-- `LowOnes n j`: the binary digits of `n` end in `j` ones, not more. -/
def LowOnes (n j : Nat) : Prop := n % 2 ^ (j + 1) = 2 ^ j - 1

/-- The ones at the low end of every byte, counted together. -/
inductive OnesOf : Bytes → Nat → Prop
  | nil : OnesOf [] 0
  | cons (b bs j k) : LowOnes b.toNat j → OnesOf bs k → OnesOf (b :: bs) (j + k)

/-- Offset and width that the library finds in a mask, the last byte first: the zeros before the first one,
and the ones from there on; the rest of a byte behind a zero is not looked at. -/
inductive MaskRun : Bytes → Nat → Nat → Prop
  | mk (m zs hs : Bytes) (b : UInt8) (i c j k) : m.reverse = zs ++ b :: hs → (∀ z ∈ zs, z = 0) →
      b.toNat = 2 ^ i * c → LowOnes c j → 0 < j → OnesOf hs k → MaskRun m (8 * zs.length + i) (j + k)

/-- What `reg_load` takes for value and mask: of an experimenter field also two bytes of the
experimenter. -/
def Tlv.loadBytes (t : Tlv) : Bytes := (if t.field.experimenter then [0xe0, 0x4d] else []) ++ t.body

/-- The body of `reg_load`. -/
inductive LoadBody : Tlv → Bytes → Prop
  | whole (t n v b) : t.mask = none → t.loadBytes = be n v → v < 256 ^ n →
      Packed [(2, 8 * (n : Int) - 1), (2, t.field.cls), (1, (2 * t.field.num : Nat)), (1, n), (8, v)] b → LoadBody t b
  | bits (t n v m s k b) : t.mask ≠ none → t.loadBytes = be n v ++ m → m.length = n → v < 256 ^ n → MaskRun m s k →
      Packed [(2, 64 * (s : Int) + ((k : Int) - 1)), (2, t.field.cls), (1, (2 * t.field.num : Nat)), (1, n),
        (8, (v / 2 ^ s : Nat))] b → LoadBody t b

/-- `w` in capitals, `s` in any letters. -/
inductive AnyCase : Str → Str → Prop
  | nil : AnyCase [] []
  | same (c s w) : AnyCase s w → AnyCase (c :: s) (c :: w)
  | lower (c d s w) : 'A' ≤ d → d ≤ 'Z' → c.toNat = d.toNat + 32 → AnyCase s w → AnyCase (c :: s) (d :: w)

/-- The port of `resubmit`. -/
inductive ResubmitPort : Str → Int → Prop
  | inPort (s) : AnyCase s t!"IN_PORT" → ResubmitPort s 0xfff8
  | num (s v) : WholeInt s v → v < 0xff00 → ResubmitPort s v

/-- The table of `resubmit_table`. -/
inductive ResubmitTable : Str → Int → Prop
  | absent : ResubmitTable [] 0xff
  | all (s) : AnyCase s t!"ALL" → ResubmitTable s 0xff
  | num (s v) : WholeInt s v → ResubmitTable s v

/-- The slaves of a bundle.  Names of ports are not possible: their numbers do not fit. -/
inductive Slaves : Str → List Int → Prop
  | none (s arg) : Func s t!"slaves" arg → NoArg arg → Slaves s []
  | some (s a ts vs) : Func s t!"slaves" (some a) → Pieces a ts → LooseNums ts vs → Slaves s vs

/-- The last argument of `output_reg`. -/
inductive MaxLen : Str → Int → Prop
  | absent : MaxLen [] 0xffff
  | num (s v l) : IntSyntax s v l → MaxLen s v

/-! ### `learn` -/

/-- The source of a specification: bits of a field, or a number (what is in brackets behind it is
ignored). -/
inductive LearnSource : Str → (Field × Int × Int) ⊕ Int → Prop
  | whole (s f arg) : Func s f.name arg → NoArg arg → f ∈ fields → LearnSource s (.inl (f, 0, (8 * f.nameLen false : Nat)))
  | range (s f x y a b) : Func s f.name (some (x ++ ':' :: y)) → f ∈ fields → IntBound 0 x a →
      IntBound (8 * f.nameLen false : Nat) y b → LearnSource s (.inl (f, a, b - a))
  | imm (s n arg v l) : Func s n arg → (∀ f ∈ fields, f.name ≠ n) → IntSyntax n v l → LearnSource s (.inr v)

/-- The destination of a specification: field, offset and width.  The width of a range without end is
that of the whole field. -/
inductive LearnDest : Str → Field → Int → Int → Prop
  | whole (s f arg) : Func s f.name arg → NoArg arg → f ∈ fields → LearnDest s f 0 (8 * f.nameLen false : Nat)
  | range (s f x y a b) : Func s f.name (some (x ++ ':' :: y)) → f ∈ fields → IntBound 0 x a → PyInt y b →
      LearnDest s f a (b - a)
  | tail (s f x a) : Func s f.name (some (x ++ [':'])) → f ∈ fields → IntBound 0 x a →
      LearnDest s f a (8 * f.nameLen false : Nat)

/-- What a specification does with the bits, as the library has it in the first word. -/
def learnFlag (mode : Option Str) : Int := if mode = some t!"reg_load" then 1024 else 0

/-- `LearnSpec src dst mode b`: the bytes of a specification.  With `output` the destination is not
looked at.  A source of zero bits takes the width of the destination. -/
inductive LearnSpec : Str → Option Str → Option Str → Bytes → Prop
  | outField (src dst f a w x y) : LearnSource src (.inl (f, a, w)) → f.experimenter = false → Packed [(2, a)] y →
      Packed [(2, 2048 + w)] x → LearnSpec src dst (some t!"output") (x ++ (f.nameId false ++ y))
  | outImm (src dst v x) : LearnSource src (.inr v) → Packed [(2, 6146), (2, v)] x →
      LearnSpec src dst (some t!"output") x
  | field (src dst mode f a w g c d x y z) : mode ≠ some t!"output" → LearnSource src (.inl (f, a, w)) →
      f.experimenter = false → LearnDest dst g c d → g.experimenter = false → w = 0 ∨ w = d → Packed [(2, a)] y →
      Packed [(2, c)] z → Packed [(2, learnFlag mode + d)] x →
      LearnSpec src (some dst) mode (x ++ ((f.nameId false ++ y) ++ (g.nameId false ++ z)))
  | imm (src dst mode v g c d n x z) : mode ≠ some t!"output" → LearnSource src (.inr v) → LearnDest dst g c d →
      g.experimenter = false → Packed [(2, c)] z → Packed [(2, 4096 + learnFlag mode + d)] x →
      n = (d.toNat + 15) / 16 * 2 →
      LearnSpec src (some dst) mode (x ++ (be n (v % (256 ^ n : Nat)).toNat ++ (g.nameId false ++ z)))

/-- A word that stands alone: nothing, or `mode(dst=src)`.  What follows the source is ignored. -/
inductive LearnWord : Str → Bytes → Prop
  | empty : LearnWord [] []
  | call (w n a h d u h' s r b) : Func w n (some a) → Tok a h d u → Tok u h' s r → '=' ∈ h' →
      LearnSpec s (some d) (some n) b → LearnWord w b

/-- No `=` comes next. -/
def NoEq (u : Str) : Prop := ∀ h t r, Tok u h t r → '=' ∉ h

/-- The arguments of `learn`: settings `key=number`, specifications `dst=src`, and words. -/
inductive LearnText : Str → List (Str × Int) → Bytes → Prop
  | nil : LearnText [] [] []
  | set (u h k u' h' v r n l w sets b) : Tok u h k u' → '=' ∉ h → Tok u' h' v r → '=' ∈ h' → (k, w) ∈ learnWidths →
      IntSyntax v n l → LearnText r sets b → LearnText u ((k, n) :: sets) b
  | spec (u h d u' h' s r x sets b) : Tok u h d u' → '=' ∉ h → Tok u' h' s r → '=' ∈ h' → (∀ e ∈ learnWidths, e.1 ≠ d) →
      LearnSpec s (some d) none x → LearnText r sets b → LearnText u sets (x ++ b)
  | word (u h w r x sets b) : u ≠ [] → Tok u h w r → '=' ∉ h → NoEq r → LearnWord w x → LearnText r sets b →
      LearnText u sets (x ++ b)

/-- The last setting of a key counts; the default is 0. -/
def lastSet (sets : List (Str × Int)) (k : Str) : Int :=
  (((sets.filter fun e => e.1 = k).getLast?).map (·.2)).getD 0

/-! ### All of them -/

/-- The two tunnel actions. -/
def tunnelActs : List (Str × Nat) := [(t!"set_tunnel", 2), (t!"set_tunnel64", 9)]

/-- `NxArg eq name u subtype body r`: `u` starts with the arguments of the action `name` and `r` follows;
`eq` says that the arguments follow the name, else they are what stands in the brackets. -/
inductive NxArg : Bool → Str → Str → Nat → Bytes → Str → Prop
  | popQueue (eq u) : NxArg eq t!"pop_queue" u 5 [] u
  | exit (eq u) : NxArg eq t!"exit" u 17 [] u
  | tunnel (eq u h v r n b e) : e ∈ tunnelActs → Tok u h v r → (eq = true → '=' ∈ h) → WholeInt v n → n ≤ 0xffffffff →
      Packed [(4, n)] b → NxArg eq e.1 u e.2 b r
  | tunnelLong (eq u h v r n b e) : e ∈ tunnelActs → Tok u h v r → (eq = true → '=' ∈ h) → WholeInt v n →
      0xffffffff < n → Packed [(8, n)] b → NxArg eq e.1 u 9 b r
  | resubmit (eq u h p r n b) : Tok u h p r → (eq = true → '=' ∈ h) → ResubmitPort p n → Packed [(2, n), (1, 0xff)] b →
      NxArg eq t!"resubmit" u 1 b r
  | resubmitEq (u h p r n b) : Tok u h p r → '=' ∈ h → ResubmitPort p n → Packed [(2, n), (1, 0xff)] b →
      NxArg true t!"resubmit_table" u 14 b r
  | resubmitTable (u p t r n k b) : Words u [p, t] r → ResubmitPort p n → ResubmitTable t k →
      Packed [(2, n), (1, k)] b → NxArg false t!"resubmit_table" u 14 b r
  | cntIdsEq (u h v r ts ids x y) : Tok u h v r → '=' ∈ h → v = joinStr t!":" ts → ts ≠ [] → (∀ t ∈ ts, ':' ∉ t) →
      LooseNums ts ids → Packed [(2, ids.length)] x → Packed (ids.map fun i => (2, i)) y →
      NxArg true t!"cnt_ids" u 21 (x ++ (pad 4 ++ y)) r
  | cntIds (u ts ids x y) : Pieces u ts → LooseNums ts ids → Packed [(2, ids.length)] x →
      Packed (ids.map fun i => (2, i)) y → NxArg false t!"cnt_ids" u 21 (x ++ (pad 4 ++ y)) u
  | regLoad (u v t r b) : MatchItem u v t r → v ≠ [] → LoadBody t b → NxArg false t!"reg_load" u 7 b r
  | regLoad2 (u v t r) : MatchItem u v t r → v ≠ [] → NxArg false t!"reg_load2" u 33 t.cut r
  | regMove (u f a b u' g c d r x) : Bits u f a b u' → Bits u' g c d r → b - a = d - c →
      Packed [(2, b - a), (2, c), (2, a)] x →
      NxArg false t!"reg_move" u 6 (x ++ (g.nameId false ++ f.nameId false)) r
  | multipath (u hs bs as ls gs ds r) (i j : Nat) (basis link arg l f a b x y z) : Words u [hs, bs, as, ls, gs, ds] r →
      hashWords[i]? = some hs → WholeInt bs basis → mpAlgWords[j]? = some as → WholeInt ls link → IntSyntax gs arg l →
      Bits ds f a b [] → Packed [(2, i), (2, basis)] x → Packed [(2, j), (2, link), (4, arg)] y →
      Packed [(2, 64 * a + (b - a - 1))] z →
      NxArg false t!"multipath" u 10 (x ++ (pad 2 ++ (y ++ (pad 2 ++ (z ++ f.nameId false))))) r
  | bundle (u hs bs as st sl r) (i j : Nat) (basis l id ports x y z) : Words u [hs, bs, as, st, sl] r →
      hashWords[i]? = some hs → IntSyntax bs basis l → bdAlgWords[j]? = some as → IdText true st id → Slaves sl ports →
      Packed [(2, j), (2, i), (2, basis)] x → Packed [(2, ports.length)] y → Packed (ports.map fun p => (2, p)) z →
      NxArg false t!"bundle" u 12 (x ++ (id ++ (y ++ (pad 10 ++ z)))) r
  | bundleLoad (u hs bs as st ds sl r) (i j : Nat) (basis l id did a b ports x y z) : Words u [hs, bs, as, st, ds, sl] r →
      hashWords[i]? = some hs → IntSyntax bs basis l → bdAlgWords[j]? = some as → IdText true st id →
      EndBits true false ds did a b → Slaves sl ports →
      Packed [(2, j), (2, i), (2, basis)] x → Packed [(2, ports.length), (2, 64 * a + (b - 1))] y →
      Packed (ports.map fun p => (2, p)) z →
      NxArg false t!"bundle_load" u 13 (x ++ (id ++ (y ++ (did ++ (pad 4 ++ z))))) r
  | outputReg (eq u s m r id a b k x y) : Words u [s, m] r → EndBits false true s id a b → id.length ≤ 4 → MaxLen m k →
      Packed [(2, 64 * a + (b % 64 - 1))] x → Packed [(2, k)] y →
      NxArg eq t!"output_reg" u 15 (x ++ (id ++ (y ++ pad 6))) r
  | outputRegLong (eq u s m r id a b k x) : Words u [s, m] r → EndBits false true s id a b → 4 < id.length → MaxLen m k →
      Packed [(2, 64 * a + (b % 64 - 1)), (2, k)] x → NxArg eq t!"output_reg" u 32 (x ++ id) r
  | outputReg2 (eq u s m r id a b k x) : Words u [s, m] r → EndBits false true s id a b → MaxLen m k →
      Packed [(2, 64 * a + (b % 64 - 1)), (2, k)] x → NxArg eq t!"output_reg2" u 32 (x ++ id) r
  | learn (u sets b x y) : LearnText u sets b →
      Packed [(2, lastSet sets t!"idle_timeout"), (2, lastSet sets t!"hard_timeout"), (2, lastSet sets t!"priority"),
        (8, lastSet sets t!"cookie"), (2, lastSet sets t!"flags"), (1, lastSet sets t!"table")] x →
      Packed [(2, lastSet sets t!"fin_idle_timeout"), (2, lastSet sets t!"fin_hard_timeout")] y →
      NxArg false t!"learn" u 16 (x ++ (pad 1 ++ (y ++ b))) []

/-- The arguments of an action, with the bytes of the whole action. -/
inductive ActArgs : Bool → Str → Str → Bytes → Str → Prop
  | std (eq a u b r) : a ∈ stdActs → StdArg a u b r → ActArgs eq a.name u b r
  | output (eq u h v r n k b) : Tok u h v r → '/' ∉ v → OutputText v n k → Packed [(4, n), (2, k)] b →
      ActArgs eq t!"output" u (u16 0 ++ (u16 16 ++ (b ++ pad 6))) r
  | note (eq u h v r b) : Tok u h v r → (eq = true → '=' ∈ h) → (∀ c ∈ v, c.toNat < 128) → QpMeans v b →
      10 + b.length < 65536 → ActArgs eq t!"note" u (nxRaw 8 b) r
  | nx (eq name u t b r) : NxArg eq name u t b r → (nxWire t b).length < 65536 → ActArgs eq name u (nxWire t b) r

/-- `ActText s b r`: the text `s` starts with an action of bytes `b`, and `r` follows.  An empty value
sets nothing: the action has no field; so does `set_` at the end of the text.  A word that is no action gives
no bytes and is left over. -/
inductive ActText : Str → Bytes → Str → Prop
  | call (s h w r n a b r') : Tok s h w r → Func w n (some a) → a ≠ [] → ActArgs false n a b r' → ActText s b r
  | plain (s h w u b r) : Tok s h w u → ActArgs true w u b r → ActText s b r
  | setCall (s h w r x a h' v r' t) : Tok s h w r → Func w (t!"set_" ++ x) (some a) → a ≠ [] → Tok a h' v r' →
      MatchItem (x ++ '=' :: v) v t [] → (v ≠ [] → (setFieldWire t.cut).length < 65536) →
      ActText s (setFieldWire (if v = [] then [] else t.cut)) r
  | setPlain (s h x u op v r t) : Tok s h (t!"set_" ++ x) u → Tok u op v r → MatchItem (x ++ (op ++ v)) v t [] →
      (v ≠ [] → (setFieldWire t.cut).length < 65536) → ActText s (setFieldWire (if v = [] then [] else t.cut)) r
  | setNothing (s h) : Tok s h t!"set_" [] → ActText s (setFieldWire []) []
  | other (s h w r n arg) : Tok s h w r → Func w n arg → w ∉ actNames → (NoArg arg ∨ n ∉ actNames) →
      (∀ x, w ≠ t!"set_" ++ x) → ActText s [] (w ++ r)

end Ofpstr.Spec
