import Verif.Spec.MatchPrint
import Verif.Spec.ActText

/-!
# Specification: the texts that actions are printed as

What is printed for which bytes, and which bytes are refused with which exception: the other direction of
`Spec/ActText.lean`.  It is about arbitrary bytes, not only about well-formed actions.  Bodies are given as
what they consist of; nothing here runs the printers of the model.
-/

namespace Ofpstr.Spec

/-- Numbers of two bytes, one after the other. -/
def wordsOf (ns : List Nat) : Bytes := ns.flatMap u16

/-- The texts of some numbers. -/
inductive NumsShown (P : Str → Nat → Prop) : List Str → List Nat → Prop
  | nil : NumsShown P [] []
  | cons (t n ts ns) : P t n → n < 65536 → NumsShown P ts ns → NumsShown P (t :: ts) (n :: ns)

/-- The name of the first header; nothing if there are fewer than four bytes. -/
inductive NameShown : Bytes → Str → Prop
  | short (b) : b.length < 4 → NameShown b []
  | head (b s r) : HeadShown b s r → NameShown b s

/-- Bits of a field, from the first to the one after the last. -/
inductive RangeShown (name : Str) (ofs n : Nat) : Str → Prop
  | mk (s t) : Decimal s ofs → Decimal t (ofs + n) → RangeShown name ofs n (name ++ '[' :: (s ++ ':' :: (t ++ t!"]")))

/-- The name alone, if these are all the bits of a field of that size. -/
inductive BitsShown (name : Str) (size ofs n : Nat) : Str → Prop
  | whole : ofs = 0 → n = 8 * size → BitsShown name size ofs n name
  | bits (s) : ¬ (ofs = 0 ∧ n = 8 * size) → RangeShown name ofs n s → BitsShown name size ofs n s

/-! ## Standard actions -/

/-- The text for the type of an action and the bytes after its length. -/
inductive StdText : Nat → Bytes → Str → Prop
  | output (p m r s) : p < 2 ^ 32 → m < 65536 → r.length = 6 → p ≠ 0xfffffffd ∨ m = 0xffff → PortShown 4 s (u32 p) →
      StdText 0 (u32 p ++ (u16 m ++ r)) (t!"output=" ++ s)
  | controller (m r s) : m < 65535 → r.length = 6 → NumShown (.hex 0) s m →
      StdText 0 (u32 0xfffffffd ++ (u16 m ++ r)) (t!"output=controller:" ++ s)
  | plain (a) : a ∈ stdActs → a.arg = .none → StdText a.type (pad 4) a.name
  | ttl (a) (n : UInt8) (r s) : a ∈ stdActs → a.arg = .ttl → (a.type = 15 → 3 ≤ r.length) → Decimal s n.toNat →
      StdText a.type (n :: r) (a.name ++ '=' :: s)
  | word (a n r s) : a ∈ stdActs → a.arg = .word → n < 2 ^ 32 → Decimal s n →
      StdText a.type (u32 n ++ r) (a.name ++ '=' :: s)
  | ether (a n r s) : a ∈ stdActs → a.arg = .ether → n < 65536 → NumShown (.hex 6) s n →
      StdText a.type (u16 n ++ r) (a.name ++ '=' :: s)

/-- Bodies that are refused. -/
inductive StdFails : Nat → Bytes → Err → Prop
  | output (p) : p.length ≠ 12 → StdFails 0 p .structError
  | plain (a p) : a ∈ stdActs → a.arg = .none → p ≠ pad 4 → StdFails a.type p .assertionError
  | ttl (a p) : a ∈ stdActs → a.arg = .ttl → p.length < (if a.type = 15 then 4 else 1) → StdFails a.type p .structError
  | word (a p) : a ∈ stdActs → a.arg = .word → p.length < 4 → StdFails a.type p .structError
  | ether (a p) : a ∈ stdActs → a.arg = .ether → p.length < 2 → StdFails a.type p .structError

/-! ## Learn -/

/-- A field and an offset in a specification, and the bytes after them. -/
inductive SpecField (nbits : Nat) : Bytes → Str → Bytes → Prop
  | mk (a b c l : UInt8) (ofs r name r' s) : HeadShown (a :: b :: c :: l :: (u16 ofs ++ r)) name r' → ofs < 65536 →
      BitsShown name l.toNat ofs nbits s → SpecField nbits (a :: b :: c :: l :: (u16 ofs ++ r)) s r

inductive SpecFieldFails : Bytes → Err → Prop
  | head (b e) : HeadFails b e → SpecFieldFails b e
  | short (b) : b.length < 6 → (∀ e, ¬ HeadFails b e) → SpecFieldFails b .structError

/-- The source of a specification with that first word: an immediate number, in pairs of bytes, or a field.
The bytes may end within a number. -/
inductive SpecSource (n : Nat) (st : NumStyle) : Bytes → Str → Bytes → Prop
  | imm (v r s) : n / 4096 = 1 → v.length = 2 * ((n % 1024 + 15) / 16) ∨ (v.length < 2 * ((n % 1024 + 15) / 16) ∧ r = []) →
      NumText be st s v → SpecSource n st (v ++ r) s r
  | fld (b s r) : n / 4096 = 0 → SpecField (n % 1024) b s r → SpecSource n st b s r

/-- The text of a specification.  Those of an unknown kind show the one before again. -/
inductive SpecText (prev : Option Str) (n : Nat) : Bytes → Str → Bytes → Prop
  | mtch (b s r d r') : n / 1024 % 4 = 0 → SpecSource n (.hex 0) b s r → SpecField (n % 1024) r d r' →
      SpecText prev n b (d ++ '=' :: s) r'
  | load (b s r d r') : n / 1024 % 4 = 1 → SpecSource n (.hex 0) b s r → SpecField (n % 1024) r d r' →
      SpecText prev n b (t!"reg_load(" ++ (d ++ '=' :: (s ++ t!")"))) r'
  | output (b s r) : n / 1024 % 4 = 2 → SpecSource n .dec b s r →
      SpecText prev n b (t!"output(" ++ (s ++ t!")")) r
  | again (b s r d r' p) : n / 1024 % 4 = 3 → SpecSource n (.hex 0) b s r → SpecField (n % 1024) r d r' → prev = some p →
      SpecText prev n b p r'

inductive SpecFails (prev : Option Str) (n : Nat) : Bytes → Err → Prop
  | source (b e) : n / 4096 = 0 → SpecFieldFails b e → SpecFails prev n b e
  | dest (b st s r e) : n / 1024 % 4 ≠ 2 → SpecSource n st b s r → SpecFieldFails r e → SpecFails prev n b e
  | first (b st s r d r') : n / 1024 % 4 = 3 → SpecSource n st b s r → SpecField (n % 1024) r d r' → prev = none →
      SpecFails prev n b .nameError

/-- Specifications up to a zero word or the end. -/
inductive SpecsShown : Option Str → Bytes → List Str → Prop
  | done (p b) : b.length ≤ 2 → SpecsShown p b []
  | zero (p r) : r ≠ [] → SpecsShown p (u16 0 ++ r) []
  | more (p n b s r ss) : 0 < n → n < 8192 → b ≠ [] → SpecText p n b s r → SpecsShown (some s) r ss →
      SpecsShown p (u16 n ++ b) (s :: ss)

inductive SpecsFail : Option Str → Bytes → Err → Prop
  | bits (p n b) : 8192 ≤ n → n < 65536 → b ≠ [] → SpecsFail p (u16 n ++ b) .assertionError
  | now (p n b e) : 0 < n → n < 8192 → b ≠ [] → SpecFails p n b e → SpecsFail p (u16 n ++ b) e
  | later (p n b s r e) : 0 < n → n < 8192 → b ≠ [] → SpecText p n b s r → SpecsFail (some s) r e →
      SpecsFail p (u16 n ++ b) e

/-! ## Nicira actions -/

/-- The bytes that are shown as a match for the bits `ofs`, `nbits` of a field with value `v`; `g` is the
field that has the name shown.  All the bits of `g`: its id and the value, else a mask. -/
inductive LoadShown (f g : Field) (on v : Nat) : Bytes → Prop
  | whole : on / 64 = 0 → on % 64 + 1 = 8 * g.nameLen false →
      LoadShown f g on v (g.nameId false ++ be (g.nameLen false) v)
  | bits : ¬ (on / 64 = 0 ∧ on % 64 + 1 = 8 * g.nameLen false) → 2 * g.nameLen false < 256 →
      LoadShown f g on v (u16 f.cls ++ (fieldByte f true ++ (u8 (2 * g.nameLen false) ++
        (be (g.nameLen false) (v * 2 ^ (on / 64)) ++ be (g.nameLen false) ((2 ^ (on % 64 + 1) - 1) * 2 ^ (on / 64))))))

/-- A slave port: a reserved name, or the number. -/
inductive SlaveShown : Str → Nat → Prop
  | name (k s) : (k, s) ∈ reservedPorts → SlaveShown s (k % 65536)
  | num (s n) : (∀ e ∈ reservedPorts, e.1 % 65536 ≠ n) → Decimal s n → SlaveShown s n

def ResubmitShown (s : Str) (p : Nat) : Prop := (p = 0xfff8 ∧ s = t!"in_port") ∨ (p ≠ 0xfff8 ∧ Decimal s p)

/-- The text for the sub-type and the bytes after it. -/
inductive NxText : Nat → Bytes → Str → Prop
  | resubmit (p r s) : p < 65536 → ResubmitShown s p → NxText 1 (u16 p ++ r) (t!"resubmit(" ++ (s ++ t!")"))
  | tunnel (n r s) : n < 2 ^ 32 → NumShown (.hex 0) s n → NxText 2 (u32 n ++ r) (t!"set_tunnel(" ++ (s ++ t!")"))
  | popQueue (p) : NxText 5 p t!"pop_queue"
  | regMove (n so d_o : Nat) (q s) (l : UInt8) (r d r' x y) : n < 65536 → so < 65536 → d_o < 65536 →
      HeadShown q s r → q[3]? = some l → HeadShown r d r' → BitsShown s l.toNat so n x → BitsShown d l.toNat d_o n y →
      NxText 6 (u16 n ++ (u16 so ++ (u16 d_o ++ q))) (t!"reg_move(" ++ (y ++ '=' :: (x ++ t!")")))
  | regLoad (f g hm on) (l : UInt8) (v r b ss) : f ∈ fields → f.cls ≠ 0xffff → g ∈ fields → g.name = f.shownName →
      on < 65536 → v < 2 ^ 64 → LoadShown f g on v b → MatchShown b ss →
      NxText 7 (u16 on ++ (u16 f.cls ++ (fieldByte f hm ++ l :: (u64 v ++ r))))
        (t!"reg_load(" ++ (joinStr t!"," ss ++ t!")"))
  | note (p) : NxText 8 p (t!"note(" ++ (b2aQp p ++ t!")"))
  | tunnel64 (n r s) : n < 2 ^ 64 → NumShown (.hex 0) s n →
      NxText 9 (u64 n ++ r) (t!"set_tunnel64(" ++ (s ++ t!")"))
  | multipath (hash basis x alg link arg y on q h a d tb tl ta td) : hash < 65536 → basis < 65536 → x.length = 2 →
      alg < 65536 → link < 65536 → arg < 2 ^ 32 → y.length = 2 → on < 65536 → hashWords[hash]? = some h →
      mpAlgWords[alg]? = some a → NameShown q d → Decimal tb basis → Decimal tl link → NumShown (.hex 0) ta arg →
      RangeShown d (on / 64) (on % 64 + 1) td →
      NxText 10 (u16 hash ++ (u16 basis ++ (x ++ (u16 alg ++ (u16 link ++ (u32 arg ++ (y ++ (u16 on ++ q))))))))
        (t!"multipath(" ++ (h ++ ',' :: (tb ++ ',' :: (a ++ ',' :: (tl ++ ',' :: (ta ++ ',' :: (td ++ t!")")))))))
  | bundle (alg hash basis id x ns r a h d tb ts) : alg < 65536 → hash < 65536 → basis < 65536 → id.length = 4 →
      ns.length < 65536 → x.length = 10 → bdAlgWords[alg]? = some a → hashWords[hash]? = some h → NameShown id d →
      Decimal tb basis → NumsShown SlaveShown ts ns →
      NxText 12 (u16 alg ++ (u16 hash ++ (u16 basis ++ (id ++ (u16 ns.length ++ (x ++ (wordsOf ns ++ r)))))))
        (t!"bundle(" ++ (h ++ ',' :: (tb ++ ',' :: (a ++ ',' :: (d ++ t!",slaves(" ++ (joinStr t!"," ts ++ t!"))"))))))
  | bundleLoad (alg hash basis id ns on id' x r a h d d' tb td ts) : alg < 65536 → hash < 65536 → basis < 65536 →
      id.length = 4 → ns.length < 65536 → on < 65536 → id'.length = 4 → x.length = 4 → bdAlgWords[alg]? = some a →
      hashWords[hash]? = some h → NameShown id d → NameShown id' d' → Decimal tb basis →
      RangeShown d' (on / 64) (on % 64 + 1) td → NumsShown SlaveShown ts ns →
      NxText 13 (u16 alg ++ (u16 hash ++ (u16 basis ++ (id ++ (u16 ns.length ++ (u16 on ++ (id' ++ (x ++ (wordsOf ns ++ r)))))))))
        (t!"bundle_load(" ++ (h ++ ',' :: (tb ++ ',' :: (a ++ ',' :: (d ++ ',' :: (td ++ (t!",slaves(" ++
          (joinStr t!"," ts ++ t!"))"))))))))
  | resubmitTable (p) (n : UInt8) (r s t) : p < 65536 → ResubmitShown s p →
      (n = 255 ∧ t = t!"all") ∨ (n ≠ 255 ∧ Decimal t n.toNat) →
      NxText 14 (u16 p ++ n :: r) (t!"resubmit_table(" ++ (s ++ ',' :: (t ++ t!")")))
  | outputReg (on) (a b c l : UInt8) (r d s) : on < 65536 → 8 ≤ r.length → NameShown [a, b, c, l] d →
      BitsShown d l.toNat (on / 64) (on % 64 + 1) s →
      NxText 15 (u16 on ++ (a :: b :: c :: l :: r)) (t!"output_reg(" ++ (s ++ t!")"))
  | learn (y : UInt8) (r ss) : SpecsShown none r ss →
      NxText 16 (pad 17 ++ y :: (pad 4 ++ r)) (t!"learn(" ++ (joinStr t!"," ss ++ t!")"))
  | exit (p) : NxText 17 p t!"exit"
  | cntIds (x ns r ts) : x.length = 4 → ns.length < 65536 → NumsShown (NumShown (.hex 0)) ts ns →
      NxText 21 (u16 ns.length ++ (x ++ (wordsOf ns ++ r))) (t!"cnt_ids(" ++ (joinStr t!"," ts ++ t!")"))
  | outputReg2 (on x) (a b c l : UInt8) (r d r' s) : on < 65536 → x.length = 2 → HeadShown (a :: b :: c :: l :: r) d r' →
      BitsShown d l.toNat (on / 64) (on % 64 + 1) s →
      NxText 32 (u16 on ++ (x ++ (a :: b :: c :: l :: r))) (t!"output_reg2(" ++ (s ++ t!")"))
  | regLoad2 (p s) : EntryText p s → NxText 33 p (t!"reg_load2(" ++ (s ++ t!")"))
  | regLoad2Short (p) : p.length < 4 → NxText 33 p t!"reg_load2()"

/-- The sizes of the fixed parts. -/
def nxSizes : List (Nat × Nat) := [(1, 2), (2, 4), (6, 6), (7, 14), (9, 8), (10, 18), (12, 22), (13, 22), (14, 3), (15, 14),
  (16, 22), (21, 2), (32, 8)]

/-- Bodies that are refused. -/
inductive NxFails : Nat → Bytes → Err → Prop
  | short (t k p) : (t, k) ∈ nxSizes → p.length < k → NxFails t p .structError
  | moveSource (p q e) : p.length = 6 → HeadFails q e → NxFails 6 (p ++ q) e
  | moveShort (p q) : p.length = 6 → q.length < 4 → NxFails 6 (p ++ q) .structError
  | moveDest (p q s r e) : p.length = 6 → HeadShown q s r → HeadFails r e → NxFails 6 (p ++ q) e
  | moveDestShort (p q s r) : p.length = 6 → HeadShown q s r → r.length < 4 → NxFails 6 (p ++ q) .structError
  | loadField (p id r e) : p.length = 2 → id.length = 4 → 8 ≤ r.length → HeadFails id e → NxFails 7 (p ++ (id ++ r)) e
  | loadClass (p c) (x l : UInt8) (r) : p.length = 2 → 8 ≤ r.length → c < 65536 → c ∉ [0, 1, 0x8000, 0xffff] →
      NxFails 7 (p ++ (u16 c ++ x :: l :: r)) .structError
  | load (f g hm on) (l : UInt8) (v r b e) : f ∈ fields → f.cls ≠ 0xffff → g ∈ fields → g.name = f.shownName →
      on < 65536 → v < 2 ^ 64 → LoadShown f g on v b → MatchFails b e →
      NxFails 7 (u16 on ++ (u16 f.cls ++ (fieldByte f hm ++ l :: (u64 v ++ r)))) e
  | loadLong (f g hm on) (l : UInt8) (v r) : f ∈ fields → f.cls ≠ 0xffff → g ∈ fields → g.name = f.shownName →
      on < 65536 → v < 2 ^ 64 → (∀ b, ¬ LoadShown f g on v b) →
      NxFails 7 (u16 on ++ (u16 f.cls ++ (fieldByte f hm ++ l :: (u64 v ++ r)))) .structError
  | multipathField (p q e) : p.length = 18 → HeadFails q e → NxFails 10 (p ++ q) e
  | multipathName (hash basis x alg r q) : hash < 65536 → basis < 65536 → x.length = 2 → alg < 65536 → r.length = 10 →
      (∀ e, ¬ HeadFails q e) → 2 ≤ hash ∨ 4 ≤ alg →
      NxFails 10 (u16 hash ++ (u16 basis ++ (x ++ (u16 alg ++ (r ++ q))))) .indexError
  | slaves (t p n x q) : t ∈ [12, 13] → p.length = 10 → n < 65536 → x.length = 10 → q.length < 2 * n →
      NxFails t (p ++ (u16 n ++ (x ++ q))) .structError
  | bundleName (t alg hash y n x q) : t ∈ [12, 13] → alg < 65536 → hash < 65536 → y.length = 6 → n < 65536 →
      x.length = 10 → 2 * n ≤ q.length → 2 ≤ alg ∨ 2 ≤ hash →
      NxFails t (u16 alg ++ (u16 hash ++ (y ++ (u16 n ++ (x ++ q))))) .indexError
  | bundleField (t alg hash basis id n x q e) : t ∈ [12, 13] → alg < 2 → hash < 2 → basis < 65536 → id.length = 4 →
      n < 65536 → x.length = 10 → 2 * n ≤ q.length → HeadFails id e →
      NxFails t (u16 alg ++ (u16 hash ++ (u16 basis ++ (id ++ (u16 n ++ (x ++ q)))))) e
  | bundleDest (alg hash basis id n on id' x q e) : alg < 2 → hash < 2 → basis < 65536 → id.length = 4 → n < 65536 →
      on < 65536 → id'.length = 4 → x.length = 4 → 2 * n ≤ q.length → (∀ e, ¬ HeadFails id e) → HeadFails id' e →
      NxFails 13 (u16 alg ++ (u16 hash ++ (u16 basis ++ (id ++ (u16 n ++ (u16 on ++ (id' ++ (x ++ q)))))))) e
  | outputField (p id r e) : p.length = 2 → id.length = 4 → 8 ≤ r.length → HeadFails id e → NxFails 15 (p ++ (id ++ r)) e
  | learnFixed (p) : 22 ≤ p.length → (∀ y r, p ≠ pad 17 ++ y :: (pad 4 ++ r)) → NxFails 16 p .typeError
  | learn (y : UInt8) (r e) : SpecsFail none r e → NxFails 16 (pad 17 ++ y :: (pad 4 ++ r)) e
  | ids (n q) : n < 65536 → q.length < 4 + 2 * n → NxFails 21 (u16 n ++ q) .structError
  | output2Field (p q e) : p.length = 4 → HeadFails q e → NxFails 32 (p ++ q) e
  | regLoad2 (p e) : EntryFails p e → NxFails 33 p e

/-! ## Actions -/

/-- What is printed for the first action of the bytes.  The body of `set_field` does not end where the action
ends; the others end there, or where the bytes end. -/
inductive ActionText : Bytes → Str → Prop
  | output (t l r s) : t < 65536 → l < 65536 → t ≠ 25 → t ≠ 0xffff → StdText t (r.take (l - 4)) s →
      ActionText (u16 t ++ (u16 l ++ r)) s
  | nx (l t r s) : l < 65536 → t < 65536 → t ≠ 25 → NxText t (r.take (l - 10)) s →
      ActionText (u16 0xffff ++ (u16 l ++ (u32 0x2320 ++ (u16 t ++ r)))) s
  | setField (l r s) : l < 65536 → EntryText r s → ActionText (u16 25 ++ (u16 l ++ r)) (t!"set_" ++ s)
  | setShort (l r) : l < 65536 → r.length < 4 → ActionText (u16 25 ++ (u16 l ++ r)) t!"set_"
  | setNx (l r s) : l < 65536 → EntryText (u32 0x2320 ++ (u16 25 ++ r)) s →
      ActionText (u16 0xffff ++ (u16 l ++ (u32 0x2320 ++ (u16 25 ++ r)))) (t!"set_" ++ s)
  | unknown (t l r) : t < 65536 → l < 65536 → t ∉ [0, 25, 0xffff] → (∀ a ∈ stdActs, a.type ≠ t) →
      ActionText (u16 t ++ (u16 l ++ r)) t!"?"
  | unknownNx (l t r) : l < 65536 → t < 65536 → t ≠ 25 → (∀ a ∈ nxActs, a.2 ≠ t) →
      ActionText (u16 0xffff ++ (u16 l ++ (u32 0x2320 ++ (u16 t ++ r)))) t!"?"
  | vendor (l id r) : l < 65536 → id < 2 ^ 32 → id ≠ 0x2320 → ActionText (u16 0xffff ++ (u16 l ++ (u32 id ++ r))) t!"?"

/-- The first action is refused. -/
inductive ActionFails : Bytes → Err → Prop
  | output (t l r e) : t < 65536 → l < 65536 → t ≠ 25 → t ≠ 0xffff → StdFails t (r.take (l - 4)) e →
      ActionFails (u16 t ++ (u16 l ++ r)) e
  | nx (l t r e) : l < 65536 → t < 65536 → t ≠ 25 → NxFails t (r.take (l - 10)) e →
      ActionFails (u16 0xffff ++ (u16 l ++ (u32 0x2320 ++ (u16 t ++ r)))) e
  | setField (l r e) : l < 65536 → EntryFails r e → ActionFails (u16 25 ++ (u16 l ++ r)) e
  | setNx (l r e) : l < 65536 → EntryFails (u32 0x2320 ++ (u16 25 ++ r)) e →
      ActionFails (u16 0xffff ++ (u16 l ++ (u32 0x2320 ++ (u16 25 ++ r)))) e
  | noVendor (l r) : l < 65536 → r.length < 4 → ActionFails (u16 0xffff ++ (u16 l ++ r)) .structError
  | noType (l r) : l < 65536 → r.length < 2 → ActionFails (u16 0xffff ++ (u16 l ++ (u32 0x2320 ++ r))) .structError

/-- The texts of the actions, one after the other.  Four or fewer bytes at the end are ignored. -/
inductive ActionsShown : Bytes → List Str → Prop
  | done (b) : b.length ≤ 4 → ActionsShown b []
  | more (b s ss) : 4 < b.length → ActionText b s → lenField b ≠ 0 → ActionsShown (b.drop (lenField b)) ss →
      ActionsShown b (s :: ss)

/-- Some action is refused, or has length zero and is printed for ever. -/
inductive ActionsFail : Bytes → Err → Prop
  | now (b e) : 4 < b.length → ActionFails b e → ActionsFail b e
  | stuck (b s) : 4 < b.length → ActionText b s → lenField b = 0 → ActionsFail b .loops
  | later (b s e) : 4 < b.length → ActionText b s → lenField b ≠ 0 → ActionsFail (b.drop (lenField b)) e →
      ActionsFail b e

end Ofpstr.Spec
