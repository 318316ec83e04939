import Verif.Model.Py

/-!
# Specification: separators, brackets, tokens, numbers

What the text syntax of `ofpstr` is, said without the functions of the model.
-/

namespace Ofpstr.Spec

/-- The characters that end a token: comma and the six ASCII white-space characters. -/
def SepChar (c : Char) : Prop :=
  c = ',' ∨ c = ' ' ∨ c = '\t' ∨ c = '\n' ∨ c = '\r' ∨ c = '\x0b' ∨ c = '\x0c'

instance : DecidablePred SepChar := fun c => by unfold SepChar; infer_instance

/-- The four bracket pairs. -/
inductive Pair : Char → Char → Prop
  | round : Pair '(' ')'
  | curly : Pair '{' '}'
  | square : Pair '[' ']'
  | angle : Pair '<' '>'

/-- Not an opening bracket. -/
def NotOpen (c : Char) : Prop := c ≠ '(' ∧ c ≠ '{' ∧ c ≠ '[' ∧ c ≠ '<'

instance : DecidablePred NotOpen := fun c => by unfold NotOpen; infer_instance

/-- `Inside e s`: `s` can stand between an opening bracket and its closing bracket `e`; nested
brackets are complete, to any depth, and `e` itself occurs only inside them. -/
inductive Inside : Char → Str → Prop
  | nil (e) : Inside e []
  | char (e c s) : c ≠ e → NotOpen c → Inside e s → Inside e (c :: s)
  | nest (e o e' p s) : o ≠ e → Pair o e' → Inside e' p → Inside e s →
      Inside e (o :: p ++ e' :: s)

/-- `Unclosed e s`: `s` can follow an opening bracket without ever closing it. -/
inductive Unclosed : Char → Str → Prop
  | nil (e) : Unclosed e []
  | char (e c s) : c ≠ e → NotOpen c → Unclosed e s → Unclosed e (c :: s)
  | nest (e o e' p s) : o ≠ e → Pair o e' → Inside e' p → Unclosed e s →
      Unclosed e (o :: p ++ e' :: s)
  | deep (e o e' s) : o ≠ e → Pair o e' → Unclosed e' s → Unclosed e (o :: s)

/-- A token: no separator and no `=` outside brackets, all brackets closed. -/
inductive Token : Str → Prop
  | nil : Token []
  | char (c s) : ¬ SepChar c → c ≠ '=' → NotOpen c → Token s → Token (c :: s)
  | group (o e p s) : Pair o e → Inside e p → Token s → Token (o :: p ++ e :: s)

/-- A token that ends inside an unclosed bracket. -/
inductive OpenToken : Str → Prop
  | start (o e s) : Pair o e → Unclosed e s → OpenToken (o :: s)
  | char (c s) : ¬ SepChar c → c ≠ '=' → NotOpen c → OpenToken s → OpenToken (c :: s)
  | group (o e p s) : Pair o e → Inside e p → OpenToken s → OpenToken (o :: p ++ e :: s)

/-- White space in the sense of Python's `\s` for `str` patterns. -/
def Space (c : Char) : Prop :=
  c.toNat ∈ [9, 10, 11, 12, 13, 28, 29, 30, 31, 32, 0x85, 0xa0, 0x1680, 0x2000, 0x2001, 0x2002,
    0x2003, 0x2004, 0x2005, 0x2006, 0x2007, 0x2008, 0x2009, 0x200a, 0x2028, 0x2029, 0x202f, 0x205f,
    0x3000]

instance : DecidablePred Space := fun c => by unfold Space; infer_instance

/-- A text without white space, commas, `=` and opening brackets: one token. -/
def PlainText (s : Str) : Prop := ∀ c ∈ s, ¬ Space c ∧ c ≠ ',' ∧ c ≠ '=' ∧ NotOpen c

instance : DecidablePred PlainText := fun s => by unfold PlainText; infer_instance

/-- The value of a digit in base 8, 10 or 16. -/
inductive Digit : Nat → Char → Nat → Prop
  | mk (b c d) : d < b → (c, d) ∈ [('0', 0), ('1', 1), ('2', 2), ('3', 3), ('4', 4), ('5', 5),
      ('6', 6), ('7', 7), ('8', 8), ('9', 9), ('a', 10), ('b', 11), ('c', 12), ('d', 13), ('e', 14),
      ('f', 15), ('A', 10), ('B', 11), ('C', 12), ('D', 13), ('E', 14), ('F', 15)] → Digit b c d

/-- `Numeral b s n`: `s` is a non-empty string of base-`b` digits of value `n`. -/
inductive Numeral (b : Nat) : Str → Nat → Prop
  | one (c d) : Digit b c d → Numeral b [c] d
  | snoc (s n c d) : Numeral b s n → Digit b c d → Numeral b (s ++ [c]) (b * n + d)

/-- `s` is the usual decimal text of `n`: no leading zero. -/
def Decimal (s : Str) (n : Nat) : Prop := Numeral 10 s n ∧ ∀ t, s = '0' :: t → t = []

/-- `s` does not start with a digit of base `b`. -/
def NoDigit (b : Nat) (s : Str) : Prop := ∀ c t d, s = c :: t → ¬ Digit b c d

end Ofpstr.Spec

namespace Ofpstr.Spec

/-- What may stand before a token: white space and commas, or one `=` with white space around. -/
def Head (h : Str) : Prop :=
  (∀ c ∈ h, Space c ∨ c = ',') ∨
  (∃ w1 w2, h = w1 ++ '=' :: w2 ∧ (∀ c ∈ w1, Space c) ∧ (∀ c ∈ w2, Space c))

/-- A token ends here: nothing is left, or a separator or `=` comes next. -/
def Boundary (r : Str) : Prop := ∀ c t, r = c :: t → SepChar c ∨ c = '='

/-- The two ways to give an argument: `name=argument` and `name(argument)`. -/
inductive ArgText (name arg : Str) : Str → Prop
  | eq : ArgText name arg (name ++ '=' :: arg)
  | call : ArgText name arg (name ++ '(' :: arg ++ [')'])

/-- `HeadOf s h`: `h` is the separator text at the start of `s`, all of it. -/
inductive HeadOf : Str → Str → Prop
  | eq (w1 w2 r) : (∀ c ∈ w1, Space c) → (∀ c ∈ w2, Space c) → (∀ c t, r = c :: t → ¬ Space c) →
      HeadOf (w1 ++ '=' :: w2 ++ r) (w1 ++ '=' :: w2)
  | run (h r) : (∀ w t, h ++ r = w ++ '=' :: t → ∃ c ∈ w, ¬ Space c) →
      (∀ c ∈ h, Space c ∨ c = ',') → (∀ c t, r = c :: t → ¬ Space c ∧ c ≠ ',') →
      HeadOf (h ++ r) h

/-- `Listing ts s`: `s` lists the tokens `ts`, bracket-free and not empty, with runs of separators
before, between and after them. -/
inductive Listing : List Str → Str → Prop
  | nil (w) : (∀ c ∈ w, SepChar c) → Listing [] w
  | last (w t) : (∀ c ∈ w, SepChar c) → t ≠ [] → (∀ c ∈ t, ¬ SepChar c ∧ NotOpen c) →
      Listing [t] (w ++ t)
  | cons (w t ts c r) : (∀ c ∈ w, SepChar c) → t ≠ [] → (∀ c ∈ t, ¬ SepChar c ∧ NotOpen c) →
      SepChar c → Listing ts (c :: r) → Listing (t :: ts) (w ++ t ++ c :: r)

/-- The integer syntax: `IntSyntax u v l` says that `u` starts with an integer of value `v` that is
`l` characters long. -/
inductive IntSyntax : Str → Int → Nat → Prop
  | neg (ds r n) : Numeral 10 ds n → NoDigit 10 r →
      IntSyntax ('-' :: ds ++ r) (-(n : Int)) (1 + ds.length)
  | hex (x ds r n) : x = 'x' ∨ x = 'X' → Numeral 16 ds n → NoDigit 16 r →
      IntSyntax ('0' :: x :: ds ++ r) n (2 + ds.length)
  | oct (ds r n) : Numeral 8 ds n → NoDigit 8 r → 2 < ('0' :: ds ++ r).length →
      IntSyntax ('0' :: ds ++ r) n (1 + ds.length)
  | dec (ds r n) : Numeral 10 ds n → NoDigit 10 r →
      (∀ t, ds ++ r ≠ '0' :: 'x' :: t ∧ ds ++ r ≠ '0' :: 'X' :: t) →
      (∀ c d t, 2 < (ds ++ r).length → ds ++ r = '0' :: c :: t → ¬ Digit 8 c d) →
      IntSyntax (ds ++ r) n ds.length

/-- Dotted decimal: four decimal numbers without leading zeros. -/
inductive DottedQuad : Str → Bytes → Prop
  | mk (sa sb sc sd : Str) (a b c d : UInt8) : Decimal sa a.toNat → Decimal sb b.toNat →
      Decimal sc c.toNat → Decimal sd d.toNat →
      DottedQuad (sa ++ '.' :: (sb ++ '.' :: (sc ++ '.' :: sd))) [a, b, c, d]

/-- Pairs of hexadecimal digits, upper or lower case. -/
inductive HexText : Str → Bytes → Prop
  | nil : HexText [] []
  | cons (x y : Char) (i j : Nat) (s : Str) (b : Bytes) : Digit 16 x i → Digit 16 y j → HexText s b →
      HexText (x :: y :: s) (UInt8.ofNat (16 * i + j) :: b)

/-- The four notations of a MAC address; `g` are its twelve digits. -/
inductive MacText : Str → Bytes → Prop
  | bare (g : Str) (b : Bytes) : HexText g b → b.length = 6 → MacText g b
  | dots (g1 g2 g3 : Str) (b : Bytes) : HexText (g1 ++ (g2 ++ g3)) b → b.length = 6 → g1.length = 4 →
      g2.length = 4 → MacText (g1 ++ '.' :: (g2 ++ '.' :: g3)) b
  | pairs (c : Char) (x1 y1 x2 y2 x3 y3 x4 y4 x5 y5 x6 y6 : Char) (b : Bytes) : c = ':' ∨ c = '-' →
      HexText [x1, y1, x2, y2, x3, y3, x4, y4, x5, y5, x6, y6] b →
      MacText [x1, y1, c, x2, y2, c, x3, y3, c, x4, y4, c, x5, y5, c, x6, y6] b

/-- Groups of one to four hexadecimal digits with colons between them. -/
inductive Groups : Str → List Nat → Prop
  | one (s : Str) (w : Nat) : Numeral 16 s w → s.length ≤ 4 → Groups s [w]
  | cons (s : Str) (w : Nat) (t : Str) (ws : List Nat) : Numeral 16 s w → s.length ≤ 4 → Groups t ws →
      Groups (s ++ ':' :: t) (w :: ws)

/-- IPv6 addresses: eight groups, or fewer around one `::`. -/
inductive Ipv6Text : Str → List Nat → Prop
  | full (s : Str) (ws : List Nat) : Groups s ws → ws.length = 8 → Ipv6Text s ws
  | short (s t : Str) (as bs : List Nat) : (s = [] ∧ as = []) ∨ Groups s as →
      (t = [] ∧ bs = []) ∨ Groups t bs → as.length + bs.length ≤ 7 →
      Ipv6Text (s ++ ':' :: ':' :: t) (as ++ List.replicate (8 - (as.length + bs.length)) 0 ++ bs)

/-- The reserved port numbers of OpenFlow 1.3 and their names in the text form. -/
def reservedPorts : List (Nat × Str) := [(0xffffff00, t!"max"), (0xfffffff8, t!"in_port"),
  (0xfffffff9, t!"table"), (0xfffffffa, t!"normal"), (0xfffffffb, t!"flood"), (0xfffffffc, t!"all"),
  (0xfffffffd, t!"controller"), (0xfffffffe, t!"local"), (0xffffffff, t!"any")]

/-- The same names in capitals. -/
def reservedPortsUpper : List (Nat × Str) := [(0xffffff00, t!"MAX"), (0xfffffff8, t!"IN_PORT"),
  (0xfffffff9, t!"TABLE"), (0xfffffffa, t!"NORMAL"), (0xfffffffb, t!"FLOOD"), (0xfffffffc, t!"ALL"),
  (0xfffffffd, t!"CONTROLLER"), (0xfffffffe, t!"LOCAL"), (0xffffffff, t!"ANY")]

end Ofpstr.Spec
