import Verif.Spec.Built
import Verif.Spec.Flow

/-!
# Specification: the texts of match values

Which texts are values of a kind of field, and what bytes they mean.  The relations are grammars: nothing
here runs the parsers of the model.
-/

namespace Ofpstr.Spec

/-- The whole text is one integer. -/
def WholeInt (s : Str) (v : Int) : Prop := IntSyntax s v s.length

/-- A value, or a value and a mask with `/` between them. -/
inductive Masked (P Q : Str → Bytes → Prop) : Str → Bytes → Option Bytes → Prop
  | plain (s p) : P s p → Masked P Q s p none
  | mask (a b p q) : P a p → Q b q → Masked P Q (a ++ '/' :: b) p (some q)

/-- Numbers are cut to the size of the field. -/
def UintValue (n : Nat) (s : Str) (p : Bytes) : Prop :=
  ∃ v, WholeInt s v ∧ p = be n (v % (256 ^ n : Nat)).toNat

/-- Ports: a reserved name in lower or upper case (cut to the size of the field), or a number that fits. -/
inductive PortValue (n : Nat) : Str → Bytes → Prop
  | name (k s) : (k, s) ∈ reservedPorts ++ reservedPortsUpper → PortValue n s (be n (k % 256 ^ n))
  | num (s v) : WholeInt s v → FitsIn n v → PortValue n s (be n v.toNat)

/-- The notations of a MAC address.  In the one with groups of four digits the separators are any
characters but newlines; if both are digits, the text is not one address, it starts with one of twelve
digits. -/
inductive MacValue : Str → Bytes → Prop
  | bare (g b) : HexText g b → b.length = 6 → MacValue g b
  | groups (g1 g2 g3 : Str) (c d : Char) (b : Bytes) : HexText (g1 ++ (g2 ++ g3)) b → b.length = 6 →
      g1.length = 4 → g2.length = 4 → c ≠ '\n' → d ≠ '\n' →
      (∀ i j, Digit 16 c i → ¬ Digit 16 d j) → MacValue (g1 ++ c :: (g2 ++ d :: g3)) b
  | pairs (c x1 y1 x2 y2 x3 y3 x4 y4 x5 y5 x6 y6 : Char) (b : Bytes) : c = ':' ∨ c = '-' →
      HexText [x1, y1, x2, y2, x3, y3, x4, y4, x5, y5, x6, y6] b →
      MacValue [x1, y1, c, x2, y2, c, x3, y3, c, x4, y4, c, x5, y5, c, x6, y6] b

/-- Numbers as in C. -/
inductive CNum : Str → Nat → Prop
  | hex (x ds n) : x = 'x' ∨ x = 'X' → Numeral 16 ds n → CNum ('0' :: x :: ds) n
  | oct (ds n) : Numeral 8 ('0' :: ds) n → CNum ('0' :: ds) n
  | dec (c ds n) : c ≠ '0' → Numeral 10 (c :: ds) n → CNum (c :: ds) n

/-- `Aton k s b`: numbers with dots between them, one byte each but the last, which fills up the `k`
bytes. -/
inductive Aton : Nat → Str → Bytes → Prop
  | last (k s n) : CNum s n → n < 256 ^ (k + 1) → Aton (k + 1) s (be (k + 1) n)
  | part (k sa a s b) : CNum sa a → a < 256 → Aton k s b →
      Aton (k + 1) (sa ++ '.' :: s) (UInt8.ofNat a :: b)

/-- Groups of an IPv6 address; dotted decimal at the end counts as two. -/
inductive QuadGroups : Str → List Nat → Prop
  | one (s w) : Numeral 16 s w → s.length ≤ 4 → QuadGroups s [w]
  | quad (s : Str) (a b c d : UInt8) : DottedQuad s [a, b, c, d] →
      QuadGroups s [256 * a.toNat + b.toNat, 256 * c.toNat + d.toNat]
  | cons (s w t ws) : Numeral 16 s w → s.length ≤ 4 → QuadGroups t ws → QuadGroups (s ++ ':' :: t) (w :: ws)

/-- IPv6 addresses: eight groups, or fewer around one `::`. -/
inductive Pton6 : Str → List Nat → Prop
  | full (s ws) : QuadGroups s ws → ws.length = 8 → Pton6 s ws
  | short (s t as bs) : (s = [] ∧ as = []) ∨ Groups s as → (t = [] ∧ bs = []) ∨ QuadGroups t bs →
      as.length + bs.length ≤ 7 →
      Pton6 (s ++ ':' :: ':' :: t) (as ++ List.replicate (8 - (as.length + bs.length)) 0 ++ bs)

def Ipv6Value (s : Str) (p : Bytes) : Prop := ∃ ws, Pton6 s ws ∧ p = ws.flatMap (be 2)

/-- Decimal digits, with single underscores between them. -/
def Underscored (s : Str) (n : Nat) : Prop :=
  Numeral 10 (s.filter (· != '_')) n ∧ s.head? ≠ some '_' ∧ s.getLast? ≠ some '_' ∧ ∀ a b, s ≠ a ++ '_' :: '_' :: b

/-- The texts that Python's `int` takes: a number with a sign or none, and white space around. -/
inductive PyInt : Str → Int → Prop
  | pos (w s z n) : (∀ c ∈ w ++ z, Space c) → Underscored s n → PyInt (w ++ s ++ z) n
  | plus (w s z n) : (∀ c ∈ w ++ z, Space c) → Underscored s n → PyInt (w ++ '+' :: s ++ z) n
  | minus (w s z n) : (∀ c ∈ w ++ z, Space c) → Underscored s n → PyInt (w ++ '-' :: s ++ z) (-(n : Int))

/-- Masks of IPv6 addresses: an address, or the prefix length 128. -/
def Ipv6Mask (s : Str) (p : Bytes) : Prop := Ipv6Value s p ∨ (PyInt s 128 ∧ p = List.replicate 16 255)

/-- Two numbers of two bytes. -/
inductive TwoNums : Str → Bytes → Prop
  | mk (a b v w) : WholeInt a v → WholeInt b w → FitsIn 2 v → FitsIn 2 w →
      TwoNums (a ++ ':' :: b) (be 2 v.toNat ++ be 2 w.toNat)

/-- Masks of channels: either number may be missing. -/
inductive ChannelMask : Str → Bytes → Prop
  | both (s p) : TwoNums s p → ChannelMask s p
  | first (s v) : WholeInt s v → FitsIn 2 v → ChannelMask s (be 2 v.toNat ++ [0, 0])
  | second (s v) : WholeInt s v → FitsIn 2 v → ChannelMask (':' :: s) ([0, 0] ++ be 2 v.toNat)

/-- Value and mask, the shorter one filled up with zeros. -/
inductive Filled (P Q : Str → Bytes → Prop) : Str → Bytes → Option Bytes → Prop
  | plain (s p) : P s p → Filled P Q s p none
  | mask (a b p q) : P a p → Q b q →
      Filled P Q (a ++ '/' :: b) (p ++ pad (q.length - p.length)) (some (q ++ pad (p.length - q.length)))

/-- What quoted-printable text means (`binascii.a2b_qp`). -/
inductive QpMeans : Str → Bytes → Prop
  | nil : QpMeans [] []
  | char (c s b) : c ≠ '=' → QpMeans s b → QpMeans (c :: s) (UInt8.ofNat c.toNat :: b)
  | hex (x y i j s b) : Digit 16 x i → Digit 16 y j → QpMeans s b →
      QpMeans ('=' :: x :: y :: s) (UInt8.ofNat (16 * i + j) :: b)
  | soft (s b) : QpMeans s b → QpMeans ('=' :: '\n' :: s) b
  | softCr (t s b) : '\n' ∉ t → QpMeans s b → QpMeans ('=' :: '\r' :: (t ++ '\n' :: s)) b
  | cut : QpMeans ['='] []
  | cutCr (t) : '\n' ∉ t → QpMeans ('=' :: '\r' :: t) []
  | twice (s b) : QpMeans s b → QpMeans ('=' :: '=' :: s) (61 :: b)
  | other (d s b) : d ≠ '\n' → d ≠ '\r' → d ≠ '=' →
      (∀ y t i j, s = y :: t → Digit 16 d i → ¬ Digit 16 y j) → QpMeans (d :: s) b →
      QpMeans ('=' :: d :: s) (61 :: b)

/-- SSIDs: quoted-printable without `/`. -/
def SsidValue (s : Str) (p : Bytes) : Prop := '/' ∉ s ∧ (∀ c ∈ s, c.toNat < 128) ∧ QpMeans s p

/-- What follows a second `/` is ignored. -/
inductive SsidMask : Str → Bytes → Prop
  | hex (s b) : HexText s b → SsidMask s b
  | junk (s b r) : HexText s b → SsidMask (s ++ '/' :: r) b

/-- Decimal fractions. -/
inductive Fraction : Str → Nat → Nat → Prop
  | whole (s n) : Numeral 10 s n → Fraction s n 1
  | point (s n t m) : Numeral 10 s n → Numeral 10 t m →
      Fraction (s ++ '.' :: t) (n * 10 ^ t.length + m) (10 ^ t.length)

/-- Data rates in kb/s or Mb/s, rounded down to units of 500 kb/s. -/
inductive RateValue : Str → Bytes → Prop
  | kilo (s n d) : Fraction s n d → n / (500 * d) < 256 → RateValue (s ++ ['K']) [UInt8.ofNat (n / (500 * d))]
  | mega (s n d) : Fraction s n d → 2 * n / d < 256 → RateValue (s ++ ['M']) [UInt8.ofNat (2 * n / d)]

/-- A number, or nothing for zero. -/
def Part (s : Str) (v : Int) : Prop := (s = [] ∧ v = 0) ∨ WholeInt s v

/-- Numbers of the given sizes, little endian, with `:` between them. -/
inductive PartsValue : List Nat → Str → Bytes → Prop
  | one (n s v) : Part s v → FitsIn n v → PartsValue [n] s (le n v.toNat)
  | cons (n s v ns t p) : Part s v → FitsIn n v → PartsValue ns t p →
      PartsValue (n :: ns) (s ++ ':' :: t) (le n v.toNat ++ p)

/-- A text that starts with a number (the rest is ignored), or nothing for zero. -/
def LoosePart (s : Str) (v : Int) : Prop := (s = [] ∧ v = 0) ∨ ∃ l, IntSyntax s v l

/-- One after the other. -/
inductive LooseParts : List Str → List Int → Prop
  | nil : LooseParts [] []
  | cons (s v ss vs) : LoosePart s v → LooseParts ss vs → LooseParts (s :: ss) (v :: vs)

/-- The numbers as little endian bytes. -/
inductive LeBytes : List Nat → List Int → Bytes → Prop
  | nil : LeBytes [] [] []
  | cons (n v ns vs p) : FitsIn n v → LeBytes ns vs p → LeBytes (n :: ns) (v :: vs) (le n v.toNat ++ p)

/-- The VHT information: the fourth of the parts between colons is bytes in hexadecimal, any number of
them, as long as there are ten numbers in the end. -/
inductive VhtValue : Str → Bytes → Prop
  | mk (s t1 t2 t3 h v1 v2 v3 b us vs p) : (∀ t ∈ t1 :: t2 :: t3 :: h :: us, ':' ∉ t) →
      s = joinStr t!":" (t1 :: t2 :: t3 :: h :: us) → LoosePart t1 v1 → LoosePart t2 v2 → LoosePart t3 v3 →
      HexText h b → LooseParts us vs →
      LeBytes [2, 1, 1, 1, 1, 1, 1, 1, 1, 2] (v1 :: v2 :: v3 :: (b.map fun x => (x.toNat : Int)) ++ vs) p →
      VhtValue s p

/-- The texts of a kind of field, with the bytes of value and mask. -/
def ValueText : Kind → Str → Bytes → Option Bytes → Prop
  | .uint n => Masked (UintValue n) (UintValue n)
  | .port n => fun s p m => PortValue n s p ∧ m = none
  | .mac => Masked MacValue MacValue
  | .ipv4 => Masked (Aton 4) (Aton 4)
  | .ipv6 => Masked Ipv6Value Ipv6Mask
  | .packetType => fun s p m => TwoNums s p ∧ m = none
  | .bytes => Filled HexText HexText
  | .ssid => Filled SsidValue SsidMask
  | .le n => fun s p m => (∃ v, WholeInt s v ∧ p = le n (v % (256 ^ n : Nat)).toNat) ∧ m = none
  | .rate => fun s p m => RateValue s p ∧ m = none
  | .channel => Masked TwoNums ChannelMask
  | .parts sizes => Masked (PartsValue sizes) (PartsValue sizes)
  | .vht => Masked (fun s p => '/' ∉ s ∧ VhtValue s p) VhtValue
  | .signed => fun s p m => (∃ v, WholeInt s v ∧ -128 ≤ v ∧ v < 128 ∧ p = [UInt8.ofNat (v % 256).toNat]) ∧ m = none

/-- The kind that the texts of a field follow: the connection-tracking label is read as a number of four
bytes (it has sixteen). -/
def Field.textKind (f : Field) : Kind := if f.name = t!"nxm_ct_label" then .uint 4 else f.kind

/-- `MatchItem u v t r`: the text `u` starts with `name=v`, the match `t`, and `r` follows. -/
def MatchItem (u v : Str) (t : Tlv) (r : Str) : Prop :=
  ∃ h op r1, Tok u h t.field.name r1 ∧ Tok r1 op v r ∧ '=' ∉ h ∧ '=' ∈ op ∧ t.field ∈ fields ∧
    ValueText t.field.textKind v t.value t.mask

/-- Match texts: items up to the end of the text, or up to the first one with an empty value. -/
inductive MatchText : Str → List Tlv → Str → Prop
  | done : MatchText [] [] []
  | stop (u t r) : MatchItem u [] t r → MatchText u [] r
  | item (u v t r ts rest) : MatchItem u v t r → v ≠ [] → MatchText r ts rest → MatchText u (t :: ts) rest

end Ofpstr.Spec
