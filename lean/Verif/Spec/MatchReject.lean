import Verif.Spec.Value

/-!
# Specification: the texts that are no matches

Which exception a text raises that is not a match: the other half of `Spec/Value.lean`.  Nothing here runs
the parsers of the model.
-/

namespace Ofpstr.Spec

/-- The text starts with the integer `v`, and `r` follows. -/
def IntThen (u : Str) (v : Int) (r : Str) : Prop := ∃ l, IntSyntax u v l ∧ r = u.drop l

def NoInt (u : Str) : Prop := ∀ v r, ¬ IntThen u v r

/-- The text starts with a MAC address, and `r` follows. -/
def MacThen (u r : Str) : Prop := ∃ a b, u = a ++ r ∧ MacValue a b

/-- Value and mask read one after the other; `S u r` says that `u` starts with a value, and `r` follows. -/
inductive ScanRejects (S : Str → Str → Prop) : Str → Err → Prop
  | value (u) : (∀ r, ¬ S u r) → ScanRejects S u .valueError
  | junk (u c r) : S u (c :: r) → c ≠ '/' → ScanRejects S u .assertionError
  | mask (u r) : S u ('/' :: r) → (∀ t, ¬ S r t) → ScanRejects S u .valueError
  | junkMask (u r c t) : S u ('/' :: r) → S r (c :: t) → ScanRejects S u .assertionError

/-- Ports: characters behind a reserved name, no number, a number that does not fit, characters behind it. -/
inductive PortRejects (n : Nat) : Str → Err → Prop
  | name (k s c r) : (k, s) ∈ reservedPorts ++ reservedPortsUpper → PortRejects n (s ++ c :: r) .assertionError
  | none (u) : (∀ k s r, (k, s) ∈ reservedPorts ++ reservedPortsUpper → u ≠ s ++ r) → NoInt u → PortRejects n u .valueError
  | big (u v r) : IntThen u v r → ¬ FitsIn n v → PortRejects n u .structError
  | junk (u v c r) : IntThen u v (c :: r) → FitsIn n v → PortRejects n u .assertionError

/-- The text starts with two numbers of two bytes, and `r` follows. -/
def TwoThen (u r : Str) : Prop :=
  ∃ v w t, IntThen u v (':' :: t) ∧ IntThen t w r ∧ FitsIn 2 v ∧ FitsIn 2 w

/-- What is wrong with two numbers of two bytes, up to the end of the second. -/
inductive TwoRejects : Str → Err → Prop
  | first (u) : NoInt u → TwoRejects u .valueError
  | short (u v) : IntThen u v [] → TwoRejects u .indexError
  | colon (u v c r) : IntThen u v (c :: r) → c ≠ ':' → TwoRejects u .assertionError
  | second (u v r) : IntThen u v (':' :: r) → NoInt r → TwoRejects u .valueError
  | big (u v r w t) : IntThen u v (':' :: r) → IntThen r w t → ¬ (FitsIn 2 v ∧ FitsIn 2 w) → TwoRejects u .structError

inductive PacketTypeRejects : Str → Err → Prop
  | two (u e) : TwoRejects u e → PacketTypeRejects u e
  | junk (u c r) : TwoThen u (c :: r) → PacketTypeRejects u .assertionError

/-- The first number of the mask of a channel, which may be missing before a colon. -/
inductive MaskFirst : Str → Int → Str → Prop
  | missing (t) : MaskFirst (':' :: t) 0 (':' :: t)
  | number (r v t) : IntThen r v t → MaskFirst r v t

inductive ChannelMaskRejects : Str → Err → Prop
  | first (r) : (∀ v t, ¬ MaskFirst r v t) → ChannelMaskRejects r .valueError
  | second (r v t) : MaskFirst r v (':' :: t) → NoInt t → ChannelMaskRejects r .valueError
  | big (r v t w z) : MaskFirst r v (':' :: t) → IntThen t w z → ¬ (FitsIn 2 v ∧ FitsIn 2 w) →
      ChannelMaskRejects r .structError
  | junk (r v t w c z) : MaskFirst r v (':' :: t) → IntThen t w (c :: z) → FitsIn 2 v → FitsIn 2 w →
      ChannelMaskRejects r .assertionError
  | bigAlone (r v t) : MaskFirst r v t → t.head? ≠ some ':' → ¬ FitsIn 2 v → ChannelMaskRejects r .structError
  | junkAlone (r v c t) : MaskFirst r v (c :: t) → c ≠ ':' → FitsIn 2 v → ChannelMaskRejects r .assertionError

inductive ChannelRejects : Str → Err → Prop
  | two (u e) : TwoRejects u e → ChannelRejects u e
  | junk (u c r) : TwoThen u (c :: r) → c ≠ '/' → ChannelRejects u .assertionError
  | mask (u r e) : TwoThen u ('/' :: r) → ChannelMaskRejects r e → ChannelRejects u e

/-- Little endian numbers: a mask is never taken. -/
inductive LeRejects : Str → Err → Prop
  | value (u) : NoInt u → LeRejects u .valueError
  | junk (u v c r) : IntThen u v (c :: r) → c ≠ '/' → LeRejects u .assertionError
  | noMask (u v r) : IntThen u v ('/' :: r) → NoInt r → LeRejects u .valueError
  | mask (u v r m t) : IntThen u v ('/' :: r) → IntThen r m t → LeRejects u .typeError

inductive SignedRejects : Str → Err → Prop
  | value (u) : NoInt u → SignedRejects u .valueError
  | big (u v r) : IntThen u v r → ¬ (-128 ≤ v ∧ v < 128) → SignedRejects u .structError
  | junk (u v c r) : IntThen u v (c :: r) → -128 ≤ v → v < 128 → SignedRejects u .assertionError

/-- The text starts with a decimal fraction, and `r` follows: no digit, and no point behind a whole number. -/
inductive FractionThen : Str → Nat → Nat → Str → Prop
  | whole (s n r) : Numeral 10 s n → NoDigit 10 r → r.head? ≠ some '.' → FractionThen (s ++ r) n 1 r
  | point (s n t m r) : Numeral 10 s n → Numeral 10 t m → NoDigit 10 r →
      FractionThen (s ++ '.' :: (t ++ r)) (n * 10 ^ t.length + m) (10 ^ t.length) r

inductive RateRejects : Str → Err → Prop
  | none (u) : (∀ n d r, ¬ FractionThen u n d r) → RateRejects u .valueError
  | short (u n d) : FractionThen u n d [] → RateRejects u .indexError
  | unit (u n d c r) : FractionThen u n d (c :: r) → c ≠ 'K' → c ≠ 'M' → RateRejects u .valueError
  | bigKilo (u n d r) : FractionThen u n d ('K' :: r) → 256 ≤ n / (500 * d) → RateRejects u .structError
  | junkKilo (u n d c r) : FractionThen u n d ('K' :: c :: r) → n / (500 * d) < 256 → RateRejects u .assertionError
  | bigMega (u n d r) : FractionThen u n d ('M' :: r) → 256 ≤ 2 * n / d → RateRejects u .structError
  | junkMega (u n d c r) : FractionThen u n d ('M' :: c :: r) → 2 * n / d < 256 → RateRejects u .assertionError

/-- Value and mask split at the first `/`. -/
inductive SplitRejects (P : Str → Prop) (E F : Str → Err → Prop) : Str → Err → Prop
  | plain (a e) : '/' ∉ a → E a e → SplitRejects P E F a e
  | value (a b e) : '/' ∉ a → E a e → SplitRejects P E F (a ++ '/' :: b) e
  | mask (a b e) : '/' ∉ a → P a → F b e → SplitRejects P E F (a ++ '/' :: b) e

inductive Ipv4Rejects : Str → Err → Prop
  | nul (s) : '\x00' ∈ s → Ipv4Rejects s .valueError
  | bad (s) : '\x00' ∉ s → (∀ b, ¬ Aton 4 s b) → Ipv4Rejects s .osError

inductive Ipv6Rejects : Str → Err → Prop
  | nul (s) : '\x00' ∈ s → Ipv6Rejects s .valueError
  | bad (s) : '\x00' ∉ s → (∀ b, ¬ Ipv6Value s b) → Ipv6Rejects s .osError

/-- Masks of IPv6 addresses that are no addresses: prefix lengths above 128 are refused as negative shifts,
those below because the mask gets too big. -/
inductive Ipv6MaskRejects : Str → Err → Prop
  | none (s) : (∀ b, ¬ Ipv6Value s b) → (∀ n, ¬ PyInt s n) → Ipv6MaskRejects s .valueError
  | long (s n) : (∀ b, ¬ Ipv6Value s b) → PyInt s n → 128 < n → Ipv6MaskRejects s .valueError
  | short (s n) : (∀ b, ¬ Ipv6Value s b) → PyInt s n → n < 128 → Ipv6MaskRejects s .structError

/-- The parts between colons. -/
def Cut (s : Str) (ts : List Str) : Prop := ts ≠ [] ∧ (∀ t ∈ ts, ':' ∉ t) ∧ s = joinStr t!":" ts

/-- The numbers of parts that are wholly numbers, or empty. -/
inductive WholeParts : List Str → List Int → Prop
  | nil : WholeParts [] []
  | cons (s v ss vs) : Part s v → WholeParts ss vs → WholeParts (s :: ss) (v :: vs)

/-- Lists of numbers: the first part that is no number, or the wrong number of parts or parts that do not
fit. -/
inductive PartsRejects (sizes : List Nat) : Str → Err → Prop
  | number (s ts t us vs) : Cut s (ts ++ t :: us) → WholeParts ts vs → t ≠ [] → NoInt t → PartsRejects sizes s .valueError
  | junk (s ts t us vs v c r) : Cut s (ts ++ t :: us) → WholeParts ts vs → IntThen t v (c :: r) →
      PartsRejects sizes s .assertionError
  | pack (s ts vs) : Cut s ts → WholeParts ts vs → (∀ p, ¬ LeBytes sizes vs p) → PartsRejects sizes s .structError

/-- The numbers of the parts of VHT information; the fourth part gives one for every byte. -/
inductive VhtNumbers : Nat → List Str → List Int → Prop
  | nil (i) : VhtNumbers i [] []
  | hex (t b ts vs) : HexText t b → VhtNumbers 4 ts vs →
      VhtNumbers 3 (t :: ts) ((b.map fun x => (x.toNat : Int)) ++ vs)
  | num (i t v ts vs) : i ≠ 3 → LoosePart t v → VhtNumbers (i + 1) ts vs → VhtNumbers i (t :: ts) (v :: vs)

inductive VhtRejects : Str → Err → Prop
  | number (s ts) : Cut s ts → (∀ vs, ¬ VhtNumbers 0 ts vs) → VhtRejects s .valueError
  | pack (s ts vs) : Cut s ts → VhtNumbers 0 ts vs → (∀ p, ¬ LeBytes [2, 1, 1, 1, 1, 1, 1, 1, 1, 2] vs p) →
      VhtRejects s .structError

/-- The exception raised for a text that is no value of the kind. -/
def Kind.Rejects : Kind → Str → Err → Prop
  | .uint _ => ScanRejects fun u r => ∃ v, IntThen u v r
  | .port n => PortRejects n
  | .mac => ScanRejects MacThen
  | .ipv4 => SplitRejects (fun s => ∃ b, Aton 4 s b) Ipv4Rejects Ipv4Rejects
  | .ipv6 => SplitRejects (fun s => ∃ b, Ipv6Value s b) Ipv6Rejects Ipv6MaskRejects
  | .packetType => PacketTypeRejects
  | .bytes => fun s e => (∀ p m, ¬ ValueText .bytes s p m) ∧ e = .valueError
  | .ssid => fun s e => (∀ p m, ¬ ValueText .ssid s p m) ∧ e = .valueError
  | .le _ => LeRejects
  | .rate => RateRejects
  | .channel => ChannelRejects
  | .parts sizes => SplitRejects (fun s => ∃ p, PartsValue sizes s p) (PartsRejects sizes) (PartsRejects sizes)
  | .vht => SplitRejects (fun s => ∃ p, VhtValue s p) VhtRejects VhtRejects
  | .signed => SignedRejects

/-- What is wrong with the item at the start of a text: no `=` between two tokens or one before them, a name
that is not in the list, or the value. -/
inductive ItemRejects : Str → Err → Prop
  | equals (u h name r1 op v r) : Tok u h name r1 → Tok r1 op v r → '=' ∈ h ∨ '=' ∉ op → ItemRejects u .assertionError
  | name (u h name r1 op v r) : Tok u h name r1 → Tok r1 op v r → '=' ∉ h → '=' ∈ op → (∀ f ∈ fields, f.name ≠ name) →
      ItemRejects u .keyError
  | value (u h f r1 op v r e) : Tok u h (Field.name f) r1 → Tok r1 op v r → '=' ∉ h → '=' ∈ op → f ∈ fields →
      f.textKind.Rejects v e → ItemRejects u e

/-- Items up to the one that is wrong. -/
inductive MatchRejects : Str → Err → Prop
  | here (u e) : u ≠ [] → ItemRejects u e → MatchRejects u e
  | later (u v t r e) : MatchItem u v t r → v ≠ [] → MatchRejects r e → MatchRejects u e

end Ofpstr.Spec
