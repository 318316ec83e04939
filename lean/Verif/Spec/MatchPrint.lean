import Verif.Spec.Qp

/-!
# Specification: the texts that matches are printed as

What is printed for which bytes, and which bytes are refused with which exception: the other direction of
`Spec/Value.lean`.  It is about arbitrary bytes, not only about well-formed matches.  Nothing here runs the
printers of the model, except that an SSID is what `binascii.b2a_qp` of the standard library gives (`b2aQp`).
-/

namespace Ofpstr.Spec

/-! ## Numbers -/

/-- How a number is shown: in decimal, or in hexadecimal with `0x`, filled up with zeros to so many
characters. -/
inductive NumStyle where
  | dec
  | hex (width : Nat)
  deriving DecidableEq, Repr

/-- Lower-case hexadecimal digits, at least `k` of them, and no leading zeros beyond that. -/
def LowerHex (k : Nat) (s : Str) (n : Nat) : Prop :=
  Numeral 16 s n ∧ (∀ c ∈ s, c ∈ t!"0123456789abcdef") ∧ k ≤ s.length ∧ ∀ t, s = '0' :: t → s.length ≤ max k 1

inductive NumShown : NumStyle → Str → Nat → Prop
  | dec (s n) : Decimal s n → NumShown .dec s n
  | hex (w s n) : LowerHex (w - 2) s n → NumShown (.hex w) ('0' :: 'x' :: s) n

/-- Two lower-case digits for every byte. -/
def LowerPairs (s : Str) (b : Bytes) : Prop := HexText s b ∧ ∀ c ∈ s, c ∈ t!"0123456789abcdef"

/-- The number fields shown in hexadecimal, and their widths; the others are shown in decimal. -/
def hexFields : List (Str × Nat) := [(t!"metadata", 0), (t!"eth_type", 4), (t!"vlan_vid", 0), (t!"ip_dscp", 0),
  (t!"ip_ecn", 0), (t!"ipv6_flabel", 0), (t!"mpls_label", 0), (t!"pbb_isid", 0), (t!"tunnel_id", 0),
  (t!"ipv6_exthdr", 0), (t!"tcp_flags", 4), (t!"nxm_eth_type", 6), (t!"nxm_vlan_tci", 0), (t!"nxm_ip_tos", 0),
  (t!"nxm_tun_id", 0), (t!"nxm_ipv6_label", 0), (t!"nxm_ip_ecn", 0), (t!"nxm_pkt_mark", 0),
  (t!"nxm_tcp_flags", 6), (t!"nxm_dp_hash", 10), (t!"nxm_recirc_id", 10), (t!"nxm_conj_id", 10),
  (t!"nxm_tun_gbp_id", 6), (t!"nxm_tun_gbp_flags", 0), (t!"nxm_tun_flags", 0), (t!"nxm_ct_state", 0),
  (t!"nxm_ct_zone", 0), (t!"nxm_ct_label", 0), (t!"radiotap_flags", 4), (t!"radiotap_rx_flags", 6),
  (t!"radiotap_tx_flags", 6)]

def Field.valueStyle (f : Field) : NumStyle :=
  match hexFields.lookup f.name with
  | some w => .hex w
  | none => .dec

/-- How the mask is shown, if it is: where a mask is possible, and for `radiotap_flags`. -/
def Field.maskStyle (f : Field) : Option NumStyle :=
  if f.name = t!"nxm_vlan_tci" then some (.hex 6)
  else if f.maskable = true ∨ f.name = t!"radiotap_flags" then some f.valueStyle
  else none

/-- The sizes and styles of the parts of a field. -/
def Field.partStyles (f : Field) : List (Nat × NumStyle) :=
  if f.name = t!"radiotap_mcs" then [(1, .hex 4), (1, .dec), (1, .dec)]
  else [(4, .hex 10), (2, .hex 6), (1, .hex 4), (1, .hex 2)]

/-- A number of the width of the bytes, in the given byte order. -/
def NumText (order : Nat → Nat → Bytes) (st : NumStyle) (s : Str) (p : Bytes) : Prop :=
  ∃ v, NumShown st s v ∧ v < 256 ^ p.length ∧ p = order p.length v

/-- The part of the text for the mask, from the `/` on; nothing if masks are not shown. -/
def MaskText (order : Nat → Nat → Bytes) : Option NumStyle → Str → Bytes → Prop
  | none, s, _ => s = []
  | some st, s, m => ∃ t, s = '/' :: t ∧ NumText order st t m

def Slash (P : Str → Bytes → Prop) (s : Str) (m : Bytes) : Prop := ∃ t, s = '/' :: t ∧ P t m

/-! ## Value and mask -/

/-- The body of a masked field is cut in the middle; the mask gets the odd byte. -/
inductive BodyShown (P P' Q : Str → Bytes → Prop) : Bool → Bytes → Str → Prop
  | plain (p t) : P t p → BodyShown P P' Q false p t
  | masked (p m t u) : m.length = p.length ∨ m.length = p.length + 1 → P' t p → Q u m →
      BodyShown P P' Q true (p ++ m) (t ++ u)

/-- Value and mask of a fixed size; bytes behind them are ignored. -/
inductive LooseShown (P : Str → Bytes → Prop) : Bool → Bytes → Str → Prop
  | plain (p r t) : P t p → LooseShown P false (p ++ r) t
  | masked (p m r t u) : P t p → P u m → LooseShown P true (p ++ (m ++ r)) (t ++ '/' :: u)

/-! ## Kinds -/

/-- A reserved name, if the port number (of `n` bytes) is one of these, otherwise the number. -/
inductive PortShown (n : Nat) : Str → Bytes → Prop
  | name (k s) : (k, s) ∈ reservedPorts → PortShown n s (be n (k % 256 ^ n))
  | num (v s) : v < 256 ^ n → (∀ e ∈ reservedPorts, e.1 % 256 ^ n ≠ v) → Decimal s v → PortShown n s (be n v)

inductive MacShown : Str → Bytes → Prop
  | mk (x1 y1 x2 y2 x3 y3 x4 y4 x5 y5 x6 y6 : Char) (b : Bytes) :
      LowerPairs [x1, y1, x2, y2, x3, y3, x4, y4, x5, y5, x6, y6] b →
      MacShown [x1, y1, ':', x2, y2, ':', x3, y3, ':', x4, y4, ':', x5, y5, ':', x6, y6] b

/-- `k` zero words from the `i`-th on. -/
def Zeros (ws : List Nat) (i k : Nat) : Prop := (ws.drop i).take k = List.replicate k 0

/-- Lower-case hexadecimal groups without leading zeros, colons between them. -/
inductive LowGroups : Str → List Nat → Prop
  | one (s w) : LowerHex 0 s w → LowGroups s [w]
  | cons (s w t ws) : LowerHex 0 s w → LowGroups t ws → LowGroups (s ++ ':' :: t) (w :: ws)

/-- IPv6 addresses as glibc writes them: the first of the longest runs of at least two zero words is
written as `::`, and the two forms of addresses with an IPv4 address in them show it in dotted decimal. -/
inductive Ntop6 : Str → List Nat → Prop
  | full (s ws) : ws.length = 8 → (∀ i, ¬ Zeros ws i 2) → LowGroups s ws → Ntop6 s ws
  | short (s t as bs l) : as.length + l + bs.length = 8 → 2 ≤ l →
      (∀ i k, Zeros (as ++ List.replicate l 0 ++ bs) i k → k ≤ l ∧ (k = l → as.length ≤ i)) →
      as ≠ [] ∨ (bs.length ≠ 2 ∧ ¬ (bs.length = 3 ∧ bs.head? = some 0xffff)) →
      (s = [] ∧ as = []) ∨ LowGroups s as → (t = [] ∧ bs = []) ∨ LowGroups t bs →
      Ntop6 (s ++ ':' :: ':' :: t) (as ++ List.replicate l 0 ++ bs)
  | compatible (s : Str) (a b c d : UInt8) : DottedQuad s [a, b, c, d] → (a, b) ≠ (0, 0) →
      Ntop6 (t!"::" ++ s) (List.replicate 6 0 ++ [256 * a.toNat + b.toNat, 256 * c.toNat + d.toNat])
  | mapped (s : Str) (a b c d : UInt8) : DottedQuad s [a, b, c, d] →
      Ntop6 (t!"::ffff:" ++ s)
        (List.replicate 5 0 ++ [0xffff, 256 * a.toNat + b.toNat, 256 * c.toNat + d.toNat])

def Ipv6Shown (s : Str) (p : Bytes) : Prop :=
  ∃ ws, (∀ w ∈ ws, w < 65536) ∧ Ntop6 s ws ∧ p = ws.flatMap (be 2)

/-- Two numbers of two bytes. -/
inductive TwoShown (st st' : NumStyle) : Str → Bytes → Prop
  | mk (s v t w) : NumShown st s v → NumShown st' t w → v < 65536 → w < 65536 →
      TwoShown st st' (s ++ ':' :: t) (be 2 v ++ be 2 w)

/-- The mask of a channel: the first number is left out if it is zero. -/
inductive ChannelMaskShown : Str → Bytes → Prop
  | zero (t w) : NumShown (.hex 6) t w → w < 65536 → ChannelMaskShown (':' :: t) (be 2 0 ++ be 2 w)
  | both (s p) : TwoShown (.hex 6) (.hex 6) s p → p.take 2 ≠ [0, 0] → ChannelMaskShown s p

/-- The SSID without the zeros at its end. -/
def SsidStripped (s : Str) (p : Bytes) : Prop :=
  ∃ q k, p = q ++ pad k ∧ q ≠ [] ∧ q.getLast? ≠ some 0 ∧ s = b2aQp q

/-- Multiples of 500 kb/s: `0.0K`, `500.0K`, `1.0M`, `1.5M`, … -/
inductive RateShown : Str → Nat → Prop
  | zero : RateShown t!"0.0K" 0
  | one : RateShown t!"500.0K" 1
  | even (s n) : 1 ≤ n → Decimal s n → RateShown (s ++ t!".0M") (2 * n)
  | odd (s n) : 1 ≤ n → Decimal s n → RateShown (s ++ t!".5M") (2 * n + 1)

/-- Zero is shown as nothing. -/
def PartShown (st : NumStyle) (s : Str) (v : Nat) : Prop := (v = 0 ∧ s = []) ∨ (v ≠ 0 ∧ NumShown st s v)

/-- Little endian numbers, colons between them. -/
inductive PartsShown : List (Nat × NumStyle) → Str → Bytes → Prop
  | one (n st s v) : PartShown st s v → v < 256 ^ n → PartsShown [(n, st)] s (le n v)
  | cons (n st s v l t p) : PartShown st s v → v < 256 ^ n → PartsShown l t p →
      PartsShown ((n, st) :: l) (s ++ ':' :: t) (le n v ++ p)

/-- VHT information: known, flags, bandwidth, four user bytes (nothing if they are zero), coding, group id
and partial association id. -/
inductive VhtShown : Str → Bytes → Prop
  | mk (ta tb tc tu td te tf : Str) (a f : Nat) (b c m1 m2 m3 m4 d e : UInt8) :
      a < 65536 → f < 65536 → PartShown (.hex 6) ta a → PartShown (.hex 4) tb b.toNat → Decimal tc c.toNat →
      (m1 = 0 ∧ m2 = 0 ∧ m3 = 0 ∧ m4 = 0 ∧ tu = []) ∨
        (¬ (m1 = 0 ∧ m2 = 0 ∧ m3 = 0 ∧ m4 = 0) ∧ LowerPairs tu [m1, m2, m3, m4]) →
      PartShown (.hex 4) td d.toNat → Decimal te e.toNat → NumShown (.hex 6) tf f →
      VhtShown (ta ++ ':' :: (tb ++ ':' :: (tc ++ ':' :: (tu ++ ':' :: (td ++ ':' :: (te ++ ':' :: tf))))))
        (le 2 a ++ ([b, c, m1, m2, m3, m4, d, e] ++ le 2 f))

/-- Two's complement. -/
inductive SignedShown : Str → UInt8 → Prop
  | pos (s) (x : UInt8) : x.toNat < 128 → Decimal s x.toNat → SignedShown s x
  | neg (s) (x : UInt8) : 128 ≤ x.toNat → Decimal s (256 - x.toNat) → SignedShown ('-' :: s) x

/-- The text of the body of a field, after `name=`. -/
def ValueShown (f : Field) (hasMask : Bool) (b : Bytes) (s : Str) : Prop :=
  match f.kind with
  | .uint _ => BodyShown (NumText be f.valueStyle) (NumText be f.valueStyle) (MaskText be f.maskStyle) hasMask b s
  | .port n => hasMask = false ∧ PortShown n s b
  | .mac => BodyShown MacShown MacShown (Slash MacShown) hasMask b s
  | .ipv4 => BodyShown DottedQuad DottedQuad (Slash DottedQuad) hasMask b s
  | .ipv6 => BodyShown Ipv6Shown Ipv6Shown (Slash Ipv6Shown) hasMask b s
  | .packetType => hasMask = false ∧ TwoShown (.hex 0) (.hex 0) s b
  | .bytes => BodyShown LowerPairs LowerPairs (Slash LowerPairs) hasMask b s
  | .ssid => BodyShown (fun t p => t = b2aQp p) SsidStripped (Slash LowerPairs) hasMask b s
  | .le _ => BodyShown (NumText le f.valueStyle) (NumText le f.valueStyle) (MaskText le f.maskStyle) hasMask b s
  | .rate => hasMask = false ∧ ∃ x r, b = x :: r ∧ RateShown s x.toNat
  | .channel => BodyShown (TwoShown .dec (.hex 6)) (TwoShown .dec (.hex 6)) (Slash ChannelMaskShown) hasMask b s
  | .parts _ => LooseShown (PartsShown f.partStyles) hasMask b s
  | .vht => LooseShown VhtShown hasMask b s
  | .signed => hasMask = false ∧ ∃ x, b = [x] ∧ SignedShown s x

/-- The registers are shown by their names only. -/
def registerNames : List Str := [t!"nxm_reg0", t!"nxm_reg1", t!"nxm_reg2", t!"nxm_reg3", t!"nxm_reg4",
  t!"nxm_reg5", t!"nxm_reg6", t!"nxm_reg7"]

/-- The name shown; `nxm_ip_frag` has that of another field. -/
def Field.shownName (f : Field) : Str := if f.name = t!"nxm_ip_frag" then t!"nxm_icmp_type" else f.name

def Field.Shows (f : Field) (hasMask : Bool) (b : Bytes) (s : Str) : Prop :=
  if f.name ∈ registerNames then s = f.name
  else ∃ t, ValueShown f hasMask b t ∧ s = f.shownName ++ '=' :: t

/-- The bodies that are refused, and the exception. -/
def Kind.Refuses : Kind → Bool → Bytes → Err → Prop
  | .uint _, _, _, _ => False
  | .port n, hm, b, e => (hm = true ∨ b.length ≠ n) ∧ e = .assertionError
  | .mac, hm, b, e => (b.length < 6 ∧ e = .structError) ∨
      (6 ≤ b.length ∧ b.length ≠ (if hm then 12 else 6) ∧ e = .assertionError)
  | .ipv4, hm, b, e => (b.length < 4 ∧ e = .osError) ∨
      (4 ≤ b.length ∧ b.length ≠ (if hm then 8 else 4) ∧ e = .assertionError)
  | .ipv6, hm, b, e => (b.length < 16 ∧ e = .valueError) ∨
      (16 ≤ b.length ∧ b.length ≠ (if hm then 32 else 16) ∧ e = .assertionError)
  | .packetType, hm, b, e => (hm = true ∨ b.length ≠ 4) ∧ e = .assertionError
  | .bytes, _, _, _ => False
  | .ssid, hm, b, e => hm = true ∧ (∀ x ∈ b.take (b.length / 2), x = 0) ∧ e = .indexError
  | .le _, _, _, _ => False
  | .rate, hm, b, e => (hm = true ∧ e = .assertionError) ∨ (hm = false ∧ b = [] ∧ e = .structError)
  | .channel, hm, b, e => b.length ≠ (if hm then 8 else 4) ∧ e = .assertionError
  | .parts sizes, hm, b, e => b.length < (if hm then 2 * sizes.sum else sizes.sum) ∧ e = .structError
  | .vht, hm, b, e => b.length < (if hm then 24 else 12) ∧ e = .structError
  | .signed, hm, b, e => (hm = true ∧ e = .assertionError) ∨ (hm = false ∧ b.length ≠ 1 ∧ e = .structError)

/-! ## Entries -/

/-- The third byte of a header. -/
def fieldByte (f : Field) (hasMask : Bool) : Bytes := u8 (2 * f.num + if hasMask then 1 else 0)

/-- What is printed for the first entry of the bytes.  The body is as long as the fourth byte says, or
shorter if the bytes end before; the experimenter id is part of it. -/
inductive EntryText : Bytes → Str → Prop
  | field (f hm l r s) : f ∈ fields → f.cls ≠ 0xffff → l < 256 → f.Shows hm (r.take l) s →
      EntryText (u16 f.cls ++ (fieldByte f hm ++ (u8 l ++ r))) s
  | exp (f hm l r s) : f ∈ fields → f.cls = 0xffff → l < 256 → f.Shows hm (r.take (l - 4)) s →
      EntryText (u16 f.cls ++ (fieldByte f hm ++ (u8 l ++ (u32 0xff00e04d ++ r)))) s
  | otherExp (x l : UInt8) (id r) : id < 2 ^ 32 → id ≠ 0xff00e04d →
      EntryText (u16 0xffff ++ x :: l :: (u32 id ++ r)) t!"?"
  | otherClass (c) (x l : UInt8) (r) : c < 65536 → c ∉ [0, 1, 0x8000, 0xffff] →
      EntryText (u16 c ++ x :: l :: r) t!"?"

/-- The first entry is refused. -/
inductive EntryFails : Bytes → Err → Prop
  | field (f hm l r e) : f ∈ fields → f.cls ≠ 0xffff → l < 256 → f.kind.Refuses hm (r.take l) e →
      EntryFails (u16 f.cls ++ (fieldByte f hm ++ (u8 l ++ r))) e
  | exp (f hm l r e) : f ∈ fields → f.cls = 0xffff → l < 256 → f.kind.Refuses hm (r.take (l - 4)) e →
      EntryFails (u16 f.cls ++ (fieldByte f hm ++ (u8 l ++ (u32 0xff00e04d ++ r)))) e
  | noField (c) (x l : UInt8) (r) : c ∈ [0, 1, 0x8000] → (∀ f ∈ fields, f.cls = c → f.num ≠ x.toNat / 2) →
      EntryFails (u16 c ++ x :: l :: r) .keyError
  | noExpField (x l : UInt8) (r) : (∀ f ∈ fields, f.cls = 0xffff → f.num ≠ x.toNat / 2) →
      EntryFails (u16 0xffff ++ x :: l :: (u32 0xff00e04d ++ r)) .keyError
  | noId (x l : UInt8) (r) : r.length < 4 → EntryFails (u16 0xffff ++ x :: l :: r) .structError

/-- The texts of the entries, one after the other.  Fewer than four bytes at the end are ignored. -/
inductive MatchShown : Bytes → List Str → Prop
  | done (b) : b.length < 4 → MatchShown b []
  | more (a b c l : UInt8) (r s ss) : EntryText (a :: b :: c :: l :: r) s → MatchShown (r.drop l.toNat) ss →
      MatchShown (a :: b :: c :: l :: r) (s :: ss)

/-- Some entry is refused. -/
inductive MatchFails : Bytes → Err → Prop
  | now (b e) : EntryFails b e → MatchFails b e
  | later (a b c l : UInt8) (r s e) : EntryText (a :: b :: c :: l :: r) s → MatchFails (r.drop l.toNat) e →
      MatchFails (a :: b :: c :: l :: r) e

/-! ## Lists of fields

The lists of fields in some actions have headers without bodies, whatever lengths they say.
-/

/-- The name shown for the first header, and the bytes after it. -/
inductive HeadShown : Bytes → Str → Bytes → Prop
  | field (f hm) (l : UInt8) (r) : f ∈ fields → f.cls ≠ 0xffff → HeadShown (u16 f.cls ++ (fieldByte f hm ++ l :: r)) f.shownName r
  | exp (f hm) (l : UInt8) (r) : f ∈ fields → f.cls = 0xffff →
      HeadShown (u16 f.cls ++ (fieldByte f hm ++ l :: (u32 0xff00e04d ++ r))) f.shownName r
  | otherExp (x l : UInt8) (id r) : id < 2 ^ 32 → id ≠ 0xff00e04d →
      HeadShown (u16 0xffff ++ x :: l :: (u32 id ++ r)) t!"?" r
  | otherClass (c) (x l : UInt8) (r) : c < 65536 → c ∉ [0, 1, 0x8000, 0xffff] →
      HeadShown (u16 c ++ x :: l :: r) t!"?" r

/-- The first header is refused. -/
inductive HeadFails : Bytes → Err → Prop
  | noField (c) (x l : UInt8) (r) : c ∈ [0, 1, 0x8000] → (∀ f ∈ fields, f.cls = c → f.num ≠ x.toNat / 2) →
      HeadFails (u16 c ++ x :: l :: r) .keyError
  | noExpField (x l : UInt8) (r) : (∀ f ∈ fields, f.cls = 0xffff → f.num ≠ x.toNat / 2) →
      HeadFails (u16 0xffff ++ x :: l :: (u32 0xff00e04d ++ r)) .keyError
  | noId (x l : UInt8) (r) : r.length < 4 → HeadFails (u16 0xffff ++ x :: l :: r) .structError

/-- The names shown for a list of headers. -/
inductive HeadsShown : Bytes → List Str → Prop
  | done (b) : b.length < 4 → HeadsShown b []
  | more (b s r ss) : HeadShown b s r → HeadsShown r ss → HeadsShown b (s :: ss)

/-- Some header is refused. -/
inductive HeadsFail : Bytes → Err → Prop
  | now (b e) : HeadFails b e → HeadsFail b e
  | later (b s r e) : HeadShown b s r → HeadsFail r e → HeadsFail b e

end Ofpstr.Spec
