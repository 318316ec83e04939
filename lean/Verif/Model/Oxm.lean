import Verif.Model.Util
import Verif.Model.Lib
import Verif.Model.OxmTables

/-!
# Model of `ofpstr/oxm.py` (Python 3 semantics)
-/

namespace Ofpstr

/-- OXM classes and the Stratos experimenter id, oxm.py:19-23, 213. -/
def OFPXMC_NXM_0 : Nat := 0x0000
def OFPXMC_NXM_1 : Nat := 0x0001
def OFPXMC_OPENFLOW_BASIC : Nat := 0x8000
def OFPXMC_EXPERIMENTER : Nat := 0xFFFF
def STRATOS_EXPERIMENTER_ID : Nat := 0xFF00E04D

/-- `header`, oxm.py:271-290.  All field numbers in use are below 128, so `struct.pack` cannot
fail on `field_HM`. -/
def header (field : Key) (valueLength : Nat) (mask : Bool) : Bytes :=
  let fieldHM := field.num * 2 + (if mask then 1 else 0)
  let length := if mask then valueLength * 2 else valueLength
  let length := if field.cls = .stratos then length + 4 else length
  let length := if length > 0xff then 0xff else length
  match field.cls with
  | .stratos =>
    beBytes 2 OFPXMC_EXPERIMENTER ++ beBytes 1 fieldHM ++ beBytes 1 length ++
      beBytes 4 STRATOS_EXPERIMENTER_ID
  | .nxm0 => beBytes 2 OFPXMC_NXM_0 ++ beBytes 1 fieldHM ++ beBytes 1 length
  | .nxm1 => beBytes 2 OFPXMC_NXM_1 ++ beBytes 1 fieldHM ++ beBytes 1 length
  | .basic => beBytes 2 OFPXMC_OPENFLOW_BASIC ++ beBytes 1 fieldHM ++ beBytes 1 length

/-! ## Text to binary -/

/-- `int2bytes([(num>>(8*s))&0xff for s in reversed(range(size))])`, oxm.py:327, 332. -/
def intBE (size : Nat) (num : Int) : Bytes :=
  (List.range size).reverse.map fun s => UInt8.ofNat ((num / 256 ^ s) % 256).toNat

/-- `int2bytes([0xFF & (num>>(8*s)) for s in range(size)])`, oxm.py:665. -/
def intLE (size : Nat) (num : Int) : Bytes :=
  (List.range size).map fun s => UInt8.ofNat ((num / 256 ^ s) % 256).toNat

/-- `uint_str2bin(field, size)` on text, oxm.py:320-339. -/
def uintStr2bin (field : Key) (size : Nat) (u : Str) : Py (Bytes × Nat) := do
  let (num, rlen) ← parseInt u
  let payload := intBE size num
  if startsWith (u.drop rlen) t!"/" then
    let (m, e) ← parseInt (u.drop (rlen + 1))
    .ok (header field size true ++ (payload ++ intBE size m), rlen + (1 + e))
  else
    .ok (header field size false ++ payload, rlen)

/-- The reserved-name loop of `port_str2bin`, oxm.py:367-372: `(rlen, payload)` after the loop. -/
def portNames (size : Nat) (u : Str) : Nat × Bytes :=
  ofpp.foldl (init := (0, [])) fun st (v, name) =>
    if startsWith u (lowerStr name) || startsWith u (upperStr name) then
      (name.length, beBytes size (v % 256 ^ size))
    else st

/-- `port_str2bin(field, fmt)` on text, oxm.py:360-379. -/
def portStr2bin (field : Key) (size : Nat) (u : Str) : Py (Bytes × Nat) :=
  let (rlen, payload) := portNames size u
  if payload.isEmpty then do
    let (num, rlen) ← parseInt u
    let payload ← packU size num
    .ok (header field size false ++ payload, rlen)
  else .ok (header field size false ++ payload, rlen)

/-- Exactly `n` hexadecimal digits at the start of a string (`[0-9A-Fa-f]{n}`). -/
def hexRun (n : Nat) (s : Str) : Option (Str × Str) :=
  if (s.take n).length == n && (s.take n).all isHex then some (s.take n, s.drop n) else none

/-- `groups` groups of `n` hexadecimal digits separated by one character of `sep`: the digits. -/
def hexGroups (n : Nat) (sep : Char → Bool) : Nat → Str → Option Str
  | 0, _ => some []
  | 1, s => (hexRun n s).map (·.1)
  | k + 2, s =>
    match hexRun n s with
    | some (g, c :: rest) => if sep c then (hexGroups n sep (k + 1) rest).map (g ++ ·) else none
    | _ => none

/-- `scan` of `mac_str2bin`, oxm.py:399-408.  The `.` of the second pattern is unescaped in the
code, so it matches any character but a newline. -/
def macScan (txt : Str) : Py (Str × Nat) :=
  match hexGroups 12 (fun _ => false) 1 txt with
  | some g => .ok (g, 12)
  | none => match hexGroups 4 (fun c => c != '\n') 3 txt with
    | some g => .ok (g, 14)
    | none => match hexGroups 2 (fun c => c == ':') 6 txt with
      | some g => .ok (g, 17)
      | none => match hexGroups 2 (fun c => c == '-') 6 txt with
        | some g => .ok (g, 17)
        | none => .error .valueError

/-- `mac_str2bin(field)` on text, oxm.py:410-426. -/
def macStr2bin (field : Key) (u : Str) : Py (Bytes × Nat) := do
  let (value, rlen) ← macScan u
  if startsWith (u.drop rlen) t!"/" then
    let (mask, l) ← macScan (u.drop (rlen + 1))
    let payload ← a2bHex (value ++ mask)
    .ok (header field 6 true ++ payload, rlen + (1 + l))
  else
    let payload ← a2bHex value
    .ok (header field 6 false ++ payload, rlen)

/-- The mask of `ipv4_str2bin`, oxm.py:458-462.  Only a `ValueError` reaches the prefix-length
branch; `inet_aton` raises `OSError` on malformed text. -/
def ipv4Mask (m : Str) : Py Bytes :=
  match inetAton m with
  | .ok b => .ok b
  | .error .valueError => do
    let n ← pyInt m
    if 32 - n < 0 then .error .valueError
    else packU 4 (0xFFFFFFFF * 2 ^ (32 - n).toNat)
  | .error e => .error e

/-- `ipv4_str2bin(field)` on text, oxm.py:447-471. -/
def ipv4Str2bin (field : Key) (u : Str) : Py (Bytes × Nat) := do
  let (h, txt, _) := getToken u
  let (v, m) := split1 '/' txt
  let payload ← inetAton v
  match m with
  | some m =>
    let mask ← ipv4Mask m
    .ok (header field 4 true ++ (payload ++ mask), h.length + txt.length)
  | none => .ok (header field 4 false ++ payload, h.length + txt.length)

/-- The mask of `ipv6_str2bin`, oxm.py:502-507: any failure of `inet_pton` goes to the
prefix-length branch, where `mask_int` is not cut to 128 bits before packing. -/
def ipv6Mask (m : Str) : Py Bytes :=
  match inetPton m with
  | .ok b => .ok b
  | .error _ => do
    let n ← pyInt m
    if 128 - n < 0 then .error .valueError
    else
      let maskInt : Int := (2 ^ 128 - 1) * 2 ^ (128 - n).toNat
      packAll [(8, maskInt / 2 ^ 64), (8, maskInt % 2 ^ 64)]

/-- `ipv6_str2bin(field)` on text, oxm.py:490-515. -/
def ipv6Str2bin (field : Key) (u : Str) : Py (Bytes × Nat) := do
  let (h, txt, _) := getToken u
  let (v, m) := split1 '/' txt
  let payload ← inetPton v
  match m with
  | some m =>
    let mask ← ipv6Mask m
    .ok (header field 16 true ++ (payload ++ mask), h.length + txt.length)
  | none => .ok (header field 16 false ++ payload, h.length + txt.length)

/-- `unparsed[l] == ":"` under `assert`: `IndexError` past the end. -/
def assertColon (u : Str) (l : Nat) : Py Unit :=
  match u.drop l with
  | [] => .error .indexError
  | c :: _ => pyAssert (c == ':')

/-- `pkt_str2bin` on text, oxm.py:527-538. -/
def pktStr2bin (field : Key) (u : Str) : Py (Bytes × Nat) := do
  let (ns, l) ← parseInt u
  assertColon u l
  let (nsType, l2) ← parseInt (u.drop (l + 1))
  let payload ← packAll [(2, ns), (2, nsType)]
  .ok (header field 4 false ++ payload, l + l2 + 1)

/-- Value and mask brought to one length with zero bytes at the end of the shorter one, and that
length; oxm.py:573-578 and 619-624. -/
def padMask (payload mask : Bytes) : Bytes × Nat :=
  let pad := zeros (max mask.length payload.length - min mask.length payload.length)
  if payload.length < mask.length then (payload ++ (pad ++ mask), mask.length)
  else (payload ++ (mask ++ pad), payload.length)

/-- `hex_str2bin(field)` on text, oxm.py:558-584. -/
def hexStr2bin (field : Key) (u : Str) : Py (Bytes × Nat) := do
  let (h, txt, _) := getToken u
  let (v, m) := split1 '/' txt
  let payload ← a2bHex v
  match m with
  | some m =>
    let mask ← a2bHex m
    let (body, length) := padMask payload mask
    .ok (header field length true ++ body, h.length + txt.length)
  | none => .ok (header field payload.length false ++ payload, h.length + txt.length)

/-- `ssid_str2bin` on text, oxm.py:605-628. -/
def ssidStr2bin (field : Key) (u : Str) : Py (Bytes × Nat) := do
  let (h, txt, _) := getToken u
  match splitAll '/' txt with
  | [] => .error .indexError
  | v :: ms =>
    let payload ← a2bQp v
    match ms with
    | m :: _ =>
      let mask ← a2bHex m
      let (body, length) := padMask payload mask
      .ok (header field length true ++ body, h.length + txt.length)
    | [] => .ok (header field payload.length false ++ payload, h.length + txt.length)

/-- `le_str2bin(field, size)` on text, oxm.py:658-678.  With a mask, line 672 adds a `str` to
`bytes`: `TypeError` in Python 3 (all sizes in use are positive). -/
def leStr2bin (field : Key) (size : Nat) (u : Str) : Py (Bytes × Nat) := do
  let (num, rlen) ← parseInt u
  let payload := intLE size num
  if startsWith (u.drop rlen) t!"/" then
    let (_, _) ← parseInt (u.drop (rlen + 1))
    .error .typeError
  else .ok (header field size false ++ payload, rlen)

/-- `rate_str2bin` on text, oxm.py:693-710; floating point as exact rationals (see
`parseFloat`). -/
def rateStr2bin (field : Key) (u : Str) : Py (Bytes × Nat) := do
  let ((num, den), rlen) ← parseFloat u
  match u.drop rlen with
  | [] => .error .indexError
  | c :: _ =>
    if c == 'K' then
      let payload ← packU 1 ((num / (den * 500) : Nat) : Int)
      .ok (header field 1 false ++ payload, rlen + 1)
    else if c == 'M' then
      let payload ← packU 1 ((num * 2 / den : Nat) : Int)
      .ok (header field 1 false ++ payload, rlen + 1)
    else .error .valueError

/-- `ch_str2bin` on text, oxm.py:731-761. -/
def chStr2bin (field : Key) (u : Str) : Py (Bytes × Nat) := do
  let (v1, l) ← parseInt u
  assertColon u l
  let (v2, l2) ← parseInt (u.drop (l + 1))
  let payload ← packAll [(2, v1), (2, v2)]
  let rlen := l + 1 + l2
  if startsWith (u.drop rlen) t!"/" then
    let (m1, l3) ←
      if startsWith (u.drop (rlen + 1)) t!":" then (.ok (0, 0) : Py (Int × Nat))
      else parseInt (u.drop (rlen + 1))
    if startsWith (u.drop (rlen + 1 + l3)) t!":" then
      let (m2, l4) ← parseInt (u.drop (rlen + 1 + l3 + 1))
      let mask ← packAll [(2, m1), (2, m2)]
      .ok (header field 4 true ++ (payload ++ mask), rlen + (1 + l3 + 1 + l4))
    else
      let mask ← packAll [(2, m1), (2, 0)]
      .ok (header field 4 true ++ (payload ++ mask), rlen + (1 + l3))
  else .ok (header field 4 false ++ payload, rlen)

/-- `struct.pack("<...", *ps)` with the given field sizes: `struct.error` unless the number of
arguments is right and each fits. -/
def packSizesLE : List Nat → List Int → Py Bytes
  | [], [] => .ok []
  | s :: ss, p :: ps => do
    let a ← packLE s p
    let b ← packSizesLE ss ps
    .ok (a ++ b)
  | _, _ => .error .structError

/-- The number list of `collect` in `comp_str2bin`, oxm.py:790-796. -/
def compNums : List Str → Py (List Int)
  | [] => .ok []
  | t :: ts => do
    if t.isEmpty then
      let r ← compNums ts
      .ok (0 :: r)
    else
      let (v, l) ← parseInt t
      pyAssert (t.length == l)
      let r ← compNums ts
      .ok (v :: r)

/-- `collect` of `comp_str2bin`, oxm.py:789-798. -/
def compCollect (sizes : List Nat) (txt : Str) : Py Bytes := do
  let ps ← compNums (splitAll ':' txt)
  packSizesLE sizes ps

/-- `comp_str2bin(field, packs)` on text, oxm.py:800-816. -/
def compStr2bin (field : Key) (sizes : List Nat) (u : Str) : Py (Bytes × Nat) := do
  let (h, txt, _) := getToken u
  let (v, m) := split1 '/' txt
  let payload ← compCollect sizes v
  match m with
  | some m =>
    let mask ← compCollect sizes m
    .ok (header field sizes.sum true ++ (payload ++ mask), h.length + txt.length)
  | none => .ok (header field sizes.sum false ++ payload, h.length + txt.length)

/-- Field sizes of the format `"<HBB4BBBH"`, oxm.py:826, 855. -/
def vhtSizes : List Nat := [2, 1, 1, 1, 1, 1, 1, 1, 1, 2]

/-- The number list of `collect` in `vht_str2bin`, oxm.py:857-865; `i` is the position. -/
def vhtNums : Nat → List Str → Py (List Int)
  | _, [] => .ok []
  | i, t :: ts => do
    if i == 3 then
      let b ← a2bHex t
      let r ← vhtNums (i + 1) ts
      .ok (b.map (fun x => (x.toNat : Int)) ++ r)
    else if t.isEmpty then
      let r ← vhtNums (i + 1) ts
      .ok (0 :: r)
    else
      let (v, _) ← parseInt t
      let r ← vhtNums (i + 1) ts
      .ok (v :: r)

/-- `collect` of `vht_str2bin`, oxm.py:856-867. -/
def vhtCollect (txt : Str) : Py Bytes := do
  let ps ← vhtNums 0 (splitAll ':' txt)
  packSizesLE vhtSizes ps

/-- `vht_str2bin` on text, oxm.py:854-883. -/
def vhtStr2bin (field : Key) (u : Str) : Py (Bytes × Nat) := do
  let (h, txt, _) := getToken u
  let (v, m) := split1 '/' txt
  let payload ← vhtCollect v
  match m with
  | some m =>
    let mask ← vhtCollect m
    .ok (header field vhtSizes.sum true ++ (payload ++ mask), h.length + txt.length)
  | none => .ok (header field vhtSizes.sum false ++ payload, h.length + txt.length)

/-- `s8_str2bin(field)` on text, oxm.py:897-907. -/
def s8Str2bin (field : Key) (u : Str) : Py (Bytes × Nat) := do
  let (num, rlen) ← parseInt u
  let payload ← packS8 num
  .ok (header field 1 false ++ payload, rlen)

/-- `_str2bin[name](payload)` with a text payload. -/
def encText (field : Key) (k : Enc) (u : Str) : Py (Bytes × Nat) :=
  match k with
  | .uint n => uintStr2bin field n u
  | .port n => portStr2bin field n u
  | .mac => macStr2bin field u
  | .ipv4 => ipv4Str2bin field u
  | .ipv6 => ipv6Str2bin field u
  | .pkt => pktStr2bin field u
  | .hex => hexStr2bin field u
  | .ssid => ssidStr2bin field u
  | .le n => leStr2bin field n u
  | .rate => rateStr2bin field u
  | .ch => chStr2bin field u
  | .comp sizes => compStr2bin field sizes u
  | .vht => vhtStr2bin field u
  | .s8 => s8Str2bin field u

/-- `_str2bin[name](has_mask)` with a boolean (the non-text branch of every `*_str2bin`): the bare
header.  `port`, `pkt`, `rate` and `s8` ignore the mask flag; `hex` and `ssid` use length 255. -/
def encId (field : Key) (k : Enc) (hasMask : Bool) : Bytes :=
  match k with
  | .uint n => header field n hasMask
  | .port n => header field n false
  | .mac => header field 6 hasMask
  | .ipv4 => header field 4 hasMask
  | .ipv6 => header field 16 hasMask
  | .pkt => header field 4 false
  | .hex => header field 0xff hasMask
  | .ssid => header field 0xff hasMask
  | .le n => header field n hasMask
  | .rate => header field 1 false
  | .ch => header field 4 hasMask
  | .comp sizes => header field sizes.sum hasMask
  | .vht => header field vhtSizes.sum hasMask
  | .s8 => header field 1 false

/-! ## Binary to text -/

/-- One integer through its conversion. -/
def fmtI (f : IFmt) (n : Nat) : Str :=
  match f with
  | .dec => fmtD n
  | .hex w => fmtX w n

/-- `fmt.format(value, mask)` resp. `fmt.split("/", 2)[0].format(value)`: conversions missing from
the format string are silently not printed. -/
def fmtField (f : Fmt) (value : Nat) (mask : Option Nat) : Str :=
  match f.val with
  | none => f.name
  | some vf =>
    let s := f.name ++ '=' :: fmtI vf value
    match mask, f.mask with
    | some m, some mf => s ++ '/' :: fmtI mf m
    | _, _ => s

/-- `uint_bin2str(fmt)`, oxm.py:293-317. -/
def uintBin2str (f : Fmt) (payload : Bytes) (hasMask : Bool) : Py Str :=
  if hasMask then
    let split := payload.length / 2
    .ok (fmtField f (beVal (payload.take split)) (some (beVal (payload.drop split))))
  else .ok (fmtField f (beVal payload) none)

/-- The name loop of `port_bin2str`, oxm.py:352-355. -/
def portName (size num : Nat) : Str :=
  match ofpp.find? (fun e => e.1 % 256 ^ size == num) with
  | some e => e.2
  | none => fmtD num

/-- `port_bin2str(name, fmt)`, oxm.py:342-357. -/
def portBin2str (name : Str) (size : Nat) (payload : Bytes) (hasMask : Bool) : Py Str := do
  pyAssert (!hasMask)
  pyAssert (payload.length == size)
  .ok (name ++ '=' :: portName size (beVal payload))

/-- `":".join(map("{:02x}".format, ...))`, oxm.py:387, 390. -/
def macText (b : Bytes) : Str := joinStr t!":" (b.map hex2)

/-- `mac_bin2str(name)`, oxm.py:382-395. -/
def macBin2str (name : Str) (payload : Bytes) (hasMask : Bool) : Py Str := do
  if payload.length < 6 then .error .structError
  else
    let value := macText (payload.take 6)
    if hasMask then
      pyAssert (payload.length == 12)
      .ok (name ++ '=' :: (value ++ '/' :: macText (payload.drop 6)))
    else
      pyAssert (payload.length == 6)
      .ok (name ++ '=' :: value)

/-- `ipv4_bin2str(name)`, oxm.py:431-444. -/
def ipv4Bin2str (name : Str) (payload : Bytes) (hasMask : Bool) : Py Str := do
  let value ← inetNtoa (payload.take 4)
  if hasMask then
    pyAssert (payload.length == 8)
    let m ← inetNtoa (payload.drop 4)
    .ok (name ++ '=' :: (value ++ '/' :: m))
  else
    pyAssert (payload.length == 4)
    .ok (name ++ '=' :: value)

/-- `ipv6_bin2str(name)`, oxm.py:474-487. -/
def ipv6Bin2str (name : Str) (payload : Bytes) (hasMask : Bool) : Py Str := do
  let value ← inetNtop (payload.take 16)
  if hasMask then
    pyAssert (payload.length == 32)
    let m ← inetNtop (payload.drop 16)
    .ok (name ++ '=' :: (value ++ '/' :: m))
  else
    pyAssert (payload.length == 16)
    .ok (name ++ '=' :: value)

/-- `pkt_bin2str`, oxm.py:518-524. -/
def pktBin2str (payload : Bytes) (hasMask : Bool) : Py Str := do
  pyAssert (!hasMask)
  pyAssert (payload.length == 4)
  .ok (t!"packet_type=" ++ (fmtX 0 (uAt payload 0 2) ++ ':' :: fmtX 0 (uAt payload 2 2)))

/-- `hex_bin2str(name)`, oxm.py:541-555. -/
def hexBin2str (name : Str) (payload : Bytes) (hasMask : Bool) : Py Str :=
  if hasMask then
    let split := payload.length / 2
    .ok (name ++ '=' :: (b2aHex (payload.take split) ++ '/' :: b2aHex (payload.drop split)))
  else .ok (name ++ '=' :: b2aHex payload)

/-- `while name[-1] == 0: name = name[:-1]`, oxm.py:594-595: `IndexError` when all bytes are zero
(or there are none). -/
def stripZeros (b : Bytes) : Py Bytes :=
  let r := (b.reverse.dropWhile (· == 0)).reverse
  if r.isEmpty then .error .indexError else .ok r

/-- `ssid_bin2str`, oxm.py:587-602. -/
def ssidBin2str (payload : Bytes) (hasMask : Bool) : Py Str := do
  if hasMask then
    let split := payload.length / 2
    let name ← stripZeros (payload.take split)
    .ok (t!"dot11_ssid=" ++ (b2aQp name ++ '/' :: b2aHex (payload.drop split)))
  else .ok (t!"dot11_ssid=" ++ b2aQp payload)

/-- `le_bin2str(fmt)`, oxm.py:631-655. -/
def leBin2str (f : Fmt) (payload : Bytes) (hasMask : Bool) : Py Str :=
  if hasMask then
    let split := payload.length / 2
    .ok (fmtField f (leVal (payload.take split)) (some (leVal (payload.drop split))))
  else .ok (fmtField f (leVal payload) none)

/-- `rate_bin2str`, oxm.py:681-690: `{:.1f}` of `rate*500.0` resp. `rate/2.0`; both are exact. -/
def rateBin2str (payload : Bytes) (hasMask : Bool) : Py Str := do
  pyAssert (!hasMask)
  match payload with
  | [] => .error .structError
  | r :: _ =>
    let rate := r.toNat
    if rate < 2 then .ok (t!"radiotap_rate=" ++ (fmtD (rate * 500) ++ t!".0K"))
    else .ok (t!"radiotap_rate=" ++
      (fmtD (rate / 2) ++ (if rate % 2 == 1 then t!".5M" else t!".0M")))

/-- `ch_bin2str`, oxm.py:713-728. -/
def chBin2str (payload : Bytes) (hasMask : Bool) : Py Str := do
  if hasMask then
    pyAssert (payload.length == 8)
    let v := fun i => uAt payload (2 * i) 2
    if v 2 == 0 then
      .ok (t!"radiotap_channel=" ++ (fmtD (v 0) ++ ':' :: (fmtX 6 (v 1) ++
        '/' :: ':' :: fmtX 6 (v 3))))
    else
      .ok (t!"radiotap_channel=" ++ (fmtD (v 0) ++ ':' :: (fmtX 6 (v 1) ++
        '/' :: (fmtX 6 (v 2) ++ ':' :: fmtX 6 (v 3)))))
  else
    pyAssert (payload.length == 4)
    .ok (t!"radiotap_channel=" ++ (fmtD (uAt payload 0 2) ++ ':' :: fmtX 6 (uAt payload 2 2)))

/-- `struct.unpack_from("<...", data)`: little-endian fields of the given sizes. -/
def unpackSizesLE : List Nat → Bytes → List Nat
  | [], _ => []
  | s :: ss, b => leVal (b.take s) :: unpackSizesLE ss (b.drop s)

/-- `collect` of `comp_bin2str`, oxm.py:765-772. -/
def compShow (sizes : List Nat) (fmts : List IFmt) (data : Bytes) : Py Str := do
  needBytes data 0 sizes.sum
  .ok (joinStr t!":" ((List.zip (unpackSizesLE sizes data) fmts).map fun (n, f) =>
    if n == 0 then [] else fmtI f n))

/-- `comp_bin2str(name, packs, fmts)`, oxm.py:764-785. -/
def compBin2str (name : Str) (sizes : List Nat) (fmts : List IFmt) (payload : Bytes)
    (hasMask : Bool) : Py Str := do
  let v ← compShow sizes fmts payload
  if hasMask then
    let m ← compShow sizes fmts (payload.drop sizes.sum)
    .ok (name ++ '=' :: (v ++ '/' :: m))
  else .ok (name ++ '=' :: v)

/-- `collect` of `vht_bin2str`, oxm.py:827-844. -/
def vhtShow (data : Bytes) : Py Str := do
  needBytes data 0 vhtSizes.sum
  match unpackSizesLE vhtSizes data with
  | [n0, n1, n2, n3, n4, n5, n6, n7, n8, n9] =>
    .ok ((if n0 > 0 then fmtX 6 n0 else []) ++ ':' ::
      ((if n1 > 0 then fmtX 4 n1 else []) ++ ':' :: (fmtD n2 ++ ':' ::
      ((if n3 + n4 + n5 + n6 != 0 then
          fmtHexRaw 2 n3 ++ (fmtHexRaw 2 n4 ++ (fmtHexRaw 2 n5 ++ fmtHexRaw 2 n6)) else []) ++
      ':' :: ((if n7 > 0 then fmtX 4 n7 else []) ++ ':' :: (fmtD n8 ++ ':' :: fmtX 6 n9))))))
  | _ => .error .structError

/-- `vht_bin2str`, oxm.py:821-851. -/
def vhtBin2str (payload : Bytes) (hasMask : Bool) : Py Str := do
  let v ← vhtShow payload
  if hasMask then
    let m ← vhtShow (payload.drop vhtSizes.sum)
    .ok (t!"radiotap_vht=" ++ (v ++ '/' :: m))
  else .ok (t!"radiotap_vht=" ++ v)

/-- `s8_bin2str(name)`, oxm.py:886-894. -/
def s8Bin2str (name : Str) (payload : Bytes) (hasMask : Bool) : Py Str := do
  pyAssert (!hasMask)
  match payload with
  | [x] => .ok (name ++ '=' :: fmtInt (s8Val x))
  | _ => .error .structError

/-- `_bin2str[key](payload, has_mask)`. -/
def decText (d : Dec) (payload : Bytes) (hasMask : Bool) : Py Str :=
  match d with
  | .uint f => uintBin2str f payload hasMask
  | .port name size => portBin2str name size payload hasMask
  | .mac name => macBin2str name payload hasMask
  | .ipv4 name => ipv4Bin2str name payload hasMask
  | .ipv6 name => ipv6Bin2str name payload hasMask
  | .pkt => pktBin2str payload hasMask
  | .hex name => hexBin2str name payload hasMask
  | .ssid => ssidBin2str payload hasMask
  | .le f => leBin2str f payload hasMask
  | .rate => rateBin2str payload hasMask
  | .ch => chBin2str payload hasMask
  | .comp name sizes fmts => compBin2str name sizes fmts payload hasMask
  | .vht => vhtBin2str payload hasMask
  | .s8 name => s8Bin2str name payload hasMask

/-- `_bin2str[key](None, has_mask)`: the field name. -/
def decId (d : Dec) : Str :=
  match d with
  | .uint f => f.name
  | .port name _ => name
  | .mac name => name
  | .ipv4 name => name
  | .ipv6 name => name
  | .pkt => t!"packet_type"
  | .hex name => name
  | .ssid => t!"dot11_ssid"
  | .le f => f.name
  | .rate => t!"radiotap_rate"
  | .ch => t!"radiotap_channel"
  | .comp name _ _ => name
  | .vht => t!"radiotap_vht"
  | .s8 name => name

/-- `_bin2str[key]`, raising `KeyError`. -/
def getDec (key : Key) : Py Dec :=
  match lookupDec key with
  | some d => .ok d
  | none => .error .keyError

/-- One round of the loop of `oxm2str`, oxm.py:1295-1309: the token. -/
def oxm2strOne (msg : Bytes) : Py Str := do
  let kls := uAt msg 0 2
  let f1 := uAt msg 2 1
  let l := uAt msg 3 1
  let hasMask := f1 % 2 == 1
  if kls == OFPXMC_EXPERIMENTER then
    needBytes msg 4 4
    if uAt msg 4 4 == STRATOS_EXPERIMENTER_ID then
      let d ← getDec ⟨.stratos, f1 / 2⟩
      decText d (slice msg 8 (4 + l)) hasMask
    else .ok t!"?"
  else if kls == OFPXMC_OPENFLOW_BASIC then
    let d ← getDec ⟨.basic, f1 / 2⟩
    decText d (slice msg 4 (4 + l)) hasMask
  else if kls == OFPXMC_NXM_0 then
    let d ← getDec ⟨.nxm0, f1 / 2⟩
    decText d (slice msg 4 (4 + l)) hasMask
  else if kls == OFPXMC_NXM_1 then
    let d ← getDec ⟨.nxm1, f1 / 2⟩
    decText d (slice msg 4 (4 + l)) hasMask
  else .ok t!"?"

/-- The loop of `oxm2str`, oxm.py:1294-1314.  `fuel` bounds the rounds (`.loops` if it runs out;
it never does with more fuel than bytes, see `oxm2str_terminates`). -/
def oxm2strGo : Nat → Bytes → Py (List Str)
  | 0, _ => .error .loops
  | fuel + 1, msg =>
    if msg.length < 4 then .ok []
    else do
      let tok ← oxm2strOne msg
      let rest ← oxm2strGo fuel (msg.drop (4 + uAt msg 3 1))
      .ok (tok :: rest)

/-- `oxm2str(msg)` with `loop=True`, oxm.py:1292-1316. -/
def oxm2str (msg : Bytes) : Py Str := do
  let toks ← oxm2strGo (msg.length + 1) msg
  .ok (joinStr t!"," toks)

/-- `oxm2str(msg, loop=False)`, oxm.py:1292-1316. -/
def oxm2str1 (msg : Bytes) : Py Str :=
  if msg.length < 4 then .ok [] else oxm2strOne msg

/-- One round of the loop of `oxmid2str`, oxm.py:1321-1337: the token and the bytes used. -/
def oxmid2strOne (msg : Bytes) : Py (Str × Nat) := do
  let kls := uAt msg 0 2
  let f1 := uAt msg 2 1
  if kls == OFPXMC_EXPERIMENTER then
    needBytes msg 4 4
    if uAt msg 4 4 == STRATOS_EXPERIMENTER_ID then
      let d ← getDec ⟨.stratos, f1 / 2⟩
      .ok (decId d, 8)
    else .ok (t!"?", 8)
  else if kls == OFPXMC_OPENFLOW_BASIC then
    let d ← getDec ⟨.basic, f1 / 2⟩
    .ok (decId d, 4)
  else if kls == OFPXMC_NXM_0 then
    let d ← getDec ⟨.nxm0, f1 / 2⟩
    .ok (decId d, 4)
  else if kls == OFPXMC_NXM_1 then
    let d ← getDec ⟨.nxm1, f1 / 2⟩
    .ok (decId d, 4)
  else .ok (t!"?", 4)

/-- The loop of `oxmid2str`, oxm.py:1320-1342. -/
def oxmid2strGo : Nat → Bytes → Py (List Str)
  | 0, _ => .error .loops
  | fuel + 1, msg =>
    if msg.length < 4 then .ok []
    else do
      let (tok, rlen) ← oxmid2strOne msg
      let rest ← oxmid2strGo fuel (msg.drop rlen)
      .ok (tok :: rest)

/-- `oxmid2str(msg)` with `loop=True`, oxm.py:1318-1344. -/
def oxmid2str (msg : Bytes) : Py Str := do
  let toks ← oxmid2strGo (msg.length + 1) msg
  .ok (joinStr t!"," toks)

/-- `oxmid2str(msg, loop=False)`, oxm.py:1318-1344. -/
def oxmid2str1 (msg : Bytes) : Py Str :=
  if msg.length < 4 then .ok []
  else do
    let (tok, _) ← oxmid2strOne msg
    .ok tok

/-- One round of `str2oxm`, oxm.py:1351-1354: bytes, `length`, `payload`, unparsed rest. -/
def str2oxmOne (u : Str) : Py (Bytes × Nat × Str × Str) := do
  let (head, name, u) := getToken u
  let (op, payload, u) := getToken u
  pyAssert (!hasChar head '=' && hasChar op '=')
  match lookupEnc name with
  | none => .error .keyError
  | some (key, k) =>
    let (bin, length) ← encText key k payload
    .ok (bin, length, payload, u)

/-- The loop of `str2oxm`, oxm.py:1350-1362: the bytes and the unparsed rest. -/
def str2oxmGo (loop : Bool) : Nat → Str → Py (Bytes × Str)
  | 0, _ => .error .loops
  | fuel + 1, u =>
    if u.isEmpty then .ok ([], [])
    else do
      let (bin, length, payload, rest) ← str2oxmOne u
      if length == 0 then .ok ([], rest)
      else do
        pyAssert (length == payload.length)
        if loop then
          let (msg, rest) ← str2oxmGo loop fuel rest
          .ok (bin ++ msg, rest)
        else .ok (bin, rest)

/-- `str2oxm(unparsed, loop)`, oxm.py:1347-1364. -/
def str2oxmL (loop : Bool) (u : Str) : Py (Bytes × Nat) := do
  let (msg, rest) ← str2oxmGo loop (u.length + 1) u
  .ok (msg, u.length - rest.length)

/-- `str2oxm(unparsed)`. -/
def str2oxm (u : Str) : Py (Bytes × Nat) := str2oxmL true u

/-- `str2oxm(unparsed, loop=False)`. -/
def str2oxm1 (u : Str) : Py (Bytes × Nat) := str2oxmL false u

/-- The loop of `str2oxmid`, oxm.py:1367-1379 (the `loop` argument is not used by the code).  Names
that are not in the table are skipped. -/
def str2oxmidGo (hasMask : Bool) : Nat → Str → Py Bytes
  | 0, _ => .error .loops
  | fuel + 1, u =>
    if u.isEmpty then .ok []
    else
      let (_, name, rest) := getToken u
      let bin := if name == t!"_" then [] else
        match lookupEnc name with
        | some (key, k) => encId key k hasMask
        | none => []
      do
        let r ← str2oxmidGo hasMask fuel rest
        .ok (bin ++ r)

/-- `str2oxmid(unparsed, has_mask=hasMask)`, oxm.py:1367-1379. -/
def str2oxmid (hasMask : Bool) (u : Str) : Py Bytes := str2oxmidGo hasMask (u.length + 1) u

end Ofpstr
