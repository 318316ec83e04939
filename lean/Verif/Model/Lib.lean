import Verif.Model.Py

/-!
# Python standard library calls used by `ofpstr`

`binascii` (hex and quoted-printable) and `socket` (`inet_aton`, `inet_ntoa`, `inet_pton`,
`inet_ntop`), after CPython's `Modules/binascii.c` and glibc's `resolv/inet_addr.c`,
`inet_pton.c`, `inet_ntop.c`.  Nothing here comes from the repository.
-/

namespace Ofpstr

/-! ## Hexadecimal -/

/-- `binascii.a2b_hex(str)`; every failure is a `ValueError` (or its subclass `binascii.Error`). -/
def a2bHex : Str → Py Bytes
  | [] => .ok []
  | [_] => .error .valueError
  | a :: b :: rest =>
    match digitVal a, digitVal b with
    | some x, some y => do
      let r ← a2bHex rest
      .ok (UInt8.ofNat (16 * x + y) :: r)
    | _, _ => .error .valueError

/-- Two lower-case hexadecimal digits (`"{:02x}"`). -/
def hex2 (b : UInt8) : Str := [digitChar (b.toNat / 16), digitChar (b.toNat % 16)]

/-- `binascii.b2a_hex(b).decode("UTF-8")`. -/
def b2aHex (b : Bytes) : Str := b.flatMap hex2

/-! ## Quoted-printable -/

/-- Upper-case hexadecimal digit, as `to_hex` in binascii.c. -/
def upDigit (d : Nat) : Char := if d < 10 then Char.ofNat (48 + d) else Char.ofNat (55 + d)

/-- The byte as a character. -/
def chr (b : UInt8) : Char := Char.ofNat b.toNat

/-- A byte that `b2a_qp` (default arguments) writes as `=XX`; `next` is the following byte. -/
def qpMustQuote (b : UInt8) (next : Option UInt8) (linelen : Nat) : Bool :=
  let n := b.toNat
  n > 126 || n == 61 ||
  (n == 46 && linelen == 0 &&
    (match next with | none => true | some m => m == 10 || m == 13 || m == 0)) ||
  ((n == 9 || n == 32) && next.isNone) ||
  (n < 33 && n != 13 && n != 10 && n != 9 && n != 32)

/-- The second loop of `binascii_b2a_qp_impl`.  `out` is the output so far, reversed. -/
def b2aQpGo (crlf : Bool) : Nat → Nat → Str → Bytes → Str
  | 0, _, out, _ => out.reverse
  | _ + 1, _, out, [] => out.reverse
  | fuel + 1, linelen, out, b :: rest =>
    let brk : Str := if crlf then ['\n', '\r', '='] else ['\n', '=']
    if qpMustQuote b rest.head? linelen then
      let q : Str := [upDigit (b.toNat % 16), upDigit (b.toNat / 16), '=']
      if linelen + 3 ≥ 76 then b2aQpGo crlf fuel 3 (q ++ (brk ++ out)) rest
      else b2aQpGo crlf fuel (linelen + 3) (q ++ out) rest
    else if b == 10 || (b == 13 && rest.head? == some 10) then
      let out := match out with
        | ' ' :: o => ['0', '2', '='] ++ o
        | '\t' :: o => ['9', '0', '='] ++ o
        | o => o
      let nl : Str := if crlf then ['\n', '\r'] else ['\n']
      b2aQpGo crlf fuel 0 (nl ++ out) (if b == 13 then rest.drop 1 else rest)
    else
      if rest.head?.isSome && rest.head? != some 10 && linelen + 1 ≥ 76 then
        b2aQpGo crlf fuel 1 (chr b :: (brk ++ out)) rest
      else b2aQpGo crlf fuel (linelen + 1) (chr b :: out) rest

/-- Does the first line of the data end in CR LF?  (The `memchr` at the start of `b2a_qp`.) -/
def qpCrlf : Bytes → Bool
  | [] => false
  | 13 :: 10 :: _ => true
  | 10 :: _ => false
  | _ :: rest => qpCrlf rest

/-- `binascii.b2a_qp(b).decode("UTF-8")`. -/
def b2aQp (b : Bytes) : Str := b2aQpGo (qpCrlf b) (b.length + 1) 0 [] b

/-- The loop of `binascii_a2b_qp_impl` with `header=False` on ASCII input. -/
def a2bQpGo : Nat → Str → Bytes
  | 0, _ => []
  | _ + 1, [] => []
  | fuel + 1, c :: cs =>
    if c == '=' then
      match cs with
      | [] => []
      | d :: ds =>
        if d == '\n' then a2bQpGo fuel ds
        else if d == '\r' then a2bQpGo fuel ((ds.dropWhile (· != '\n')).drop 1)
        else if d == '=' then 61 :: a2bQpGo fuel ds
        else match digitVal d, ds with
          | some x, e :: es =>
            match digitVal e with
            | some y => UInt8.ofNat (16 * x + y) :: a2bQpGo fuel es
            | none => 61 :: a2bQpGo fuel cs
          | _, _ => 61 :: a2bQpGo fuel cs
    else UInt8.ofNat c.toNat :: a2bQpGo fuel cs

/-- `binascii.a2b_qp(str)`: `ValueError` unless the string is ASCII. -/
def a2bQp (s : Str) : Py Bytes :=
  if s.all (fun c => c.toNat < 128) then .ok (a2bQpGo (s.length + 1) s) else .error .valueError

/-! ## IPv4 -/

/-- `strtoul(cp, &endp, 0)` at a decimal digit: value and rest. -/
def strtoul (s : Str) : Nat × Str :=
  let run (b : Nat) (p : Char → Bool) (t : Str) : Nat × Str :=
    (ofDigits b ((t.takeWhile p).map fun c => (digitVal c).getD 0), t.dropWhile p)
  match s with
  | '0' :: x :: d :: t =>
    if (x == 'x' || x == 'X') && isHex d then run 16 isHex (d :: t) else run 8 isOct s
  | '0' :: _ => run 8 isOct s
  | _ => run 10 isDec s

/-- The loop of glibc's `inet_aton_end`: `parts` are the bytes before the dots read so far. -/
def inetAtonGo : Nat → List Nat → Str → Option (List Nat × Nat)
  | 0, _, _ => none
  | _ + 1, _, [] => none
  | fuel + 1, parts, c :: cs =>
    if !isDec c then none
    else
      let (v, rest) := strtoul (c :: cs)
      if v > 0xffffffff then none
      else match rest with
        | '.' :: rest' =>
          if parts.length > 2 || v > 0xff then none
          else inetAtonGo fuel (parts ++ [v]) rest'
        | d :: _ => if isAsciiWs d then some (parts, v) else none
        | [] => some (parts, v)

/-- `socket.inet_aton(s)`: 1 to 4 dotted parts, each decimal, octal or hexadecimal, the last one
filling the remaining bytes.  `OSError` if malformed, `ValueError` on an embedded NUL. -/
def inetAton (s : Str) : Py Bytes :=
  if s.contains '\x00' then .error .valueError
  else match inetAtonGo (s.length + 1) [] s with
    | none => .error .osError
    | some (parts, v) =>
      let room := 4 - parts.length
      if v < 256 ^ room then .ok (parts.map UInt8.ofNat ++ beBytes room v)
      else .error .osError

/-- Dotted decimal of a byte list. -/
def dotted (b : Bytes) : Str := joinStr t!"." (b.map fun x => fmtD x.toNat)

/-- `socket.inet_ntoa(b)`: `OSError` unless `b` has 4 bytes. -/
def inetNtoa (b : Bytes) : Py Str :=
  if b.length == 4 then .ok (dotted b) else .error .osError

/-! ## IPv6 -/

/-- glibc's `inet_pton4`: `done` octets finished (reversed), `cur` the octet being read. -/
def inetPton4Go : List Nat → Option Nat → Str → Option (List Nat)
  | done, cur, [] =>
    match cur with
    | some v => if done.length == 3 then some (v :: done).reverse else none
    | none => none
  | done, cur, c :: cs =>
    if isDec c then
      let d := (digitVal c).getD 0
      match cur with
      | none => if done.length ≥ 4 then none else inetPton4Go done (some d) cs
      | some v =>
        if v == 0 then none
        else if v * 10 + d > 255 then none
        else inetPton4Go done (some (v * 10 + d)) cs
    else if c == '.' then
      match cur with
      | some v => if done.length == 3 then none else inetPton4Go (v :: done) none cs
      | none => none
    else none

/-- Main loop of glibc's `inet_pton6`.  `tp`: 16-bit words written so far; `colon`: their number
when `::` was seen; `curtok`: the text from the current group on; `seen`/`val`: digits of the
current group.  The result is the words before the final `::` expansion, and `colon`. -/
def inetPton6Go : List Nat → Option Nat → Str → Nat → Nat → Str → Option (List Nat × Option Nat)
  | tp, colon, _, seen, val, [] =>
    if seen > 0 then
      if tp.length + 1 > 8 then none else some (tp ++ [val], colon)
    else some (tp, colon)
  | tp, colon, curtok, seen, val, c :: cs =>
    match digitVal c with
    | some d =>
      if seen == 4 then none else inetPton6Go tp colon curtok (seen + 1) (val * 16 + d) cs
    | none =>
      if c == ':' then
        if seen == 0 then
          if colon.isSome then none else inetPton6Go tp (some tp.length) cs 0 val cs
        else if cs.isEmpty then none
        else if tp.length + 1 > 8 then none
        else inetPton6Go (tp ++ [val]) colon cs 0 0 cs
      else if c == '.' && tp.length + 2 ≤ 8 then
        match inetPton4Go [] none curtok with
        | some [a, b, x, y] => some (tp ++ [a * 256 + b, x * 256 + y], colon)
        | _ => none
      else none

/-- The expansion of `::` at the end of `inet_pton6`. -/
def inetPton6Fin : List Nat × Option Nat → Option (List Nat)
  | (tp, some k) =>
    if tp.length == 8 then none
    else some (tp.take k ++ List.replicate (8 - tp.length) 0 ++ tp.drop k)
  | (tp, none) => if tp.length == 8 then some tp else none

/-- glibc's `inet_pton6`: the eight 16-bit words. -/
def inetPton6 (s : Str) : Option (List Nat) :=
  match s with
  | [] => none
  | ':' :: s' =>
    match s' with
    | ':' :: _ => (inetPton6Go [] none s' 0 0 s').bind inetPton6Fin
    | _ => none
  | _ => (inetPton6Go [] none s 0 0 s).bind inetPton6Fin

/-- `socket.inet_pton(socket.AF_INET6, s)`. -/
def inetPton (s : Str) : Py Bytes :=
  if s.contains '\x00' then .error .valueError
  else match inetPton6 s with
    | none => .error .osError
    | some ws => .ok (ws.flatMap (beBytes 2))

/-- Big-endian 16-bit words of a byte string. -/
def words16 : Bytes → List Nat
  | a :: b :: rest => (a.toNat * 256 + b.toNat) :: words16 rest
  | _ => []

/-- The better of the best run so far and the run that just ended (first longest wins). -/
def betterRun (best cur : Option (Nat × Nat)) : Option (Nat × Nat) :=
  match cur, best with
  | none, b => b
  | some c, none => some c
  | some c, some b => if c.2 > b.2 then some c else some b

/-- Longest run of zero words, the run-finding loop of glibc's `inet_ntop6`. -/
def bestRunGo : Nat → Option (Nat × Nat) → Option (Nat × Nat) → List Nat → Option (Nat × Nat)
  | _, best, cur, [] => betterRun best cur
  | i, best, cur, w :: ws =>
    if w == 0 then
      match cur with
      | none => bestRunGo (i + 1) best (some (i, 1)) ws
      | some (b, l) => bestRunGo (i + 1) best (some (b, l + 1)) ws
    else bestRunGo (i + 1) (betterRun best cur) none ws

/-- The run printed as `::`, if any (at least two words). -/
def bestRun (ws : List Nat) : Option (Nat × Nat) :=
  match bestRunGo 0 none none ws with
  | some (b, l) => if l < 2 then none else some (b, l)
  | none => none

/-- The printing loop of glibc's `inet_ntop6`. -/
def ntop6Go (all : List Nat) (best : Option (Nat × Nat)) : Nat → List Nat → Str
  | _, [] => []
  | i, w :: ws =>
    let inRun := match best with | some (b, l) => b ≤ i && i < b + l | none => false
    if inRun then
      (match best with | some (b, _) => if i == b then t!":" else [] | none => [])
        ++ ntop6Go all best (i + 1) ws
    else
      let sep := if i != 0 then t!":" else []
      let v4 := i == 6 && (match best with
        | some (b, l) => b == 0 && (l == 6 || (l == 5 && all.getD 5 0 == 0xffff))
        | none => false)
      if v4 then sep ++ dotted (((w :: ws).flatMap (beBytes 2)))
      else sep ++ (fmtHexRaw 0 w ++ ntop6Go all best (i + 1) ws)

/-- glibc's `inet_ntop6`. -/
def inetNtop6 (ws : List Nat) : Str :=
  let best := bestRun ws
  ntop6Go ws best 0 ws ++
    (match best with | some (b, l) => if b + l == 8 then t!":" else [] | none => [])

/-- `socket.inet_ntop(socket.AF_INET6, b)`: `ValueError` unless `b` has 16 bytes. -/
def inetNtop (b : Bytes) : Py Str :=
  if b.length == 16 then .ok (inetNtop6 (words16 b)) else .error .valueError

end Ofpstr
