/-!
# Python primitives

The part of Python 3 (CPython) that `ofpstr` is written in: strings, byte strings, exceptions as
values, `str.format` of integers, `int(...)`, `struct.pack`/`struct.unpack_from`, slicing, `split`,
`find`.  Nothing in this file comes from the repository; every definition says which Python
primitive it stands for.
-/

namespace Ofpstr

/-- A Python `str`: a list of code points. -/
abbrev Str := List Char

/-- A Python `bytes`. -/
abbrev Bytes := List UInt8

/-- Outcome of a Python call that does not return: the class of the exception raised, or `loops`
when the call never finishes. -/
inductive Err where
  | valueError | assertionError | keyError | typeError | structError | indexError | nameError
  | osError | loops
  deriving DecidableEq, Repr

/-- A Python computation. -/
abbrev Py := Except Err

deriving instance DecidableEq for Except

/-- `t!"abc"` is the Python string literal `"abc"` as a `Str`. -/
syntax:max "t!" str : term
macro_rules
  | `(t! $s:str) => do
    let cs := s.getString.toList
    let elems : Array (Lean.TSyntax `term) := (cs.map fun c => ⟨Lean.Syntax.mkCharLit c⟩).toArray
    `(([$elems,*] : List Char))

/-- Python `assert`. -/
def pyAssert (b : Bool) : Py Unit := if b then .ok () else .error .assertionError

/-! ## Strings -/

/-- `string.whitespace`: `" \t\n\r\x0b\x0c"`. -/
def isAsciiWs (c : Char) : Bool :=
  c == ' ' || c == '\t' || c == '\n' || c == '\r' || c == '\x0b' || c == '\x0c'

/-- The regular expression class `\s` of a Python 3 `str` pattern (`str.isspace`). -/
def isReSpace (c : Char) : Bool :=
  let n := c.toNat
  (9 ≤ n && n ≤ 13) || (28 ≤ n && n ≤ 32) || n == 0x85 || n == 0xa0 || n == 0x1680 ||
  (0x2000 ≤ n && n ≤ 0x200a) || n == 0x2028 || n == 0x2029 || n == 0x202f || n == 0x205f ||
  n == 0x3000

/-- `s.startswith(p)`. -/
def startsWith (s p : Str) : Bool := p.isPrefixOf s

/-- `c in s` for a one-character string `c` (so `s.find(c) >= 0`). -/
def hasChar (s : Str) (c : Char) : Bool := s.contains c

/-- `s.split(sep, 1)` for a one-character separator: the part before the first separator and, if
there is one, the part after it. -/
def split1 (sep : Char) (s : Str) : Str × Option Str :=
  match s with
  | [] => ([], none)
  | c :: cs =>
    if c == sep then ([], some cs)
    else let (a, b) := split1 sep cs; (c :: a, b)

/-- `s.split(sep)` for a one-character separator. -/
def splitAll (sep : Char) (s : Str) : List Str :=
  match s with
  | [] => [[]]
  | c :: cs =>
    if c == sep then [] :: splitAll sep cs
    else match splitAll sep cs with
      | [] => [[c]]
      | t :: ts => (c :: t) :: ts

/-- `sep.join(parts)`. -/
def joinStr (sep : Str) : List Str → Str
  | [] => []
  | [x] => x
  | x :: y :: rest => x ++ sep ++ joinStr sep (y :: rest)

/-- `str.lower` on ASCII letters.  Simplification: other letters are left alone; the callers only
compare the result with ASCII names. -/
def lowerChar (c : Char) : Char :=
  if 'A' ≤ c ∧ c ≤ 'Z' then Char.ofNat (c.toNat + 32) else c

/-- `str.upper` on ASCII letters.  Same simplification. -/
def upperChar (c : Char) : Char :=
  if 'a' ≤ c ∧ c ≤ 'z' then Char.ofNat (c.toNat - 32) else c

def lowerStr (s : Str) : Str := s.map lowerChar
def upperStr (s : Str) : Str := s.map upperChar

/-- Python slice `x[i:j]` with non-negative indices. -/
def slice {α : Type} (x : List α) (i j : Nat) : List α := (x.take j).drop i

/-! ## Printing integers -/

/-- The lower-case digit character of a digit below 16. -/
def digitChar (d : Nat) : Char :=
  if d < 10 then Char.ofNat (48 + d) else Char.ofNat (87 + d)

/-- Digits of `n` in base `b`, most significant first; `fuel` bounds their number. -/
def digitsAux (b : Nat) : Nat → Nat → List Nat → List Nat
  | 0, _, acc => acc
  | fuel + 1, n, acc =>
    if n < b then n :: acc else digitsAux b fuel (n / b) (n % b :: acc)

/-- Digits of `n` in base `b ≥ 2`. -/
def digitsOf (b n : Nat) : List Nat := digitsAux b (n.log2 + 1) n []

/-- `"{:d}".format(n)` for a natural number. -/
def fmtD (n : Nat) : Str := (digitsOf 10 n).map digitChar

/-- `"{:d}".format(n)`. -/
def fmtInt (n : Int) : Str :=
  if n < 0 then '-' :: fmtD n.natAbs else fmtD n.natAbs

/-- `"{:0wx}".format(n)`: hexadecimal without prefix, zero-padded to `w` characters. -/
def fmtHexRaw (w n : Nat) : Str :=
  let ds := (digitsOf 16 n).map digitChar
  List.replicate (w - ds.length) '0' ++ ds

/-- `"{:#0wx}".format(n)`; `w` counts the `0x` (`{:#x}` is `w = 0`). -/
def fmtX (w n : Nat) : Str := '0' :: 'x' :: fmtHexRaw (w - 2) n

/-! ## Reading integers -/

/-- Value of a digit character in base up to 16, either letter case. -/
def digitVal (c : Char) : Option Nat :=
  let n := c.toNat
  if 48 ≤ n ∧ n ≤ 57 then some (n - 48)
  else if 97 ≤ n ∧ n ≤ 102 then some (n - 87)
  else if 65 ≤ n ∧ n ≤ 70 then some (n - 55)
  else none

def isDec (c : Char) : Bool := match digitVal c with | some d => d < 10 | none => false
def isHex (c : Char) : Bool := (digitVal c).isSome
def isOct (c : Char) : Bool := match digitVal c with | some d => d < 8 | none => false

/-- Value of a list of digits, most significant first. -/
def ofDigits (b : Nat) (ds : List Nat) : Nat := ds.foldl (fun a d => a * b + d) 0

/-- `int(s, b)` for a string consisting of digits of base `b` only; `ValueError` on `""`. -/
def intOfDigits (b : Nat) (s : Str) : Py Nat :=
  if s.isEmpty then .error .valueError
  else .ok (ofDigits b (s.map fun c => (digitVal c).getD 0))

/-- The digits-and-underscores part of `int(s)`: digits with single `_` between digits. -/
def pyIntBody : Bool → Str → Option (List Nat)
  | prevDigit, [] => if prevDigit then some [] else none
  | prevDigit, c :: cs =>
    if isDec c then (pyIntBody true cs).map ((digitVal c).getD 0 :: ·)
    else if c == '_' && prevDigit then pyIntBody false cs
    else none

/-- `int(s)` of an arbitrary string: surrounding white space, optional sign, decimal digits with
single underscores.  Simplification: non-ASCII decimal digits are refused. -/
def pyInt (s : Str) : Py Int :=
  let s := ((s.dropWhile isReSpace).reverse.dropWhile isReSpace).reverse
  let (neg, s) := match s with
    | '-' :: t => (true, t)
    | '+' :: t => (false, t)
    | t => (false, t)
  match pyIntBody false s with
  | some ds => let n : Int := ofDigits 10 ds; .ok (if neg then -n else n)
  | none => .error .valueError

/-! ## `struct` -/

/-- Big-endian bytes of `n`, reduced modulo `256 ^ size`. -/
def beBytes : Nat → Nat → Bytes
  | 0, _ => []
  | k + 1, n => UInt8.ofNat (n / 256 ^ k) :: beBytes k n

/-- Little-endian bytes of `n`, reduced modulo `256 ^ size`. -/
def leBytes : Nat → Nat → Bytes
  | 0, _ => []
  | k + 1, n => UInt8.ofNat n :: leBytes k (n / 256)

/-- Big-endian value. -/
def beVal (b : Bytes) : Nat := b.foldl (fun a x => a * 256 + x.toNat) 0

/-- Little-endian value. -/
def leVal : Bytes → Nat
  | [] => 0
  | x :: xs => x.toNat + 256 * leVal xs

/-- `struct.pack("!B"/"!H"/"!I"/"!Q", n)` (size 1/2/4/8): `struct.error` unless `n` fits. -/
def packU (size : Nat) (n : Int) : Py Bytes :=
  if 0 ≤ n ∧ n < 256 ^ size then .ok (beBytes size n.toNat) else .error .structError

/-- `struct.pack("<B"/"<H"/"<I"/"<Q", n)`. -/
def packLE (size : Nat) (n : Int) : Py Bytes :=
  if 0 ≤ n ∧ n < 256 ^ size then .ok (leBytes size n.toNat) else .error .structError

/-- `struct.pack("<b", n)`. -/
def packS8 (n : Int) : Py Bytes :=
  if -128 ≤ n ∧ n < 128 then .ok [UInt8.ofNat ((n % 256).toNat)] else .error .structError

/-- `struct.unpack("<b", [x])`. -/
def s8Val (x : UInt8) : Int := if x.toNat < 128 then x.toNat else (x.toNat : Int) - 256

/-- `struct.pack` of several big-endian fields in a row: `(size, value)` each. -/
def packAll : List (Nat × Int) → Py Bytes
  | [] => .ok []
  | (sz, n) :: rest => do
    let a ← packU sz n
    let b ← packAll rest
    .ok (a ++ b)

/-- `size` zero bytes (`x` codes of a `struct` format, `b"\0" * n`). -/
def zeros (n : Nat) : Bytes := List.replicate n 0

/-- The length check of `struct.unpack_from(fmt, b, off)` with `calcsize(fmt) == size`. -/
def needBytes (b : Bytes) (off size : Nat) : Py Unit :=
  if off + size ≤ b.length then .ok () else .error .structError

/-- One big-endian field of `struct.unpack_from` (the length is checked by `needBytes`). -/
def uAt (b : Bytes) (off size : Nat) : Nat := beVal (slice b off (off + size))

/-- `(x + 7) // 8 * 8` — `align8` at ofp4.py:7 and nx.py:11. -/
def align8 (x : Nat) : Nat := (x + 7) / 8 * 8

end Ofpstr
