import Verif.Model.Py

/-!
# Model of `ofpstr/util.py`
-/

namespace Ofpstr

/-- `ofpp`, util.py:10-20: reserved port numbers and their names, in insertion order. -/
def ofpp : List (Nat × Str) := [
  (0xffffff00, t!"max"),
  (0xfffffff8, t!"in_port"),
  (0xfffffff9, t!"table"),
  (0xfffffffa, t!"normal"),
  (0xfffffffb, t!"flood"),
  (0xfffffffc, t!"all"),
  (0xfffffffd, t!"controller"),
  (0xfffffffe, t!"local"),
  (0xffffffff, t!"any")]

/-- `is_delimiter`, util.py:22-23.  (`c in ","` for a single character `c`.) -/
def isDelimiter (c : Char) : Bool := c == ',' || isAsciiWs c

/-- `pars`, util.py:25: the closing bracket of an opening bracket. -/
def pars (c : Char) : Option Char :=
  if c == '(' then some ')'
  else if c == '{' then some '}'
  else if c == '[' then some ']'
  else if c == '<' then some '>'
  else none

/-- `scan_paren(end)(reader)`, util.py:26-44.  The reader (a shared iterator) is threaded as the
remaining input: the result is `(payload, right-parenthesis, rest of the reader)`.  `fuel` bounds
the recursion; any fuel above the length of the input gives the same result
(`scanParen_fuel` in Lemmas).  Simplification: Python's recursion limit is not modelled. -/
def scanParen : Nat → Char → Str → Str × Str × Str
  | 0, _, cs => ([], [], cs)
  | _ + 1, _, [] => ([], [], [])
  | fuel + 1, e, c :: cs =>
    if c == e then ([], [c], cs)
    else match pars c with
      | some e' =>
        let (p, r, cs1) := scanParen fuel e' cs
        let (p2, r2, cs2) := scanParen fuel e cs1
        (c :: (p ++ r ++ p2), r2, cs2)
      | none =>
        let (p2, r2, cs2) := scanParen fuel e cs
        (c :: p2, r2, cs2)

/-- The leading non-token string matched by `"^(\s*=\s*|[\s,]+)"`, util.py:47-50. -/
def tokenHead (s : Str) : Str :=
  let ws := s.takeWhile isReSpace
  match s.dropWhile isReSpace with
  | '=' :: r => ws ++ '=' :: r.takeWhile isReSpace
  | _ => s.takeWhile (fun c => isReSpace c || c == ',')

/-- The body loop of `get_token`, util.py:52-60. -/
def tokenBody : Nat → Str → Str
  | 0, _ => []
  | _ + 1, [] => []
  | fuel + 1, c :: cs =>
    if isDelimiter c || c == '=' then []
    else match pars c with
      | some e =>
        let (p, r, cs1) := scanParen (cs.length + 1) e cs
        c :: (p ++ r ++ tokenBody fuel cs1)
      | none => c :: tokenBody fuel cs

/-- `get_token`, util.py:46-62. -/
def getToken (s : Str) : Str × Str × Str :=
  let head := tokenHead s
  let tail := s.drop head.length
  let body := tokenBody (tail.length + 1) tail
  (head, body, s.drop (head.length + body.length))

/-- The loop of `split`, util.py:64-81; `tok` is the token being collected.  As in the code, the
opening bracket itself is not added to the token (line 75). -/
def splitGo : Nat → Str → Str → List Str
  | 0, tok, _ => if tok.isEmpty then [] else [tok]
  | _ + 1, tok, [] => if tok.isEmpty then [] else [tok]
  | fuel + 1, tok, c :: cs =>
    if isDelimiter c then
      if tok.isEmpty then splitGo fuel [] cs else tok :: splitGo fuel [] cs
    else match pars c with
      | some e =>
        let (p, r, cs1) := scanParen (cs.length + 1) e cs
        splitGo fuel (tok ++ p ++ r) cs1
      | none => splitGo fuel (tok ++ [c]) cs

/-- `split`, util.py:64-81. -/
def splitTokens (s : Str) : List Str := splitGo (s.length + 1) [] s

/-- The loop of `parse_func`, util.py:88-99; `total` is `len(nojunk)`, `name` the part read. -/
def parseFuncGo (total : Nat) : Str → Str → Py (Str × Option Str)
  | name, [] => .ok (name, none)
  | name, c :: cs =>
    match pars c with
    | some e =>
      let (p, r, _) := scanParen (cs.length + 1) e cs
      if total == name.length + 1 + p.length + r.length then .ok (name, some p)
      else .error .assertionError
    | none => parseFuncGo total (name ++ [c]) cs

/-- `parse_func`, util.py:83-99. -/
def parseFunc (nojunk : Str) : Py (Str × Option Str) := parseFuncGo nojunk.length [] nojunk

/-- `longest`, util.py:101-109; the character set is given as a predicate. -/
def longest (p : Char → Bool) (s : Str) : Nat := (s.takeWhile p).length

/-- `parseInt`, util.py:111-124. -/
def parseInt (u : Str) : Py (Int × Nat) :=
  if startsWith u t!"-" then do
    let l := 1 + longest isDec (u.drop 1)
    let n ← intOfDigits 10 (slice u 1 l)
    .ok (-(n : Int), l)
  else if startsWith u t!"0x" || startsWith u t!"0X" then do
    let l := 2 + longest isHex (u.drop 2)
    let n ← intOfDigits 16 (slice u 2 l)
    .ok ((n : Int), l)
  else if startsWith u t!"0" && decide (u.length > 2) &&
      (match u.drop 1 with | c :: _ => isOct c | [] => false) then do
    let l := 1 + longest isOct (u.drop 1)
    let n ← intOfDigits 8 (slice u 1 l)
    .ok ((n : Int), l)
  else do
    let l := longest isDec u
    let n ← intOfDigits 10 (u.take l)
    .ok ((n : Int), l)

/-- `parseFloat`, util.py:126-139, as numerator, denominator and length.  The sign is read and
dropped, and the length does not count it, exactly as in the code.  Simplification: the binary
floating-point sum is the exact rational `num / den`. -/
def parseFloat (u : Str) : Py ((Nat × Nat) × Nat) := do
  let u := if startsWith u t!"-" then u.drop 1 else u
  let l := longest isDec u
  let n ← intOfDigits 10 (u.take l)
  if startsWith (u.drop l) t!"." then
    let l2 := longest isDec (u.drop (l + 1))
    let f ← intOfDigits 10 (slice u (l + 1) (l + l2 + 1))
    .ok ((n * 10 ^ l2 + f, 10 ^ l2), l + (l2 + 1))
  else .ok ((n, 1), l)

end Ofpstr
