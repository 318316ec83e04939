import Verif.Model.Cli

/-!
# Model of the `switch` argument in `ofpstr/cli.py`

The regular expression of cli.py:36 and what is done with its groups (cli.py:36-44).  Patterns are matched by
backtracking in the order of Python's `re`: alternatives from left to right, repetitions longest first, and the
first way that reaches the end of the pattern counts.  `cli.py` is Python 2 code, in which `\d` means the ASCII
digits.  The socket calls are a parameter (`connect`).
-/

namespace Ofpstr

/-- The parts of regular expressions that cli.py:36 uses.  `plus` and `star` repeat a class of characters. -/
inductive Re where
  | lit (s : Str)
  | one (p : Char → Bool)
  | plus (p : Char → Bool)
  | star (p : Char → Bool)
  | cat (a b : Re)
  | alt (a b : Re)
  | group (n : Nat) (a : Re)

/-- The groups that have matched: number and text, the last one first. -/
abbrev Caps := List (Nat × Str)

/-- A greedy `p*` before the rest `k` of the pattern. -/
def starGo {α : Type} (p : Char → Bool) (k : Str → Option α) : Str → Option α
  | [] => k []
  | c :: s => if p c then (match starGo p k s with | some a => some a | none => k (c :: s)) else k (c :: s)

/-- `re.match`: `k` is the rest of the pattern. -/
def Re.run {α : Type} : Re → (Str → Caps → Option α) → Str → Caps → Option α
  | .lit t, k, s, m => if startsWith s t then k (s.drop t.length) m else none
  | .one p, k, s, m => match s with
    | [] => none
    | c :: r => if p c then k r m else none
  | .plus p, k, s, m => match s with
    | [] => none
    | c :: r => if p c then starGo p (fun r => k r m) r else none
  | .star p, k, s, m => starGo p (fun r => k r m) s
  | .cat a b, k, s, m => a.run (fun r m => b.run k r m) s m
  | .alt a b, k, s, m => match a.run k s m with
    | some x => some x
    | none => b.run k s m
  | .group n a, k, s, m => a.run (fun r m => k r ((n, s.take (s.length - r.length)) :: m)) s m

/-- `.`: any character but the line feed. -/
def reDot (c : Char) : Bool := c != '\n'

/-- `\d+.\d+.\d+.\d+`, cli.py:36. -/
def reHost : Re := .cat (.plus isDec) (.cat (.one reDot) (.cat (.plus isDec) (.cat (.one reDot) (.cat (.plus isDec)
  (.cat (.one reDot) (.plus isDec))))))

/-- `(tcp:(\d+.\d+.\d+.\d+):(\d+)|unix:(.*))`, cli.py:36. -/
def reSwitch : Re := .group 1 (.alt (.cat (.lit t!"tcp:") (.cat (.group 2 reHost) (.cat (.lit t!":") (.group 3 (.plus isDec)))))
  (.cat (.lit t!"unix:") (.group 4 (.star reDot))))

/-- Where `ofctl` connects to. -/
inductive Target where
  | tcp (host : Str) (port : Int)
  | unix (path : Str)
  deriving DecidableEq, Repr

/-- The text of a group; the missing group `None` does not occur where it is asked for. -/
def Caps.get (m : Caps) (n : Nat) : Str := ((m.find? fun e => e.1 == n).map (·.2)).getD []

/-- cli.py:36-44: the address to connect to.  Group 0 is group 1 here.  The two `startsWith` are the only cases. -/
def switchTarget (sw : Str) : Except CliErr Target :=
  match reSwitch.run (fun _ m => some m) sw [] with
  | none => .error .eparam
  | some m =>
    if startsWith (m.get 1) t!"tcp:" then
      match pyInt (m.get 3) with
      | .ok n => .ok (.tcp (m.get 2) n)
      | .error e => .error (.py e)
    else .ok (.unix (m.get 4))

/-- `ofctl`, cli.py:28-98, after `argparse`; `connect` makes the connection and gives what will be received. -/
def ofctlMain (connect : Target → Except Err Sock) (sw command : Str) (args : List Str) : CliRun :=
  match switchTarget sw with
  | .error e => { sent := [], printed := [], outcome := .error e }
  | .ok t =>
    match connect t with
    | .error e => { sent := [], printed := [], outcome := .error (.py e) }
    | .ok s => ofctl command args s

end Ofpstr
