import Verif.Model.Ofp4

/-!
# Model of `ofpstr/cli.py`

The socket logic of `ofctl`; the `switch` argument is in `Switch.lean`.  Not modelled: `argparse` and connecting
(cli.py:29-44).  cli.py uses the Python 2 `print` statement; the library calls in it are those of
the Python 3 model, `print x` prints `x` and a newline.  Simplification: `s.send` sends everything.
-/

namespace Ofpstr

/-- The receiving half of a stream socket: the bytes the peer sends before closing, cut into the
pieces in which they arrive. -/
abbrev Sock := List Bytes

/-- `sock.recv(n)` for `n > 0`: at most `n` bytes of the piece that has arrived, `b""` when the
peer has closed. -/
def recv (n : Nat) : Sock → Bytes × Sock
  | [] => ([], [])
  | c :: cs => if c.length ≤ n then (c, cs) else (c.take n, c.drop n :: cs)

/-- One `yield` of `msgs`, cli.py:16-23. -/
def nextMsg (s : Sock) : Py (Bytes × Sock) :=
  let (h, s) := recv 8 s
  if h.length != 8 then .error .structError
  else if uAt h 2 2 > 8 then
    let (b, s) := recv (uAt h 2 2 - 8) s
    .ok (h ++ b, s)
  else .ok (h, s)

/-- Number of bytes the peer will still send. -/
def sockBytes (s : Sock) : Nat := (s.map List.length).sum

/-- What `msgs` yields when it is run to its end, and the exception that ends it, cli.py:16-23. -/
def cliMsgs : Nat → Sock → List Bytes × Err
  | 0, _ => ([], .loops)
  | fuel + 1, s =>
    match nextMsg s with
    | .error e => ([], e)
    | .ok (m, s) =>
      let (ms, e) := cliMsgs fuel s
      (m :: ms, e)

/-- How `ofctl` ends when it does not return: `Eparam`, `Result`, or another exception. -/
inductive CliErr where
  | eparam | result | py (e : Err)
  deriving DecidableEq, Repr

/-- What `ofctl` does: the buffers given to `s.send`, the printed texts, how it ends. -/
structure CliRun where
  sent : List Bytes
  printed : List Str
  outcome : Except CliErr Unit
  deriving DecidableEq

/-- `ofpfc` and `ofpgc` of cli.py:25-26. -/
def cliFlowCmds : List Str :=
  [t!"add-flow", t!"mod-flow", t!"mod-flow-strict", t!"del-flow", t!"del-flow-strict"]
def cliGroupCmds : List Str := [t!"add-group", t!"mod-group", t!"del-group"]

/-- OFPT_HELLO, cli.py:46. -/
def cliHello : Bytes := [4, 0, 0, 8, 0, 0, 0, 1]

/-- OFPT_BARRIER_REQUEST, cli.py:78, 90. -/
def cliBarrier : Bytes := [4, 20, 0, 8, 0, 0, 0, 3]

/-- The loops of `dump-flows` and `dump-groups`, cli.py:49-59 and 62-72; `mp` is the multipart
type, `decode` the printer. -/
def dumpGo (mp : Nat) (decode : Bytes → Py Str) : Nat → Sock → List Str × Except CliErr Unit
  | 0, _ => ([], .error (.py .loops))
  | fuel + 1, s =>
    match nextMsg s with
    | .error e => ([], .error (.py e))
    | .ok (msg, s) =>
      if msg.length < 16 then dumpGo mp decode fuel s
      else if uAt msg 1 1 != 19 || uAt msg 8 2 != mp then dumpGo mp decode fuel s
      else match decode msg with
        | .error e => ([], .error (.py e))
        | .ok t =>
          if uAt msg 10 2 == 0 then ([t], .ok ())
          else
            let (ts, o) := dumpGo mp decode fuel s
            (t :: ts, o)

/-- The loops of cli.py:79-84 and 91-96.  Line 81/93 compares `hdr[2]`, the length. -/
def waitGo : Nat → Sock → Except CliErr Unit
  | 0, _ => .error (.py .loops)
  | fuel + 1, s =>
    match nextMsg s with
    | .error e => .error (.py e)
    | .ok (msg, s) =>
      if uAt msg 1 1 == 1 && uAt msg 2 2 == 2 then .error .result
      else if uAt msg 1 1 == 21 && uAt msg 4 4 == 3 then .ok ()
      else waitGo fuel s

/-- `ofctl` after the connection is made, cli.py:46-98. -/
def ofctl (command : Str) (args : List Str) (s : Sock) : CliRun :=
  if command == t!"dump-flows" then
    match text2mpflow [] 18 2 with
    | .error e => { sent := [cliHello], printed := [], outcome := .error (.py e) }
    | .ok req =>
      let (ts, o) := dumpGo 1 mpflow2text (sockBytes s + 1) s
      { sent := [cliHello, req], printed := ts, outcome := o }
  else if command == t!"dump-groups" then
    match text2mpgroupdesc [] 18 2 with
    | .error e => { sent := [cliHello], printed := [], outcome := .error (.py e) }
    | .ok req =>
      let (ts, o) := dumpGo 7 mpgroupdesc2text (sockBytes s + 1) s
      { sent := [cliHello, req], printed := ts, outcome := o }
  else if cliFlowCmds.contains command then
    match str2mod (joinStr t!" " args) (cliFlowCmds.idxOf command : Nat) 2 with
    | .error e => { sent := [cliHello], printed := [], outcome := .error (.py e) }
    | .ok x => { sent := [cliHello, x, cliBarrier], printed := [],
                 outcome := waitGo (sockBytes s + 1) s }
  else if cliGroupCmds.contains command then
    match str2group (joinStr t!" " args) (cliGroupCmds.idxOf command : Nat) 2 with
    | .error e => { sent := [cliHello], printed := [], outcome := .error (.py e) }
    | .ok x => { sent := [cliHello, x, cliBarrier], printed := [],
                 outcome := waitGo (sockBytes s + 1) s }
  else { sent := [cliHello], printed := [], outcome := .error .eparam }

end Ofpstr
