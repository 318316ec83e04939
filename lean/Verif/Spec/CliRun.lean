import Verif.Spec.Cli
import Verif.Spec.MsgPrint
import Verif.Spec.GroupReject

/-!
# Specification: a run of the command line tool

What is sent, what is printed and how the run ends, for whatever arrives in whatever pieces.  One read returns a piece,
or its beginning if the piece is longer than what was asked for; nothing comes when the connection is closed.  A message is
made of two reads, one for the header and one for the rest, and both may return less than they should.
-/

namespace Ofpstr.Spec

/-- How a run ends. -/
inductive Ending where
  | fine
  | usage
  | failed
  | raised (e : Err)
  deriving DecidableEq

/-- A read of at most `n` bytes. -/
inductive OneRead (n : Nat) : List Bytes → Bytes → List Bytes → Prop
  | closed : OneRead n [] [] []
  | whole (c cs) : c.length ≤ n → OneRead n (c :: cs) c cs
  | part (a b cs) : a.length = n → b ≠ [] → OneRead n ((a ++ b) :: cs) a (b :: cs)

/-- What is taken for a message: eight bytes at once, then what one read gives of the bytes that are missing by the
length in the header. -/
inductive MsgRead : List Bytes → Bytes → List Bytes → Prop
  | short (s h s') : OneRead 8 s h s' → h.length = 8 → word16 h 2 ≤ 8 → MsgRead s h s'
  | long (s h s' b s'') : OneRead 8 s h s' → h.length = 8 → 8 < word16 h 2 → OneRead (word16 h 2 - 8) s' b s'' → MsgRead s (h ++ b) s''

/-- No message comes: the connection is closed, or the read for a header gives less. -/
def NoMsg (s : List Bytes) : Prop := ∃ h s', OneRead 8 s h s' ∧ h.length ≠ 8

/-- A dump: parts are printed as they come, up to the first one whose flags are 0; other messages are skipped.  `P` and `F`
say what a part is printed as and which exception it raises. -/
inductive Dump (kind : Nat) (P : Bytes → Str → Prop) (F : Bytes → Err → Prop) : List Bytes → List Str → Ending → Prop
  | closed (s) : NoMsg s → Dump kind P F s [] (.raised .structError)
  | other (s m s' ts o) : MsgRead s m s' → ¬ IsPart kind m → Dump kind P F s' ts o → Dump kind P F s ts o
  | bad (s m s' e) : MsgRead s m s' → IsPart kind m → F m e → Dump kind P F s [] (.raised e)
  | last (s m s' t) : MsgRead s m s' → IsPart kind m → P m t → partFlags m = 0 → Dump kind P F s [t] .fine
  | more (s m s' t ts o) : MsgRead s m s' → IsPart kind m → P m t → partFlags m ≠ 0 → Dump kind P F s' ts o →
      Dump kind P F s (t :: ts) o

/-- A barrier reply. -/
def IsBarrier (m : Bytes) : Prop := msgType m = 21 ∧ msgXid m = 3

/-- What the tool takes for the error message it waits for: type 1, and 2 in the place of the length, where the
transaction id was meant. -/
def IsFailure (m : Bytes) : Prop := msgType m = 1 ∧ word16 m 2 = 2

/-- The wait after a modification. -/
inductive Wait : List Bytes → Ending → Prop
  | closed (s) : NoMsg s → Wait s (.raised .structError)
  | failed (s m s') : MsgRead s m s' → IsFailure m → Wait s .failed
  | done (s m s') : MsgRead s m s' → IsBarrier m → Wait s .fine
  | other (s m s' o) : MsgRead s m s' → ¬ IsFailure m → ¬ IsBarrier m → Wait s' o → Wait s o

/-- The commands and the numbers OpenFlow gives them (`OFPFC_ADD`, …; `OFPGC_ADD`, …). -/
def flowNumbers : List (Str × Nat) := [(t!"add-flow", 0), (t!"mod-flow", 1), (t!"mod-flow-strict", 2), (t!"del-flow", 3),
  (t!"del-flow-strict", 4)]
def groupNumbers : List (Str × Nat) := [(t!"add-group", 0), (t!"mod-group", 1), (t!"del-group", 2)]

def allCommands : List Str := [t!"dump-flows", t!"dump-groups"] ++ (flowNumbers.map Prod.fst ++ groupNumbers.map Prod.fst)

/-- `Does command args reads sent printed ending`: what the tool does once it is connected. -/
inductive Does : Str → List Str → List Bytes → List Bytes → List Str → Ending → Prop
  | dumpFlows (args s ts o) : Dump 1 (fun b t => ∃ rows, MsgsPrinted FlowMsg b rows ∧ t = joinStr t!"\n" rows.flatten)
        (MsgsFail FlowMsg FlowMsgFails) s ts o →
      Does t!"dump-flows" args s [message 0 1 [], mpWire 18 2 1 0 (FlowReq.wire ⟨255, 0xffffffff, 0xffffffff, 0, 0⟩ [])] ts o
  | dumpGroups (args s ts o) : Dump 7 (fun b t => ∃ rows, MsgsPrinted DescMsg b rows ∧ t = joinStr t!"\n" rows.flatten)
        (MsgsFail DescMsg DescMsgFails) s ts o →
      Does t!"dump-groups" args s [message 0 1 [], mpWire 18 2 7 0 []] ts o
  | flow (c n args s ws o) : (c, n) ∈ flowNumbers → RuleText (joinStr t!" " args) ws → FlowFits (n : Nat) 2 ws → Wait s o →
      Does c args s [message 0 1 [], flowOf (n : Nat) 2 ws, message 20 3 []] [] o
  | noFlow (c n args s e) : (c, n) ∈ flowNumbers → FlowRejects (n : Nat) 2 (joinStr t!" " args) e →
      Does c args s [message 0 1 []] [] (.raised e)
  | group (c n args s gs bs o) : (c, n) ∈ groupNumbers → GroupRule (joinStr t!" " args) gs bs → GroupFits (n : Nat) 2 gs bs →
      Wait s o → Does c args s [message 0 1 [], groupMod (n : Nat) 2 gs bs, message 20 3 []] [] o
  | noGroup (c n args s e) : (c, n) ∈ groupNumbers → GroupRejects (n : Nat) 2 (joinStr t!" " args) e →
      Does c args s [message 0 1 []] [] (.raised e)
  | unknown (c args s) : c ∉ allCommands → Does c args s [message 0 1 []] [] .usage

end Ofpstr.Spec
