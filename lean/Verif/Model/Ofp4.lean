import Verif.Model.Nx

/-!
# Model of `ofpstr/ofp4.py` (Python 3 semantics)
-/

namespace Ofpstr

/-! ## Constants, ofp4.py:9-83 and 258-264 -/

def OFPT_FLOW_MOD : Nat := 14
def OFPT_GROUP_MOD : Nat := 15
def OFPT_MULTIPART_REPLY : Nat := 19
def OFPMP_FLOW : Nat := 1
def OFPMP_GROUP : Nat := 6
def OFPMP_GROUP_DESC : Nat := 7
def OFPTT_ALL : Nat := 0xff
def OFPCML_NO_BUFFER : Nat := 0xffff
def OFP_NO_BUFFER : Nat := 0xffffffff
def OFPP_CONTROLLER : Nat := 0xfffffffd
def OFPP_ANY : Nat := 0xffffffff
def OFPG_ALL : Nat := 0xfffffffc
def OFPG_ANY : Nat := 0xffffffff
def OFPMT_OXM : Nat := 1
def OFPAT_SET_FIELD : Nat := 25
def OFPIT_GOTO_TABLE : Nat := 1
def OFPIT_WRITE_METADATA : Nat := 2
def OFPIT_WRITE_ACTIONS : Nat := 3
def OFPIT_APPLY_ACTIONS : Nat := 4
def OFPIT_CLEAR_ACTIONS : Nat := 5
def OFPIT_METER : Nat := 6

/-- `ofpg`, ofp4.py:29-33. -/
def ofpg : List (Nat × Str) := [(0xffffff00, t!"max"), (0xfffffffc, t!"all"), (0xffffffff, t!"any")]

/-- `ofpff`, ofp4.py:37-42, in insertion order: name and bit number. -/
def ofpff : List (Str × Nat) := [(t!"send_flow_rem", 0), (t!"check_overlap", 1),
  (t!"reset_counts", 2), (t!"no_pkt_counts", 3), (t!"no_byt_counts", 4)]

/-- `ofpgt`, ofp4.py:81. -/
def ofpgt : List Str := [t!"all", t!"select", t!"indirect", t!"ff"]
def OFPGT_SELECT : Nat := 1

/-! ## Actions -/

/-- The encoder closures in `_str2act`. -/
inductive ActEnc where
  | generic (ofpat : Nat) | uint (ofpat size pad : Nat) | output | push (ofpat : Nat)
  | cntIds | regLoad | regLoad2 | regMove | resubmit | resubmitTable | setTunnel | setTunnel64
  | null (subtype : Nat) | note | multipath | bundle | bundleLoad | outputReg | outputReg2 | learn
  deriving DecidableEq, Repr

/-- `_str2act`, ofp4.py:151-202 and nx.py:772-821 (through `register_nxast`). -/
def str2actTable : List (Str × ActEnc) := [
  (t!"output", .output),
  (t!"copy_ttl_out", .generic 11),
  (t!"copy_ttl_in", .generic 12),
  (t!"set_mpls_ttl", .uint 15 1 3),
  (t!"dec_mpls_ttl", .generic 16),
  (t!"push_vlan", .push 17),
  (t!"pop_vlan", .generic 18),
  (t!"push_mpls", .push 19),
  (t!"pop_mpls", .push 20),
  (t!"set_queue", .uint 21 4 0),
  (t!"group", .uint 22 4 0),
  (t!"set_nw_ttl", .uint 23 1 0),
  (t!"dec_nw_ttl", .generic 24),
  (t!"push_pbb", .push 26),
  (t!"pop_pbb", .generic 27),
  (t!"cnt_ids", .cntIds),
  (t!"reg_load", .regLoad),
  (t!"reg_load2", .regLoad2),
  (t!"reg_move", .regMove),
  (t!"resubmit", .resubmit),
  (t!"resubmit_table", .resubmitTable),
  (t!"set_tunnel", .setTunnel),
  (t!"set_tunnel64", .setTunnel64),
  (t!"pop_queue", .null NXAST_POP_QUEUE),
  (t!"note", .note),
  (t!"exit", .null NXAST_EXIT),
  (t!"multipath", .multipath),
  (t!"bundle", .bundle),
  (t!"bundle_load", .bundleLoad),
  (t!"output_reg", .outputReg),
  (t!"output_reg2", .outputReg2),
  (t!"learn", .learn)]

/-- `_str2act.get(name)`. -/
def lookupAct (name : Str) : Option ActEnc :=
  (str2actTable.find? fun e => e.1 == name).map (·.2)

/-- `action_generic_str2act(ofpat)`, ofp4.py:85-88. -/
def genericStr2act (ofpat : Nat) : Py (Bytes × Nat) :=
  .ok (beBytes 2 ofpat ++ (beBytes 2 8 ++ zeros 4), 0)

/-- `action_uint_str2act(ofpat, pack)`, ofp4.py:96-104; `pack` is one field of `size` bytes and
`pad` pad bytes. -/
def uintStr2act (ofpat size pad : Nat) (u : Str) : Py (Bytes × Nat) := do
  let (h, b, _) := getToken u
  let (num, l) ← parseInt b
  pyAssert (l == b.length)
  let v ← packU size num
  let value := v ++ zeros pad
  .ok (beBytes 2 ofpat ++ (beBytes 2 (4 + value.length) ++ value), h.length + b.length)

/-- A name of a reserved number, else an integer that is the whole text: ofp4.py:115-121,
402-408 and 413-419.  (The names are distinct, so the last match is the first.) -/
def nameOrInt (names : List (Nat × Str)) (s : Str) : Py Int :=
  match names.find? (fun e => e.2 == s) with
  | some e => .ok (e.1 : Int)
  | none => do
    let (n, l) ← parseInt s
    pyAssert (s.length == l)
    .ok n

/-- `action_output_str2act`, ofp4.py:111-128.  `b.split(":", 2)` gives at most three parts; a third
one is ignored. -/
def outputStr2act (u : Str) : Py (Bytes × Nat) := do
  let (h, b, _) := getToken u
  pyAssert (!hasChar b '/')
  let (p0, rest) := split1 ':' b
  let port ← nameOrInt ofpp p0
  let maxLen ← (
    match rest with
    | none => .ok (OFPCML_NO_BUFFER : Int)
    | some r => do
      let p1 := (split1 ':' r).1
      let (n, l) ← parseInt p1
      pyAssert (p1.length == l)
      .ok n : Py Int)
  let v ← packAll [(4, port), (2, maxLen)]
  .ok (beBytes 2 0 ++ (beBytes 2 16 ++ (v ++ zeros 6)), h.length + b.length)

/-- `action_push_str2act(ofpat)`, ofp4.py:138-143. -/
def pushStr2act (ofpat : Nat) (u : Str) : Py (Bytes × Nat) := do
  let (h, b, _) := getToken u
  let (num, _) ← parseInt b
  let v ← packU 2 num
  .ok (beBytes 2 ofpat ++ (beBytes 2 8 ++ (v ++ zeros 2)), h.length + b.length)

/-- `_str2act[name](unparsed, readarg)`. -/
def runActEnc (k : ActEnc) (u : Str) (readarg : Bool) : Py (Bytes × Nat) :=
  match k with
  | .generic t => genericStr2act t
  | .uint t size pad => uintStr2act t size pad u
  | .output => outputStr2act u
  | .push t => pushStr2act t u
  | .cntIds => cntIdsStr2act u readarg
  | .regLoad => regLoadStr2act u readarg
  | .regLoad2 => regLoad2Str2act u readarg
  | .regMove => regMoveStr2act u readarg
  | .resubmit => resubmitStr2act false u readarg
  | .resubmitTable => resubmitStr2act true u readarg
  | .setTunnel => setTunnelStr2act NXAST_SET_TUNNEL u readarg
  | .setTunnel64 => setTunnelStr2act NXAST_SET_TUNNEL64 u readarg
  | .null t => nullStr2act t u readarg
  | .note => qpStr2act NXAST_NOTE u readarg
  | .multipath => multipathStr2act u readarg
  | .bundle => bundleStr2act u readarg
  | .bundleLoad => bundleLoadStr2act u readarg
  | .outputReg => outputRegStr2act false u readarg
  | .outputReg2 => outputRegStr2act true u readarg
  | .learn => learnStr2act u readarg

/-- The action made of one OXM, ofp4.py:224-228. -/
def setFieldAct (oxm : Bytes) : Py Bytes := do
  let l := align8 (oxm.length + 4)
  let h ← packAll [(2, OFPAT_SET_FIELD), (2, l)]
  .ok (h ++ (oxm ++ zeros (l - 4 - oxm.length)))

/-- `str2act`, ofp4.py:204-230. -/
def str2act (s : Str) : Py (Bytes × Nat) := do
  let (h, name, arg) := getToken s
  let (fname, farg) ← parseFunc name
  let farg := match farg with | some (c :: cs) => some (c :: cs) | _ => none
  match farg, lookupAct fname with
  | some a, some k =>
    let (b, _) ← runActEnc k a false
    .ok (b, h.length + name.length)
  | _, _ =>
    match lookupAct name with
    | some k =>
      let (b, p) ← runActEnc k arg true
      .ok (b, h.length + name.length + p)
    | none =>
      if startsWith name t!"set_" then
        match farg with
        | some a =>
          let (_, payload, _) := getToken a
          let (oxm, _) ← str2oxm1 (fname.drop 4 ++ '=' :: payload)
          let b ← setFieldAct oxm
          .ok (b, h.length + name.length)
        | none =>
          let (op, payload, _) := getToken arg
          let (oxm, p) ← str2oxm1 (name.drop 4 ++ (op ++ payload))
          let b ← setFieldAct oxm
          .ok (b, h.length + 4 + p)
      else .ok ([], h.length)

/-- A key of `_act2str`: a plain `int` or an `nxast` (nx.py:28-30).  The two classes differ in
`__hash__` only; that their hashes never collide is part of the trusted base. -/
inductive ActKey where
  | std (n : Nat)
  | nx (n : Nat)
  deriving DecidableEq, Repr

/-- The decoder closures in `_act2str`. -/
inductive ActDec where
  | output | generic (name : Str) | uint (name : Str) (size pad : Nat) | push (name : Str)
  | cntIds | regLoad | regLoad2 | regMove | resubmit | resubmitTable
  | setTunnel (name : Str) (size : Nat) | null (name : Str) | note | multipath | bundle
  | bundleLoad | outputReg | outputReg2 | learn
  deriving DecidableEq, Repr

/-- `_act2str`, ofp4.py:152-202 and nx.py:773-821. -/
def act2strTable : List (ActKey × ActDec) := [
  (.std 0, .output),
  (.std 11, .generic t!"copy_ttl_out"),
  (.std 12, .generic t!"copy_ttl_in"),
  (.std 15, .uint t!"set_mpls_ttl" 1 3),
  (.std 16, .generic t!"dec_mpls_ttl"),
  (.std 17, .push t!"push_vlan"),
  (.std 18, .generic t!"pop_vlan"),
  (.std 19, .push t!"push_mpls"),
  (.std 20, .push t!"pop_mpls"),
  (.std 21, .uint t!"set_queue" 4 0),
  (.std 22, .uint t!"group" 4 0),
  (.std 23, .uint t!"set_nw_ttl" 1 0),
  (.std 24, .generic t!"dec_nw_ttl"),
  (.std 26, .push t!"push_pbb"),
  (.std 27, .generic t!"pop_pbb"),
  (.nx NXAST_CNT_IDS, .cntIds),
  (.nx NXAST_REG_LOAD, .regLoad),
  (.nx NXAST_REG_LOAD2, .regLoad2),
  (.nx NXAST_REG_MOVE, .regMove),
  (.nx NXAST_RESUBMIT, .resubmit),
  (.nx NXAST_RESUBMIT_TABLE, .resubmitTable),
  (.nx NXAST_SET_TUNNEL, .setTunnel t!"set_tunnel" 4),
  (.nx NXAST_SET_TUNNEL64, .setTunnel t!"set_tunnel64" 8),
  (.nx NXAST_POP_QUEUE, .null t!"pop_queue"),
  (.nx NXAST_NOTE, .note),
  (.nx NXAST_EXIT, .null t!"exit"),
  (.nx NXAST_MULTIPATH, .multipath),
  (.nx NXAST_BUNDLE, .bundle),
  (.nx NXAST_BUNDLE_LOAD, .bundleLoad),
  (.nx NXAST_OUTPUT_REG, .outputReg),
  (.nx NXAST_OUTPUT_REG2, .outputReg2),
  (.nx NXAST_LEARN, .learn)]

/-- `_act2str.get(atype)`. -/
def lookupActDec (k : ActKey) : Option ActDec :=
  (act2strTable.find? fun e => e.1 == k).map (·.2)

/-- `action_generic_act2str(name)`, ofp4.py:90-94. -/
def genericAct2str (name : Str) (payload : Bytes) : Py Str := do
  pyAssert (payload == zeros 4)
  .ok name

/-- `action_uint_act2str(fmt, pack)`, ofp4.py:106-109; all formats are `name={:d}`. -/
def uintAct2str (name : Str) (size pad : Nat) (payload : Bytes) : Py Str := do
  needBytes payload 0 (size + pad)
  .ok (name ++ '=' :: fmtD (uAt payload 0 size))

/-- `ofpp.get(port, "{:d}".format(port))` and the same for `ofpg`. -/
def nameOrD (names : List (Nat × Str)) (n : Nat) : Str :=
  match names.find? (fun e => e.1 == n) with
  | some e => e.2
  | none => fmtD n

/-- `action_output_act2str`, ofp4.py:130-136. -/
def outputAct2str (payload : Bytes) : Py Str :=
  if payload.length != 12 then .error .structError
  else
    let port := uAt payload 0 4
    let maxLen := uAt payload 4 2
    let name := nameOrD ofpp port
    if port == OFPP_CONTROLLER && maxLen != OFPCML_NO_BUFFER then
      .ok (t!"output=" ++ (name ++ ':' :: fmtX 0 maxLen))
    else .ok (t!"output=" ++ name)

/-- `action_push_act2str(name)`, ofp4.py:145-149. -/
def pushAct2str (name : Str) (payload : Bytes) : Py Str := do
  needBytes payload 0 2
  .ok (name ++ '=' :: fmtX 6 (uAt payload 0 2))

/-- `_act2str[atype](payload)`. -/
def runActDec (d : ActDec) (payload : Bytes) : Py Str :=
  match d with
  | .output => outputAct2str payload
  | .generic name => genericAct2str name payload
  | .uint name size pad => uintAct2str name size pad payload
  | .push name => pushAct2str name payload
  | .cntIds => cntIdsAct2str payload
  | .regLoad => regLoadAct2str payload
  | .regLoad2 => regLoad2Act2str payload
  | .regMove => regMoveAct2str payload
  | .resubmit => resubmitAct2str payload
  | .resubmitTable => resubmitTableAct2str payload
  | .setTunnel name size => setTunnelAct2str size name payload
  | .null name => .ok name
  | .note => qpAct2str payload
  | .multipath => multipathAct2str payload
  | .bundle => bundleAct2str payload
  | .bundleLoad => bundleLoadAct2str payload
  | .outputReg => outputRegAct2str payload
  | .outputReg2 => outputReg2Act2str payload
  | .learn => learnAct2str payload

/-- The key and payload offset of an action, ofp4.py:235-241. -/
def actKey (msg : Bytes) : Py (ActKey × Nat) := do
  let atype := uAt msg 0 2
  if atype == OFPAT_EXPERIMENTER then
    needBytes msg 4 4
    if uAt msg 4 4 == NX_VENDOR_ID then
      needBytes msg 8 2
      .ok (.nx (uAt msg 8 2), 10)
    else .ok (.std atype, 4)
  else .ok (.std atype, 4)

/-- The integer value of a key (`atype == OFPAT_SET_FIELD` at ofp4.py:244 compares integers). -/
def ActKey.num : ActKey → Nat
  | .std n => n
  | .nx n => n

/-- One round of the loop of `act2str`, ofp4.py:235-249: the token. -/
def act2strOne (msg : Bytes) : Py Str := do
  let l := uAt msg 2 2
  let (key, offset) ← actKey msg
  if key.num == OFPAT_SET_FIELD then
    let s ← oxm2str1 (msg.drop 4)
    .ok (t!"set_" ++ s)
  else match lookupActDec key with
    | some d => runActDec d (slice msg offset l)
    | none => .ok t!"?"

/-- The loop of `act2str`, ofp4.py:234-254.  An action of length 0 is not skipped: the code then
runs the same round for ever, and so does the model until `fuel` is used up. -/
def act2strGo : Nat → Bytes → Py (List Str)
  | 0, _ => .error .loops
  | fuel + 1, msg =>
    if msg.length ≤ 4 then .ok []
    else do
      let tok ← act2strOne msg
      let rest ← act2strGo fuel (msg.drop (uAt msg 2 2))
      .ok (tok :: rest)

/-- `act2str(msg)` with `loop=True`, ofp4.py:232-256. -/
def act2str (msg : Bytes) : Py Str := do
  let toks ← act2strGo (msg.length + 1) msg
  .ok (joinStr t!"," toks)

/-- `act2str(msg, loop=False)`, ofp4.py:232-256. -/
def act2str1 (msg : Bytes) : Py Str :=
  if msg.length ≤ 4 then .ok [] else act2strOne msg

/-! ## Instructions -/

/-- `@write`/`@apply` followed by the actions, ofp4.py:284-295. -/
def instActions (name : Str) (msg : Bytes) (l : Nat) : Py (List Str) := do
  pyAssert (l % 8 == 0)
  let arg ← act2str (slice msg 8 l)
  .ok (if arg.isEmpty then [name] else [name, arg])

/-- One round of the loop of `inst2str`, ofp4.py:273-303: the tokens. -/
def inst2strOne (msg : Bytes) : Py (List Str) := do
  let itype := uAt msg 0 2
  let l := uAt msg 2 2
  if itype == OFPIT_GOTO_TABLE then
    pyAssert (l == 8)
    .ok [t!"@goto=" ++ fmtD (uAt msg 4 1)]
  else if itype == OFPIT_WRITE_METADATA then
    pyAssert (l == 24)
    needBytes msg 8 16
    let v := uAt msg 8 8
    let m := uAt msg 16 8
    if m == 0 then .ok [t!"@metadata=" ++ fmtX 0 v]
    else .ok [t!"@metadata=" ++ (fmtX 0 v ++ '/' :: fmtX 0 m)]
  else if itype == OFPIT_WRITE_ACTIONS then instActions t!"@write" msg l
  else if itype == OFPIT_APPLY_ACTIONS then instActions t!"@apply" msg l
  else if itype == OFPIT_CLEAR_ACTIONS then
    pyAssert (l == 8)
    .ok [t!"@clear"]
  else if itype == OFPIT_METER then
    pyAssert (l == 8)
    needBytes msg 4 4
    .ok [t!"@meter=" ++ fmtD (uAt msg 4 4)]
  else .ok [t!"?"]

/-- The loop of `inst2str`, ofp4.py:272-308.  As in `act2str`, length 0 does not advance. -/
def inst2strGo : Nat → Bytes → Py (List Str)
  | 0, _ => .error .loops
  | fuel + 1, msg =>
    if msg.length ≤ 4 then .ok []
    else do
      let toks ← inst2strOne msg
      let rest ← inst2strGo fuel (msg.drop (uAt msg 2 2))
      .ok (toks ++ rest)

/-- `inst2str(msg)` with `loop=True`, ofp4.py:270-310. -/
def inst2str (msg : Bytes) : Py Str := do
  let toks ← inst2strGo (msg.length + 1) msg
  .ok (joinStr t!"," toks)

/-- `inst2str(msg, loop=False)`, ofp4.py:270-310. -/
def inst2str1 (msg : Bytes) : Py Str :=
  if msg.length ≤ 4 then .ok []
  else do
    let toks ← inst2strOne msg
    .ok (joinStr t!"," toks)

/-! ## `str2dict` -/

/-- The dictionary built by `str2dict`; a missing key is `none`. -/
structure Info where
  table : Option Int := none
  priority : Option Int := none
  idleTimeout : Option Int := none
  hardTimeout : Option Int := none
  buffer : Option Int := none
  flags : Option Nat := none
  cookie : Option Int := none
  cookieMask : Option Int := none
  outPort : Option Int := none
  outGroup : Option Int := none
  mtch : Bytes := []
  inst : Bytes := []
  deriving DecidableEq, Repr

/-- `PHASE_MATCH`, `PHASE_ACTION`, `PHASE_NOARG`, ofp4.py:312-314. -/
inductive Phase where
  | mtch | action | noarg
  deriving DecidableEq, Repr

/-- The local variables of `str2dict`; `func` is the instruction type bound in the closure. -/
structure DictSt where
  info : Info := {}
  actions : Bytes := []
  func : Option Nat := none
  phase : Phase := .mtch
  deriving DecidableEq, Repr

/-- `func()`, ofp4.py:324-327, when `func` is set (335-336 and 435-436). -/
def runFunc (st : DictSt) : Py Info := do
  match st.func with
  | none => .ok st.info
  | some atype =>
    let h ← packAll [(2, atype), (2, 8 + st.actions.length)]
    .ok { st.info with inst := st.info.inst ++ ((h ++ zeros 4) ++ st.actions) }

/-- An argument `=value` that is one whole integer: token, `assert`, `parseInt`, `assert`
(ofp4.py:341-344, 379-382); the integer and the rest. -/
def intArg (s : Str) : Py (Int × Str) := do
  let (op, payload, s) := getToken s
  pyAssert (hasChar op '=')
  let (num, l) ← parseInt payload
  pyAssert (payload.length == l)
  .ok (num, s)

/-- `proc`, ofp4.py:378-384: as `intArg`, and no mask. -/
def procArg (s : Str) : Py (Int × Str) := do
  let (op, payload, s) := getToken s
  pyAssert (hasChar op '=' && !hasChar payload '/')
  let (num, l) ← parseInt payload
  pyAssert (payload.length == l)
  .ok (num, s)

/-- `out_port`/`out_group`, ofp4.py:399-420. -/
def nameArg (names : List (Nat × Str)) (s : Str) : Py (Int × Str) := do
  let (op, payload, s) := getToken s
  pyAssert (hasChar op '=' && !hasChar payload '/')
  let n ← nameOrInt names payload
  .ok (n, s)

/-- `inst += bytes`. -/
def Info.addInst (i : Info) (b : Bytes) : Info := { i with inst := i.inst ++ b }

/-- A word starting with `@`, ofp4.py:335-376; `info` is the dictionary after `func()`. -/
def dictInst (name : Str) (info : Info) (actions : Bytes) (s : Str) : Py (DictSt × Str) := do
  if name == t!"@goto" || name == t!"@goto_table" then
    let (num, s) ← intArg s
    let v ← packU 1 num
    let info := info.addInst (beBytes 2 OFPIT_GOTO_TABLE ++ (beBytes 2 8 ++ (v ++ zeros 3)))
    .ok ({ info := info, actions := actions, func := none, phase := .noarg }, s)
  else if name == t!"@metadata" || name == t!"@write_metadata" then
    let (op, payload, s) := getToken s
    pyAssert (hasChar op '=')
    let (v, m) := split1 '/' payload
    let (num, l) ← parseInt v
    pyAssert (v.length == l)
    let mask ← (
      match m with
      | none => .ok 0
      | some m => do
        let (mask, l) ← parseInt m
        pyAssert (m.length == l)
        .ok mask : Py Int)
    let b ← packAll [(8, num), (8, mask)]
    let info := info.addInst (beBytes 2 OFPIT_WRITE_METADATA ++ (beBytes 2 24 ++
      (zeros 4 ++ b)))
    .ok ({ info := info, actions := actions, func := none, phase := .noarg }, s)
  else if name == t!"@apply" || name == t!"@apply_actions" then
    .ok ({ info := info, actions := [], func := some OFPIT_APPLY_ACTIONS, phase := .action }, s)
  else if name == t!"@write" || name == t!"@write_actions" then
    .ok ({ info := info, actions := [], func := some OFPIT_WRITE_ACTIONS, phase := .action }, s)
  else if name == t!"@clear" || name == t!"@clear_actions" then
    let info := info.addInst (beBytes 2 OFPIT_CLEAR_ACTIONS ++ (beBytes 2 8 ++ zeros 4))
    .ok ({ info := info, actions := actions, func := none, phase := .noarg }, s)
  else if name == t!"@meter" then
    let (num, s) ← procArg s
    let v ← packU 4 num
    let info := info.addInst (beBytes 2 OFPIT_METER ++ (beBytes 2 8 ++ v))
    .ok ({ info := info, actions := actions, func := none, phase := .noarg }, s)
  else .error .valueError

/-- A word in `PHASE_MATCH`, ofp4.py:378-426. -/
def dictMatch (name : Str) (info : Info) (s : Str) : Py (Info × Str) := do
  if name == t!"table" then
    let (n, s) ← procArg s
    .ok ({ info with table := some n }, s)
  else if name == t!"priority" then
    let (n, s) ← procArg s
    .ok ({ info with priority := some n }, s)
  else if name == t!"idle_timeout" then
    let (n, s) ← procArg s
    .ok ({ info with idleTimeout := some n }, s)
  else if name == t!"hard_timeout" then
    let (n, s) ← procArg s
    .ok ({ info with hardTimeout := some n }, s)
  else if name == t!"buffer" then
    let (n, s) ← procArg s
    .ok ({ info with buffer := some n }, s)
  else match ofpff.find? (fun e => e.1 == name) with
  | some e => .ok ({ info with flags := some (info.flags.getD 0 ||| 2 ^ e.2) }, s)
  | none =>
    if name == t!"cookie" then
      let (op, payload, s) := getToken s
      pyAssert (hasChar op '=')
      let (v, m) := split1 '/' payload
      let (num, l) ← parseInt v
      pyAssert (v.length == l)
      let info := { info with cookie := some num }
      match m with
      | none => .ok (info, s)
      | some m =>
        let (mask, _) ← parseInt m
        .ok ({ info with cookieMask := some mask }, s)
    else if name == t!"out_port" then
      let (n, s) ← nameArg ofpp s
      .ok ({ info with outPort := some n }, s)
    else if name == t!"out_group" then
      let (n, s) ← nameArg ofpg s
      .ok ({ info with outGroup := some n }, s)
    else
      let (oxm, l) ← str2oxm1 (name ++ s)
      if l == 0 then .error .valueError
      else .ok ({ info with mtch := info.mtch ++ oxm }, (name ++ s).drop l)

/-- One round of the loop of `str2dict`, ofp4.py:332-434. -/
def dictStep (st : DictSt) (s : Str) : Py (DictSt × Str) := do
  let (h, name, s) := getToken s
  pyAssert (!hasChar h '=')
  if startsWith name t!"@" then
    let info ← runFunc st
    dictInst name info st.actions s
  else match st.phase with
    | .mtch =>
      let (info, s) ← dictMatch name st.info s
      .ok ({ st with info := info }, s)
    | .action =>
      let (act, l) ← str2act (name ++ s)
      if l == 0 then .error .valueError
      else .ok ({ st with actions := st.actions ++ act }, (name ++ s).drop l)
    | .noarg => .error .valueError

/-- The loop of `str2dict`, ofp4.py:331-438. -/
def dictGo : Nat → DictSt → Str → Py Info
  | 0, _, _ => .error .loops
  | fuel + 1, st, s =>
    if s.isEmpty then runFunc st
    else do
      let (st, s) ← dictStep st s
      dictGo fuel st s

/-- `str2dict`, ofp4.py:316-438. -/
def str2dict (s : Str) : Py Info := dictGo (s.length + 1) {} s

/-! ## `_fixed` -/

/-- Keyword arguments (or the defaults) of `_fixed`; a missing key is `none`. -/
structure Fixed where
  cookie : Option Nat := none
  cookieMask : Option Nat := none
  table : Option Nat := none
  priority : Option Nat := none
  buffer : Option Nat := none
  outPort : Option Nat := none
  outGroup : Option Nat := none
  idleTimeout : Option Nat := none
  hardTimeout : Option Nat := none
  flags : Option Nat := none
  deriving DecidableEq, Repr

/-- `if emit(name): ret.append(...)`, ofp4.py:444-445. -/
def emitF (v d : Option Nat) (f : Nat → Str) : List Str :=
  match v with
  | some n => if some n == d then [] else [f n]
  | none => []

/-- `_fixed(default, **kwargs)`, ofp4.py:440-487.  Every caller that passes `cookie_mask` passes
`cookie`. -/
def fixedText (d k : Fixed) : List Str :=
  (match k.cookieMask with
    | some m => if some m == d.cookieMask then
        emitF k.cookie d.cookie (fun c => t!"cookie=" ++ fmtX 0 c)
      else [t!"cookie=" ++ (fmtX 0 (k.cookie.getD 0) ++ '/' :: fmtX 0 m)]
    | none => emitF k.cookie d.cookie (fun c => t!"cookie=" ++ fmtX 0 c)) ++
  (emitF k.table d.table (fun n => t!"table=" ++ fmtD n) ++
  (emitF k.priority d.priority (fun n => t!"priority=" ++ fmtD n) ++
  (emitF k.buffer d.buffer (fun n => t!"buffer=" ++ fmtX 0 n) ++
  (emitF k.outPort d.outPort (fun n => t!"out_port=" ++ nameOrD ofpp n) ++
  (emitF k.outGroup d.outGroup (fun n => t!"out_group=" ++ nameOrD ofpg n) ++
  (emitF k.idleTimeout d.idleTimeout (fun n => t!"idle_timeout=" ++ fmtD n) ++
  (emitF k.hardTimeout d.hardTimeout (fun n => t!"hard_timeout=" ++ fmtD n) ++
  (match k.flags with
    | some f => if some f == d.flags then []
      else (ofpff.filter fun e => (f / 2 ^ e.2) % 2 == 1).map (·.1)
    | none => [])))))))) 

/-! ## Buckets -/

/-- `bucket2str`, ofp4.py:489-507. -/
def bucket2str (groupType : Nat) (msg : Bytes) : Py Str := do
  needBytes msg 0 16
  let length := uAt msg 0 2
  let weight := uAt msg 2 2
  let watchPort := uAt msg 4 4
  let watchGroup := uAt msg 8 4
  let a ← act2str (slice msg 16 length)
  .ok (joinStr t!"," (
    (if groupType == OFPGT_SELECT && weight != 1 then [t!"weight=" ++ fmtD weight] else []) ++
    ((if watchPort != OFPP_ANY then [t!"watch_port=" ++ fmtD watchPort] else []) ++
    ((if watchGroup != OFPG_ANY then [t!"watch_group=" ++ fmtD watchGroup] else []) ++
    (if a.isEmpty then [] else [a])))))

/-- `info` of `str2bucket` and the collected actions. -/
structure BucketSt where
  weight : Int
  watchPort : Int := OFPP_ANY
  watchGroup : Int := OFPG_ANY
  actions : Bytes := []
  deriving DecidableEq, Repr

/-- The loop of `str2bucket`, ofp4.py:519-536: the state and the unparsed rest. -/
def bucketGo : Nat → BucketSt → Str → Py (BucketSt × Str)
  | 0, _, _ => .error .loops
  | fuel + 1, st, u =>
    if u.isEmpty then .ok (st, u)
    else do
      let (h, name, r) := getToken u
      pyAssert (!hasChar h '=')
      if startsWith name t!"@" then .ok (st, u)
      else if name == t!"weight" then
        let (n, u) ← intArg r
        bucketGo fuel { st with weight := n } u
      else if name == t!"watch_port" then
        let (n, u) ← intArg r
        bucketGo fuel { st with watchPort := n } u
      else if name == t!"watch_group" then
        let (n, u) ← intArg r
        bucketGo fuel { st with watchGroup := n } u
      else
        let (b, l) ← str2act u
        if l > 0 then bucketGo fuel { st with actions := st.actions ++ b } (u.drop l)
        else .ok (st, u)

/-- `str2bucket`, ofp4.py:509-545. -/
def str2bucket (groupType : Nat) (s : Str) : Py (Bytes × Nat) := do
  let (st, u) ← bucketGo (s.length + 1) { weight := if groupType == OFPGT_SELECT then 1 else 0 } s
  let consumed := s.length - u.length
  if consumed == 0 then .ok ([], 0)
  else
    let b ← packAll [(2, 16 + st.actions.length), (2, st.weight), (4, st.watchPort),
      (4, st.watchGroup)]
    .ok ((b ++ zeros 4) ++ st.actions, consumed)

/-! ## OFPT_FLOW_MOD -/

/-- `ofpfc_del_default`, ofp4.py:550-561. -/
def ofpfcDelDefault : Fixed := {
  cookie := some 0, cookieMask := some 0, table := some OFPTT_ALL, idleTimeout := some 0,
  hardTimeout := some 0, priority := some 0x8000, buffer := some 0, outPort := some OFPP_ANY,
  outGroup := some OFPG_ANY, flags := some 0 }

/-- `ofpfc_default`, ofp4.py:563-574. -/
def ofpfcDefault : Fixed := {
  cookie := some 0, cookieMask := some 0, table := some 0, idleTimeout := some 0,
  hardTimeout := some 0, priority := some 0x8000, buffer := some OFP_NO_BUFFER, outPort := some 0,
  outGroup := some 0, flags := some 0 }

/-- `command in (OFPFC_DELETE, OFPFC_DELETE_STRICT)` chooses the defaults, ofp4.py:577-579 and
621-623. -/
def modDefault (command : Int) : Fixed :=
  if command == 3 || command == 4 then ofpfcDelDefault else ofpfcDefault

/-- `info[key]` where `info` is the defaults updated with the parsed dictionary. -/
def infoOr (v : Option Int) (d : Option Nat) : Int :=
  match v with
  | some n => n
  | none => (d.getD 0 : Nat)

/-- `struct.pack("!HH", OFPMT_OXM, length) + oxm` padded to 8, ofp4.py:585-588 and 769-772. -/
def packMatch (oxm : Bytes) : Py Bytes := do
  let length := 4 + oxm.length
  let h ← packAll [(2, OFPMT_OXM), (2, length)]
  .ok (h ++ (oxm ++ zeros (align8 length - length)))

/-- `str2mod`, ofp4.py:576-603. -/
def str2mod (s : Str) (command xid : Int) : Py Bytes := do
  let d := modDefault command
  let info ← str2dict s
  let m ← packMatch info.mtch
  let length := 4 + info.mtch.length
  let b ← packAll [(1, 4), (1, OFPT_FLOW_MOD), (2, 48 + align8 length + info.inst.length),
    (4, xid), (8, infoOr info.cookie d.cookie), (8, infoOr info.cookieMask d.cookieMask),
    (1, infoOr info.table d.table), (1, command), (2, infoOr info.idleTimeout d.idleTimeout),
    (2, infoOr info.hardTimeout d.hardTimeout), (2, infoOr info.priority d.priority),
    (4, infoOr info.buffer d.buffer), (4, infoOr info.outPort d.outPort),
    (4, infoOr info.outGroup d.outGroup), (2, infoOr (info.flags.map Int.ofNat) d.flags)]
  .ok ((b ++ zeros 2) ++ (m ++ info.inst))

/-- `if len(s): ret.append(s)`. -/
def optTok (s : Str) : List Str := if s.isEmpty then [] else [s]

/-- `mod2str`, ofp4.py:605-648. -/
def mod2str (msg : Bytes) : Py Str := do
  needBytes msg 0 52
  let d := modDefault (uAt msg 25 1)
  let ret := fixedText d {
    cookie := some (uAt msg 8 8), cookieMask := some (uAt msg 16 8), table := some (uAt msg 24 1),
    priority := some (uAt msg 30 2), buffer := some (uAt msg 32 4), outPort := some (uAt msg 36 4),
    outGroup := some (uAt msg 40 4), idleTimeout := some (uAt msg 26 2),
    hardTimeout := some (uAt msg 28 2), flags := some (uAt msg 44 2) }
  let matchLength := uAt msg 50 2
  if uAt msg 48 2 == OFPMT_OXM then
    let rstr ← oxm2str (slice msg 52 (52 + matchLength - 4))
    let istr ← inst2str (slice msg (48 + align8 matchLength) (uAt msg 2 2))
    .ok (joinStr t!"," (ret ++ (optTok rstr ++ optTok istr)))
  else .error .valueError

/-- The dictionaries returned by `mod2extra` and `group2extra`; a missing key is `none`. -/
structure Extra where
  xid : Nat
  command : Option Nat := none
  groupId : Option Nat := none
  deriving DecidableEq, Repr

/-- `mod2extra`, ofp4.py:650-658. -/
def mod2extra (msg : Bytes) : Py Extra := do
  needBytes msg 0 26
  let cmd := uAt msg 25 1
  .ok { xid := uAt msg 4 4, command := if cmd != 0 then some cmd else none }

/-- `str2mod(s, **extra)`: the keyword arguments of `str2mod` are `command` and `xid`. -/
def str2modX (s : Str) (e : Extra) : Py Bytes :=
  match e.groupId with
  | some _ => .error .typeError
  | none => str2mod s (match e.command with | some c => (c : Int) | none => 0) e.xid

/-! ## OFPT_GROUP_MOD -/

/-- The first loop of `str2group`, ofp4.py:667-684: group id, type and unparsed rest. -/
def groupHead : Nat → Int → Nat → Str → Py (Int × Nat × Str)
  | 0, _, _, _ => .error .loops
  | fuel + 1, gid, gtype, u =>
    if u.isEmpty then .ok (gid, gtype, u)
    else do
      let (_, name, r) := getToken u
      if name == t!"group" then
        let (_, payload, r) := getToken r
        if lowerStr payload == t!"all" then groupHead fuel OFPG_ALL gtype r
        else
          let (num, l) ← parseInt payload
          pyAssert (payload.length == l)
          groupHead fuel num gtype r
      else if ofpgt.contains name then groupHead fuel gid (ofpgt.idxOf name) r
      else .ok (gid, gtype, u)

/-- The second loop of `str2group`, ofp4.py:686-698: buckets and unparsed rest. -/
def groupBuckets (gtype : Nat) : Nat → Str → Py (Bytes × Str)
  | 0, _ => .error .loops
  | fuel + 1, u =>
    if u.isEmpty then .ok ([], u)
    else do
      let (b, l) ← str2bucket gtype u
      if l > 0 then
        let (bs, u) ← groupBuckets gtype fuel (u.drop l)
        .ok (b ++ bs, u)
      else
        let (_, name, r) := getToken u
        if name.isEmpty || name == t!"@bucket" then groupBuckets gtype fuel r
        else .ok ([], u)

/-- `str2group`, ofp4.py:663-704. -/
def str2group (s : Str) (command xid : Int) : Py Bytes := do
  let (gid, gtype, u) ← groupHead (s.length + 1) OFPG_ANY 0 s
  let (buckets, u) ← groupBuckets gtype (u.length + 1) u
  pyAssert u.isEmpty
  let a ← packAll [(1, 4), (1, OFPT_GROUP_MOD), (2, 16 + buckets.length), (4, xid), (2, command),
    (1, gtype)]
  let b ← packU 4 gid
  .ok ((a ++ (zeros 1 ++ b)) ++ buckets)

/-- The bucket loop of `group2str`, ofp4.py:719-724 (`len(bin) > 16`, so `minLen = 17`), and of
`mpgroupdesc2text_one`, ofp4.py:989-994 (`minLen = 16`). -/
def bucketsText (gtype minLen : Nat) : Nat → Bytes → Py (List Str)
  | 0, _ => .error .loops
  | fuel + 1, bin =>
    if bin.length < minLen then .ok []
    else do
      let l := uAt bin 0 2
      let s ← bucket2str gtype (bin.take l)
      let rest ← bucketsText gtype minLen fuel (bin.drop l)
      .ok (t!"@bucket" :: s :: rest)

/-- `ofpgt[group_type]`: `IndexError` past the end. -/
def groupTypeName (t : Nat) : Py Str := tupleGet ofpgt t

/-- `group2str`, ofp4.py:706-726. -/
def group2str (msg : Bytes) : Py Str := do
  needBytes msg 0 16
  let gtype := uAt msg 10 1
  let gid := uAt msg 12 4
  let head := if gid == OFPG_ALL then [t!"group=all"]
    else if gid == OFPG_ANY then [] else [t!"group=" ++ fmtD gid]
  let tname ← groupTypeName gtype
  let bs ← bucketsText gtype 17 (msg.length + 1) (msg.drop 16)
  .ok (joinStr t!"," (head ++ (tname :: bs)))

/-- `group2extra`, ofp4.py:728-739. -/
def group2extra (msg : Bytes) : Py Extra := do
  needBytes msg 0 16
  pyAssert (uAt msg 1 1 == OFPT_GROUP_MOD)
  let command := uAt msg 8 2
  .ok { xid := uAt msg 4 4, groupId := some (uAt msg 12 4),
        command := if command != 0 then some command else none }

/-- `str2group(s, **extra)`: the keyword arguments of `str2group` are `command` and `xid`, so a
`group_id` key is a `TypeError`. -/
def str2groupX (s : Str) (e : Extra) : Py Bytes :=
  match e.groupId with
  | some _ => .error .typeError
  | none => str2group s (match e.command with | some c => (c : Int) | none => 0) e.xid

/-! ## Multipart messages -/

/-- `struct.pack("!BBHIHH4x", 4, type, 16+len(capture), xid, mp, 0) + capture`, ofp4.py:809-811,
965-968, 1078-1081. -/
def mpMessage (type xid : Int) (mp : Nat) (capture : Bytes) : Py Bytes := do
  let h ← packAll [(1, 4), (1, type), (2, 16 + capture.length), (4, xid), (2, mp), (2, 0)]
  .ok ((h ++ zeros 4) ++ capture)

/-- `if len(capture) + len(body) > 0xffff - 16: ... OFPMPF_REPLY_MORE ...` else append,
ofp4.py:798-807, 957-964, 1070-1077: the flag name is not defined anywhere, a `NameError`. -/
def mpAppend (capture body : Bytes) : Py Bytes :=
  if capture.length + body.length > 0xffff - 16 then .error .nameError
  else .ok (capture ++ body)

/-- `parse` of `text2mpflow`, ofp4.py:747-756: the counters. -/
structure Counters where
  packetCount : Option Int := none
  byteCount : Option Int := none
  durationSec : Option Int := none
  durationNsec : Option Int := none
  refCount : Option Int := none
  deriving DecidableEq, Repr

/-- The loop of `parse`, ofp4.py:747-756: counters and unparsed rest. -/
def countersGo : Nat → Counters → Str → Py (Counters × Str)
  | 0, _, _ => .error .loops
  | fuel + 1, c, s =>
    if s.isEmpty then .ok (c, s)
    else do
      let (_, name, r) := getToken s
      if name == t!"packet_count" then
        let (n, s) ← procArg r
        countersGo fuel { c with packetCount := some n } s
      else if name == t!"byte_count" then
        let (n, s) ← procArg r
        countersGo fuel { c with byteCount := some n } s
      else if name == t!"duration_sec" then
        let (n, s) ← procArg r
        countersGo fuel { c with durationSec := some n } s
      else if name == t!"duration_nsec" then
        let (n, s) ← procArg r
        countersGo fuel { c with durationNsec := some n } s
      else .ok (c, s)

/-- `parse`, ofp4.py:745-759. -/
def parseStat (s : Str) : Py (Counters × Info) := do
  let (c, r) ← countersGo (s.length + 1) {} s
  let i ← str2dict r
  .ok (c, i)

/-- `list comprehension [parse(s) for s in ...]`, ofp4.py:761. -/
def parseStats : List Str → Py (List (Counters × Info))
  | [] => .ok []
  | s :: ss => do
    let a ← parseStat s
    let r ← parseStats ss
    .ok (a :: r)

/-- The body of one rule, ofp4.py:769-796. -/
def statBody (type : Int) (c : Counters) (i : Info) : Py Bytes := do
  let m ← packMatch i.mtch
  if type != OFPT_MULTIPART_REPLY then
    let t ← packU 1 (i.table.getD OFPTT_ALL)
    let a ← packAll [(4, i.outPort.getD OFPP_ANY), (4, i.outGroup.getD OFPG_ANY)]
    let b ← packAll [(8, i.cookie.getD 0), (8, i.cookieMask.getD 0)]
    .ok (t ++ (zeros 3 ++ (a ++ (zeros 4 ++ (b ++ m)))))
  else
    let h ← packAll [(2, 48 + m.length + i.inst.length), (1, i.table.getD 0)]
    let a ← packAll [(4, c.durationSec.getD 0), (4, c.durationNsec.getD 0),
      (2, i.priority.getD 0), (2, i.idleTimeout.getD 0), (2, i.hardTimeout.getD 0),
      (2, (i.flags.getD 0 : Nat))]
    let b ← packAll [(8, i.cookie.getD 0), (8, c.packetCount.getD 0), (8, c.byteCount.getD 0)]
    .ok (h ++ (zeros 1 ++ (a ++ (zeros 4 ++ (b ++ (m ++ i.inst))))))

/-- The loop of `text2mpflow`, ofp4.py:768-807: `capture`. -/
def mpflowGo (type : Int) : Bytes → List (Counters × Info) → Py Bytes
  | capture, [] => .ok capture
  | capture, (c, i) :: rest => do
    let body ← statBody type c i
    let capture ← mpAppend capture body
    mpflowGo type capture rest

/-- `text2mpflow`, ofp4.py:744-813.  (`txt.split("\n")` is never empty.) -/
def text2mpflow (txt : Str) (type xid : Int) : Py Bytes := do
  let rules ← parseStats (splitAll '\n' txt)
  let capture ← mpflowGo type [] rules
  mpMessage type xid OFPMP_FLOW capture

/-- `"{:s}={:d}".format(name, n)` when `n` is not zero, ofp4.py:895-897, 1111-1114. -/
def countTok (name : Str) (n : Nat) : List Str :=
  if n == 0 then [] else [name ++ '=' :: fmtD n]

/-- One flow-stats entry, ofp4.py:853-899. -/
def statText (body : Bytes) : Py Str := do
  let ret := fixedText {
      cookie := some 0, table := some 0, priority := some 0x8000, idleTimeout := some 0,
      hardTimeout := some 0, flags := some 0 } {
      cookie := some (uAt body 24 8), table := some (uAt body 2 1),
      priority := some (uAt body 12 2), idleTimeout := some (uAt body 14 2),
      hardTimeout := some (uAt body 16 2), flags := some (uAt body 18 2) }
  let matchLength := uAt body 50 2
  if uAt body 48 2 == OFPMT_OXM then
    let rstr ← oxm2str (slice body 52 (52 + matchLength - 4))
    let istr ← inst2str (slice body (48 + align8 matchLength) (uAt body 0 2))
    let ret := ret ++ (optTok rstr ++ optTok istr)
    let c := countTok t!"packet_count" (uAt body 32 8) ++
      (countTok t!"byte_count" (uAt body 40 8) ++
      (countTok t!"duration_sec" (uAt body 4 4) ++ countTok t!"duration_nsec" (uAt body 8 4)))
    .ok (joinStr t!" " (([c, ret].filter fun x => !x.isEmpty).map (joinStr t!",")))
  else .error .valueError

/-- The reply loop of `mpflow2text_one`, ofp4.py:852-900.  An entry of length 0 does not advance. -/
def statsGo : Nat → Bytes → Py (List Str)
  | 0, _ => .error .loops
  | fuel + 1, body =>
    if body.length < 56 then .ok []
    else do
      let s ← statText body
      let rest ← statsGo fuel (body.drop (uAt body 0 2))
      .ok (s :: rest)

/-- `mpflow2text_one`, ofp4.py:815-901.  For a request, line 850 calls `list.append` with a keyword
argument: `TypeError`. -/
def mpflow2textOne (msg : Bytes) : Py (List Str) := do
  needBytes msg 0 16
  pyAssert (uAt msg 8 2 == OFPMP_FLOW)
  let body := slice msg 16 (uAt msg 2 2)
  if uAt msg 1 1 != OFPT_MULTIPART_REPLY then
    needBytes body 0 36
    if uAt body 32 2 == OFPMT_OXM then
      let _ ← oxm2str (slice body 36 (36 + uAt body 34 2 - 4))
      .error .typeError
    else .error .valueError
  else statsGo (body.length + 1) body

/-- The loop of `mpflow2text`, `mpgroupdesc2text`, `mpgroup2text` (ofp4.py:905-908, 1003-1006,
1140-1143) over the decoder `one` of a single message. -/
def msgsGo (one : Bytes → Py (List Str)) : Nat → Bytes → Py (List Str)
  | 0, _ => .error .loops
  | fuel + 1, msgs =>
    if msgs.isEmpty then .ok []
    else do
      needBytes msgs 0 8
      let hl := uAt msgs 2 2
      let rows ← one (msgs.take hl)
      let rest ← msgsGo one fuel (msgs.drop hl)
      .ok (rows ++ rest)

/-- `mpflow2text`, ofp4.py:903-909. -/
def mpflow2text (msgs : Bytes) : Py Str := do
  let rows ← msgsGo mpflow2textOne (msgs.length + 1) msgs
  .ok (joinStr t!"\n" rows)

/-- The head loop of `text2mpgroupdesc`, ofp4.py:926-938. -/
def descHead : Nat → Int → Nat → Str → Py (Int × Nat × Str)
  | 0, _, _, _ => .error .loops
  | fuel + 1, gid, gtype, s =>
    if s.isEmpty then .ok (gid, gtype, s)
    else do
      let (_, name, r) := getToken s
      if name == t!"group" then
        let (n, s) ← procArg r
        descHead fuel n gtype s
      else if ofpgt.contains (lowerStr name) then descHead fuel gid (ofpgt.idxOf (lowerStr name)) r
      else .ok (gid, gtype, s)

/-- The bucket loop of `text2mpgroupdesc`, ofp4.py:940-952.  What is left over is ignored. -/
def descBuckets (gtype : Nat) : Nat → Str → Py Bytes
  | 0, _ => .error .loops
  | fuel + 1, s =>
    if s.isEmpty then .ok []
    else do
      let (_, name, r) := getToken s
      if name == t!"@bucket" then descBuckets gtype fuel r
      else
        let (b, l) ← str2bucket gtype s
        if l > 0 then
          let bs ← descBuckets gtype fuel (s.drop l)
          .ok (b ++ bs)
        else .ok []

/-- One line of `text2mpgroupdesc`, ofp4.py:922-955. -/
def descBody (s : Str) : Py Bytes := do
  let (gid, gtype, r) ← descHead (s.length + 1) 0 0 s
  let bs ← descBuckets gtype (r.length + 1) r
  let a ← packAll [(2, 8 + bs.length), (1, gtype)]
  let b ← packU 4 gid
  .ok ((a ++ (zeros 1 ++ b)) ++ bs)

/-- The loop of `text2mpgroupdesc`, ofp4.py:921-964. -/
def descGo : Bytes → List Str → Py Bytes
  | capture, [] => .ok capture
  | capture, s :: rest => do
    let body ← descBody s
    let capture ← mpAppend capture body
    descGo capture rest

/-- `text2mpgroupdesc`, ofp4.py:914-969. -/
def text2mpgroupdesc (txt : Str) (type xid : Int) : Py Bytes := do
  if type != OFPT_MULTIPART_REPLY then mpMessage type xid OFPMP_GROUP_DESC []
  else
    let capture ← descGo [] (splitAll '\n' txt)
    mpMessage type xid OFPMP_GROUP_DESC capture

/-- The loop of `mpgroupdesc2text_one`, ofp4.py:983-997. -/
def descsText : Nat → Bytes → Py (List Str)
  | 0, _ => .error .loops
  | fuel + 1, r =>
    if r.length < 8 then .ok []
    else do
      let length := uAt r 0 2
      let gtype := uAt r 2 1
      pyAssert (decide (length ≥ 8))
      let tname ← groupTypeName gtype
      let bs ← bucketsText gtype 16 (r.length + 1) (slice r 8 length)
      let rest ← descsText fuel (r.drop length)
      .ok (joinStr t!"," ((t!"group=" ++ fmtD (uAt r 4 4)) :: tname :: bs) :: rest)

/-- `mpgroupdesc2text_one`, ofp4.py:971-999. -/
def mpgroupdesc2textOne (msg : Bytes) : Py (List Str) := do
  needBytes msg 0 16
  pyAssert (uAt msg 8 2 == OFPMP_GROUP_DESC)
  if uAt msg 1 1 != OFPT_MULTIPART_REPLY then .ok []
  else
    let r := slice msg 16 (uAt msg 2 2)
    descsText (r.length + 1) r

/-- `mpgroupdesc2text`, ofp4.py:1001-1007. -/
def mpgroupdesc2text (msgs : Bytes) : Py Str := do
  let rows ← msgsGo mpgroupdesc2textOne (msgs.length + 1) msgs
  .ok (joinStr t!"\n" rows)

/-- The head loop of `text2mpgroup`, ofp4.py:1019-1029. -/
def statGroupHead : Nat → Int → Str → Py (Int × Str)
  | 0, _, _ => .error .loops
  | fuel + 1, gid, s =>
    if s.isEmpty then .ok (gid, s)
    else do
      let (_, name, r) := getToken s
      if name == t!"group" then
        let (n, s) ← procArg r
        statGroupHead fuel n s
      else .ok (gid, s)

/-- The loop of ofp4.py:1035-1057.  `group` are the counters before the first bucket; `bs` is the
list of buckets, last one first. -/
def groupStatsGo : Nat → Counters → List (Option Int × Option Int) → Str →
    Py (Counters × List (Option Int × Option Int))
  | 0, _, _, _ => .error .loops
  | fuel + 1, g, bs, s =>
    if s.isEmpty then .ok (g, bs)
    else do
      let (_, name, r) := getToken s
      if name == t!"@bucket" then groupStatsGo fuel g ((none, none) :: bs) r
      else
        let (num, s) ← procArg r
        match bs with
        | (pc, bc) :: bs' =>
          if name == t!"packet_count" then groupStatsGo fuel g ((some num, bc) :: bs') s
          else if name == t!"byte_count" then groupStatsGo fuel g ((pc, some num) :: bs') s
          else .ok (g, bs)
        | [] =>
          if name == t!"ref_count" then groupStatsGo fuel { g with refCount := some num } bs s
          else if name == t!"packet_count" then
            groupStatsGo fuel { g with packetCount := some num } bs s
          else if name == t!"byte_count" then
            groupStatsGo fuel { g with byteCount := some num } bs s
          else if name == t!"duration_sec" then
            groupStatsGo fuel { g with durationSec := some num } bs s
          else if name == t!"duration_nsec" then
            groupStatsGo fuel { g with durationNsec := some num } bs s
          else .ok (g, bs)

/-- `b"".join([struct.pack("!QQ", ...) ...])`, ofp4.py:1059-1060. -/
def packBucketStats : List (Option Int × Option Int) → Py Bytes
  | [] => .ok []
  | (pc, bc) :: rest => do
    let a ← packAll [(8, pc.getD 0), (8, bc.getD 0)]
    let b ← packBucketStats rest
    .ok (a ++ b)

/-- One line of `text2mpgroup` for a reply, ofp4.py:1035-1068; `s` is what the head loop left. -/
def groupStatBody (gid : Int) (s : Str) : Py Bytes := do
  let (g, bs) ← groupStatsGo (s.length + 1) {} [] s
  let b ← packBucketStats bs.reverse
  let h ← packU 2 (40 + b.length)
  let i ← packAll [(4, gid), (4, g.refCount.getD 0)]
  let c ← packAll [(8, g.packetCount.getD 0), (8, g.byteCount.getD 0), (4, g.durationSec.getD 0),
    (4, g.durationNsec.getD 0)]
  .ok ((h ++ (zeros 2 ++ (i ++ (zeros 4 ++ c)))) ++ b)

/-- The loop of `text2mpgroup`, ofp4.py:1016-1077: `capture`. -/
def mpgroupGo (type : Int) : Bytes → List Str → Py Bytes
  | capture, [] => .ok capture
  | capture, s :: rest => do
    let (gid, r) ← statGroupHead (s.length + 1) 0 s
    if type != OFPT_MULTIPART_REPLY then
      let b ← packU 4 gid
      .ok (b ++ zeros 4)
    else
      let body ← groupStatBody gid r
      let capture ← mpAppend capture body
      mpgroupGo type capture rest

/-- `text2mpgroup`, ofp4.py:1013-1082. -/
def text2mpgroup (txt : Str) (type xid : Int) : Py Bytes := do
  let capture ← mpgroupGo type [] (splitAll '\n' txt)
  mpMessage type xid OFPMP_GROUP capture

/-- The bucket counters, ofp4.py:1116-1124. -/
def bucketStatsText : Nat → Bytes → Py (List Str)
  | 0, _ => .error .loops
  | fuel + 1, bs =>
    if bs.length < 16 then .ok []
    else do
      let rest ← bucketStatsText fuel (bs.drop 16)
      .ok (t!"@bucket" :: (countTok t!"packet_count" (uAt bs 0 8) ++
        (countTok t!"byte_count" (uAt bs 8 8) ++ rest)))

/-- The loop of `mpgroup2text_one`, ofp4.py:1103-1134. -/
def groupStatsText : Nat → Bytes → Py (List Str)
  | 0, _ => .error .loops
  | fuel + 1, r =>
    if r.length < 40 then .ok []
    else do
      let length := uAt r 0 2
      pyAssert (decide (length ≥ 40))
      let gid := uAt r 4 4
      let bs ← bucketStatsText (r.length + 1) (slice r 40 length)
      let stat := joinStr t!"," (countTok t!"ref_count" (uAt r 8 4) ++
        (countTok t!"packet_count" (uAt r 16 8) ++ (countTok t!"byte_count" (uAt r 24 8) ++
        (countTok t!"duration_sec" (uAt r 32 4) ++
        (countTok t!"duration_nsec" (uAt r 36 4) ++ bs)))))
      let row := if gid == OFPG_ALL then t!"group=all " ++ stat
        else if gid == OFPG_ANY then stat
        else t!"group=" ++ (fmtD gid ++ ' ' :: stat)
      let rest ← groupStatsText fuel (r.drop length)
      .ok (row :: rest)

/-- `mpgroup2text_one`, ofp4.py:1084-1136. -/
def mpgroup2textOne (msg : Bytes) : Py (List Str) := do
  needBytes msg 0 16
  pyAssert (uAt msg 8 2 == OFPMP_GROUP)
  if uAt msg 1 1 != OFPT_MULTIPART_REPLY then
    needBytes msg 16 8
    let gid := uAt msg 16 4
    if gid == OFPG_ALL then .ok []
    else if gid == OFPG_ANY then .ok [t!"group=any"]
    else .ok [t!"group=" ++ fmtD gid]
  else
    let r := slice msg 16 (uAt msg 2 2)
    groupStatsText (r.length + 1) r

/-- `mpgroup2text`, ofp4.py:1138-1144. -/
def mpgroup2text (msgs : Bytes) : Py Str := do
  let rows ← msgsGo mpgroup2textOne (msgs.length + 1) msgs
  .ok (joinStr t!"\n" rows)

end Ofpstr
