import Verif.Model.Oxm

/-!
# Model of `ofpstr/nx.py`: the Nicira actions (Python 3 semantics)

Every `*_str2act` takes the unparsed text and the `readarg` flag and returns the action bytes and
the number of characters used; every `*_act2str` takes the bytes after the sub-type.
-/

namespace Ofpstr

/-- nx.py:13-14. -/
def OFPAT_EXPERIMENTER : Nat := 0xffff
def NX_VENDOR_ID : Nat := 0x00002320

/-- `nx_hash_names`, `nx_mp_alg_names`, `nx_bd_alg_names`, nx.py:16, 20, 24. -/
def nxHashNames : List Str := [t!"eth_src", t!"symmetric_l4"]
def nxMpAlgNames : List Str := [t!"modulo_n", t!"hash_threshold", t!"hrw", t!"iter_hash"]
def nxBdAlgNames : List Str := [t!"active_backup", t!"hrw"]

/-- The sub-types in use, `nxast_names`, nx.py:32-59. -/
def NXAST_RESUBMIT : Nat := 1
def NXAST_SET_TUNNEL : Nat := 2
def NXAST_POP_QUEUE : Nat := 5
def NXAST_REG_MOVE : Nat := 6
def NXAST_REG_LOAD : Nat := 7
def NXAST_NOTE : Nat := 8
def NXAST_SET_TUNNEL64 : Nat := 9
def NXAST_MULTIPATH : Nat := 10
def NXAST_BUNDLE : Nat := 12
def NXAST_BUNDLE_LOAD : Nat := 13
def NXAST_RESUBMIT_TABLE : Nat := 14
def NXAST_OUTPUT_REG : Nat := 15
def NXAST_LEARN : Nat := 16
def NXAST_EXIT : Nat := 17
def NXAST_CNT_IDS : Nat := 21
def NXAST_OUTPUT_REG2 : Nat := 32
def NXAST_REG_LOAD2 : Nat := 33

/-- `names.index(name)`: `ValueError` when absent. -/
def tupleIndex (names : List Str) (name : Str) : Py Int :=
  let i := names.idxOf name
  if i < names.length then .ok (i : Int) else .error .valueError

/-- `names[i]`: `IndexError` past the end. -/
def tupleGet (names : List Str) (i : Nat) : Py Str :=
  match names[i]? with
  | some s => .ok s
  | none => .error .indexError

/-- `_pad8`, nx.py:61-62. -/
def pad8 (bin : Bytes) : Bytes := bin ++ zeros (align8 bin.length - bin.length)

/-- `_nxast_hdr`, nx.py:64-65. -/
def nxastHdr (subtype : Nat) : Bytes :=
  beBytes 2 OFPAT_EXPERIMENTER ++ (beBytes 2 10 ++ (beBytes 4 NX_VENDOR_ID ++ beBytes 2 subtype))

/-- `_fix_act_len`, nx.py:67-70.  Line 68 compares an `int` with a tuple, which is never equal, so
the length is always rewritten. -/
def fixActLen (bin : Bytes) : Py Bytes := do
  let l ← packU 2 (bin.length : Int)
  .ok (bin.take 2 ++ (l ++ bin.drop 4))

/-- `_nxast_str2act`, nx.py:72-76. -/
def nxWrap (r : Py (Bytes × Nat)) : Py (Bytes × Nat) := do
  let (bin, rlen) ← r
  let b ← fixActLen (pad8 bin)
  .ok (b, rlen)

/-- `int(x) if len(x) else None`, nx.py:90, 591, 620. -/
def optInt (x : Str) : Py (Option Int) :=
  if x.isEmpty then .ok none
  else do
    let n ← pyInt x
    .ok (some n)

/-- `get_bits`, nx.py:78-96: OXM id, shift, number of bits, unparsed rest. -/
def getBits (u : Str) : Py (Bytes × Int × Int × Str) := do
  let (_, f, rest) := getToken u
  let (name, arg) ← parseFunc f
  let oxmid ← str2oxmid false name
  needBytes oxmid 0 4
  let oxmLength : Int := uAt oxmid 3 1
  let size : Int := if uAt oxmid 0 2 == 0xffff then oxmLength - 4 else oxmLength
  match arg with
  | none => .ok (oxmid, 0, size * 8, rest)
  | some [] => .ok (oxmid, 0, size * 8, rest)
  | some a =>
    let (x, y) := split1 ':' a
    let shift ← optInt x
    match y with
    | none => .error .valueError
    | some y =>
      let limit ← optInt y
      let shift := shift.getD 0
      let limit := limit.getD (size * 8)
      .ok (oxmid, shift, limit - shift, rest)

/-- `struct.pack("!{n}H", *xs)`. -/
def packHs (xs : List Int) : Py Bytes := packAll (xs.map fun x => (2, x))

/-- `parseInt(x)[0]` over a list. -/
def parseInts : List Str → Py (List Int)
  | [] => .ok []
  | x :: xs => do
    let (n, _) ← parseInt x
    let r ← parseInts xs
    .ok (n :: r)

/-- `action_cnt_ids_str2act`, nx.py:98-109. -/
def cntIdsStr2act (u : Str) (readarg : Bool) : Py (Bytes × Nat) := nxWrap do
  if readarg then
    let (op, value, _) := getToken u
    pyAssert (hasChar op '=')
    let ids ← parseInts (splitAll ':' value)
    let n ← packU 2 ids.length
    let b ← packHs ids
    .ok (nxastHdr NXAST_CNT_IDS ++ (n ++ (zeros 4 ++ b)), op.length + value.length)
  else
    let ids ← parseInts (splitTokens u)
    let n ← packU 2 ids.length
    let b ← packHs ids
    .ok (nxastHdr NXAST_CNT_IDS ++ (n ++ (zeros 4 ++ b)), 0)

/-- `n` consecutive 16-bit big-endian values from offset `off`. -/
def hsAt (b : Bytes) (off n : Nat) : List Nat := (List.range n).map fun i => uAt b (off + 2 * i) 2

/-- `action_cnt_ids_act2str`, nx.py:111-113. -/
def cntIdsAct2str (payload : Bytes) : Py Str := do
  needBytes payload 0 2
  let num := uAt payload 0 2
  needBytes payload 6 (2 * num)
  .ok (t!"cnt_ids(" ++ (joinStr t!"," ((hsAt payload 6 num).map (fmtX 0)) ++ t!")"))

/-- The bits of a byte, least significant first. -/
def bitsLsb (v : UInt8) : List Bool := (List.range 8).map fun d => (v.toNat / 2 ^ d) % 2 == 1

/-- The inner loop of nx.py:137-145 over the bits of one byte: `(shift, nbits)`. -/
def maskByte : List Bool → Nat × Option Nat → Nat × Option Nat
  | [], st => st
  | true :: bs, (shift, nbits) => maskByte bs (shift, some (nbits.getD 0 + 1))
  | false :: bs, (shift, none) => maskByte bs (shift + 1, none)
  | false :: _, (shift, some n) => (shift, some n)

/-- The mask loop of nx.py:136-145. -/
def maskScan (mask : Bytes) : Nat × Option Nat :=
  mask.reverse.foldl (fun st v => maskByte (bitsLsb v) st) (0, none)

/-- `action_reg_load_str2act(NXAST_REG_LOAD)`, nx.py:115-156. -/
def regLoadStr2act (u : Str) (readarg : Bool) : Py (Bytes × Nat) := nxWrap do
  if readarg then .error .valueError
  else
    let (oxm, rlen) ← str2oxm1 u
    if rlen == 0 then .error .valueError
    else
      needBytes oxm 0 4
      let cls := uAt oxm 0 2
      let field := uAt oxm 2 1
      let payload := if cls == 0xffff then oxm.drop 6 else oxm.drop 4
      if field % 2 == 1 then
        let size := payload.length / 2
        let (shift, nbits) := maskScan (payload.drop size)
        match nbits with
        | none => .error .typeError
        | some nbits =>
          let value := beVal (payload.take size) / 2 ^ shift
          let b ← packAll [(2, (shift * 64 : Int) + ((nbits : Int) - 1)), (2, cls), (1, field / 2 * 2),
            (1, size), (8, value)]
          .ok (nxastHdr NXAST_REG_LOAD ++ b, rlen)
      else
        let size := payload.length
        let b ← packAll [(2, (size : Int) * 8 - 1), (2, cls), (1, field / 2 * 2), (1, size),
          (8, beVal payload)]
        .ok (nxastHdr NXAST_REG_LOAD ++ b, rlen)

/-- `action_reg_load_str2act(NXAST_REG_LOAD2)`, nx.py:115-128, 157-158. -/
def regLoad2Str2act (u : Str) (readarg : Bool) : Py (Bytes × Nat) := nxWrap do
  if readarg then .error .valueError
  else
    let (oxm, rlen) ← str2oxm1 u
    if rlen == 0 then .error .valueError
    else
      needBytes oxm 0 4
      .ok (nxastHdr NXAST_REG_LOAD2 ++ oxm, rlen)

/-- `action_reg_load_act2str`, nx.py:163-191. -/
def regLoadAct2str (payload : Bytes) : Py Str := do
  needBytes payload 0 14
  let ofsNbits := uAt payload 0 2
  let cls := uAt payload 2 2
  let field := uAt payload 4 1
  let value := uAt payload 6 8
  let name ← oxmid2str (slice payload 2 6)
  let oxmid ← str2oxmid false name
  needBytes oxmid 0 4
  let size := uAt oxmid 3 1
  let shift := ofsNbits / 64
  let nbits := ofsNbits % 64 + 1
  if shift == 0 && nbits == size * 8 then
    let arg ← oxm2str (oxmid ++ intBE size value)
    .ok (t!"reg_load(" ++ (arg ++ t!")"))
  else
    let mask := (2 ^ nbits - 1) * 2 ^ shift
    let h ← packAll [(2, cls), (1, if field % 2 == 1 then field else field + 1), (1, size * 2)]
    let arg ← oxm2str (h ++ (intBE size (value * 2 ^ shift) ++ intBE size mask))
    .ok (t!"reg_load(" ++ (arg ++ t!")"))

/-- `action_reg_load2_act2str`, nx.py:193-194. -/
def regLoad2Act2str (payload : Bytes) : Py Str := do
  let arg ← oxm2str1 payload
  .ok (t!"reg_load2(" ++ (arg ++ t!")"))

/-- `action_reg_move_str2act`, nx.py:196-207. -/
def regMoveStr2act (u : Str) (readarg : Bool) : Py (Bytes × Nat) := nxWrap do
  if readarg then .error .valueError
  else
    let (loxm, lshift, lnbits, u1) ← getBits u
    let (roxm, rshift, rnbits, u2) ← getBits u1
    pyAssert (lnbits == rnbits)
    let b ← packAll [(2, lnbits), (2, rshift), (2, lshift)]
    .ok (nxastHdr NXAST_REG_MOVE ++ (b ++ (roxm ++ loxm)), u.length - u2.length)

/-- `"{:s}[{:d}:{:d}]".format(name, a, b)`. -/
def fmtRange (name : Str) (a b : Nat) : Str :=
  name ++ '[' :: (fmtD a ++ ':' :: (fmtD b ++ t!"]"))

/-- `action_reg_move_act2str`, nx.py:209-228.  Line 223 tests the source size for the destination
too. -/
def regMoveAct2str (payload : Bytes) : Py Str := do
  needBytes payload 0 6
  let nBits := uAt payload 0 2
  let srcOfs := uAt payload 2 2
  let dstOfs := uAt payload 4 2
  let src ← oxmid2str1 (payload.drop 6)
  needBytes payload 6 4
  let ssize := uAt payload 9 1
  let arg := if srcOfs == 0 && nBits == ssize * 8 then src
    else fmtRange src srcOfs (srcOfs + nBits)
  let doffset := if uAt payload 6 2 == 0xffff then 14 else 10
  let dst ← oxmid2str1 (payload.drop doffset)
  needBytes payload doffset 4
  let arg := if dstOfs == 0 && nBits == ssize * 8 then dst ++ '=' :: arg
    else fmtRange dst dstOfs (dstOfs + nBits) ++ '=' :: arg
  .ok (t!"reg_move(" ++ (arg ++ t!")"))

/-- The port of `resubmit`, nx.py:234-241. -/
def resubmitPort (p : Str) : Py Int :=
  if upperStr p == t!"IN_PORT" then .ok 0xfff8
  else do
    let (port, rlen) ← parseInt p
    pyAssert (p.length == rlen)
    pyAssert (decide (port < 0xff00))
    .ok port

/-- The table of `resubmit`, nx.py:251-255. -/
def resubmitTbl (tbl : Str) : Py Int :=
  if tbl.isEmpty || upperStr tbl == t!"ALL" then .ok 0xff
  else do
    let (table, rlen) ← parseInt tbl
    pyAssert (rlen == tbl.length)
    .ok table

/-- `action_resubmit_str2act(subtype)`, nx.py:230-258; `isTable` is
`subtype == NXAST_RESUBMIT_TABLE`. -/
def resubmitStr2act (isTable : Bool) (u : Str) (readarg : Bool) : Py (Bytes × Nat) := nxWrap do
  let subtype := if isTable then NXAST_RESUBMIT_TABLE else NXAST_RESUBMIT
  let (h, p, u1) := getToken u
  let port ← resubmitPort p
  let (tbl, u2) ← (
    if readarg then do
      pyAssert (hasChar h '=')
      if isTable && startsWith u1 t!":" then
        let (_, tbl, u2) := getToken (u1.drop 1)
        .ok (tbl, u2)
      else .ok ([], u1)
    else if isTable then
      let (_, tbl, u2) := getToken u1
      .ok (tbl, u2)
    else .ok ([], u1) : Py (Str × Str))
  let table ← resubmitTbl tbl
  let b ← packAll [(2, port), (1, table)]
  .ok (nxastHdr subtype ++ b, u.length - u2.length)

/-- The port text of `resubmit`, nx.py:262, 267. -/
def resubmitPortText (p : Nat) : Str := if p == 0xfff8 then t!"in_port" else fmtD p

/-- `action_resubmit_act2str`, nx.py:260-263. -/
def resubmitAct2str (payload : Bytes) : Py Str := do
  needBytes payload 0 2
  .ok (t!"resubmit(" ++ (resubmitPortText (uAt payload 0 2) ++ t!")"))

/-- `action_resubmit_table_act2str`, nx.py:265-272. -/
def resubmitTableAct2str (payload : Bytes) : Py Str := do
  needBytes payload 0 3
  let tbl := uAt payload 2 1
  let table := if tbl == 0xff then t!"all" else fmtD tbl
  .ok (t!"resubmit_table(" ++ (resubmitPortText (uAt payload 0 2) ++ ',' :: (table ++ t!")")))

/-- `action_set_tunnel_str2act(subtype)`, nx.py:274-289. -/
def setTunnelStr2act (subtype : Nat) (u : Str) (readarg : Bool) : Py (Bytes × Nat) := nxWrap do
  let (h, b, _) := getToken u
  pyAssert (!readarg || hasChar h '=')
  let (num, rlen) ← parseInt b
  pyAssert (rlen == b.length)
  if num > 0xffffffff then
    let v ← packU 8 num
    .ok (nxastHdr NXAST_SET_TUNNEL64 ++ v, h.length + b.length)
  else
    let v ← packU 4 num
    .ok (nxastHdr subtype ++ v, h.length + b.length)

/-- `action_set_tunnel_act2str(size, fmt)`, nx.py:291-298; `name` is the function name in `fmt`. -/
def setTunnelAct2str (size : Nat) (name : Str) (payload : Bytes) : Py Str := do
  needBytes payload 0 size
  .ok (name ++ '(' :: (fmtX 0 (uAt payload 0 size) ++ t!")"))

/-- `action_null_str2act(subtype)`, nx.py:300-304. -/
def nullStr2act (subtype : Nat) (_ : Str) (_ : Bool) : Py (Bytes × Nat) :=
  nxWrap (.ok (nxastHdr subtype, 0))

/-- `action_qp_str2act(subtype)`, nx.py:311-317: no padding. -/
def qpStr2act (subtype : Nat) (u : Str) (readarg : Bool) : Py (Bytes × Nat) := do
  let (h, b, _) := getToken u
  pyAssert (!readarg || hasChar h '=')
  let q ← a2bQp b
  let bin ← fixActLen (nxastHdr subtype ++ q)
  .ok (bin, h.length + b.length)

/-- `action_qp_act2str(fmt)`, nx.py:319-322, for `"note({:s})"`. -/
def qpAct2str (payload : Bytes) : Py Str := .ok (t!"note(" ++ (b2aQp payload ++ t!")"))

/-- `action_multipath_str2act`, nx.py:324-346. -/
def multipathStr2act (u : Str) (readarg : Bool) : Py (Bytes × Nat) := nxWrap do
  if readarg then .error .valueError
  else
    let (_, hashName, u1) := getToken u
    let mhash ← tupleIndex nxHashNames hashName
    let (_, basisStr, u2) := getToken u1
    let (basis, rlen) ← parseInt basisStr
    pyAssert (rlen == basisStr.length)
    let (_, algName, u3) := getToken u2
    let malg ← tupleIndex nxMpAlgNames algName
    let (_, linkStr, u4) := getToken u3
    let (maxLink, rlen) ← parseInt linkStr
    pyAssert (rlen == linkStr.length)
    let (_, argStr, u5) := getToken u4
    let (arg, _) ← parseInt argStr
    let (_, dst, u6) := getToken u5
    let (oxm, shift, nbits, junk) ← getBits dst
    pyAssert junk.isEmpty
    let b ← packAll [(2, mhash), (2, basis)]
    let c ← packAll [(2, malg), (2, maxLink), (4, arg)]
    let d ← packU 2 (shift * 64 + (nbits - 1))
    .ok (nxastHdr NXAST_MULTIPATH ++ (b ++ (zeros 2 ++ (c ++ (zeros 2 ++ (d ++ oxm))))),
      u.length - u6.length)

/-- `action_multipath_act2str`, nx.py:348-361. -/
def multipathAct2str (payload : Bytes) : Py Str := do
  needBytes payload 0 18
  let ofsNbits := uAt payload 16 2
  let shift := ofsNbits / 64
  let nbits := ofsNbits % 64 + 1
  let dst ← oxmid2str1 (payload.drop 18)
  let hash ← tupleGet nxHashNames (uAt payload 0 2)
  let alg ← tupleGet nxMpAlgNames (uAt payload 6 2)
  .ok (t!"multipath(" ++ (hash ++ ',' :: (fmtD (uAt payload 2 2) ++ ',' :: (alg ++ ',' ::
    (fmtD (uAt payload 8 2) ++ ',' :: (fmtX 0 (uAt payload 10 4) ++ ',' ::
    (fmtRange dst shift (shift + nbits) ++ t!")")))))))

/-- One slave of `bundle`, nx.py:384-390. -/
def bundlePort (p : Str) : Py Int :=
  match ofpp.find? (fun e => e.2 == p) with
  | some e => .ok (e.1 : Int)
  | none => do
    let (n, _) ← parseInt p
    .ok n

/-- The slaves of `bundle`, nx.py:381-390 (the names are distinct, so the first match is also the
last). -/
def bundlePorts : List Str → Py (List Int)
  | [] => .ok []
  | p :: ps => do
    let a ← bundlePort p
    let r ← bundlePorts ps
    .ok (a :: r)

/-- `slaves(...)`, nx.py:379-390 and 449-460. -/
def bundleSlaves (slaves : Str) : Py (List Int) := do
  let (sname, sargs) ← parseFunc slaves
  pyAssert (sname == t!"slaves")
  match sargs with
  | none => .ok []
  | some [] => .ok []
  | some a => bundlePorts (splitTokens a)

/-- `action_bundle_str2act`, nx.py:363-397. -/
def bundleStr2act (u : Str) (readarg : Bool) : Py (Bytes × Nat) := nxWrap do
  if readarg then .error .valueError
  else
    let (_, fields, u1) := getToken u
    let (_, basis, u2) := getToken u1
    let (_, algorithm, u3) := getToken u2
    let (_, slaveType, u4) := getToken u3
    let (_, slaves, u5) := getToken u4
    let fields ← tupleIndex nxHashNames fields
    let (basis, _) ← parseInt basis
    let algorithm ← tupleIndex nxBdAlgNames algorithm
    let oxmid ← str2oxmid true slaveType
    let ports ← bundleSlaves slaves
    let a ← packAll [(2, algorithm), (2, fields), (2, basis)]
    let n ← packU 2 ports.length
    let ps ← packHs ports
    .ok (nxastHdr NXAST_BUNDLE ++ (a ++ (oxmid ++ ((n ++ zeros 10) ++ ps))),
      u.length - u5.length)

/-- One slave in text, nx.py:407-413 (the last matching name wins; the low halves are distinct). -/
def bundlePortText (p : Nat) : Str :=
  match ofpp.find? (fun e => e.1 % 65536 == p) with
  | some e => e.2
  | none => fmtD p

/-- `action_bundle_act2str`, nx.py:399-423. -/
def bundleAct2str (payload : Bytes) : Py Str := do
  needBytes payload 0 22
  let n := uAt payload 10 2
  needBytes payload 22 (2 * n)
  let slaves := (hsAt payload 22 n).map bundlePortText
  let hash ← tupleGet nxHashNames (uAt payload 2 2)
  let alg ← tupleGet nxBdAlgNames (uAt payload 0 2)
  let st ← oxmid2str1 (slice payload 6 10)
  .ok (t!"bundle(" ++ (hash ++ ',' :: (fmtD (uAt payload 4 2) ++ ',' :: (alg ++ ',' ::
    (st ++ t!",slaves(" ++ (joinStr t!"," slaves ++ t!"))"))))))

/-- `r = list(map(int, arg.split(":", 1)))`, nx.py:444 and 511: `r[0]`, and `r[1]` if there is one. -/
def intSplit (a : Str) : Py (Int × Option Int) := do
  let (x, y) := split1 ':' a
  let x ← pyInt x
  match y with
  | none => .ok (x, none)
  | some y =>
    let y ← pyInt y
    .ok (x, some y)

/-- `r[1]`, nx.py:465, 527 and 533: `IndexError` if there is none. -/
def intSecond : Option Int → Py Int
  | some y => .ok y
  | none => .error .indexError

/-- `action_bundle_load_str2act`, nx.py:425-469. -/
def bundleLoadStr2act (u : Str) (readarg : Bool) : Py (Bytes × Nat) := nxWrap do
  if readarg then .error .valueError
  else
    let (_, fields, u1) := getToken u
    let (_, basis, u2) := getToken u1
    let (_, algorithm, u3) := getToken u2
    let (_, slaveType, u4) := getToken u3
    let (_, dst, u5) := getToken u4
    let (_, slave, u6) := getToken u5
    let fields ← tupleIndex nxHashNames fields
    let (basis, _) ← parseInt basis
    let algorithm ← tupleIndex nxBdAlgNames algorithm
    let (dname, dargs) ← parseFunc dst
    let doxmid ← str2oxmid true dname
    let (r0, r1) ← (
      match dargs with
      | some (c :: cs) => intSplit (c :: cs)
      | _ => do
        pyStructLen doxmid 4
        .ok (0, some ((uAt doxmid 3 1 : Int) * 8)) : Py (Int × Option Int))
    let ports ← bundleSlaves slave
    let a ← packAll [(2, algorithm), (2, fields), (2, basis)]
    let st ← str2oxmid true slaveType
    let r1 ← intSecond r1
    let b ← packAll [(2, ports.length), (2, r0 * 64 + (r1 - 1))]
    let ps ← packHs ports
    .ok (nxastHdr NXAST_BUNDLE_LOAD ++ (a ++ (st ++ (b ++ (doxmid ++ (zeros 4 ++ ps))))),
      u.length - u6.length)
where
  /-- The exact-length check of `struct.unpack`. -/
  pyStructLen (b : Bytes) (n : Nat) : Py Unit :=
    if b.length == n then .ok () else .error .structError

/-- `action_bundle_load_act2str`, nx.py:471-500. -/
def bundleLoadAct2str (payload : Bytes) : Py Str := do
  needBytes payload 0 22
  let n := uAt payload 10 2
  let ofsNbits := uAt payload 12 2
  let shift := ofsNbits / 64
  let nbits := ofsNbits % 64 + 1
  needBytes payload 22 (2 * n)
  let slaves := (hsAt payload 22 n).map bundlePortText
  let hash ← tupleGet nxHashNames (uAt payload 2 2)
  let alg ← tupleGet nxBdAlgNames (uAt payload 0 2)
  let st ← oxmid2str1 (slice payload 6 10)
  let dst ← oxmid2str1 (slice payload 14 18)
  .ok (t!"bundle_load(" ++ (hash ++ ',' :: (fmtD (uAt payload 4 2) ++ ',' :: (alg ++ ',' ::
    (st ++ ',' :: (fmtRange dst shift (shift + nbits) ++ (t!",slaves(" ++
    (joinStr t!"," slaves ++ t!"))"))))))))

/-- `action_output_reg_str2act(subtype)`, nx.py:502-537; `reg2` is `subtype == NXAST_OUTPUT_REG2`. -/
def outputRegStr2act (reg2 : Bool) (u : Str) (_ : Bool) : Py (Bytes × Nat) := nxWrap do
  let (_, arg, u1) := getToken u
  let (name, arg) ← parseFunc arg
  let oxmid ← str2oxmid false name
  let (r0, r1) ← (
    match arg with
    | some (c :: cs) => intSplit (c :: cs)
    | _ => do
      needBytes oxmid 0 4
      .ok (0, some ((uAt oxmid 3 1 : Int) * 8)) : Py (Int × Option Int))
  let (_, marg, u2) := getToken u1
  let maxLen ← (
    if marg.isEmpty then .ok 0xffff
    else do
      let (n, _) ← parseInt marg
      .ok n : Py Int)
  let r1 ← intSecond r1
  let ofs := r0 * 64 + (r1 % 64 - 1)
  if reg2 || decide (oxmid.length > 4) then
    let b ← packAll [(2, ofs), (2, maxLen)]
    .ok (nxastHdr NXAST_OUTPUT_REG2 ++ (b ++ oxmid), u.length - u2.length)
  else
    let a ← packU 2 ofs
    let b ← packU 2 maxLen
    .ok (nxastHdr NXAST_OUTPUT_REG ++ (a ++ (oxmid ++ (b ++ zeros 6))), u.length - u2.length)

/-- `name` or `name[shift:shift+nbits]`, nx.py:545-549, 557-561, 719-725, 734-740. -/
def rangeText (name : Str) (size shift nbits : Nat) : Str :=
  if shift == 0 && nbits == size * 8 then name else fmtRange name shift (shift + nbits)

/-- `action_output_reg_act2str`, nx.py:539-549. -/
def outputRegAct2str (payload : Bytes) : Py Str := do
  needBytes payload 0 14
  let f0 := uAt payload 0 2
  let name ← oxmid2str1 (slice payload 2 6)
  .ok (t!"output_reg(" ++ (rangeText name (uAt payload 5 1) (f0 / 64) (f0 % 64 + 1) ++ t!")"))

/-- `action_output_reg2_act2str`, nx.py:551-561. -/
def outputReg2Act2str (payload : Bytes) : Py Str := do
  needBytes payload 0 8
  let f0 := uAt payload 0 2
  let name ← oxmid2str1 (payload.drop 4)
  .ok (t!"output_reg2(" ++ (rangeText name (uAt payload 7 1) (f0 / 64) (f0 % 64 + 1) ++ t!")"))

/-- `fixed_keys`, nx.py:563-570. -/
def learnKeys : List Str := [t!"idle_timeout", t!"hard_timeout", t!"priority", t!"cookie",
  t!"flags", t!"table", t!"fin_idle_timeout", t!"fin_hard_timeout"]

/-- `list(map(lambda n: int(n) if n else None, arg.split(":", 1)))` and then `r[0]`, `r[1]`,
nx.py:591-597, 620-624. -/
def optPair (a : Str) : Py (Option Int × Option Int) := do
  let (x, y) := split1 ':' a
  let x ← optInt x
  match y with
  | none => .error .indexError
  | some y =>
    let y ← optInt y
    .ok (x, y)

/-- The source object of a `flow_mod_spec`: an immediate value, or field id with offset. -/
inductive LearnSrc where
  | imm (n : Int)
  | fld (b : Bytes)

/-- The source part of `flow_mod_spec`, nx.py:584-603: object and number of bits (`None` for an
immediate). -/
def learnSource (src : Str) : Py (LearnSrc × Option Int) := do
  let (sname, sarg) ← parseFunc src
  let soxm ← str2oxmid false sname
  if soxm.isEmpty then
    let (n, _) ← parseInt sname
    .ok (.imm n, none)
  else
    pyAssert (soxm.length == 4)
    let size : Int := uAt soxm 3 1
    let (sshift, nbits) ← (
      match sarg with
      | some (c :: cs) => do
        let (x, y) ← optPair (c :: cs)
        let sshift := x.getD 0
        .ok (sshift, y.getD (size * 8) - sshift)
      | _ => .ok (0, size * 8) : Py (Int × Int))
    let s ← packU 2 sshift
    .ok (.fld (soxm ++ s), some nbits)

/-- The destination part of `flow_mod_spec`, nx.py:613-624, 630: id, offset and number of bits.
`none` is the Python `None` that `parse_func` cannot iterate over. -/
def learnDest (dst : Option Str) : Py (Bytes × Int × Int) := do
  match dst with
  | none => .error .typeError
  | some dst =>
    let (dname, darg) ← parseFunc dst
    let doxm ← str2oxmid false dname
    pyAssert (doxm.length == 4)
    let size : Int := uAt doxm 3 1
    match darg with
    | some (c :: cs) =>
      let (x, y) ← optPair (c :: cs)
      let dshift := x.getD 0
      .ok (doxm, dshift, match y with | some y => y - dshift | none => size * 8)
    | _ => .ok (doxm, 0, size * 8)

/-- `flow_mod_spec(src, dst, mode)`, nx.py:580-636. -/
def flowModSpec (src : Str) (dst : Option Str) (mode : Option Str) : Py Bytes := do
  let (sobj, nbits) ← learnSource src
  let flags : Int := match sobj with | .imm _ => 4096 | .fld _ => 0
  if mode == some t!"output" then
    match sobj with
    | .imm n => packAll [(2, flags + 2048 + 2), (2, n)]
    | .fld b =>
      let h ← packU 2 (flags + 2048 + nbits.getD 0)
      .ok (h ++ b)
  else
    let (doxm, dshift, dnbits) ← learnDest dst
    let nb ← (
      match nbits with
      | some n => if n == 0 then .ok dnbits else do
        pyAssert (n == dnbits)
        .ok n
      | none => .ok dnbits : Py Int)
    let d ← packU 2 dshift
    let sb := match sobj with
      | .imm n => intBE (((nb + 15) / 16 * 2).toNat) n
      | .fld b => b
    let flags := if mode == some t!"reg_load" then flags + 1024 else flags
    let h ← packU 2 (flags + nb)
    .ok (h ++ (sb ++ (doxm ++ d)))

/-- `single(token)`, nx.py:641-647. -/
def learnSingle (token : Str) : Py Bytes := do
  let (fname, farg) ← parseFunc token
  match farg with
  | some (c :: cs) =>
    let (_, dst, r) := getToken (c :: cs)
    let (h, src, _) := getToken r
    pyAssert (hasChar h '=')
    flowModSpec src (some dst) (some fname)
  | _ => .error .assertionError

/-- `if left: specs += single(left)`, nx.py:658-659, 661-662. -/
def learnPending (left : Option Str) : Py Bytes :=
  match left with
  | some (c :: cs) => learnSingle (c :: cs)
  | _ => .ok []

/-- The loop of nx.py:649-662: `info` and `specs`. -/
def learnGo : Nat → List (Str × Int) → Option Str → Str → Py (List (Str × Int) × Bytes)
  | 0, _, _, _ => .error .loops
  | fuel + 1, info, left, u =>
    if u.isEmpty then do
      let b ← learnPending left
      .ok (info, b)
    else do
      let (h, arg, rest) := getToken u
      if hasChar h '=' then
        if (match left with | some l => learnKeys.contains l | none => false) then
          let (n, _) ← parseInt arg
          learnGo fuel ((left.getD [], n) :: info) none rest
        else
          let b ← flowModSpec arg left none
          let (info, specs) ← learnGo fuel info none rest
          .ok (info, b ++ specs)
      else
        let b ← learnPending left
        let (info, specs) ← learnGo fuel info (some arg) rest
        .ok (info, b ++ specs)

/-- `info.get(key, 0)`. -/
def learnInfo (info : List (Str × Int)) (key : Str) : Int :=
  match info.find? (fun e => e.1 == key) with
  | some e => e.2
  | none => 0

/-- `action_learn_str2act`, nx.py:572-672. -/
def learnStr2act (u : Str) (readarg : Bool) : Py (Bytes × Nat) := nxWrap do
  if readarg then .error .valueError
  else
    let (info, specs) ← learnGo (u.length + 1) [] none u
    let a ← packAll [(2, learnInfo info t!"idle_timeout"), (2, learnInfo info t!"hard_timeout"),
      (2, learnInfo info t!"priority"), (8, learnInfo info t!"cookie"),
      (2, learnInfo info t!"flags"), (1, learnInfo info t!"table")]
    let b ← packAll [(2, learnInfo info t!"fin_idle_timeout"),
      (2, learnInfo info t!"fin_hard_timeout")]
    .ok (nxastHdr NXAST_LEARN ++ (a ++ (zeros 1 ++ (b ++ specs))), u.length)

/-- The object `sobj` read at nx.py:708-725. -/
inductive LearnObj where
  | imm (n : Nat)
  | fld (s : Str)

/-- A field id with offset in a learn specification, nx.py:716-725 and 731-740. -/
def learnField (payload : Bytes) (nbits : Nat) : Py Str := do
  let name ← oxmid2str1 payload
  needBytes payload 0 6
  .ok (rangeText name (uAt payload 3 1) (uAt payload 4 2) nbits)

/-- The loop of nx.py:698-750.  `spec` is the Python variable of that name, which keeps its value
from the previous round when `dst == 3`. -/
def learnSpecs : Nat → Option Str → Bytes → Py (List Str)
  | 0, _, _ => .error .loops
  | fuel + 1, spec, payload =>
    if payload.length ≤ 2 then .ok []
    else do
      let n := uAt payload 0 2
      if n == 0 then .ok []
      else
        let payload := payload.drop 2
        let nbits := n % 1024
        let dst := n / 1024 % 4
        let src := n / 4096 % 2
        pyAssert (n / 8192 == 0)
        let (sobj, payload) ← (
          if src == 1 then
            let rlen := (nbits + 15) / 16 * 2
            .ok (.imm (beVal (payload.take rlen)), payload.drop rlen)
          else do
            let s ← learnField payload nbits
            .ok (.fld s, payload.drop 6) : Py (LearnObj × Bytes))
        if dst == 2 then
          let s := match sobj with | .imm n => fmtD n | .fld s => s
          let spec := t!"output(" ++ (s ++ t!")")
          let rest ← learnSpecs fuel (some spec) payload
          .ok (spec :: rest)
        else
          let s := match sobj with | .imm n => fmtX 0 n | .fld s => s
          let d ← learnField payload nbits
          let payload := payload.drop 6
          if dst == 0 then
            let spec := d ++ '=' :: s
            let rest ← learnSpecs fuel (some spec) payload
            .ok (spec :: rest)
          else if dst == 1 then
            let spec := t!"reg_load(" ++ (d ++ '=' :: (s ++ t!")"))
            let rest ← learnSpecs fuel (some spec) payload
            .ok (spec :: rest)
          else match spec with
            | none => .error .nameError
            | some spec =>
              let rest ← learnSpecs fuel (some spec) payload
              .ok (spec :: rest)

/-- `action_learn_act2str`, nx.py:674-753.  Lines 680-694 call `list.append` with two arguments,
a `TypeError`, as soon as one fixed field is not zero. -/
def learnAct2str (payload : Bytes) : Py Str := do
  needBytes payload 0 22
  if uAt payload 0 2 != 0 || uAt payload 2 2 != 0 || uAt payload 4 2 != 0 ||
      uAt payload 6 8 != 0 || uAt payload 14 2 != 0 || uAt payload 16 1 != 0 ||
      uAt payload 18 2 != 0 || uAt payload 20 2 != 0 then .error .typeError
  else
    let specs ← learnSpecs (payload.length + 1) none (payload.drop 22)
    .ok (t!"learn(" ++ (joinStr t!"," specs ++ t!")"))

end Ofpstr
