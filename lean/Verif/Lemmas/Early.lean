import Verif.Lemmas.ActTrip

/-!
# Ranges of two bounds, read at once

`bundle_load` and `output_reg` look at the second bound of a range only after reading the rest of their
arguments.  What they accept is the same as if they did so at once.
-/

namespace Ofpstr

/-- The two bounds of a range, `IndexError` if there is one only. -/
def intPair (a : Str) : Py (Int × Int) := do
  let (x, y) := split1 ':' a
  let x ← pyInt x
  match y with
  | none => .error .indexError
  | some y =>
    let y ← pyInt y
    .ok (x, y)

theorem intPair_split (a : Str) : intPair a = intSplit a >>= fun r => intSecond r.2 >>= fun y => .ok (r.1, y) := by
  unfold intPair intSplit
  rcases split1 ':' a with ⟨x, y⟩
  dsimp only
  cases pyInt x with
  | error e => rfl
  | ok v =>
    rw [ok_bind, ok_bind]
    cases y with
    | none => rfl
    | some y =>
      dsimp only
      cases pyInt y with
      | error e => rfl
      | ok w => rfl

/-- `bundle_load` with both bounds read at once. -/
def bundleLoadEarly (u : Str) (readarg : Bool) : Py (Bytes × Nat) := nxWrap do
  if readarg then .error .valueError
  else
    let (_, fields, u1) := getToken u
    let (_, basis, u2) := getToken u1
    let (_, algorithm, u3) := getToken u2
    let (_, slaveType, u4) := getToken u3
    let (_, dst, u5) := getToken u4
    let (_, slave, u6) := getToken u5
    let fields ← tupleIndex nxHashNames fields
    let (basis, _) ← parseInt basis
    let algorithm ← tupleIndex nxBdAlgNames algorithm
    let (dname, dargs) ← parseFunc dst
    let doxmid ← str2oxmid true dname
    let (r0, r1) ← (
      match dargs with
      | some (c :: cs) => intPair (c :: cs)
      | _ => do
        bundleLoadStr2act.pyStructLen doxmid 4
        .ok (0, (uAt doxmid 3 1 : Int) * 8) : Py (Int × Int))
    let ports ← bundleSlaves slave
    let a ← packAll [(2, algorithm), (2, fields), (2, basis)]
    let st ← str2oxmid true slaveType
    let b ← packAll [(2, ports.length), (2, r0 * 64 + (r1 - 1))]
    let ps ← packHs ports
    .ok (nxastHdr NXAST_BUNDLE_LOAD ++ (a ++ (st ++ (b ++ (doxmid ++ (zeros 4 ++ ps))))),
      u.length - u6.length)

/-- `output_reg` with both bounds read at once. -/
def outputRegEarly (reg2 : Bool) (u : Str) (_ : Bool) : Py (Bytes × Nat) := nxWrap do
  let (_, arg, u1) := getToken u
  let (name, arg) ← parseFunc arg
  let oxmid ← str2oxmid false name
  let (r0, r1) ← (
    match arg with
    | some (c :: cs) => intPair (c :: cs)
    | _ => do
      needBytes oxmid 0 4
      .ok (0, (uAt oxmid 3 1 : Int) * 8) : Py (Int × Int))
  let (_, marg, u2) := getToken u1
  let maxLen ← (
    if marg.isEmpty then .ok 0xffff
    else do
      let (n, _) ← parseInt marg
      .ok n : Py Int)
  let ofs := r0 * 64 + (r1 % 64 - 1)
  if reg2 || decide (oxmid.length > 4) then
    let b ← packAll [(2, ofs), (2, maxLen)]
    .ok (nxastHdr NXAST_OUTPUT_REG2 ++ (b ++ oxmid), u.length - u2.length)
  else
    let a ← packU 2 ofs
    let b ← packU 2 maxLen
    .ok (nxastHdr NXAST_OUTPUT_REG ++ (a ++ (oxmid ++ (b ++ zeros 6))), u.length - u2.length)

theorem early_wrap {A B : Py (Bytes × Nat)} (h : ∀ x, A = .ok x ↔ B = .ok x) (y : Bytes × Nat) :
    nxWrap A = .ok y ↔ nxWrap B = .ok y := by
  cases hA : A with
  | ok x => rw [(h x).1 hA]
  | error e =>
    cases hB : B with
    | ok x => rw [(h x).2 hB] at hA; cases hA
    | error e' => constructor <;> intro h <;> cases h

theorem early_bind {α β : Type} {A : Py α} {f g : α → Py β} (y : β) (h : ∀ x, f x = .ok y ↔ g x = .ok y) :
    (A >>= f) = .ok y ↔ (A >>= g) = .ok y := by
  cases A with
  | ok x => exact h x
  | error e => constructor <;> intro h <;> cases h

/-- What the decorated function makes, before its length is written. -/
def rawArg {x raw : Py (Bytes × Nat)} (_ : x = nxWrap raw) : Py (Bytes × Nat) := raw

def bundleLoadRaw (u : Str) (ra : Bool) : Py (Bytes × Nat) := rawArg (show bundleLoadStr2act u ra = nxWrap _ from rfl)
def bundleLoadEarlyRaw (u : Str) (ra : Bool) : Py (Bytes × Nat) := rawArg (show bundleLoadEarly u ra = nxWrap _ from rfl)
def outputRegRaw (reg2 : Bool) (u : Str) (ra : Bool) : Py (Bytes × Nat) :=
  rawArg (show outputRegStr2act reg2 u ra = nxWrap _ from rfl)
def outputRegEarlyRaw (reg2 : Bool) (u : Str) (ra : Bool) : Py (Bytes × Nat) :=
  rawArg (show outputRegEarly reg2 u ra = nxWrap _ from rfl)

theorem bundleLoadRaw_early (u : Str) (ra : Bool) (x : Bytes × Nat) :
    bundleLoadRaw u ra = .ok x ↔ bundleLoadEarlyRaw u ra = .ok x := by
  unfold bundleLoadRaw bundleLoadEarlyRaw rawArg
  split
  · exact Iff.rfl
  dsimp only
  refine early_bind _ fun fields => early_bind _ fun basis => ?_
  obtain ⟨basis, lb⟩ := basis
  dsimp only
  refine early_bind _ fun alg => early_bind _ fun d => ?_
  obtain ⟨dn, da⟩ := d
  dsimp only
  refine early_bind _ fun doxm => ?_
  rcases da with _ | ⟨_ | ⟨c, cs⟩⟩
  · dsimp only
    cases bundleLoadStr2act.pyStructLen doxm 4 with
    | error e => exact Iff.rfl
    | ok _ => simp only [ok_bind, intSecond]
  · dsimp only
    cases bundleLoadStr2act.pyStructLen doxm 4 with
    | error e => exact Iff.rfl
    | ok _ => simp only [ok_bind, intSecond]
  · dsimp only
    rw [intPair_split]
    cases intSplit (c :: cs) with
    | error e => exact Iff.rfl
    | ok r =>
      obtain ⟨a, b⟩ := r
      cases b with
      | some b => simp only [ok_bind, intSecond]
      | none =>
        constructor
        · intro h
          rw [ok_bind] at h
          dsimp only at h
          obtain ⟨_, _, h⟩ := bind_ok h
          obtain ⟨_, _, h⟩ := bind_ok h
          obtain ⟨_, _, h⟩ := bind_ok h
          cases h
        · intro h; cases h

theorem outputRegRaw_early (reg2 : Bool) (u : Str) (ra : Bool) (x : Bytes × Nat) :
    outputRegRaw reg2 u ra = .ok x ↔ outputRegEarlyRaw reg2 u ra = .ok x := by
  unfold outputRegRaw outputRegEarlyRaw rawArg
  dsimp only
  refine early_bind _ fun d => ?_
  obtain ⟨dn, da⟩ := d
  dsimp only
  refine early_bind _ fun doxm => ?_
  rcases da with _ | ⟨_ | ⟨c, cs⟩⟩
  · dsimp only
    cases needBytes doxm 0 4 with
    | error e => exact Iff.rfl
    | ok _ => simp only [ok_bind, intSecond]
  · dsimp only
    cases needBytes doxm 0 4 with
    | error e => exact Iff.rfl
    | ok _ => simp only [ok_bind, intSecond]
  · dsimp only
    rw [intPair_split]
    cases intSplit (c :: cs) with
    | error e => exact Iff.rfl
    | ok r =>
      obtain ⟨a, b⟩ := r
      cases b with
      | some b => simp only [ok_bind, intSecond]
      | none =>
        constructor
        · intro h
          rw [ok_bind] at h
          dsimp only at h
          obtain ⟨_, _, h⟩ := bind_ok h
          cases h
        · intro h; cases h

theorem bundleLoad_early (u : Str) (ra : Bool) (y : Bytes × Nat) :
    bundleLoadStr2act u ra = .ok y ↔ bundleLoadEarly u ra = .ok y :=
  early_wrap (fun x => bundleLoadRaw_early u ra x) y

theorem outputReg_early (reg2 : Bool) (u : Str) (ra : Bool) (y : Bytes × Nat) :
    outputRegStr2act reg2 u ra = .ok y ↔ outputRegEarly reg2 u ra = .ok y :=
  early_wrap (fun x => outputRegRaw_early reg2 u ra x) y

end Ofpstr
