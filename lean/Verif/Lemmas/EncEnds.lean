import Verif.Lemmas.ActEnds

/-!
# Parsing of actions and rules ends
-/

namespace Ofpstr
open Spec

theorem ends_parseFuncGo (n : Nat) (a s : Str) : Ends (parseFuncGo n a s) := by
  induction s generalizing a with
  | nil => exact ends_ok _
  | cons c s ih =>
    rw [parseFuncGo]
    split
    · dsimp only
      split
      · exact ends_ok _
      · exact ends_error (by decide)
    · exact ih _

theorem ends_parseFunc (s : Str) : Ends (parseFunc s) := ends_parseFuncGo _ _ _

theorem ends_tupleIndex (l : List Str) (n : Str) : Ends (tupleIndex l n) := by
  unfold tupleIndex; dsimp only; split <;> simp [Ends]

theorem ends_parseInts (l : List Str) : Ends (parseInts l) := by
  induction l with
  | nil => exact ends_ok _
  | cons x l ih => exact ends_bind (ends_parseInt _) fun _ _ => ends_bind ih fun _ _ => ends_ok _

theorem ends_packHs (l : List Int) : Ends (packHs l) := ends_packAll _

theorem ends_fixActLen (b : Bytes) : Ends (fixActLen b) :=
  ends_bind (ends_packU _ _) fun _ _ => ends_ok _

theorem ends_nxWrap {r : Py (Bytes × Nat)} (h : Ends r) : Ends (nxWrap r) :=
  ends_bind h fun _ _ => ends_bind (ends_fixActLen _) fun _ _ => ends_ok _

theorem ends_optInt (s : Str) : Ends (optInt s) := by
  unfold optInt
  split
  · exact ends_ok _
  · exact ends_bind (ends_pyInt _) fun _ _ => ends_ok _

theorem ends_nameOrInt (l : List (Nat × Str)) (s : Str) : Ends (nameOrInt l s) := by
  unfold nameOrInt
  split
  · exact ends_ok _
  · exact ends_bind (ends_parseInt _) fun _ _ => ends_bind (ends_pyAssert _) fun _ _ => ends_ok _

/-- Goes through the structure of an encoder. -/
macro "ends_enc" : tactic => `(tactic| repeat' first
  | with_reducible exact ends_ok _
  | with_reducible exact ends_error (by decide)
  | with_reducible exact ends_pyAssert _
  | with_reducible exact ends_needBytes _ _ _
  | with_reducible exact ends_packAll _
  | with_reducible exact ends_packU _ _
  | with_reducible exact ends_packHs _
  | with_reducible exact ends_parseInt _
  | with_reducible exact ends_parseInts _
  | with_reducible exact ends_parseFunc _
  | with_reducible exact ends_pyInt _
  | with_reducible exact ends_optInt _
  | with_reducible exact ends_nameOrInt _ _
  | with_reducible exact ends_tupleIndex _ _
  | with_reducible exact ends_a2bQp _
  | with_reducible exact ends_fixActLen _
  | with_reducible exact ends_str2oxmid _ _
  | with_reducible exact ends_str2oxmL false _
  | with_reducible refine ends_bind ?_ (fun _ _ => ?_)
  | split
  | dsimp only)

theorem ends_str2oxm1 (u : Str) : Ends (str2oxm1 u) := ends_str2oxmL false u

theorem ends_getBits (u : Str) : Ends (getBits u) := by unfold getBits; ends_enc
theorem ends_resubmitPort (u : Str) : Ends (resubmitPort u) := by unfold resubmitPort; ends_enc
theorem ends_resubmitTbl (u : Str) : Ends (resubmitTbl u) := by unfold resubmitTbl; ends_enc
theorem ends_bundlePort (u : Str) : Ends (bundlePort u) := by unfold bundlePort; ends_enc
theorem ends_bundlePorts (l : List Str) : Ends (bundlePorts l) := by
  induction l with
  | nil => exact ends_ok _
  | cons x l ih => exact ends_bind (ends_bundlePort _) fun _ _ => ends_bind ih fun _ _ => ends_ok _
theorem ends_bundleSlaves (u : Str) : Ends (bundleSlaves u) := by
  unfold bundleSlaves
  refine ends_bind (ends_parseFunc _) fun _ _ => ?_
  refine ends_bind (ends_pyAssert _) fun _ _ => ?_
  split
  · exact ends_ok _
  · exact ends_ok _
  · exact ends_bundlePorts _
theorem ends_intSplit (u : Str) : Ends (intSplit u) := by unfold intSplit; ends_enc
theorem ends_intSecond (x : Option Int) : Ends (intSecond x) := by unfold intSecond; ends_enc
theorem ends_optPair (u : Str) : Ends (optPair u) := by unfold optPair; ends_enc

macro "ends_enc2" : tactic => `(tactic| repeat' first
  | with_reducible exact ends_str2oxm1 _
  | with_reducible exact ends_getBits _
  | with_reducible exact ends_resubmitPort _
  | with_reducible exact ends_resubmitTbl _
  | with_reducible exact ends_bundleSlaves _
  | with_reducible exact ends_intSplit _
  | with_reducible exact ends_intSecond _
  | with_reducible exact ends_optPair _
  | with_reducible exact ends_ok _
  | with_reducible exact ends_error (by decide)
  | with_reducible exact ends_pyAssert _
  | with_reducible exact ends_needBytes _ _ _
  | with_reducible exact ends_packAll _
  | with_reducible exact ends_packU _ _
  | with_reducible exact ends_packHs _
  | with_reducible exact ends_parseInt _
  | with_reducible exact ends_parseInts _
  | with_reducible exact ends_parseFunc _
  | with_reducible exact ends_pyInt _
  | with_reducible exact ends_nameOrInt _ _
  | with_reducible exact ends_tupleIndex _ _
  | with_reducible exact ends_a2bQp _
  | with_reducible exact ends_fixActLen _
  | with_reducible exact ends_str2oxmid _ _
  | with_reducible refine ends_bind ?_ (fun _ _ => ?_)
  | split
  | dsimp only)

theorem ends_learnSource (u : Str) : Ends (learnSource u) := by unfold learnSource; ends_enc2
theorem ends_learnDest (u : Option Str) : Ends (learnDest u) := by unfold learnDest; ends_enc2

theorem ends_flowModSpec (s : Str) (d m : Option Str) : Ends (flowModSpec s d m) := by
  unfold flowModSpec
  refine ends_bind (ends_learnSource _) fun _ _ => ?_
  dsimp only
  split
  · ends_enc2
  · refine ends_bind (ends_learnDest _) fun _ _ => ?_
    ends_enc2

theorem ends_learnSingle (t : Str) : Ends (learnSingle t) := by
  unfold learnSingle
  refine ends_bind (ends_parseFunc _) fun _ _ => ?_
  split
  split
  · exact ends_bind (ends_pyAssert _) fun _ _ => ends_flowModSpec _ _ _
  · exact ends_error (by decide)

theorem ends_learnPending (t : Option Str) : Ends (learnPending t) := by
  unfold learnPending
  split
  · exact ends_learnSingle _
  · exact ends_ok _

theorem ends_learnGo (fuel : Nat) (info : List (Str × Int)) (left : Option Str) (u : Str)
    (h : u.length < fuel) : Ends (learnGo fuel info left u) := by
  induction fuel generalizing info left u with
  | zero => omega
  | succ fuel ih =>
    rw [learnGo.eq_def]
    dsimp only
    split
    · exact ends_bind (ends_learnPending _) fun _ _ => ends_ok _
    · rename_i hu
      have hu' : u ≠ [] := by rintro rfl; simp at hu
      have hp := getToken_progress u hu'
      rcases hg : getToken u with ⟨a, b, r⟩
      rw [hg] at hp
      dsimp only at hp ⊢
      split
      · repeat' split
        all_goals first
          | exact ends_bind (ends_parseInt _) fun _ _ => ih _ _ r (by omega)
          | exact ends_bind (ends_flowModSpec _ _ _) fun _ _ => ends_bind (ih _ _ r (by omega)) fun _ _ => ends_ok _
      · exact ends_bind (ends_learnPending _) fun _ _ => ends_bind (ih _ _ r (by omega)) fun _ _ => ends_ok _

theorem ends_runActEnc (k : ActEnc) (u : Str) (b : Bool) : Ends (runActEnc k u b) := by
  cases k
  case generic => exact ends_ok _
  case uint => simp only [runActEnc]; unfold uintStr2act; ends_enc2
  case output => simp only [runActEnc]; unfold outputStr2act; ends_enc2
  case push => simp only [runActEnc]; unfold pushStr2act; ends_enc2
  case cntIds => exact ends_nxWrap (by ends_enc2)
  case regLoad => exact ends_nxWrap (by ends_enc2)
  case regLoad2 => exact ends_nxWrap (by ends_enc2)
  case regMove => exact ends_nxWrap (by ends_enc2)
  case resubmit => exact ends_nxWrap (by ends_enc2)
  case resubmitTable => exact ends_nxWrap (by ends_enc2)
  case setTunnel => exact ends_nxWrap (by ends_enc2)
  case setTunnel64 => exact ends_nxWrap (by ends_enc2)
  case null => exact ends_nxWrap (ends_ok _)
  case note => simp only [runActEnc]; unfold qpStr2act; ends_enc2
  case multipath => exact ends_nxWrap (by ends_enc2)
  case bundle => exact ends_nxWrap (by ends_enc2)
  case bundleLoad => exact ends_nxWrap (by unfold bundleLoadStr2act.pyStructLen; ends_enc2)
  case outputReg => exact ends_nxWrap (by ends_enc2)
  case outputReg2 => exact ends_nxWrap (by ends_enc2)
  case learn =>
    refine ends_nxWrap ?_
    split
    · exact ends_error (by decide)
    · exact ends_bind (ends_learnGo _ _ _ _ (by omega)) fun _ _ => ends_bind (ends_packAll _) fun _ _ =>
        ends_bind (ends_packAll _) fun _ _ => ends_ok _

theorem ends_setFieldAct (b : Bytes) : Ends (setFieldAct b) :=
  ends_bind (ends_packAll _) fun _ _ => ends_ok _

theorem ends_str2act (s : Str) : Ends (str2act s) := by
  unfold str2act
  dsimp only
  refine ends_bind (ends_parseFunc _) fun _ _ => ?_
  split
  · exact ends_bind (ends_runActEnc _ _ _) fun _ _ => ends_ok _
  · split
    · exact ends_bind (ends_runActEnc _ _ _) fun _ _ => ends_ok _
    · split
      · split
        · exact ends_bind (ends_str2oxm1 _) fun _ _ => ends_bind (ends_setFieldAct _) fun _ _ => ends_ok _
        · exact ends_bind (ends_str2oxm1 _) fun _ _ => ends_bind (ends_setFieldAct _) fun _ _ => ends_ok _
      · exact ends_ok _

/-! ## `str2dict` -/

theorem ends_intArg (s : Str) : Ends (intArg s) := by unfold intArg; ends_enc2
theorem ends_procArg (s : Str) : Ends (procArg s) := by unfold procArg; ends_enc2
theorem ends_nameArg (l : List (Nat × Str)) (s : Str) : Ends (nameArg l s) := by unfold nameArg; ends_enc2

theorem ends_runFunc (st : DictSt) : Ends (runFunc st) := by
  unfold runFunc
  split
  · exact ends_ok _
  · exact ends_bind (ends_packAll _) fun _ _ => ends_ok _

theorem ends_dictInst (n : Str) (i : Info) (a : Bytes) (s : Str) : Ends (dictInst n i a s) := by
  unfold dictInst
  repeat' first
    | with_reducible exact ends_intArg _
    | with_reducible exact ends_procArg _
    | with_reducible exact ends_ok _
    | with_reducible exact ends_error (by decide)
    | with_reducible exact ends_pyAssert _
    | with_reducible exact ends_packAll _
    | with_reducible exact ends_packU _ _
    | with_reducible exact ends_parseInt _
    | with_reducible refine ends_bind ?_ (fun _ _ => ?_)
    | split
    | dsimp only

theorem ends_dictMatch (n : Str) (i : Info) (s : Str) : Ends (dictMatch n i s) := by
  unfold dictMatch
  repeat' first
    | with_reducible exact ends_nameArg _ _
    | with_reducible exact ends_procArg _
    | with_reducible exact ends_ok _
    | with_reducible exact ends_error (by decide)
    | with_reducible exact ends_pyAssert _
    | with_reducible exact ends_str2oxm1 _
    | with_reducible exact ends_parseInt _
    | with_reducible refine ends_bind ?_ (fun _ _ => ?_)
    | split
    | dsimp only

theorem ends_dictStep (st : DictSt) (s : Str) : Ends (dictStep st s) := by
  unfold dictStep
  dsimp only
  refine ends_bind (ends_pyAssert _) fun _ _ => ?_
  split
  · exact ends_bind (ends_runFunc _) fun _ _ => ends_dictInst _ _ _ _
  · split
    · exact ends_bind (ends_dictMatch _ _ _) fun _ _ => ends_ok _
    · refine ends_bind (ends_str2act _) fun _ _ => ?_
      split
      · exact ends_error (by decide)
      · exact ends_ok _
    · exact ends_error (by decide)

end Ofpstr
