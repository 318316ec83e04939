import Verif.Lemmas.SetField

/-!
# Decoding of actions and instructions ends
-/

namespace Ofpstr
open Spec

theorem ends_tupleGet (l : List Str) (i : Nat) : Ends (tupleGet l i) := by
  unfold tupleGet; split <;> simp [Ends]

theorem ends_oxmid2str1 (b : Bytes) : Ends (oxmid2str1 b) := by
  unfold oxmid2str1
  split
  · exact ends_ok _
  · exact ends_bind (ends_oxmid2strOne _) fun _ _ => ends_ok _

theorem ends_oxm2str1 (b : Bytes) : Ends (oxm2str1 b) := by
  unfold oxm2str1
  split
  · exact ends_ok _
  · exact ends_oxm2strOne _

theorem ends_learnField (p : Bytes) (n : Nat) : Ends (learnField p n) :=
  ends_bind (ends_oxmid2str1 _) fun _ _ => ends_bind (ends_needBytes _ _ _) fun _ _ => ends_ok _

/-- Goes through the structure of a decoder. -/
macro "ends_dec" : tactic => `(tactic| repeat' first
  | with_reducible exact ends_ok _
  | with_reducible exact ends_error (by decide)
  | with_reducible exact ends_pyAssert _
  | with_reducible exact ends_needBytes _ _ _
  | with_reducible exact ends_packAll _
  | with_reducible exact ends_oxmid2str _
  | with_reducible exact ends_oxmid2str1 _
  | with_reducible exact ends_oxm2str _
  | with_reducible exact ends_oxm2str1 _
  | with_reducible exact ends_str2oxmid _ _
  | with_reducible exact ends_tupleGet _ _
  | with_reducible exact ends_learnField _ _
  | with_reducible refine ends_bind ?_ (fun _ _ => ?_)
  | split
  | dsimp only)

theorem ends_learnSpecs (fuel : Nat) (spec : Option Str) (p : Bytes) (h : p.length < fuel) :
    Ends (learnSpecs fuel spec p) := by
  induction fuel generalizing spec p with
  | zero => omega
  | succ f ih =>
    rw [learnSpecs]
    split
    · exact ends_ok _
    · rename_i h2
      dsimp only
      split
      · exact ends_ok _
      · refine ends_bind (ends_pyAssert _) fun _ _ => ends_bind ?_ fun x hx => ?_
        · split
          · exact ends_ok _
          · exact ends_bind (ends_learnField _ _) fun _ _ => ends_ok _
        · have hl : x.2.length < f := by
            have h3 : x.2.length ≤ (p.drop 2).length := by
              split at hx
              · cases hx; simp; omega
              · obtain ⟨_, _, hx⟩ := bind_ok hx
                cases hx; simp; omega
            simp only [List.length_drop] at h3
            omega
          have hl6 : (x.2.drop 6).length < f := by simp; omega
          repeat' first
            | with_reducible exact ends_ok _
            | with_reducible exact ends_error (by decide)
            | with_reducible exact ih _ _ hl
            | with_reducible exact ih _ _ hl6
            | with_reducible exact ends_learnField _ _
            | with_reducible refine ends_bind ?_ (fun _ _ => ?_)
            | split
            | dsimp only

theorem ends_runActDec (d : ActDec) (p : Bytes) : Ends (runActDec d p) := by
  cases d <;> unfold runActDec <;> dsimp only
  · unfold outputAct2str; ends_dec
  · unfold genericAct2str; ends_dec
  · unfold uintAct2str; ends_dec
  · unfold pushAct2str; ends_dec
  · unfold cntIdsAct2str; ends_dec
  · unfold regLoadAct2str; ends_dec
  · unfold regLoad2Act2str; ends_dec
  · unfold regMoveAct2str; ends_dec
  · unfold resubmitAct2str; ends_dec
  · unfold resubmitTableAct2str; ends_dec
  · unfold setTunnelAct2str; ends_dec
  · exact ends_ok _
  · exact ends_ok _
  · unfold multipathAct2str; ends_dec
  · unfold bundleAct2str; ends_dec
  · unfold bundleLoadAct2str; ends_dec
  · unfold outputRegAct2str; ends_dec
  · unfold outputReg2Act2str; ends_dec
  · unfold learnAct2str
    refine ends_bind (ends_needBytes _ _ _) fun _ _ => ?_
    split
    · exact ends_error (by decide)
    · refine ends_bind (ends_learnSpecs _ _ _ ?_) fun _ _ => ends_ok _
      simp; omega

theorem ends_actKey (b : Bytes) : Ends (actKey b) := by unfold actKey; ends_dec

theorem ends_act2strOne (b : Bytes) : Ends (act2strOne b) := by
  unfold act2strOne
  dsimp only
  refine ends_bind (ends_actKey _) fun x _ => ?_
  obtain ⟨key, offset⟩ := x
  dsimp only
  split
  · exact ends_bind (ends_oxm2str1 _) fun _ _ => ends_ok _
  · split
    · exact ends_runActDec _ _
    · exact ends_ok _

/-- The length field at offset 2, read by the model. -/
theorem lenField_uAt (b : Bytes) (h : 4 ≤ b.length) : lenField b = uAt b 2 2 := by
  match b, h with
  | a0 :: a1 :: a2 :: a3 :: r, _ =>
    simp [lenField, uAt, slice, beVal]

theorem ends_act2strGo (b : Bytes) (hw : LenWalk b) :
    ∀ fuel, b.length < fuel → Ends (act2strGo fuel b) := by
  induction hw with
  | done b h =>
    intro fuel hf
    cases fuel with
    | zero => omega
    | succ f => rw [act2strGo, if_pos h]; exact ends_ok _
  | step b h1 h2 _ ih =>
    intro fuel hf
    cases fuel with
    | zero => omega
    | succ f =>
      rw [act2strGo, if_neg (by omega)]
      rw [lenField_uAt b (by omega)] at h2 ih
      refine ends_bind (ends_act2strOne _) fun _ _ => ends_bind (ih _ ?_) fun _ _ => ends_ok _
      simp only [List.length_drop]
      omega

theorem ends_act2str (b : Bytes) (hw : LenWalk b) : Ends (act2str b) :=
  ends_bind (ends_act2strGo b hw _ (by omega)) fun _ _ => ends_ok _

theorem ends_instActions (name : Str) (b : Bytes) (l : Nat) (h : LenWalk (slice b 8 l)) :
    Ends (instActions name b l) :=
  ends_bind (ends_pyAssert _) fun _ _ => ends_bind (ends_act2str _ h) fun _ _ => ends_ok _

theorem uAt0_type (b : Bytes) (h : 4 ≤ b.length) : typeField b = uAt b 0 2 := by
  match b, h with
  | a0 :: a1 :: a2 :: a3 :: r, _ =>
    simp [typeField, uAt, slice, beVal]

theorem ends_inst2strOne (b : Bytes) (h4 : 4 < b.length)
    (h : typeField b = 3 ∨ typeField b = 4 → LenWalk ((b.take (lenField b)).drop 8)) :
    Ends (inst2strOne b) := by
  rw [uAt0_type b (by omega), lenField_uAt b (by omega)] at h
  unfold inst2strOne
  dsimp only
  split
  · ends_dec
  split
  · ends_dec
  split
  · rename_i ht
    exact ends_instActions _ _ _ (h (Or.inl (by simpa [OFPIT_WRITE_ACTIONS] using ht)))
  split
  · rename_i ht
    exact ends_instActions _ _ _ (h (Or.inr (by simpa [OFPIT_APPLY_ACTIONS] using ht)))
  ends_dec

theorem ends_inst2strGo (b : Bytes) (hw : InstWalk b) :
    ∀ fuel, b.length < fuel → Ends (inst2strGo fuel b) := by
  induction hw with
  | done b h =>
    intro fuel hf
    cases fuel with
    | zero => omega
    | succ f => rw [inst2strGo, if_pos h]; exact ends_ok _
  | step b h1 h2 h3 _ ih =>
    intro fuel hf
    cases fuel with
    | zero => omega
    | succ f =>
      rw [inst2strGo, if_neg (by omega)]
      refine ends_bind (ends_inst2strOne _ h1 h3) fun _ _ => ?_
      rw [lenField_uAt b (by omega)] at h2 ih
      refine ends_bind (ih _ ?_) fun _ _ => ends_ok _
      simp only [List.length_drop]
      omega

theorem ends_inst2str (b : Bytes) (hw : InstWalk b) : Ends (inst2str b) :=
  ends_bind (ends_inst2strGo b hw _ (by omega)) fun _ _ => ends_ok _

/-- A round that succeeds and does not advance never ends. -/
theorem act2strGo_stuck (b : Bytes) (t : Str) (h4 : 4 < b.length) (h0 : uAt b 2 2 = 0)
    (h : act2strOne b = .ok t) : ∀ fuel, act2strGo fuel b = .error .loops := by
  intro fuel
  induction fuel with
  | zero => rfl
  | succ f ih =>
    rw [act2strGo, if_neg (by omega), h, h0, List.drop_zero, ih]
    rfl

theorem inst2strGo_stuck (b : Bytes) (t : List Str) (h4 : 4 < b.length) (h0 : uAt b 2 2 = 0)
    (h : inst2strOne b = .ok t) : ∀ fuel, inst2strGo fuel b = .error .loops := by
  intro fuel
  induction fuel with
  | zero => rfl
  | succ f ih =>
    rw [inst2strGo, if_neg (by omega), h, h0, List.drop_zero, ih]
    rfl

theorem act2strOne_unknown (b : Bytes) (h : uAt b 0 2 ∉ [0, 11, 12, 15, 16, 17, 18, 19, 20, 21, 22, 23,
    24, 25, 26, 27, 0xffff]) : act2strOne b = .ok t!"?" := by
  simp only [List.mem_cons, List.not_mem_nil, not_or, or_false] at h
  have hk : actKey b = .ok (.std (uAt b 0 2), 4) := by
    unfold actKey
    dsimp only
    rw [if_neg (by simp [OFPAT_EXPERIMENTER]; omega)]
  have hl : lookupActDec (.std (uAt b 0 2)) = none := by
    unfold lookupActDec act2strTable
    simp only [List.find?, Option.map_eq_none_iff]
    generalize uAt b 0 2 = n at h
    have e : ∀ m, n ≠ m → (ActKey.std m == ActKey.std n) = false := by
      intro m hm; simp; omega
    have e2 : ∀ m, (ActKey.nx m == ActKey.std n) = false := by intro m; simp
    rw [e 0 (by omega), e 11 (by omega), e 12 (by omega), e 15 (by omega), e 16 (by omega),
      e 17 (by omega), e 18 (by omega), e 19 (by omega), e 20 (by omega), e 21 (by omega),
      e 22 (by omega), e 23 (by omega), e 24 (by omega), e 26 (by omega), e 27 (by omega)]
    simp only [e2]
  unfold act2strOne
  dsimp only
  rw [hk]
  show (if (uAt b 0 2 == OFPAT_SET_FIELD) = true then _ else _) = _
  rw [if_neg (by simp [OFPAT_SET_FIELD]; omega), hl]

theorem str2actG_empty_call (ox : Str → Py (Bytes × Nat))
    (run : ActEnc → Str → Bool → Py (Bytes × Nat)) (g : Bytes → Py Bytes) (h name r : Str) (hh : Head h) (hc : Clean name) (hn : name ≠ [])
    (hr : AtEnd r) (hs : startsWith name t!"set_" = false) (hl : 4 ≤ name.length) :
    str2actG ox run g (h ++ ((name ++ t!"()") ++ r)) = .ok ([], h.length) := by
  have hg := getToken_call h name [] r hh hc hn (.nil _) hr
  have hp := parseFunc_paren name [] hc (.nil _)
  have hb : lookupAct (name ++ t!"()") = none := lookupAct_bracket name [')'] '(' (by decide)
  have hs' : startsWith (name ++ t!"()") t!"set_" = false := by
    match name, hl with
    | a :: b :: c :: d :: t, _ =>
      revert hs
      simp [startsWith, List.isPrefixOf]
  simp only [List.append_assoc, List.cons_append, List.nil_append] at hg hp hb hs'
  unfold str2actG
  simp only [List.append_assoc, List.cons_append, List.nil_append]
  rw [hg]
  dsimp only
  rw [hp]
  simp only [bind, Except.bind]
  rw [hb]
  dsimp only
  rw [hs']
  rfl

theorem str2act_empty_call (h name r : Str) (hh : Head h) (hc : Clean name) (hn : name ≠ [])
    (hr : AtEnd r) (hs : startsWith name t!"set_" = false) (hl : 4 ≤ name.length) :
    str2act (h ++ ((name ++ t!"()") ++ r)) = .ok ([], h.length) :=
  (str2act_G _).trans (str2actG_empty_call str2oxm1 runActEnc setFieldAct h name r hh hc hn hr hs hl)

end Ofpstr
