import Verif.Spec.Multipart
import Verif.Lemmas.ActEnds
import Verif.Lemmas.FlowTrip

/-!
# Decoding of multipart messages ends
-/

namespace Ofpstr
open Spec

theorem word16_uAt (b : Bytes) (i : Nat) (h : i + 2 ≤ b.length) : word16 b i = uAt b i 2 := by
  unfold word16 uAt slice
  have h1 : (b.take (i + 2)).drop i = [b[i]'(by omega), b[i + 1]'(by omega)] := by
    apply List.ext_getElem
    · simp; omega
    · intro n h1 h2
      simp at h2
      rcases n with _ | _ | n
      · simp
      · simp
      · omega
  rw [h1]
  simp [beVal, List.getD_eq_getElem?_getD, List.getElem?_eq_getElem (show i < b.length by omega),
    List.getElem?_eq_getElem (show i + 1 < b.length by omega)]

theorem byte_uAt (b : Bytes) (i : Nat) (h : i < b.length) : (b.getD i 0).toNat = uAt b i 1 := by
  unfold uAt slice
  have h1 : (b.take (i + 1)).drop i = [b[i]] := by
    apply List.ext_getElem
    · simp; omega
    · intro n h1 h2
      simp at h2
      subst h2
      simp
  rw [h1]
  simp [beVal, List.getD_eq_getElem?_getD, List.getElem?_eq_getElem h]

theorem roundUp8_align8 (n : Nat) : roundUp8 n = align8 n := rfl

/-! ## Flow statistics -/

theorem ends_statText (b : Bytes) (h : InstWalk (slice b (48 + align8 (uAt b 50 2)) (uAt b 0 2))) :
    Ends (statText b) := by
  unfold statText
  dsimp only
  split
  · exact ends_bind (ends_oxm2str _) fun _ _ => ends_bind (ends_inst2str _ h) fun _ _ => ends_ok _
  · exact ends_error (by decide)

theorem ends_statsGo (b : Bytes) (hw : FlowWalk b) : ∀ fuel, b.length < fuel → Ends (statsGo fuel b) := by
  induction hw with
  | done b h =>
    intro fuel hf
    cases fuel with
    | zero => omega
    | succ f => rw [statsGo, if_pos h]; exact ends_ok _
  | step b h1 h2 h3 _ ih =>
    intro fuel hf
    cases fuel with
    | zero => omega
    | succ f =>
      rw [statsGo, if_neg (by omega)]
      rw [word16_uAt b 0 (by omega)] at h2 h3 ih
      rw [word16_uAt b 50 (by omega)] at h3
      refine ends_bind (ends_statText _ h3) fun _ _ => ends_bind (ih _ ?_) fun _ _ => ends_ok _
      simp only [List.length_drop]
      omega

theorem ends_mpflowOne (msg : Bytes) (h : uAt msg 1 1 = 19 → FlowWalk (slice msg 16 (uAt msg 2 2))) :
    Ends (mpflow2textOne msg) := by
  unfold mpflow2textOne
  refine ends_bind (ends_needBytes _ _ _) fun _ _ => ends_bind (ends_pyAssert _) fun _ _ => ?_
  dsimp only
  split
  · refine ends_bind (ends_needBytes _ _ _) fun _ _ => ?_
    split
    · exact ends_bind (ends_oxm2str _) fun _ _ => ends_error (by decide)
    · exact ends_error (by decide)
  · rename_i ht
    refine ends_statsGo _ (h ?_) _ (by omega)
    simpa [OFPT_MULTIPART_REPLY] using ht

/-! ## Messages -/

theorem needBytes_err (b : Bytes) (off size : Nat) (h : ¬ off + size ≤ b.length) :
    needBytes b off size = .error .structError := by
  unfold needBytes; rw [if_neg h]

theorem ends_msgsGo (one : Bytes → Py (List Str)) (walk : Bytes → Prop)
    (hshort : ∀ b, b.length < 16 → Ends (one b))
    (hone : ∀ msg, 16 ≤ msg.length → (uAt msg 1 1 = 19 → walk (slice msg 16 (uAt msg 2 2))) → Ends (one msg))
    (b : Bytes) (hw : MsgWalk walk b) (hbad : ∀ m, m.length < 16 → ∀ r, one m ≠ .ok r) :
    ∀ fuel, b.length < fuel → Ends (msgsGo one fuel b) := by
  have short : ∀ (b : Bytes) fuel, (b.length < 16 ∨ uAt b 2 2 < 16) → b.length < fuel → Ends (msgsGo one fuel b) := by
    intro b fuel hs hf
    cases fuel with
    | zero => omega
    | succ f =>
      rw [msgsGo]
      split
      · exact ends_ok _
      refine ends_bind (ends_needBytes _ _ _) fun _ _ => ?_
      dsimp only
      have hl : (b.take (uAt b 2 2)).length < 16 := by rw [List.length_take]; omega
      refine ends_bind (hshort _ hl) fun r hr => ?_
      exact absurd hr (hbad _ hl r)
  induction hw with
  | done b h => exact fun fuel hf => short b fuel (Or.inl h) hf
  | short b h1 h2 =>
    rw [word16_uAt b 2 (by omega)] at h2
    exact fun fuel hf => short b fuel (Or.inr h2) hf
  | step b h1 h2 h3 _ ih =>
    rw [word16_uAt b 2 (by omega)] at h2 h3 ih
    rw [byte_uAt b 1 (by omega)] at h3
    intro fuel hf
    cases fuel with
    | zero => omega
    | succ f =>
      rw [msgsGo]
      split
      · exact ends_ok _
      refine ends_bind (ends_needBytes _ _ _) fun _ _ => ?_
      dsimp only
      refine ends_bind ?_ fun _ _ => ends_bind (ih f ?_) fun _ _ => ends_ok _
      · by_cases hl : (b.take (uAt b 2 2)).length < 16
        · exact hshort _ hl
        · refine hone _ (by omega) ?_
          have e : ∀ i k, i + k ≤ 16 → uAt (b.take (uAt b 2 2)) i k = uAt b i k := by
            intro i k hk
            unfold uAt slice
            rw [List.take_take, Nat.min_eq_left (by unfold uAt slice at h2; omega)]
          rw [e 1 1 (by omega), e 2 2 (by omega)]
          intro ht
          have := h3 ht
          unfold slice
          rwa [List.take_take, Nat.min_self]
      · rw [List.length_drop]; omega

theorem ends_mpflow2text (b : Bytes) (hw : MsgWalk FlowWalk b) : Ends (mpflow2text b) := by
  refine ends_bind (ends_msgsGo _ FlowWalk ?_ (fun msg _ => ends_mpflowOne msg) b hw ?_ _ (by omega)) fun _ _ => ends_ok _
  · intro m hm
    unfold mpflow2textOne
    rw [needBytes_err _ _ _ (by omega)]
    exact ends_error (by decide)
  · intro m hm r
    unfold mpflow2textOne
    rw [needBytes_err _ _ _ (by omega)]
    intro h; cases h

/-! ## Group descriptions -/

theorem ends_bucket2str (type : Nat) (b : Bytes) (h : LenWalk (slice b 16 (uAt b 0 2))) : Ends (bucket2str type b) := by
  unfold bucket2str
  refine ends_bind (ends_needBytes _ _ _) fun _ _ => ?_
  dsimp only
  exact ends_bind (ends_act2str _ h) fun _ _ => ends_ok _

theorem uAt_take (b : Bytes) (l i k : Nat) (h : i + k ≤ l) : uAt (b.take l) i k = uAt b i k := by
  unfold uAt slice
  rw [List.take_take, Nat.min_eq_left h]

theorem ends_bucketsText (type minLen : Nat) (hm : 16 ≤ minLen) (b : Bytes) (hw : BucketWalk b) :
    ∀ fuel, b.length < fuel → Ends (bucketsText type minLen fuel b) := by
  induction hw with
  | done b h =>
    intro fuel hf
    cases fuel with
    | zero => omega
    | succ f => rw [bucketsText, if_pos (by omega)]; exact ends_ok _
  | short b h1 h2 =>
    rw [word16_uAt b 0 (by omega)] at h2
    intro fuel hf
    cases fuel with
    | zero => omega
    | succ f =>
      rw [bucketsText]
      split
      · exact ends_ok _
      dsimp only
      unfold bucket2str
      rw [needBytes_err _ _ _ (by rw [List.length_take]; omega)]
      exact ends_error (by decide)
  | step b h1 h2 h3 _ ih =>
    rw [word16_uAt b 0 (by omega)] at h2 h3 ih
    intro fuel hf
    cases fuel with
    | zero => omega
    | succ f =>
      rw [bucketsText]
      split
      · exact ends_ok _
      dsimp only
      refine ends_bind (ends_bucket2str _ _ ?_) fun _ _ => ends_bind (ih f ?_) fun _ _ => ends_ok _
      · rw [uAt_take _ _ _ _ (by omega)]
        unfold slice
        rwa [List.take_take, Nat.min_self]
      · rw [List.length_drop]; omega

theorem ends_descsText (b : Bytes) (hw : DescWalk b) : ∀ fuel, b.length < fuel → Ends (descsText fuel b) := by
  induction hw with
  | done b h =>
    intro fuel hf
    cases fuel with
    | zero => omega
    | succ f => rw [descsText, if_pos (by omega)]; exact ends_ok _
  | short b h1 h2 =>
    rw [word16_uAt b 0 (by omega)] at h2
    intro fuel hf
    cases fuel with
    | zero => omega
    | succ f =>
      rw [descsText, if_neg (by omega)]
      dsimp only
      rw [show pyAssert (decide (uAt b 0 2 ≥ 8)) = .error .assertionError by
        rw [decide_eq_false (by omega)]; rfl]
      exact ends_error (by decide)
  | step b h1 h2 h3 _ ih =>
    rw [word16_uAt b 0 (by omega)] at h2 h3 ih
    intro fuel hf
    cases fuel with
    | zero => omega
    | succ f =>
      rw [descsText, if_neg (by omega)]
      dsimp only
      refine ends_bind (ends_pyAssert _) fun _ _ => ends_bind (ends_tupleGet _ _) fun _ _ =>
        ends_bind (ends_bucketsText _ 16 (by omega) _ h3 _ ?_) fun _ _ => ends_bind (ih f ?_) fun _ _ => ends_ok _
      · rw [List.length_drop, List.length_take]; omega
      · rw [List.length_drop]; omega

theorem ends_descOne (msg : Bytes) (h : uAt msg 1 1 = 19 → DescWalk (slice msg 16 (uAt msg 2 2))) :
    Ends (mpgroupdesc2textOne msg) := by
  unfold mpgroupdesc2textOne
  refine ends_bind (ends_needBytes _ _ _) fun _ _ => ends_bind (ends_pyAssert _) fun _ _ => ?_
  dsimp only
  split
  · exact ends_ok _
  · rename_i ht
    refine ends_descsText _ (h ?_) _ (by omega)
    simpa [OFPT_MULTIPART_REPLY] using ht

theorem ends_mpgroupdesc2text (b : Bytes) (hw : MsgWalk DescWalk b) : Ends (mpgroupdesc2text b) := by
  refine ends_bind (ends_msgsGo _ DescWalk ?_ (fun msg _ => ends_descOne msg) b hw ?_ _ (by omega)) fun _ _ => ends_ok _
  · intro m hm
    unfold mpgroupdesc2textOne
    rw [needBytes_err _ _ _ (by omega)]
    exact ends_error (by decide)
  · intro m hm r
    unfold mpgroupdesc2textOne
    rw [needBytes_err _ _ _ (by omega)]
    intro h; cases h

/-! ## Group statistics -/

theorem ends_bucketStatsText : ∀ (fuel : Nat) (b : Bytes), b.length < fuel → Ends (bucketStatsText fuel b)
  | 0, _, h => by omega
  | f + 1, b, h => by
    rw [bucketStatsText]
    split
    · exact ends_ok _
    · refine ends_bind (ends_bucketStatsText f _ ?_) fun _ _ => ends_ok _
      rw [List.length_drop]; omega

theorem ends_groupStatsText : ∀ (fuel : Nat) (b : Bytes), b.length < fuel → Ends (groupStatsText fuel b)
  | 0, _, h => by omega
  | f + 1, b, h => by
    rw [groupStatsText]
    split
    · exact ends_ok _
    dsimp only
    refine ends_bind (ends_pyAssert _) fun _ ha => ends_bind (ends_bucketStatsText _ _ ?_) fun _ _ =>
      ends_bind (ends_groupStatsText f _ ?_) fun _ _ => ends_ok _
    · rw [slice, List.length_drop, List.length_take]; omega
    · have : 40 ≤ uAt b 0 2 := by
        unfold pyAssert at ha
        split at ha
        · rename_i h; simpa using h
        · cases ha
      rw [List.length_drop]; omega

theorem ends_groupOne (msg : Bytes) : Ends (mpgroup2textOne msg) := by
  unfold mpgroup2textOne
  refine ends_bind (ends_needBytes _ _ _) fun _ _ => ends_bind (ends_pyAssert _) fun _ _ => ?_
  dsimp only
  split
  · refine ends_bind (ends_needBytes _ _ _) fun _ _ => ?_
    split
    · exact ends_ok _
    · split <;> exact ends_ok _
  · exact ends_groupStatsText _ _ (by omega)

theorem msgWalk_all (b : Bytes) : MsgWalk (fun _ => True) b := by
  generalize hn : b.length = n
  induction n using Nat.strong_induction_on generalizing b with
  | _ n ih =>
    by_cases h1 : b.length < 16
    · exact .done b h1
    by_cases h2 : word16 b 2 < 16
    · exact .short b (by omega) h2
    · exact .step b (by omega) (by omega) (fun _ => trivial) (ih (b.drop (word16 b 2)).length (by
        rw [List.length_drop]; omega) _ rfl)

theorem ends_mpgroup2text (b : Bytes) : Ends (mpgroup2text b) := by
  refine ends_bind (ends_msgsGo _ (fun _ => True) ?_ (fun msg _ _ => ends_groupOne msg) b (msgWalk_all b) ?_ _ (by omega)) fun _ _ => ends_ok _
  · intro m hm
    unfold mpgroup2textOne
    rw [needBytes_err _ _ _ (by omega)]
    exact ends_error (by decide)
  · intro m hm r
    unfold mpgroup2textOne
    rw [needBytes_err _ _ _ (by omega)]
    intro h; cases h

/-! ## Zero lengths -/

theorem statsGo_stuck (b : Bytes) (t : Str) (h : 56 ≤ b.length) (h0 : uAt b 0 2 = 0) (ht : statText b = .ok t) :
    ∀ fuel, statsGo fuel b = .error .loops := by
  intro fuel
  induction fuel with
  | zero => rfl
  | succ f ih => rw [statsGo, if_neg (by omega), ht, h0, List.drop_zero, ih]; rfl

end Ofpstr
