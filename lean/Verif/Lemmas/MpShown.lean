import Verif.Lemmas.StatShown

/-!
# Printed group statistics and messages
-/

namespace Ofpstr
open Spec

set_option linter.unusedSimpArgs false

/-! ## Group statistics -/

theorem bucketStats_step (fuel p n : Nat) (r : Bytes) (hp : p < 2 ^ 64) (hn : n < 2 ^ 64) :
    bucketStatsText (fuel + 1) (u64 p ++ (u64 n ++ r)) = bucketStatsText fuel r >>= fun rest =>
      .ok (t!"@bucket" :: (countTok t!"packet_count" p ++ (countTok t!"byte_count" n ++ rest))) := by
  generalize hw : u64 p ++ (u64 n ++ r) = w
  have e0 : uAt w 0 8 = p := by rw [← hw]; uat
  have e8 : uAt w 8 8 = n := by rw [← hw]; uat
  have hd : w.drop 16 = r := by
    rw [← hw, ← List.append_assoc]
    exact drop_pre _ r 16 (by simp [u64_length])
  have hl : 16 ≤ w.length := by rw [← hw]; simp [u64_length]; omega
  conv => lhs; unfold bucketStatsText
  rw [if_neg (by omega), hd, e0, e8]

theorem bucketStats_shown : ∀ (fuel : Nat) (b : Bytes), b.length < fuel → ∃ ts, bucketStatsText fuel b = .ok ts ∧
    (∀ ts', BucketCounts b ts' ↔ ts' = ts) := by
  intro fuel
  induction fuel with
  | zero => intro b h; omega
  | succ fuel ih =>
    intro b hb
    by_cases hl : b.length < 16
    · refine ⟨[], by unfold bucketStatsText; rw [if_pos hl], fun ts' => ⟨fun h => ?_, ?_⟩⟩
      · cases h with
        | done _ _ => rfl
        | more p n r a c ts => exact absurd hl (by simp [u64_length]; omega)
      · rintro rfl; exact .done _ hl
    · obtain ⟨p, r, h1, rfl⟩ := cut64 b (by omega)
      rw [List.length_append, u64_length] at hl hb
      obtain ⟨n, r, h2, rfl⟩ := cut64 r (by omega)
      rw [List.length_append, u64_length] at hl hb
      obtain ⟨ts, h3, h4⟩ := ih r (by omega)
      refine ⟨_, by rw [bucketStats_step fuel p n r h1 h2, h3, ok_bind], fun ts' => ⟨fun h => ?_, ?_⟩⟩
      · generalize hw : u64 p ++ (u64 n ++ r) = w at h
        cases h with
        | done _ h => exact absurd h (by rw [← hw]; simp [u64_length]; omega)
        | more p' n' r' a c ts' g1 g2 g3 g4 g5 =>
          obtain ⟨q1, q2⟩ := List.append_inj hw (by rw [u64_length, u64_length])
          obtain ⟨q2, q3⟩ := List.append_inj q2 (by rw [u64_length, u64_length])
          have e1 : p' = p := by
            rw [← uAt_u64_here p' [] g1, ← uAt_u64_here p [] h1, q1]
          have e2 : n' = n := by
            rw [← uAt_u64_here n' [] g2, ← uAt_u64_here n [] h2, q2]
          subst e1 e2 q3
          rw [(count_iff _ _ _).1 g3, (count_iff _ _ _).1 g4, (h4 _).1 g5]
      · rintro rfl
        exact .more p n r _ _ _ h1 h2 ((count_iff _ _ _).2 rfl) ((count_iff _ _ _).2 rfl) ((h4 _).2 rfl)

theorem outcome_bucketStats (fuel : Nat) (b : Bytes) (h : b.length < fuel) :
    OutcomeOf (bucketStatsText fuel b) (BucketCounts b) (fun _ => False) := by
  obtain ⟨ts, h1, h2⟩ := bucketStats_shown fuel b h
  rw [h1]
  exact (OutcomeOf.pure ts).congr (fun a => (h2 a).symm) (fun _ => Iff.rfl)

/-- The row for a group and its counters. -/
def groupRow (gid : Nat) (stat : Str) : Str :=
  if gid == OFPG_ALL then t!"group=all " ++ stat
    else if gid == OFPG_ANY then stat
    else t!"group=" ++ (fmtD gid ++ ' ' :: stat)

theorem groupRow_eq (gid : Nat) (stat : Str) :
    groupRow gid stat = (if gid == OFPG_ALL then [t!"group=all"] else if gid == OFPG_ANY then [] else
      [t!"group=" ++ fmtD gid]).flatMap (· ++ t!" ") ++ stat := by
  unfold groupRow
  split
  · rfl
  · split
    · rfl
    · simp

/-- One entry of group statistics. -/
def groupStatOne (r : Bytes) : Py Str :=
  pyAssert (decide (uAt r 0 2 ≥ 40)) >>= fun _ => bucketStatsText (r.length + 1) (slice r 40 (uAt r 0 2)) >>= fun bs =>
    .ok (groupRow (uAt r 4 4) (joinStr t!"," (countTok t!"ref_count" (uAt r 8 4) ++
        (countTok t!"packet_count" (uAt r 16 8) ++ (countTok t!"byte_count" (uAt r 24 8) ++
        (countTok t!"duration_sec" (uAt r 32 4) ++
        (countTok t!"duration_nsec" (uAt r 36 4) ++ bs)))))))

theorem groupStat_parts (len : Nat) (x : Bytes) (gid ref : Nat) (y : Bytes) (packets bytes sec nsec : Nat) (r : Bytes)
    (h1 : len < 65536) (h2 : x.length = 2) (h3 : gid < 2 ^ 32) (h4 : ref < 2 ^ 32) (h5 : y.length = 4) (h6 : packets < 2 ^ 64)
    (h7 : bytes < 2 ^ 64) (h8 : sec < 2 ^ 32) (h9 : nsec < 2 ^ 32) :
    OutcomeOf (groupStatOne (u16 len ++ (x ++ (u32 gid ++ (u32 ref ++ (y ++ (u64 packets ++ (u64 bytes ++ (u32 sec ++
        (u32 nsec ++ r))))))))))
      (fun s => 40 ≤ len ∧ ∃ ts, BucketCounts (r.take (len - 40)) ts ∧ s = groupRow gid (joinStr t!"," (
        countTok t!"ref_count" ref ++ (countTok t!"packet_count" packets ++ (countTok t!"byte_count" bytes ++
        (countTok t!"duration_sec" sec ++ (countTok t!"duration_nsec" nsec ++ ts)))))))
      (fun e => len < 40 ∧ e = .assertionError) := by
  generalize hw : u16 len ++ (x ++ (u32 gid ++ (u32 ref ++ (y ++ (u64 packets ++ (u64 bytes ++ (u32 sec ++
        (u32 nsec ++ r)))))))) = w
  have e0 : uAt w 0 2 = len := by rw [← hw]; uat
  have e4 : uAt w 4 4 = gid := by
    rw [← hw, uAt_u16 _ _ _ _ (by omega), uAt_skip_list _ _ _ _ _ h2 (by omega)]; uat
  have e8 : uAt w 8 4 = ref := by
    rw [← hw, uAt_u16 _ _ _ _ (by omega), uAt_skip_list _ _ _ _ _ h2 (by omega)]; uat
  have ey : ∀ off size, 16 ≤ off → uAt w off size = uAt (u64 packets ++ (u64 bytes ++ (u32 sec ++ (u32 nsec ++ r)))) (off - 16) size := by
    intro off size ho
    rw [← hw, uAt_u16 _ _ _ _ (by omega), uAt_skip_list _ _ _ _ _ h2 (by omega), uAt_u32 _ _ _ _ (by omega),
      uAt_u32 _ _ _ _ (by omega), uAt_skip_list _ _ _ _ _ h5 (by omega)]
    congr 1
  have e16 : uAt w 16 8 = packets := by rw [ey _ _ (by omega)]; uat
  have e24 : uAt w 24 8 = bytes := by rw [ey _ _ (by omega)]; uat
  have e32 : uAt w 32 4 = sec := by rw [ey _ _ (by omega)]; uat
  have e36 : uAt w 36 4 = nsec := by rw [ey _ _ (by omega)]; uat
  have hs : slice w 40 len = r.take (len - 40) := by
    unfold slice
    rw [List.drop_take, ← hw,
      show u16 len ++ (x ++ (u32 gid ++ (u32 ref ++ (y ++ (u64 packets ++ (u64 bytes ++ (u32 sec ++ (u32 nsec ++ r)))))))) =
        (u16 len ++ (x ++ (u32 gid ++ (u32 ref ++ (y ++ (u64 packets ++ (u64 bytes ++ (u32 sec ++ u32 nsec)))))))) ++ r by
        simp only [List.append_assoc],
      drop_pre _ r 40 (by simp [u16_length, u32_length, u64_length, h2, h5])]
  have hl : r.length < w.length + 1 := by
    rw [← hw]
    simp only [List.length_append]
    omega
  unfold groupStatOne
  rw [e0, e4, e8, e16, e24, e32, e36, hs]
  refine ((outcome_assert _).bind fun _ _ => (outcome_bucketStats _ (r.take (len - 40))
    (by rw [List.length_take]; omega)).map (f := fun bs => groupRow gid (joinStr t!"," (
        countTok t!"ref_count" ref ++ (countTok t!"packet_count" packets ++ (countTok t!"byte_count" bytes ++
        (countTok t!"duration_sec" sec ++ (countTok t!"duration_nsec" nsec ++ bs)))))))).congr (fun s => ?_) (fun e => ?_)
  · constructor
    · rintro ⟨_, hl, ts, h, rfl⟩
      exact ⟨of_decide_eq_true hl, ts, h, rfl⟩
    · rintro ⟨hl, ts, h, rfl⟩
      exact ⟨(), decide_eq_true hl, ts, h, rfl⟩
  · constructor
    · rintro (⟨h, rfl⟩ | ⟨_, _, h⟩)
      · exact ⟨by have := of_decide_eq_false h; omega, rfl⟩
      · exact h.elim
    · rintro ⟨h, rfl⟩
      exact Or.inl ⟨decide_eq_false (by omega), rfl⟩

theorem cut_groupStat (b : Bytes) (h : 40 ≤ b.length) : ∃ (len : Nat) (x : Bytes) (gid ref : Nat) (y : Bytes)
    (packets bytes sec nsec : Nat) (r : Bytes), len < 65536 ∧ x.length = 2 ∧ gid < 2 ^ 32 ∧ ref < 2 ^ 32 ∧ y.length = 4 ∧
    packets < 2 ^ 64 ∧ bytes < 2 ^ 64 ∧ sec < 2 ^ 32 ∧ nsec < 2 ^ 32 ∧
    b = u16 len ++ (x ++ (u32 gid ++ (u32 ref ++ (y ++ (u64 packets ++ (u64 bytes ++ (u32 sec ++ (u32 nsec ++ r)))))))) := by
  obtain ⟨len, r, h1, rfl⟩ := cut16 b (by omega)
  rw [List.length_append, u16_length] at h
  obtain ⟨x, r, h2, rfl⟩ := cut_list 2 r (by omega)
  rw [List.length_append, h2] at h
  obtain ⟨gid, r, h3, rfl⟩ := cut32 r (by omega)
  rw [List.length_append, u32_length] at h
  obtain ⟨ref, r, h4, rfl⟩ := cut32 r (by omega)
  rw [List.length_append, u32_length] at h
  obtain ⟨y, r, h5, rfl⟩ := cut_list 4 r (by omega)
  rw [List.length_append, h5] at h
  obtain ⟨packets, r, h6, rfl⟩ := cut64 r (by omega)
  rw [List.length_append, u64_length] at h
  obtain ⟨bytes, r, h7, rfl⟩ := cut64 r (by omega)
  rw [List.length_append, u64_length] at h
  obtain ⟨sec, r, h8, rfl⟩ := cut32 r (by omega)
  rw [List.length_append, u32_length] at h
  obtain ⟨nsec, r, h9, rfl⟩ := cut32 r (by omega)
  exact ⟨len, x, gid, ref, y, packets, bytes, sec, nsec, r, h1, h2, h3, h4, h5, h6, h7, h8, h9, rfl⟩

theorem outcome_groupStat (b : Bytes) (hb : 40 ≤ b.length) :
    OutcomeOf (groupStatOne b) (GroupStatPrinted b) (GroupStatFails b) := by
  refine ⟨?_, ?_, ?_⟩
  · intro s h
    cases h with
    | mk len x gid ref y packets bytes sec nsec r g a b c d e ts h1 h2 h3 h4 h5 h6 h7 h8 h9 h10 h11 h12 h13 h14 h15 h16 h17 =>
      refine (groupStat_parts len x gid ref y packets bytes sec nsec r h1 h3 h4 h5 h6 h7 h8 h9 h10).1 _ ⟨h2, ts, h17, ?_⟩
      rw [groupRow_eq, (gidPrinted_iff _ _).1 h11, (count_iff _ _ _).1 h12, (count_iff _ _ _).1 h13, (count_iff _ _ _).1 h14,
        (count_iff _ _ _).1 h15, (count_iff _ _ _).1 h16]
  · intro e h
    generalize hw : b = w at h
    cases h with
    | len len r h =>
      obtain ⟨len', x, gid, ref, y, packets, bytes, sec, nsec, r', h1, h2, h3, h4, h5, h6, h7, h8, h9, rfl⟩ := cut_groupStat b hb
      obtain ⟨q1, _⟩ := List.append_inj hw (by rw [u16_length, u16_length])
      have e1 : len' = len := by
        have a1 := uAt_u16_here len' [] h1
        have a2 := uAt_u16_here len [] (by omega)
        rw [q1, a2] at a1
        exact a1.symm
      have hlt : len' < 40 := by rw [e1]; exact h
      have k := (groupStat_parts len' x gid ref y packets bytes sec nsec r' h1 h2 h3 h4 h5 h6 h7 h8 h9).2.1 .assertionError
      rw [← hw]; exact k ⟨hlt, rfl⟩
  · obtain ⟨len, x, gid, ref, y, packets, bytes, sec, nsec, r, h1, h2, h3, h4, h5, h6, h7, h8, h9, rfl⟩ := cut_groupStat b hb
    rcases (groupStat_parts len x gid ref y packets bytes sec nsec r h1 h2 h3 h4 h5 h6 h7 h8 h9).2.2 with
      ⟨s, hl, ts, h, _⟩ | ⟨e, h, _⟩
    · exact Or.inl ⟨_, .mk len x gid ref y packets bytes sec nsec r _ _ _ _ _ _ ts h1 hl h2 h3 h4 h5 h6 h7 h8 h9
        ((gidPrinted_iff _ _).2 rfl) ((count_iff _ _ _).2 rfl) ((count_iff _ _ _).2 rfl) ((count_iff _ _ _).2 rfl)
        ((count_iff _ _ _).2 rfl) ((count_iff _ _ _).2 rfl) h⟩
    · exact Or.inr ⟨_, .len len _ h⟩

theorem outcome_groupStats (fuel : Nat) (b : Bytes) (hf : b.length < fuel) :
    OutcomeOf (groupStatsText fuel b) (Parts 40 (word16 · 0) GroupStatPrinted b)
      (PartsFail 40 (word16 · 0) GroupStatPrinted GroupStatFails b) := by
  have h := outcome_loop (least := 40) (len := (word16 · 0)) (one := groupStatOne)
    (f := fun s => [s]) (go := groupStatsText) (fun _ => rfl)
    (fun n b h => by unfold groupStatsText; rw [if_pos h])
    (fun n b h => by
      conv => lhs; unfold groupStatsText
      rw [if_neg (by omega), word16_uAt b 0 (by omega)]
      dsimp only
      unfold groupStatOne
      simp only [bind_assoc', ok_bind]
      rfl)
    (by omega) (fun b hb => outcome_groupStat b hb) fuel b hf
  refine h.congr (fun l => ?_) (fun e => Iff.rfl)
  constructor
  · rintro ⟨xs, h, rfl⟩; rw [flatMap_one]; exact h
  · intro h; exact ⟨l, h, by rw [flatMap_one]⟩

/-! ## Messages -/

theorem cut_mp (b : Bytes) (h : 16 ≤ b.length) : ∃ (v t : UInt8) (len : Nat) (x : Bytes) (k : Nat) (y r : Bytes), len < 65536 ∧
    x.length = 4 ∧ k < 65536 ∧ y.length = 6 ∧ b = v :: t :: (u16 len ++ (x ++ (u16 k ++ (y ++ r)))) := by
  obtain ⟨v, t, r, rfl⟩ := cut8 b (by omega)
  simp only [List.length_cons] at h
  obtain ⟨len, r, h1, rfl⟩ := cut16 r (by omega)
  rw [List.length_append, u16_length] at h
  obtain ⟨x, r, h2, rfl⟩ := cut_list 4 r (by omega)
  rw [List.length_append, h2] at h
  obtain ⟨k, r, h3, rfl⟩ := cut16 r (by omega)
  rw [List.length_append, u16_length] at h
  obtain ⟨y, r, h4, rfl⟩ := cut_list 6 r (by omega)
  exact ⟨v, t, len, x, k, y, r, h1, h2, h3, h4, rfl⟩

theorem mp_at (v t : UInt8) (len : Nat) (x : Bytes) (k : Nat) (y r : Bytes) (h1 : len < 65536) (h2 : x.length = 4) (h3 : k < 65536)
    (h4 : y.length = 6) (w : Bytes) (hw : w = v :: t :: (u16 len ++ (x ++ (u16 k ++ (y ++ r))))) :
    uAt w 1 1 = t.toNat ∧ uAt w 2 2 = len ∧ uAt w 8 2 = k ∧ w.length = 16 + r.length ∧ w.drop 16 = r := by
  subst hw
  refine ⟨?_, ?_, ?_, ?_, ?_⟩
  · uatl h2
  · uatl h2
  · uatl h2
  · simp [u16_length, h2, h4]; omega
  · rw [show v :: t :: (u16 len ++ (x ++ (u16 k ++ (y ++ r)))) = (v :: t :: (u16 len ++ (x ++ (u16 k ++ y)))) ++ r by simp]
    exact drop_pre _ r 16 (by simp [u16_length, h2, h4])

/-- The frame the readers of one message share. -/
theorem outcome_frame {kind : Nat} {one : Bytes → Py (List Str)} {reply : Bytes → Py (List Str)} {other : Bytes → Py (List Str)}
    {R : Bytes → List Str → Prop} {RF : Bytes → Err → Prop} {S : Nat → Bytes → List Str → Prop} {SF : Nat → Bytes → Err → Prop}
    (hk : kind < 65536)
    (h : ∀ b, one b = needBytes b 0 16 >>= fun _ => pyAssert (uAt b 8 2 == kind) >>= fun _ =>
      if uAt b 1 1 = 19 then reply (slice b 16 (uAt b 2 2)) else other b)
    (hR : ∀ b, OutcomeOf (reply b) (R b) (RF b))
    (hS : ∀ b, 16 ≤ b.length → OutcomeOf (other b) (S (uAt b 2 2) (b.drop 16)) (SF (uAt b 2 2) (b.drop 16))) (b : Bytes) :
    OutcomeOf (one b) (MpPrinted kind R S b) (MpFails kind RF SF b) := by
  have hr : ∀ (v : UInt8) (len : Nat) (x y r : Bytes), len < 65536 → x.length = 4 → y.length = 6 →
      OutcomeOf (one (v :: 19 :: (u16 len ++ (x ++ (u16 kind ++ (y ++ r)))))) (R (r.take (len - 16))) (RF (r.take (len - 16))) := by
    intro v len x y r h1 h2 h3
    generalize hw : v :: 19 :: (u16 len ++ (x ++ (u16 kind ++ (y ++ r)))) = w
    obtain ⟨e1, e2, e3, e4, e5⟩ := mp_at v 19 len x kind y r h1 h2 hk h3 w hw.symm
    rw [h, need_ok _ _ _ (by omega), ok_bind, e3, beq_self_eq_true]
    have e6 : slice w 16 len = r.take (len - 16) := by
      unfold slice
      rw [List.drop_take, e5]
    have ha : pyAssert true = .ok () := rfl
    rw [ha, ok_bind, e1, if_pos (show UInt8.toNat 19 = 19 from rfl), e2, e6]
    exact hR _
  have ho : ∀ (v t : UInt8) (len : Nat) (x y r : Bytes), t ≠ 19 → len < 65536 → x.length = 4 → y.length = 6 →
      OutcomeOf (one (v :: t :: (u16 len ++ (x ++ (u16 kind ++ (y ++ r)))))) (S len r) (SF len r) := by
    intro v t len x y r ht h1 h2 h3
    generalize hw : v :: t :: (u16 len ++ (x ++ (u16 kind ++ (y ++ r)))) = w
    obtain ⟨e1, e2, e3, e4, e5⟩ := mp_at v t len x kind y r h1 h2 hk h3 w hw.symm
    have ht' : ¬ t.toNat = 19 := fun h => ht (UInt8.toNat_inj.1 h)
    rw [h, need_ok _ _ _ (by omega), ok_bind, e3, beq_self_eq_true]
    have ha : pyAssert true = .ok () := rfl
    rw [ha, ok_bind, e1, if_neg ht']
    have := hS w (by omega)
    rwa [e2, e5] at this
  have hf : ∀ (x : Bytes) (k : Nat) (r : Bytes), x.length = 8 → 6 ≤ r.length → k < 65536 → k ≠ kind →
      one (x ++ (u16 k ++ r)) = .error .assertionError := by
    intro x k r h1 h2 h3 h4
    have e : uAt (x ++ (u16 k ++ r)) 8 2 = k := by uatl h1
    rw [h, need_ok _ _ _ (by simp [u16_length, h1]; omega), ok_bind, e]
    have : (k == kind) = false := by simpa using h4
    rw [this]
    rfl
  refine ⟨?_, ?_, ?_⟩
  · intro s hs
    cases hs with
    | reply v len x y r rows h1 h2 h3 h4 => exact (hr v len x y r h1 h2 h3).1 _ h4
    | other v t len x y r rows h0 h1 h2 h3 h4 => exact (ho v t len x y r h0 h1 h2 h3).1 _ h4
  · intro e he
    cases he with
    | short hl => rw [h, need_err _ _ _ (by omega), err_bind]
    | kind x k r h1 h2 h3 h4 => exact hf x k r h1 h2 h3 h4
    | reply v len x y r _ h1 h2 h3 h4 => exact (hr v len x y r h1 h2 h3).2.1 _ h4
    | other v t len x y r _ h0 h1 h2 h3 h4 => exact (ho v t len x y r h0 h1 h2 h3).2.1 _ h4
  · by_cases hl : b.length < 16
    · exact Or.inr ⟨_, .short b hl⟩
    · obtain ⟨v, t, len, x, k, y, r, h1, h2, h3, h4, rfl⟩ := cut_mp b (by omega)
      by_cases hkk : k = kind
      · subst hkk
        by_cases ht : t = 19
        · subst ht
          rcases (hr v len x y r h1 h2 h4).2.2 with ⟨s, h⟩ | ⟨e, h⟩
          · exact Or.inl ⟨_, .reply v len x y r s h1 h2 h4 h⟩
          · exact Or.inr ⟨_, .reply v len x y r e h1 h2 h4 h⟩
        · rcases (ho v t len x y r ht h1 h2 h4).2.2 with ⟨s, h⟩ | ⟨e, h⟩
          · exact Or.inl ⟨_, .other v t len x y r s ht h1 h2 h4 h⟩
          · exact Or.inr ⟨_, .other v t len x y r e ht h1 h2 h4 h⟩
      · have := MpFails.kind (kind := kind) (R := RF) (S := SF) (v :: t :: (u16 len ++ x)) k (y ++ r) (by simp [u16_length, h2])
          (by rw [List.length_append]; omega) h3 hkk
        simp only [List.cons_append, List.append_assoc] at this
        exact Or.inr ⟨_, this⟩

theorem outcome_msgs {one : Bytes → Py (List Str)} {P : Bytes → List Str → Prop} {F : Bytes → Err → Prop}
    (h : ∀ b, OutcomeOf (one b) (P b) (F b)) (fuel : Nat) (b : Bytes) (hf : b.length < fuel) :
    OutcomeOf (msgsGo one fuel b) (fun l => ∃ rows, MsgsPrinted P b rows ∧ l = rows.flatten) (MsgsFail P F b) := by
  have h := outcome_loop (least := 1) (len := lenField) (f := id) (go := msgsGo one)
    (one := fun b => needBytes b 0 8 >>= fun _ => one (b.take (uAt b 2 2)))
    (P := fun b rows => 8 ≤ b.length ∧ P (b.take (lenField b)) rows)
    (F := fun b e => (b.length < 8 ∧ e = .structError) ∨ (8 ≤ b.length ∧ F (b.take (lenField b)) e))
    (fun _ => rfl)
    (fun n b h => by
      have : b = [] := List.length_eq_zero_iff.1 (by omega)
      subst this
      rfl)
    (fun n b h => by
      conv => lhs; unfold msgsGo
      have hb : ¬ b.isEmpty = true := by cases b with | nil => simp at h | cons => simp
      rw [if_neg hb]
      dsimp only
      by_cases hl : b.length < 8
      · rw [need_err _ _ _ (by omega), err_bind, err_bind, err_bind]
      · rw [need_ok _ _ _ (by omega), ok_bind, ok_bind, lenField_uAt b (by omega)]
        rfl)
    (by omega)
    (fun b hb => by
      by_cases hl : b.length < 8
      · rw [need_err _ _ _ (by omega), err_bind]
        exact (OutcomeOf.raise Err.structError).congr (fun a => ⟨False.elim, fun h => by omega⟩)
          (fun e => ⟨fun h => Or.inl ⟨hl, h⟩, fun h => by rcases h with h | h; exacts [h.2, by omega]⟩)
      · rw [need_ok _ _ _ (by omega), ok_bind, ← lenField_uAt b (by omega)]
        exact (h _).congr (fun a => ⟨fun h => ⟨by omega, h⟩, fun h => h.2⟩)
          (fun e => ⟨fun h => Or.inr ⟨by omega, h⟩, fun h => by rcases h with h | h; exacts [by omega, h.2]⟩)) fuel b hf
  refine h.congr (fun l => ?_) (fun e => Iff.rfl)
  constructor
  · rintro ⟨xs, h, rfl⟩; exact ⟨xs, h, by simp [List.flatMap_id]⟩
  · rintro ⟨xs, h, rfl⟩; exact ⟨xs, h, by simp [List.flatMap_id]⟩

/-! ### Flow statistics -/

theorem flowReq_fails (b : Bytes) : OutcomeOf (do
    needBytes b 0 36
    if uAt b 32 2 == OFPMT_OXM then
      let _ ← oxm2str (slice b 36 (36 + uAt b 34 2 - 4))
      .error .typeError
    else .error .valueError : Py (List Str)) (fun _ => False) (FlowReqFails b) := by
  have hx : ∀ (x : Bytes) (t l : Nat) (r : Bytes), x.length = 32 → t < 65536 → l < 65536 →
      uAt (x ++ (u16 t ++ (u16 l ++ r))) 32 2 = t ∧ uAt (x ++ (u16 t ++ (u16 l ++ r))) 34 2 = l ∧
      36 ≤ (x ++ (u16 t ++ (u16 l ++ r))).length ∧
      slice (x ++ (u16 t ++ (u16 l ++ r))) 36 (36 + l - 4) = r.take (l - 4) := by
    intro x t l r h1 h2 h3
    refine ⟨by uatl h1, by uatl h1, by simp [u16_length, h1]; omega, ?_⟩
    unfold slice
    rw [List.drop_take, show x ++ (u16 t ++ (u16 l ++ r)) = (x ++ (u16 t ++ u16 l)) ++ r by simp,
      drop_pre _ r 36 (by simp [u16_length, h1])]
    congr 1
    omega
  refine ⟨fun _ h => h.elim, ?_, ?_⟩
  · intro e h
    cases h with
    | short h => rw [need_err _ _ _ (by omega), err_bind]
    | mtype x t r h1 h2 h3 h4 =>
      obtain ⟨l, r, h5, rfl⟩ := cut16 r h2
      obtain ⟨e1, e2, e3, e4⟩ := hx x t l r h1 h3 h5
      have c : ¬ (t == OFPMT_OXM) = true := by rw [beq_iff_eq]; exact h4
      rw [need_ok _ _ _ (by omega), ok_bind, e1, if_neg c]
    | mtch x l r _ h1 h2 h3 =>
      obtain ⟨e1, e2, e3, e4⟩ := hx x 1 l r h1 (by omega) h2
      rw [need_ok _ _ _ (by omega), ok_bind, e1, if_pos (show ((1 : Nat) == OFPMT_OXM) = true from rfl), e2, e4,
        (outcome_match _).2.1 _ h3, err_bind]
    | row x l r ss h1 h2 h3 =>
      obtain ⟨e1, e2, e3, e4⟩ := hx x 1 l r h1 (by omega) h2
      rw [need_ok _ _ _ (by omega), ok_bind, e1, if_pos (show ((1 : Nat) == OFPMT_OXM) = true from rfl), e2, e4,
        (outcome_match _).1 _ ⟨ss, h3, rfl⟩, ok_bind]
  · right
    by_cases hl : b.length < 36
    · exact ⟨_, .short b hl⟩
    · obtain ⟨x, r, h1, rfl⟩ := cut_list 32 b (by omega)
      rw [List.length_append, h1] at hl
      obtain ⟨t, r, h2, rfl⟩ := cut16 r (by omega)
      rw [List.length_append, u16_length] at hl
      by_cases ht : t = 1
      · subst ht
        obtain ⟨l, r, h3, rfl⟩ := cut16 r (by omega)
        rcases (outcome_match (r.take (l - 4))).2.2 with ⟨_, ss, h, _⟩ | ⟨e, h⟩
        · exact ⟨_, .row x l r ss h1 h3 h⟩
        · exact ⟨_, .mtch x l r e h1 h3 h⟩
      · exact ⟨_, .mtype x t r h1 (by omega) h2 ht⟩

theorem outcome_mpflow1 (b : Bytes) : OutcomeOf (mpflow2textOne b)
    (MpPrinted 1 (Parts 56 (word16 · 0) FlowStatPrinted) (fun _ _ _ => False) b)
    (MpFails 1 (PartsFail 56 (word16 · 0) FlowStatPrinted FlowStatFails) (fun len r e => FlowReqFails (r.take (len - 16)) e) b) :=
  outcome_frame (one := mpflow2textOne) (reply := fun b => statsGo (b.length + 1) b)
    (other := fun b => do
      needBytes (slice b 16 (uAt b 2 2)) 0 36
      if uAt (slice b 16 (uAt b 2 2)) 32 2 == OFPMT_OXM then
        let _ ← oxm2str (slice (slice b 16 (uAt b 2 2)) 36 (36 + uAt (slice b 16 (uAt b 2 2)) 34 2 - 4))
        .error .typeError
      else .error .valueError) (by omega)
    (fun b => by
      unfold mpflow2textOne
      dsimp only
      congr 1; funext _
      congr 1; funext _
      by_cases c : uAt b 1 1 = 19
      · have c' : ¬ (uAt b 1 1 != OFPT_MULTIPART_REPLY) = true := by rw [c]; decide
        rw [if_pos c, if_neg c']
      · have c' : (uAt b 1 1 != OFPT_MULTIPART_REPLY) = true := by rw [bne_iff_ne]; exact c
        rw [if_neg c, if_pos c'])
    (fun b => outcome_stats _ b (by omega))
    (fun b _ => by
      have : (b.drop 16).take (uAt b 2 2 - 16) = slice b 16 (uAt b 2 2) := by unfold slice; rw [List.drop_take]
      rw [this]
      exact flowReq_fails _) b

theorem outcome_mpdesc1 (b : Bytes) : OutcomeOf (mpgroupdesc2textOne b)
    (MpPrinted 7 (Parts 8 (word16 · 0) DescPrinted) (fun _ _ rows => rows = []) b)
    (MpFails 7 (PartsFail 8 (word16 · 0) DescPrinted DescFails) (fun _ _ _ => False) b) :=
  outcome_frame (one := mpgroupdesc2textOne) (reply := fun b => descsText (b.length + 1) b)
    (other := fun _ => .ok []) (by omega)
    (fun b => by
      unfold mpgroupdesc2textOne
      dsimp only
      congr 1; funext _
      congr 1; funext _
      by_cases c : uAt b 1 1 = 19
      · have c' : ¬ (uAt b 1 1 != OFPT_MULTIPART_REPLY) = true := by rw [c]; decide
        rw [if_pos c, if_neg c']
      · have c' : (uAt b 1 1 != OFPT_MULTIPART_REPLY) = true := by rw [bne_iff_ne]; exact c
        rw [if_neg c, if_pos c'])
    (fun b => outcome_descs _ b (by omega))
    (fun b _ => OutcomeOf.pure []) b

theorem outcome_mpgroup1 (b : Bytes) : OutcomeOf (mpgroup2textOne b)
    (MpPrinted 6 (Parts 40 (word16 · 0) GroupStatPrinted) (fun _ r rows => GroupReqPrinted r rows) b)
    (MpFails 6 (PartsFail 40 (word16 · 0) GroupStatPrinted GroupStatFails) (fun _ r e => r.length < 8 ∧ e = .structError) b) :=
  outcome_frame (one := mpgroup2textOne) (reply := fun b => groupStatsText (b.length + 1) b)
    (other := fun b => do
      needBytes b 16 8
      if uAt b 16 4 == OFPG_ALL then .ok []
      else if uAt b 16 4 == OFPG_ANY then .ok [t!"group=any"]
      else .ok [t!"group=" ++ fmtD (uAt b 16 4)]) (by omega)
    (fun b => by
      unfold mpgroup2textOne
      dsimp only
      congr 1; funext _
      congr 1; funext _
      by_cases c : uAt b 1 1 = 19
      · have c' : ¬ (uAt b 1 1 != OFPT_MULTIPART_REPLY) = true := by rw [c]; decide
        rw [if_pos c, if_neg c']
      · have c' : (uAt b 1 1 != OFPT_MULTIPART_REPLY) = true := by rw [bne_iff_ne]; exact c
        rw [if_neg c, if_pos c'])
    (fun b => outcome_groupStats _ b (by omega))
    (fun b hb => by
      by_cases hl : b.length < 24
      · rw [need_err _ _ _ (by omega), err_bind]
        refine (OutcomeOf.raise Err.structError).congr (fun a => ⟨False.elim, fun h => ?_⟩)
          (fun e => ⟨fun h => ⟨by rw [List.length_drop]; omega, h⟩, fun h => h.2⟩)
        have h8 : 8 ≤ (b.drop 16).length := by
          generalize b.drop 16 = w at h
          cases h with
          | all r h => rw [List.length_append, u32_length]; omega
          | any r h => rw [List.length_append, u32_length]; omega
          | num n r s h => rw [List.length_append, u32_length]; omega
        rw [List.length_drop] at h8
        omega
      · rw [need_ok _ _ _ (by omega), ok_bind]
        obtain ⟨n, r, hn, hr⟩ := cut32 (b.drop 16) (by rw [List.length_drop]; omega)
        have hlr : 4 ≤ r.length := by
          have := congrArg List.length hr
          rw [List.length_drop, List.length_append, u32_length] at this
          omega
        have e : uAt b 16 4 = n := by
          have h1 : uAt (b.drop 16) 0 4 = n := by rw [hr, uAt_u32_here _ _ hn]
          rw [← h1]
          unfold uAt slice
          rw [List.drop_zero, List.drop_take]
        rw [e, hr]
        have hu : ∀ m, m < 2 ^ 32 → ∀ r', u32 m ++ r' = u32 n ++ r → m = n := by
          intro m hm r' h
          obtain ⟨q, _⟩ := List.append_inj h (by rw [u32_length, u32_length])
          rw [← uAt_u32_here m [] hm, ← uAt_u32_here n [] hn, q]
        have key : ∀ rows, GroupReqPrinted (u32 n ++ r) rows ↔ rows = if n == OFPG_ALL then [] else if n == OFPG_ANY then [t!"group=any"] else [t!"group=" ++ fmtD n] := by
          intro rows
          constructor
          · intro h
            generalize hw : u32 n ++ r = w at h
            cases h with
            | all r' h =>
              have := hu 0xfffffffc (by omega) r' hw.symm
              subst this
              rfl
            | any r' h =>
              have := hu 0xffffffff (by omega) r' hw.symm
              subst this
              rfl
            | num m r' s h1 h2 h3 h4 h5 =>
              have := hu m h2 r' hw.symm
              subst this
              have c1 : ¬ (m == OFPG_ALL) = true := by rw [beq_iff_eq]; exact h3
              have c2 : ¬ (m == OFPG_ANY) = true := by rw [beq_iff_eq]; exact h4
              rw [if_neg c1, if_neg c2, decimal_eq h5]
          · rintro rfl
            by_cases c : n = 0xfffffffc
            · subst c; exact .all r hlr
            · by_cases d : n = 0xffffffff
              · subst d; exact .any r hlr
              · have c1 : ¬ (n == OFPG_ALL) = true := by rw [beq_iff_eq]; exact c
                have c2 : ¬ (n == OFPG_ANY) = true := by rw [beq_iff_eq]; exact d
                rw [if_neg c1, if_neg c2]
                exact .num n r _ hlr hn c d (decimal_fmtD n)
        have hb : (if n == OFPG_ALL then .ok [] else if n == OFPG_ANY then .ok [t!"group=any"] else .ok [t!"group=" ++ fmtD n] : Py (List Str)) =
            .ok (if n == OFPG_ALL then [] else if n == OFPG_ANY then [t!"group=any"] else [t!"group=" ++ fmtD n]) := by
          split
          · rfl
          · split <;> rfl
        rw [hb]
        refine (OutcomeOf.pure _).congr (fun a => (key a).symm) (fun e => ⟨False.elim, fun h => ?_⟩)
        have := h.1
        rw [List.length_append, u32_length] at this
        omega) b

end Ofpstr
