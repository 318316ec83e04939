import Verif.Lemmas.GroupShown

/-!
# Printed statistics
-/

namespace Ofpstr
open Spec

set_option linter.unusedSimpArgs false

theorem count_iff (name : Str) (n : Nat) (ts : List Str) : Count name n ts ↔ ts = countTok name n := by
  unfold Count countTok
  rw [keyPrinted_iff decimal_iff]
  by_cases c : n = 0
  · rw [if_pos c, if_pos (by rw [c]; rfl)]
  · rw [if_neg c, if_neg (by simpa using c)]

theorem beside_eq (a b : List Str) :
    joinStr t!" " (([a, b].filter fun x => !x.isEmpty).map (joinStr t!",")) = beside a b := by
  unfold beside
  cases a with
  | nil =>
    cases b with
    | nil => rfl
    | cons y b => simp [joinStr]
  | cons x a =>
    cases b with
    | nil => simp [joinStr]
    | cons y b => simp [joinStr]

/-! ## Flow statistics -/

theorem rawStat_length (m : RawStat) (h : m.Fits) : m.wire.length = 52 := by
  simp [RawStat.wire, u16_length, u32_length, u64_length, h.unused]

theorem rawStat_flat (m : RawStat) (r : Bytes) : m.wire ++ r = u16 m.len ++ (m.table :: m.z :: (u32 m.sec ++ (u32 m.nsec ++
    (u16 m.priority ++ (u16 m.idle ++ (u16 m.hard ++ (u16 m.flags ++ (m.unused ++ (u64 m.cookie ++ (u64 m.packets ++
    (u64 m.bytes ++ (u16 m.mtype ++ (u16 m.mlen ++ r))))))))))))) := by
  unfold RawStat.wire
  simp only [List.append_assoc, List.cons_append, List.nil_append]

theorem rawStat_at (m : RawStat) (h : m.Fits) (r : Bytes) :
    uAt (m.wire ++ r) 0 2 = m.len ∧ uAt (m.wire ++ r) 2 1 = m.table.toNat ∧ uAt (m.wire ++ r) 4 4 = m.sec ∧
    uAt (m.wire ++ r) 8 4 = m.nsec ∧ uAt (m.wire ++ r) 12 2 = m.priority ∧ uAt (m.wire ++ r) 14 2 = m.idle ∧
    uAt (m.wire ++ r) 16 2 = m.hard ∧ uAt (m.wire ++ r) 18 2 = m.flags ∧ uAt (m.wire ++ r) 24 8 = m.cookie ∧
    uAt (m.wire ++ r) 32 8 = m.packets ∧ uAt (m.wire ++ r) 40 8 = m.bytes ∧
    uAt (m.wire ++ r) 48 2 = m.mtype ∧ uAt (m.wire ++ r) 50 2 = m.mlen := by
  obtain ⟨h1, h2, h3, h4, h5, h6, h7, h8, h9, h10, h11, h12, h13⟩ := h
  rw [rawStat_flat]
  refine ⟨?_, ?_, ?_, ?_, ?_, ?_, ?_, ?_, ?_, ?_, ?_, ?_, ?_⟩
  all_goals uatl h8

/-- The tokens for the keys. -/
def rawStatToks (m : RawStat) : List Str := fixedText {
      cookie := some 0, table := some 0, priority := some 0x8000, idleTimeout := some 0,
      hardTimeout := some 0, flags := some 0 } {
    cookie := some m.cookie, table := some m.table.toNat, priority := some m.priority, idleTimeout := some m.idle,
    hardTimeout := some m.hard, flags := some m.flags }

theorem fixed_stat (c t p i h f : Nat) :
    fixedText { cookie := some 0, table := some 0, priority := some 0x8000, idleTimeout := some 0, hardTimeout := some 0, flags := some 0 }
      { cookie := some c, table := some t, priority := some p, idleTimeout := some i, hardTimeout := some h, flags := some f } =
    (if c = 0 then [] else [t!"cookie=" ++ fmtX 0 c]) ++
    ((if t = 0 then [] else [t!"table" ++ '=' :: fmtD t]) ++ ((if p = 0x8000 then [] else [t!"priority" ++ '=' :: fmtD p]) ++
    ((if i = 0 then [] else [t!"idle_timeout" ++ '=' :: fmtD i]) ++
    ((if h = 0 then [] else [t!"hard_timeout" ++ '=' :: fmtD h]) ++ flagsPrinted f)))) := by
  unfold fixedText
  dsimp only
  simp only [emitF_eq]
  have hf := flags_tok f
  dsimp only at hf
  rw [hf]
  rfl

theorem statKeys_iff (m : RawStat) (ks : List Str) : m.Keys ks ↔ ks = rawStatToks m := by
  unfold rawStatToks
  rw [fixed_stat]
  have hD : ∀ s n, Decimal s n ↔ s = fmtD n := decimal_iff
  constructor
  · rintro ⟨a, b, c, g, i, h1, h2, h3, h4, h5⟩
    rw [(cookiePrinted_iff _ _ _).1 h1, (keyPrinted_iff hD _ _ _).1 h2, (keyPrinted_iff hD _ _ _).1 h3,
      (keyPrinted_iff hD _ _ _).1 h4, (keyPrinted_iff hD _ _ _).1 h5, if_pos rfl]
  · rintro rfl
    exact .mk _ _ _ _ _ ((cookiePrinted_iff _ _ _).2 (by rw [if_pos rfl])) ((keyPrinted_iff hD _ _ _).2 rfl)
      ((keyPrinted_iff hD _ _ _).2 rfl) ((keyPrinted_iff hD _ _ _).2 rfl) ((keyPrinted_iff hD _ _ _).2 rfl)

/-- The tokens for the counters. -/
def statCounts (m : RawStat) : List Str := countTok t!"packet_count" m.packets ++ (countTok t!"byte_count" m.bytes ++
  (countTok t!"duration_sec" m.sec ++ countTok t!"duration_nsec" m.nsec))

theorem statCounts_iff (m : RawStat) (cs : List Str) : m.Counts cs ↔ cs = statCounts m := by
  unfold statCounts
  constructor
  · rintro ⟨a, b, c, d, h1, h2, h3, h4⟩
    rw [(count_iff _ _ _).1 h1, (count_iff _ _ _).1 h2, (count_iff _ _ _).1 h3, (count_iff _ _ _).1 h4]
  · rintro rfl
    exact .mk _ _ _ _ ((count_iff _ _ _).2 rfl) ((count_iff _ _ _).2 rfl) ((count_iff _ _ _).2 rfl) ((count_iff _ _ _).2 rfl)

theorem stat_parts (m : RawStat) (h : m.Fits) (r : Bytes) : statText (m.wire ++ r) =
    if m.mtype = 1 then (oxm2str (slice (m.wire ++ r) 52 (52 + m.mlen - 4)) >>= fun rstr =>
      inst2str (slice (m.wire ++ r) (48 + align8 m.mlen) m.len) >>= fun istr =>
      .ok (beside (statCounts m) (rawStatToks m ++ (optTok rstr ++ optTok istr)))) else .error .valueError := by
  obtain ⟨h1, h2, h3, h4, h5, h6, h7, h8, h9, h10, h11, h12, h13⟩ := rawStat_at m h r
  generalize m.wire ++ r = w at *
  unfold statText
  dsimp only
  rw [h1, h2, h3, h4, h5, h6, h7, h8, h9, h10, h11, h12, h13]
  by_cases c : m.mtype = 1
  · have c' : (m.mtype == OFPMT_OXM) = true := by rw [c]; rfl
    rw [if_pos c, if_pos c']
    simp only [beside_eq]
    rfl
  · have c' : ¬ (m.mtype == OFPMT_OXM) = true := by rw [beq_iff_eq]; exact c
    rw [if_neg c, if_neg c']

theorem cut_stat (b : Bytes) (h : 52 ≤ b.length) : ∃ (m : RawStat) (r : Bytes), m.Fits ∧ b = m.wire ++ r := by
  obtain ⟨len, r, h1, rfl⟩ := cut16 b (by omega)
  rw [List.length_append, u16_length] at h
  obtain ⟨tb, z, r, rfl⟩ := cut8 r (by omega)
  simp only [List.length_cons] at h
  obtain ⟨sec, r, h2, rfl⟩ := cut32 r (by omega)
  rw [List.length_append, u32_length] at h
  obtain ⟨nsec, r, h3, rfl⟩ := cut32 r (by omega)
  rw [List.length_append, u32_length] at h
  obtain ⟨prio, r, h4, rfl⟩ := cut16 r (by omega)
  rw [List.length_append, u16_length] at h
  obtain ⟨idle, r, h5, rfl⟩ := cut16 r (by omega)
  rw [List.length_append, u16_length] at h
  obtain ⟨hard, r, h6, rfl⟩ := cut16 r (by omega)
  rw [List.length_append, u16_length] at h
  obtain ⟨fl, r, h7, rfl⟩ := cut16 r (by omega)
  rw [List.length_append, u16_length] at h
  obtain ⟨x, r, h8, rfl⟩ := cut_list 4 r (by omega)
  rw [List.length_append, h8] at h
  obtain ⟨ck, r, h9, rfl⟩ := cut64 r (by omega)
  rw [List.length_append, u64_length] at h
  obtain ⟨pk, r, h10, rfl⟩ := cut64 r (by omega)
  rw [List.length_append, u64_length] at h
  obtain ⟨by', r, h11, rfl⟩ := cut64 r (by omega)
  rw [List.length_append, u64_length] at h
  obtain ⟨mt, r, h12, rfl⟩ := cut16 r (by omega)
  rw [List.length_append, u16_length] at h
  obtain ⟨ml, r, h13, rfl⟩ := cut16 r (by omega)
  refine ⟨⟨len, tb, z, sec, nsec, prio, idle, hard, fl, x, ck, pk, by', mt, ml⟩, r,
    ⟨h1, h2, h3, h4, h5, h6, h7, h8, h9, h10, h11, h12, h13⟩, ?_⟩
  rw [rawStat_flat]

theorem outcome_stat (b : Bytes) (hb : 56 ≤ b.length) : OutcomeOf (statText b) (FlowStatPrinted b) (FlowStatFails b) := by
  refine ⟨?_, ?_, ?_⟩
  · intro s h
    cases h with
    | mk m r cs ks ts h1 h2 h3 h4 h5 =>
      rw [stat_parts m h1 r, if_pos h2, (statKeys_iff m ks).1 h4, (statCounts_iff m cs).1 h3]
      exact (outcome_rule _ m.len m.mlen (rawStatToks m) (beside (statCounts m))).1 _ ⟨ts, h5, rfl⟩
  · intro e h
    cases h with
    | mtype m r h1 h2 => rw [stat_parts m h1 r, if_neg h2]
    | rule m r _ h1 h2 h3 =>
      rw [stat_parts m h1 r, if_pos h2]
      exact (outcome_rule _ m.len m.mlen (rawStatToks m) (beside (statCounts m))).2.1 _ h3
  · obtain ⟨m, r, hm, rfl⟩ := cut_stat b (by omega)
    by_cases c : m.mtype = 1
    · rcases (outcome_rule (m.wire ++ r) m.len m.mlen [] (joinStr t!",")).2.2 with ⟨s, ts, h, _⟩ | ⟨e, h⟩
      · exact Or.inl ⟨_, .mk m r _ _ ts hm c ((statCounts_iff m _).2 rfl) ((statKeys_iff m _).2 rfl) h⟩
      · exact Or.inr ⟨e, .rule m r e hm c h⟩
    · exact Or.inr ⟨_, .mtype m r hm c⟩

theorem flatMap_one {α : Type} (xs : List α) : (xs.flatMap fun x => [x]) = xs := by
  induction xs with
  | nil => rfl
  | cons x xs ih => simp [List.flatMap_cons, ih]

theorem outcome_stats (fuel : Nat) (b : Bytes) (hf : b.length < fuel) :
    OutcomeOf (statsGo fuel b) (Parts 56 (word16 · 0) FlowStatPrinted b) (PartsFail 56 (word16 · 0) FlowStatPrinted FlowStatFails b) := by
  have h := outcome_loop (least := 56) (len := (word16 · 0)) (one := statText)
    (f := fun s => [s]) (go := statsGo) (fun _ => rfl)
    (fun n b h => by unfold statsGo; rw [if_pos h])
    (fun n b h => by
      conv => lhs; unfold statsGo
      rw [if_neg (by omega), word16_uAt b 0 (by omega)]
      rfl)
    (by omega) (fun b hb => outcome_stat b hb) fuel b hf
  refine h.congr (fun l => ?_) (fun e => Iff.rfl)
  constructor
  · rintro ⟨xs, h, rfl⟩; rw [flatMap_one]; exact h
  · intro h; exact ⟨l, h, by rw [flatMap_one]⟩

/-! ## Group descriptions -/

/-- One group description. -/
def descOne (r : Bytes) : Py Str :=
  pyAssert (decide (uAt r 0 2 ≥ 8)) >>= fun _ => groupTypeName (uAt r 2 1) >>= fun tname =>
    bucketsText (uAt r 2 1) 16 (r.length + 1) (slice r 8 (uAt r 0 2)) >>= fun bs =>
      .ok (joinStr t!"," ((t!"group=" ++ fmtD (uAt r 4 4)) :: tname :: bs))

theorem desc_parts (len : Nat) (type z : UInt8) (gid : Nat) (r : Bytes) (h1 : len < 65536) (h2 : gid < 2 ^ 32) :
    descOne (u16 len ++ type :: z :: (u32 gid ++ r)) = pyAssert (decide (len ≥ 8)) >>= fun _ => groupTypeName type.toNat >>= fun name =>
      bucketsText type.toNat 16 ((u16 len ++ type :: z :: (u32 gid ++ r)).length + 1) (r.take (len - 8)) >>= fun bs =>
      .ok (joinStr t!"," ((t!"group=" ++ fmtD gid) :: name :: bs)) := by
  generalize hw : u16 len ++ type :: z :: (u32 gid ++ r) = w
  have e0 : uAt w 0 2 = len := by rw [← hw]; uat
  have e2 : uAt w 2 1 = type.toNat := by rw [← hw]; uatl (rfl : ([] : Bytes).length = 0)
  have e4 : uAt w 4 4 = gid := by rw [← hw]; uatl (rfl : ([] : Bytes).length = 0)
  have hs : slice w 8 len = r.take (len - 8) := by
    unfold slice
    rw [List.drop_take, ← hw,
      show u16 len ++ type :: z :: (u32 gid ++ r) = (u16 len ++ type :: z :: u32 gid) ++ r by simp,
      drop_pre _ r 8 (by simp [u16_length, u32_length])]
  unfold descOne
  rw [e0, e2, e4, hs]

theorem cut_desc (b : Bytes) (h : 8 ≤ b.length) : ∃ (len : Nat) (type z : UInt8) (gid : Nat) (r : Bytes), len < 65536 ∧
    gid < 2 ^ 32 ∧ b = u16 len ++ type :: z :: (u32 gid ++ r) := by
  obtain ⟨len, r, h1, rfl⟩ := cut16 b (by omega)
  rw [List.length_append, u16_length] at h
  obtain ⟨t, z, r, rfl⟩ := cut8 r (by omega)
  simp only [List.length_cons] at h
  obtain ⟨gid, r, h2, rfl⟩ := cut32 r (by omega)
  exact ⟨len, t, z, gid, r, h1, h2, rfl⟩

theorem outcome_assert (c : Bool) : OutcomeOf (pyAssert c) (fun _ => c = true) (fun e => c = false ∧ e = .assertionError) := by
  cases c
  · exact ⟨fun _ h => (by cases h), fun e h => (by rw [h.2]; rfl), Or.inr ⟨_, rfl, rfl⟩⟩
  · exact ⟨fun _ _ => rfl, fun e h => (by cases h.1), Or.inl ⟨(), rfl⟩⟩

theorem outcome_desc_parts (len : Nat) (type z : UInt8) (gid : Nat) (r : Bytes) (h1 : len < 65536) (h2 : gid < 2 ^ 32) :
    OutcomeOf (descOne (u16 len ++ type :: z :: (u32 gid ++ r)))
      (fun s => 8 ≤ len ∧ ∃ name ss, groupTypes[type.toNat]? = some name ∧ BucketsPrinted type.toNat 16 (r.take (len - 8)) ss ∧
        s = joinStr t!"," ((t!"group=" ++ fmtD gid) :: name :: bucketTokens ss))
      (fun e => (len < 8 ∧ e = .assertionError) ∨ (8 ≤ len ∧ ((4 ≤ type.toNat ∧ e = .indexError) ∨
        (type.toNat < 4 ∧ BucketsFail type.toNat 16 (r.take (len - 8)) e)))) := by
  rw [desc_parts len type z gid r h1 h2]
  refine ((outcome_assert _).bind fun _ _ => (outcome_tname type.toNat).bind fun name _ =>
    (outcome_buckets type.toNat 16 (by omega) _ (r.take (len - 8))
    (by rw [List.length_take]; simp; omega)).map (f := fun bs => joinStr t!"," ((t!"group=" ++ fmtD gid) :: name :: bs))).congr
      (fun s => ?_) (fun e => ?_)
  · constructor
    · rintro ⟨_, hl, name, hn, _, ⟨ss, hs, rfl⟩, rfl⟩
      exact ⟨of_decide_eq_true hl, name, ss, hn, hs, rfl⟩
    · rintro ⟨hl, name, ss, hn, hs, rfl⟩
      exact ⟨(), decide_eq_true hl, name, hn, _, ⟨ss, hs, rfl⟩, rfl⟩
  · constructor
    · rintro (⟨h, rfl⟩ | ⟨_, hl, h | ⟨name, hn, h⟩⟩)
      · exact Or.inl ⟨by have := of_decide_eq_false h; omega, rfl⟩
      · exact Or.inr ⟨of_decide_eq_true hl, Or.inl h⟩
      · have : type.toNat < 4 := (List.getElem?_eq_some_iff.1 hn).1
        exact Or.inr ⟨of_decide_eq_true hl, Or.inr ⟨this, h⟩⟩
    · rintro (⟨h, rfl⟩ | ⟨hl, h | ⟨ht, h⟩⟩)
      · exact Or.inl ⟨decide_eq_false (by omega), rfl⟩
      · exact Or.inr ⟨(), decide_eq_true hl, Or.inl h⟩
      · exact Or.inr ⟨(), decide_eq_true hl, Or.inr ⟨_, List.getElem?_eq_getElem (l := groupTypes) ht, h⟩⟩

theorem outcome_desc (b : Bytes) (hb : 8 ≤ b.length) : OutcomeOf (descOne b) (DescPrinted b) (DescFails b) := by
  refine ⟨?_, ?_, ?_⟩
  · intro s h
    cases h with
    | mk len type z gid r s name ss h1 h2 h3 h4 h5 h6 =>
      rw [decimal_eq h4]
      exact (outcome_desc_parts len type z gid r h1 h3).1 _ ⟨h2, name, ss, h5, h6, rfl⟩
  · intro e h
    cases h with
    | len len r h =>
      rw [List.length_append, u16_length] at hb
      obtain ⟨t, z, r, rfl⟩ := cut8 r (by omega)
      simp only [List.length_cons] at hb
      obtain ⟨gid, r, h4, rfl⟩ := cut32 r (by omega)
      exact (outcome_desc_parts len t z gid r (by omega) h4).2.1 _ (Or.inl ⟨h, rfl⟩)
    | type len type r h1 h2 h3 =>
      rw [List.length_append, u16_length, List.length_cons] at hb
      obtain ⟨z, r, rfl⟩ := cut_byte r (by omega)
      simp only [List.length_cons] at hb
      obtain ⟨gid, r, h4, rfl⟩ := cut32 r (by omega)
      exact (outcome_desc_parts len type z gid r h1 h4).2.1 _ (Or.inr ⟨h2, Or.inl ⟨h3, rfl⟩⟩)
    | bucket len type z gid r _ h1 h2 h3 h4 h5 =>
      exact (outcome_desc_parts len type z gid r h1 h3).2.1 _ (Or.inr ⟨h2, Or.inr ⟨h4, h5⟩⟩)
  · obtain ⟨len, type, z, gid, r, h1, h2, rfl⟩ := cut_desc b hb
    rcases (outcome_desc_parts len type z gid r h1 h2).2.2 with
      ⟨s, hl, name, ss, h4, h5, _⟩ | ⟨e, ⟨h, rfl⟩ | ⟨hl, ⟨h, rfl⟩ | ⟨h, h'⟩⟩⟩
    · exact Or.inl ⟨_, .mk len type z gid r _ name ss h1 hl h2 (decimal_fmtD _) h4 h5⟩
    · exact Or.inr ⟨_, .len len _ h⟩
    · exact Or.inr ⟨_, .type len type _ h1 hl h⟩
    · exact Or.inr ⟨e, .bucket len type z gid r e h1 hl h2 h h'⟩

theorem outcome_descs (fuel : Nat) (b : Bytes) (hf : b.length < fuel) :
    OutcomeOf (descsText fuel b) (Parts 8 (word16 · 0) DescPrinted b) (PartsFail 8 (word16 · 0) DescPrinted DescFails b) := by
  have h := outcome_loop (least := 8) (len := (word16 · 0)) (one := descOne)
    (f := fun s => [s]) (go := descsText) (fun _ => rfl)
    (fun n b h => by unfold descsText; rw [if_pos h])
    (fun n b h => by
      conv => lhs; unfold descsText
      rw [if_neg (by omega), word16_uAt b 0 (by omega)]
      dsimp only
      unfold descOne
      simp only [bind_assoc', ok_bind]
      rfl)
    (by omega) (fun b hb => outcome_desc b hb) fuel b hf
  refine h.congr (fun l => ?_) (fun e => Iff.rfl)
  constructor
  · rintro ⟨xs, h, rfl⟩; rw [flatMap_one]; exact h
  · intro h; exact ⟨l, h, by rw [flatMap_one]⟩

end Ofpstr
