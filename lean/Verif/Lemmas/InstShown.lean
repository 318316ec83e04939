import Verif.Lemmas.PartsShown

/-!
# Printed instructions
-/

namespace Ofpstr
open Spec

set_option linter.unusedSimpArgs false

/-- One instruction, by its parts. -/
theorem inst_parts (k l : Nat) (r : Bytes) (hk : k < 65536) (hl : l < 65536) :
    inst2strOne (u16 k ++ (u16 l ++ r)) =
      if k = 1 then (if l = 8 then .ok [t!"@goto=" ++ fmtD (uAt r 0 1)] else .error .assertionError)
      else if k = 2 then (if l = 24 then (if 20 ≤ r.length then
          .ok [t!"@metadata=" ++ (if uAt r 12 8 = 0 then fmtX 0 (uAt r 4 8) else fmtX 0 (uAt r 4 8) ++ '/' :: fmtX 0 (uAt r 12 8))]
        else .error .structError) else .error .assertionError)
      else if k = 3 then (if l % 8 = 0 then (act2str ((r.take (l - 4)).drop 4) >>= fun a =>
        .ok (t!"@write" :: unlessEmpty a)) else .error .assertionError)
      else if k = 4 then (if l % 8 = 0 then (act2str ((r.take (l - 4)).drop 4) >>= fun a =>
        .ok (t!"@apply" :: unlessEmpty a)) else .error .assertionError)
      else if k = 5 then (if l = 8 then .ok [t!"@clear"] else .error .assertionError)
      else if k = 6 then (if l = 8 then (if 4 ≤ r.length then .ok [t!"@meter=" ++ fmtD (uAt r 0 4)]
        else .error .structError) else .error .assertionError)
      else .ok [t!"?"] := by
  generalize hw : u16 k ++ (u16 l ++ r) = w
  have e0 : uAt w 0 2 = k := by rw [← hw]; uat
  have e2 : uAt w 2 2 = l := by rw [← hw]; uat
  have hs : ∀ i n, 4 ≤ i → uAt w i n = uAt r (i - 4) n := by
    intro i n h
    rw [← hw, uAt_u16 _ _ _ _ (by omega), uAt_u16 _ _ _ _ (by omega)]
    rfl
  have hlen : w.length = 4 + r.length := by rw [← hw]; simp [u16_length]; omega
  have hsl : slice w 8 l = (r.take (l - 4)).drop 4 := by
    unfold slice
    rw [List.drop_take, List.drop_take, ← hw,
      show u16 k ++ (u16 l ++ r) = (u16 k ++ u16 l) ++ r by simp only [List.append_assoc],
      show (8 : Nat) = 4 + 4 from rfl, ← List.drop_drop, drop_pre (u16 k ++ u16 l) r 4 (by simp [u16_length])]
    congr 1
  have ha : ∀ name, instActions name w l = if l % 8 = 0 then (act2str ((r.take (l - 4)).drop 4) >>= fun a =>
      .ok (name :: unlessEmpty a)) else .error .assertionError := by
    intro name
    unfold instActions
    rw [hsl]
    by_cases c : l % 8 = 0
    · rw [if_pos c, show pyAssert (l % 8 == 0) = .ok () by rw [c]; rfl, ok_bind]
      congr 1
      funext a
      cases a <;> rfl
    · rw [if_neg c, show pyAssert (l % 8 == 0) = .error .assertionError by
        rw [show (l % 8 == 0) = false by rw [beq_eq_false_iff_ne]; exact c]; rfl, err_bind]
  have hassert : ∀ (n : Nat) (x : Py (List Str)), (pyAssert (l == n) >>= fun _ => x) = if l = n then x else .error .assertionError := by
    intro n x
    by_cases c : l = n
    · rw [if_pos c, show pyAssert (l == n) = .ok () by rw [c]; simp [pyAssert], ok_bind]
    · rw [if_neg c, show pyAssert (l == n) = .error .assertionError by
        rw [show (l == n) = false by rw [beq_eq_false_iff_ne]; exact c]; rfl, err_bind]
  have hneed : ∀ (i n : Nat) (x : Py (List Str)), 4 ≤ i → (needBytes w i n >>= fun _ => x) =
      if i + n - 4 ≤ r.length then x else .error .structError := by
    intro i n x hi
    by_cases c : i + n - 4 ≤ r.length
    · rw [if_pos c, need_ok _ _ _ (by omega), ok_bind]
    · rw [if_neg c, need_err _ _ _ (by omega), err_bind]
  unfold inst2strOne
  dsimp only
  rw [e0, e2, ha, ha, hassert, hassert, hassert, hassert, hneed 8 16 _ (by omega), hneed 4 4 _ (by omega),
    hs 4 1 (by omega), hs 8 8 (by omega), hs 16 8 (by omega), hs 4 4 (by omega)]
  rcases Nat.lt_or_ge k 7 with hk7 | hk7
  · have : k = 0 ∨ k = 1 ∨ k = 2 ∨ k = 3 ∨ k = 4 ∨ k = 5 ∨ k = 6 := by omega
    rcases this with rfl | rfl | rfl | rfl | rfl | rfl | rfl
    · rfl
    · rfl
    · show (if l = 24 then _ else _) = (if l = 24 then _ else _)
      congr 1
      show (if 20 ≤ r.length then _ else _) = (if 20 ≤ r.length then _ else _)
      congr 1
      show (if (uAt r 12 8 == 0) = true then _ else _) = _
      by_cases c : uAt r 12 8 = 0
      · rw [if_pos (by rw [c]; rfl), if_pos c]
      · rw [if_neg (by simpa using c), if_neg c]
    · rfl
    · rfl
    · rfl
    · rfl
  · have hn : ∀ n, n < 7 → ¬ (k == n) = true := fun n h => by simp; omega
    rw [if_neg (hn OFPIT_GOTO_TABLE (by decide)), if_neg (hn OFPIT_WRITE_METADATA (by decide)),
      if_neg (hn OFPIT_WRITE_ACTIONS (by decide)), if_neg (hn OFPIT_APPLY_ACTIONS (by decide)),
      if_neg (hn OFPIT_CLEAR_ACTIONS (by decide)), if_neg (hn OFPIT_METER (by decide))]
    rw [if_neg (by omega), if_neg (by omega), if_neg (by omega), if_neg (by omega), if_neg (by omega), if_neg (by omega)]

theorem inst_printed {b : Bytes} {ts : List Str} (h : InstPrinted b ts) : inst2strOne b = .ok ts := by
  cases h with
  | goto n r s h =>
    rw [inst_parts 1 8 _ (by omega) (by omega), if_pos rfl, if_pos rfl, uAt_byte, decimal_eq h]
  | metadata x v r s h1 h2 h3 =>
    rw [inst_parts 2 24 _ (by omega) (by omega), if_neg (by omega), if_pos rfl, if_pos rfl,
      if_pos (by simp [h1, u64_length]; omega), uAt_skip_list x _ 12 8 4 h1 (by omega),
      uAt_skip_list x _ 4 8 4 h1 (by omega)]
    have e1 : uAt (u64 v ++ (u64 0 ++ r)) 8 8 = 0 := by uat
    have e2 : uAt (u64 v ++ (u64 0 ++ r)) 0 8 = v := by uat
    rw [show 12 - 4 = 8 from rfl, show 4 - 4 = 0 from rfl, e1, e2, if_pos rfl, (hexShown_iff _ _ _).1 h3]
  | masked x v m r s t h1 h2 h0 h4 h5 h6 =>
    rw [inst_parts 2 24 _ (by omega) (by omega), if_neg (by omega), if_pos rfl, if_pos rfl,
      if_pos (by simp [h1, u64_length]; omega), uAt_skip_list x _ 12 8 4 h1 (by omega),
      uAt_skip_list x _ 4 8 4 h1 (by omega)]
    have e1 : uAt (u64 v ++ (u64 m ++ r)) 8 8 = m := by uat
    have e2 : uAt (u64 v ++ (u64 m ++ r)) 0 8 = v := by uat
    rw [show 12 - 4 = 8 from rfl, show 4 - 4 = 0 from rfl, e1, e2, if_neg (by omega), (hexShown_iff _ _ _).1 h5, (hexShown_iff _ _ _).1 h6]
  | acts k name l r ss h1 h2 h3 h4 =>
    simp only [List.mem_cons, List.not_mem_nil, or_false, Prod.mk.injEq] at h1
    have ha := (outcome_actions _).1 _ ⟨ss, h4, rfl⟩
    rcases h1 with ⟨rfl, rfl⟩ | ⟨rfl, rfl⟩
    · rw [inst_parts 3 l _ (by omega) h2, if_neg (by omega), if_neg (by omega), if_pos rfl, if_pos h3, ha, ok_bind]
    · rw [inst_parts 4 l _ (by omega) h2, if_neg (by omega), if_neg (by omega), if_neg (by omega), if_pos rfl, if_pos h3, ha,
        ok_bind]
  | clear r => rw [inst_parts 5 8 _ (by omega) (by omega)]; rfl
  | meter n r s h1 h2 =>
    rw [inst_parts 6 8 _ (by omega) (by omega)]
    have e1 : uAt (u32 n ++ r) 0 4 = n := by uat
    rw [if_neg (by omega), if_neg (by omega), if_neg (by omega), if_neg (by omega), if_neg (by omega), if_pos rfl, if_pos rfl,
      if_pos (by simp [u32_length]), e1, decimal_eq h2]
  | unknown k l r h1 h2 h3 =>
    rw [inst_parts k l _ h1 h2, if_neg (by omega), if_neg (by omega), if_neg (by omega), if_neg (by omega), if_neg (by omega),
      if_neg (by omega)]

theorem inst_fails {b : Bytes} {e : Err} (h : InstFails b e) : inst2strOne b = .error e := by
  cases h with
  | size k n l r h1 h2 h3 =>
    simp only [instSizes, List.mem_cons, List.not_mem_nil, or_false, Prod.mk.injEq] at h1
    rw [inst_parts k l _ (by omega) h2]
    rcases h1 with ⟨rfl, rfl⟩ | ⟨rfl, rfl⟩ | ⟨rfl, rfl⟩ | ⟨rfl, rfl⟩
    · rw [if_pos rfl, if_neg h3]
    · rw [if_neg (by omega), if_pos rfl, if_neg h3]
    · rw [if_neg (by omega), if_neg (by omega), if_neg (by omega), if_neg (by omega), if_pos rfl, if_neg h3]
    · rw [if_neg (by omega), if_neg (by omega), if_neg (by omega), if_neg (by omega), if_neg (by omega), if_pos rfl, if_neg h3]
  | metadata r h =>
    rw [inst_parts 2 24 _ (by omega) (by omega), if_neg (by omega), if_pos rfl, if_pos rfl, if_neg (by omega)]
  | meter r h =>
    rw [inst_parts 6 8 _ (by omega) (by omega), if_neg (by omega), if_neg (by omega), if_neg (by omega), if_neg (by omega),
      if_neg (by omega), if_pos rfl, if_pos rfl, if_neg (by omega)]
  | eights k l r h1 h2 h3 =>
    simp only [List.mem_cons, List.not_mem_nil, or_false] at h1
    rw [inst_parts k l _ (by omega) h2]
    rcases h1 with rfl | rfl
    · rw [if_neg (by omega), if_neg (by omega), if_pos rfl, if_neg h3]
    · rw [if_neg (by omega), if_neg (by omega), if_neg (by omega), if_pos rfl, if_neg h3]
  | acts k l r _ h1 h2 h3 h4 =>
    simp only [List.mem_cons, List.not_mem_nil, or_false] at h1
    have ha := (outcome_actions _).2.1 _ h4
    rw [inst_parts k l _ (by omega) h2]
    rcases h1 with rfl | rfl
    · rw [if_neg (by omega), if_neg (by omega), if_pos rfl, if_pos h3, ha, err_bind]
    · rw [if_neg (by omega), if_neg (by omega), if_neg (by omega), if_pos rfl, if_pos h3, ha, err_bind]

theorem inst_all (b : Bytes) (h : 5 ≤ b.length) : (∃ ts, InstPrinted b ts) ∨ ∃ e, InstFails b e := by
  obtain ⟨k, r, hk, rfl⟩ := cut16 b (by omega)
  rw [List.length_append, u16_length] at h
  obtain ⟨l, r, hl, rfl⟩ := cut16 r (by omega)
  rw [List.length_append, u16_length] at h
  have hfix : ∀ n, (k, n) ∈ instSizes → l ≠ n → ∃ e, InstFails (u16 k ++ (u16 l ++ r)) e :=
    fun n h1 h2 => ⟨_, .size k n l r h1 hl h2⟩
  have hacts : ∀ name, (k, name) ∈ [(3, t!"@write"), (4, t!"@apply")] →
      (∃ ts, InstPrinted (u16 k ++ (u16 l ++ r)) ts) ∨ ∃ e, InstFails (u16 k ++ (u16 l ++ r)) e := by
    intro name h1
    have h2 : k ∈ [3, 4] := by
      simp only [List.mem_cons, List.not_mem_nil, or_false, Prod.mk.injEq] at h1 ⊢
      rcases h1 with h1 | h1
      · exact Or.inl h1.1
      · exact Or.inr h1.1
    by_cases h8 : l % 8 = 0
    · rcases (outcome_actions ((r.take (l - 4)).drop 4)).2.2 with ⟨s, ss, h3, _⟩ | ⟨e, he⟩
      · exact Or.inl ⟨_, .acts k name l r ss h1 hl h8 h3⟩
      · exact Or.inr ⟨e, .acts k l r e h2 hl h8 he⟩
    · exact Or.inr ⟨_, .eights k l r h2 hl h8⟩
  rcases Nat.lt_or_ge k 7 with hk7 | hk7
  · have : k = 0 ∨ k = 1 ∨ k = 2 ∨ k = 3 ∨ k = 4 ∨ k = 5 ∨ k = 6 := by omega
    rcases this with rfl | rfl | rfl | rfl | rfl | rfl | rfl
    · exact Or.inl ⟨_, .unknown 0 l r (by omega) hl (Or.inl rfl)⟩
    · by_cases c : l = 8
      · subst c
        obtain ⟨n, r, rfl⟩ := cut_byte r (by omega)
        exact Or.inl ⟨_, .goto n r _ (decimal_fmtD _)⟩
      · exact Or.inr (hfix 8 (by decide) c)
    · by_cases c : l = 24
      · subst c
        by_cases h20 : r.length < 20
        · exact Or.inr ⟨_, .metadata r h20⟩
        obtain ⟨x, r, hx, rfl⟩ := cut_list 4 r (by omega)
        rw [List.length_append, hx] at h20
        obtain ⟨v, r, hv, rfl⟩ := cut64 r (by omega)
        rw [List.length_append, u64_length] at h20
        obtain ⟨m, r, hm, rfl⟩ := cut64 r (by omega)
        by_cases c0 : m = 0
        · subst c0
          exact Or.inl ⟨_, .metadata x v r _ hx hv ((hexShown_iff _ _ _).2 rfl)⟩
        · exact Or.inl ⟨_, .masked x v m r _ _ hx hv (by omega) hm ((hexShown_iff _ _ _).2 rfl) ((hexShown_iff _ _ _).2 rfl)⟩
      · exact Or.inr (hfix 24 (by decide) c)
    · exact hacts t!"@write" (by decide)
    · exact hacts t!"@apply" (by decide)
    · by_cases c : l = 8
      · subst c
        exact Or.inl ⟨_, .clear r⟩
      · exact Or.inr (hfix 8 (by decide) c)
    · by_cases c : l = 8
      · subst c
        by_cases h4 : r.length < 4
        · exact Or.inr ⟨_, .meter r h4⟩
        · obtain ⟨n, r, hn, rfl⟩ := cut32 r (by omega)
          exact Or.inl ⟨_, .meter n r _ hn (decimal_fmtD _)⟩
      · exact Or.inr (hfix 8 (by decide) c)
  · exact Or.inl ⟨_, .unknown k l r hk hl (Or.inr (by omega))⟩

theorem outcome_inst (b : Bytes) (h : 5 ≤ b.length) : OutcomeOf (inst2strOne b) (InstPrinted b) (InstFails b) :=
  ⟨fun _ => inst_printed, fun _ => inst_fails, inst_all b h⟩

theorem outcome_insts (b : Bytes) :
    OutcomeOf (inst2str b) (fun s => ∃ tss, InstsPrinted b tss ∧ s = joinStr t!"," tss.flatten) (InstsFail b) := by
  have h := outcome_loop (least := 5) (len := lenField) (P := InstPrinted) (F := InstFails) (one := inst2strOne)
    (f := fun ts => ts) (go := inst2strGo) (fun _ => rfl)
    (fun n b h => by unfold inst2strGo; rw [if_pos (by omega)])
    (fun n b h => by
      conv => lhs; unfold inst2strGo
      rw [if_neg (by omega), lenField_uAt b (by omega)])
    (by omega) outcome_inst (b.length + 1) b (by omega)
  refine (h.map (f := joinStr t!",")).congr (fun s => ?_) (fun e => Iff.rfl)
  constructor
  · rintro ⟨ts, ⟨tss, h1, rfl⟩, rfl⟩
    exact ⟨tss, h1, by simp [List.flatMap]⟩
  · rintro ⟨tss, h1, rfl⟩
    exact ⟨tss.flatten, ⟨tss, h1, by simp [List.flatMap]⟩, rfl⟩

theorem outcome_inst1 (b : Bytes) :
    OutcomeOf (inst2str1 b) (fun s => (b.length ≤ 4 ∧ s = []) ∨ (4 < b.length ∧ ∃ ts, InstPrinted b ts ∧ s = joinStr t!"," ts))
      (fun e => 4 < b.length ∧ InstFails b e) := by
  unfold inst2str1
  by_cases hl : b.length ≤ 4
  · rw [if_pos hl]
    refine (OutcomeOf.pure ([] : Str)).congr (fun s => ⟨fun h => Or.inl ⟨hl, h⟩, ?_⟩) (fun e => ⟨False.elim, fun h => ?_⟩)
    · rintro (⟨_, h⟩ | ⟨h, _⟩)
      · exact h
      · omega
    · exact absurd h.1 (by omega)
  · rw [if_neg hl]
    refine ((outcome_inst b (by omega)).map (f := joinStr t!",")).congr (fun s => ?_) (fun e => ?_)
    · constructor
      · exact fun h => Or.inr ⟨by omega, h⟩
      · rintro (⟨h, _⟩ | ⟨_, h⟩)
        · omega
        · exact h
    · exact ⟨fun h => ⟨by omega, h⟩, fun h => h.2⟩

end Ofpstr
