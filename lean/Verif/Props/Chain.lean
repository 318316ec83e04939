import Verif.Lemmas.Chain
import Verif.Lemmas.ActEnds
import Verif.Props.ActExact

/-!
# C62: a list is printed item by item
-/

set_option linter.unusedSimpArgs false

namespace Ofpstr
open Spec

theorem drop_next (msg : Bytes) (n k : Nat) (h : k < msg.length) :
    msg.drop n = msg ∨ (msg.drop n).length < msg.length := by
  cases n with
  | zero => exact Or.inl rfl
  | succ n => right; rw [List.length_drop]; omega

/-- The wire bytes of a list, item by item: `one` prints the first item, `next` is where the second
begins, and shorter rests than `size` are dropped without a word. -/
def Chained (size : Nat) (next : Bytes → Nat) (all one : Bytes → Py Str) : Prop :=
  (∀ msg, msg.length < size → all msg = .ok [] ∧ one msg = .ok []) ∧
  ∀ msg, size ≤ msg.length →
    (∀ e, one msg = .error e → all msg = .error e) ∧
    ∀ t, one msg = .ok t →
      ((msg.drop (next msg)).length < size → all msg = .ok t) ∧
      (size ≤ (msg.drop (next msg)).length →
        (∀ e, all (msg.drop (next msg)) = .error e → all msg = .error e) ∧
        ∀ u, all (msg.drop (next msg)) = .ok u → all msg = .ok (t ++ ',' :: u))

theorem chained_of {size : Nat} {next : Bytes → Nat} {all one : Bytes → Py Str}
    (h1 : ∀ msg, msg.length < size → all msg = .ok [] ∧ one msg = .ok [])
    (h2 : ∀ msg, size ≤ msg.length → all msg = (do
      let t ← one msg
      if (msg.drop (next msg)).length < size then .ok t
      else do
        let u ← all (msg.drop (next msg))
        .ok (t ++ ',' :: u))) : Chained size next all one := by
  refine ⟨h1, fun msg hm => ⟨?_, ?_⟩⟩
  · intro e he
    rw [h2 msg hm, he]; rfl
  · intro t ht
    have h := h2 msg hm
    rw [ht, ok_bind] at h
    refine ⟨fun hs => by rw [h, if_pos hs], fun hs => ?_⟩
    rw [if_neg (by omega)] at h
    exact ⟨fun e he => by rw [h, he]; rfl, fun u hu => by rw [h, hu]; rfl⟩

theorem act2strGo_loop (fuel : Nat) (msg : Bytes) : act2strGo fuel msg =
    loopGo (fun m => decide (m.length < 5)) (fun m => do
      let t ← act2strOne m
      .ok [t]) (fun m => m.drop (uAt m 2 2)) fuel msg := by
  induction fuel generalizing msg with
  | zero => rfl
  | succ f ih =>
    rw [act2strGo, loopGo]
    by_cases h : msg.length ≤ 4
    · rw [if_pos h, if_pos (by simp; omega)]
    · rw [if_neg h, if_neg (by simp; omega), ← ih]
      cases act2strOne msg with
      | error e => rfl
      | ok t => rfl

theorem inst2strGo_loop (fuel : Nat) (msg : Bytes) : inst2strGo fuel msg =
    loopGo (fun m => decide (m.length < 5)) inst2strOne (fun m => m.drop (uAt m 2 2)) fuel msg := by
  induction fuel generalizing msg with
  | zero => rfl
  | succ f ih =>
    rw [inst2strGo, loopGo]
    by_cases h : msg.length ≤ 4
    · rw [if_pos h, if_pos (by simp; omega)]
    · rw [if_neg h, if_neg (by simp; omega), ← ih]

theorem oxm2strGo_loop (fuel : Nat) (msg : Bytes) : oxm2strGo fuel msg =
    loopGo (fun m => decide (m.length < 4)) (fun m => do
      let t ← oxm2strOne m
      .ok [t]) (fun m => m.drop (4 + uAt m 3 1)) fuel msg := by
  induction fuel generalizing msg with
  | zero => rfl
  | succ f ih =>
    rw [oxm2strGo, loopGo]
    by_cases h : msg.length < 4
    · rw [if_pos h, if_pos (by simpa using h)]
    · rw [if_neg h, if_neg (by simpa using h), ← ih]
      cases oxm2strOne msg with
      | error e => rfl
      | ok t => rfl

theorem inst2strOne_ne (msg : Bytes) (l : List Str) (h : inst2strOne msg = .ok l) : l ≠ [] := by
  unfold inst2strOne at h
  dsimp only at h
  have ha : ∀ n m k, instActions n m k = .ok l → l ≠ [] := by
    intro n m k h
    unfold instActions at h
    obtain ⟨_, _, h⟩ := bind_ok h
    obtain ⟨a, _, h⟩ := bind_ok h
    cases h
    split <;> simp
  split at h
  · obtain ⟨_, _, h⟩ := bind_ok h
    cases h; simp
  · split at h
    · obtain ⟨_, _, h⟩ := bind_ok h
      obtain ⟨_, _, h⟩ := bind_ok h
      split at h <;> (cases h; simp)
    · split at h
      · exact ha _ _ _ h
      · split at h
        · exact ha _ _ _ h
        · split at h
          · obtain ⟨_, _, h⟩ := bind_ok h
            cases h; simp
          · split at h
            · obtain ⟨_, _, h⟩ := bind_ok h
              obtain ⟨_, _, h⟩ := bind_ok h
              cases h; simp
            · cases h; simp

theorem single_ne {f : Bytes → Py Str} (msg : Bytes) (l : List Str)
    (h : (do let t ← f msg; .ok [t] : Py (List Str)) = .ok l) : l ≠ [] := by
  obtain ⟨t, _, h⟩ := bind_ok h
  cases h; simp

/-- C62: `act2str` prints the first action as `act2str(msg, loop=False)` does, and after a comma what
begins at the length in the header of the first action, as `act2str` prints it; up to four bytes are
nothing. -/
theorem C62_actions : Chained 5 lenField act2str act2str1 := by
  apply chained_of
  · intro msg h
    exact ⟨by unfold act2str; rw [act2strGo, if_pos (by omega)]; rfl, by unfold act2str1; rw [if_pos (by omega)]⟩
  · intro msg h
    rw [lenField_uAt msg (by omega)]
    have := loopText_step (stop := fun m => decide (m.length < 5)) (one := fun m => do
      let t ← act2strOne m
      .ok [t]) (next := fun m => m.drop (uAt m 2 2)) (fun m hm => drop_next m _ 4 (by simp at hm; omega))
      single_ne msg (by simpa using h)
    simp only [← act2strGo_loop] at this
    unfold act2str act2str1
    rw [this, if_neg (by omega)]
    cases act2strOne msg with
    | error e => rfl
    | ok t =>
      simp only [ok_bind, joinStr, decide_eq_true_eq]

/-- C62 for instructions. -/
theorem C62_instructions : Chained 5 lenField inst2str inst2str1 := by
  apply chained_of
  · intro msg h
    exact ⟨by unfold inst2str; rw [inst2strGo, if_pos (by omega)]; rfl, by unfold inst2str1; rw [if_pos (by omega)]⟩
  · intro msg h
    rw [lenField_uAt msg (by omega)]
    have := loopText_step (stop := fun m => decide (m.length < 5)) (one := inst2strOne)
      (next := fun m => m.drop (uAt m 2 2)) (fun m hm => drop_next m _ 4 (by simp at hm; omega))
      inst2strOne_ne msg (by simpa using h)
    simp only [← inst2strGo_loop] at this
    unfold inst2str inst2str1
    rw [this, if_neg (by omega)]
    cases inst2strOne msg with
    | error e => rfl
    | ok t => simp only [ok_bind, joinStr, decide_eq_true_eq]

/-- The length of a match entry by its header. -/
def oxmLen (b : Bytes) : Nat := 4 + (b.getD 3 0).toNat

/-- C62 for matches: the length of the first entry is in its fourth byte. -/
theorem C62_matches : Chained 4 oxmLen oxm2str oxm2str1 := by
  apply chained_of
  · intro msg h
    exact ⟨by unfold oxm2str; rw [oxm2strGo, if_pos h]; rfl, by unfold oxm2str1; rw [if_pos h]⟩
  · intro msg h
    have hl : oxmLen msg = 4 + uAt msg 3 1 := by
      match msg, h with
      | a :: b :: c :: d :: r, _ => simp [oxmLen, uAt, slice, beVal]
    rw [hl]
    have := loopText_step (stop := fun m => decide (m.length < 4)) (one := fun m => do
      let t ← oxm2strOne m
      .ok [t]) (next := fun m => m.drop (4 + uAt m 3 1)) (fun m hm => drop_next m _ 3 (by simp at hm; omega))
      single_ne msg (by simpa using h)
    simp only [← oxm2strGo_loop] at this
    unfold oxm2str oxm2str1
    rw [this, if_neg (by omega)]
    cases oxm2strOne msg with
    | error e => rfl
    | ok t => simp only [ok_bind, joinStr, decide_eq_true_eq]

/-- The length of an OXM id by its class: eight bytes for experimenter fields. -/
def oxmIdLen (b : Bytes) : Nat := if b.take 2 = [255, 255] then 8 else 4

theorem oxmIdLen_of (msg : Bytes) (h : 4 ≤ msg.length) (t : Str) (n : Nat) (ho : oxmid2strOne msg = .ok (t, n)) :
    n = oxmIdLen msg := by
  have hc : (uAt msg 0 2 == OFPXMC_EXPERIMENTER) = true ↔ msg.take 2 = [255, 255] := by
    match msg, h with
    | a :: b :: r, _ =>
      simp only [uAt, slice, beVal, List.take, List.drop, List.foldl, OFPXMC_EXPERIMENTER, beq_iff_eq,
        List.cons.injEq, and_true, ← UInt8.toNat_inj]
      have := a.toNat_lt
      have := b.toNat_lt
      simp
      omega
  unfold oxmid2strOne at ho
  dsimp only at ho
  unfold oxmIdLen
  by_cases hx : (uAt msg 0 2 == OFPXMC_EXPERIMENTER) = true
  · rw [if_pos hx] at ho
    rw [if_pos (hc.1 hx)]
    obtain ⟨_, _, ho⟩ := bind_ok ho
    split at ho
    · obtain ⟨_, _, ho⟩ := bind_ok ho
      cases ho; rfl
    · cases ho; rfl
  · rw [if_neg hx] at ho
    rw [if_neg (fun h => hx (hc.2 h))]
    repeat' split at ho
    all_goals first
      | (obtain ⟨_, _, ho⟩ := bind_ok ho; cases ho; rfl)
      | (cases ho; rfl)

theorem oxmid2strGo_loop (fuel : Nat) (msg : Bytes) : oxmid2strGo fuel msg =
    loopGo (fun m => decide (m.length < 4)) (fun m => do
      let (t, _) ← oxmid2strOne m
      .ok [t]) (fun m => m.drop (oxmIdLen m)) fuel msg := by
  induction fuel generalizing msg with
  | zero => rfl
  | succ f ih =>
    rw [oxmid2strGo, loopGo]
    by_cases h : msg.length < 4
    · rw [if_pos h, if_pos (by simpa using h)]
    · rw [if_neg h, if_neg (by simpa using h), ← ih]
      cases ho : oxmid2strOne msg with
      | error e => rfl
      | ok t =>
        obtain ⟨t, n⟩ := t
        obtain rfl := oxmIdLen_of msg (by omega) t n ho
        rfl

/-- C62 for OXM ids. -/
theorem C62_ids : Chained 4 oxmIdLen oxmid2str oxmid2str1 := by
  apply chained_of
  · intro msg h
    exact ⟨by unfold oxmid2str; rw [oxmid2strGo, if_pos h]; rfl, by unfold oxmid2str1; rw [if_pos h]⟩
  · intro msg h
    have := loopText_step (stop := fun m => decide (m.length < 4)) (one := fun m => do
      let (t, _) ← oxmid2strOne m
      .ok [t]) (next := fun m => m.drop (oxmIdLen m)) (fun m hm => drop_next m _ 3 (by simp at hm; omega))
      (fun m l hl => by obtain ⟨x, _, hl⟩ := bind_ok hl; cases hl; simp) msg (by simpa using h)
    simp only [← oxmid2strGo_loop] at this
    unfold oxmid2str oxmid2str1
    rw [this, if_neg (by omega)]
    cases oxmid2strOne msg with
    | error e => rfl
    | ok t => simp only [ok_bind, joinStr, decide_eq_true_eq]

example : oxmid2str ([255, 255, 4, 5, 0xff, 0x00, 0xe0, 0x4d] ++ fReg0.id) = .ok t!"dot11,nxm_reg0" := by decide +kernel

/-- Two actions and a rest of three bytes. -/
example : act2str ((Act.output 1 0xffff).wire ++ ((Act.output 2 0xffff).wire ++ [0, 0, 0])) = .ok t!"output=1,output=2" ∧
    act2str1 ((Act.output 1 0xffff).wire ++ ((Act.output 2 0xffff).wire ++ [0, 0, 0])) = .ok t!"output=1" ∧
    inst2str1 ((Inst.goto 3).wire ++ Inst.clear.wire) = .ok t!"@goto=3" ∧
    inst2str ((Inst.goto 3).wire ++ Inst.clear.wire) = .ok t!"@goto=3,@clear" := by decide +kernel

/-- Five bytes are an action, and more bytes than there are may be skipped. -/
example : act2str [0, 99, 0, 8, 0] = .ok t!"?" ∧ act2str1 [0, 99, 0, 8, 0] = .ok t!"?" ∧ act2str [0, 99, 0, 8] = .ok [] := by
  decide +kernel

end Ofpstr
