import Verif.Model.Cli
import Verif.Spec.Cli
import Verif.Lemmas.MpEnds

/-!
# Lemmas about reading messages from a socket
-/

set_option linter.unusedSimpArgs false
set_option linter.unusedVariables false

namespace Ofpstr
open Spec

/-! ## Reading -/

theorem recv_flatten (n : Nat) (s : Sock) : (recv n s).1 ++ (recv n s).2.flatten = s.flatten := by
  cases s with
  | nil => rfl
  | cons c cs =>
    rw [recv]
    split
    · rfl
    · dsimp only; rw [List.flatten_cons, List.flatten_cons, ← List.append_assoc, List.take_append_drop]

theorem recv_length (n : Nat) (s : Sock) : (recv n s).1.length ≤ n := by
  cases s with
  | nil => exact Nat.zero_le _
  | cons c cs =>
    rw [recv]
    split
    · assumption
    · dsimp only; rw [List.length_take]; omega

theorem recv_noempty (n : Nat) (s : Sock) (h : [] ∉ s) : [] ∉ (recv n s).2 := by
  cases s with
  | nil => exact h
  | cons c cs =>
    rw [recv]
    split
    · exact fun h' => h (List.mem_cons_of_mem _ h')
    · dsimp only
      intro h'
      rcases List.mem_cons.1 h' with h' | h'
      · have := congrArg List.length h'
        rw [List.length_drop, List.length_nil] at this
        omega
      · exact h (List.mem_cons_of_mem _ h')

theorem sockBytes_flatten (s : Sock) : sockBytes s = s.flatten.length := by
  rw [sockBytes, List.length_flatten]

theorem recv_bytes (n : Nat) (s : Sock) : (recv n s).1.length + sockBytes (recv n s).2 = sockBytes s := by
  rw [sockBytes_flatten, sockBytes_flatten, ← recv_flatten n s, List.length_append]

/-- Parts in a row. -/
def Cut (s : Sock) (ps : List Bytes) : Prop :=
  ∃ gs : List (List Bytes), s = gs.map List.flatten ∧ [] ∉ gs ∧ gs.flatten = ps

theorem cut_recv (s : Sock) (p : Bytes) (ps : List Bytes) (hp : ∀ q ∈ ps, q ≠ []) (h : Cut s (p :: ps)) :
    (recv p.length s).1 = p ∧ Cut (recv p.length s).2 ps := by
  obtain ⟨gs, rfl, hg, hf⟩ := h
  cases gs with
  | nil => cases hf
  | cons g gs =>
    cases g with
    | nil => exact absurd (List.mem_cons_self) hg
    | cons q g =>
      rw [List.flatten_cons, List.cons_append] at hf
      injection hf with hq hf
      subst hq
      rw [List.map_cons, List.flatten_cons, recv]
      have hg' : [] ∉ gs := fun h => hg (List.mem_cons_of_mem _ h)
      by_cases h0 : g = []
      · subst h0
        rw [if_pos (by rw [List.flatten_nil, List.append_nil])]
        exact ⟨List.append_nil _, gs, rfl, hg', hf⟩
      · have hpos : 0 < g.flatten.length := by
          obtain ⟨q', g', rfl⟩ := List.exists_cons_of_ne_nil h0
          rw [List.flatten_cons, List.length_append]
          have := List.length_pos_of_ne_nil (hp q' (by rw [← hf]; simp))
          omega
        rw [if_neg (by rw [List.length_append]; omega)]
        refine ⟨List.take_left' rfl, g :: gs, ?_, ?_, hf⟩
        · dsimp only; rw [List.drop_left' rfl, List.map_cons]
        · intro h
          rcases List.mem_cons.1 h with h | h
          · exact h0 h.symm
          · exact hg' h

theorem cut_of_recv (s : Sock) (n : Nat) (ps : List Bytes) (hs : [] ∉ s) (hn : (recv n s).1.length = n) (h0 : 0 < n)
    (h : Cut (recv n s).2 ps) : Cut s ((recv n s).1 :: ps) := by
  cases s with
  | nil => rw [recv] at hn; simp at hn; omega
  | cons c cs =>
    rw [recv] at h hn ⊢
    split at h <;> rename_i hc
    · rw [if_pos hc] at hn ⊢
      obtain ⟨gs, h1, h2, h3⟩ := h
      dsimp only at h1 hn ⊢
      refine ⟨[c] :: gs, ?_, ?_, ?_⟩
      · rw [List.map_cons, ← h1, List.flatten_cons, List.flatten_nil, List.append_nil]
      · simp [h2]
      · rw [List.flatten_cons, h3]; rfl
    · rw [if_neg hc] at hn ⊢
      obtain ⟨gs, h1, h2, h3⟩ := h
      dsimp only at h1 hn ⊢
      cases gs with
      | nil => cases h1
      | cons g gs =>
        rw [List.map_cons] at h1
        obtain ⟨h1, h1'⟩ := List.cons.inj h1
        refine ⟨(c.take n :: g) :: gs, ?_, ?_, ?_⟩
        · rw [List.map_cons, List.flatten_cons, ← h1, List.take_append_drop, h1']
        · intro h
          rcases List.mem_cons.1 h with h | h
          · cases h
          · exact h2 (List.mem_cons_of_mem _ h)
        · rw [List.flatten_cons, List.cons_append, ← List.flatten_cons, h3]

theorem msgParts_ne (ms : List Bytes) (h : ∀ m ∈ ms, IsMsg m) : ∀ p ∈ ms.flatMap msgParts, p ≠ [] := by
  intro p hp
  obtain ⟨m, hm, hp⟩ := List.mem_flatMap.1 hp
  have h8 := (h m hm).1
  unfold msgParts at hp
  split at hp
  · rw [List.mem_singleton.1 hp]
    intro h; rw [h] at h8; simp at h8
  · rename_i hl
    rcases List.mem_cons.1 hp with hp | hp
    · subst hp
      intro h; have := congrArg List.length h; rw [List.length_take, List.length_nil] at this; omega
    · rw [List.mem_singleton.1 hp]
      intro h; have := congrArg List.length h; rw [List.length_drop, List.length_nil] at this; omega

theorem uAt_take8 (m : Bytes) : uAt (m.take 8) 2 2 = uAt m 2 2 := by
  unfold uAt slice
  rw [List.take_take]
  rfl

/-! ## One message -/

theorem nextMsg_cut (m : Bytes) (ms : List Bytes) (s : Sock) (h : ∀ x ∈ m :: ms, IsMsg x) (hc : CutAtParts (m :: ms) s) :
    ∃ s', nextMsg s = .ok (m, s') ∧ CutAtParts ms s' ∧ sockBytes s' + 8 ≤ sockBytes s := by
  have hm := h m List.mem_cons_self
  have hne := msgParts_ne ms fun x hx => h x (List.mem_cons_of_mem _ hx)
  have h8 := hm.1
  have hw : uAt m 2 2 = m.length := by rw [← word16_uAt m 2 (by omega)]; exact hm.2
  have hc' : Cut s (msgParts m ++ ms.flatMap msgParts) := hc
  by_cases hl : m.length ≤ 8
  · rw [msgParts, if_pos hl] at hc'
    obtain ⟨r1, r2⟩ := cut_recv s m _ hne hc'
    have h8' : m.length = 8 := by omega
    have rb := recv_bytes 8 s
    rw [h8'] at r1 r2
    refine ⟨_, ?_, r2, by rw [r1] at rb; omega⟩
    unfold nextMsg
    rw [show recv 8 s = (m, (recv 8 s).2) from Prod.ext r1 rfl]
    dsimp only
    rw [if_neg (by simp [h8']), if_neg (by omega)]
  · rw [msgParts, if_neg hl] at hc'
    have hne' : ∀ q ∈ m.drop 8 :: ms.flatMap msgParts, q ≠ [] := by
      intro q hq
      rcases List.mem_cons.1 hq with hq | hq
      · subst hq; intro h; have := congrArg List.length h; rw [List.length_drop, List.length_nil] at this; omega
      · exact hne q hq
    obtain ⟨r1, r2⟩ := cut_recv s (m.take 8) _ hne' hc'
    rw [show (m.take 8).length = 8 from by rw [List.length_take]; omega] at r1 r2
    obtain ⟨r3, r4⟩ := cut_recv _ (m.drop 8) _ hne r2
    rw [List.length_drop] at r3 r4
    have rb := recv_bytes 8 s
    have rb2 := recv_bytes (m.length - 8) (recv 8 s).2
    refine ⟨_, ?_, r4, by rw [r1, List.length_take] at rb; omega⟩
    unfold nextMsg
    rw [show recv 8 s = (m.take 8, (recv 8 s).2) from Prod.ext r1 rfl]
    dsimp only
    rw [if_neg (by simp; omega), uAt_take8, hw, if_pos (by omega)]
    rw [show recv (m.length - 8) (recv 8 s).2 = (m.drop 8, (recv (m.length - 8) (recv 8 s).2).2) from Prod.ext r3 rfl]
    dsimp only
    rw [List.take_append_drop]

theorem nextMsg_inv (s s' : Sock) (m : Bytes) (h : nextMsg s = .ok (m, s')) (hs : [] ∉ s) :
    m ++ s'.flatten = s.flatten ∧ [] ∉ s' ∧ sockBytes s' + 8 ≤ sockBytes s ∧ 8 ≤ m.length ∧
    (IsMsg m → ∀ ps, Cut s' ps → Cut s (msgParts m ++ ps)) := by
  unfold nextMsg at h
  have f1 := recv_flatten 8 s
  have b1 := recv_bytes 8 s
  have e1 := recv_noempty 8 s hs
  have c1 := cut_of_recv s 8 (hs := hs) (h0 := by decide)
  generalize hr : recv 8 s = r at h f1 b1 e1 c1
  obtain ⟨hd, s1⟩ := r
  dsimp only at h f1 b1 e1 c1
  split at h
  · cases h
  · rename_i h8
    have h8 : hd.length = 8 := by simpa using h8
    split at h
    · rename_i hbig
      have f2 := recv_flatten (uAt hd 2 2 - 8) s1
      have b2 := recv_bytes (uAt hd 2 2 - 8) s1
      have e2 := recv_noempty (uAt hd 2 2 - 8) s1 e1
      have l2 := recv_length (uAt hd 2 2 - 8) s1
      have c2 := cut_of_recv s1 (uAt hd 2 2 - 8) (hs := e1)
      generalize hr2 : recv (uAt hd 2 2 - 8) s1 = r2 at h f2 b2 e2 l2 c2
      obtain ⟨bd, s2⟩ := r2
      dsimp only at h f2 b2 e2 l2 c2
      cases h
      refine ⟨by rw [List.append_assoc, f2, f1], e2, by omega, by rw [List.length_append]; omega, ?_⟩
      intro hm ps hps
      have hw : uAt hd 2 2 = (hd ++ bd).length := by
        rw [← hm.2, word16_uAt _ 2 (by rw [List.length_append]; omega), ← uAt_take8 (hd ++ bd), List.take_left' h8]
      rw [List.length_append] at hw
      rw [msgParts, if_neg (by rw [List.length_append]; omega), List.take_left' h8, List.drop_left' h8]
      exact c1 _ h8 (c2 _ (by omega) (by omega) hps)
    · rename_i hsm
      cases h
      refine ⟨f1, e1, by omega, by omega, ?_⟩
      intro hm ps hps
      rw [msgParts, if_pos (by omega)]
      exact c1 _ h8 hps

theorem nextMsg_closed : nextMsg [] = .error .structError := by decide

/-! ## All messages -/

theorem cliMsgs_cut (ms : List Bytes) (s : Sock) (fuel : Nat) (h : ∀ m ∈ ms, IsMsg m) (hc : CutAtParts ms s)
    (hf : sockBytes s < fuel) : cliMsgs fuel s = (ms, .structError) := by
  induction ms generalizing s fuel with
  | nil =>
    obtain ⟨gs, rfl, h1, h2⟩ := hc
    cases gs with
    | cons g gs =>
      cases g with
      | nil => exact absurd List.mem_cons_self h1
      | cons => simp at h2
    | nil =>
      cases fuel with
      | zero => omega
      | succ f => rfl
  | cons m ms ih =>
    obtain ⟨s', h1, h2, h3⟩ := nextMsg_cut m ms s h hc
    cases fuel with
    | zero => omega
    | succ f =>
      rw [cliMsgs, h1]
      dsimp only
      rw [ih s' f (fun x hx => h x (List.mem_cons_of_mem _ hx)) h2 (by omega)]

theorem cut_of_cliMsgs (ms : List Bytes) (s : Sock) (fuel : Nat) (e : Err) (h : ∀ m ∈ ms, IsMsg m) (hs : Segments ms s)
    (hc : cliMsgs fuel s = (ms, e)) : CutAtParts ms s := by
  induction ms generalizing s fuel with
  | nil =>
    cases s with
    | nil => exact ⟨[], rfl, by simp, rfl⟩
    | cons c cs =>
      have := hs.1
      rw [List.flatten_cons, List.flatten_nil] at this
      exact absurd (by rw [(List.append_eq_nil_iff.1 this).1]; exact List.mem_cons_self) hs.2
  | cons m ms ih =>
    cases fuel with
    | zero => cases hc
    | succ f =>
      rw [cliMsgs] at hc
      split at hc
      · cases hc
      · rename_i m' s' hn
        generalize hr : cliMsgs f s' = r at hc
        obtain ⟨ms', e'⟩ := r
        cases hc
        obtain ⟨i1, i2, i3, i4, i5⟩ := nextMsg_inv s s' m hn hs.2
        have := hs.1
        rw [← i1, List.flatten_cons] at this
        exact i5 (h m List.mem_cons_self) _ (ih s' f (fun x hx => h x (List.mem_cons_of_mem _ hx))
          ⟨List.append_cancel_left this, i2⟩ hr)

/-! ## The loops of `ofctl` -/

theorem cut_nil {s : Sock} (h : CutAtParts [] s) : s = [] := by
  obtain ⟨gs, rfl, h1, h2⟩ := h
  cases gs with
  | nil => rfl
  | cons g gs =>
    cases g with
    | nil => exact absurd List.mem_cons_self h1
    | cons => simp at h2

theorem msgType_uAt (m : Bytes) (h : 8 ≤ m.length) : uAt m 1 1 = msgType m := (byte_uAt m 1 (by omega)).symm

theorem msgXid_uAt (m : Bytes) (h : 8 ≤ m.length) : uAt m 4 4 = msgXid m := by
  rw [msgXid, word16_uAt m 4 (by omega), word16_uAt m 6 (by omega)]
  have : slice m 4 8 = slice m 4 6 ++ slice m 6 8 := by
    unfold slice
    rw [show m.take 8 = m.take 6 ++ (m.take 8).drop 6 from by
      rw [show m.take 6 = (m.take 8).take 6 from by rw [List.take_take]; rfl, List.take_append_drop],
      List.drop_append, List.length_take, show 4 - min 6 m.length = 0 from by omega, List.drop_zero,
      List.drop_append, List.length_take, show 6 - min 6 m.length = 0 from by omega, List.drop_zero,
      List.drop_eq_nil_of_le (as := m.take 6) (i := 6) (by rw [List.length_take]; omega), List.nil_append]
  unfold uAt
  rw [show (4 + 4) = 8 from rfl, this, beVal_append]
  congr 2
  rw [show (slice m 6 8).length = 2 from by unfold slice; rw [List.length_drop, List.length_take]; omega]
  rfl

/-- The wait for the barrier reply, over the messages of the stream. -/
theorem waitGo_cut (ms : List Bytes) (s : Sock) (fuel : Nat) (h : ∀ m ∈ ms, IsMsg m) (hc : CutAtParts ms s)
    (hf : sockBytes s < fuel) :
    waitGo fuel s = if ∃ m ∈ ms, msgType m = 21 ∧ msgXid m = 3 then .ok () else .error (.py .structError) := by
  induction ms generalizing s fuel with
  | nil =>
    rw [cut_nil hc]
    cases fuel with
    | zero => omega
    | succ f => rw [if_neg (by simp), waitGo, nextMsg_closed]
  | cons m ms ih =>
    obtain ⟨s', h1, h2, h3⟩ := nextMsg_cut m ms s h hc
    have hm := h m List.mem_cons_self
    cases fuel with
    | zero => omega
    | succ f =>
      rw [waitGo, h1]
      dsimp only
      rw [if_neg (by
        rw [← word16_uAt m 2 (by have := hm.1; omega), hm.2]
        have := hm.1
        simp; omega), msgType_uAt m hm.1, msgXid_uAt m hm.1, ih s' f (fun x hx => h x (List.mem_cons_of_mem _ hx)) h2 (by omega)]
      by_cases hb : msgType m = 21 ∧ msgXid m = 3
      · rw [if_pos (by simp [hb.1, hb.2]), if_pos ⟨m, List.mem_cons_self, hb⟩]
      · rw [if_neg (by simpa using hb)]
        congr 1
        simp [hb]

theorem waitGo_ends (s : Sock) (fuel : Nat) (hf : sockBytes s < fuel) : waitGo fuel s ≠ .error (.py .loops) := by
  induction fuel generalizing s with
  | zero => omega
  | succ f ih =>
    rw [waitGo]
    split
    · rename_i e he
      intro h
      have : e = .loops := by injection h with h; injection h
      subst this
      unfold nextMsg at he
      dsimp only at he
      split at he
      · cases he
      · split at he <;> cases he
    · rename_i m s' hm
      split
      · intro h; cases h
      · split
        · intro h; cases h
        · refine ih s' ?_
          have b1 := recv_bytes 8 s
          unfold nextMsg at hm
          dsimp only at hm
          split at hm
          · cases hm
          · rename_i h8
            have h8 : (recv 8 s).1.length = 8 := by simpa using h8
            split at hm
            · cases hm
              have := recv_bytes (uAt (recv 8 s).1 2 2 - 8) (recv 8 s).2
              omega
            · cases hm; omega

/-- The dump loop, over the messages of the stream: messages that are not parts are skipped. -/
theorem dumpGo_skip (k : Nat) (decode : Bytes → Py Str) (m : Bytes) (ms : List Bytes) (s : Sock) (fuel : Nat)
    (h : ∀ x ∈ m :: ms, IsMsg x) (hc : CutAtParts (m :: ms) s) (hp : ¬ IsPart k m) :
    ∃ s', CutAtParts ms s' ∧ sockBytes s' < sockBytes s ∧ dumpGo k decode (fuel + 1) s = dumpGo k decode fuel s' := by
  obtain ⟨s', h1, h2, h3⟩ := nextMsg_cut m ms s h hc
  refine ⟨s', h2, by omega, ?_⟩
  have hm := (h m List.mem_cons_self).1
  rw [dumpGo, h1]
  dsimp only
  by_cases h16 : m.length < 16
  · rw [if_pos h16]
  · rw [if_neg h16, if_pos]
    rw [msgType_uAt m hm, ← word16_uAt m 8 (by omega)]
    unfold IsPart at hp
    by_cases h19 : msgType m = 19
    · have : word16 m 8 ≠ k := fun hk => hp ⟨by omega, h19, hk⟩
      simp [this]
    · simp [h19]

/-- A part is decoded; the flags say whether the loop goes on. -/
theorem dumpGo_part (k : Nat) (decode : Bytes → Py Str) (m : Bytes) (ms : List Bytes) (s : Sock) (fuel : Nat)
    (h : ∀ x ∈ m :: ms, IsMsg x) (hc : CutAtParts (m :: ms) s) (hp : IsPart k m) :
    ∃ s', CutAtParts ms s' ∧ sockBytes s' < sockBytes s ∧ dumpGo k decode (fuel + 1) s =
      match decode m with
      | .error e => ([], .error (.py e))
      | .ok t => if partFlags m = 0 then ([t], .ok ()) else (t :: (dumpGo k decode fuel s').1, (dumpGo k decode fuel s').2) := by
  obtain ⟨s', h1, h2, h3⟩ := nextMsg_cut m ms s h hc
  refine ⟨s', h2, by omega, ?_⟩
  have hm := (h m List.mem_cons_self).1
  obtain ⟨p1, p2, p3⟩ := hp
  rw [dumpGo, h1]
  dsimp only
  rw [if_neg (by omega), if_neg (by rw [msgType_uAt m hm, ← word16_uAt m 8 (by omega), p2, p3]; simp)]
  cases decode m with
  | error e => rfl
  | ok t =>
    dsimp only
    rw [← word16_uAt m 10 (by omega)]
    by_cases hfl : partFlags m = 0
    · rw [if_pos (by simpa [partFlags] using hfl), if_pos hfl]
    · rw [if_neg (by simpa [partFlags] using hfl), if_neg hfl]

end Ofpstr
