import Verif.Spec.CliRun
import Verif.Lemmas.Cli

/-!
# Lemmas: runs of the command line tool
-/

set_option linter.unusedSimpArgs false

namespace Ofpstr
open Spec

theorem recv_iff (n : Nat) (s : Sock) (h : Bytes) (s' : Sock) : recv n s = (h, s') ↔ OneRead n s h s' := by
  constructor
  · intro hr
    cases s with
    | nil => cases hr; exact .closed
    | cons c cs =>
      rw [recv] at hr
      split at hr
      · cases hr; exact .whole _ _ ‹_›
      · cases hr
        have hlt : n < c.length := by omega
        have := OneRead.part (n := n) (c.take n) (c.drop n) cs (by rw [List.length_take]; omega)
          (by intro h0; have := congrArg List.length h0; rw [List.length_drop] at this; simp at this; omega)
        rwa [List.take_append_drop] at this
  · intro hr
    cases hr with
    | closed => rfl
    | whole c cs hl => rw [recv, if_pos hl]
    | part a b cs hl hb =>
      have : 0 < b.length := List.length_pos_iff.2 hb
      rw [recv, if_neg (by rw [List.length_append]; omega), ← hl]
      simp

theorem nextMsg_ok (s : Sock) (m : Bytes) (s' : Sock) : nextMsg s = .ok (m, s') ↔ MsgRead s m s' := by
  unfold nextMsg
  constructor
  · intro h
    rcases hr : recv 8 s with ⟨hd, s1⟩
    rw [hr] at h
    dsimp only at h
    have h1 := (recv_iff _ _ _ _).1 hr
    by_cases h8 : hd.length = 8
    · rw [if_neg (by simpa using h8)] at h
      have hw : uAt hd 2 2 = word16 hd 2 := (word16_uAt hd 2 (by omega)).symm
      rw [hw] at h
      by_cases hl : word16 hd 2 > 8
      · rw [if_pos hl] at h
        rcases hr2 : recv (word16 hd 2 - 8) s1 with ⟨bd, s2⟩
        rw [hr2] at h
        cases h
        exact .long s hd s1 bd _ h1 h8 hl ((recv_iff _ _ _ _).1 hr2)
      · rw [if_neg hl] at h
        cases h
        exact .short s _ _ h1 h8 (by omega)
    · rw [if_pos (by simpa using h8)] at h
      cases h
  · intro h
    cases h with
    | short _ _ h1 h8 hl =>
      rw [(recv_iff _ _ _ _).2 h1]
      dsimp only
      rw [if_neg (by simpa using h8), ← word16_uAt m 2 (by omega), if_neg (by omega)]
    | long hd s1 bd _ h1 h8 hl h2 =>
      rw [(recv_iff _ _ _ _).2 h1]
      dsimp only
      rw [if_neg (by simpa using h8), ← word16_uAt hd 2 (by omega), if_pos (by omega), (recv_iff _ _ _ _).2 h2]

theorem nextMsg_error (s : Sock) (e : Err) : nextMsg s = .error e ↔ e = .structError ∧ NoMsg s := by
  unfold nextMsg NoMsg
  rcases hr : recv 8 s with ⟨hd, s1⟩
  dsimp only
  have h1 := (recv_iff _ _ _ _).1 hr
  by_cases h8 : hd.length = 8
  · rw [if_neg (by simpa using h8)]
    constructor
    · intro h
      split at h <;> cases h
    · rintro ⟨_, h', s', h2, hn⟩
      have := (recv_iff _ _ _ _).2 h2
      rw [hr] at this
      cases this
      exact absurd h8 hn
  · rw [if_pos (by simpa using h8)]
    exact ⟨fun h => by cases h; exact ⟨rfl, hd, s1, h1, h8⟩, fun h => by rw [h.1]⟩

theorem msgRead_bytes {s : List Bytes} {m : Bytes} {s' : List Bytes} (h : MsgRead s m s') : sockBytes s' + 8 ≤ sockBytes s ∧ 8 ≤ m.length := by
  cases h with
  | short _ _ h1 h8 hl =>
    have := recv_bytes 8 s
    rw [(recv_iff _ _ _ _).2 h1] at this
    dsimp only at this
    exact ⟨by omega, by omega⟩
  | long hd s1 bd _ h1 h8 hl h2 =>
    have a := recv_bytes 8 s
    rw [(recv_iff _ _ _ _).2 h1] at a
    have b := recv_bytes (word16 hd 2 - 8) s1
    rw [(recv_iff _ _ _ _).2 h2] at b
    dsimp only at a b
    exact ⟨by omega, by rw [List.length_append]; omega⟩

/-- How the model says how a run ends. -/
def outcomeOf : Ending → Except CliErr Unit
  | .fine => .ok ()
  | .usage => .error .eparam
  | .failed => .error .result
  | .raised e => .error (.py e)

theorem outcomeOf_inj {o o' : Ending} (h : outcomeOf o = outcomeOf o') : o = o' := by
  cases o <;> cases o' <;> simp_all [outcomeOf]

theorem outcomeOf_all (x : Except CliErr Unit) : ∃ o, x = outcomeOf o := by
  cases x with
  | ok u => exact ⟨.fine, rfl⟩
  | error e =>
    cases e with
    | eparam => exact ⟨.usage, rfl⟩
    | result => exact ⟨.failed, rfl⟩
    | py e => exact ⟨.raised e, rfl⟩

/-- One turn of the dump loop. -/
theorem dumpGo_msg (k : Nat) (decode : Bytes → Py Str) (fuel : Nat) {s : Sock} {m : Bytes} {s' : Sock} (h : MsgRead s m s') :
    dumpGo k decode (fuel + 1) s =
      if IsPart k m then
        match decode m with
        | .error e => ([], .error (.py e))
        | .ok t => if partFlags m = 0 then ([t], .ok ()) else (t :: (dumpGo k decode fuel s').1, (dumpGo k decode fuel s').2)
      else dumpGo k decode fuel s' := by
  have h8 := (msgRead_bytes h).2
  rw [dumpGo, (nextMsg_ok _ _ _).2 h]
  dsimp only
  by_cases hl : m.length < 16
  · rw [if_pos hl, if_neg (fun hp : IsPart k m => absurd hp.1 (by omega))]
  · rw [if_neg hl, msgType_uAt m h8, ← word16_uAt m 8 (by omega), ← word16_uAt m 10 (by omega)]
    by_cases hp : IsPart k m
    · rw [if_pos hp, if_neg (by rw [hp.2.1, hp.2.2]; simp)]
      cases decode m with
      | error e => rfl
      | ok t =>
        dsimp only
        by_cases hf : partFlags m = 0
        · rw [if_pos hf, if_pos (by simpa [partFlags] using hf)]
        · rw [if_neg hf, if_neg (by simpa [partFlags] using hf)]
    · rw [if_neg hp, if_pos]
      by_contra hc
      simp only [Bool.or_eq_true, bne_iff_ne, ne_eq, not_or, not_not] at hc
      exact hp ⟨by omega, hc.1, hc.2⟩

theorem dump_sound {k : Nat} {decode : Bytes → Py Str} {P : Bytes → Str → Prop} {F : Bytes → Err → Prop}
    (hP : ∀ b t, decode b = .ok t → P b t) (hF : ∀ b e, decode b = .error e → F b e) (fuel : Nat) (s : Sock) (hf : sockBytes s < fuel) :
    ∃ o, (dumpGo k decode fuel s).2 = outcomeOf o ∧ Dump k P F s (dumpGo k decode fuel s).1 o := by
  induction fuel generalizing s with
  | zero => omega
  | succ fuel ih =>
    cases hn : nextMsg s with
    | error e =>
      obtain ⟨rfl, h⟩ := (nextMsg_error s e).1 hn
      rw [dumpGo, hn]
      exact ⟨.raised .structError, rfl, .closed s h⟩
    | ok x =>
      obtain ⟨m, s'⟩ := x
      have hm := (nextMsg_ok _ _ _).1 hn
      have hb := (msgRead_bytes hm).1
      obtain ⟨o, ho, hd⟩ := ih s' (by omega)
      rw [dumpGo_msg k decode fuel hm]
      by_cases hp : IsPart k m
      · rw [if_pos hp]
        cases hc : decode m with
        | error e => exact ⟨.raised e, rfl, .bad s m s' e hm hp (hF m e hc)⟩
        | ok t =>
          dsimp only
          by_cases h0 : partFlags m = 0
          · rw [if_pos h0]
            exact ⟨.fine, rfl, .last s m s' t hm hp (hP m t hc) h0⟩
          · rw [if_neg h0]
            exact ⟨o, ho, .more s m s' t _ o hm hp (hP m t hc) h0 hd⟩
      · rw [if_neg hp]
        exact ⟨o, ho, .other s m s' _ o hm hp hd⟩

theorem dump_complete {k : Nat} {decode : Bytes → Py Str} {P : Bytes → Str → Prop} {F : Bytes → Err → Prop}
    (hP : ∀ b t, P b t → decode b = .ok t) (hF : ∀ b e, F b e → decode b = .error e) {s : List Bytes} {ts : List Str} {o : Ending}
    (h : Dump k P F s ts o) : ∀ fuel, sockBytes s < fuel → dumpGo k decode fuel s = (ts, outcomeOf o) := by
  induction h with
  | closed s hn =>
    intro fuel hf
    obtain ⟨fuel, rfl⟩ : ∃ f, fuel = f + 1 := ⟨fuel - 1, by omega⟩
    rw [dumpGo, (nextMsg_error s _).2 ⟨rfl, hn⟩]
    rfl
  | other s m s' ts o hm hp _ ih =>
    intro fuel hf
    obtain ⟨fuel, rfl⟩ : ∃ f, fuel = f + 1 := ⟨fuel - 1, by omega⟩
    have hb := (msgRead_bytes hm).1
    rw [dumpGo_msg k decode fuel hm, if_neg hp, ih fuel (by omega)]
  | bad s m s' e hm hp he =>
    intro fuel hf
    obtain ⟨fuel, rfl⟩ : ∃ f, fuel = f + 1 := ⟨fuel - 1, by omega⟩
    rw [dumpGo_msg k decode fuel hm, if_pos hp, hF m e he]
    rfl
  | last s m s' t hm hp ht h0 =>
    intro fuel hf
    obtain ⟨fuel, rfl⟩ : ∃ f, fuel = f + 1 := ⟨fuel - 1, by omega⟩
    rw [dumpGo_msg k decode fuel hm, if_pos hp, hP m t ht]
    dsimp only
    rw [if_pos h0]
    rfl
  | more s m s' t ts o hm hp ht h0 _ ih =>
    intro fuel hf
    obtain ⟨fuel, rfl⟩ : ∃ f, fuel = f + 1 := ⟨fuel - 1, by omega⟩
    have hb := (msgRead_bytes hm).1
    rw [dumpGo_msg k decode fuel hm, if_pos hp, hP m t ht]
    dsimp only
    rw [if_neg h0, ih fuel (by omega)]

/-- The dump loop is the relation. -/
theorem dump_iff {k : Nat} {decode : Bytes → Py Str} {P : Bytes → Str → Prop} {F : Bytes → Err → Prop}
    (hP : ∀ b t, decode b = .ok t ↔ P b t) (hF : ∀ b e, decode b = .error e ↔ F b e) (s : List Bytes) (ts : List Str) (o : Ending) :
    dumpGo k decode (sockBytes s + 1) s = (ts, outcomeOf o) ↔ Dump k P F s ts o := by
  constructor
  · intro h
    obtain ⟨o', ho, hd⟩ := dump_sound (k := k) (fun b t => (hP b t).1) (fun b e => (hF b e).1) (sockBytes s + 1) s (Nat.lt_succ_self _)
    rw [h] at ho hd
    obtain rfl := outcomeOf_inj ho
    exact hd
  · intro h
    exact dump_complete (fun b t => (hP b t).2) (fun b e => (hF b e).2) h _ (Nat.lt_succ_self _)

open Classical in
/-- One turn of the wait. -/
theorem waitGo_msg (fuel : Nat) {s : Sock} {m : Bytes} {s' : Sock} (h : MsgRead s m s') :
    waitGo (fuel + 1) s = if IsFailure m then .error .result else if IsBarrier m then .ok () else waitGo fuel s' := by
  have h8 := (msgRead_bytes h).2
  rw [waitGo, (nextMsg_ok _ _ _).2 h]
  dsimp only
  rw [msgType_uAt m h8, msgXid_uAt m h8, ← word16_uAt m 2 (by omega)]
  by_cases hf : IsFailure m
  · rw [if_pos hf, if_pos (by rw [hf.1, hf.2]; rfl)]
  · rw [if_neg hf, if_neg (by intro hc; simp at hc; exact hf hc)]
    by_cases hb : IsBarrier m
    · rw [if_pos hb, if_pos (by rw [hb.1, hb.2]; rfl)]
    · rw [if_neg hb, if_neg (by intro hc; simp at hc; exact hb hc)]

theorem wait_sound (fuel : Nat) (s : Sock) (hf : sockBytes s < fuel) : ∃ o, waitGo fuel s = outcomeOf o ∧ Wait s o := by
  induction fuel generalizing s with
  | zero => omega
  | succ fuel ih =>
    cases hn : nextMsg s with
    | error e =>
      obtain ⟨rfl, h⟩ := (nextMsg_error s e).1 hn
      rw [waitGo, hn]
      exact ⟨.raised .structError, rfl, .closed s h⟩
    | ok x =>
      obtain ⟨m, s'⟩ := x
      have hm := (nextMsg_ok _ _ _).1 hn
      have hb := (msgRead_bytes hm).1
      obtain ⟨o, ho, hd⟩ := ih s' (by omega)
      rw [waitGo_msg fuel hm]
      by_cases h1 : IsFailure m
      · rw [if_pos h1]; exact ⟨.failed, rfl, .failed s m s' hm h1⟩
      · rw [if_neg h1]
        by_cases h2 : IsBarrier m
        · rw [if_pos h2]; exact ⟨.fine, rfl, .done s m s' hm h2⟩
        · rw [if_neg h2]; exact ⟨o, ho, .other s m s' o hm h1 h2 hd⟩

theorem wait_complete {s : List Bytes} {o : Ending} (h : Wait s o) : ∀ fuel, sockBytes s < fuel → waitGo fuel s = outcomeOf o := by
  induction h with
  | closed s hn =>
    intro fuel hf
    obtain ⟨fuel, rfl⟩ : ∃ f, fuel = f + 1 := ⟨fuel - 1, by omega⟩
    rw [waitGo, (nextMsg_error s _).2 ⟨rfl, hn⟩]
    rfl
  | failed s m s' hm h1 =>
    intro fuel hf
    obtain ⟨fuel, rfl⟩ : ∃ f, fuel = f + 1 := ⟨fuel - 1, by omega⟩
    rw [waitGo_msg fuel hm, if_pos h1]
    rfl
  | done s m s' hm h2 =>
    intro fuel hf
    obtain ⟨fuel, rfl⟩ : ∃ f, fuel = f + 1 := ⟨fuel - 1, by omega⟩
    rw [waitGo_msg fuel hm, if_neg (fun h1 => by have := h1.1; rw [h2.1] at this; cases this), if_pos h2]
    rfl
  | other s m s' o hm h1 h2 _ ih =>
    intro fuel hf
    obtain ⟨fuel, rfl⟩ : ∃ f, fuel = f + 1 := ⟨fuel - 1, by omega⟩
    have hb := (msgRead_bytes hm).1
    rw [waitGo_msg fuel hm, if_neg h1, if_neg h2, ih fuel (by omega)]

theorem wait_iff (s : List Bytes) (o : Ending) : waitGo (sockBytes s + 1) s = outcomeOf o ↔ Wait s o := by
  constructor
  · intro h
    obtain ⟨o', ho, hd⟩ := wait_sound (sockBytes s + 1) s (Nat.lt_succ_self _)
    rw [h] at ho
    obtain rfl := outcomeOf_inj ho
    exact hd
  · intro h
    exact wait_complete h _ (Nat.lt_succ_self _)

end Ofpstr
