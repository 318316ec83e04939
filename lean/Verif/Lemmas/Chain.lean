import Verif.Model.Ofp4
import Verif.Lemmas.ActTrip

/-!
# Printing loops: the first item and the rest
-/

namespace Ofpstr
open Spec

/-- The common form of the printing loops. -/
def loopGo (stop : Bytes → Bool) (one : Bytes → Py (List Str)) (next : Bytes → Bytes) : Nat → Bytes → Py (List Str)
  | 0, _ => .error .loops
  | fuel + 1, msg =>
    if stop msg then .ok []
    else do
      let tok ← one msg
      let rest ← loopGo stop one next fuel (next msg)
      .ok (tok ++ rest)

variable {stop : Bytes → Bool} {one : Bytes → Py (List Str)} {next : Bytes → Bytes}

theorem loopGo_stuck (msg : Bytes) (hs : stop msg = false) (tok : List Str) (ho : one msg = .ok tok)
    (hn : next msg = msg) (fuel : Nat) : loopGo stop one next fuel msg = .error .loops := by
  induction fuel with
  | zero => rfl
  | succ f ih => rw [loopGo, if_neg (by simp [hs]), ho, ok_bind, hn, ih]; rfl

/-- More fuel than bytes is all the same. -/
theorem loopGo_fuel (hn : ∀ msg, stop msg = false → next msg = msg ∨ (next msg).length < msg.length) (fuel : Nat)
    (msg : Bytes) (hf : msg.length < fuel) :
    loopGo stop one next fuel msg = loopGo stop one next (msg.length + 1) msg := by
  induction fuel using Nat.strongRecOn generalizing msg with
  | _ fuel ih =>
    cases fuel with
    | zero => omega
    | succ f =>
      rw [loopGo, loopGo]
      cases hs : stop msg with
      | true => rfl
      | false =>
        rw [if_neg (by simp), if_neg (by simp)]
        cases ho : one msg with
        | error e => rfl
        | ok tok =>
          rw [ok_bind, ok_bind]
          rcases hn msg hs with h | h
          · rw [h, loopGo_stuck msg hs tok ho h, loopGo_stuck msg hs tok ho h]
          · rw [ih f (by omega) _ (by omega)]
            by_cases he : msg.length = f
            · rw [← ih f (by omega) (next msg) (by omega), he]
            · rw [← ih msg.length (by omega) (next msg) h]

theorem loopGo_step (hn : ∀ msg, stop msg = false → next msg = msg ∨ (next msg).length < msg.length)
    (msg : Bytes) (hs : stop msg = false) :
    loopGo stop one next (msg.length + 1) msg = (do
      let tok ← one msg
      let rest ← loopGo stop one next ((next msg).length + 1) (next msg)
      .ok (tok ++ rest)) := by
  rw [loopGo, if_neg (by simp [hs])]
  cases ho : one msg with
  | error e => rfl
  | ok tok =>
    rw [ok_bind, ok_bind]
    rcases hn msg hs with h | h
    · rw [h, loopGo_stuck msg hs tok ho h, loopGo_stuck msg hs tok ho h]
    · rw [loopGo_fuel hn _ _ h]

theorem joinStr_append {a b : List Str} (ha : a ≠ []) (hb : b ≠ []) :
    joinStr t!"," (a ++ b) = joinStr t!"," a ++ ',' :: joinStr t!"," b := by
  induction a with
  | nil => exact absurd rfl ha
  | cons x a ih =>
    cases a with
    | nil =>
      cases b with
      | nil => exact absurd rfl hb
      | cons y b => simp [joinStr]
    | cons y a =>
      have := ih (by simp)
      simp only [List.cons_append] at this ⊢
      simp only [joinStr, this, List.append_assoc, List.cons_append, List.nil_append]

/-- Text of the first item, and after a comma that of the rest, if there is a rest. -/
theorem loopText_step (hn : ∀ msg, stop msg = false → next msg = msg ∨ (next msg).length < msg.length)
    (hone : ∀ msg l, one msg = .ok l → l ≠ []) (msg : Bytes) (hs : stop msg = false) :
    (do
      let l ← loopGo stop one next (msg.length + 1) msg
      .ok (joinStr t!"," l) : Py Str) = (do
      let t ← (do
        let l ← one msg
        .ok (joinStr t!"," l) : Py Str)
      if stop (next msg) then .ok t
      else do
        let u ← (do
          let l ← loopGo stop one next ((next msg).length + 1) (next msg)
          .ok (joinStr t!"," l) : Py Str)
        .ok (t ++ ',' :: u)) := by
  rw [loopGo_step hn msg hs]
  cases ho : one msg with
  | error e => rfl
  | ok tok =>
    simp only [ok_bind]
    cases hs2 : stop (next msg) with
    | true =>
      rw [loopGo, if_pos hs2, if_pos rfl]
      simp only [ok_bind, List.append_nil]
    | false =>
      rw [if_neg (by simp)]
      cases hl : loopGo stop one next ((next msg).length + 1) (next msg) with
      | error e => rfl
      | ok l =>
        simp only [ok_bind]
        have hne : l ≠ [] := by
          rw [loopGo_step hn _ hs2] at hl
          obtain ⟨x, hx, hl⟩ := bind_ok hl
          obtain ⟨y, hy, hl⟩ := bind_ok hl
          cases hl
          have := hone _ _ hx
          simp [this]
        rw [joinStr_append (hone _ _ ho) hne]

end Ofpstr
