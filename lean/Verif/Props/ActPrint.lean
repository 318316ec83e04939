import Verif.Lemmas.ActPrint

/-!
# What actions are printed as (C77)
-/

namespace Ofpstr
open Spec

/-- C77: `act2str` returns a text exactly if every action of the bytes has one, and then it returns those
texts, with commas between. -/
theorem C77_actions (b : Bytes) (s : Str) :
    act2str b = .ok s ↔ ∃ ss, ActionsShown b ss ∧ s = joinStr t!"," ss := (outcome_actions b).ok s

/-- C77: `act2str` raises an exception exactly if some action is refused with it, and the ones before have
texts; it does not end exactly if an action that has a text has length zero. -/
theorem C77_actions_error (b : Bytes) (e : Err) : act2str b = .error e ↔ ActionsFail b e := (outcome_actions b).error e

/-- C77: the same for one action, `loop=False`. -/
theorem C77_action (b : Bytes) (s : Str) :
    act2str1 b = .ok s ↔ (b.length ≤ 4 ∧ s = []) ∨ (4 < b.length ∧ ActionText b s) := (outcome_action1 b).ok s

/-- C77: the same for one action, `loop=False`. -/
theorem C77_action_error (b : Bytes) (e : Err) : act2str1 b = .error e ↔ 4 < b.length ∧ ActionFails b e :=
  (outcome_action1 b).error e

theorem shown_walk {b : Bytes} {ss : List Str} (h : ActionsShown b ss) : LenWalk b := by
  induction h with
  | done b h => exact .done b h
  | more b s ss h1 h2 h3 h4 ih => exact .step b h1 h3 ih

/-- C77: for ever exactly if going by the length fields comes to a zero, and no action before is refused. -/
theorem C77_stuck (b : Bytes) :
    act2str b = .error .loops ↔ ¬ LenWalk b ∧ ∀ e, e ≠ .loops → ¬ ActionsFail b e := by
  constructor
  · intro h
    refine ⟨fun hw => ends_act2str b hw h, fun e he hf => ?_⟩
    rw [(C77_actions_error b e).2 hf] at h
    exact he (Except.error.inj h)
  · rintro ⟨h1, h2⟩
    rcases (outcome_actions b).2.2 with ⟨s, ss, h, _⟩ | ⟨e, h⟩
    · exact absurd (shown_walk h) h1
    · by_cases he : e = .loops
      · rw [← he]; exact (C77_actions_error b e).2 h
      · exact absurd h (h2 e he)

/-- C77: the body of a standard action has a text, or is refused, never both. -/
theorem C77_standard (a : StdAct) (ha : a ∈ stdActs) (p : Bytes) :
    ∃ d, lookupActDec (.std a.type) = some d ∧ (∀ s, runActDec d p = .ok s ↔ StdText a.type p s) ∧
      ∀ e, runActDec d p = .error e ↔ StdFails a.type p e := by
  have hd : ∃ d, lookupActDec (.std a.type) = some d := ⟨_, std_dec a ha⟩
  obtain ⟨d, hd⟩ := hd
  have ho : Outcome (runActDec d p) (StdText a.type p) (StdFails a.type p) := by
    refine ⟨fun s h => ?_, fun e h => ?_, std_all a.type p (Or.inr ⟨a, ha, rfl⟩)⟩
    · obtain ⟨d', h1, h2⟩ := std_shown h
      rw [hd] at h1
      cases h1
      exact h2
    · obtain ⟨d', h1, h2⟩ := std_fails h
      rw [hd] at h1
      cases h1
      exact h2
  exact ⟨d, hd, ho.ok, ho.error⟩

/-- C77: the same for a Nicira action. -/
theorem C77_nicira (a : Str × Nat) (ha : a ∈ nxActs) (p : Bytes) :
    ∃ d, lookupActDec (.nx a.2) = some d ∧ (∀ s, runActDec d p = .ok s ↔ NxText a.2 p s) ∧
      ∀ e, runActDec d p = .error e ↔ NxFails a.2 p e := by
  have key : ∀ a ∈ nxActs, (lookupActDec (.nx a.2)).isSome = true := by decide +kernel
  obtain ⟨d, hd⟩ := Option.isSome_iff_exists.1 (key a ha)
  have ho : Outcome (runActDec d p) (NxText a.2 p) (NxFails a.2 p) := by
    refine ⟨fun s h => ?_, fun e h => ?_, nx_all a.2 p ⟨a, ha, rfl⟩⟩
    · obtain ⟨d', h1, h2⟩ := nx_shown h
      rw [hd] at h1
      cases h1
      exact h2
    · obtain ⟨d', h1, h2⟩ := nx_fails h
      rw [hd] at h1
      cases h1
      exact h2
  exact ⟨d, hd, ho.ok, ho.error⟩

/-! ## Cases -/

/-- An output to the controller, an unknown action, `resubmit` to a table, `set_field` of a port, and an end that
is too short to be an action. -/
def oddActs : Bytes := u16 0 ++ (u16 16 ++ (u32 0xfffffffd ++ (u16 128 ++ pad 6))) ++ (u16 99 ++ (u16 8 ++ pad 4)) ++
  (u16 0xffff ++ (u16 16 ++ (u32 0x2320 ++ (u16 14 ++ (u16 0xfff8 ++ [3] ++ pad 3))))) ++
  (u16 25 ++ (u16 16 ++ ([0x80, 0, 0, 4, 0, 0, 0, 1] ++ pad 4))) ++ [1, 2, 3]

example : ∃ ss, ActionsShown oddActs ss ∧
    t!"output=controller:0x80,?,resubmit_table(in_port,3),set_in_port=1" = joinStr t!"," ss :=
  (C77_actions oddActs _).1 (by decide +kernel)

/-- A `learn` with a match and an output. -/
example : act2str (u16 0xffff ++ (u16 64 ++ (u32 0x2320 ++ (u16 16 ++ (pad 22 ++
    (u16 0x000c ++ ([0, 0, 8, 2] ++ (u16 0 ++ ([0, 0, 8, 2] ++ u16 0)))) ++
    (u16 0x0810 ++ ([0, 0, 0, 2] ++ u16 0)) ++ pad 10))))) =
    .ok t!"learn(nxm_vlan_tci[0:12]=nxm_vlan_tci[0:12],output(nxm_in_port))" := by decide +kernel

/-- Refused: an output of the wrong size, a `push_vlan` without its argument, a `pop_vlan` whose padding is not
zero, a field that is not known, a hash that has no name; and an action of length zero is printed for ever. -/
example : ActionsFail (u16 0 ++ (u16 8 ++ u32 1)) .structError ∧ ActionsFail (u16 17 ++ (u16 4 ++ [8, 0, 0, 0])) .structError ∧
    ActionsFail (u16 18 ++ (u16 8 ++ u32 1)) .assertionError ∧
    ActionsFail (u16 25 ++ (u16 16 ++ [0x80, 0, 0xfe, 0])) .keyError ∧
    ActionsFail (u16 0xffff ++ (u16 40 ++ (u32 0x2320 ++ (u16 12 ++ (u16 0 ++ (u16 2 ++ (u16 0 ++ pad 16))))))) .indexError ∧
    ActionsFail (u16 99 ++ (u16 0 ++ pad 4)) .loops :=
  ⟨(C77_actions_error _ _).1 (by decide +kernel), (C77_actions_error _ _).1 (by decide +kernel),
    (C77_actions_error _ _).1 (by decide +kernel), (C77_actions_error _ _).1 (by decide +kernel),
    (C77_actions_error _ _).1 (by decide +kernel), (C77_actions_error _ _).1 (by decide +kernel)⟩

/-- Not by running the model: the rules for a list of two actions. -/
example : ActionsShown (u16 17 ++ (u16 8 ++ (u16 0x8100 ++ pad 2)) ++ (u16 22 ++ (u16 8 ++ u32 7)))
    [t!"push_vlan=0x8100", t!"group=7"] := by
  refine .more _ _ _ (by decide) ?_ (by decide) (.more _ _ _ (by decide) ?_ (by decide) (.done _ (by decide)))
  · exact .output 17 8 _ _ (by decide) (by decide) (by decide) (by decide)
      (.ether ⟨t!"push_vlan", 17, .ether⟩ 0x8100 (pad 2) _ (by decide) rfl (by decide)
        ((hexShown_iff _ _ _).2 (by decide +kernel)))
  · exact .output 22 8 _ _ (by decide) (by decide) (by decide) (by decide)
      (.word ⟨t!"group", 22, .word⟩ 7 [] _ (by decide) rfl (by decide) ((decimal_iff _ _).2 (by decide +kernel)))

end Ofpstr
