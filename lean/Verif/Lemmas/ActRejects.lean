import Verif.Lemmas.ActParts

/-!
# Exactly which exception every text raises that is no action
-/

set_option linter.unusedSimpArgs false
set_option linter.unusedVariables false

namespace Ofpstr

open Spec

theorem notAct {w : Str} (h : lookupAct w = none) : w ∉ actNames := fun hw => by
  obtain ⟨k, hk⟩ := (lookupAct_isSome w).1 hw
  rw [h] at hk
  cases hk

theorem fails_then {α β : Type} {x : Py α} {f : α → Py β} {p : Refuses} (h : Fails x p) (hf : ∀ a, ∃ b, f a = .ok b) : Fails (x >>= f) p := by
  intro e
  rw [bindErr, h e]
  refine ⟨fun h => h.elim (fun h => h) ?_, Or.inl⟩
  rintro ⟨a, _, h⟩
  obtain ⟨b, hb⟩ := hf a
  rw [hb] at h
  cases h

theorem setFieldAct_err (oxm : Bytes) (e : Err) : setFieldAct oxm = .error e ↔ 65536 ≤ (setFieldWire oxm).length ∧ e = .structError := by
  rw [setFieldAct_eq]
  split
  · rename_i h
    exact ⟨fun h => by (cases h), fun h' => by omega⟩
  · rename_i h
    exact ⟨fun h' => by cases h'; exact ⟨by omega, rfl⟩, fun h' => by rw [h'.2]⟩

theorem fails_set {α : Type} (u : Str) (g : Bytes → Nat → α) : Fails (str2oxm1 u >>= fun x => setFieldAct x.1 >>= fun b => .ok (g b x.2))
    (SetRejects u) := by
  intro e
  rw [bindErr, str2oxm1_rejects]
  constructor
  · rintro (h | ⟨⟨oxm, n⟩, h1, h2⟩)
    · exact Or.inl h
    · right
      rcases bindErr.1 h2 with h3 | ⟨_, _, h3⟩
      · obtain ⟨h4, rfl⟩ := (setFieldAct_err _ _).1 h3
        rcases (str2oxm1_matchItem _ _ _).1 h1 with ⟨_, rfl, _⟩ | ⟨_, _, _, rfl, _⟩ | ⟨v, t, r, h5, h6, rfl, _⟩
        · exact absurd setWire_nil (by dsimp only at h4; omega)
        · exact absurd setWire_nil (by dsimp only at h4; omega)
        · exact ⟨v, t, r, h5, h6, h4, rfl⟩
      · cases h3
  · rintro (h | ⟨v, t, r, h1, h2, h3, rfl⟩)
    · exact Or.inl h
    · exact Or.inr ⟨_, (str2oxm1_matchItem _ _ _).2 (Or.inr (Or.inr ⟨v, t, r, h1, h2, rfl, rfl⟩)),
        bindErr.2 (Or.inl ((setFieldAct_err _ _).2 ⟨h3, rfl⟩))⟩

theorem act_rejects (s : Str) : Fails (str2act s) (ActRejects s) := by
  rcases hg : getToken s with ⟨hd, w, u⟩
  have ht := eq_tok hg
  have hu : ∀ {h w' r}, Tok s h w' r → h = hd ∧ w' = w ∧ r = u := by
    intro h w' r ht'
    cases hg.symm.trans (tok_get ht')
    exact ⟨rfl, rfl, rfl⟩
  by_cases hex : ∃ n a, Func w n a
  · obtain ⟨m, a, hf⟩ := hex
    by_cases hA : ∃ c cs, a = some (c :: cs)
    · obtain ⟨c, cs, rfl⟩ := hA
      have hwn : w ∉ actNames := by
        intro hw
        have := (func_unique (actNames_bare hw) hf).2
        cases this
      have hnoarg : ∀ {n a}, Func w n a → ¬ NoArg a := by
        intro n a hf' ha
        have := (func_unique hf hf').2
        rcases ha with rfl | rfl <;> cases this
      cases hk : lookupAct m with
      | some k =>
        rw [act_call ht hf hk]
        have hm : m ∈ actNames := (lookupAct_isSome m).2 ⟨k, hk⟩
        have := fails_then (f := fun x : Bytes × Nat => (.ok (x.1, hd.length + w.length) : Py (Bytes × Nat)))
          (runAct_rejects hk false (c :: cs)) (fun a => ⟨_, rfl⟩)
        intro e
        refine (this e).trans ⟨fun h => .call s hd w u m _ e ht hf (by simp) hm h, fun h => ?_⟩
        cases h with
        | func h w' r _ ht' hfr =>
          obtain ⟨_, rfl, _⟩ := hu ht'
          exact absurd hfr (func_none hf _)
        | call h w' r n a _ ht' hf' _ hn hr =>
          obtain ⟨_, rfl, _⟩ := hu ht'
          obtain ⟨rfl, h2⟩ := func_unique hf hf'
          cases h2
          exact hr
        | plain h w' r _ ht' hn hr =>
          obtain ⟨_, rfl, _⟩ := hu ht'
          exact absurd hn hwn
        | setCall h w' r x a h' v r' _ ht' hf' _ hn =>
          obtain ⟨_, rfl, _⟩ := hu ht'
          rw [← (func_unique hf hf').1] at hn
          exact absurd hm hn
        | setPlain h x u' n a op v r _ ht' hf' ha hn =>
          obtain ⟨_, rfl, _⟩ := hu ht'
          exact absurd ha (hnoarg hf')
      | none =>
        have hmn := notAct hk
        have hw := lookupAct_none hwn
        by_cases hs : startsWith w t!"set_" = true
        · rcases hv : getToken (c :: cs) with ⟨h', v, r'⟩
          have hv' := eq_tok hv
          rw [act_setCall ht hf hk hw hs hv']
          obtain ⟨x, hx⟩ := (prefix_iff _ _).1 hs
          obtain ⟨y, rfl⟩ := func_prefix t!"set_" (by decide) hx hf
          have := fails_set (y ++ '=' :: v) (fun b _ => (b, hd.length + w.length))
          intro e
          refine (this e).trans ⟨fun h => .setCall s hd w u y _ h' v r' e ht hf (by simp) hmn hv' h, fun h => ?_⟩
          cases h with
          | func h w' r _ ht' hfr =>
            obtain ⟨_, rfl, _⟩ := hu ht'
            exact absurd hfr (func_none hf _)
          | call h w' r n a _ ht' hf' _ hn hr =>
            obtain ⟨_, rfl, _⟩ := hu ht'
            rw [← (func_unique hf hf').1] at hn
            exact absurd hn hmn
          | plain h w' r _ ht' hn hr =>
            obtain ⟨_, rfl, _⟩ := hu ht'
            exact absurd hn hwn
          | setCall h w' r z a h2 v2 r2 _ ht' hf' _ hn hv2 hr =>
            obtain ⟨_, rfl, _⟩ := hu ht'
            obtain ⟨h3, h4⟩ := func_unique hf hf'
            cases h4
            cases hv.symm.trans (tok_get hv2)
            rw [List.append_cancel_left h3]
            exact hr
          | setPlain h x u' n a op v r _ ht' hf' ha hn =>
            obtain ⟨_, rfl, _⟩ := hu ht'
            exact absurd ha (hnoarg hf')
        · refine fails_none (act_other ht hf (Or.inr hk) hw hs) fun e h => ?_
          cases h with
          | func h w' r _ ht' hfr =>
            obtain ⟨_, rfl, _⟩ := hu ht'
            exact absurd hfr (func_none hf _)
          | call h w' r n a _ ht' hf' _ hn hr =>
            obtain ⟨_, rfl, _⟩ := hu ht'
            rw [← (func_unique hf hf').1] at hn
            exact absurd hn hmn
          | plain h w' r _ ht' hn hr =>
            obtain ⟨_, rfl, _⟩ := hu ht'
            exact absurd hn hwn
          | setCall h w' r z a h2 v2 r2 _ ht' hf' _ hn hv2 hr =>
            obtain ⟨_, rfl, _⟩ := hu ht'
            obtain ⟨_, y, hy⟩ := func_name hf'
            exact hs ((prefix_iff _ _).2 ⟨z ++ y, by rw [hy]; simp⟩)
          | setPlain h x u' n a op v r _ ht' hf' ha hn =>
            obtain ⟨_, rfl, _⟩ := hu ht'
            exact absurd ha (hnoarg hf')
    · have hna : NoArg a := by
        rcases a with _ | _ | ⟨c, cs⟩
        · exact Or.inl rfl
        · exact Or.inr rfl
        · exact absurd ⟨c, cs, rfl⟩ hA
      have hnocall : ∀ {n a}, Func w n (some a) → a = [] := by
        intro n a' hf'
        have := (func_unique hf hf').2
        rcases hna with rfl | rfl
        · cases this
        · cases this; rfl
      cases hw : lookupAct w with
      | some k =>
        have hwm : w ∈ actNames := (lookupAct_isSome w).2 ⟨k, hw⟩
        rw [act_plain ht hf (Or.inl hna) hw]
        have := fails_then (f := fun x : Bytes × Nat => (.ok (x.1, hd.length + w.length + x.2) : Py (Bytes × Nat)))
          (runAct_rejects hw true u) (fun a => ⟨_, rfl⟩)
        intro e
        refine (this e).trans ⟨fun h => .plain s hd w u e ht hwm h, fun h => ?_⟩
        cases h with
        | func h w' r _ ht' hfr =>
          obtain ⟨_, rfl, _⟩ := hu ht'
          exact absurd hfr (func_none hf _)
        | call h w' r n a _ ht' hf' h0 hn hr =>
          obtain ⟨_, rfl, _⟩ := hu ht'
          exact absurd (hnocall hf') h0
        | plain h w' r _ ht' hn hr =>
          obtain ⟨_, rfl, rfl⟩ := hu ht'
          exact hr
        | setCall h w' r x a h' v r' _ ht' hf' h0 hn =>
          obtain ⟨_, rfl, _⟩ := hu ht'
          exact absurd (hnocall hf') h0
        | setPlain h x u' n a op v r _ ht' hf' ha hn =>
          obtain ⟨_, rfl, _⟩ := hu ht'
          exact absurd hwm hn
      | none =>
        have hwn := notAct hw
        by_cases hs : startsWith w t!"set_" = true
        · rcases hv : getToken u with ⟨op, v, r⟩
          have hv' := eq_tok hv
          rw [act_setPlain ht hf hna hw hs hv']
          obtain ⟨x, rfl⟩ := (prefix_iff _ _).1 hs
          have := fails_set (x ++ (op ++ v)) (fun b p => (b, hd.length + 4 + p))
          intro e
          refine (this e).trans ⟨fun h => .setPlain s hd x u m a op v r e ht hf hna hwn hv' h, fun h => ?_⟩
          cases h with
          | func h w' r _ ht' hfr =>
            obtain ⟨_, rfl, _⟩ := hu ht'
            exact absurd hfr (func_none hf _)
          | call h w' r n a _ ht' hf' h0 hn hr =>
            obtain ⟨_, rfl, _⟩ := hu ht'
            exact absurd (hnocall hf') h0
          | plain h w' r _ ht' hn hr =>
            obtain ⟨_, rfl, _⟩ := hu ht'
            exact absurd hn hwn
          | setCall h w' r z a h2 v2 r2 _ ht' hf' h0 hn hv2 hr =>
            obtain ⟨_, rfl, _⟩ := hu ht'
            exact absurd (hnocall hf') h0
          | setPlain h x' u' n a op' v' r' _ ht' hf' ha hn hv2 hr =>
            obtain ⟨_, h3, rfl⟩ := hu ht'
            cases hv.symm.trans (tok_get hv2)
            rw [← List.append_cancel_left h3]
            exact hr
        · refine fails_none (act_other ht hf (Or.inl hna) hw hs) fun e h => ?_
          cases h with
          | func h w' r _ ht' hfr =>
            obtain ⟨_, rfl, _⟩ := hu ht'
            exact absurd hfr (func_none hf _)
          | call h w' r n a _ ht' hf' h0 hn hr =>
            obtain ⟨_, rfl, _⟩ := hu ht'
            exact absurd (hnocall hf') h0
          | plain h w' r _ ht' hn hr =>
            obtain ⟨_, rfl, _⟩ := hu ht'
            exact absurd hn hwn
          | setCall h w' r z a h2 v2 r2 _ ht' hf' h0 hn hv2 hr =>
            obtain ⟨_, rfl, _⟩ := hu ht'
            exact absurd (hnocall hf') h0
          | setPlain h x u' n a op v r _ ht' hf' ha hn =>
            obtain ⟨_, rfl, _⟩ := hu ht'
            exact hs ((prefix_iff _ _).2 ⟨x, rfl⟩)
  · have hx := (fails_func w .assertionError).2 ⟨hex, rfl⟩
    refine fails_of (k := .assertionError) ?_ fun e => ⟨fun h => ?_, ?_⟩
    · unfold str2act
      rw [hg]
      dsimp only
      rw [hx, raise_bind]
    · cases h with
      | func h w' r _ ht' hfr => exact hfr.2
      | call h w' r n a _ ht' hf' h0 hn hr =>
        obtain ⟨_, rfl, _⟩ := hu ht'
        exact absurd ⟨_, _, hf'⟩ hex
      | plain h w' r _ ht' hn hr =>
        obtain ⟨_, rfl, _⟩ := hu ht'
        exact absurd ⟨_, _, actNames_bare hn⟩ hex
      | setCall h w' r z a h2 v2 r2 _ ht' hf' h0 hn hv2 hr =>
        obtain ⟨_, rfl, _⟩ := hu ht'
        exact absurd ⟨_, _, hf'⟩ hex
      | setPlain h x u' n a op v r _ ht' hf' ha hn =>
        obtain ⟨_, rfl, _⟩ := hu ht'
        exact absurd ⟨_, _, hf'⟩ hex
    · rintro rfl
      exact .func s hd w u _ ht ⟨hex, rfl⟩

end Ofpstr
