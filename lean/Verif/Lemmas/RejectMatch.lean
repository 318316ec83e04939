import Verif.Lemmas.RejectLists

/-!
# Which exceptions refused match texts raise: items and matches
-/

set_option linter.unusedSimpArgs false

namespace Ofpstr
open Spec

theorem lookupEnc_unknown {name : Str} (h : ∀ f ∈ fields, f.name ≠ name) : lookupEnc name = none := by
  cases hl : lookupEnc name with
  | none => rfl
  | some x =>
    obtain ⟨f, hf, hn, _⟩ := lookupEnc_field (key := x.1) (k := x.2) hl
    exact absurd hn (h f hf)

/-- One round of the loop fails, or does not take the whole value. -/
def RoundFails (u : Str) (e : Err) : Prop :=
  str2oxmOne u = .error e ∨ (e = .assertionError ∧ ∃ bin l v r, str2oxmOne u = .ok (bin, l, v, r) ∧ l ≠ v.length)

theorem round_rejects (u : Str) (e : Err) : RoundFails u e ↔ ItemRejects u e := by
  unfold RoundFails str2oxmOne
  rcases hg : getToken u with ⟨hd, name, r1⟩
  rcases hg2 : getToken r1 with ⟨op, v, r⟩
  have t1 := (getToken_iff _ _ _ _).1 hg
  have t2 := (getToken_iff _ _ _ _).1 hg2
  dsimp only
  rw [hg2]
  dsimp only
  by_cases ha : '=' ∉ hd ∧ '=' ∈ op
  · obtain ⟨ha1, ha2⟩ := ha
    rw [show (!hasChar hd '=' && hasChar op '=') = true by simp [hasChar, ha1, ha2], pyAssert_ok, ok_bind]
    have inv : ItemRejects u e → ((∀ f ∈ fields, f.name ≠ name) ∧ e = .keyError) ∨
        ∃ f ∈ fields, Field.name f = name ∧ f.textKind.Rejects v e := by
      intro h
      cases h with
      | equals h' n' r1' op' v' r' k1 k2 k3 =>
        rw [(getToken_iff _ _ _ _).2 k1] at hg
        cases hg
        rw [(getToken_iff _ _ _ _).2 k2] at hg2
        cases hg2
        rcases k3 with k3 | k3
        · exact absurd k3 ha1
        · exact absurd ha2 k3
      | name h' n' r1' op' v' r' k1 k2 k3 k4 k5 =>
        rw [(getToken_iff _ _ _ _).2 k1] at hg
        cases hg
        exact Or.inl ⟨k5, rfl⟩
      | value h' f r1' op' v' r' _ k1 k2 k3 k4 k5 k6 =>
        rw [(getToken_iff _ _ _ _).2 k1] at hg
        cases hg
        rw [(getToken_iff _ _ _ _).2 k2] at hg2
        cases hg2
        exact Or.inr ⟨f, k5, rfl, k6⟩
    by_cases hf : ∃ f ∈ fields, Field.name f = name
    · obtain ⟨f, hf, rfl⟩ := hf
      rw [lookupEnc_textKind f hf]
      dsimp only
      have key := refused_kind (fieldKey f) f.textKind (textKind_ports f hf).1 v (token_self hg2) e
      have main : Refusal (encText (fieldKey f) (kindEnc f.textKind) v) v e ↔ ItemRejects u e := by
        rw [key]
        constructor
        · intro h
          exact .value u hd f r1 op v r e t1 t2 ha1 ha2 hf h
        · intro h
          rcases inv h with ⟨h, _⟩ | ⟨f', hf', hn, h⟩
          · exact absurd rfl (h f hf)
          · rw [name_unique f' hf' f hf hn] at h
            exact h
      rw [← main]
      unfold Refusal
      cases encText (fieldKey f) (kindEnc f.textKind) v with
      | error e' =>
        rw [raise_bind]
        refine or_congr (by simp) ?_
        simp
      | ok x =>
        obtain ⟨bin, l⟩ := x
        rw [ok_bind]
        simp
    · have hf : ∀ f ∈ fields, Field.name f ≠ name := fun f h h' => hf ⟨f, h, h'⟩
      rw [lookupEnc_unknown hf]
      dsimp only
      constructor
      · rintro (h | ⟨_, _, _, _, _, h, _⟩)
        · cases h
          exact .name u hd name r1 op v r t1 t2 ha1 ha2 hf
        · cases h
      · intro h
        rcases inv h with ⟨_, rfl⟩ | ⟨f, hf', hn, _⟩
        · exact Or.inl rfl
        · exact absurd hn (hf f hf')
  · have ha' : '=' ∈ hd ∨ '=' ∉ op := by
      by_cases h : '=' ∈ hd
      · exact Or.inl h
      · exact Or.inr fun h' => ha ⟨h, h'⟩
    rw [show (!hasChar hd '=' && hasChar op '=') = false by
      rcases ha' with h | h <;> simp [hasChar, h]]
    constructor
    · rintro (h | ⟨_, _, _, _, _, h, _⟩)
      · cases h
        exact .equals u hd name r1 op v r t1 t2 ha'
      · cases h
    · intro h
      left
      suffices e = .assertionError by subst this; rfl
      cases h with
      | equals => rfl
      | name h' n' r1' op' v' r' k1 k2 k3 k4 k5 =>
        rw [(getToken_iff _ _ _ _).2 k1] at hg
        cases hg
        rw [(getToken_iff _ _ _ _).2 k2] at hg2
        cases hg2
        exact absurd ⟨k3, k4⟩ ha
      | value h' f r1' op' v' r' _ k1 k2 k3 k4 k5 k6 =>
        rw [(getToken_iff _ _ _ _).2 k1] at hg
        cases hg
        rw [(getToken_iff _ _ _ _).2 k2] at hg2
        cases hg2
        exact absurd ⟨k3, k4⟩ ha

theorem round_cases (u : Str) : (∃ e, RoundFails u e) ∨ ∃ bin v r t, str2oxmOne u = .ok (bin, v.length, v, r) ∧ MatchItem u v t r := by
  cases h : str2oxmOne u with
  | error e => exact Or.inl ⟨e, Or.inl h⟩
  | ok x =>
    obtain ⟨bin, l, v, r⟩ := x
    by_cases hl : l = v.length
    · subst hl
      obtain ⟨t, ht, _⟩ := (str2oxmOne_exact u bin v r).1 h
      exact Or.inr ⟨bin, v, r, t, rfl, ht⟩
    · exact Or.inl ⟨.assertionError, Or.inr ⟨rfl, bin, l, v, r, h, hl⟩⟩

theorem round_go {u : Str} {e : Err} (hu : u ≠ []) (h : RoundFails u e) (loop : Bool) (fuel : Nat) :
    str2oxmGo loop (fuel + 1) u = .error e := by
  rw [str2oxmGo, if_neg (by simpa using hu)]
  rcases h with h | ⟨rfl, bin, l, v, r, h, hl⟩
  · rw [h, raise_bind]
  · rw [h, ok_bind]
    dsimp only
    have h0 : l ≠ 0 := by
      rintro rfl
      have := str2oxmOne_zero h
      subst this
      exact hl rfl
    rw [if_neg (by simpa using h0), show (l == v.length) = false by simpa using hl]
    rfl

theorem go_rejects (fuel : Nat) : ∀ (u : Str), u.length < fuel → ∀ e, str2oxmGo true fuel u = .error e ↔ MatchRejects u e := by
  induction fuel with
  | zero => intro u h; omega
  | succ fuel ih =>
    intro u hf e
    by_cases hu : u = []
    · subst hu
      constructor
      · intro h; cases h
      · intro h
        cases h with
        | here _ _ h _ => exact absurd rfl h
        | later _ v t r _ h => exact absurd rfl (matchItem_ne h)
    · rcases round_cases u with ⟨e', he⟩ | ⟨bin, v, r, t, hone, ht⟩
      · rw [round_go hu he]
        constructor
        · intro h
          cases h
          exact .here u _ hu ((round_rejects _ _).1 he)
        · intro h
          cases h with
          | here _ _ _ h =>
            have := (round_rejects _ _).2 h
            have g1 := round_go hu he true 0
            have g2 := round_go hu this true 0
            rw [g1] at g2
            exact g2
          | later _ v t r _ h hv _ =>
            have := (str2oxmOne_exact u _ v r).2 ⟨t, h, rfl⟩
            rcases he with he | ⟨_, _, _, _, _, he, hl⟩
            · rw [this] at he; cases he
            · rw [this] at he; cases he; exact absurd rfl hl
      · have hlt := str2oxmOne_rest u _ _ _ _ hu hone
        have no : ∀ e, ¬ ItemRejects u e := by
          intro e h
          rcases (round_rejects _ _).2 h with he | ⟨_, _, _, _, _, he, hl⟩
          · rw [hone] at he; cases he
          · rw [hone] at he; cases he; exact absurd rfl hl
        rw [str2oxmGo, if_neg (by simpa using hu), hone, ok_bind]
        dsimp only
        by_cases hv : v = []
        · subst hv
          rw [if_pos (by rfl)]
          constructor
          · intro h; cases h
          · intro h
            cases h with
            | here _ _ _ h => exact absurd h (no e)
            | later _ v' t' r' _ h hv' _ =>
              have := (str2oxmOne_exact u _ v' r').2 ⟨t', h, rfl⟩
              rw [hone] at this
              simp only [Except.ok.injEq, Prod.mk.injEq] at this
              exact absurd this.2.2.1.symm hv'
        · have hl : v.length ≠ 0 := by simpa using hv
          rw [if_neg (by simpa using hl), beq_self_eq_true, pyAssert_ok, ok_bind, if_pos rfl]
          have : (str2oxmGo true fuel r >>= fun x => match x with | (msg, rest) => (.ok (bin ++ msg, rest) : Py (Bytes × Str))) = .error e ↔
              str2oxmGo true fuel r = .error e := by
            cases str2oxmGo true fuel r with
            | error e' => rw [raise_bind]
            | ok x => rw [ok_bind]; constructor <;> intro h <;> cases h
          refine this.trans ((ih r (by omega) e).trans ?_)
          constructor
          · intro h; exact .later u v t r e ht hv h
          · intro h
            cases h with
            | here _ _ _ h => exact absurd h (no e)
            | later _ v' t' r' _ h hv' h' =>
              have := (str2oxmOne_exact u _ v' r').2 ⟨t', h, rfl⟩
              rw [hone] at this
              simp only [Except.ok.injEq, Prod.mk.injEq] at this
              rw [this.2.2.2]
              exact h'

theorem str2oxm_rejects (u : Str) (e : Err) : str2oxm u = .error e ↔ MatchRejects u e := by
  rw [← go_rejects (u.length + 1) u (by omega) e]
  unfold str2oxm str2oxmL
  cases str2oxmGo true (u.length + 1) u with
  | error e' => rw [raise_bind]; constructor <;> intro h <;> cases h <;> rfl
  | ok x => rw [ok_bind]; constructor <;> intro h <;> cases h

theorem str2oxm1_rejects (u : Str) (e : Err) : str2oxm1 u = .error e ↔ u ≠ [] ∧ ItemRejects u e := by
  unfold str2oxm1 str2oxmL
  by_cases hu : u = []
  · subst hu
    constructor
    · intro h; cases h
    · rintro ⟨h, _⟩; exact absurd rfl h
  · rcases round_cases u with ⟨e', he⟩ | ⟨bin, v, r, t, hone, ht⟩
    · rw [round_go hu he, raise_bind]
      constructor
      · intro h
        cases h
        exact ⟨hu, (round_rejects _ _).1 he⟩
      · rintro ⟨_, h⟩
        have := (round_rejects _ _).2 h
        have g1 := round_go hu he true 0
        have g2 := round_go hu this true 0
        rw [g1] at g2
        cases g2
        rfl
    · constructor
      · intro h
        exfalso
        rw [str2oxmGo, if_neg (by simpa using hu), hone, ok_bind] at h
        dsimp only at h
        split at h
        · cases h
        · rw [beq_self_eq_true, pyAssert_ok, ok_bind] at h
          cases h
      · rintro ⟨_, h⟩
        rcases (round_rejects _ _).2 h with he | ⟨_, _, _, _, _, he, hl⟩
        · rw [hone] at he; cases he
        · rw [hone] at he; cases he; exact absurd rfl hl

end Ofpstr
