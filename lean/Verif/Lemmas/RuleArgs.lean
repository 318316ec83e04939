import Verif.Spec.RuleReject
import Verif.Lemmas.ActRejects
import Verif.Lemmas.RuleText

/-!
# Which exceptions the arguments of the words of a rule raise
-/

set_option linter.unusedSimpArgs false
set_option linter.unusedVariables false

namespace Ofpstr
open Spec

theorem fails_first {α β : Type} {x : Py α} {f : α → Py β} {p : Refuses} {ps : List Refuses} (h : Fails x p)
    (hf : ∀ a, x = .ok a → Fails (f a) (FirstWrong ps)) : Fails (x >>= f) (FirstWrong (p :: ps)) := by
  intro e
  cases x with
  | error e0 =>
    rw [raise_bind]
    have h0 := (h e0).1 rfl
    constructor
    · intro he; cases he; exact Or.inl h0
    · rintro (hp | ⟨hr, _⟩)
      · have := (h e).2 hp
        cases this
        rfl
      · exact absurd h0 (hr e0)
  | ok a =>
    rw [ok_bind]
    have hr : Right p := (fails_ok h).1 ⟨a, rfl⟩
    rw [hf a rfl e]
    exact ⟨fun h => Or.inr ⟨hr, h⟩, fun h => h.elim (fun h => absurd h (hr e)) (·.2)⟩

theorem fails_right {α : Type} {x : Py α} {p : Refuses} {ps : List Refuses} (hr : Right p) (h : Fails x (FirstWrong ps)) :
    Fails x (FirstWrong (p :: ps)) := by
  intro e
  rw [h e]
  exact ⟨fun h => Or.inr ⟨hr, h⟩, fun h => h.elim (fun h => absurd h (hr e)) (·.2)⟩

theorem fails_fine {α : Type} (a : α) : Fails (.ok a : Py α) (FirstWrong []) := by
  intro e
  exact ⟨fun h => by (cases h), fun h => h.elim⟩

theorem fails_last {α β : Type} {x : Py α} {f : α → Py β} {p : Refuses} (h : Fails x p) (hf : ∀ a, ∃ b, f a = .ok b) :
    Fails (x >>= f) (FirstWrong [p]) := by
  refine fails_first h fun a _ => ?_
  obtain ⟨b, hb⟩ := hf a
  rw [hb]
  exact fails_fine b

theorem fails_wholeInt (s : Str) : Fails (parseInt s >>= fun x => pyAssert (s.length == x.2) >>= fun _ => (.ok x.1 : Py Int)) (WholeRejects s) := by
  refine fails_chain (chain_whole (fun v n h => ?_) (fun v hv => ?_)) ?_
  · dsimp only
    rw [show (s.length == n) = false by simpa using fun e => h e.symm]
    rfl
  · dsimp only
    rw [show (s.length == s.length) = true by simp]
    exact chain_end (onlyStruct_ok _)
  · left
    intro h
    rcases bindErr.1 h with h | ⟨x, _, h⟩
    · have := (fails_int s _).1 h
      exact absurd this.2 (by simp)
    · rcases bindErr.1 h with h | ⟨_, _, h⟩
      · have := (fails_assert (b := s.length == x.2) (p := (s.length == x.2) = true) Iff.rfl _).1 h
        exact absurd this.2 (by simp)
      · cases h

theorem fails_has (op : Str) (c : Char) : Fails (pyAssert (hasChar op c)) (Needs (c ∈ op) .assertionError) :=
  fails_assert (hasChar_iff _ _)

theorem fails_congr {α : Type} {x : Py α} {p q : Refuses} (h : Fails x p) (hq : ∀ e, p e ↔ q e) : Fails x q :=
  fun e => (h e).trans (hq e)

theorem fails_same {α : Type} {x y : Py α} {p : Refuses} (h : Fails y p) (hx : x = y) : Fails x p := hx ▸ h

theorem fails_slash {op p : Str} {ps : List Refuses} {α : Type} {f : Unit → Py α} (h : Fails (f ()) (FirstWrong ps)) :
    Fails (pyAssert (hasChar op '=' && !hasChar p '/') >>= f)
      (FirstWrong (Needs ('=' ∈ op) .assertionError :: Needs ('/' ∉ p) .assertionError :: ps)) := by
  have e : (pyAssert (hasChar op '=' && !hasChar p '/') >>= f) = (pyAssert (hasChar op '=') >>= fun _ => pyAssert (!hasChar p '/') >>= f) := by
    cases hasChar op '=' <;> cases hasChar p '/' <;> rfl
  rw [e]
  refine fails_first (fails_has _ _) fun _ _ => fails_first (fails_assert ?_) fun _ _ => h
  have := hasChar_iff p '/'
  cases hc : hasChar p '/' <;> simp [hc] at this ⊢ <;> exact this

theorem fails_token {α : Type} {x : Py α} {parts : Str → List Refuses} {t op p r : Str} (ht : Tok t op p r)
    (h : Fails x (FirstWrong (Needs ('=' ∈ op) .assertionError :: parts p))) : Fails x (EqRejects parts t) := by
  intro e
  rw [h e]
  constructor
  · exact fun h => ⟨op, p, r, ht, h⟩
  · rintro ⟨op', p', r', ht', h⟩
    obtain ⟨rfl, rfl, rfl⟩ := tok_unique ht ht'
    exact h

theorem fails_wholeThen {α : Type} {s : Str} {f : Int → Py α} {ps : List Refuses} (h : ∀ n, Fails (f n) (FirstWrong ps)) :
    Fails (parseInt s >>= fun x => pyAssert (s.length == x.2) >>= fun _ => f x.1) (FirstWrong (WholeRejects s :: ps)) := by
  have := fails_first (f := f) (fails_wholeInt s) (fun n _ => h n)
  simpa only [bind_assoc', ok_bind] using this

theorem intArg_fails (t : Str) : Fails (intArg t) (EqRejects numberParts t) := by
  rcases hg : getToken t with ⟨op, p, r⟩
  refine fails_same ?_ (show intArg t = (pyAssert (hasChar op '=') >>= fun _ => parseInt p >>= fun x =>
    pyAssert (p.length == x.2) >>= fun _ => (.ok (x.1, r) : Py (Int × Str))) by unfold intArg; rw [hg])
  exact fails_token (eq_tok hg) (fails_first (fails_has _ _) fun _ _ => fails_wholeThen (f := fun n => .ok (n, r)) fun n => fails_fine _)

theorem procArg_fails (t : Str) : Fails (procArg t) (EqRejects unmaskedParts t) := by
  rcases hg : getToken t with ⟨op, p, r⟩
  refine fails_same ?_ (show procArg t = (pyAssert (hasChar op '=' && !hasChar p '/') >>= fun _ => parseInt p >>= fun x =>
    pyAssert (p.length == x.2) >>= fun _ => (.ok (x.1, r) : Py (Int × Str))) by unfold procArg; rw [hg])
  exact fails_token (eq_tok hg) (fails_slash (fails_wholeThen (f := fun n => .ok (n, r)) fun n => fails_fine _))

theorem nameArg_fails {names : List (Nat × Str)} {q : Str → Refuses} (hq : ∀ s, Fails (nameOrInt names s) (q s)) (t : Str) :
    Fails (nameArg names t) (EqRejects (fun p => [Needs ('/' ∉ p) .assertionError, q p]) t) := by
  rcases hg : getToken t with ⟨op, p, r⟩
  refine fails_same ?_ (show nameArg names t = (pyAssert (hasChar op '=' && !hasChar p '/') >>= fun _ => nameOrInt names p >>= fun n =>
    (.ok (n, r) : Py (Int × Str))) by unfold nameArg; rw [hg])
  exact fails_token (eq_tok hg) (fails_slash (fails_last (hq p) fun n => ⟨_, rfl⟩))

theorem fails_groupName (s : Str) : Fails (nameOrInt ofpg s) (GroupNameRejects s) := by
  have key : ∀ e ∈ ofpg, (e.1, e.2) ∈ reservedGroups := by decide
  have key' : ∀ e ∈ reservedGroups, (e.1, e.2) ∈ ofpg := by decide
  unfold nameOrInt
  cases hf : ofpg.find? (fun e => e.2 == s) with
  | some x =>
    have h1 := List.mem_of_find?_eq_some hf
    have h2 : x.2 = s := by simpa using List.find?_some hf
    intro e
    refine ⟨fun h => by (cases h), fun h => absurd (key x h1) ?_⟩
    rw [h2]
    exact h.1 x.1
  | none =>
    have hn : ∀ n, (n, s) ∉ reservedGroups := by
      intro n hn
      have := List.find?_eq_none.1 hf _ (key' _ hn)
      simp at this
    refine fails_congr (fails_wholeInt s) fun e => ⟨fun h => ⟨hn, h⟩, fun h => h.2⟩

/-! ## Masks -/

theorem slash_cases (p : Str) : (split1 '/' p = (p, none) ∧ '/' ∉ p) ∨ ∃ v m, split1 '/' p = (v, some m) ∧ p = v ++ '/' :: m ∧ '/' ∉ v := by
  rcases hs : split1 '/' p with ⟨v, m⟩
  have := split1_inv hs
  cases m with
  | none =>
    obtain ⟨h, h'⟩ := this
    have h' : p = v := h'
    subst h'
    exact Or.inl ⟨rfl, fun hc => h _ hc rfl⟩
  | some m => exact Or.inr ⟨v, m, rfl, this.2, fun hc => this.1 _ hc rfl⟩

theorem beforeSlash_none {p v : Str} (hp : '/' ∉ p) : BeforeSlash p v ↔ v = p := by
  constructor
  · rintro ⟨_, rfl | ⟨m, rfl⟩⟩
    · rfl
    · simp at hp
  · rintro rfl
    exact ⟨hp, Or.inl rfl⟩

theorem beforeSlash_some {v m w : Str} (hv : '/' ∉ v) : BeforeSlash (v ++ '/' :: m) w ↔ w = v := by
  constructor
  · rintro ⟨h, h1 | ⟨m', h1⟩⟩
    · rw [← h1] at h; simp at h
    · exact (slash_split h1 hv h).1.symm
  · rintro rfl
    exact ⟨hv, Or.inr ⟨m, rfl⟩⟩

theorem behindSlash_none {p m : Str} (hp : '/' ∉ p) : ¬ BehindSlash p m := by
  rintro ⟨v, _, rfl⟩
  simp at hp

theorem behindSlash_some {v m w : Str} (hv : '/' ∉ v) : BehindSlash (v ++ '/' :: m) w ↔ w = m := by
  constructor
  · rintro ⟨v', h, h1⟩
    exact (slash_split h1 hv h).2.symm
  · rintro rfl
    exact ⟨v, hv, rfl⟩

theorem metaArg_fails (t : Str) : Fails (metaArg t) (EqRejects maskedParts t) := by
  rcases hg : getToken t with ⟨op, p, r⟩
  rcases slash_cases p with ⟨hs, hp⟩ | ⟨v, m, hs, rfl, hv⟩
  · refine fails_same ?_ (show metaArg t = (pyAssert (hasChar op '=') >>= fun _ => parseInt p >>= fun x =>
      pyAssert (p.length == x.2) >>= fun _ => (.ok (x.1, 0, r) : Py (Int × Int × Str))) by
        unfold metaArg; rw [hg]; dsimp only; rw [hs]; rfl)
    refine fails_token (eq_tok hg) (fails_congr (fails_first (fails_has _ _) fun _ _ =>
      fails_wholeThen (f := fun n => .ok (n, 0, r)) fun n => fails_fine _) fun e => ?_)
    simp only [maskedParts, FirstWrong, beforeSlash_none hp, behindSlash_none hp, Right, exists_eq_left, false_and, exists_false, or_false, and_false,
      not_false_eq_true]
  · refine fails_same ?_ (show metaArg t = (pyAssert (hasChar op '=') >>= fun _ => parseInt v >>= fun x =>
      pyAssert (v.length == x.2) >>= fun _ => parseInt m >>= fun y => pyAssert (m.length == y.2) >>= fun _ =>
      (.ok (x.1, y.1, r) : Py (Int × Int × Str))) by
        unfold metaArg; rw [hg]; dsimp only; rw [hs]; simp only [bind_assoc', ok_bind])
    refine fails_token (eq_tok hg) (fails_congr (fails_first (fails_has _ _) fun _ _ =>
      fails_wholeThen (f := fun n => _) fun n => fails_wholeThen (f := fun k => .ok (n, k, r)) fun k => fails_fine _) fun e => ?_)
    simp only [maskedParts, FirstWrong, beforeSlash_some hv, behindSlash_some hv, Right, exists_eq_left]

theorem dictMatch_cookieArg (i : Info) (s : Str) : dictMatch t!"cookie" i s = (do
      let (op, payload, s) := getToken s
      pyAssert (hasChar op '=')
      let (v, m) := split1 '/' payload
      let (num, l) ← parseInt v
      pyAssert (v.length == l)
      let info := { i with cookie := some num }
      match m with
      | none => .ok (info, s)
      | some m =>
        let (mask, _) ← parseInt m
        .ok ({ info with cookieMask := some mask }, s)) := rfl

theorem cookie_fails (i : Info) (t : Str) : Fails (dictMatch t!"cookie" i t) (EqRejects cookieParts t) := by
  rcases hg : getToken t with ⟨op, p, r⟩
  rcases slash_cases p with ⟨hs, hp⟩ | ⟨v, m, hs, rfl, hv⟩
  · refine fails_same ?_ (show dictMatch t!"cookie" i t = (pyAssert (hasChar op '=') >>= fun _ => parseInt p >>= fun x =>
      pyAssert (p.length == x.2) >>= fun _ => (.ok ({ i with cookie := some x.1 }, r) : Py (Info × Str))) by
        rw [dictMatch_cookieArg, hg]; dsimp only; rw [hs])
    refine fails_token (eq_tok hg) (fails_congr (fails_first (fails_has _ _) fun _ _ =>
      fails_wholeThen (f := fun n => .ok ({ i with cookie := some n }, r)) fun n => fails_fine _) fun e => ?_)
    simp only [cookieParts, FirstWrong, beforeSlash_none hp, behindSlash_none hp, Right, exists_eq_left, false_and, exists_false, or_false, and_false,
      not_false_eq_true]
  · refine fails_same ?_ (show dictMatch t!"cookie" i t = (pyAssert (hasChar op '=') >>= fun _ => parseInt v >>= fun x =>
      pyAssert (v.length == x.2) >>= fun _ => parseInt m >>= fun y =>
      (.ok ({ i with cookie := some x.1, cookieMask := some y.1 }, r) : Py (Info × Str))) by
        rw [dictMatch_cookieArg, hg]; dsimp only; rw [hs])
    refine fails_token (eq_tok hg) (fails_congr (fails_first (fails_has _ _) fun _ _ =>
      fails_wholeThen (f := fun n => _) fun n => fails_last (f := fun y => .ok ({ i with cookie := some n, cookieMask := some y.1 }, r))
        (fails_int m) fun k => ⟨_, rfl⟩) fun e => ?_)
    simp only [cookieParts, FirstWrong, beforeSlash_some hv, behindSlash_some hv, Right, exists_eq_left]

end Ofpstr
