import Verif.Lemmas.ActFields

/-!
# What can be wrong with the arguments of `learn`
-/

set_option linter.unusedSimpArgs false
set_option linter.unusedVariables false

namespace Ofpstr

open Spec

theorem bindErr {α β : Type} {x : Py α} {f : α → Py β} {e : Err} :
    (x >>= f) = .error e ↔ x = .error e ∨ ∃ a, x = .ok a ∧ f a = .error e := by
  cases x with
  | error e' =>
    rw [raise_bind]
    constructor
    · intro h; cases h; exact Or.inl rfl
    · rintro (h | ⟨a, h, _⟩)
      · cases h; rfl
      · cases h
  | ok a =>
    rw [ok_bind]
    constructor
    · intro h; exact Or.inr ⟨a, rfl, h⟩
    · rintro (h | ⟨a', h, h'⟩)
      · cases h
      · cases h; exact h'

/-! ## Bounds -/

theorem intBound_unique {d : Int} {x : Str} {v w : Int} (h : IntBound d x v) (h' : IntBound d x w) : v = w := by
  obtain ⟨o, h1, rfl⟩ := (intBound_iff _ _ _).1 h
  obtain ⟨o', h2, rfl⟩ := (intBound_iff _ _ _).1 h'
  rw [h1] at h2
  cases h2
  rfl

theorem intBound_nocolon {d : Int} {x : Str} {v : Int} (h : IntBound d x v) : ∀ c ∈ x, c ≠ ':' := by
  obtain ⟨o, h1, rfl⟩ := (intBound_iff _ _ _).1 h
  exact optInt_nocolon h1

theorem colon_unique {d d' : Int} {x y x' y' : Str} {v w : Int} (h : IntBound d x v) (h' : IntBound d' x' w)
    (e : x ++ ':' :: y = x' ++ ':' :: y') : x = x' ∧ y = y' := by
  have h1 := split1_some ':' x y (intBound_nocolon h)
  have h2 := split1_some ':' x' y' (intBound_nocolon h')
  rw [e, h2] at h1
  cases h1
  exact ⟨rfl, rfl⟩

theorem pyInt_unique {x : Str} {v w : Int} (h : PyInt x v) (h' : PyInt x w) : v = w := by
  have h1 := (pyInt_iff _ _).2 h
  rw [(pyInt_iff _ _).2 h'] at h1
  cases h1
  rfl

/-- The rest of `optPair`, behind the first number. -/
def pairTail (p : Option Int) : Option Str → Py (Option Int × Option Int)
  | none => .error .indexError
  | some y => do
    let y ← optInt y
    .ok (p, y)

theorem fails_bounds {a : Str} (ha : a ≠ []) : Fails (optPair a) (BoundsRejects a) := by
  rcases hs : split1 ':' a with ⟨x, y⟩
  obtain ⟨hx, hi⟩ := split1_inv hs
  have hdef : optPair a = optInt x >>= fun p => pairTail p y := by
    unfold optPair
    rw [hs]
    cases y <;> rfl
  cases y with
  | none =>
    dsimp only at hi
    subst hi
    have hno : ∀ x y, a ≠ x ++ ':' :: y := by
      intro x y e
      exact hx ':' (by rw [e]; simp) rfl
    rw [hdef]
    cases ho : optInt a with
    | error e0 =>
      have := optInt_err ho
      subst this
      refine fails_of rfl fun e => ⟨?_, ?_⟩
      · intro he
        cases he with
        | colon v hv =>
          rw [(optInt_iff _ _).2 (Or.inr ⟨v, hv, rfl⟩)] at ho
          cases ho
        | number => rfl
      · rintro rfl
        refine .number a (fun v hv => ?_) (fun x y c d _ _ => hno x y)
        rw [(optInt_iff _ _).2 (Or.inr ⟨v, hv, rfl⟩)] at ho
        cases ho
    | ok o =>
      refine fails_of rfl fun e => ⟨?_, ?_⟩
      · intro he
        cases he with
        | colon v hv => rfl
        | number h1 h2 =>
          rcases (optInt_iff _ _).1 ho with ⟨h, _⟩ | ⟨v, hv, _⟩
          · exact absurd h ha
          · exact absurd hv (h1 v)
      · rintro rfl
        rcases (optInt_iff _ _).1 ho with ⟨h, _⟩ | ⟨v, hv, _⟩
        · exact absurd h ha
        · exact .colon a v hv
  | some y =>
    dsimp only at hi
    subst hi
    intro e
    rw [error_iff (k := .valueError)]
    · constructor
      · rintro ⟨h, rfl⟩
        refine .number _ (fun v hv => pyInt_nocolon hv (by simp)) ?_
        intro x' y' c d hc hd e
        obtain ⟨o, h1, _⟩ := (intBound_iff _ _ _).1 hc
        obtain ⟨o', h2, _⟩ := (intBound_iff _ _ _).1 hd
        exact h (o, o') ((optPair_iff _ _ _).2 ⟨x', y', e, h1, h2⟩)
      · intro he
        cases he with
        | colon v hv => exact absurd (pyInt_nocolon hv (by simp)) id
        | number h1 h2 =>
          refine ⟨?_, rfl⟩
          rintro ⟨o, o'⟩ h
          obtain ⟨x', y', e, h3, h4⟩ := (optPair_iff _ _ _).1 h
          exact h2 x' y' _ _ ((intBound_iff _ _ _).2 ⟨o, h3, rfl⟩) ((intBound_iff _ _ _).2 ⟨o', h4, rfl⟩) e
    · intro e he
      rw [hdef] at he
      rcases bindErr.1 he with h | ⟨p, _, h⟩
      · exact optInt_err h
      · unfold pairTail at h
        rcases bindErr.1 h with h | ⟨q, _, h⟩
        · exact optInt_err h
        · cases h

/-! ## Source and destination -/

theorem learnSource_unique {s : Str} {f g : Field} {a w c k : Int} (h : LearnSource s (.inl (f, a, w))) (h' : LearnSource s (.inl (g, c, k))) :
    f = g ∧ a = c ∧ w = k := by
  generalize hz : (Sum.inl (f, a, w) : (Field × Int × Int) ⊕ Int) = z at h
  generalize hz' : (Sum.inl (g, c, k) : (Field × Int × Int) ⊕ Int) = z' at h'
  cases h with
  | imm => cases hz
  | whole f' arg hf ha hm =>
    cases hz
    cases h' with
    | imm => cases hz'
    | whole g' arg' hf' ha' hm' =>
      cases hz'
      have e := field_unique hm hm' (func_unique hf hf').1
      subst e
      exact ⟨rfl, rfl, rfl⟩
    | range g' x y a' b' hf' =>
      have e := (func_unique hf hf').2
      obtain ⟨q, qs, e'⟩ := append_cons_ne x y ':'
      rw [e'] at e
      rcases ha with rfl | rfl <;> cases e
  | range f' x y a' b' hf hm h1 h2 =>
    cases hz
    cases h' with
    | imm => cases hz'
    | whole g' arg' hf' ha' hm' =>
      have e := (func_unique hf' hf).2
      obtain ⟨q, qs, e'⟩ := append_cons_ne x y ':'
      rw [e'] at e
      rcases ha' with rfl | rfl <;> cases e
    | range g' x' y' a'' b'' hf' hm' h1' h2' =>
      cases hz'
      have e := field_unique hm hm' (func_unique hf hf').1
      subst e
      obtain ⟨rfl, rfl⟩ := colon_unique h1 h1' (Option.some.inj (func_unique hf hf').2)
      rw [intBound_unique h1 h1', intBound_unique h2 h2']
      exact ⟨rfl, rfl, rfl⟩

theorem learnSource_inr {s : Str} {f : Field} {a w v : Int} (h : LearnSource s (.inl (f, a, w))) (h' : LearnSource s (.inr v)) : False := by
  generalize hz : (Sum.inl (f, a, w) : (Field × Int × Int) ⊕ Int) = z at h
  generalize hz' : (Sum.inr v : (Field × Int × Int) ⊕ Int) = z' at h'
  cases h' with
  | whole => cases hz'
  | range => cases hz'
  | imm n arg v' l hf hun hi =>
    cases h with
    | imm => cases hz
    | whole f' arg hf' ha hm => exact hun _ hm (func_unique hf' hf).1
    | range f' x y a' b' hf' hm => exact hun _ hm (func_unique hf' hf).1

theorem dest_range {s : Str} {g : Field} {x y : Str} {n : Str} {arg : Option Str} (h : Func s n arg) (ha : NoArg arg)
    (h' : Func s g.name (some (x ++ ':' :: y))) : False := by
  have e := (func_unique h h').2
  obtain ⟨q, qs, e'⟩ := append_cons_ne x y ':'
  rw [e'] at e
  rcases ha with rfl | rfl <;> cases e

theorem learnDest_unique {s : Str} {f g : Field} {a w c k : Int} (h : LearnDest s f a w) (h' : LearnDest s g c k) :
    f = g ∧ a = c ∧ w = k := by
  cases h with
  | whole arg hf ha hm =>
    cases h' with
    | whole arg' hf' ha' hm' =>
      have e := field_unique hm hm' (func_unique hf hf').1
      subst e
      exact ⟨rfl, rfl, rfl⟩
    | range x y _ b hf' => exact (dest_range hf ha hf').elim
    | tail x _ hf' => exact (dest_range hf ha hf').elim
  | range x y _ b hf hm h1 h2 =>
    cases h' with
    | whole arg' hf' ha' hm' => exact (dest_range hf' ha' hf).elim
    | range x' y' _ b' hf' hm' h1' h2' =>
      have e := field_unique hm hm' (func_unique hf hf').1
      subst e
      obtain ⟨rfl, rfl⟩ := colon_unique h1 h1' (Option.some.inj (func_unique hf hf').2)
      rw [intBound_unique h1 h1', pyInt_unique h2 h2']
      exact ⟨rfl, rfl, rfl⟩
    | tail x' _ hf' hm' h1' =>
      obtain ⟨_, rfl⟩ := colon_unique h1 h1' (Option.some.inj (func_unique hf hf').2)
      exact absurd rfl (pyInt_nonempty h2)
  | tail x _ hf hm h1 =>
    cases h' with
    | whole arg' hf' ha' hm' => exact (dest_range hf' ha' hf).elim
    | range x' y' _ b' hf' hm' h1' h2' =>
      obtain ⟨_, rfl⟩ := colon_unique h1 h1' (Option.some.inj (func_unique hf hf').2)
      exact absurd rfl (pyInt_nonempty h2')
    | tail x' _ hf' hm' h1' =>
      have e := field_unique hm hm' (func_unique hf hf').1
      subst e
      obtain ⟨rfl, _⟩ := colon_unique h1 h1' (Option.some.inj (func_unique hf hf').2)
      rw [intBound_unique h1 h1']
      exact ⟨rfl, rfl, rfl⟩

theorem pyAssert_not {b : Bool} (h : ¬ b = true) : pyAssert b = .error .assertionError := by
  cases b with
  | true => exact absurd rfl h
  | false => rfl

theorem packed_fits {k : Nat} {n : Int} {y : Bytes} (h : Packed [(k, n)] y) : FitsIn k n := h.1 (k, n) (by simp)

theorem fits_packed {k : Nat} {n : Int} (h : FitsIn k n) : ∃ y, Packed [(k, n)] y := ⟨_, by intro e he; simp at he; subst he; exact h, rfl⟩

/-- First bit and width, as `learnSource` reads them. -/
def srcPair (size : Int) : Option Str → Py (Int × Int)
  | some (c :: cs) => do
    let (x, y) ← optPair (c :: cs)
    let sshift := x.getD 0
    .ok (sshift, y.getD (size * 8) - sshift)
  | _ => .ok (0, size * 8)

theorem srcPair_eq (n : Nat) (arg : Option Str) (v : Int) (h : v * 8 = (n : Int)) : srcPair v arg = (match arg with
    | some (c :: cs) => do
      let (x, y) ← optPair (c :: cs)
      let sshift := x.getD 0
      .ok (sshift, y.getD n - sshift)
    | _ => .ok (0, n) : Py (Int × Int)) := by
  unfold srcPair
  rw [h]

theorem fails_learnSource {s : Str} (hs : getToken s = ([], s, [])) : Fails (learnSource s) (LearnSourceRejects s) := by
  by_cases hf : ∃ n a, Func s n a
  · obtain ⟨n, arg, hf⟩ := hf
    rcases known_cases n with ⟨f, hm, rfl⟩ | hun
    · have hdef : learnSource s = (do
          pyAssert ((f.nameId false).length == 4)
          let (sshift, nbits) ← srcPair (uAt (f.nameId false) 3 1) arg
          let s ← packU 2 sshift
          .ok (.fld (f.nameId false ++ s), some nbits) : Py (LearnSrc × Option Int)) := by
        unfold learnSource
        rw [(func_iff _ _ _).2 hf, ok_bind]
        dsimp only
        rw [(oxmid_iff false f.name (name_self hs hf) _).2 (.known f hm), ok_bind, if_neg (by simpa using nameId_nonempty f hm false)]
        rcases arg with _ | _ | ⟨c, cs⟩ <;> rfl
      by_cases he : f.experimenter = false
      · have hok : (pyAssert ((f.nameId false).length == 4)) = .ok () := pyAssert_iff.2 ((nameId_four f hm).2 he)
        intro e
        constructor
        · intro h
          rw [hdef, hok, ok_bind] at h
          dsimp only at h
          rcases bindErr.1 h with h | ⟨⟨v, w⟩, h1, h⟩
          · rcases arg with _ | _ | ⟨c, cs⟩
            · cases h
            · cases h
            · unfold srcPair at h
              dsimp only at h
              rcases bindErr.1 h with h | ⟨⟨o, o'⟩, _, h⟩
              · exact .range f _ e hm hf he (by simp) ((fails_bounds (by simp) e).1 h)
              · cases h
          · dsimp only at h
            rcases bindErr.1 h with h | ⟨y, _, h⟩
            · have hk := onlyStruct_packU _ _ _ h
              subst hk
              have hsrc : LearnSource s (.inl (f, v, w)) := by
                rw [srcPair_eq _ _ _ (nameId_size4 f hm he)] at h1
                rcases arg with _ | _ | ⟨c, cs⟩
                · cases h1
                  exact .whole s f none hf (Or.inl rfl) hm
                · cases h1
                  exact .whole s f _ hf (Or.inr rfl) hm
                · dsimp only at h1
                  obtain ⟨⟨o, o'⟩, h4, h2⟩ := bind_iff.1 h1
                  cases h2
                  obtain ⟨x, y, e, h5, h6⟩ := (optPair_iff _ _ _).1 h4
                  rw [e] at hf
                  exact .range s f x y _ _ hf hm ((intBound_iff _ _ _).2 ⟨o, h5, rfl⟩) ((intBound_iff _ _ _).2 ⟨o', h6, rfl⟩)
              refine .offset f v w hsrc he fun hfit => ?_
              rw [packU_wire, if_pos hfit] at h
              cases h
            · cases h
        · intro h
          cases h with
          | func _ h => exact absurd h (func_none hf _)
          | number n' a' hf' hun => exact absurd (func_unique hf hf').1 (hun f hm)
          | exper g a' hg hf' hx =>
            have e := field_unique hm hg (func_unique hf hf').1
            subst e
            rw [he] at hx
            cases hx
          | range g a' _ hg hf' hx hne hb =>
            have e := (func_unique hf hf').2
            subst e
            obtain ⟨c, cs, rfl⟩ : ∃ c cs, a' = c :: cs := by cases a' with | nil => exact absurd rfl hne | cons c cs => exact ⟨c, cs, rfl⟩
            rw [hdef, hok, ok_bind]
            unfold srcPair
            dsimp only
            rw [(fails_bounds hne e).2 hb]
            rfl
          | offset g v w hsrc hx hfit =>
            have hg : g = f := by
              generalize hz : (Sum.inl (g, v, w) : (Field × Int × Int) ⊕ Int) = z at hsrc
              cases hsrc with
              | imm => cases hz
              | whole g' arg hf' ha hm' => cases hz; exact field_unique hm' hm (func_unique hf' hf).1
              | range g' x y a' b' hf' hm' => cases hz; exact field_unique hm' hm (func_unique hf' hf).1
            subst hg
            rw [hdef, hok, ok_bind]
            dsimp only
            have hpair : ∀ P : Int × Int → Py (LearnSrc × Option Int), (srcPair (uAt (g.nameId false) 3 1) arg >>= P) = P (v, w) := by
              intro P
              rw [srcPair_eq _ _ _ (nameId_size4 g hm he)]
              generalize hz : (Sum.inl (g, v, w) : (Field × Int × Int) ⊕ Int) = z at hsrc
              cases hsrc with
              | imm => cases hz
              | whole g' arg' hf' ha hm' =>
                cases hz
                have e := (func_unique hf hf').2
                subst e
                rcases ha with rfl | rfl <;> rfl
              | range g' x y a' b' hf' hm' h3 h4 =>
                cases hz
                have e := (func_unique hf hf').2
                subst e
                obtain ⟨o, k1, rfl⟩ := (intBound_iff _ _ _).1 h3
                obtain ⟨o', k2, rfl⟩ := (intBound_iff _ _ _).1 h4
                obtain ⟨c, cs, e⟩ := append_cons_ne x y ':'
                rw [e]
                dsimp only
                rw [(optPair_iff _ _ _).2 ⟨x, y, e.symm, k1, k2⟩]
                rfl
            refine (hpair _).trans ?_
            dsimp only
            rw [packU_wire, if_neg hfit]
            rfl
      · have he' : f.experimenter = true := by simpa using he
        refine fails_of (k := .assertionError) ?_ fun e => ⟨?_, by rintro rfl; exact .exper f arg hm hf he'⟩
        · rw [hdef, pyAssert_not (fun h => he ((nameId_four f hm).1 h))]
          rfl
        · intro h
          cases h with
          | func _ h => exact absurd h (func_none hf _)
          | number n' a' hf' hun => exact absurd (func_unique hf hf').1 (hun f hm)
          | exper g a' hg hf' hx => rfl
          | range g a' _ hg hf' hx hne hb =>
            have e := field_unique hm hg (func_unique hf hf').1
            subst e
            exact absurd hx he
          | offset g v w hsrc hx hfit =>
            have hg : g = f := by
              generalize hz : (Sum.inl (g, v, w) : (Field × Int × Int) ⊕ Int) = z at hsrc
              cases hsrc with
              | imm => cases hz
              | whole g' arg hf' ha hm' => cases hz; exact field_unique hm' hm (func_unique hf' hf).1
              | range g' x y a' b' hf' hm' => cases hz; exact field_unique hm' hm (func_unique hf' hf).1
            subst hg
            exact absurd hx he
    · have hdef : learnSource s = (do
          let (n, _) ← parseInt n
          .ok (.imm n, none) : Py (LearnSrc × Option Int)) := by
        unfold learnSource
        rw [(func_iff _ _ _).2 hf, ok_bind]
        dsimp only
        rw [(oxmid_iff false n (name_self hs hf) _).2 (.unknown n hun), ok_bind, if_pos (show ([] : Bytes).isEmpty = true from rfl)]
      intro e
      rw [hdef, bindErr]
      constructor
      · rintro (h | ⟨a, _, h⟩)
        · obtain ⟨h1, rfl⟩ := (fails_int n e).1 h
          exact .number n arg hf hun h1
        · cases h
      · intro h
        cases h with
        | func _ h => exact absurd h (func_none hf _)
        | number n' a' hf' hun' hno =>
          left
          rw [← (func_unique hf hf').1] at hno
          exact (fails_int n _).2 ⟨hno, rfl⟩
        | exper g a' hg hf' hx => exact absurd (func_unique hf' hf).1 (hun g hg)
        | range g a' _ hg hf' hx hne hb => exact absurd (func_unique hf' hf).1 (hun g hg)
        | offset g v w hsrc hx hfit =>
          exfalso
          generalize hz : (Sum.inl (g, v, w) : (Field × Int × Int) ⊕ Int) = z at hsrc
          cases hsrc with
          | imm => cases hz
          | whole g' arg hf' ha hm' => exact hun _ hm' (func_unique hf' hf).1
          | range g' x y a' b' hf' hm' => exact hun _ hm' (func_unique hf' hf).1
  · have hx := (fails_func s .assertionError).2 ⟨hf, rfl⟩
    refine fails_of (k := .assertionError) ?_ fun e => ⟨?_, by rintro rfl; exact .func _ ⟨hf, rfl⟩⟩
    · unfold learnSource
      rw [hx, raise_bind]
    · intro h
      cases h with
      | func _ h => exact h.2
      | number n' a' hf' => exact absurd ⟨_, _, hf'⟩ hf
      | exper g a' hg hf' => exact absurd ⟨_, _, hf'⟩ hf
      | range g a' _ hg hf' => exact absurd ⟨_, _, hf'⟩ hf
      | offset g v w hsrc hx hfit =>
        exfalso
        cases hsrc with
        | whole g' arg hf' => exact hf ⟨_, _, hf'⟩
        | range g' x y a' b' hf' => exact hf ⟨_, _, hf'⟩

theorem fails_learnDest {s : Str} (hs : getToken s = ([], s, [])) : Fails (learnDest (some s)) (LearnDestRejects s) := by
  by_cases hf : ∃ n a, Func s n a
  · obtain ⟨n, arg, hf⟩ := hf
    by_cases hk : ∀ f ∈ fields, f.name = n → f.experimenter = true
    · refine fails_of (k := .assertionError) ?_ fun e => ⟨?_, by rintro rfl; exact .field n arg hf hk⟩
      · unfold learnDest
        dsimp only
        rw [(func_iff _ _ _).2 hf, ok_bind]
        dsimp only
        rcases known_cases n with ⟨f, hm, rfl⟩ | hun
        · rw [(oxmid_iff false f.name (name_self hs hf) _).2 (.known f hm), ok_bind,
            pyAssert_not (fun h => by have := (nameId_four f hm).1 h; rw [hk f hm rfl] at this; cases this)]
          rfl
        · rw [(oxmid_iff false n (name_self hs hf) _).2 (.unknown n hun), ok_bind]
          rfl
      · intro h
        cases h with
        | func _ h => exact absurd h (func_none hf _)
        | field => rfl
        | range g a' _ hg hf' hx =>
          rw [hk g hg (func_unique hf' hf).1] at hx
          cases hx
    · obtain ⟨f, hm, rfl, he⟩ : ∃ f ∈ fields, f.name = n ∧ f.experimenter = false := by
        simpa using hk
      intro e
      unfold learnDest
      dsimp only
      rw [(func_iff _ _ _).2 hf, ok_bind]
      dsimp only
      rw [(oxmid_iff false f.name (name_self hs hf) _).2 (.known f hm), ok_bind,
        show pyAssert ((f.nameId false).length == 4) = .ok () from pyAssert_iff.2 ((nameId_four f hm).2 he), ok_bind]
      constructor
      · intro h
        rcases arg with _ | _ | ⟨c, cs⟩
        · cases h
        · cases h
        · dsimp only at h
          rcases bindErr.1 h with h | ⟨⟨o, o'⟩, _, h⟩
          · exact .range f _ e hm hf he (by simp) ((fails_bounds (by simp) e).1 h)
          · cases h
      · intro h
        cases h with
        | func _ h => exact absurd h (func_none hf _)
        | field n' a' hf' hx =>
          have := hx f hm (func_unique hf hf').1
          rw [he] at this
          cases this
        | range g a' _ hg hf' hx hne hb =>
          have e := (func_unique hf hf').2
          subst e
          obtain ⟨c, cs, rfl⟩ : ∃ c cs, a' = c :: cs := by cases a' with | nil => exact absurd rfl hne | cons c cs => exact ⟨c, cs, rfl⟩
          dsimp only
          rw [(fails_bounds hne e).2 hb]
          rfl
  · have hx := (fails_func s .assertionError).2 ⟨hf, rfl⟩
    refine fails_of (k := .assertionError) ?_ fun e => ⟨?_, by rintro rfl; exact .func _ ⟨hf, rfl⟩⟩
    · unfold learnDest
      dsimp only
      rw [hx, raise_bind]
    · intro h
      cases h with
      | func _ h => exact h.2
      | field n' a' hf' => exact absurd ⟨_, _, hf'⟩ hf
      | range g a' _ hg hf' => exact absurd ⟨_, _, hf'⟩ hf

/-! ## Specifications -/

theorem chain_spec {src : Str} {dst mode : Option Str} (hs : getToken src = ([], src, []))
    (hd : ∀ d, dst = some d → getToken d = ([], d, [])) : Chain (flowModSpec src dst mode) (specParts src dst mode) := by
  unfold flowModSpec specParts
  refine chain_bind (fails_learnSource hs) ?_
  rintro ⟨sobj, nbits⟩ hsrc
  dsimp only
  by_cases hm : mode = some t!"output"
  · rw [if_pos hm, if_pos (by simpa using hm)]
    apply chain_end
    cases sobj with
    | imm n => exact onlyStruct_packAll _
    | fld b => exact onlyStruct_bind (onlyStruct_packU _ _) fun _ => onlyStruct_ok _
  · rw [if_neg hm, if_neg (by simpa using hm)]
    cases dst with
    | none => exact chain_raise fun e => Iff.rfl
    | some d =>
      dsimp only
      refine chain_bind (fails_learnDest (hd d rfl)) ?_
      rintro ⟨id, c, k⟩ hdst
      dsimp only
      obtain ⟨g, hdst, _, _⟩ := (learnDest_iff (hd d rfl) _ _ _).1 hdst
      refine chain_bind ?_ ?_
      · rcases (learnSource_iff hs _).1 hsrc with ⟨f, a, w, y, h1, h2, h3, h4⟩ | ⟨v, h1, h4⟩
        · cases h4
          have hw : SameWidth src d ↔ (w = 0 ∨ w = k) := by
            constructor
            · intro h; exact h _ _ _ _ _ _ h1 hdst
            · intro h f' a' w' g' c' k' h1' hdst'
              rw [← (learnSource_unique h1 h1').2.2, ← (learnDest_unique hdst hdst').2.2]
              exact h
          dsimp only
          by_cases h0 : w = 0
          · rw [if_pos (by simpa using h0)]
            exact fails_none rfl fun e he => he.1 (hw.2 (Or.inl h0))
          · rw [if_neg (by simpa using h0)]
            by_cases hk : w = k
            · rw [show pyAssert (w == k) = .ok () by rw [hk]; simp [pyAssert]]
              exact fails_none rfl fun e he => he.1 (hw.2 (Or.inr hk))
            · rw [pyAssert_not (by simpa using hk)]
              refine fails_of rfl fun e => ⟨fun h => h.2, ?_⟩
              rintro rfl
              exact ⟨fun h => (hw.1 h).elim h0 hk, rfl⟩
        · cases h4
          refine fails_none rfl fun e he => he.1 ?_
          intro f' a' w' g' c' k' h1' _
          exact (learnSource_inr h1' h1).elim
      · intro nb _
        apply chain_end
        exact onlyStruct_bind (onlyStruct_packU _ _) fun _ => onlyStruct_bind (onlyStruct_packU _ _) fun _ => onlyStruct_ok _

theorem fails_spec {src : Str} {dst mode : Option Str} (hs : getToken src = ([], src, []))
    (hd : ∀ d, dst = some d → getToken d = ([], d, [])) : Fails (flowModSpec src dst mode) (LearnSpecRejects src dst mode) := by
  intro e
  rw [chain_spec hs hd e]
  unfold LearnSpecRejects
  simp only [flowModSpec_iff hs hd]

/-! ## Words -/

theorem fails_word (w : Str) : Fails (learnPending (some w)) (LearnWordRejects w) := by
  cases w with
  | nil =>
    refine fails_none rfl ?_
    have h0 : ∀ n a, Func [] n (some a) → False := by
      intro n a h
      have h1 := (func_iff _ _ _).2 h
      have h2 : parseFunc [] = .ok ([], none) := rfl
      rw [h1] at h2
      cases h2
    intro e he
    cases he with
    | func _ h => exact h rfl
    | bare n a h => exact h rfl
    | equals n a h d u h' s r hf => exact h0 _ _ hf
    | spec n a h d u h' s r e hf => exact h0 _ _ hf
  | cons c cs =>
    have hne : c :: cs ≠ [] := by simp
    generalize c :: cs = w at hne ⊢
    have hdef : learnPending (some w) = learnSingle w := by
      cases w with
      | nil => exact absurd rfl hne
      | cons c cs => rfl
    rw [hdef]
    unfold learnSingle
    by_cases hf : ∃ n a, Func w n a
    · obtain ⟨n, arg, hf⟩ := hf
      rw [(func_iff _ _ _).2 hf, ok_bind]
      dsimp only
      have hno : NoArg arg → ∀ e, LearnWordRejects w e ↔ e = .assertionError := by
        intro ha e
        refine ⟨fun h => ?_, by rintro rfl; exact .bare n arg hne hf ha⟩
        cases h with
        | func _ _ h => exact absurd h (func_none hf _)
        | bare => rfl
        | equals n' a h d u h' s r hf' h0 =>
          rfl
        | spec n' a h d u h' s r e hf' h0 =>
          have e := (func_unique hf hf').2
          rcases ha with rfl | rfl
          · cases e
          · cases e; exact absurd rfl h0
      rcases arg with _ | _ | ⟨c, cs⟩
      · exact fails_of rfl (hno (Or.inl rfl))
      · exact fails_of rfl (hno (Or.inr rfl))
      · dsimp only
        rcases hg : getToken (c :: cs) with ⟨h2, dst, u⟩
        dsimp only
        rcases hk : getToken u with ⟨h3, src, r⟩
        dsimp only
        have hspec := fails_spec (mode := some n) (token_self hk) (dst := some dst) (by intro d e; cases e; exact token_self hg)
        have huniq : ∀ {n' a h d u' h' s r'}, Func w n' (some a) → Tok a h d u' → Tok u' h' s r' → n' = n ∧ d = dst ∧ h' = h3 ∧ s = src := by
          intro n' a h d u' h' s r' hf' ht ht'
          obtain ⟨e1, e2⟩ := func_unique hf hf'
          cases e2
          cases hg.symm.trans (tok_get ht)
          cases hk.symm.trans (tok_get ht')
          exact ⟨e1.symm, rfl, rfl, rfl⟩
        by_cases heq : '=' ∈ h3
        · rw [show pyAssert (hasChar h3 '=') = .ok () from pyAssert_iff.2 ((hasChar_iff _ _).2 heq), ok_bind]
          intro e
          rw [hspec e]
          constructor
          · intro h
            exact .spec n _ _ _ _ _ _ _ e hf (by simp) (eq_tok hg) (eq_tok hk) heq h
          · intro h
            cases h with
            | func _ _ h => exact absurd h (func_none hf _)
            | bare n' a' _ hf' ha =>
              have e := (func_unique hf hf').2
              rcases ha with rfl | rfl <;> cases e
            | equals n' a h d u h' s r hf' h0 h1 h2 h3 =>
              obtain ⟨_, _, rfl, _⟩ := huniq hf' h1 h2
              exact absurd heq h3
            | spec n' a h d u h' s r e hf' h0 h1 h2 h3 h4 =>
              obtain ⟨rfl, rfl, rfl, rfl⟩ := huniq hf' h1 h2
              exact h4
        · refine fails_of (k := .assertionError) ?_ fun e => ⟨?_, ?_⟩
          · rw [pyAssert_not (fun h => heq ((hasChar_iff _ _).1 h))]
            rfl
          · intro h
            cases h with
            | func _ _ h => exact absurd h (func_none hf _)
            | bare => rfl
            | equals => rfl
            | spec n' a h d u h' s r e hf' h0 h1 h2 h3 h4 =>
              obtain ⟨rfl, rfl, rfl, rfl⟩ := huniq hf' h1 h2
              exact absurd h3 heq
          · rintro rfl
            exact .equals n _ _ _ _ _ _ _ hf (by simp) (eq_tok hg) (eq_tok hk) heq
    · have hx := (fails_func w .assertionError).2 ⟨hf, rfl⟩
      refine fails_of (k := .assertionError) ?_ fun e => ⟨?_, by rintro rfl; exact .func _ hne ⟨hf, rfl⟩⟩
      · rw [hx, raise_bind]
      · intro h
        cases h with
        | func _ _ h => exact h.2
        | bare => rfl
        | equals => rfl
        | spec n' a h d u h' s r e hf' => exact absurd ⟨_, _, hf'⟩ hf

/-! ## The loop -/

/-- What can be wrong behind a word that has been read. -/
inductive AfterRejects (l u : Str) : Refuses
  | set (h v r w) : Tok u h v r → '=' ∈ h → (l, w) ∈ learnWidths → NoInt v → AfterRejects l u .valueError
  | afterSet (h v r w n i e) : Tok u h v r → '=' ∈ h → (l, w) ∈ learnWidths → IntSyntax v n i → LearnRejects r e → AfterRejects l u e
  | spec (h s r e) : Tok u h s r → '=' ∈ h → (∀ x ∈ learnWidths, x.1 ≠ l) → LearnSpecRejects s (some l) none e → AfterRejects l u e
  | afterSpec (h s r x e) : Tok u h s r → '=' ∈ h → (∀ x ∈ learnWidths, x.1 ≠ l) → LearnSpec s (some l) none x → LearnRejects r e →
      AfterRejects l u e
  | word (e) : NoEq u → LearnWordRejects l e → AfterRejects l u e
  | afterWord (x e) : NoEq u → LearnWord l x → LearnRejects u e → AfterRejects l u e

theorem learnRejects_step (u : Str) (e : Err) : LearnRejects u e ↔ u ≠ [] ∧ ∃ h l r, Tok u h l r ∧
    (('=' ∈ h ∧ LearnSpecRejects l none none e) ∨ ('=' ∉ h ∧ AfterRejects l r e)) := by
  have hne : ∀ {h l r}, Tok u h l r → '=' ∈ h → u ≠ [] := by
    rintro h l r ht hh rfl
    rw [(tok_nil ht).1] at hh
    cases hh
  have hne' : ∀ {h l r h' l' r'}, Tok u h l r → Tok r h' l' r' → '=' ∈ h' → u ≠ [] := by
    rintro h l r h' l' r' ht ht' hh rfl
    have := (tok_nil ht).2.2
    subst this
    rw [(tok_nil ht').1] at hh
    cases hh
  constructor
  · intro h
    cases h with
    | noDest _ h s r _ h1 h2 h3 => exact ⟨hne h1 h2, h, s, r, h1, Or.inl ⟨h2, h3⟩⟩
    | set _ h k u' h' v r w h1 h2 h3 h4 h5 h6 => exact ⟨hne' h1 h3 h4, h, k, u', h1, Or.inr ⟨h2, .set h' v r w h3 h4 h5 h6⟩⟩
    | spec _ h d u' h' s r _ h1 h2 h3 h4 h5 h6 => exact ⟨hne' h1 h3 h4, h, d, u', h1, Or.inr ⟨h2, .spec h' s r e h3 h4 h5 h6⟩⟩
    | word _ h w r _ h0 h1 h2 h3 h4 => exact ⟨h0, h, w, r, h1, Or.inr ⟨h2, .word e h3 h4⟩⟩
    | afterSet _ h k u' h' v r n l w _ h1 h2 h3 h4 h5 h6 h7 =>
      exact ⟨hne' h1 h3 h4, h, k, u', h1, Or.inr ⟨h2, .afterSet h' v r w n l e h3 h4 h5 h6 h7⟩⟩
    | afterSpec _ h d u' h' s r x _ h1 h2 h3 h4 h5 h6 h7 =>
      exact ⟨hne' h1 h3 h4, h, d, u', h1, Or.inr ⟨h2, .afterSpec h' s r x e h3 h4 h5 h6 h7⟩⟩
    | afterWord _ h w r x _ h0 h1 h2 h3 h4 h5 => exact ⟨h0, h, w, r, h1, Or.inr ⟨h2, .afterWord x e h3 h4 h5⟩⟩
  · rintro ⟨h0, h, l, r, h1, ⟨h2, h3⟩ | ⟨h2, h3⟩⟩
    · exact .noDest u h l r e h1 h2 h3
    · cases h3 with
      | set h' v r' w h3 h4 h5 h6 => exact .set u h l r h' v r' w h1 h2 h3 h4 h5 h6
      | afterSet h' v r' w n i _ h3 h4 h5 h6 h7 => exact .afterSet u h l r h' v r' n i w e h1 h2 h3 h4 h5 h6 h7
      | spec h' s r' _ h3 h4 h5 h6 => exact .spec u h l r h' s r' e h1 h2 h3 h4 h5 h6
      | afterSpec h' s r' x _ h3 h4 h5 h6 h7 => exact .afterSpec u h l r h' s r' x e h1 h2 h3 h4 h5 h6 h7
      | word _ h3 h4 => exact .word u h l r e h0 h1 h2 h3 h4
      | afterWord x _ h3 h4 h5 => exact .afterWord u h l r x e h0 h1 h2 h3 h4 h5

theorem learnRejects_nil (e : Err) : ¬ LearnRejects [] e := fun h => ((learnRejects_step _ _).1 h).1 rfl

/-- What can be wrong with what is left to read. -/
def RestRejects : Option Str → Str → Refuses
  | none, u => LearnRejects u
  | some l, u => AfterRejects l u

theorem after_noEq {l u : Str} (hu : NoEq u) (e : Err) : AfterRejects l u e ↔
    LearnWordRejects l e ∨ ((∃ x, LearnWord l x) ∧ LearnRejects u e) := by
  constructor
  · intro h
    cases h with
    | set h' v r' w h3 h4 h5 h6 => exact absurd h4 (hu _ _ _ h3)
    | afterSet h' v r' w n i _ h3 h4 h5 h6 h7 => exact absurd h4 (hu _ _ _ h3)
    | spec h' s r' _ h3 h4 h5 h6 => exact absurd h4 (hu _ _ _ h3)
    | afterSpec h' s r' x _ h3 h4 h5 h6 h7 => exact absurd h4 (hu _ _ _ h3)
    | word _ h3 h4 => exact Or.inl h4
    | afterWord x _ h3 h4 h5 => exact Or.inr ⟨⟨x, h4⟩, h5⟩
  · rintro (h | ⟨⟨x, h⟩, h'⟩)
    · exact .word e hu h
    · exact .afterWord x e hu h h'

theorem learnGo_fails (fuel : Nat) : ∀ (info : List (Str × Int)) (left : Option Str) (u : Str),
    (∀ l, left = some l → getToken l = ([], l, [])) → u.length < fuel → Fails (learnGo fuel info left u) (RestRejects left u) := by
  induction fuel with
  | zero => intro info left u _ h; omega
  | succ fuel ih =>
    intro info left u hl hlen e
    rw [learnGo_succ]
    have hword : ∀ l, (∃ x, learnPending (some l) = .ok x) ↔ ∃ x, LearnWord l x := fun l => by simp only [learnWord_iff]
    by_cases hu : u = []
    · subst hu
      rw [if_pos (show ([] : Str).isEmpty = true from rfl)]
      cases left with
      | none => exact ⟨fun h => by (cases h), fun h => absurd h (learnRejects_nil e)⟩
      | some l =>
        rw [bindErr]
        show _ ↔ AfterRejects l [] e
        rw [after_noEq noEq_nil, fails_word l e]
        constructor
        · rintro (h | ⟨_, _, h⟩)
          · exact Or.inl h
          · cases h
        · rintro (h | ⟨_, h⟩)
          · exact Or.inl h
          · exact absurd h (learnRejects_nil e)
    · rw [if_neg (by simpa using hu)]
      rcases hg : getToken u with ⟨h, arg, rest⟩
      have ht := eq_tok hg
      have hrest : rest.length < fuel := by
        have := getToken_progress u hu
        rw [hg] at this
        dsimp only at this
        omega
      dsimp only
      by_cases heq : '=' ∈ h
      · rw [if_pos ((hasChar_iff _ _).2 heq)]
        have hnone := ih
        cases left with
        | none =>
          rw [if_neg (by decide)]
          show _ ↔ LearnRejects u e
          rw [learnRejects_step, bindErr, fails_spec (token_self hg) (by intro d e; cases e) e]
          constructor
          · rintro (h1 | ⟨b, hb, _⟩)
            · exact ⟨hu, h, arg, rest, ht, Or.inl ⟨heq, h1⟩⟩
            · exfalso
              have := (flowModSpec_iff (token_self hg) (by intro d e; cases e) b).1 hb
              cases this
          · rintro ⟨_, h', l, r, ht', ⟨_, h1⟩ | ⟨h1, _⟩⟩
            · cases hg.symm.trans (tok_get ht')
              exact Or.inl h1
            · cases hg.symm.trans (tok_get ht')
              exact absurd heq h1
        | some l =>
          show _ ↔ AfterRejects l u e
          have hnot : ¬ NoEq u := fun hn => hn _ _ _ ht heq
          dsimp only
          by_cases hk : learnKeys.contains l = true
          · rw [if_pos hk, bindErr]
            obtain ⟨w, hw⟩ := (learnKeys_iff l).1 hk
            constructor
            · rintro (h1 | ⟨⟨n, i⟩, h1, h2⟩)
              · obtain ⟨h3, rfl⟩ := (fails_int _ _).1 h1
                exact .set h arg rest w ht heq hw h3
              · exact .afterSet h arg rest w n i e ht heq hw ((parseInt_iff _ _ _).1 h1) ((ih _ none rest (by intro l e; cases e) hrest e).1 h2)
            · intro h1
              cases h1 with
              | set h' v r' w' h3 h4 h5 h6 =>
                cases hg.symm.trans (tok_get h3)
                exact Or.inl ((fails_int _ _).2 ⟨h6, rfl⟩)
              | afterSet h' v r' w' n i _ h3 h4 h5 h6 h7 =>
                cases hg.symm.trans (tok_get h3)
                exact Or.inr ⟨(n, i), (parseInt_iff _ _ _).2 h6, (ih _ none rest (by intro l e; cases e) hrest e).2 h7⟩
              | spec h' s r' _ h3 h4 h5 h6 => exact absurd rfl (h5 _ hw)
              | afterSpec h' s r' x _ h3 h4 h5 h6 h7 => exact absurd rfl (h5 _ hw)
              | word _ h3 h4 => exact absurd h3 hnot
              | afterWord x _ h3 h4 h5 => exact absurd h3 hnot
          · rw [if_neg hk, bindErr]
            have hw := (learnKeys_not l).1 (by simpa using hk)
            have hd : ∀ d, some l = some d → getToken d = ([], d, []) := hl
            rw [fails_spec (token_self hg) hd e]
            have hrec : ∀ (b : Bytes), ((do
                let (info, specs) ← learnGo fuel info none rest
                .ok (info, b ++ specs) : Py (List (Str × Int) × Bytes)) = .error e) ↔ LearnRejects rest e := by
              intro b
              rw [bindErr, ih info none rest (by intro l e; cases e) hrest e]
              constructor
              · rintro (h | ⟨a, _, h⟩)
                · exact h
                · cases h
              · exact Or.inl
            constructor
            · rintro (h1 | ⟨b, h1, h2⟩)
              · exact .spec h arg rest e ht heq hw h1
              · exact .afterSpec h arg rest b e ht heq hw ((flowModSpec_iff (token_self hg) hd b).1 h1) ((hrec b).1 h2)
            · intro h1
              cases h1 with
              | set h' v r' w' h3 h4 h5 h6 => exact absurd rfl (hw _ h5)
              | afterSet h' v r' w' n i _ h3 h4 h5 h6 h7 => exact absurd rfl (hw _ h5)
              | spec h' s r' _ h3 h4 h5 h6 =>
                cases hg.symm.trans (tok_get h3)
                exact Or.inl h6
              | afterSpec h' s r' x _ h3 h4 h5 h6 h7 =>
                cases hg.symm.trans (tok_get h3)
                exact Or.inr ⟨x, (flowModSpec_iff (token_self hg) hd x).2 h6, (hrec x).2 h7⟩
              | word _ h3 h4 => exact absurd h3 hnot
              | afterWord x _ h3 h4 h5 => exact absurd h3 hnot
      · rw [if_neg (fun hh => heq ((hasChar_iff _ _).1 hh))]
        have hrec : ∀ (b : Bytes), ((do
            let (info, specs) ← learnGo fuel info (some arg) rest
            .ok (info, b ++ specs) : Py (List (Str × Int) × Bytes)) = .error e) ↔ LearnRejects u e := by
          intro b
          rw [bindErr, ih info (some arg) rest (by intro l e; cases e; exact token_self hg) hrest e, learnRejects_step]
          constructor
          · rintro (h1 | ⟨a, _, h1⟩)
            · exact ⟨hu, h, arg, rest, ht, Or.inr ⟨heq, h1⟩⟩
            · cases h1
          · rintro ⟨_, h', l, r, ht', ⟨h1, _⟩ | ⟨_, h1⟩⟩
            · cases hg.symm.trans (tok_get ht')
              exact absurd h1 heq
            · cases hg.symm.trans (tok_get ht')
              exact Or.inl h1
        rw [bindErr]
        cases left with
        | none =>
          show _ ↔ LearnRejects u e
          constructor
          · rintro (h1 | ⟨b, _, h1⟩)
            · cases h1
            · exact (hrec b).1 h1
          · intro h1
            exact Or.inr ⟨[], rfl, (hrec []).2 h1⟩
        | some l =>
          show _ ↔ AfterRejects l u e
          rw [after_noEq (tok_noEq ht heq), fails_word l e, ← hword l]
          constructor
          · rintro (h1 | ⟨b, hb, h1⟩)
            · exact Or.inl h1
            · exact Or.inr ⟨⟨b, hb⟩, (hrec b).1 h1⟩
          · rintro (h1 | ⟨⟨b, hb⟩, h1⟩)
            · exact Or.inl h1
            · exact Or.inr ⟨b, hb, (hrec b).2 h1⟩

theorem fails_learn (u : Str) : Fails (learnGo (u.length + 1) [] none u) (LearnRejects u) :=
  learnGo_fails _ _ none u (by intro l e; cases e) (by omega)

end Ofpstr
