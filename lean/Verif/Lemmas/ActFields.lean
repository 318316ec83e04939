import Verif.Lemmas.ActChain

/-!
# What can be wrong with bits, ranges and slaves
-/

set_option linter.unusedSimpArgs false
set_option linter.unusedVariables false

namespace Ofpstr

open Spec

theorem error_iff {α : Type} {x : Py α} {k : Err} (h : ∀ e, x = .error e → e = k) (e : Err) :
    x = .error e ↔ (∀ a, x ≠ .ok a) ∧ e = k := by
  cases x with
  | ok a => exact ⟨fun h => by (cases h), fun h => absurd rfl (h.1 a)⟩
  | error e' =>
    rw [h e' rfl]
    exact ⟨fun h => by cases h; exact ⟨fun a h => by (cases h), rfl⟩, fun h => by rw [h.2]⟩

theorem fails_of {α : Type} {x : Py α} {k : Err} (h : x = .error k) {p : Refuses} (hp : ∀ e, p e ↔ e = k) : Fails x p := by
  intro e
  rw [h, hp]
  exact ⟨fun h => by cases h; rfl, fun h => by rw [h]⟩

theorem fails_none {α : Type} {x : Py α} {a : α} (h : x = .ok a) {p : Refuses} (hp : Right p) : Fails x p := by
  intro e
  rw [h]
  exact ⟨fun h => by (cases h), fun h => absurd h (hp e)⟩

theorem optInt_err {x : Str} {e : Err} (h : optInt x = .error e) : e = .valueError := by
  unfold optInt at h
  split at h
  · cases h
  · cases hp : pyInt x with
    | ok v => rw [hp] at h; cases h
    | error e' => rw [hp] at h; cases h; exact pyInt_err hp

theorem optInt_ok (x : Str) : (∃ o, optInt x = .ok o) ↔ ∃ c, IntBound 0 x c := by
  constructor
  · rintro ⟨o, h⟩; exact ⟨_, (intBound_iff _ _ _).2 ⟨o, h, rfl⟩⟩
  · rintro ⟨c, h⟩; obtain ⟨o, h, _⟩ := (intBound_iff _ _ _).1 h; exact ⟨o, h⟩

theorem intBound_any {d d' : Int} {x : Str} {c : Int} (h : IntBound d x c) : ∃ c', IntBound d' x c' := by
  cases h with
  | absent => exact ⟨d', .absent⟩
  | num _ _ h => exact ⟨c, .num _ _ h⟩

theorem func_none {t n : Str} {a : Option Str} (h : Func t n a) (e : Err) : ¬ FuncRejects t e := fun h' => h'.1 ⟨n, a, h⟩

theorem known_cases (n : Str) : (∃ f ∈ fields, f.name = n) ∨ Unknown n := by
  by_cases h : ∃ f ∈ fields, f.name = n
  · exact Or.inl h
  · exact Or.inr fun f hf e => h ⟨f, hf, e⟩

theorem field_unique {f g : Field} (hf : f ∈ fields) (hg : g ∈ fields) (h : f.name = g.name) : f = g := by
  have key : ∀ f ∈ fields, ∀ g ∈ fields, f.name = g.name → f = g := by decide +kernel
  exact key f hf g hg h

theorem needLen_err {b : Bytes} {o n : Nat} {e : Err} (h : needBytes b o n = .error e) : e = .structError := by
  unfold needBytes at h
  split at h <;> cases h
  rfl

/-! ## Bits -/

theorem fails_bits {u h t r : Str} (hu : Tok u h t r) : Fails (getBits u) (BitsRejects t) := by
  by_cases hf : ∃ n a, Func t n a
  · obtain ⟨n, arg, hf⟩ := hf
    rcases known_cases n with ⟨f, hm, rfl⟩ | hun
    · rw [getBits_known hu hf hm]
      rcases arg with _ | _ | ⟨c, cs⟩
      · refine fails_none rfl fun e he => ?_
        cases he with
        | func _ he => exact func_none hf _ he
        | field n a h1 h2 => exact h2 f hm (func_unique hf h1).1
        | range g a h1 h2 h3 => have := (func_unique hf h2).2; cases this
      · refine fails_none rfl fun e he => ?_
        cases he with
        | func _ he => exact func_none hf _ he
        | field n a h1 h2 => exact h2 f hm (func_unique hf h1).1
        | range g a h1 h2 h3 => have := (func_unique hf h2).2; cases this; exact h3 rfl
      · intro e
        rw [error_iff (k := .valueError)]
        · have hok := getBits_iff u
          rw [getBits_known hu hf hm] at hok
          dsimp only at hok ⊢
          constructor
          · rintro ⟨hn, rfl⟩
            refine .range f _ hm hf (by simp) ?_
            intro x y p q hp hq e
            obtain ⟨q', hq'⟩ := intBound_any (d' := (8 * f.nameLen false : Nat)) hq
            rw [e] at hf
            exact hn _ ((hok _ _ _ _).2 ⟨f, q', .range u h t f x y p q' r hu hf hm hp hq', rfl, rfl⟩)
          · intro he
            cases he with
            | func _ he => exact absurd he (func_none hf _)
            | field n a h1 h2 => exact absurd (func_unique hf h1).1 (h2 f hm)
            | range g a h1 h2 h3 h4 =>
              refine ⟨?_, rfl⟩
              rintro ⟨id, s, k, r'⟩ hx
              obtain ⟨f', b, hb, _, _⟩ := (hok _ _ _ _).1 hx
              cases hb with
              | whole _ _ _ arg _ hu' hf' ha _ =>
                cases (tok_get hu).symm.trans (tok_get hu')
                have e1 := (func_unique hf hf').2
                rcases ha with rfl | rfl <;> cases e1
              | range _ _ _ x y _ _ _ hu' hf' _ k1 k2 =>
                cases (tok_get hu).symm.trans (tok_get hu')
                have e1 := (func_unique h2 hf').2
                obtain ⟨q', hq'⟩ := intBound_any (d' := 0) k2
                cases e1
                exact h4 x y _ _ k1 hq' rfl
        · intro e he
          dsimp only at he
          rcases hs : split1 ':' (c :: cs) with ⟨x, y⟩
          rw [hs] at he
          dsimp only at he
          cases h1 : optInt x with
          | error e' => rw [h1] at he; cases he; exact optInt_err h1
          | ok o =>
            rw [h1, ok_bind] at he
            cases y with
            | none => cases he; rfl
            | some y =>
              dsimp only at he
              cases h2 : optInt y with
              | error e' => rw [h2] at he; cases he; exact optInt_err h2
              | ok o => rw [h2] at he; cases he
    · refine fails_of (k := .structError) ?_ fun e => ⟨?_, by rintro rfl; exact .field n arg hf hun⟩
      · unfold getBits
        rw [tok_get hu]
        dsimp only
        rw [(func_iff _ _ _).2 hf, ok_bind]
        dsimp only
        rw [(oxmid_iff false n (name_self (tok_get hu) hf) _).2 (.unknown n hun), ok_bind]
        rfl
      · intro he
        cases he with
        | func _ he => exact absurd he (func_none hf _)
        | field => rfl
        | range g a h1 h2 => exact absurd (func_unique hf h2).1.symm (hun g h1)
  · have hx := (fails_func t .assertionError).2 ⟨hf, rfl⟩
    refine fails_of (k := .assertionError) ?_ fun e => ⟨?_, by rintro rfl; exact .func _ ⟨hf, rfl⟩⟩
    · unfold getBits
      rw [tok_get hu]
      dsimp only
      rw [hx, raise_bind]
    · intro he
      cases he with
      | func _ he => exact he.2
      | field n a h1 h2 => exact absurd ⟨_, _, h1⟩ hf
      | range g a h1 h2 => exact absurd ⟨_, _, h2⟩ hf

/-! ## Bits whose end is read later -/

/-- Name, id and bounds, nx.py:439-447 and 504-513. -/
def startRead (mask : Bool) (len : Bytes → Py Unit) (t : Str) : Py (Bytes × Int × Option Int) := do
  let (n, arg) ← parseFunc t
  let id ← str2oxmid mask n
  let (r0, r1) ← (
    match arg with
    | some (c :: cs) => intSplit (c :: cs)
    | _ => do
      len id
      .ok (0, some ((uAt id 3 1 : Int) * 8)) : Py (Int × Option Int))
  .ok (id, r0, r1)

theorem intSplit_err {a : Str} {e : Err} (h : intSplit a = .error e) : e = .valueError := by
  unfold intSplit at h
  rcases hs : split1 ':' a with ⟨x, y⟩
  rw [hs] at h
  dsimp only at h
  cases h1 : pyInt x with
  | error e' => rw [h1] at h; cases h; exact pyInt_err h1
  | ok o =>
    rw [h1, ok_bind] at h
    cases y with
    | none => cases h
    | some y =>
      dsimp only at h
      cases h2 : pyInt y with
      | error e' => rw [h2] at h; cases h; exact pyInt_err h2
      | ok o => rw [h2] at h; cases h

theorem intSplit_iff (a : Str) (v : Int) (o : Option Int) : intSplit a = .ok (v, o) ↔
    (PyInt a v ∧ o = none) ∨ ∃ x y w, a = x ++ ':' :: y ∧ PyInt x v ∧ PyInt y w ∧ o = some w := by
  unfold intSplit
  constructor
  · intro h
    rcases hs : split1 ':' a with ⟨x, y⟩
    rw [hs] at h
    dsimp only at h
    obtain ⟨_, hi⟩ := split1_inv hs
    obtain ⟨p, h1, h⟩ := bind_iff.1 h
    cases y with
    | none =>
      cases h
      dsimp only at hi
      subst hi
      exact Or.inl ⟨(pyInt_iff _ _).1 h1, rfl⟩
    | some y =>
      obtain ⟨q, h2, h⟩ := bind_iff.1 h
      cases h
      exact Or.inr ⟨x, y, q, hi, (pyInt_iff _ _).1 h1, (pyInt_iff _ _).1 h2, rfl⟩
  · rintro (⟨h, rfl⟩ | ⟨x, y, w, rfl, h1, h2, rfl⟩)
    · rw [split1_none _ _ (by rintro c hc rfl; exact pyInt_nocolon h hc)]
      dsimp only
      rw [(pyInt_iff _ _).2 h, ok_bind]
    · rw [split1_some _ _ _ (by rintro c hc rfl; exact pyInt_nocolon h1 hc)]
      dsimp only
      rw [(pyInt_iff _ _).2 h1, ok_bind, (pyInt_iff _ _).2 h2, ok_bind]

theorem fails_start (mask exper : Bool) (len : Bytes → Py Unit)
    (hlen : ∀ b, len b = .ok () ↔ if exper then 4 ≤ b.length else b.length = 4) (hl : ∀ b, OnlyStruct (len b)) {u h t r : Str}
    (hu : Tok u h t r) : Fails (startRead mask len t) (StartRejects exper t) := by
  unfold startRead
  by_cases hf : ∃ n a, Func t n a
  · obtain ⟨n, arg, hf⟩ := hf
    rw [(func_iff _ _ _).2 hf, ok_bind]
    dsimp only
    obtain ⟨id, hid⟩ : ∃ id, IdText mask n id := by
      rcases known_cases n with ⟨f, hm, rfl⟩ | hun
      · exact ⟨_, .known f hm⟩
      · exact ⟨_, .unknown n hun⟩
    rw [(oxmid_iff mask n (name_self (tok_get hu) hf) _).2 hid, ok_bind]
    have hwhole : NoArg arg → Fails (len id) (StartRejects exper t) := by
      intro ha e
      rw [error_iff (k := .structError) (hl id)]
      have hnl : (∀ a, len id ≠ .ok a) ↔ ∀ f ∈ fields, f.name = n → f.experimenter = true ∧ exper = false := by
        have : (∀ a, len id ≠ .ok a) ↔ ¬ len id = .ok () := ⟨fun h => h (), fun h a => h⟩
        rw [this, hlen]
        cases hid with
        | known f hm =>
          obtain ⟨_, _, _, h2, _⟩ := nameId_parts f hm mask
          rw [h2]
          constructor
          · intro hx g hg he
            have e := field_unique hg hm he
            subst e
            cases hxx : exper <;> cases he : g.experimenter <;> simp [hxx, he, Field.extra] at hx ⊢
          · intro hx
            obtain ⟨h3, h4⟩ := hx f hm rfl
            simp [h3, h4, Field.extra]
        | unknown _ hun =>
          constructor
          · intro _ f hm e
            exact absurd e (hun f hm)
          · intro _
            cases exper <;> simp
      rw [hnl]
      constructor
      · rintro ⟨hx, rfl⟩
        exact .field n arg hf ha hx
      · intro he
        cases he with
        | func _ he => exact absurd he (func_none hf _)
        | field n' a' hf' ha' hx =>
          rw [(func_unique hf hf').1]
          exact ⟨hx, rfl⟩
        | range n' a' hf' hne =>
          have e1 := (func_unique hf hf').2
          rcases ha with rfl | rfl
          · cases e1
          · cases e1; exact absurd rfl hne
    rcases arg with _ | _ | ⟨c, cs⟩
    · have := hwhole (Or.inl rfl)
      dsimp only
      intro e
      rw [← this e]
      cases len id with
      | ok x => exact ⟨fun h => by (cases h), fun h => by (cases h)⟩
      | error e' => exact ⟨fun h => by cases h; rfl, fun h => by cases h; rfl⟩
    · have := hwhole (Or.inr rfl)
      dsimp only
      intro e
      rw [← this e]
      cases len id with
      | ok x => exact ⟨fun h => by (cases h), fun h => by (cases h)⟩
      | error e' => exact ⟨fun h => by cases h; rfl, fun h => by cases h; rfl⟩
    · dsimp only
      have hsp : Fails (intSplit (c :: cs)) (StartRejects exper t) := by
        intro e
        rw [error_iff (fun e he => intSplit_err he)]
        constructor
        · rintro ⟨hx, rfl⟩
          refine .range n _ hf (by simp) (fun v hv => hx _ ((intSplit_iff _ _ _).2 (Or.inl ⟨hv, rfl⟩))) ?_
          intro x y p q hp hq e
          exact hx _ ((intSplit_iff _ _ _).2 (Or.inr ⟨x, y, q, e, hp, hq, rfl⟩))
        · intro he
          cases he with
          | func _ he => exact absurd he (func_none hf _)
          | field n' a' hf' ha' hx =>
            have e1 := (func_unique hf hf').2
            rcases ha' with rfl | rfl <;> cases e1
          | range n' a' hf' hne h1 h2 =>
            have e1 := (func_unique hf hf').2
            cases e1
            refine ⟨?_, rfl⟩
            rintro ⟨v, o⟩ hx
            rcases (intSplit_iff _ _ _).1 hx with ⟨h3, _⟩ | ⟨x, y, w, h3, h4, h5, _⟩
            · exact h1 _ h3
            · exact h2 x y _ _ h4 h5 h3
      intro e
      rw [← hsp e]
      cases intSplit (c :: cs) with
      | ok x => exact ⟨fun h => by (cases h), fun h => by (cases h)⟩
      | error e' => exact ⟨fun h => by cases h; rfl, fun h => by cases h; rfl⟩
  · have hx := (fails_func t .assertionError).2 ⟨hf, rfl⟩
    refine fails_of (k := .assertionError) ?_ fun e => ⟨?_, by rintro rfl; exact .func _ ⟨hf, rfl⟩⟩
    · rw [hx, raise_bind]
    · intro he
      cases he with
      | func _ he => exact he.2
      | field n a h1 h2 => exact absurd ⟨_, _, h1⟩ hf
      | range n a h1 h2 => exact absurd ⟨_, _, h1⟩ hf

theorem fails_second (mask : Bool) (len : Bytes → Py Unit) {t : Str} {id : Bytes} {r0 : Int} {r1 : Option Int}
    (h : startRead mask len t = .ok (id, r0, r1)) : Fails (intSecond r1) (EndMissing t) := by
  unfold startRead at h
  obtain ⟨⟨n, arg⟩, h1, h⟩ := bind_iff.1 h
  obtain ⟨id', h2, h⟩ := bind_iff.1 h
  obtain ⟨⟨v, o⟩, h3, h⟩ := bind_iff.1 h
  cases h
  have hf := (func_iff _ _ _).1 h1
  rcases arg with _ | _ | ⟨c, cs⟩
  · dsimp only at h3
    obtain ⟨_, _, h3⟩ := bind_iff.1 h3
    cases h3
    refine fails_none rfl ?_
    rintro e ⟨⟨n', a, v, hf', _⟩, _⟩
    have := (func_unique hf hf').2
    cases this
  · dsimp only at h3
    obtain ⟨_, _, h3⟩ := bind_iff.1 h3
    cases h3
    refine fails_none rfl ?_
    rintro e ⟨⟨n', a, v, hf', hv⟩, _⟩
    have := (func_unique hf hf').2
    cases this
    exact pyInt_nonempty hv rfl
  · dsimp only at h3
    rcases (intSplit_iff _ _ _).1 h3 with ⟨h4, rfl⟩ | ⟨x, y, w, h4, h5, h6, rfl⟩
    · refine fails_of rfl fun e => ⟨fun h => h.2, ?_⟩
      rintro rfl
      exact ⟨⟨n, _, _, hf, h4⟩, rfl⟩
    · refine fails_none rfl ?_
      rintro e ⟨⟨n', a, v, hf', hv⟩, _⟩
      have := (func_unique hf hf').2
      cases this
      rw [h4] at hv
      exact pyInt_nocolon hv (by simp)

/-! ## Slaves -/

theorem bundlePort_fails (t : Str) : Fails (bundlePort t) (fun e => (∀ n, (n, t) ∉ reservedPorts) ∧ NoInt t ∧ e = .valueError) := by
  have key : ∀ e ∈ ofpp, (e.1, e.2) ∈ reservedPorts := by decide
  have key' : ∀ e ∈ reservedPorts, (e.1, e.2) ∈ ofpp := by decide
  unfold bundlePort
  cases hf : ofpp.find? (fun e => e.2 == t) with
  | some x =>
    have h1 := List.mem_of_find?_eq_some hf
    have h2 : x.2 = t := by simpa using List.find?_some hf
    refine fails_none rfl ?_
    rintro e ⟨h, _⟩
    refine h x.1 ?_
    rw [← h2]
    exact key x h1
  | none =>
    have hn : ∀ n, (n, t) ∉ reservedPorts := by
      intro n hn
      have := List.find?_eq_none.1 hf _ (key' _ hn)
      simp at this
    intro e
    dsimp only
    have h2 := fails_int t e
    unfold LooseRejects at h2
    cases hp : parseInt t with
    | ok x =>
      rw [hp] at h2
      refine ⟨fun h => by (cases h), fun h => ?_⟩
      have := h2.2 h.2
      cases this
    | error e' =>
      rw [hp] at h2
      refine ⟨fun h => ?_, fun h => ?_⟩
      · cases h
        exact ⟨hn, h2.1 rfl⟩
      · have := h2.2 h.2
        cases this
        rfl

theorem bundlePorts_fails (ts : List Str) : Fails (bundlePorts ts)
    (fun e => (∃ t ∈ ts, (∀ n, (n, t) ∉ reservedPorts) ∧ NoInt t) ∧ e = .valueError) := by
  intro e
  induction ts with
  | nil => simp [bundlePorts]
  | cons t ts ih =>
    unfold bundlePorts
    have h := bundlePort_fails t
    cases hp : bundlePort t with
    | error e' =>
      rw [raise_bind]
      obtain ⟨h1, h2, rfl⟩ := (h e').1 hp
      exact ⟨fun he => by cases he; exact ⟨⟨t, by simp, h1, h2⟩, rfl⟩, fun he => by rw [he.2]⟩
    | ok v =>
      rw [ok_bind]
      have : (∃ x ∈ t :: ts, (∀ n, (n, x) ∉ reservedPorts) ∧ NoInt x) ↔ ∃ x ∈ ts, (∀ n, (n, x) ∉ reservedPorts) ∧ NoInt x := by
        constructor
        · rintro ⟨x, hx, hn⟩
          rcases List.mem_cons.1 hx with rfl | hx
          · have := (h .valueError).2 ⟨hn.1, hn.2, rfl⟩
            rw [hp] at this
            cases this
          · exact ⟨x, hx, hn⟩
        · rintro ⟨x, hx, hn⟩
          exact ⟨x, by simp [hx], hn⟩
      rw [this, ← ih]
      cases bundlePorts ts with
      | error e' => simp [raise_bind]
      | ok vs => rw [ok_bind]; simp

theorem fails_slaves (s : Str) : Fails (bundleSlaves s) (SlavesRejects s) := by
  unfold bundleSlaves
  by_cases hf : ∃ n a, Func s n a
  · obtain ⟨n, arg, hf⟩ := hf
    rw [(func_iff _ _ _).2 hf, ok_bind]
    dsimp only
    by_cases hn : n = t!"slaves"
    · subst hn
      rw [show pyAssert (t!"slaves" == t!"slaves") = .ok () from rfl, ok_bind]
      have hno : NoArg arg → Right (SlavesRejects s) := by
        intro ha e he
        cases he with
        | func _ he => exact func_none hf _ he
        | name n' a' hf' hne => exact hne (func_unique hf hf').1.symm
        | number a ts t hf' hp ht =>
          have e1 := (func_unique hf hf').2
          rcases ha with rfl | rfl
          · cases e1
          · cases e1
            have := (pieces_iff _ _).1 hp
            subst this
            simp [splitTokens, splitGo] at ht
      rcases arg with _ | _ | ⟨c, cs⟩
      · exact fails_none rfl (hno (Or.inl rfl))
      · exact fails_none rfl (hno (Or.inr rfl))
      · dsimp only
        intro e
        rw [bundlePorts_fails _ e]
        constructor
        · rintro ⟨⟨t, ht, h1, h2⟩, rfl⟩
          exact .number _ _ t hf ((pieces_iff _ _).2 rfl) ht h1 h2
        · intro he
          cases he with
          | func _ he => exact absurd he (func_none hf _)
          | name n' a' hf' hne => exact absurd (func_unique hf hf').1.symm hne
          | number a ts t hf' hp ht h1 h2 =>
            have e1 := (func_unique hf hf').2
            cases e1
            have := (pieces_iff _ _).1 hp
            subst this
            exact ⟨⟨t, ht, h1, h2⟩, rfl⟩
    · refine fails_of (k := .assertionError) ?_ fun e => ⟨?_, by rintro rfl; exact .name n arg hf hn⟩
      · rw [show (n == t!"slaves") = false by simpa using hn]
        rfl
      · intro he
        cases he with
        | func _ he => exact absurd he (func_none hf _)
        | name => rfl
        | number a ts t hf' => exact absurd (func_unique hf hf').1 hn
  · have hx := (fails_func s .assertionError).2 ⟨hf, rfl⟩
    refine fails_of (k := .assertionError) ?_ fun e => ⟨?_, by rintro rfl; exact .func _ ⟨hf, rfl⟩⟩
    · rw [hx, raise_bind]
    · intro he
      cases he with
      | func _ he => exact he.2
      | name n a h1 h2 => exact absurd ⟨_, _, h1⟩ hf
      | number a ts t h1 => exact absurd ⟨_, _, h1⟩ hf

end Ofpstr
