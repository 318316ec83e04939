import Verif.Spec.ActReject
import Verif.Lemmas.TextAct
import Verif.Lemmas.RejectMatch

/-!
# The first part that is wrong
-/

set_option linter.unusedSimpArgs false
set_option linter.unusedVariables false

namespace Ofpstr

open Spec

/-- The exceptions of `x` are those of `p`. -/
def Fails {α : Type} (x : Py α) (p : Refuses) : Prop := ∀ e, x = .error e ↔ p e

/-- The exceptions of `x` are those of the parts, and `struct.error` behind them. -/
def Chain {α : Type} (x : Py α) (ps : List Refuses) : Prop := ∀ e, x = .error e ↔ Stops ps (∃ a, x = .ok a) e

/-- No exception but `struct.error`. -/
def OnlyStruct {α : Type} (x : Py α) : Prop := ∀ e, x = .error e → e = .structError

theorem firstWrong_none {ps : List Refuses} (h : ∀ e, ¬ FirstWrong ps e) : ∀ p ∈ ps, Right p := by
  induction ps with
  | nil => intro p hp; simp at hp
  | cons p ps ih =>
    have hp : Right p := fun e he => h e (Or.inl he)
    intro q hq
    rcases List.mem_cons.1 hq with rfl | hq
    · exact hp
    · exact ih (fun e he => h e (Or.inr ⟨hp, he⟩)) q hq

theorem firstWrong_right {ps : List Refuses} (h : ∀ p ∈ ps, Right p) (e : Err) : ¬ FirstWrong ps e := by
  induction ps with
  | nil => exact fun h => h
  | cons p ps ih =>
    rintro (h1 | ⟨_, h1⟩)
    · exact h p (by simp) e h1
    · exact ih (fun q hq => h q (by simp [hq])) h1

theorem fails_ok {α : Type} {x : Py α} {p : Refuses} (h : Fails x p) : (∃ a, x = .ok a) ↔ Right p := by
  cases x with
  | ok a =>
    refine ⟨fun _ e he => ?_, fun _ => ⟨a, rfl⟩⟩
    have := (h e).2 he
    cases this
  | error e =>
    refine ⟨fun ⟨a, ha⟩ => ?_, fun hr => absurd ((h e).1 rfl) (hr e)⟩
    cases ha

theorem chain_bind {α β : Type} {x : Py α} {f : α → Py β} {p : Refuses} {ps : List Refuses} (h : Fails x p)
    (hf : ∀ a, x = .ok a → Chain (f a) ps) : Chain (x >>= f) (p :: ps) := by
  intro e
  cases x with
  | error e0 =>
    rw [raise_bind]
    have h0 := (h e0).1 rfl
    constructor
    · intro he; cases he; exact Or.inl (Or.inl h0)
    · rintro ((hp | ⟨hr, _⟩) | ⟨hr, _⟩)
      · have := (h e).2 hp
        cases this
        rfl
      · exact absurd h0 (hr e0)
      · exact absurd h0 (hr p (by simp) e0)
  | ok a =>
    rw [ok_bind]
    have hr : Right p := (fails_ok h).1 ⟨a, rfl⟩
    rw [hf a rfl e]
    unfold Stops
    constructor
    · rintro (h1 | ⟨h1, h2⟩)
      · exact Or.inl (Or.inr ⟨hr, h1⟩)
      · exact Or.inr ⟨fun q hq => by rcases List.mem_cons.1 hq with rfl | hq; exacts [hr, h1 q hq], h2⟩
    · rintro ((h1 | ⟨_, h1⟩) | ⟨h1, h2⟩)
      · exact absurd h1 (hr e)
      · exact Or.inl h1
      · exact Or.inr ⟨fun q hq => h1 q (by simp [hq]), h2⟩

theorem chain_total {α β : Type} {x : Py α} {f : α → Py β} {ps : List Refuses} (h : ∃ a, x = .ok a)
    (hf : ∀ a, x = .ok a → Chain (f a) ps) : Chain (x >>= f) ps := by
  obtain ⟨a, rfl⟩ := h
  rw [ok_bind]
  exact hf a rfl

theorem chain_end {α : Type} {x : Py α} (h : OnlyStruct x) : Chain x [] := by
  intro e
  cases x with
  | error e0 =>
    have := h e0 rfl
    subst this
    constructor
    · intro he; cases he; exact Or.inr ⟨by simp, (by rintro ⟨a, ha⟩; cases ha), rfl⟩
    · rintro (h | ⟨_, _, rfl⟩)
      · exact absurd h (by simp [FirstWrong])
      · rfl
  | ok a =>
    constructor
    · intro he; cases he
    · rintro (h | ⟨_, h, _⟩)
      · exact absurd h (by simp [FirstWrong])
      · exact absurd ⟨a, rfl⟩ h

theorem chain_fail {α : Type} {ps : List Refuses} (h : ∀ p ∈ ps, Right p) : Chain (.error .structError : Py α) ps := by
  intro e
  constructor
  · intro he; cases he; exact Or.inr ⟨h, (by rintro ⟨a, ha⟩; cases ha), rfl⟩
  · rintro (h1 | ⟨_, _, rfl⟩)
    · exact absurd h1 (firstWrong_right h e)
    · rfl

/-- A part that fails for sure. -/
theorem chain_raise {α : Type} {k : Err} {p : Refuses} {ps : List Refuses} (h : ∀ e, p e ↔ e = k) :
    Chain (.error k : Py α) (p :: ps) := by
  intro e
  have h0 : p k := (h k).2 rfl
  constructor
  · intro he; cases he; exact Or.inl (Or.inl h0)
  · rintro ((hp | ⟨hr, _⟩) | ⟨hr, _⟩)
    · rw [(h e).1 hp]
    · exact absurd h0 (hr k)
    · exact absurd h0 (hr p (by simp) k)

/-- A part that is right whatever follows. -/
theorem chain_right {α : Type} {x : Py α} {p : Refuses} {ps : List Refuses} (hr : Right p) (h : Chain x ps) : Chain x (p :: ps) := by
  intro e
  rw [h e]
  unfold Stops
  constructor
  · rintro (h1 | ⟨h1, h2⟩)
    · exact Or.inl (Or.inr ⟨hr, h1⟩)
    · exact Or.inr ⟨fun q hq => by rcases List.mem_cons.1 hq with rfl | hq; exacts [hr, h1 q hq], h2⟩
  · rintro ((h1 | ⟨_, h1⟩) | ⟨h1, h2⟩)
    · exact absurd h1 (hr e)
    · exact Or.inl h1
    · exact Or.inr ⟨fun q hq => h1 q (by simp [hq]), h2⟩

theorem chain_after {α β : Type} {x : Py α} {f : α → Py β} {ps : List Refuses} (h : Chain x ps) (hf : ∀ a, OnlyStruct (f a)) :
    Chain (x >>= f) ps := by
  cases x with
  | error e0 =>
    intro e
    rw [raise_bind]
    have := h e
    unfold Stops at this ⊢
    rw [show ((.error e0 : Py β) = .error e) = ((.error e0 : Py α) = .error e) by simp, this]
    have h1 : ¬ ∃ a, (.error e0 : Py α) = .ok a := by rintro ⟨a, ha⟩; cases ha
    have h2 : ¬ ∃ a, (.error e0 : Py β) = .ok a := by rintro ⟨a, ha⟩; cases ha
    simp only [h1, h2]
  | ok a =>
    rw [ok_bind]
    have hr : ∀ p ∈ ps, Right p := firstWrong_none fun e he => by
      have := (h e).2 (Or.inl he)
      cases this
    intro e
    rw [chain_end (hf a) e]
    unfold Stops
    constructor
    · rintro (h1 | ⟨_, h1⟩)
      · exact absurd h1 (by simp [FirstWrong])
      · exact Or.inr ⟨hr, h1⟩
    · rintro (h1 | ⟨_, h1⟩)
      · exact absurd h1 (firstWrong_right hr e)
      · exact Or.inr ⟨by simp, h1⟩

theorem onlyStruct_ok {α : Type} (a : α) : OnlyStruct (.ok a : Py α) := fun e h => by cases h

theorem onlyStruct_bind {α β : Type} {x : Py α} {f : α → Py β} (h : OnlyStruct x) (hf : ∀ a, OnlyStruct (f a)) : OnlyStruct (x >>= f) := by
  cases x with
  | error e => intro e' he; cases he; exact h e rfl
  | ok a => rw [ok_bind]; exact hf a

theorem onlyStruct_packAll (l : List (Nat × Int)) : OnlyStruct (packAll l) := by
  intro e h
  rw [packAll_eq] at h
  split at h <;> cases h
  rfl

theorem onlyStruct_packU (k : Nat) (n : Int) : OnlyStruct (packU k n) := by
  intro e h
  rw [packU_wire] at h
  split at h <;> cases h
  rfl

theorem onlyStruct_packHs (l : List Int) : OnlyStruct (packHs l) := onlyStruct_packAll _

theorem onlyStruct_fixActLen (b : Bytes) : OnlyStruct (fixActLen b) :=
  onlyStruct_bind (onlyStruct_packU _ _) fun _ => onlyStruct_ok _

theorem chain_wrap {x : Py (Bytes × Nat)} {ps : List Refuses} (h : Chain x ps) : Chain (nxWrap x) ps :=
  chain_after h fun _ => onlyStruct_bind (onlyStruct_fixActLen _) fun _ => onlyStruct_ok _

/-! ## Words -/

theorem fails_needs {α : Type} {x : Py α} {p : Prop} {k : Err} (h1 : (∃ a, x = .ok a) ↔ p) (h2 : ∀ e, x = .error e → e = k) :
    Fails x (Needs p k) := by
  intro e
  unfold Needs
  rw [← h1]
  constructor
  · intro h
    refine ⟨?_, h2 e h⟩
    rintro ⟨a, ha⟩
    rw [h] at ha
    cases ha
  · rintro ⟨hn, rfl⟩
    cases x with
    | ok a => exact absurd ⟨a, rfl⟩ hn
    | error e => rw [h2 e rfl]

theorem fails_assert {b : Bool} {p : Prop} (h : b = true ↔ p) : Fails (pyAssert b) (Needs p .assertionError) := by
  refine fails_needs ?_ ?_
  · rw [← h]
    exact ⟨fun ⟨a, ha⟩ => pyAssert_inv ha, by rintro rfl; exact ⟨(), rfl⟩⟩
  · intro e he
    cases b <;> cases he
    rfl

theorem fails_int (s : Str) : Fails (parseInt s) (LooseRejects s) := by
  intro e
  rcases int_cases s with ⟨h, hno⟩ | ⟨a, r, v, _, h, hi, _⟩
  · rw [h]
    exact ⟨fun he => by cases he; exact ⟨hno, rfl⟩, fun he => by rw [he.2]⟩
  · rw [h]
    exact ⟨fun he => by (cases he), fun he => absurd hi (he.1 v r)⟩

theorem noInt_whole {s : Str} {v : Int} (h : WholeInt s v) : IntThen s v [] := ⟨s.length, h, by simp⟩

theorem chain_whole {α : Type} {s : Str} {g : Int × Nat → Py α} {ps : List Refuses}
    (h1 : ∀ v n, n ≠ s.length → g (v, n) = .error .assertionError) (h2 : ∀ v, WholeInt s v → Chain (g (v, s.length)) ps) :
    Chain (parseInt s >>= g) (WholeRejects s :: ps) := by
  rcases int_cases s with ⟨h, hno⟩ | ⟨a, r, v, hs, h, hi, uni⟩
  · rw [h, raise_bind]
    refine chain_raise fun e => ⟨?_, by rintro rfl; exact .none s hno⟩
    intro he
    cases he with
    | none => rfl
    | junk v c r hv => exact absurd hv (hno _ _)
  · rw [h, ok_bind]
    cases r with
    | nil =>
      have ha : a.length = s.length := by rw [hs]; simp
      rw [ha]
      refine chain_right ?_ (h2 v (by rw [ha] at h; exact (parseInt_iff _ _ _).1 h))
      intro e he
      cases he with
      | none hn => exact hn _ _ hi
      | junk v c r hv => have := (uni _ _ hv).2; cases this
    | cons c r =>
      have ha : a.length ≠ s.length := by rw [hs]; simp
      rw [h1 v _ ha]
      refine chain_raise fun e => ⟨?_, by rintro rfl; exact .junk s v c r hi⟩
      intro he
      cases he with
      | none hn => exact absurd hi (hn _ _)
      | junk v c r hv => rfl

theorem fails_chain {α : Type} {x : Py α} {p : Refuses} (h : Chain x [p]) (hs : x ≠ .error .structError ∨ p .structError) :
    Fails x p := by
  intro e
  rw [h e]
  constructor
  · rintro ((h1 | ⟨_, h1⟩) | ⟨h1, h2, rfl⟩)
    · exact h1
    · exact absurd h1 (by simp [FirstWrong])
    · rcases hs with hs | hs
      · exact absurd ((h .structError).2 (Or.inr ⟨h1, h2, rfl⟩)) hs
      · exact hs
  · intro h1
    exact Or.inl (Or.inl h1)

theorem fails_nameOrPort (s : Str) : Fails (nameOrInt ofpp s) (PortNameRejects s) := by
  have key : ∀ e ∈ ofpp, (e.1, e.2) ∈ reservedPorts := by decide
  have key' : ∀ e ∈ reservedPorts, (e.1, e.2) ∈ ofpp := by decide
  unfold nameOrInt
  cases hf : ofpp.find? (fun e => e.2 == s) with
  | some x =>
    have h1 := List.mem_of_find?_eq_some hf
    have h2 : x.2 = s := by simpa using List.find?_some hf
    intro e
    refine ⟨fun h => by (cases h), fun h => absurd (key x h1) ?_⟩
    rw [h2]
    exact h.1 x.1
  | none =>
    have hn : ∀ n, (n, s) ∉ reservedPorts := by
      intro n hn
      have := List.find?_eq_none.1 hf _ (key' _ hn)
      simp at this
    intro e
    dsimp only
    have : Chain (parseInt s >>= fun x => (do
        pyAssert (s.length == x.2)
        .ok x.1 : Py Int)) [WholeRejects s] := by
      refine chain_whole (fun v n h => ?_) (fun v hv => ?_)
      · dsimp only
        rw [show (s.length == n) = false by simpa using fun e => h e.symm]
        rfl
      · dsimp only
        rw [show (s.length == s.length) = true by simp]
        exact chain_end (onlyStruct_ok _)
    have h2 := this e
    unfold Stops at h2
    refine Iff.trans h2 ?_
    constructor
    · rintro ((h1 | ⟨_, h1⟩) | ⟨h1, h3, rfl⟩)
      · exact ⟨hn, h1⟩
      · exact absurd h1 (by simp [FirstWrong])
      · exfalso
        have hr := h1 (WholeRejects s) (by simp)
        rcases int_cases s with ⟨_, hno⟩ | ⟨a, r, v, hs, h, hi, _⟩
        · exact hr _ (.none s hno)
        · cases r with
          | nil =>
            refine h3 ⟨v, ?_⟩
            rw [h, ok_bind]
            dsimp only
            rw [show (s.length == a.length) = true by simp [hs]]
            rfl
          | cons c r => exact hr _ (.junk s v c r hi)
    · rintro ⟨_, h1⟩
      exact Or.inl (Or.inl h1)

theorem parseFuncGo_err (n : Nat) (s : Str) : ∀ (a : Str) (e : Err), parseFuncGo n a s = .error e → e = .assertionError := by
  induction s with
  | nil => intro a e h; cases h
  | cons c s ih =>
    intro a e h
    unfold parseFuncGo at h
    split at h
    · dsimp only at h
      split at h
      · cases h
      · cases h; rfl
    · exact ih _ _ h

theorem fails_func (s : Str) : Fails (parseFunc s) (FuncRejects s) := by
  refine fails_needs ?_ ?_
  · constructor
    · rintro ⟨⟨n, a⟩, h⟩
      exact ⟨n, a, (func_iff _ _ _).1 h⟩
    · rintro ⟨n, a, h⟩
      exact ⟨(n, a), (func_iff _ _ _).2 h⟩
  · intro e he
    exact parseFuncGo_err _ _ _ e he

theorem fails_index {names : List Str} (hn : names.Nodup) (s : Str) : Fails (tupleIndex names s) (OneOf names s) := by
  refine fails_needs ?_ ?_
  · constructor
    · rintro ⟨v, h⟩
      obtain ⟨i, hi, _⟩ := (tupleIndex_iff hn s v).1 h
      exact List.mem_of_getElem? hi
    · intro h
      obtain ⟨i, hi⟩ := List.getElem?_of_mem h
      exact ⟨i, (tupleIndex_iff hn s i).2 ⟨i, hi, rfl⟩⟩
  · intro e he
    unfold tupleIndex at he
    dsimp only at he
    split at he <;> cases he
    rfl

theorem fails_ints (ts : List Str) : Fails (parseInts ts) (LooseAll ts) := by
  intro e
  unfold LooseAll
  induction ts with
  | nil => simp [parseInts]
  | cons t ts ih =>
    unfold parseInts
    rcases int_cases t with ⟨h, hno⟩ | ⟨a, r, v, _, h, hi, _⟩
    · rw [h, raise_bind]
      exact ⟨fun he => by cases he; exact ⟨⟨t, by simp, hno⟩, rfl⟩, fun he => by rw [he.2]⟩
    · rw [h, ok_bind]
      dsimp only
      have : (∃ x ∈ t :: ts, NoInt x) ↔ ∃ x ∈ ts, NoInt x := by
        constructor
        · rintro ⟨x, hx, hn⟩
          rcases List.mem_cons.1 hx with rfl | hx
          · exact absurd hi (hn _ _)
          · exact ⟨x, hx, hn⟩
        · rintro ⟨x, hx, hn⟩
          exact ⟨x, by simp [hx], hn⟩
      rw [this, ← ih]
      cases parseInts ts with
      | error e' => simp [raise_bind]
      | ok vs => rw [ok_bind]; simp

end Ofpstr
