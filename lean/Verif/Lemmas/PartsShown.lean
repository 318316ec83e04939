import Verif.Spec.MsgPrint
import Verif.Lemmas.ActPrint
import Verif.Lemmas.MpEnds

/-!
# Parts one after the other

Outcomes of any type, how they combine, and the loops that go by length fields.
-/

namespace Ofpstr
open Spec

set_option linter.unusedSimpArgs false

/-- The outcome is the one the relations say; `Outcome` for any type. -/
def OutcomeOf {α : Type} (x : Py α) (S : α → Prop) (R : Err → Prop) : Prop :=
  (∀ s, S s → x = .ok s) ∧ (∀ e, R e → x = .error e) ∧ ((∃ s, S s) ∨ ∃ e, R e)

theorem OutcomeOf.ok {α : Type} {x : Py α} {S : α → Prop} {R : Err → Prop} (h : OutcomeOf x S R) (s : α) :
    x = .ok s ↔ S s := by
  refine ⟨fun hx => ?_, h.1 s⟩
  rcases h.2.2 with ⟨t, ht⟩ | ⟨e, he⟩
  · have := h.1 t ht
    rw [hx] at this
    rw [Except.ok.inj this]; exact ht
  · have := h.2.1 e he
    rw [hx] at this
    cases this

theorem OutcomeOf.error {α : Type} {x : Py α} {S : α → Prop} {R : Err → Prop} (h : OutcomeOf x S R) (e : Err) :
    x = .error e ↔ R e := by
  refine ⟨fun hx => ?_, h.2.1 e⟩
  rcases h.2.2 with ⟨t, ht⟩ | ⟨e', he⟩
  · have := h.1 t ht
    rw [hx] at this
    cases this
  · have := h.2.1 e' he
    rw [hx] at this
    rw [Except.error.inj this]; exact he

theorem OutcomeOf.pure {α : Type} (a : α) : OutcomeOf (.ok a : Py α) (fun x => x = a) (fun _ => False) :=
  ⟨fun _ h => by rw [h], fun _ h => h.elim, Or.inl ⟨a, rfl⟩⟩

theorem OutcomeOf.raise {α : Type} (e : Err) : OutcomeOf (.error e : Py α) (fun _ => False) (fun x => x = e) :=
  ⟨fun _ h => h.elim, fun _ h => by rw [h], Or.inr ⟨e, rfl⟩⟩

theorem OutcomeOf.bind {α β : Type} {x : Py α} {f : α → Py β} {S : α → Prop} {R : Err → Prop} {S' : α → β → Prop}
    {R' : α → Err → Prop} (h : OutcomeOf x S R) (h' : ∀ a, S a → OutcomeOf (f a) (S' a) (R' a)) :
    OutcomeOf (x >>= f) (fun b => ∃ a, S a ∧ S' a b) (fun e => R e ∨ ∃ a, S a ∧ R' a e) := by
  refine ⟨?_, ?_, ?_⟩
  · rintro b ⟨a, h1, h2⟩
    rw [h.1 a h1, ok_bind]
    exact (h' a h1).1 b h2
  · rintro e (h1 | ⟨a, h1, h2⟩)
    · rw [h.2.1 e h1, err_bind]
    · rw [h.1 a h1, ok_bind]
      exact (h' a h1).2.1 e h2
  · rcases h.2.2 with ⟨a, ha⟩ | ⟨e, he⟩
    · rcases (h' a ha).2.2 with ⟨b, hb⟩ | ⟨e, he⟩
      · exact Or.inl ⟨b, a, ha, hb⟩
      · exact Or.inr ⟨e, Or.inr ⟨a, ha, he⟩⟩
    · exact Or.inr ⟨e, Or.inl he⟩

theorem OutcomeOf.map {α β : Type} {x : Py α} {f : α → β} {S : α → Prop} {R : Err → Prop} (h : OutcomeOf x S R) :
    OutcomeOf (x >>= fun a => .ok (f a)) (fun b => ∃ a, S a ∧ b = f a) R := by
  refine ⟨?_, ?_, ?_⟩
  · rintro b ⟨a, h1, rfl⟩
    rw [h.1 a h1, ok_bind]
  · intro e h1
    rw [h.2.1 e h1, err_bind]
  · rcases h.2.2 with ⟨a, ha⟩ | h
    · exact Or.inl ⟨_, a, ha, rfl⟩
    · exact Or.inr h

theorem OutcomeOf.congr {α : Type} {x : Py α} {S S' : α → Prop} {R R' : Err → Prop} (h : OutcomeOf x S R)
    (hs : ∀ a, S a ↔ S' a) (hr : ∀ e, R e ↔ R' e) : OutcomeOf x S' R' := by
  have h1 : S = S' := funext fun a => propext (hs a)
  have h2 : R = R' := funext fun a => propext (hr a)
  rw [← h1, ← h2]; exact h

/-! ## Loops -/

section
variable {α β : Type} {least : Nat} {len : Bytes → Nat} {P : Bytes → α → Prop} {F : Bytes → Err → Prop}
  {one : Bytes → Py α} {f : α → List β} {go : Nat → Bytes → Py (List β)}

theorem parts_shown (h1 : ∀ n b, b.length < least → go (n + 1) b = .ok [])
    (h2 : ∀ n b, least ≤ b.length → go (n + 1) b = one b >>= fun x => go n (b.drop (len b)) >>= fun r => .ok (f x ++ r))
    (hl : 0 < least) (ho : ∀ b, least ≤ b.length → OutcomeOf (one b) (P b) (F b)) :
    ∀ (fuel : Nat) (b : Bytes) (xs : List α), b.length < fuel → Parts least len P b xs →
      go fuel b = .ok (xs.flatMap f) := by
  intro fuel
  induction fuel with
  | zero => intro b xs h; omega
  | succ fuel ih =>
    intro b xs hb h
    cases h with
    | done _ h => rw [h1 _ _ h]; rfl
    | more _ x xs h3 h4 h5 h6 =>
      rw [h2 _ _ h3, (ho b h3).1 x h4, ok_bind, ih _ _ (by rw [List.length_drop]; omega) h6, ok_bind]
      rfl

theorem parts_stuck (h0 : ∀ b, go 0 b = .error .loops)
    (h2 : ∀ n b, least ≤ b.length → go (n + 1) b = one b >>= fun x => go n (b.drop (len b)) >>= fun r => .ok (f x ++ r))
    (ho : ∀ b, least ≤ b.length → OutcomeOf (one b) (P b) (F b)) (b : Bytes) (x : α) (hb : least ≤ b.length) (hp : P b x)
    (hz : len b = 0) : ∀ fuel, go fuel b = .error .loops := by
  intro fuel
  induction fuel with
  | zero => exact h0 b
  | succ fuel ih => rw [h2 _ _ hb, (ho b hb).1 x hp, ok_bind, hz, List.drop_zero, ih, err_bind]

theorem parts_fail (h0 : ∀ b, go 0 b = .error .loops)
    (h2 : ∀ n b, least ≤ b.length → go (n + 1) b = one b >>= fun x => go n (b.drop (len b)) >>= fun r => .ok (f x ++ r))
    (hl : 0 < least) (ho : ∀ b, least ≤ b.length → OutcomeOf (one b) (P b) (F b)) :
    ∀ (fuel : Nat) (b : Bytes) (e : Err), b.length < fuel → PartsFail least len P F b e → go fuel b = .error e := by
  intro fuel
  induction fuel with
  | zero => intro b e h; omega
  | succ fuel ih =>
    intro b e hb h
    cases h with
    | now _ _ h3 h4 => rw [h2 _ _ h3, (ho b h3).2.1 e h4, err_bind]
    | stuck _ x h3 h4 h5 => exact parts_stuck h0 h2 ho b x h3 h4 h5 _
    | later _ x _ h3 h4 h5 h6 =>
      rw [h2 _ _ h3, (ho b h3).1 x h4, ok_bind, ih _ _ (by rw [List.length_drop]; omega) h6, err_bind]

theorem parts_all (hl : 0 < least) (ho : ∀ b, least ≤ b.length → OutcomeOf (one b) (P b) (F b)) :
    ∀ (n : Nat) (b : Bytes), b.length < n → (∃ xs, Parts least len P b xs) ∨ ∃ e, PartsFail least len P F b e := by
  intro n
  induction n with
  | zero => intro b h; omega
  | succ n ih =>
    intro b hb
    by_cases h : b.length < least
    · exact Or.inl ⟨_, .done _ h⟩
    · rcases (ho b (by omega)).2.2 with ⟨x, hx⟩ | ⟨e, he⟩
      · by_cases h0 : len b = 0
        · exact Or.inr ⟨_, .stuck b x (by omega) hx h0⟩
        · rcases ih (b.drop (len b)) (by rw [List.length_drop]; omega) with ⟨xs, h'⟩ | ⟨e, h'⟩
          · exact Or.inl ⟨_, .more b x xs (by omega) hx h0 h'⟩
          · exact Or.inr ⟨_, .later b x e (by omega) hx h0 h'⟩
      · exact Or.inr ⟨_, .now b e (by omega) he⟩

/-- The outcome of a loop that goes by length fields. -/
theorem outcome_loop (h0 : ∀ b, go 0 b = .error .loops) (h1 : ∀ n b, b.length < least → go (n + 1) b = .ok [])
    (h2 : ∀ n b, least ≤ b.length → go (n + 1) b = one b >>= fun x => go n (b.drop (len b)) >>= fun r => .ok (f x ++ r))
    (hl : 0 < least) (ho : ∀ b, least ≤ b.length → OutcomeOf (one b) (P b) (F b)) (fuel : Nat) (b : Bytes)
    (hf : b.length < fuel) :
    OutcomeOf (go fuel b) (fun l => ∃ xs, Parts least len P b xs ∧ l = xs.flatMap f) (PartsFail least len P F b) := by
  refine ⟨?_, fun e h => parts_fail h0 h2 hl ho fuel b e hf h, ?_⟩
  · rintro l ⟨xs, h, rfl⟩
    exact parts_shown h1 h2 hl ho fuel b xs hf h
  · rcases parts_all (len := len) hl ho (b.length + 1) b (by omega) with ⟨xs, h⟩ | h
    · exact Or.inl ⟨_, xs, h, rfl⟩
    · exact Or.inr h

end

/-! ## Reading -/

theorem uAt_skip_list (x r : Bytes) (off size k : Nat) (hx : x.length = k) (h : k ≤ off) :
    uAt (x ++ r) off size = uAt r (off - k) size := by
  rw [uAt_right _ _ _ _ (by rw [hx]; exact h), hx]

theorem uAt_skip_byte (y : UInt8) (r : Bytes) (off size : Nat) (h : 1 ≤ off) : uAt (y :: r) off size = uAt r (off - 1) size :=
  uAt_skip_list [y] r off size 1 rfl h

theorem uAt_byte (y : UInt8) (r : Bytes) : uAt (y :: r) 0 1 = y.toNat := by
  simp [uAt, slice, beVal]

theorem cut8 (p : Bytes) (h : 2 ≤ p.length) : ∃ (y z : UInt8) (r : Bytes), p = y :: z :: r := by
  match p, h with
  | y :: z :: r, _ => exact ⟨y, z, r, rfl⟩

theorem optTok_eq (s : Str) : optTok s = unlessEmpty s := by
  cases s <;> rfl

end Ofpstr
