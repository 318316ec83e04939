import Verif.Model.Py
import Verif.Model.Oxm
import Mathlib.Tactic.Ring
import Mathlib.Tactic.Positivity
import Mathlib.Data.Nat.ModEq

/-!
# Lemmas about byte strings and `struct`
-/

namespace Ofpstr

@[simp] theorem beBytes_length (k n : Nat) : (beBytes k n).length = k := by
  induction k with
  | zero => rfl
  | succ k ih => simp [beBytes, ih]

@[simp] theorem leBytes_length (k n : Nat) : (leBytes k n).length = k := by
  induction k generalizing n with
  | zero => rfl
  | succ k ih => simp [leBytes, ih]

@[simp] theorem zeros_length (n : Nat) : (zeros n).length = n := by simp [zeros]

theorem beVal_foldl (b : Bytes) (a : Nat) :
    b.foldl (fun a x => a * 256 + x.toNat) a = a * 256 ^ b.length + beVal b := by
  induction b generalizing a with
  | nil => simp [beVal]
  | cons x b ih =>
    simp only [List.foldl_cons, List.length_cons, beVal]
    rw [ih, ih (0 * 256 + x.toNat)]
    rw [Nat.pow_succ]
    ring

theorem beVal_cons (x : UInt8) (b : Bytes) : beVal (x :: b) = x.toNat * 256 ^ b.length + beVal b := by
  have := beVal_foldl b (0 * 256 + x.toNat)
  simp only [beVal, List.foldl_cons] at *
  rw [this]
  simp

theorem beVal_nil : beVal [] = 0 := rfl

theorem beVal_append (a b : Bytes) : beVal (a ++ b) = beVal a * 256 ^ b.length + beVal b := by
  conv => lhs; rw [beVal, List.foldl_append, beVal_foldl]
  rfl

theorem beVal_lt (b : Bytes) : beVal b < 256 ^ b.length := by
  induction b with
  | nil => simp [beVal]
  | cons x b ih =>
    rw [beVal_cons, List.length_cons, Nat.pow_succ]
    have hx : x.toNat ≤ 255 := by have := x.toNat_lt; omega
    calc x.toNat * 256 ^ b.length + beVal b < x.toNat * 256 ^ b.length + 256 ^ b.length := by omega
      _ = (x.toNat + 1) * 256 ^ b.length := by ring
      _ ≤ 256 * 256 ^ b.length := Nat.mul_le_mul_right _ (by omega)
      _ = 256 ^ b.length * 256 := by ring

theorem beVal_beBytes (k n : Nat) : beVal (beBytes k n) = n % 256 ^ k := by
  induction k with
  | zero => simp [beBytes, beVal, Nat.mod_one]
  | succ k ih =>
    rw [beBytes, beVal_cons, ih, beBytes_length]
    have : (UInt8.ofNat (n / 256 ^ k)).toNat = n / 256 ^ k % 256 := by simp
    rw [this, Nat.pow_succ, Nat.mod_mul]
    ring

theorem beVal_beBytes_of_lt (k n : Nat) (h : n < 256 ^ k) : beVal (beBytes k n) = n := by
  rw [beVal_beBytes, Nat.mod_eq_of_lt h]

theorem beBytes_mod (k n : Nat) : beBytes k (n % 256 ^ k) = beBytes k n := by
  have key : ∀ j m, j ≤ k → n % 256 ^ k = m → beBytes j m = beBytes j n := by
    intro j m hj hm
    induction j with
    | zero => rfl
    | succ j ih =>
      rw [beBytes, beBytes, ih (by omega)]
      congr 1
      subst hm
      have h1 : (n % 256 ^ k) / 256 ^ j % 256 = n / 256 ^ j % 256 := by
        have : 256 ^ k = 256 ^ j * 256 * 256 ^ (k - (j + 1)) := by
          rw [← Nat.pow_succ, ← Nat.pow_add]; congr 1; omega
        rw [this]
        rw [Nat.mul_assoc, Nat.mod_mul_right_div_self, Nat.mod_mul_right_mod]
      apply UInt8.toNat_inj.1
      simp [h1]
  exact key k _ (Nat.le_refl k) rfl

theorem beBytes_beVal (b : Bytes) : beBytes b.length (beVal b) = b := by
  induction b with
  | nil => rfl
  | cons x b ih =>
    rw [List.length_cons, beBytes, beVal_cons]
    have hlt := beVal_lt b
    have h1 : (x.toNat * 256 ^ b.length + beVal b) / 256 ^ b.length = x.toNat := by
      rw [Nat.mul_comm, Nat.mul_add_div (by positivity), Nat.div_eq_of_lt hlt]; simp
    rw [h1]
    have h2 : beBytes b.length (x.toNat * 256 ^ b.length + beVal b) = b := by
      rw [← beBytes_mod, Nat.mul_comm, Nat.mul_add_mod, beBytes_mod]
      exact ih
    rw [h2]
    simp

theorem beBytes_beVal' (k : Nat) (b : Bytes) (h : b.length = k) : beBytes k (beVal b) = b := by
  subst h; exact beBytes_beVal b

theorem leVal_leBytes (k n : Nat) : leVal (leBytes k n) = n % 256 ^ k := by
  induction k generalizing n with
  | zero => simp [leBytes, leVal, Nat.mod_one]
  | succ k ih =>
    rw [leBytes, leVal, ih]
    have : (UInt8.ofNat n).toNat = n % 256 := by simp
    rw [this, Nat.pow_succ, Nat.mul_comm (256 ^ k), Nat.mod_mul]

theorem leVal_lt (b : Bytes) : leVal b < 256 ^ b.length := by
  induction b with
  | nil => simp [leVal]
  | cons x b ih =>
    rw [leVal, List.length_cons, Nat.pow_succ]
    have := x.toNat_lt
    omega

theorem leBytes_leVal (b : Bytes) : leBytes b.length (leVal b) = b := by
  induction b with
  | nil => rfl
  | cons x b ih =>
    rw [List.length_cons, leBytes, leVal]
    have hx := x.toNat_lt
    have h1 : (x.toNat + 256 * leVal b) / 256 = leVal b := by omega
    rw [h1, ih]
    congr 1
    apply UInt8.toNat_inj.1
    simp

theorem leBytes_leVal' (k : Nat) (b : Bytes) (h : b.length = k) : leBytes k (leVal b) = b := by
  subst h; exact leBytes_leVal b

theorem packU_ok (size n : Nat) (h : n < 256 ^ size) : packU size (n : Int) = .ok (beBytes size n) := by
  unfold packU
  have : (0 : Int) ≤ n ∧ (n : Int) < 256 ^ size := by
    refine ⟨by omega, ?_⟩
    exact_mod_cast h
  rw [if_pos this]
  simp

theorem packU_beVal (size : Nat) (b : Bytes) (h : b.length = size) :
    packU size (beVal b : Int) = .ok b := by
  rw [packU_ok, beBytes_beVal' size b h]
  rw [← h]; exact beVal_lt b

theorem packLE_ok (size n : Nat) (h : n < 256 ^ size) :
    packLE size (n : Int) = .ok (leBytes size n) := by
  unfold packLE
  have : (0 : Int) ≤ n ∧ (n : Int) < 256 ^ size := by
    refine ⟨by omega, ?_⟩
    exact_mod_cast h
  rw [if_pos this]
  simp

/-- `packU` succeeds exactly on the numbers that fit. -/
theorem packU_iff (size : Nat) (v : Int) (b : Bytes) :
    packU size v = .ok b ↔ ∃ n : Nat, v = n ∧ n < 256 ^ size ∧ b = beBytes size n := by
  constructor
  · intro h
    unfold packU at h
    split at h
    · rename_i hv
      refine ⟨v.toNat, by omega, ?_, by simpa using h.symm⟩
      have : ((v.toNat : Nat) : Int) < ((256 ^ size : Nat) : Int) := by
        rw [Int.toNat_of_nonneg hv.1]; simpa using hv.2
      exact_mod_cast this
    · simp at h
  · rintro ⟨n, rfl, h, rfl⟩
    exact packU_ok size n h

/-! ## slices -/

theorem slice_left {α : Type} (a b : List α) (i j : Nat) (h : j ≤ a.length) :
    slice (a ++ b) i j = slice a i j := by
  simp [slice, List.take_append_of_le_length h]

theorem slice_right {α : Type} (a b : List α) (i j : Nat) (h : a.length ≤ i) :
    slice (a ++ b) i j = slice b (i - a.length) (j - a.length) := by
  unfold slice
  by_cases hj : a.length ≤ j
  · rw [List.take_append, List.drop_append]
    have h1 : a.take j = a := List.take_of_length_le hj
    rw [h1]
    have h2 : a.drop i = [] := List.drop_of_length_le h
    rw [h2]
    simp
  · have h1 : ((a ++ b).take j).drop i = [] := by
      apply List.drop_of_length_le
      simp; omega
    have h2 : j - a.length = 0 := by omega
    rw [h1, h2]
    simp

theorem slice_all {α : Type} (a : List α) (j : Nat) (h : a.length = j) : slice a 0 j = a := by
  simp [slice, ← h]

theorem uAt_left (a b : Bytes) (off size : Nat) (h : off + size ≤ a.length) :
    uAt (a ++ b) off size = uAt a off size := by
  simp [uAt, slice_left a b _ _ h]

theorem uAt_right (a b : Bytes) (off size : Nat) (h : a.length ≤ off) :
    uAt (a ++ b) off size = uAt b (off - a.length) size := by
  unfold uAt
  rw [slice_right a b _ _ h]
  congr 2
  omega

theorem uAt_beBytes (size n : Nat) (h : n < 256 ^ size) : uAt (beBytes size n) 0 size = n := by
  unfold uAt
  rw [Nat.zero_add, slice_all _ _ (beBytes_length size n), beVal_beBytes_of_lt size n h]

theorem uAt_self (b : Bytes) (size : Nat) (h : b.length = size) : uAt b 0 size = beVal b := by
  unfold uAt
  rw [Nat.zero_add, slice_all _ _ h]

/-- The field at the front of a message. -/
theorem uAt_front (size n : Nat) (r : Bytes) (h : n < 256 ^ size) :
    uAt (beBytes size n ++ r) 0 size = n := by
  rw [uAt_left _ _ _ _ (by simp), uAt_beBytes size n h]

/-! ## `intBE` -/

theorem intBE_eq (size : Nat) (v : Int) :
    intBE size v = beBytes size (v % (256 ^ size : Nat)).toNat := by
  induction size with
  | zero => simp [intBE, beBytes]
  | succ k ih =>
    have hpos : (0 : Int) < 256 ^ k := by positivity
    unfold intBE at *
    rw [List.range_succ, List.reverse_append]
    simp only [List.reverse_cons, List.reverse_nil, List.nil_append, List.cons_append,
      List.map_cons]
    rw [ih, beBytes]
    generalize hm : (v % ((256 ^ (k + 1) : Nat) : Int)).toNat = m
    have hM : ((256 ^ (k + 1) : Nat) : Int) = 256 ^ k * 256 := by push_cast; ring
    have hmv : (m : Int) = v % (256 ^ k * 256) := by
      rw [← hm, ← hM]
      exact Int.toNat_of_nonneg (Int.emod_nonneg _ (by positivity))
    have hv : v = m + 256 ^ k * 256 * (v / (256 ^ k * 256)) := by
      rw [hmv]; exact (Int.emod_add_mul_ediv v (256 ^ k * 256)).symm
    generalize v / (256 ^ k * 256) = q at hv
    congr 1
    · apply UInt8.toNat_inj.1
      simp
      have h1 : ((v / 256 ^ k % 256).toNat : Int) = v / 256 ^ k % 256 :=
        Int.toNat_of_nonneg (Int.emod_nonneg _ (by omega))
      have h2 : ((m / 256 ^ k : Nat) : Int) % 256 = v / 256 ^ k % 256 := by
        push_cast
        rw [hv, Int.mul_assoc, Int.add_mul_ediv_left _ _ (by positivity), Int.add_mul_emod_self_left]
      have h3 : ((v / 256 ^ k % 256).toNat : Int) = (((m / 256 ^ k) % 256 : Nat) : Int) := by
        push_cast at h2 ⊢
        rw [h1, ← h2]
      omega
    · have : (v % ((256 ^ k : Nat) : Int)).toNat = m % 256 ^ k := by
        have h1 : ((v % ((256 ^ k : Nat) : Int)).toNat : Int) = v % ((256 ^ k : Nat) : Int) :=
          Int.toNat_of_nonneg (Int.emod_nonneg _ (by positivity))
        have h2 : ((m % 256 ^ k : Nat) : Int) = v % ((256 ^ k : Nat) : Int) := by
          push_cast
          rw [hv, Int.mul_assoc, Int.add_mul_emod_self_left]
        omega
      rw [this, beBytes_mod]

theorem intBE_nat (size n : Nat) : intBE size (n : Int) = beBytes size n := by
  rw [intBE_eq]
  have : ((n : Int) % ((256 ^ size : Nat) : Int)).toNat = n % 256 ^ size := by
    rw [← Int.natCast_emod, Int.toNat_natCast]
  rw [this, beBytes_mod]

end Ofpstr
