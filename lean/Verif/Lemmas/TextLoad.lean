import Verif.Lemmas.TextNx

/-!
# Exactly which arguments `reg_load` and `reg_load2` take
-/

set_option linter.unusedSimpArgs false

namespace Ofpstr
open Spec

/-! ## The mask loop -/

instance (n j : Nat) : Decidable (LowOnes n j) := by unfold LowOnes; infer_instance

theorem maskByte_some (bs : List Bool) (sh n : Nat) : ∃ j, maskByte bs (0, some 0) = (0, some j) ∧ maskByte bs (sh, some n) = (sh, some (n + j)) := by
  induction bs generalizing n with
  | nil => exact ⟨0, rfl, rfl⟩
  | cons b bs ih =>
    cases b with
    | false => exact ⟨0, rfl, rfl⟩
    | true =>
      obtain ⟨j, h1, h2⟩ := ih 1
      obtain ⟨k, h3, h4⟩ := ih (n + 1)
      rw [h1] at h3
      cases h3
      have h5 : maskByte bs (0, some (0 + 1)) = (0, some (1 + j)) := by
        obtain ⟨k, h5, h6⟩ : ∃ k, maskByte bs (0, some 0) = (0, some k) ∧ maskByte bs (0, some 1) = (0, some (1 + k)) := by
          clear ih h1 h2 h4
          have : ∀ (bs : List Bool) (a n : Nat), ∃ k, maskByte bs (a, some n) = (a, some (n + k)) ∧ ∀ b m, maskByte bs (b, some m) = (b, some (m + k)) := by
            intro bs
            induction bs with
            | nil => intro a n; exact ⟨0, rfl, fun _ _ => rfl⟩
            | cons b bs ih =>
              intro a n
              cases b with
              | false => exact ⟨0, rfl, fun _ _ => rfl⟩
              | true =>
                obtain ⟨k, h1, h2⟩ := ih a (n + 1)
                refine ⟨k + 1, ?_, fun b m => ?_⟩
                · simp only [maskByte, Option.getD_some]; rw [h1]; congr 2; omega
                · simp only [maskByte, Option.getD_some]; rw [h2]; congr 2; omega
          obtain ⟨k, h1, h2⟩ := this bs 0 0
          exact ⟨k, by simpa using h1, h2 0 1⟩
        rw [h1] at h5
        cases h5
        exact h6
      refine ⟨1 + j, ?_, ?_⟩
      · simp only [maskByte, Option.getD_some]; exact h5
      · simp only [maskByte, Option.getD_some]; rw [h4]; congr 2; omega

theorem maskByte_none (bs : List Bool) (sh : Nat) :
    maskByte bs (sh, none) = (sh + (maskByte bs (0, none)).1, (maskByte bs (0, none)).2) := by
  have key : ∀ (bs : List Bool) (a b : Nat), maskByte bs (a + b, none) = (a + (maskByte bs (b, none)).1, (maskByte bs (b, none)).2) := by
    intro bs
    induction bs with
    | nil => intro a b; rfl
    | cons c bs ih =>
      intro a b
      cases c with
      | false =>
        simp only [maskByte]
        exact ih a (b + 1)
      | true =>
        simp only [maskByte, Option.getD_none]
        obtain ⟨j, _, h1⟩ := maskByte_some bs (a + b) (0 + 1)
        obtain ⟨k, h2, h3⟩ := maskByte_some bs b (0 + 1)
        obtain ⟨l, h4, h5⟩ := maskByte_some bs (a + b) (0 + 1)
        rw [h2] at h4
        cases h4
        rw [h5, h3]
  exact key bs sh 0

/-- The first byte of a mask that is not zero. -/
theorem firstByte (b i j : Nat) (hb : b < 256) : maskByte (bitsLsb (UInt8.ofNat b)) (0, none) = (i, some j) ↔
    ∃ c, b = 2 ^ i * c ∧ LowOnes c j ∧ 0 < j := by
  have key0 : ∀ b : Fin 256, let p := maskByte (bitsLsb (UInt8.ofNat b.1)) (0, none)
      if p.2.isSome then b.1 = 2 ^ p.1 * (b.1 / 2 ^ p.1) ∧ LowOnes (b.1 / 2 ^ p.1) (p.2.getD 0) ∧ 0 < p.2.getD 0
      else b.1 = 0 := by decide +kernel
  have key : ∀ b : Fin 256, ∀ i o, maskByte (bitsLsb (UInt8.ofNat b.1)) (0, none) = (i, o) → match o with
      | some j => b.1 = 2 ^ i * (b.1 / 2 ^ i) ∧ LowOnes (b.1 / 2 ^ i) j ∧ 0 < j
      | none => b.1 = 0 := by
    intro b i o h
    have := key0 b
    dsimp only at this
    rw [h] at this
    cases o <;> simpa using this
  have uniq : ∀ (c d i k : Nat), 2 ^ i * c = 2 ^ k * d → c % 2 = 1 → d % 2 = 1 → i = k := by
    have aux : ∀ (c d i k : Nat), 2 ^ i * c = 2 ^ (i + k + 1) * d → c % 2 = 1 → False := by
      intro c d i k h hc
      rw [show i + k + 1 = i + (k + 1) by omega, Nat.pow_add, Nat.mul_assoc] at h
      have h := Nat.eq_of_mul_eq_mul_left (Nat.two_pow_pos i) h
      rw [h, Nat.pow_succ, Nat.mul_comm (2 ^ k) 2, Nat.mul_assoc, Nat.mul_mod_right] at hc
      omega
    intro c d i k h hc hd
    rcases Nat.lt_trichotomy i k with h1 | h1 | h1
    · exact (aux c d i (k - i - 1) (by rw [h]; congr 2; omega) hc).elim
    · exact h1
    · exact (aux d c k (i - k - 1) (by rw [← h]; congr 2; omega) hd).elim
  have odd : ∀ c j, LowOnes c j → 0 < j → c % 2 = 1 := by
    intro c j h hj
    obtain ⟨j, rfl⟩ : ∃ k, j = k + 1 := ⟨j - 1, by omega⟩
    unfold LowOnes at h
    have h2 : c % 2 ^ (j + 1 + 1) % 2 = c % 2 := by
      rw [Nat.pow_succ 2 (j + 1), Nat.mod_mul_left_mod]
    rw [← h2, h, Nat.pow_succ]
    have := Nat.two_pow_pos j
    omega
  have lowU : ∀ c j k, LowOnes c j → LowOnes c k → j = k := by
    have aux : ∀ c j k, LowOnes c j → LowOnes c (j + k + 1) → False := by
      intro c j k h1 h2
      unfold LowOnes at h1 h2
      have h3 : c % 2 ^ (j + k + 1 + 1) % 2 ^ (j + 1) = c % 2 ^ (j + 1) := by
        apply Nat.mod_mod_of_dvd
        exact Nat.pow_dvd_pow 2 (by omega)
      rw [h2, h1] at h3
      have h4 : 2 ^ (j + k + 1) = 2 ^ (j + 1) * 2 ^ k := by rw [← Nat.pow_add]; congr 1; omega
      have h5 : 2 ^ (j + 1) = 2 * 2 ^ j := by rw [Nat.pow_succ]; omega
      have hj := Nat.two_pow_pos j
      have hk := Nat.two_pow_pos k
      have h6 : 2 ^ (j + k + 1) - 1 = (2 ^ (j + 1) - 1) + 2 ^ (j + 1) * (2 ^ k - 1) := by
        rw [h4, Nat.mul_sub]
        have : 2 ^ (j + 1) * 1 ≤ 2 ^ (j + 1) * 2 ^ k := Nat.mul_le_mul_left _ hk
        omega
      rw [h6, Nat.add_mul_mod_self_left, Nat.mod_eq_of_lt (by omega)] at h3
      omega
    intro c j k h1 h2
    rcases Nat.lt_trichotomy j k with h | h | h
    · exact (aux c j (k - j - 1) h1 (by rw [show j + (k - j - 1) + 1 = k by omega]; exact h2)).elim
    · exact h
    · exact (aux c k (j - k - 1) h2 (by rw [show k + (j - k - 1) + 1 = j by omega]; exact h1)).elim
  have kb := key ⟨b, hb⟩
  dsimp only at kb
  constructor
  · intro h
    exact ⟨_, kb _ _ h⟩
  · rintro ⟨c, h1, h2, h3⟩
    have ho := odd c j h2 h3
    rcases hm : maskByte (bitsLsb (UInt8.ofNat b)) (0, none) with ⟨i', _ | j'⟩
    · have kb := kb _ _ hm
      dsimp only at kb
      have hp := Nat.two_pow_pos i
      rw [kb] at h1
      rcases Nat.mul_eq_zero.1 h1.symm with h | h <;> omega
    · have kb := kb _ _ hm
      dsimp only at kb
      obtain ⟨k1, k2, k3⟩ := kb
      have e1 := uniq c (b / 2 ^ i') i i' (h1.symm.trans k1) ho (odd _ _ k2 k3)
      subst e1
      have e2 : c = b / 2 ^ i := by
        exact Nat.eq_of_mul_eq_mul_left (Nat.two_pow_pos i) (h1.symm.trans k1)
      subst e2
      rw [lowU _ _ _ h2 k2]

/-- The ones at the low end of a later byte. -/
theorem laterByte (b j : Nat) (hb : b < 256) : maskByte (bitsLsb (UInt8.ofNat b)) (0, some 0) = (0, some j) ↔ LowOnes b j := by
  have key : ∀ b : Fin 256, ∀ j : Fin 9, maskByte (bitsLsb (UInt8.ofNat b.1)) (0, some 0) = (0, some j.1) ↔ LowOnes b.1 j.1 := by decide +kernel
  have ex : ∀ b : Fin 256, ∃ j : Fin 9, maskByte (bitsLsb (UInt8.ofNat b.1)) (0, some 0) = (0, some j.1) := by decide +kernel
  constructor
  · intro h
    obtain ⟨k, hk⟩ := ex ⟨b, hb⟩
    dsimp only at hk
    rw [h] at hk
    cases hk
    exact (key ⟨b, hb⟩ k).1 h
  · intro h
    have hj : j < 9 := by
      by_contra hc
      have h1 : 2 ^ 9 ≤ 2 ^ j := Nat.pow_le_pow_right (by omega) (by omega)
      have h2 := h
      unfold LowOnes at h2
      have h3 := Nat.mod_le b (2 ^ (j + 1))
      have e : (2 : Nat) ^ 9 = 512 := rfl
      omega
    exact (key ⟨b, hb⟩ ⟨j, hj⟩).2 h

theorem ofNat_toNat8 (b : UInt8) : UInt8.ofNat b.toNat = b := by simp

theorem foldl_some (bs : Bytes) (sh n k : Nat) : bs.foldl (fun st v => maskByte (bitsLsb v) st) (sh, some n) = (sh, some (n + k)) ↔
    OnesOf bs k := by
  induction bs generalizing n k with
  | nil =>
    simp only [List.foldl_nil]
    constructor
    · intro h
      simp at h
      subst h
      exact .nil
    · intro h; cases h; rfl
  | cons b bs ih =>
    rw [List.foldl_cons]
    obtain ⟨j, h1, h2⟩ := maskByte_some (bitsLsb b) sh n
    rw [h2]
    have hj : LowOnes b.toNat j := (laterByte b.toNat j b.toNat_lt).1 (by rw [ofNat_toNat8]; exact h1)
    constructor
    · intro h
      have hle : n + j ≤ n + k := by
        have mono : ∀ (bs : Bytes) (m : Nat), ∃ k, bs.foldl (fun st v => maskByte (bitsLsb v) st) (sh, some m) = (sh, some (m + k)) := by
          intro bs
          induction bs with
          | nil => intro m; exact ⟨0, rfl⟩
          | cons b bs ih =>
            intro m
            obtain ⟨j, _, h2⟩ := maskByte_some (bitsLsb b) sh m
            obtain ⟨k, h3⟩ := ih (m + j)
            refine ⟨j + k, ?_⟩
            rw [List.foldl_cons, h2, h3]
            congr 2; omega
        obtain ⟨k', hk'⟩ := mono bs (n + j)
        rw [h] at hk'
        simp at hk'
        omega
      obtain ⟨k', rfl⟩ : ∃ k', k = j + k' := ⟨k - j, by omega⟩
      rw [← Nat.add_assoc, ih] at h
      exact .cons b bs j k' hj h
    · intro h
      cases h with
      | cons _ _ j' k' h3 h4 =>
        have h5 := (laterByte b.toNat j' b.toNat_lt).2 h3
        rw [ofNat_toNat8, h1] at h5
        cases h5
        rw [← Nat.add_assoc, ih]
        exact h4

theorem foldl_none (bs : Bytes) (sh s k : Nat) : bs.foldl (fun st v => maskByte (bitsLsb v) st) (sh, none) = (s, some k) ↔
    ∃ zs b hs i c j k', bs = zs ++ b :: hs ∧ (∀ z ∈ zs, z = 0) ∧ b.toNat = 2 ^ i * c ∧ LowOnes c j ∧ 0 < j ∧ OnesOf hs k' ∧
      s = sh + (8 * zs.length + i) ∧ k = j + k' := by
  induction bs generalizing sh with
  | nil =>
    constructor
    · intro h; cases h
    · rintro ⟨zs, b, hs, _, _, _, _, h, _⟩
      simp at h
  | cons b bs ih =>
    rw [List.foldl_cons, maskByte_none]
    by_cases hb : b = 0
    · subst hb
      rw [show maskByte (bitsLsb 0) (0, none) = (8, none) by decide]
      dsimp only
      rw [ih]
      constructor
      · rintro ⟨zs, b, hs, i, c, j, k', rfl, h1, h2, h3, h4, h5, h6, h7⟩
        refine ⟨0 :: zs, b, hs, i, c, j, k', rfl, by simpa using h1, h2, h3, h4, h5, ?_, h7⟩
        rw [h6, List.length_cons]
        omega
      · rintro ⟨zs, b, hs, i, c, j, k', h0, h1, h2, h3, h4, h5, h6, h7⟩
        cases zs with
        | nil =>
          simp at h0
          obtain ⟨rfl, rfl⟩ := h0
          rcases Nat.mul_eq_zero.1 h2.symm with h | h
          · have := Nat.two_pow_pos i
            omega
          · subst h
            unfold LowOnes at h3
            rw [Nat.zero_mod] at h3
            have := Nat.one_lt_two_pow (Nat.pos_iff_ne_zero.1 h4)
            omega
        | cons z zs =>
          simp at h0
          obtain ⟨rfl, rfl⟩ := h0
          refine ⟨zs, b, hs, i, c, j, k', rfl, fun z hz => h1 z (by simp [hz]), h2, h3, h4, h5, ?_, h7⟩
          rw [h6, List.length_cons]
          omega
    · have hex : ∃ i j, maskByte (bitsLsb b) (0, none) = (i, some j) := by
        have key : ∀ b : Fin 256, b.1 ≠ 0 → (maskByte (bitsLsb (UInt8.ofNat b.1)) (0, none)).2.isSome = true := by decide +kernel
        have := key ⟨b.toNat, b.toNat_lt⟩ (by
          intro h
          apply hb
          apply UInt8.toNat_inj.1
          simpa using h)
        dsimp only at this
        rw [ofNat_toNat8] at this
        rcases hm : maskByte (bitsLsb b) (0, none) with ⟨i, _ | j⟩
        · rw [hm] at this; cases this
        · exact ⟨i, j, rfl⟩
      obtain ⟨i, j, hij⟩ := hex
      have hc := (firstByte b.toNat i j b.toNat_lt).1 (by rw [ofNat_toNat8]; exact hij)
      obtain ⟨c, c1, c2, c3⟩ := hc
      rw [hij]
      dsimp only
      constructor
      · intro h
        have hs : s = sh + i ∧ ∃ k', k = j + k' := by
          have mono : ∀ (bs : Bytes) (m : Nat), ∃ k, bs.foldl (fun st v => maskByte (bitsLsb v) st) (sh + i, some m) = (sh + i, some (m + k)) := by
            intro bs
            induction bs with
            | nil => intro m; exact ⟨0, rfl⟩
            | cons b bs ih =>
              intro m
              obtain ⟨j, _, h2⟩ := maskByte_some (bitsLsb b) (sh + i) m
              obtain ⟨k, h3⟩ := ih (m + j)
              refine ⟨j + k, ?_⟩
              rw [List.foldl_cons, h2, h3]
              congr 2; omega
          obtain ⟨k', hk'⟩ := mono bs j
          rw [h] at hk'
          simp at hk'
          exact ⟨hk'.1, k', hk'.2⟩
        obtain ⟨rfl, k', rfl⟩ := hs
        rw [foldl_some] at h
        exact ⟨[], b, bs, i, c, j, k', rfl, by simp, c1, c2, c3, h, by simp, rfl⟩
      · rintro ⟨zs, b', hs, i', c', j', k', h0, h1, h2, h3, h4, h5, h6, h7⟩
        cases zs with
        | cons z zs =>
          simp at h0
          exact absurd (h0.1.trans (h1 z (by simp))) hb
        | nil =>
          simp at h0
          obtain ⟨rfl, rfl⟩ := h0
          have h8 := (firstByte b.toNat i' j' b.toNat_lt).2 ⟨c', h2, h3, h4⟩
          rw [ofNat_toNat8, hij] at h8
          cases h8
          rw [h6, h7]
          simp only [List.length_nil, Nat.mul_zero, Nat.zero_add]
          rw [foldl_some]
          exact h5

theorem maskScan_iff (m : Bytes) (s k : Nat) : maskScan m = (s, some k) ↔ MaskRun m s k := by
  unfold maskScan
  rw [foldl_none]
  constructor
  · rintro ⟨zs, b, hs, i, c, j, k', h0, h1, h2, h3, h4, h5, rfl, rfl⟩
    rw [Nat.zero_add]
    exact .mk m zs hs b i c j k' h0 h1 h2 h3 h4 h5
  · intro h
    cases h with
    | mk zs hs b i c j k' h0 h1 h2 h3 h4 h5 => exact ⟨zs, b, hs, i, c, j, k', h0, h1, h2, h3, h4, h5, by omega, rfl⟩

/-! ## The parts of a match -/

theorem cut_parts (t : Tlv) (hf : t.field ∈ fields) : needBytes t.cut 0 4 = .ok () ∧ uAt t.cut 0 2 = t.field.cls ∧
    uAt t.cut 2 1 = 2 * t.field.num + (if t.mask.isSome then 1 else 0) ∧
    (if (t.field.cls == 0xffff) = true then t.cut.drop 6 else t.cut.drop 4) = t.loadBytes := by
  have key : ∀ f ∈ fields, ∀ m : Bool, f.cls < 65536 ∧ 2 * f.num + (if m then 1 else 0) < 256 ∧ (f.cls == 0xffff) = f.experimenter := by
    decide +kernel
  obtain ⟨k1, k2, k3⟩ := key t.field hf t.mask.isSome
  have e1 : t.cut = beBytes 2 t.field.cls ++ (beBytes 1 (2 * t.field.num + (if t.mask.isSome then 1 else 0)) ++
      (beBytes 1 (min t.body.length (255 - t.field.extra) + (if t.field.experimenter then 4 else 0)) ++
      ((if t.field.experimenter then u32 0xff00e04d else []) ++ t.body))) := by
    unfold Tlv.cut Field.header
    rw [spec_u16, spec_u8, spec_u8]
    simp only [List.append_assoc]
  refine ⟨?_, ?_, ?_, ?_⟩
  · unfold needBytes
    rw [if_pos]
    rw [e1]
    simp only [List.length_append, beBytes_length]
    omega
  · rw [e1, uAt_front _ _ _ (by simpa using k1)]
  · rw [e1, uAt_right _ _ _ _ (by simp), beBytes_length, uAt_front _ _ _ (by simpa using k2)]
  · rw [k3, e1]
    unfold Tlv.loadBytes
    have d4 : ∀ (x : Bytes) (a b c : Nat), (beBytes 2 a ++ (beBytes 1 b ++ (beBytes 1 c ++ x))).drop 4 = x := by
      intro x a b c
      rw [← List.append_assoc, ← List.append_assoc]
      exact List.drop_left' (by simp)
    cases he : t.field.experimenter
    · rw [if_neg (by decide), d4]
      rfl
    · have d6 : ∀ l : Bytes, l.drop 6 = (l.drop 4).drop 2 := by intro l; rw [List.drop_drop]
      rw [if_pos rfl, d6, d4]
      rfl

theorem loadBytes_even (t : Tlv) (hl : ∀ q, t.mask = some q → q.length = t.value.length) (hm : t.mask.isSome = true) :
    t.loadBytes.length = 2 * (t.loadBytes.length / 2) := by
  cases hq : t.mask with
  | none => rw [hq] at hm; cases hm
  | some q =>
    unfold Tlv.loadBytes Tlv.body
    rw [hq]
    simp only [List.length_append, Option.getD_some, hl q hq]
    cases t.field.experimenter <;> simp <;> omega

/-! ## The actions -/

theorem matchItem_len {u v r : Str} {t : Tlv} (h : MatchItem u v t r) : u.length - r.length ≠ 0 := by
  obtain ⟨hd, op, r1, h1, h2, _, _, hf, _⟩ := h
  have hn : t.field.name ≠ [] := by
    have key : ∀ f ∈ fields, f.name ≠ [] := by decide +kernel
    exact key _ hf
  have := List.length_pos_of_ne_nil hn
  have e1 := h1.1
  have e2 := tok_le h2
  rw [e1]
  simp only [List.length_append]
  omega

theorem str2oxm1_item {u : Str} {b : Bytes} {n : Nat} (h : str2oxm1 u = .ok (b, n)) (hb : needBytes b 0 4 = .ok ()) :
    ∃ v t r, MatchItem u v t r ∧ v ≠ [] ∧ b = t.cut ∧ n = u.length - r.length := by
  rcases (str2oxm1_matchItem _ _ _).1 h with ⟨_, rfl, _⟩ | ⟨_, _, _, rfl, _⟩ | h
  · exact absurd hb needBytes_nil
  · exact absurd hb needBytes_nil
  · exact h

theorem regLoad2_made : NxMade t!"reg_load2" regLoad2Raw := by
  intro u eq bin n
  unfold regLoad2Raw rawArg
  cases eq with
  | true =>
    rw [if_pos rfl]
    constructor
    · intro h; cases h
    · rintro ⟨t, body, ⟨r', h, rfl⟩, rfl⟩
      generalize hn : t!"reg_load2" = name at h
      generalize ht : true = eq at h
      cases h <;> nx_other hn
      cases ht
  | false =>
    rw [if_neg (by decide)]
    constructor
    · intro h
      obtain ⟨⟨oxm, l⟩, h1, h⟩ := bind_iff.1 h
      dsimp only at h
      split at h
      · cases h
      · obtain ⟨⟨⟩, h2, h⟩ := bind_iff.1 h
        cases h
        obtain ⟨v, t, r, h3, h4, rfl, rfl⟩ := str2oxm1_item h1 h2
        exact ⟨33, _, ⟨r, .regLoad2 u v t r h3 h4, rfl⟩, rfl⟩
    · rintro ⟨t, body, ⟨r', h, rfl⟩, rfl⟩
      generalize hn : t!"reg_load2" = name at h
      generalize ht : false = eq at h
      cases h with
      | regLoad2 _ v t _ h1 h2 =>
        rw [(str2oxm1_matchItem _ _ _).2 (Or.inr (Or.inr ⟨v, t, r', h1, h2, rfl, rfl⟩)), ok_bind]
        dsimp only
        rw [if_neg (by simpa using matchItem_len h1), (cut_parts t (by obtain ⟨_, _, _, _, _, _, _, hf, _⟩ := h1; exact hf)).1, ok_bind]
        rfl
      | _ => nx_other hn

theorem regLoad2_exact : NxExact t!"reg_load2" regLoad2Str2act := regLoad2_made.exact

theorem be_of (b : Bytes) : b = be b.length (beVal b) ∧ beVal b < 256 ^ b.length :=
  ⟨by rw [spec_be, beBytes_beVal], beVal_lt b⟩

/-- The body of `reg_load` from the bytes of the match. -/
theorem loadBody_iff (t : Tlv) (hl : ∀ q, t.mask = some q → q.length = t.value.length) (bin : Bytes) (n l : Nat) :
    (if (2 * t.field.num + (if t.mask.isSome then 1 else 0)) % 2 == 1 then
      let size := t.loadBytes.length / 2
      let (shift, nbits) := maskScan (t.loadBytes.drop size)
      match nbits with
      | none => .error .typeError
      | some nbits => do
        let value := beVal (t.loadBytes.take size) / 2 ^ shift
        let b ← packAll [(2, (shift * 64 : Int) + ((nbits : Int) - 1)), (2, t.field.cls),
          (1, ((2 * t.field.num + (if t.mask.isSome then 1 else 0)) / 2 * 2 : Nat)), (1, size), (8, value)]
        .ok (nxastHdr NXAST_REG_LOAD ++ b, l)
      else do
        let size := t.loadBytes.length
        let b ← packAll [(2, (size : Int) * 8 - 1), (2, t.field.cls),
          (1, ((2 * t.field.num + (if t.mask.isSome then 1 else 0)) / 2 * 2 : Nat)), (1, size), (8, beVal t.loadBytes)]
        .ok (nxastHdr NXAST_REG_LOAD ++ b, l) : Py (Bytes × Nat)) = .ok (bin, n) ↔
    n = l ∧ ∃ b, LoadBody t b ∧ bin = nxastHdr 7 ++ b := by
  cases hm : t.mask.isSome with
  | true =>
    have hne : t.mask ≠ none := by intro h; rw [h] at hm; cases hm
    rw [if_pos (by rw [if_pos rfl]; simp [Nat.add_mod])]
    dsimp only
    have hev := loadBytes_even t hl hm
    have e2 : ((2 * t.field.num + (if true then 1 else 0)) / 2 * 2 : Nat) = 2 * t.field.num := by rw [if_pos rfl]; omega
    have e2 : (((2 * t.field.num + (if true = true then 1 else 0)) / 2 * 2 : Nat) : Int) = (2 * t.field.num : Nat) := by rw [e2]
    rw [e2]
    generalize hs : t.loadBytes.length / 2 = size at hev
    have l1 : (t.loadBytes.take size).length = size := by rw [List.length_take]; omega
    have l2 : (t.loadBytes.drop size).length = size := by rw [List.length_drop]; omega
    rcases hsc : maskScan (t.loadBytes.drop size) with ⟨sh, _ | nb⟩
    · dsimp only
      constructor
      · intro h; cases h
      · rintro ⟨_, b, h, _⟩
        cases h with
        | whole _ _ _ h => exact absurd h hne
        | bits n' v m s k _ h1 h2 h3 h4 h5 h6 =>
          have hz : n' = size := by rw [h2] at hs; simp [be_len, h3] at hs; omega
          subst hz
          rw [h2, List.drop_left' (by simp [be_len])] at hsc
          rw [(maskScan_iff _ _ _).2 h5] at hsc
          cases hsc
    · dsimp only
      rw [bind_iff]
      constructor
      · rintro ⟨b, h, h'⟩
        cases h'
        refine ⟨rfl, b, ?_, rfl⟩
        obtain ⟨b1, b2⟩ := be_of (t.loadBytes.take size)
        rw [l1] at b1 b2
        rw [Int.mul_comm] at h
        exact .bits t size _ (t.loadBytes.drop size) sh nb b hne (by rw [← b1, List.take_append_drop]) l2 b2 ((maskScan_iff _ _ _).1 hsc)
          ((packed_iff _ _).1 h)
      · rintro ⟨rfl, b, h, rfl⟩
        cases h with
        | whole _ _ _ h => exact absurd h hne
        | bits n' v m s k _ h1 h2 h3 h4 h5 h6 =>
          have hz : n' = size := by rw [h2] at hs; simp [be_len, h3] at hs; omega
          subst hz
          rw [h2, List.drop_left' (by simp [be_len])] at hsc
          rw [(maskScan_iff _ _ _).2 h5] at hsc
          cases hsc
          refine ⟨b, ?_, rfl⟩
          rw [h2, List.take_left' (by simp [be_len]), beVal_be _ _ h4, Int.mul_comm]
          exact (packed_iff _ _).2 h6
  | false =>
    have hno : t.mask = none := by cases h : t.mask with | none => rfl | some q => rw [h] at hm; cases hm
    rw [if_neg (by rw [if_neg (by decide)]; simp)]
    dsimp only
    have e2 : (((2 * t.field.num + (if false = true then 1 else 0)) / 2 * 2 : Nat) : Int) = (2 * t.field.num : Nat) := by
      rw [if_neg (by decide)]; congr 1; omega
    rw [e2, bind_iff]
    constructor
    · rintro ⟨b, h, h'⟩
      cases h'
      refine ⟨rfl, b, ?_, rfl⟩
      obtain ⟨b1, b2⟩ := be_of t.loadBytes
      rw [Int.mul_comm] at h
      exact .whole t _ _ b hno b1 b2 ((packed_iff _ _).1 h)
    · rintro ⟨rfl, b, h, rfl⟩
      cases h with
      | bits _ _ _ _ _ _ h => exact absurd hno h
      | whole n' v _ h1 h2 h3 h4 =>
        refine ⟨b, ?_, rfl⟩
        have hl : t.loadBytes.length = n' := by rw [h2, be_len]
        rw [hl, h2, beVal_be _ _ h3, Int.mul_comm]
        exact (packed_iff _ _).2 h4

theorem regLoad_made : NxMade t!"reg_load" regLoadRaw := by
  intro u eq bin n
  unfold regLoadRaw rawArg
  cases eq with
  | true =>
    rw [if_pos rfl]
    constructor
    · intro h; cases h
    · rintro ⟨t, body, ⟨r', h, rfl⟩, rfl⟩
      generalize hn : t!"reg_load" = name at h
      generalize ht : true = eq at h
      cases h <;> nx_other hn
      cases ht
  | false =>
    rw [if_neg (by decide)]
    constructor
    · intro h
      obtain ⟨⟨oxm, l⟩, h1, h⟩ := bind_iff.1 h
      dsimp only at h
      split at h
      · cases h
      · obtain ⟨⟨⟩, h2, h⟩ := bind_iff.1 h
        obtain ⟨v, t, r, h3, h4, rfl, rfl⟩ := str2oxm1_item h1 h2
        have hf : t.field ∈ fields := by obtain ⟨_, _, _, _, _, _, _, hf, _⟩ := h3; exact hf
        have hl : ∀ q, t.mask = some q → q.length = t.value.length := by
          obtain ⟨_, _, _, _, _, _, _, _, hv⟩ := h3
          intro q hq
          rw [hq] at hv
          exact valueText_len hv
        obtain ⟨_, c1, c2, c3⟩ := cut_parts t hf
        rw [c1, c2, c3] at h
        obtain ⟨rfl, b, h5, rfl⟩ := (loadBody_iff t hl bin n _).1 h
        exact ⟨7, b, ⟨r, .regLoad u v t r b h3 h4 h5, rfl⟩, rfl⟩
    · rintro ⟨t, body, ⟨r', h, rfl⟩, rfl⟩
      generalize hn : t!"reg_load" = name at h
      generalize ht : false = eq at h
      cases h with
      | regLoad _ v t _ b h1 h2 h3 =>
        have hf : t.field ∈ fields := by obtain ⟨_, _, _, _, _, _, _, hf, _⟩ := h1; exact hf
        have hl : ∀ q, t.mask = some q → q.length = t.value.length := by
          obtain ⟨_, _, _, _, _, _, _, _, hv⟩ := h1
          intro q hq
          rw [hq] at hv
          exact valueText_len hv
        obtain ⟨c0, c1, c2, c3⟩ := cut_parts t hf
        rw [(str2oxm1_matchItem _ _ _).2 (Or.inr (Or.inr ⟨v, t, r', h1, h2, rfl, rfl⟩)), ok_bind]
        dsimp only
        rw [if_neg (by simpa using matchItem_len h1), c0, ok_bind, c1, c2, c3]
        exact (loadBody_iff t hl _ _ _).2 ⟨rfl, body, h3, rfl⟩
      | _ => nx_other hn

theorem regLoad_exact : NxExact t!"reg_load" regLoadStr2act := regLoad_made.exact

end Ofpstr
