import Verif.Lemmas.ValueInt
import Verif.Lemmas.SsidExact

/-!
# Exactly which texts are values: several numbers, rates, bytes
-/

set_option linter.unusedSimpArgs false

namespace Ofpstr
open Spec

theorem bind_ite {α β : Type} (c : Prop) [Decidable c] (x y : Py α) (k : α → Py β) :
    (if c then x >>= k else y >>= k) = (if c then x else y) >>= k := by
  split <;> rfl

theorem assertColon_inv {a : Str} {r : Str} {x : Unit} (h : assertColon (a ++ r) a.length = .ok x) :
    ∃ t, r = ':' :: t := by
  unfold assertColon at h
  rw [List.drop_left] at h
  cases r with
  | nil => cases h
  | cons c t =>
    have := pyAssert_inv h
    exact ⟨t, by rw [beq_iff_eq.1 this]⟩

theorem assertColon_mk (a t : Str) : assertColon (a ++ ':' :: t) a.length = .ok () := by
  unfold assertColon
  rw [List.drop_left]
  rfl

theorem packTwo {v w : Int} {b : Bytes} : packAll [(2, v), (2, w)] = .ok b ↔
    FitsIn 2 v ∧ FitsIn 2 w ∧ b = be 2 v.toNat ++ be 2 w.toNat := by
  rw [packAll_eq]
  have e : (∀ e ∈ [(2, v), (2, w)], FitsIn e.1 e.2) ↔ FitsIn 2 v ∧ FitsIn 2 w := by simp
  by_cases h : FitsIn 2 v ∧ FitsIn 2 w
  · rw [if_pos (e.2 h)]
    simp only [List.flatMap_cons, List.flatMap_nil, List.append_nil, Except.ok.injEq]
    constructor
    · rintro rfl; exact ⟨h.1, h.2, rfl⟩
    · rintro ⟨_, _, rfl⟩; rfl
  · rw [if_neg (fun h' => h (e.1 h'))]
    constructor
    · intro h'; cases h'
    · rintro ⟨h1, h2, _⟩; exact absurd ⟨h1, h2⟩ h

theorem pkt_exact (key : Key) (v : Str) : ExactOn key .pkt .packetType v := by
  intro bin l
  show (pktStr2bin key v = _ ∧ _) ↔ ∃ p m, (TwoNums v p ∧ m = none) ∧ _
  constructor
  · rintro ⟨h, hl⟩
    unfold pktStr2bin at h
    obtain ⟨⟨n1, l1⟩, h1, h⟩ := bind_ok h
    obtain ⟨x, h2, h⟩ := bind_ok h
    obtain ⟨⟨n2, l2⟩, h3, h⟩ := bind_ok h
    obtain ⟨pl, h4, h⟩ := bind_ok h
    cases h
    obtain ⟨a, r, rfl, ha, hw⟩ := parseInt_take h1
    subst ha
    obtain ⟨t, rfl⟩ := assertColon_inv h2
    rw [drop_sep] at h3
    obtain ⟨b, r, rfl, hb, hw2⟩ := parseInt_take h3
    have hr : r = [] := List.length_eq_zero_iff.1 (by simp only [List.length_append, List.length_cons] at hl; omega)
    subst hr
    rw [List.append_nil] at *
    obtain ⟨f1, f2, rfl⟩ := packTwo.1 h4
    refine ⟨_, none, ⟨TwoNums.mk a b n1 n2 hw hw2 f1 f2, rfl⟩, hl, ?_⟩
    simp [fieldBytes, be_len]
  · rintro ⟨p, m, ⟨h, rfl⟩, rfl, rfl⟩
    refine ⟨?_, rfl⟩
    cases h with
    | mk a b x y hx hy f1 f2 =>
      unfold pktStr2bin
      rw [wholeInt_parse_sep hx ':' b (by decide) (by decide), ok_bind]
      dsimp only
      rw [assertColon_mk, ok_bind, drop_sep, wholeInt_parse hy, ok_bind]
      dsimp only
      rw [packTwo.2 ⟨f1, f2, rfl⟩, ok_bind]
      simp [fieldBytes, be_len]
      omega

theorem parseInt_colon (t : Str) (v : Int) (l : Nat) : parseInt (':' :: t) ≠ .ok (v, l) := by
  intro h
  obtain ⟨c, r, hc, hd⟩ := intSyntax_start ((parseInt_iff _ _ _).1 h)
  cases hc
  revert hd; decide

theorem ch_exact_fwd (key : Key) (v : Str) (bin : Bytes) (l : Nat) (h : chStr2bin key v = .ok (bin, l))
    (hl : l = v.length) :
    ∃ p m, Masked TwoNums ChannelMask v p m ∧ l = v.length ∧ bin = fieldBytes key p m := by
  unfold chStr2bin at h
  obtain ⟨⟨n1, l1⟩, h1, h⟩ := bind_ok h
  obtain ⟨x, h2, h⟩ := bind_ok h
  obtain ⟨⟨n2, l2⟩, h3, h⟩ := bind_ok h
  obtain ⟨pl, h4, h⟩ := bind_ok h
  dsimp only at h2 h3 h4 h
  obtain ⟨a, r, rfl, ha, hw⟩ := parseInt_take h1
  subst ha
  obtain ⟨t, rfl⟩ := assertColon_inv h2
  rw [drop_sep] at h3
  obtain ⟨b, r, rfl, hb, hw2⟩ := parseInt_take h3
  subst hb
  obtain ⟨f1, f2, rfl⟩ := packTwo.1 h4
  have hab := TwoNums.mk a b n1 n2 hw hw2 f1 f2
  have e1 : ∀ k, (a ++ ':' :: (b ++ r)).drop (a.length + 1 + b.length + k) = r.drop k := by
    intro k
    have e : a ++ ':' :: (b ++ r) = (a ++ ':' :: b) ++ r := by simp
    rw [e, ← List.drop_drop]
    congr 1
    rw [List.drop_append_of_le_length (by simp; omega), List.drop_eq_nil_of_le (by simp; omega)]
    rfl
  have e0 := e1 0
  rw [Nat.add_zero, List.drop_zero] at e0
  rw [e0] at h
  split at h
  · rename_i hs
    obtain ⟨t, rfl⟩ := (startsWith_one _ _).1 hs
    rw [bind_ite] at h
    obtain ⟨⟨m1, l3⟩, h5, h⟩ := bind_ok h
    dsimp only at h
    rw [e1 1] at h5
    have e2 : a.length + 1 + b.length + 1 + l3 = a.length + 1 + b.length + (1 + l3) := by omega
    rw [e2, e1] at h
    have e3 : ∀ k, List.drop (1 + k) ('/' :: t) = t.drop k := by intro k; rw [Nat.add_comm]; rfl
    have e4 : List.drop 1 ('/' :: t) = t := rfl
    rw [e4] at h5
    rw [e3] at h
    have e5 : a ++ ':' :: (b ++ '/' :: t) = (a ++ ':' :: b) ++ '/' :: t := by simp
    have h6 : (l3 = 0 ∧ m1 = 0 ∧ ∃ t', t = ':' :: t') ∨ ∃ c r, t = c ++ r ∧ c.length = l3 ∧ WholeInt c m1 := by
      split at h5
      · rename_i hs
        cases h5
        exact Or.inl ⟨rfl, rfl, (startsWith_one _ _).1 hs⟩
      · exact Or.inr (parseInt_take h5)
    have e6 : ∀ k, (a ++ ':' :: (b ++ '/' :: t)).drop (a.length + 1 + b.length + 1 + k) = t.drop k := by
      intro k
      rw [Nat.add_assoc, e1, e3]
    split at h
    · rename_i hs2
      obtain ⟨⟨m2, l4⟩, h7, h⟩ := bind_ok h
      obtain ⟨mk, h8, h⟩ := bind_ok h
      cases h
      dsimp only at h7 h8
      obtain ⟨f3, f4, rfl⟩ := packTwo.1 h8
      obtain ⟨t2, ht2⟩ := (startsWith_one _ _).1 hs2
      have e7 : a.length + 1 + b.length + (1 + l3) + 1 = a.length + 1 + b.length + 1 + (l3 + 1) := by omega
      rw [e7, e6] at h7
      have ht3 : t.drop (l3 + 1) = t2 := by rw [← List.drop_drop, ht2]; rfl
      rw [ht3] at h7
      obtain ⟨d, r2, rfl, hd, hw4⟩ := parseInt_take h7
      have hlen : t.length = l3 + 1 + d.length + r2.length := by
        have := congrArg List.length ht2
        simp at this
        omega
      have hr2 : r2 = [] := List.length_eq_zero_iff.1 (by
        simp only [List.length_append, List.length_cons] at hl
        omega)
      subst hr2
      rw [List.append_nil] at *
      rcases h6 with ⟨rfl, rfl, t', ht'⟩ | ⟨c, r, rfl, hc, hw3⟩
      · rw [List.drop_zero] at ht2
        subst ht2
        have z : be 2 (0 : Int).toNat = [0, 0] := by decide
        refine ⟨be 2 n1.toNat ++ be 2 n2.toNat, some ([0, 0] ++ be 2 m2.toNat), ?_, hl, ?_⟩
        · rw [e5]
          exact Masked.mask _ _ _ _ hab (ChannelMask.second d m2 hw4 f4)
        · rw [z]; simp [fieldBytes, be_len]
      · subst hc
        rw [List.drop_left] at ht2
        subst ht2
        refine ⟨be 2 n1.toNat ++ be 2 n2.toNat, some (be 2 m1.toNat ++ be 2 m2.toNat), ?_, hl, ?_⟩
        · rw [e5]
          exact Masked.mask _ _ _ _ hab (ChannelMask.both _ _ (TwoNums.mk c d m1 m2 hw3 hw4 f3 f4))
        · simp [fieldBytes, be_len]
    · rename_i hs2
      obtain ⟨mk, h8, h⟩ := bind_ok h
      cases h
      obtain ⟨f3, f4, rfl⟩ := packTwo.1 h8
      rcases h6 with ⟨rfl, rfl, t', rfl⟩ | ⟨c, r, rfl, hc, hw3⟩
      · exact absurd ((startsWith_one _ _).2 ⟨t', rfl⟩) hs2
      · subst hc
        have hr : r = [] := List.length_eq_zero_iff.1 (by
          simp only [List.length_append, List.length_cons] at hl; omega)
        subst hr
        rw [List.append_nil] at *
        have z : be 2 (0 : Int).toNat = [0, 0] := by decide
        refine ⟨be 2 n1.toNat ++ be 2 n2.toNat, some (be 2 m1.toNat ++ [0, 0]), ?_, hl, ?_⟩
        · rw [e5]
          exact Masked.mask _ _ _ _ hab (ChannelMask.first c m1 hw3 f3)
        · rw [z]; simp [fieldBytes, be_len]
  · cases h
    have hr : r = [] := List.length_eq_zero_iff.1 (by
      simp only [List.length_append, List.length_cons] at hl; omega)
    subst hr
    rw [List.append_nil] at *
    exact ⟨_, none, Masked.plain _ _ hab, hl, by simp [fieldBytes, be_len]⟩

/-- Two numbers are read, whatever follows. -/
theorem twoNums_read {s : Str} {p : Bytes} (h : TwoNums s p) (r : Str)
    (hr : r = [] ∨ ∃ t, r = '/' :: t) : ∃ a b v w, s = a ++ ':' :: b ∧ p = be 2 v.toNat ++ be 2 w.toNat ∧
      FitsIn 2 v ∧ FitsIn 2 w ∧ parseInt (s ++ r) = .ok (v, a.length) ∧
      assertColon (s ++ r) a.length = .ok () ∧ parseInt ((s ++ r).drop (a.length + 1)) = .ok (w, b.length) := by
  cases h with
  | mk a b x y hx hy f1 f2 =>
    have e : (a ++ ':' :: b) ++ r = a ++ ':' :: (b ++ r) := by simp
    refine ⟨a, b, x, y, rfl, rfl, f1, f2, ?_, ?_, ?_⟩
    · rw [e]; exact wholeInt_parse_sep hx ':' _ (by decide) (by decide)
    · rw [e]; exact assertColon_mk _ _
    · rw [e, drop_sep]
      rcases hr with rfl | ⟨t, rfl⟩
      · rw [List.append_nil]; exact wholeInt_parse hy
      · exact wholeInt_parse_sep hy '/' _ (by decide) (by decide)

theorem drop_more (s : Str) (c : Char) (t : Str) (k : Nat) : (s ++ c :: t).drop (s.length + 1 + k) = t.drop k := by
  rw [← List.drop_drop, drop_sep]

theorem ch_exact_bwd (key : Key) (v : Str) (p : Bytes) (m : Option Bytes) (h : Masked TwoNums ChannelMask v p m) :
    chStr2bin key v = .ok (fieldBytes key p m, v.length) := by
  cases h with
  | plain _ _ h =>
    obtain ⟨a, b, x, y, rfl, rfl, f1, f2, h1, h2, h3⟩ := twoNums_read h [] (Or.inl rfl)
    rw [List.append_nil] at h1 h2 h3
    unfold chStr2bin
    rw [h1, ok_bind]
    dsimp only
    rw [h2, ok_bind, h3, ok_bind]
    dsimp only
    rw [packTwo.2 ⟨f1, f2, rfl⟩, ok_bind, if_neg (by
      rw [List.drop_eq_nil_of_le (by simp; omega)]; decide)]
    simp [fieldBytes, be_len]
    omega
  | mask s t _ q h hm =>
    obtain ⟨a, b, x, y, rfl, rfl, f1, f2, h1, h2, h3⟩ := twoNums_read h ('/' :: t) (Or.inr ⟨t, rfl⟩)
    unfold chStr2bin
    rw [h1, ok_bind]
    dsimp only
    rw [h2, ok_bind, h3, ok_bind]
    dsimp only
    have hlen : a.length + 1 + b.length = (a ++ ':' :: b).length := by simp; omega
    rw [packTwo.2 ⟨f1, f2, rfl⟩, ok_bind, hlen, List.drop_left, if_pos (startsWith_slash t), drop_sep]
    cases hm with
    | both _ _ hm =>
      obtain ⟨c, d, z, w, rfl, rfl, f3, f4, h4, h5, h6⟩ := twoNums_read hm [] (Or.inl rfl)
      rw [List.append_nil] at h4 h5 h6
      rw [if_neg (by
        intro hs
        obtain ⟨t', ht'⟩ := (startsWith_one _ _).1 hs
        rw [ht'] at h4
        exact parseInt_colon _ _ _ h4), h4, ok_bind]
      dsimp only
      rw [drop_more, List.drop_left, if_pos ((startsWith_one _ _).2 ⟨d, rfl⟩)]
      rw [Nat.add_assoc _ c.length 1, drop_more, h6, ok_bind]
      dsimp only
      rw [packTwo.2 ⟨f3, f4, rfl⟩, ok_bind]
      simp [fieldBytes, be_len]
      omega
    | first _ z hz f3 =>
      rw [if_neg (by
        intro hs
        obtain ⟨t', ht'⟩ := (startsWith_one _ _).1 hs
        have := wholeInt_parse hz
        rw [ht'] at this
        exact parseInt_colon _ _ _ this), wholeInt_parse hz, ok_bind]
      dsimp only
      rw [drop_more, List.drop_eq_nil_of_le (by simp), if_neg (by decide)]
      have zz : be 2 (0 : Int).toNat = [0, 0] := by decide
      rw [packTwo.2 ⟨f3, by decide, rfl⟩, ok_bind, zz]
      simp [fieldBytes, be_len]
      omega
    | second d w hw f4 =>
      rw [if_pos ((startsWith_one _ _).2 ⟨d, rfl⟩), ok_bind]
      dsimp only
      rw [drop_more, List.drop_zero, if_pos ((startsWith_one _ _).2 ⟨d, rfl⟩)]
      have e : ∀ n : Nat, n + 1 + 0 + 1 = n + 1 + 1 := by omega
      rw [e, drop_more]
      have e' : List.drop 1 (':' :: d) = d := rfl
      rw [e', wholeInt_parse hw, ok_bind]
      dsimp only
      have zz : be 2 (0 : Int).toNat = [0, 0] := by decide
      rw [packTwo.2 ⟨by decide, f4, rfl⟩, ok_bind, zz]
      simp [fieldBytes, be_len]
      omega

theorem ch_exact (key : Key) (v : Str) : ExactOn key .ch .channel v := by
  intro bin l
  constructor
  · rintro ⟨h, hl⟩
    exact ch_exact_fwd key v bin l h hl
  · rintro ⟨p, m, h, rfl, rfl⟩
    exact ⟨ch_exact_bwd key v p m h, rfl⟩

end Ofpstr
