import Verif.Lemmas.ValueParts

/-!
# Exactly which texts are values: lists of numbers, bytes, rates
-/

set_option linter.unusedSimpArgs false

namespace Ofpstr
open Spec

/-- Value and mask split at the first `/`. -/
theorem split_iff {d dm : Str → Py Bytes} {F : Bytes → Bytes → Bytes × Nat} {G : Bytes → Bytes × Nat}
    {P Q : Str → Bytes → Prop} (hP : ∀ s p, P s p ↔ '/' ∉ s ∧ d s = .ok p) (hQ : ∀ s p, Q s p ↔ dm s = .ok p)
    (txt : Str) (x : Bytes × Nat) :
    (match split1 '/' txt with
      | (v, m) => d v >>= fun p => match m with
        | some m => dm m >>= fun q => .ok (F p q)
        | none => .ok (G p)) = .ok x ↔
    (∃ p, P txt p ∧ x = G p) ∨ ∃ a b p q, txt = a ++ '/' :: b ∧ P a p ∧ Q b q ∧ x = F p q := by
  rcases hs : split1 '/' txt with ⟨v, m⟩
  dsimp only
  have hi := split1_inv hs
  have hv : '/' ∉ v := fun h => hi.1 _ h rfl
  constructor
  · intro h
    obtain ⟨p, h1, h⟩ := bind_ok h
    cases m with
    | none =>
      cases h
      rw [show txt = v from hi.2]
      exact Or.inl ⟨p, (hP _ _).2 ⟨hv, h1⟩, rfl⟩
    | some m =>
      obtain ⟨q, h2, h⟩ := bind_ok h
      cases h
      exact Or.inr ⟨v, m, p, q, hi.2, (hP _ _).2 ⟨hv, h1⟩, (hQ _ _).2 h2, rfl⟩
  · rintro (⟨p, h1, rfl⟩ | ⟨a, b, p, q, rfl, h1, h2, rfl⟩)
    · obtain ⟨h3, h4⟩ := (hP _ _).1 h1
      rw [split1_none '/' txt (fun c hc he => h3 (he ▸ hc))] at hs
      cases hs
      rw [h4, ok_bind]
    · obtain ⟨h3, h4⟩ := (hP _ _).1 h1
      rw [split1_some '/' a b (fun c hc he => h3 (he ▸ hc))] at hs
      cases hs
      rw [h4, ok_bind]
      dsimp only
      rw [(hQ _ _).1 h2, ok_bind]

/-! ## Lists of numbers -/

theorem packLE_iff (n : Nat) (v : Int) (b : Bytes) : packLE n v = .ok b ↔ FitsIn n v ∧ b = le n v.toNat := by
  unfold packLE FitsIn
  rw [spec_le]
  have : ((256 ^ n : Nat) : Int) = 256 ^ n := by push_cast; rfl
  rw [this]
  split
  · rename_i h
    constructor
    · intro h'; cases h'; exact ⟨h, rfl⟩
    · rintro ⟨_, rfl⟩; rfl
  · rename_i h
    constructor
    · intro h'; cases h'
    · rintro ⟨h', _⟩; exact absurd h' h

theorem packSizesLE_iff (sizes : List Nat) (ps : List Int) (b : Bytes) :
    packSizesLE sizes ps = .ok b ↔ LeBytes sizes ps b := by
  constructor
  · intro h
    induction sizes generalizing ps b with
    | nil =>
      cases ps with
      | nil => cases h; exact .nil
      | cons p ps => cases h
    | cons n ns ih =>
      cases ps with
      | nil => cases h
      | cons p ps =>
        rw [packSizesLE] at h
        obtain ⟨a, h1, h⟩ := bind_ok h
        obtain ⟨c, h2, h⟩ := bind_ok h
        cases h
        obtain ⟨h3, rfl⟩ := (packLE_iff _ _ _).1 h1
        exact LeBytes.cons n p ns ps c h3 (ih _ _ h2)
  · intro h
    induction h with
    | nil => rfl
    | cons n v ns vs p h1 _ ih =>
      rw [packSizesLE, (packLE_iff _ _ _).2 ⟨h1, rfl⟩, ok_bind, ih, ok_bind]

theorem part_sep {s : Str} {v : Int} (h : Part s v) : ∀ c ∈ s, c ≠ '/' ∧ c ≠ ':' := by
  rcases h with ⟨rfl, _⟩ | h
  · simp
  · exact (intSyntax_clean h).2.2

theorem compNums_cons (t : Str) (ts : List Str) (ps : List Int) :
    compNums (t :: ts) = .ok ps ↔ ∃ v vs, Part t v ∧ compNums ts = .ok vs ∧ ps = v :: vs := by
  rw [compNums]
  cases t with
  | nil =>
    rw [if_pos (by rfl)]
    constructor
    · intro h
      obtain ⟨r, h1, h⟩ := bind_ok h
      cases h
      exact ⟨0, r, Or.inl ⟨rfl, rfl⟩, h1, rfl⟩
    · rintro ⟨v, vs, h1, h2, rfl⟩
      rcases h1 with ⟨_, rfl⟩ | h1
      · rw [h2, ok_bind]
      · exact absurd rfl (intSyntax_clean h1).2.1
  | cons c t =>
    rw [if_neg (by simp)]
    constructor
    · intro h
      obtain ⟨⟨v, l⟩, h1, h⟩ := bind_ok h
      obtain ⟨_, h2, h⟩ := bind_ok h
      obtain ⟨r, h3, h⟩ := bind_ok h
      cases h
      have hl := beq_iff_eq.1 (pyAssert_inv h2)
      refine ⟨v, r, Or.inr ?_, h3, rfl⟩
      have := (parseInt_iff _ _ _).1 h1
      rw [show l = (c :: t).length from hl.symm] at this
      exact this
    · rintro ⟨v, vs, h1, h2, rfl⟩
      rcases h1 with ⟨h, _⟩ | h1
      · cases h
      · rw [wholeInt_parse h1, ok_bind]
        dsimp only
        rw [beq_self_eq_true, pyAssert_ok, ok_bind, h2, ok_bind]

theorem compCollect_eq (sizes : List Nat) (s : Str) (p : Bytes) : compCollect sizes s = .ok p ↔
    ∃ ps, compNums (splitAll ':' s) = .ok ps ∧ LeBytes sizes ps p := by
  unfold compCollect
  constructor
  · intro h
    obtain ⟨ps, h1, h⟩ := bind_ok h
    exact ⟨ps, h1, (packSizesLE_iff _ _ _).1 h⟩
  · rintro ⟨ps, h1, h2⟩
    rw [h1, ok_bind, (packSizesLE_iff _ _ _).2 h2]

theorem compNums_nonempty {ts : List Str} {ps : List Int} (h : compNums ts = .ok ps) : ps.length = ts.length := by
  induction ts generalizing ps with
  | nil => cases h; rfl
  | cons t ts ih =>
    obtain ⟨v, vs, _, h2, rfl⟩ := (compNums_cons _ _ _).1 h
    simp [ih h2]

theorem leBytes_count {sizes : List Nat} {ps : List Int} {p : Bytes} (h : LeBytes sizes ps p) :
    ps.length = sizes.length := by
  induction h with
  | nil => rfl
  | cons n v ns vs p _ _ ih => simp [ih]

theorem compCollect_iff (sizes : List Nat) (s : Str) (p : Bytes) :
    compCollect sizes s = .ok p ↔ PartsValue sizes s p := by
  rw [compCollect_eq]
  constructor
  · rintro ⟨ps, h1, h2⟩
    induction sizes generalizing s ps p with
    | nil =>
      have := leBytes_count h2
      rw [compNums_nonempty h1] at this
      exact absurd (List.length_eq_zero_iff.1 (by simpa using this)) (splitAll_ne_nil ':' s)
    | cons n ns ih =>
      rcases hs : splitAll ':' s with _ | ⟨t, ts⟩
      · exact absurd hs (splitAll_ne_nil ':' s)
      · rw [hs] at h1
        obtain ⟨v, vs, h3, h4, rfl⟩ := (compNums_cons _ _ _).1 h1
        obtain ⟨_, h6⟩ := splitAll_inv ':' s t ts hs
        cases h2 with
        | cons _ _ _ _ q hf hq =>
          rcases h6 with ⟨rfl, rfl⟩ | ⟨u, rfl, rfl⟩
          · cases h4
            cases hq
            simpa using PartsValue.one n s v h3 hf
          · exact PartsValue.cons n t v ns u q h3 hf (ih u q vs h4 hq)
  · intro h
    induction h with
    | one n s v h1 h2 =>
      refine ⟨[v], ?_, by simpa using LeBytes.cons n v [] [] [] h2 .nil⟩
      rw [splitAll_none ':' s (fun c hc => (part_sep h1 c hc).2), compNums_cons]
      exact ⟨v, [], h1, rfl, rfl⟩
    | cons n s v ns t p h1 h2 _ ih =>
      obtain ⟨ps, h3, h4⟩ := ih
      refine ⟨v :: ps, ?_, LeBytes.cons n v ns ps p h2 h4⟩
      rw [splitAll_some ':' s t (fun c hc => (part_sep h1 c hc).2), compNums_cons]
      exact ⟨v, ps, h1, h3, rfl⟩

theorem parts_facts {sizes : List Nat} {s : Str} {p : Bytes} (h : PartsValue sizes s p) :
    '/' ∉ s ∧ p.length = sizes.sum := by
  induction h with
  | one n s v h1 _ => exact ⟨fun h => (part_sep h1 _ h).1 rfl, by simp [le_len]⟩
  | cons n s v ns t p h1 _ _ ih =>
    refine ⟨?_, by simp [le_len, ih.2]⟩
    simp only [List.mem_append, List.mem_cons, not_or]
    exact ⟨fun h => (part_sep h1 _ h).1 rfl, by decide, ih.1⟩

theorem comp_exact (key : Key) (sizes : List Nat) (v : Str) (hg : getToken v = ([], v, [])) :
    ExactOn key (.comp sizes) (.parts sizes) v := by
  intro bin l
  have key' := split_iff (d := compCollect sizes) (dm := compCollect sizes)
    (F := fun p q => (header key sizes.sum true ++ (p ++ q), 0 + v.length))
    (G := fun p => (header key sizes.sum false ++ p, 0 + v.length))
    (P := PartsValue sizes) (Q := PartsValue sizes)
    (fun s p => ⟨fun h => ⟨(parts_facts h).1, (compCollect_iff _ _ _).2 h⟩, fun h => (compCollect_iff _ _ _).1 h.2⟩)
    (fun s p => (compCollect_iff _ _ _).symm) v (bin, l)
  show (compStr2bin key sizes v = _ ∧ _) ↔ ∃ p m, Masked (PartsValue sizes) (PartsValue sizes) v p m ∧ _
  unfold compStr2bin
  rw [hg]
  refine (Iff.and key' Iff.rfl).trans ?_
  constructor
  · rintro ⟨⟨p, h1, h2⟩ | ⟨a, b, p, q, rfl, h1, h2, h3⟩, hl⟩
    · cases h2
      exact ⟨p, none, .plain _ _ h1, hl, by simp [fieldBytes, (parts_facts h1).2]⟩
    · cases h3
      exact ⟨p, some q, .mask _ _ _ _ h1 h2, hl, by simp [fieldBytes, (parts_facts h1).2]⟩
  · rintro ⟨p, m, h, rfl, rfl⟩
    refine ⟨?_, rfl⟩
    cases h with
    | plain _ _ h1 => exact Or.inl ⟨p, h1, by simp [fieldBytes, (parts_facts h1).2]⟩
    | mask a b _ q h1 h2 =>
      exact Or.inr ⟨a, b, p, q, rfl, h1, h2, by simp [fieldBytes, (parts_facts h1).2]⟩

/-! ## VHT -/

theorem loose_iff (t : Str) (v : Int) : LoosePart t v ↔ (t = [] ∧ v = 0) ∨ (t ≠ [] ∧ ∃ l, parseInt t = .ok (v, l)) := by
  unfold LoosePart
  constructor
  · rintro (h | ⟨l, h⟩)
    · exact Or.inl h
    · refine Or.inr ⟨?_, l, (parseInt_iff _ _ _).2 h⟩
      rintro rfl
      obtain ⟨c, r, h, _⟩ := intSyntax_start h
      cases h
  · rintro (h | ⟨_, l, h⟩)
    · exact Or.inl h
    · exact Or.inr ⟨l, (parseInt_iff _ _ _).1 h⟩

theorem vhtNums_cons (i : Nat) (hi : i ≠ 3) (t : Str) (ts : List Str) (ps : List Int) :
    vhtNums i (t :: ts) = .ok ps ↔ ∃ v vs, LoosePart t v ∧ vhtNums (i + 1) ts = .ok vs ∧ ps = v :: vs := by
  rw [vhtNums, if_neg (by simpa using hi)]
  cases t with
  | nil =>
    rw [if_pos (by rfl)]
    constructor
    · intro h
      obtain ⟨r, h1, h⟩ := bind_ok h
      cases h
      exact ⟨0, r, Or.inl ⟨rfl, rfl⟩, h1, rfl⟩
    · rintro ⟨v, vs, h1, h2, rfl⟩
      rcases (loose_iff _ _).1 h1 with ⟨_, rfl⟩ | ⟨h, _⟩
      · rw [h2, ok_bind]
      · exact absurd rfl h
  | cons c t =>
    rw [if_neg (by simp)]
    constructor
    · intro h
      obtain ⟨⟨v, l⟩, h1, h⟩ := bind_ok h
      obtain ⟨r, h3, h⟩ := bind_ok h
      cases h
      exact ⟨v, r, (loose_iff _ _).2 (Or.inr ⟨by simp, l, h1⟩), h3, rfl⟩
    · rintro ⟨v, vs, h1, h2, rfl⟩
      rcases (loose_iff _ _).1 h1 with ⟨h, _⟩ | ⟨_, l, h1⟩
      · cases h
      · rw [h1, ok_bind]
        dsimp only
        rw [h2, ok_bind]

theorem vhtNums_three (t : Str) (ts : List Str) (ps : List Int) :
    vhtNums 3 (t :: ts) = .ok ps ↔
      ∃ b vs, HexText t b ∧ vhtNums 4 ts = .ok vs ∧ ps = (b.map fun x => (x.toNat : Int)) ++ vs := by
  rw [vhtNums, if_pos (by rfl)]
  constructor
  · intro h
    obtain ⟨b, h1, h⟩ := bind_ok h
    obtain ⟨r, h2, h⟩ := bind_ok h
    cases h
    exact ⟨b, r, a2b_hexText _ _ h1, h2, rfl⟩
  · rintro ⟨b, vs, h1, h2, rfl⟩
    rw [(hexText_a2b h1).1, ok_bind, h2, ok_bind]

theorem vhtNums_rest (i : Nat) (hi : 4 ≤ i) (ts : List Str) (ps : List Int) :
    vhtNums i ts = .ok ps ↔ LooseParts ts ps := by
  constructor
  · intro h
    induction ts generalizing i ps with
    | nil => cases h; exact .nil
    | cons t ts ih =>
      obtain ⟨v, vs, h1, h2, rfl⟩ := (vhtNums_cons i (by omega) _ _ _).1 h
      exact .cons _ _ _ _ h1 (ih (i + 1) (by omega) _ h2)
  · intro h
    induction h generalizing i with
    | nil => rfl
    | cons t v ts vs h1 _ ih => exact (vhtNums_cons i (by omega) _ _ _).2 ⟨v, vs, h1, ih (i + 1) (by omega), rfl⟩

theorem splitAll_eq (c : Char) (s : Str) (ts : List Str) (h : splitAll c s = ts) :
    (∀ t ∈ ts, c ∉ t) ∧ s = joinStr [c] ts := by
  induction ts generalizing s with
  | nil => exact absurd h (splitAll_ne_nil c s)
  | cons t ts ih =>
    obtain ⟨h1, h2⟩ := splitAll_inv c s t ts h
    rcases h2 with ⟨rfl, rfl⟩ | ⟨u, rfl, h3⟩
    · exact ⟨by simpa using h1, rfl⟩
    · obtain ⟨h4, h5⟩ := ih u h3.symm
      refine ⟨by intro x hx; rcases List.mem_cons.1 hx with rfl | hx; exact h1; exact h4 x hx, ?_⟩
      cases ts with
      | nil => exact absurd h3.symm (splitAll_ne_nil c u)
      | cons t' ts => rw [joinStr, ← h5]; simp

theorem vhtCollect_iff (s : Str) (p : Bytes) : vhtCollect s = .ok p ↔ VhtValue s p := by
  unfold vhtCollect
  constructor
  · intro h
    obtain ⟨ps, h1, h2⟩ := bind_ok h
    have h3 := (packSizesLE_iff _ _ _).1 h2
    have hlen : ps.length = 10 := leBytes_count h3
    obtain ⟨hc, hs⟩ := splitAll_eq ':' s _ rfl
    generalize splitAll ':' s = ts at h1 hc hs
    match ts, h1 with
    | [], h1 => cases h1; simp at hlen
    | [t1], h1 =>
      obtain ⟨v1, q1, p1, g1, rfl⟩ := (vhtNums_cons 0 (by omega) _ _ _).1 h1
      cases g1
      simp at hlen
    | [t1, t2], h1 =>
      obtain ⟨v1, q1, p1, g1, rfl⟩ := (vhtNums_cons 0 (by omega) _ _ _).1 h1
      obtain ⟨v2, q2, p2, g2, rfl⟩ := (vhtNums_cons 1 (by omega) _ _ _).1 g1
      cases g2
      simp at hlen
    | [t1, t2, t3], h1 =>
      obtain ⟨v1, q1, p1, g1, rfl⟩ := (vhtNums_cons 0 (by omega) _ _ _).1 h1
      obtain ⟨v2, q2, p2, g2, rfl⟩ := (vhtNums_cons 1 (by omega) _ _ _).1 g1
      obtain ⟨v3, q3, p3, g3, rfl⟩ := (vhtNums_cons 2 (by omega) _ _ _).1 g2
      cases g3
      simp at hlen
    | t1 :: t2 :: t3 :: t4 :: us, h1 =>
      obtain ⟨v1, q1, p1, g1, rfl⟩ := (vhtNums_cons 0 (by omega) _ _ _).1 h1
      obtain ⟨v2, q2, p2, g2, rfl⟩ := (vhtNums_cons 1 (by omega) _ _ _).1 g1
      obtain ⟨v3, q3, p3, g3, rfl⟩ := (vhtNums_cons 2 (by omega) _ _ _).1 g2
      obtain ⟨b, vs, p4, g4, rfl⟩ := (vhtNums_three _ _ _).1 g3
      exact VhtValue.mk s t1 t2 t3 t4 v1 v2 v3 b us vs p hc hs p1 p2 p3 p4
        ((vhtNums_rest 4 (by omega) _ _).1 g4) h3
  · rintro ⟨t1, t2, t3, h, v1, v2, v3, b, us, vs, _, hc, rfl, p1, p2, p3, p4, p5, h3⟩
    have hs := splitAll_join ':' (t1 :: t2 :: t3 :: h :: us) (by simp)
      (fun t ht x hx he => hc t ht (he ▸ hx))
    rw [hs, (vhtNums_cons 0 (by omega) _ _ _).2 ⟨v1, _, p1, (vhtNums_cons 1 (by omega) _ _ _).2 ⟨v2, _, p2,
      (vhtNums_cons 2 (by omega) _ _ _).2 ⟨v3, _, p3, (vhtNums_three _ _ _).2 ⟨b, vs, p4,
        (vhtNums_rest 4 (by omega) _ _).2 p5, rfl⟩, rfl⟩, rfl⟩, rfl⟩, ok_bind]
    exact (packSizesLE_iff _ _ _).2 h3

theorem leBytes_size {sizes : List Nat} {ps : List Int} {p : Bytes} (h : LeBytes sizes ps p) :
    p.length = sizes.sum := by
  induction h with
  | nil => rfl
  | cons n v ns vs p _ _ ih => simp [le_len, ih]

theorem vht_len {s : Str} {p : Bytes} (h : VhtValue s p) : p.length = vhtSizes.sum := by
  obtain ⟨t1, t2, t3, h, v1, v2, v3, b, us, vs, _, hc, _, p1, p2, p3, p4, p5, h3⟩ := h
  exact leBytes_size h3

theorem vht_exact (key : Key) (v : Str) (hg : getToken v = ([], v, [])) : ExactOn key .vht .vht v := by
  intro bin l
  have key' := split_iff (d := vhtCollect) (dm := vhtCollect)
    (F := fun p q => (header key vhtSizes.sum true ++ (p ++ q), 0 + v.length))
    (G := fun p => (header key vhtSizes.sum false ++ p, 0 + v.length))
    (P := fun s p => '/' ∉ s ∧ VhtValue s p) (Q := VhtValue)
    (fun s p => by rw [vhtCollect_iff])
    (fun s p => (vhtCollect_iff _ _).symm) v (bin, l)
  show (vhtStr2bin key v = _ ∧ _) ↔ ∃ p m, Masked (fun s p => '/' ∉ s ∧ VhtValue s p) VhtValue v p m ∧ _
  unfold vhtStr2bin
  rw [hg]
  refine (Iff.and key' Iff.rfl).trans ?_
  constructor
  · rintro ⟨⟨p, h1, h2⟩ | ⟨a, b, p, q, rfl, h1, h2, h3⟩, hl⟩
    · cases h2
      exact ⟨p, none, .plain _ _ h1, hl, by simp [fieldBytes, vht_len h1.2]⟩
    · cases h3
      exact ⟨p, some q, .mask _ _ _ _ h1 h2, hl, by simp [fieldBytes, vht_len h1.2]⟩
  · rintro ⟨p, m, h, rfl, rfl⟩
    refine ⟨?_, rfl⟩
    cases h with
    | plain _ _ h1 => exact Or.inl ⟨p, h1, by simp [fieldBytes, vht_len h1.2]⟩
    | mask a b _ q h1 h2 =>
      exact Or.inr ⟨a, b, p, q, rfl, h1, h2, by simp [fieldBytes, vht_len h1.2]⟩

/-! ## Bytes -/

theorem hexText_iff (s : Str) (b : Bytes) : HexText s b ↔ a2bHex s = .ok b :=
  ⟨fun h => (hexText_a2b h).1, a2b_hexText s b⟩

theorem hexText_noslash {s : Str} {b : Bytes} (h : HexText s b) : '/' ∉ s := by
  intro hc
  have := (hexText_a2b h).2.1 _ hc
  revert this; decide

theorem padMask_eq (p q : Bytes) : padMask p q = ((p ++ pad (q.length - p.length)) ++ (q ++ pad (p.length - q.length)),
    (p ++ pad (q.length - p.length)).length) := by
  unfold padMask zeros pad
  dsimp only
  split
  · rename_i h
    have e1 : max q.length p.length - min q.length p.length = q.length - p.length := by omega
    have e2 : p.length - q.length = 0 := by omega
    rw [e1, e2]
    simp
    omega
  · rename_i h
    have e1 : max q.length p.length - min q.length p.length = p.length - q.length := by omega
    have e2 : q.length - p.length = 0 := by omega
    rw [e1, e2]
    simp

theorem hex_exact (key : Key) (v : Str) (hg : getToken v = ([], v, [])) : ExactOn key .hex .bytes v := by
  intro bin l
  have key' := split_iff (d := a2bHex) (dm := a2bHex)
    (F := fun p q => (header key (padMask p q).2 true ++ (padMask p q).1, 0 + v.length))
    (G := fun p => (header key p.length false ++ p, 0 + v.length))
    (P := HexText) (Q := HexText)
    (fun s p => ⟨fun h => ⟨hexText_noslash h, (hexText_iff _ _).1 h⟩, fun h => (hexText_iff _ _).2 h.2⟩)
    (fun s p => hexText_iff _ _) v (bin, l)
  show (hexStr2bin key v = _ ∧ _) ↔ ∃ p m, Filled HexText HexText v p m ∧ _
  unfold hexStr2bin
  rw [hg]
  refine (Iff.and key' Iff.rfl).trans ?_
  constructor
  · rintro ⟨⟨p, h1, h2⟩ | ⟨a, b, p, q, rfl, h1, h2, h3⟩, hl⟩
    · cases h2
      exact ⟨p, none, .plain _ _ h1, hl, by simp [fieldBytes]⟩
    · cases h3
      exact ⟨_, _, .mask a b p q h1 h2, hl, by simp [fieldBytes, padMask_eq]⟩
  · rintro ⟨p, m, h, rfl, rfl⟩
    refine ⟨?_, rfl⟩
    cases h with
    | plain _ _ h1 => exact Or.inl ⟨p, h1, by simp [fieldBytes]⟩
    | mask a b p' q h1 h2 =>
      exact Or.inr ⟨a, b, p', q, rfl, h1, h2, by simp [fieldBytes, padMask_eq]⟩

end Ofpstr
