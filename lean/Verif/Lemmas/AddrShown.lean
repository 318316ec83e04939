import Verif.Lemmas.NumShown
import Verif.Lemmas.OxmExact

/-!
# Printed VHT information and IPv6 addresses
-/

namespace Ofpstr
open Spec

set_option linter.unusedSimpArgs false

/-! ## VHT -/

theorem vhtShow_bytes (a b c d e f g i j k l o : UInt8) (r : Bytes) :
    vhtShow ([a, b, c, d, e, f, g, i, j, k, l, o] ++ r) =
      .ok ((if leVal [a, b] > 0 then fmtX 6 (leVal [a, b]) else []) ++ ':' ::
      ((if c.toNat > 0 then fmtX 4 c.toNat else []) ++ ':' :: (fmtD d.toNat ++ ':' ::
      ((if e.toNat + f.toNat + g.toNat + i.toNat != 0 then b2aHex [e, f, g, i] else []) ++
      ':' :: ((if j.toNat > 0 then fmtX 4 j.toNat else []) ++ ':' :: (fmtD k.toNat ++ ':' ::
        fmtX 6 (leVal [l, o]))))))) := by
  have hn : needBytes ([a, b, c, d, e, f, g, i, j, k, l, o] ++ r) 0 vhtSizes.sum = .ok () := by
    unfold needBytes; rw [if_pos (by simp [vhtSizes])]
  have hu : unpackSizesLE vhtSizes ([a, b, c, d, e, f, g, i, j, k, l, o] ++ r) =
      [leVal [a, b], c.toNat, d.toNat, e.toNat, f.toNat, g.toNat, i.toNat, j.toNat, k.toNat, leVal [l, o]] := by
    rw [unpackSizesLE_append vhtSizes _ r (Nat.le_of_eq rfl)]
    simp [vhtSizes, unpackSizesLE, leVal]
  have hhex : fmtHexRaw 2 e.toNat ++ (fmtHexRaw 2 f.toNat ++ (fmtHexRaw 2 g.toNat ++
      fmtHexRaw 2 i.toNat)) = b2aHex [e, f, g, i] := by
    rw [fmtHexRaw_two e, fmtHexRaw_two f, fmtHexRaw_two g, fmtHexRaw_two i]
    simp [b2aHex]
  unfold vhtShow
  rw [hn, hu, ok_bind]
  dsimp only
  rw [hhex]

theorem part_pos (w : Nat) (s : Str) (v : Nat) :
    PartShown (.hex w) s v ↔ s = if v > 0 then fmtX w v else [] := by
  rw [partShown_iff]
  by_cases hv : v = 0
  · simp [hv]
  · have : v > 0 := by omega
    simp [hv, this, styleFmt, fmtI]

theorem users_zero (e f g i : UInt8) :
    (e.toNat + f.toNat + g.toNat + i.toNat != 0) = false ↔ e = 0 ∧ f = 0 ∧ g = 0 ∧ i = 0 := by
  simp only [← UInt8.toNat_inj]
  simp
  omega

theorem le_two (a : Nat) : ∃ x y, le 2 a = [x, y] :=
  ⟨_, _, rfl⟩

theorem vhtShown_sound {s : Str} {p : Bytes} (h : VhtShown s p) :
    p.length = 12 ∧ ∀ r, vhtShow (p ++ r) = .ok s := by
  cases h with
  | mk ta tb tc tu td te tf a f b c m1 m2 m3 m4 d e ha hf h1 h2 h3 h4 h5 h6 h7 =>
    obtain ⟨x, y, hxy⟩ := le_two a
    obtain ⟨z, w, hzw⟩ := le_two f
    have va : leVal [x, y] = a := by rw [← hxy]; exact leVal_le 2 a ha
    have vf : leVal [z, w] = f := by rw [← hzw]; exact leVal_le 2 f hf
    rw [hxy, hzw]
    refine ⟨rfl, fun r => ?_⟩
    have := vhtShow_bytes x y b c m1 m2 m3 m4 d e z w r
    rw [va, vf] at this
    refine this.trans ?_
    rw [← (part_pos _ _ _).1 h1, ← (part_pos _ _ _).1 h2, ← decimal_eq h3, ← (part_pos _ _ _).1 h5,
      ← decimal_eq h6]
    have e7 : tf = fmtX 6 f := (numShown_iff _ _ _).1 h7
    rw [← e7]
    have e4 : tu = if m1.toNat + m2.toNat + m3.toNat + m4.toNat != 0 then b2aHex [m1, m2, m3, m4] else [] := by
      rcases h4 with ⟨z1, z2, z3, z4, rfl⟩ | ⟨hz, h4⟩
      · rw [(users_zero m1 m2 m3 m4).2 ⟨z1, z2, z3, z4⟩]
        simp
      · rw [if_pos, (lowerPairs_iff _ _).1 h4]
        by_contra hc
        exact hz ((users_zero m1 m2 m3 m4).1 (Bool.eq_false_iff.2 hc))
    rw [← e4]

theorem vhtShown_of (b : Bytes) (h : 12 ≤ b.length) : ∃ s, VhtShown s (b.take 12) := by
  have hl : (b.take 12).length = 12 := by simp; omega
  generalize b.take 12 = p at hl
  match p, hl with
  | [x, y, b, c, m1, m2, m3, m4, d, e, z, w], _ =>
    have hxy : le 2 (leVal [x, y]) = [x, y] := by rw [spec_le]; exact leBytes_leVal [x, y]
    have hzw : le 2 (leVal [z, w]) = [z, w] := by rw [spec_le]; exact leBytes_leVal [z, w]
    have key := fun tu h4 => VhtShown.mk _ _ _ tu _ _ _ (leVal [x, y]) (leVal [z, w]) b c m1 m2 m3 m4 d e
      (by simpa using leVal_lt [x, y]) (by simpa using leVal_lt [z, w]) ((part_pos 6 _ _).2 rfl) ((part_pos 4 _ _).2 rfl) (decimal_fmtD _) h4
      ((part_pos 4 _ _).2 rfl) (decimal_fmtD _) ((numShown_iff (.hex 6) _ _).2 rfl)
    rw [hxy, hzw] at key
    by_cases hz : m1 = 0 ∧ m2 = 0 ∧ m3 = 0 ∧ m4 = 0
    · exact ⟨_, key [] (Or.inl ⟨hz.1, hz.2.1, hz.2.2.1, hz.2.2.2, rfl⟩)⟩
    · exact ⟨_, key _ (Or.inr ⟨hz, (lowerPairs_iff _ _).2 rfl⟩)⟩

/-! ## IPv6 -/

theorem joinHex_cons (w x : Nat) (ws : List Nat) :
    joinHex (w :: x :: ws) = fmtHexRaw 0 w ++ ':' :: joinHex (x :: ws) := by
  simp [joinHex, colonHex]

theorem joinHex_one (w : Nat) : joinHex [w] = fmtHexRaw 0 w := by
  simp [joinHex, colonHex]

theorem lowGroups_iff (s : Str) (ws : List Nat) : LowGroups s ws ↔ ws ≠ [] ∧ s = joinHex ws := by
  constructor
  · intro h
    induction h with
    | one s w h => exact ⟨by simp, by rw [joinHex_one, lowerHex_eq h]⟩
    | cons s w t ws h _ ih =>
      obtain ⟨h1, h2⟩ := ih
      refine ⟨by simp, ?_⟩
      match ws, h1 with
      | x :: ws, _ => rw [joinHex_cons, ← h2, lowerHex_eq h]
  · rintro ⟨h, rfl⟩
    induction ws with
    | nil => exact absurd rfl h
    | cons w ws ih =>
      cases ws with
      | nil => rw [joinHex_one]; exact .one _ _ (lowerHex_fmt 0 w)
      | cons x ws => rw [joinHex_cons]; exact .cons _ _ _ _ (lowerHex_fmt 0 w) (ih (by simp))

theorem lowGroups_or (s : Str) (ws : List Nat) : ((s = [] ∧ ws = []) ∨ LowGroups s ws) ↔ s = joinHex ws := by
  rw [lowGroups_iff]
  cases ws with
  | nil => simp [joinHex]
  | cons w ws => simp

/-- The run-finding loop, on a pattern of zero words. -/
def bestPat : Nat → Option (Nat × Nat) → Option (Nat × Nat) → List Bool → Option (Nat × Nat)
  | _, best, cur, [] => betterRun best cur
  | i, best, cur, w :: ws =>
    if w then
      match cur with
      | none => bestPat (i + 1) best (some (i, 1)) ws
      | some (b, l) => bestPat (i + 1) best (some (b, l + 1)) ws
    else bestPat (i + 1) (betterRun best cur) none ws

theorem bestRunGo_pat (ws : List Nat) : ∀ i best cur,
    bestRunGo i best cur ws = bestPat i best cur (ws.map (· == 0)) := by
  induction ws with
  | nil => intro i best cur; rfl
  | cons w ws ih =>
    intro i best cur
    rw [bestRunGo.eq_def, List.map_cons, bestPat.eq_def]
    dsimp only
    split
    · split
      · exact ih _ _ _
      · exact ih _ _ _
    · exact ih _ _ _

def bestPat8 (p : List Bool) : Option (Nat × Nat) :=
  match bestPat 0 none none p with
  | some (b, l) => if l < 2 then none else some (b, l)
  | none => none

theorem bestRun_pat (ws : List Nat) : bestRun ws = bestPat8 (ws.map (· == 0)) := by
  unfold bestRun bestPat8
  rw [bestRunGo_pat]
  rcases bestPat 0 none none (ws.map (· == 0)) with _ | ⟨b, l⟩ <;> rfl

def patZeros (p : List Bool) (i k : Nat) : Bool := (p.drop i).take k == List.replicate k true

theorem zeros_pat (ws : List Nat) (i k : Nat) : Zeros ws i k ↔ patZeros (ws.map (· == 0)) i k = true := by
  unfold Zeros patZeros
  rw [beq_iff_eq, ← List.map_drop, ← List.map_take]
  generalize (ws.drop i).take k = l
  rw [List.eq_replicate_iff, List.eq_replicate_iff]
  simp

/-- What the run-finding loop finds in eight words. -/
def patOk (p : List Bool) : Bool :=
  match bestPat8 p with
  | none => (List.range 9).all fun i => !patZeros p i 2
  | some (b, l) => decide (2 ≤ l) && patZeros p b l && (List.range 9).all fun i => (List.range 9).all fun k =>
      !patZeros p i k || (decide (k ≤ l) && (k != l || decide (b ≤ i)))

theorem patOk_all : ∀ a b c d e f g h : Bool, patOk [a, b, c, d, e, f, g, h] = true := by decide +kernel

theorem zeros_bounds {ws : List Nat} {i k : Nat} (h : Zeros ws i k) : k = 0 ∨ i + k ≤ ws.length := by
  have := congrArg List.length h
  simp at this
  omega

theorem bestRun_spec (ws : List Nat) (hl : ws.length = 8) :
    (bestRun ws = none → ∀ i, ¬ Zeros ws i 2) ∧
    (∀ b l, bestRun ws = some (b, l) → 2 ≤ l ∧ Zeros ws b l ∧ ∀ i k, Zeros ws i k → k ≤ l ∧ (k = l → b ≤ i)) := by
  have hp : patOk (ws.map (· == 0)) = true := by
    match ws, hl with
    | [a, b, c, d, e, f, g, h], _ => exact patOk_all _ _ _ _ _ _ _ _
  rw [bestRun_pat]
  unfold patOk at hp
  constructor
  · intro hn i hz
    rw [hn] at hp
    dsimp only at hp
    have hb := zeros_bounds hz
    have := (List.all_eq_true.1 hp) i (List.mem_range.2 (by omega))
    rw [(zeros_pat _ _ _).1 hz] at this
    simp at this
  · intro b l hs
    rw [hs] at hp
    dsimp only at hp
    rw [Bool.and_eq_true, Bool.and_eq_true] at hp
    obtain ⟨⟨h1, h2⟩, h3⟩ := hp
    have h1 : 2 ≤ l := by simpa using h1
    refine ⟨h1, (zeros_pat _ _ _).2 h2, ?_⟩
    intro i k hz
    have hb := zeros_bounds hz
    rcases hb with rfl | hb
    · exact ⟨by omega, by omega⟩
    · have := (List.all_eq_true.1 ((List.all_eq_true.1 h3) i (List.mem_range.2 (by omega)))) k
        (List.mem_range.2 (by omega))
      rw [(zeros_pat _ _ _).1 hz] at this
      simp at this
      exact ⟨this.1, fun h => by rcases this.2 with h' | h'; · exact absurd h h'
                                 · exact h'⟩

theorem zeros_self (as bs : List Nat) (l : Nat) : Zeros (as ++ List.replicate l 0 ++ bs) as.length l := by
  unfold Zeros
  rw [List.append_assoc, List.drop_left, List.take_left' (by simp)]

/-- The run is determined. -/
theorem bestRun_of (as bs : List Nat) (l : Nat) (hl : as.length + l + bs.length = 8) (h2 : 2 ≤ l)
    (h : ∀ i k, Zeros (as ++ List.replicate l 0 ++ bs) i k → k ≤ l ∧ (k = l → as.length ≤ i)) :
    bestRun (as ++ List.replicate l 0 ++ bs) = some (as.length, l) := by
  have hlen : (as ++ List.replicate l 0 ++ bs).length = 8 := by simp; omega
  obtain ⟨hn, hs⟩ := bestRun_spec _ hlen
  have hself := zeros_self as bs l
  rcases hb : bestRun (as ++ List.replicate l 0 ++ bs) with _ | ⟨b, m⟩
  · exfalso
    apply hn hb as.length
    unfold Zeros at hself ⊢
    have := congrArg (List.take 2) hself
    rwa [List.take_take, Nat.min_eq_left h2, List.take_replicate, Nat.min_eq_left h2] at this
  · obtain ⟨g1, g2, g3⟩ := hs b m hb
    have e1 := g3 _ _ hself
    have e2 := h _ _ g2
    have em : m = l := by omega
    have := e1.2 em.symm
    have := e2.2 em
    rw [em, show b = as.length by omega]

theorem ntop6_none (ws : List Nat) (h : bestRun ws = none) : inetNtop6 ws = joinHex ws := by
  unfold inetNtop6
  rw [h]
  simp [ntop6Go_none]

theorem ntop6_short (as bs : List Nat) (l : Nat) (hl : as.length + l + bs.length = 8) (h2 : 2 ≤ l)
    (hb : bestRun (as ++ List.replicate l 0 ++ bs) = some (as.length, l))
    (hv : as ≠ [] ∨ (bs.length ≠ 2 ∧ ¬ (bs.length = 3 ∧ bs.head? = some 0xffff))) :
    inetNtop6 (as ++ List.replicate l 0 ++ bs) = joinHex as ++ ':' :: ':' :: joinHex bs := by
  unfold inetNtop6
  rw [hb]
  generalize hws : as ++ List.replicate l 0 ++ bs = ws
  have hws' : ws = as ++ (List.replicate l 0 ++ bs) := by rw [← hws, List.append_assoc]
  have hstart : ntop6Go ws (some (as.length, l)) 0 ws =
      joinHex as ++ ':' :: ntop6Go ws (some (as.length, l)) (as.length + l) bs := by
    have h1 : ntop6Go ws (some (as.length, l)) 0 (as ++ (List.replicate l 0 ++ bs)) = _ :=
      ntop6Go_pre ws as.length l as (List.replicate l 0 ++ bs) 0 (by omega)
    rw [← hws'] at h1
    rw [h1, if_pos rfl]
    obtain ⟨k, rfl⟩ : ∃ k, l = k + 1 := ⟨l - 1, by omega⟩
    rw [List.replicate_succ, List.cons_append, ntop6Go,
      ntop6Go_run ws as.length (k + 1) k bs (as.length + 1) (by omega) (by omega)]
    simp
  have hv' : ¬ (as.length = 0 ∧ (l = 6 ∨ (l = 5 ∧ ws.getD 5 0 = 0xffff))) := by
    rintro ⟨h0, h⟩
    have h0 : as = [] := List.length_eq_zero_iff.1 h0
    subst h0
    rcases hv with hv | ⟨v1, v2⟩
    · exact hv rfl
    · simp only [List.length_nil, Nat.zero_add] at hl
      rcases h with h | ⟨h5, hf⟩
      · omega
      · apply v2
        refine ⟨by omega, ?_⟩
        subst h5
        rw [← hws] at hf
        cases bs with
        | nil => simp at hl
        | cons x bs => simpa using hf
  dsimp only
  rw [hstart, ntop6Go_suf ws as.length l bs (as.length + l) (Nat.le_refl _) (by omega) hv']
  cases bs with
  | nil =>
    have : as.length + l = 8 := by simpa using hl
    simp [this, colonHex, joinHex]
  | cons w suf =>
    have : as.length + l ≠ 8 := by simp at hl; omega
    simp [this, colonHex, joinHex]

theorem word_bytes (a b : UInt8) : beBytes 2 (256 * a.toNat + b.toNat) = [a, b] := by
  have ha := a.toNat_lt
  have hb := b.toNat_lt
  rw [beBytes2, show (256 * a.toNat + b.toNat) / 256 = a.toNat by omega]
  congr 1
  · simp
  · congr 1
    apply UInt8.toNat_inj.1
    simp

theorem ntop6_compatible (a b c d : UInt8) (h : (a, b) ≠ (0, 0)) :
    inetNtop6 (List.replicate 6 0 ++ [256 * a.toNat + b.toNat, 256 * c.toNat + d.toNat]) =
      ':' :: ':' :: dotted [a, b, c, d] := by
  have hx : 256 * a.toNat + b.toNat ≠ 0 := by
    intro h0
    apply h
    have h1 : a.toNat = 0 := by omega
    have h2 : b.toNat = 0 := by omega
    rw [UInt8.toNat_inj.1 (h1.trans (by rfl : (0 : Nat) = (0 : UInt8).toNat)),
      UInt8.toNat_inj.1 (h2.trans (by rfl : (0 : Nat) = (0 : UInt8).toNat))]
  have hw1 := word_bytes a b
  have hw2 := word_bytes c d
  generalize 256 * a.toNat + b.toNat = x at *
  generalize 256 * c.toNat + d.toNat = y at *
  have hb : bestRun (List.replicate 6 0 ++ [x, y]) = some (0, 6) := by
    by_cases hy : y = 0
    · simp [bestRun, bestRunGo, betterRun, hx, hy, List.replicate]
    · simp [bestRun, bestRunGo, betterRun, hx, hy, List.replicate]
  unfold inetNtop6
  rw [hb]
  simp [ntop6Go, List.replicate, hw1, hw2]

theorem ntop6_mapped (a b c d : UInt8) :
    inetNtop6 (List.replicate 5 0 ++ [0xffff, 256 * a.toNat + b.toNat, 256 * c.toNat + d.toNat]) =
      t!"::ffff:" ++ dotted [a, b, c, d] := by
  have hw1 := word_bytes a b
  have hw2 := word_bytes c d
  generalize 256 * a.toNat + b.toNat = x at *
  generalize 256 * c.toNat + d.toNat = y at *
  have hb : bestRun (List.replicate 5 0 ++ [0xffff, x, y]) = some (0, 5) := by
    by_cases hx : x = 0 <;> by_cases hy : y = 0 <;>
      simp [bestRun, bestRunGo, betterRun, hx, hy, List.replicate]
  have hf : fmtHexRaw 0 65535 = t!"ffff" := by decide +kernel
  unfold inetNtop6
  rw [hb]
  simp [ntop6Go, List.replicate, hw1, hw2, hf]

theorem ntop6_sound {s : Str} {ws : List Nat} (h : Ntop6 s ws) : ws.length = 8 ∧ inetNtop6 ws = s := by
  cases h with
  | full _ _ h1 h2 h3 =>
    refine ⟨h1, ?_⟩
    have hn : bestRun ws = none := by
      rcases hb : bestRun ws with _ | ⟨b, l⟩
      · rfl
      · obtain ⟨g1, g2, _⟩ := (bestRun_spec ws h1).2 b l hb
        exfalso
        apply h2 b
        unfold Zeros at g2 ⊢
        have := congrArg (List.take 2) g2
        rwa [List.take_take, Nat.min_eq_left g1, List.take_replicate, Nat.min_eq_left g1] at this
    rw [ntop6_none _ hn, ← ((lowGroups_iff _ _).1 h3).2]
  | short s t as bs l h1 h2 h3 h4 h5 h6 =>
    refine ⟨by simp; omega, ?_⟩
    rw [ntop6_short as bs l h1 h2 (bestRun_of as bs l h1 h2 h3) h4, (lowGroups_or _ _).1 h5, (lowGroups_or _ _).1 h6]
  | compatible s a b c d h1 h2 =>
    refine ⟨rfl, ?_⟩
    rw [ntop6_compatible a b c d h2, (quad_dotted h1).1]
    rfl
  | mapped s a b c d h1 =>
    refine ⟨rfl, ?_⟩
    rw [ntop6_mapped a b c d, (quad_dotted h1).1]

theorem word_split (w : Nat) (h : w < 65536) : ∃ a b : UInt8, w = 256 * a.toNat + b.toNat := by
  refine ⟨UInt8.ofNat (w / 256), UInt8.ofNat (w % 256), ?_⟩
  simp
  omega

theorem ntop6_exists (ws : List Nat) (hl : ws.length = 8) (hw : ∀ w ∈ ws, w < 65536) : ∃ s, Ntop6 s ws := by
  rcases hb : bestRun ws with _ | ⟨b, l⟩
  · refine ⟨joinHex ws, .full _ _ hl ((bestRun_spec ws hl).1 hb) ((lowGroups_iff _ _).2 ⟨?_, rfl⟩)⟩
    rintro rfl
    simp at hl
  · obtain ⟨g1, g2, g3⟩ := (bestRun_spec ws hl).2 b l hb
    have hbnd : b + l ≤ 8 := by
      have := zeros_bounds g2
      omega
    have hws : ws = ws.take b ++ List.replicate l 0 ++ ws.drop (b + l) := by
      have : (ws.drop b).take l ++ (ws.drop b).drop l = ws.drop b := List.take_append_drop l _
      rw [g2, List.drop_drop] at this
      rw [List.append_assoc, this, List.take_append_drop]
    generalize has : ws.take b = as at hws
    generalize hbs : ws.drop (b + l) = bs at hws
    have ha : as.length = b := by rw [← has]; simp; omega
    have hbl : bs.length = 8 - (b + l) := by rw [← hbs]; simp [hl]
    subst hws
    by_cases hv : as ≠ [] ∨ (bs.length ≠ 2 ∧ ¬ (bs.length = 3 ∧ bs.head? = some 0xffff))
    · exact ⟨_, .short _ _ as bs l (by omega) g1 (by rw [ha]; exact g3) hv ((lowGroups_or _ _).2 rfl)
        ((lowGroups_or _ _).2 rfl)⟩
    · rw [not_or, not_not] at hv
      obtain ⟨rfl, hv⟩ := hv
      simp only [List.length_nil] at ha
      by_cases hb2 : bs.length = 2
      · obtain ⟨x, y, rfl⟩ := List.length_eq_two.1 hb2
        obtain rfl : l = 6 := by omega
        obtain ⟨a, b', rfl⟩ := word_split x (hw x (by simp))
        obtain ⟨c, d, rfl⟩ := word_split y (hw y (by simp))
        refine ⟨_, .compatible _ a b' c d (quad_exists _ rfl) ?_⟩
        rintro hab
        cases hab
        have := (g3 0 7 (by unfold Zeros; rfl)).1
        omega
      · have h3 : bs.length = 3 ∧ bs.head? = some 0xffff := by
          by_contra hc
          exact hv ⟨hb2, hc⟩
        obtain ⟨x, y, z, rfl⟩ := List.length_eq_three.1 h3.1
        obtain rfl : l = 5 := by have := h3.1; omega
        have hx : x = 0xffff := by simpa using h3.2
        subst hx
        obtain ⟨a, b', rfl⟩ := word_split y (hw y (by simp))
        obtain ⟨c, d, rfl⟩ := word_split z (hw z (by simp))
        exact ⟨_, .mapped _ a b' c d (quad_exists _ rfl)⟩

theorem words16_flat (ws : List Nat) (h : ∀ w ∈ ws, w < 65536) : words16 (ws.flatMap (be 2)) = ws := by
  induction ws with
  | nil => rfl
  | cons w ws ih =>
    rw [List.flatMap_cons, spec_be, beBytes2]
    show _ :: words16 (ws.flatMap (be 2)) = _
    rw [ih (fun x hx => h x (by simp [hx]))]
    congr 1
    have := h w (by simp)
    exact word_join w this

theorem ipv6Shown_iff (s : Str) (b : Bytes) : Ipv6Shown s b ↔ b.length = 16 ∧ s = inetNtop6 (words16 b) := by
  constructor
  · rintro ⟨ws, h1, h2, rfl⟩
    obtain ⟨g1, g2⟩ := ntop6_sound h2
    refine ⟨?_, by rw [words16_flat ws h1, g2]⟩
    have : ∀ ws : List Nat, (ws.flatMap (be 2)).length = 2 * ws.length := by
      intro ws
      induction ws with
      | nil => rfl
      | cons w ws ih => rw [List.flatMap_cons, List.length_append, ih, spec_be, beBytes_length]; simp; omega
    rw [this, g1]
  · rintro ⟨hl, rfl⟩
    obtain ⟨h1, h2, h3⟩ := words16_spec 8 b hl
    obtain ⟨s, hs⟩ := ntop6_exists _ h1 h2
    refine ⟨words16 b, h2, ?_, ?_⟩
    · rw [(ntop6_sound hs).2]
      exact hs
    · rw [show be 2 = beBytes 2 from funext fun n => spec_be 2 n, h3]

end Ofpstr
