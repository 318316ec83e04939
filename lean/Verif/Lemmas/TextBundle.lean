import Verif.Lemmas.TextNx

/-!
# Exactly which arguments `multipath`, `bundle`, `bundle_load` and `output_reg` take
-/

set_option linter.unusedSimpArgs false

namespace Ofpstr
open Spec

theorem words_cons {u t : Str} {ts : List Str} {r : Str} : Words u (t :: ts) r ↔ ∃ h u', getToken u = (h, t, u') ∧ Words u' ts r := by
  constructor
  · intro h
    cases h with
    | cons _ h _ u' _ _ h1 h2 => exact ⟨h, u', tok_get h1, h2⟩
  · rintro ⟨h, u', h1, h2⟩
    exact .cons u h t u' ts r (eq_tok h1) h2

theorem words_nil {u r : Str} : Words u [] r ↔ u = r := by
  constructor
  · intro h; cases h; rfl
  · rintro rfl; exact .nil _

/-! ## `multipath` -/

theorem multipath_made : NxMade t!"multipath" multipathRaw := by
  intro u eq bin n
  unfold multipathRaw rawArg
  cases eq with
  | true =>
    rw [if_pos rfl]
    constructor
    · intro h; cases h
    · rintro ⟨t, body, ⟨r', h, rfl⟩, rfl⟩
      generalize hn : t!"multipath" = name at h
      generalize ht : true = eq at h
      cases h <;> nx_other hn
      cases ht
  | false =>
    rw [if_neg (by decide)]
    rcases g1 : getToken u with ⟨h1, t1, u1⟩
    rcases g2 : getToken u1 with ⟨h2, t2, u2⟩
    rcases g3 : getToken u2 with ⟨h3, t3, u3⟩
    rcases g4 : getToken u3 with ⟨h4, t4, u4⟩
    rcases g5 : getToken u4 with ⟨h5, t5, u5⟩
    rcases g6 : getToken u5 with ⟨h6, t6, u6⟩
    have hw : Words u [t1, t2, t3, t4, t5, t6] u6 := by
      simp only [words_cons, words_nil]
      exact ⟨_, _, g1, _, _, g2, _, _, g3, _, _, g4, _, _, g5, _, _, g6, rfl⟩
    dsimp only
    simp only [g1, g2, g3, g4, g5, g6]
    constructor
    · intro h
      obtain ⟨mh, k1, h⟩ := bind_iff.1 h
      obtain ⟨⟨bs, l1⟩, k2, h⟩ := bind_iff.1 h
      obtain ⟨⟨⟩, k3, h⟩ := bind_iff.1 h
      obtain ⟨ma, k4, h⟩ := bind_iff.1 h
      obtain ⟨⟨ml, l2⟩, k5, h⟩ := bind_iff.1 h
      obtain ⟨⟨⟩, k6, h⟩ := bind_iff.1 h
      obtain ⟨⟨ar, l3⟩, k7, h⟩ := bind_iff.1 h
      obtain ⟨⟨id, s, nb, j⟩, k8, h⟩ := bind_iff.1 h
      obtain ⟨⟨⟩, k9, h⟩ := bind_iff.1 h
      obtain ⟨x, k10, h⟩ := bind_iff.1 h
      obtain ⟨y, k11, h⟩ := bind_iff.1 h
      obtain ⟨z, k12, h⟩ := bind_iff.1 h
      cases h
      obtain ⟨i, e1, rfl⟩ := (hash_iff _ _).1 k1
      obtain ⟨k, e4, rfl⟩ := (mpAlg_iff _ _).1 k4
      have e2 := (parseInt_iff _ _ _).1 k2
      have e5 := (parseInt_iff _ _ _).1 k5
      have e3 := pyAssert_inv k3
      have e6 := pyAssert_inv k6
      have e9 := pyAssert_inv k9
      rw [beq_iff_eq] at e3 e6
      dsimp only at e3 e6 e9
      rw [e3] at e2
      rw [e6] at e5
      have e9 : j = [] := by simpa using e9
      rw [e9] at k8
      obtain ⟨f, lim, e8, rfl, rfl⟩ := (getBits_iff _ _ _ _ _).1 k8
      have e12 := (packU_packed _ _ _).1 k12
      rw [Int.mul_comm] at e12
      exact ⟨10, _, ⟨u6, .multipath u t1 t2 t3 t4 t5 t6 u6 i k bs ml ar l3 f s lim x y z hw e1 e2 e4 e5
        ((parseInt_iff _ _ _).1 k7) e8 ((packed_iff _ _).1 k10) ((packed_iff _ _).1 k11) e12, rfl⟩, rfl⟩
    · rintro ⟨t, body, ⟨r', h, rfl⟩, rfl⟩
      generalize hn : t!"multipath" = name at h
      generalize ht : false = eq at h
      cases h with
      | multipath _ hs bs as ls gs ds _ i j basis link arg l f a b x y z hw' e1 e2 e4 e5 e7 e8 e10 e11 e12 =>
        simp only [words_cons, words_nil, g1, Prod.mk.injEq] at hw'
        obtain ⟨_, _, ⟨_, rfl, rfl⟩, hw'⟩ := hw'
        simp only [g2, Prod.mk.injEq] at hw'
        obtain ⟨_, _, ⟨_, rfl, rfl⟩, hw'⟩ := hw'
        simp only [g3, Prod.mk.injEq] at hw'
        obtain ⟨_, _, ⟨_, rfl, rfl⟩, hw'⟩ := hw'
        simp only [g4, Prod.mk.injEq] at hw'
        obtain ⟨_, _, ⟨_, rfl, rfl⟩, hw'⟩ := hw'
        simp only [g5, Prod.mk.injEq] at hw'
        obtain ⟨_, _, ⟨_, rfl, rfl⟩, hw'⟩ := hw'
        simp only [g6, Prod.mk.injEq] at hw'
        obtain ⟨_, _, ⟨_, rfl, rfl⟩, rfl⟩ := hw'
        rw [(hash_iff _ _).2 ⟨i, e1, rfl⟩, ok_bind, (parseInt_iff _ _ _).2 e2, ok_bind]
        dsimp only
        rw [show pyAssert (t2.length == t2.length) = .ok () by simp [pyAssert], ok_bind, (mpAlg_iff _ _).2 ⟨j, e4, rfl⟩, ok_bind,
          (parseInt_iff _ _ _).2 e5, ok_bind]
        dsimp only
        rw [show pyAssert (t4.length == t4.length) = .ok () by simp [pyAssert], ok_bind, (parseInt_iff _ _ _).2 e7, ok_bind,
          (getBits_iff _ _ _ _ _).2 ⟨f, b, e8, rfl, rfl⟩, ok_bind]
        dsimp only
        rw [show pyAssert (([] : Str).isEmpty) = .ok () from rfl, ok_bind, (packed_iff _ _).2 e10, ok_bind, (packed_iff _ _).2 e11, ok_bind,
          Int.mul_comm a 64, (packU_packed _ _ _).2 e12, ok_bind]
        rfl
      | _ => nx_other hn

theorem multipath_exact : NxExact t!"multipath" multipathStr2act := multipath_made.exact

/-! ## Slaves -/

theorem ofpp_noInt {s : Str} {e : Nat × Str} (h : ofpp.find? (fun e => e.2 == s) = some e) :
    (∀ v l, ¬ IntSyntax s v l) ∧ ¬ FitsIn 2 (e.1 : Int) := by
  have hm := List.mem_of_find?_eq_some h
  have hs := List.find?_some h
  have hs : e.2 = s := by simpa using hs
  subst hs
  have key : ∀ e ∈ ofpp, 65 ≤ (e.2.headD 'a').toNat ∧ ¬ FitsIn 2 (e.1 : Int) := by decide +kernel
  refine ⟨?_, (key e hm).2⟩
  intro v l hi
  obtain ⟨c, t, h1, h2⟩ := intSyntax_head hi
  have := (key e hm).1
  rw [h1] at this
  simp at this
  omega

theorem bundlePorts_iff (ts : List Str) (vs : List Int) (hv : ∀ v ∈ vs, FitsIn 2 v) : bundlePorts ts = .ok vs ↔ LooseNums ts vs := by
  induction ts generalizing vs with
  | nil =>
    constructor
    · intro h; cases h; exact .nil
    · intro h; cases h; rfl
  | cons t ts ih =>
    rw [bundlePorts]
    constructor
    · intro h
      obtain ⟨a, h1, h⟩ := bind_iff.1 h
      obtain ⟨vs', h2, h⟩ := bind_iff.1 h
      cases h
      unfold bundlePort at h1
      cases hf : ofpp.find? (fun e => e.2 == t) with
      | some e =>
        rw [hf] at h1
        cases h1
        exact absurd (hv _ (by simp)) (ofpp_noInt hf).2
      | none =>
        rw [hf] at h1
        dsimp only at h1
        obtain ⟨⟨n, l⟩, h3, h1⟩ := bind_iff.1 h1
        cases h1
        exact .cons t _ l ts vs' ((parseInt_iff _ _ _).1 h3) ((ih vs' (fun v h => hv v (by simp [h]))).1 h2)
    · intro h
      cases h with
      | cons _ v l _ vs' h1 h2 =>
        have e : bundlePort t = .ok v := by
          unfold bundlePort
          cases hf : ofpp.find? (fun e => e.2 == t) with
          | some e => exact absurd h1 ((ofpp_noInt hf).1 v l)
          | none =>
            dsimp only
            rw [(parseInt_iff _ _ _).2 h1, ok_bind]
        rw [e, ok_bind, (ih vs' (fun v h => hv v (by simp [h]))).2 h2, ok_bind]

theorem bundleSlaves_iff (s : Str) (vs : List Int) (z : Bytes) (hz : Packed (vs.map fun p => (2, p)) z) :
    bundleSlaves s = .ok vs ↔ Slaves s vs := by
  have hv : ∀ v ∈ vs, FitsIn 2 v := by
    intro v hv
    exact hz.1 (2, v) (List.mem_map.2 ⟨v, hv, rfl⟩)
  unfold bundleSlaves
  constructor
  · intro h
    obtain ⟨⟨n, arg⟩, h1, h⟩ := bind_iff.1 h
    obtain ⟨⟨⟩, h2, h⟩ := bind_iff.1 h
    have h2 := pyAssert_inv h2
    have h2 : n = t!"slaves" := by simpa using h2
    subst h2
    have hf := (func_iff _ _ _).1 h1
    rcases arg with _ | _ | ⟨c, cs⟩
    · cases h
      exact .none s none hf (Or.inl rfl)
    · cases h
      exact .none s _ hf (Or.inr rfl)
    · exact .some s _ _ vs hf ((pieces_iff _ _).2 rfl) ((bundlePorts_iff _ _ hv).1 h)
  · intro h
    cases h with
    | none arg hf ha =>
      rw [(func_iff _ _ _).2 hf, ok_bind]
      rcases ha with rfl | rfl <;> rfl
    | some a ts _ hf hp hl =>
      rw [(func_iff _ _ _).2 hf, ok_bind]
      dsimp only
      rw [show pyAssert (t!"slaves" == t!"slaves") = .ok () from rfl, ok_bind]
      have hp := (pieces_iff _ _).1 hp
      rcases a with _ | ⟨c, cs⟩
      · subst hp
        cases hl
        rfl
      · dsimp only
        rw [hp]
        exact (bundlePorts_iff _ _ hv).2 hl

/-! ## `bundle` -/

theorem bundle_made : NxMade t!"bundle" bundleRaw := by
  intro u eq bin n
  unfold bundleRaw rawArg
  cases eq with
  | true =>
    rw [if_pos rfl]
    constructor
    · intro h; cases h
    · rintro ⟨t, body, ⟨r', h, rfl⟩, rfl⟩
      generalize hn : t!"bundle" = name at h
      generalize ht : true = eq at h
      cases h <;> nx_other hn
      cases ht
  | false =>
    rw [if_neg (by decide)]
    rcases g1 : getToken u with ⟨h1, t1, u1⟩
    rcases g2 : getToken u1 with ⟨h2, t2, u2⟩
    rcases g3 : getToken u2 with ⟨h3, t3, u3⟩
    rcases g4 : getToken u3 with ⟨h4, t4, u4⟩
    rcases g5 : getToken u4 with ⟨h5, t5, u5⟩
    have hw : Words u [t1, t2, t3, t4, t5] u5 := by
      simp only [words_cons, words_nil]
      exact ⟨_, _, g1, _, _, g2, _, _, g3, _, _, g4, _, _, g5, rfl⟩
    dsimp only
    simp only [g1, g2, g3, g4, g5]
    constructor
    · intro h
      obtain ⟨mh, k1, h⟩ := bind_iff.1 h
      obtain ⟨⟨bs, l1⟩, k2, h⟩ := bind_iff.1 h
      obtain ⟨ma, k3, h⟩ := bind_iff.1 h
      obtain ⟨id, k4, h⟩ := bind_iff.1 h
      obtain ⟨ps, k5, h⟩ := bind_iff.1 h
      obtain ⟨x, k6, h⟩ := bind_iff.1 h
      obtain ⟨y, k7, h⟩ := bind_iff.1 h
      obtain ⟨z, k8, h⟩ := bind_iff.1 h
      cases h
      obtain ⟨i, e1, rfl⟩ := (hash_iff _ _).1 k1
      obtain ⟨k, e3, rfl⟩ := (bdAlg_iff _ _).1 k3
      have e4 := (oxmid_iff _ _ (token_self g4) _).1 k4
      have e8 := (packHs_packed _ _).1 k8
      exact ⟨12, _, ⟨u5, .bundle u t1 t2 t3 t4 t5 u5 i k bs l1 id ps x y z hw e1 ((parseInt_iff _ _ _).1 k2) e3 e4
        ((bundleSlaves_iff _ _ _ e8).1 k5) ((packed_iff _ _).1 k6) ((packU_packed _ _ _).1 k7) e8, rfl⟩, by
          simp [NXAST_BUNDLE, spec_pad]⟩
    · rintro ⟨t, body, ⟨r', h, rfl⟩, rfl⟩
      generalize hn : t!"bundle" = name at h
      generalize ht : false = eq at h
      cases h with
      | bundle _ hs bs as st sl _ i j basis l id ports x y z hw' e1 e2 e3 e4 e5 e6 e7 e8 =>
        simp only [words_cons, words_nil, g1, Prod.mk.injEq] at hw'
        obtain ⟨_, _, ⟨_, rfl, rfl⟩, hw'⟩ := hw'
        simp only [g2, Prod.mk.injEq] at hw'
        obtain ⟨_, _, ⟨_, rfl, rfl⟩, hw'⟩ := hw'
        simp only [g3, Prod.mk.injEq] at hw'
        obtain ⟨_, _, ⟨_, rfl, rfl⟩, hw'⟩ := hw'
        simp only [g4, Prod.mk.injEq] at hw'
        obtain ⟨_, _, ⟨_, rfl, rfl⟩, hw'⟩ := hw'
        simp only [g5, Prod.mk.injEq] at hw'
        obtain ⟨_, _, ⟨_, rfl, rfl⟩, rfl⟩ := hw'
        rw [(hash_iff _ _).2 ⟨i, e1, rfl⟩, ok_bind, (parseInt_iff _ _ _).2 e2, ok_bind]
        dsimp only
        rw [(bdAlg_iff _ _).2 ⟨j, e3, rfl⟩, ok_bind, (oxmid_iff _ _ (token_self g4) _).2 e4, ok_bind,
          (bundleSlaves_iff _ _ _ e8).2 e5, ok_bind, (packed_iff _ _).2 e6, ok_bind, (packU_packed _ _ _).2 e7, ok_bind,
          (packHs_packed _ _).2 e8, ok_bind]
        simp [NXAST_BUNDLE, spec_pad]
      | _ => nx_other hn

theorem bundle_exact : NxExact t!"bundle" bundleStr2act := bundle_made.exact

/-! ## `bundle_load` -/

theorem pyStructLen_iff (b : Bytes) : bundleLoadStr2act.pyStructLen b 4 = .ok () ↔ if false then 4 ≤ b.length else b.length = 4 := by
  unfold bundleLoadStr2act.pyStructLen
  by_cases h : b.length = 4 <;> simp [h]

theorem bundleLoad_pair (id : Bytes) (arg : Option Str) : (match arg with
      | some (c :: cs) => intPair (c :: cs)
      | _ => do
        bundleLoadStr2act.pyStructLen id 4
        .ok (0, (uAt id 3 1 : Int) * 8) : Py (Int × Int)) = endPair id (bundleLoadStr2act.pyStructLen id 4) arg := by
  rcases arg with _ | _ | ⟨c, cs⟩ <;> rfl

theorem bundleLoad_made : NxMade t!"bundle_load" bundleLoadRaw := by
  intro u eq bin n
  rw [bundleLoadRaw_early]
  unfold bundleLoadEarlyRaw rawArg
  cases eq with
  | true =>
    rw [if_pos rfl]
    constructor
    · intro h; cases h
    · rintro ⟨t, body, ⟨r', h, rfl⟩, rfl⟩
      generalize hn : t!"bundle_load" = name at h
      generalize ht : true = eq at h
      cases h <;> nx_other hn
      cases ht
  | false =>
    rw [if_neg (by decide)]
    rcases g1 : getToken u with ⟨h1, t1, u1⟩
    rcases g2 : getToken u1 with ⟨h2, t2, u2⟩
    rcases g3 : getToken u2 with ⟨h3, t3, u3⟩
    rcases g4 : getToken u3 with ⟨h4, t4, u4⟩
    rcases g5 : getToken u4 with ⟨h5, t5, u5⟩
    rcases g6 : getToken u5 with ⟨h6, t6, u6⟩
    have hw : Words u [t1, t2, t3, t4, t5, t6] u6 := by
      simp only [words_cons, words_nil]
      exact ⟨_, _, g1, _, _, g2, _, _, g3, _, _, g4, _, _, g5, _, _, g6, rfl⟩
    dsimp only
    simp only [g1, g2, g3, g4, g5, g6]
    constructor
    · intro h
      obtain ⟨mh, k1, h⟩ := bind_iff.1 h
      obtain ⟨⟨bs, l1⟩, k2, h⟩ := bind_iff.1 h
      obtain ⟨ma, k3, h⟩ := bind_iff.1 h
      obtain ⟨⟨dn, da⟩, k4, h⟩ := bind_iff.1 h
      obtain ⟨did, k5, h⟩ := bind_iff.1 h
      obtain ⟨⟨r0, r1⟩, k6, h⟩ := bind_iff.1 h
      obtain ⟨ps, k7, h⟩ := bind_iff.1 h
      obtain ⟨x, k8, h⟩ := bind_iff.1 h
      obtain ⟨id, k9, h⟩ := bind_iff.1 h
      obtain ⟨y, k10, h⟩ := bind_iff.1 h
      obtain ⟨z, k11, h⟩ := bind_iff.1 h
      cases h
      obtain ⟨i, e1, rfl⟩ := (hash_iff _ _).1 k1
      obtain ⟨k, e3, rfl⟩ := (bdAlg_iff _ _).1 k3
      have e9 := (oxmid_iff _ _ (token_self g4) _).1 k9
      have e6 := (bundleLoad_pair did da).symm.trans k6
      have e4 := (endBits_iff true false _ pyStructLen_iff g5 did r0 r1).2 ⟨dn, da, k4, k5, e6⟩
      have e11 := (packHs_packed _ _).1 k11
      have e10 := (packed_iff _ _).1 k10
      dsimp only at e10
      rw [Int.mul_comm] at e10
      exact ⟨13, _, ⟨u6, .bundleLoad u t1 t2 t3 t4 t5 t6 u6 i k bs l1 id did r0 r1 ps x y z hw e1 ((parseInt_iff _ _ _).1 k2) e3 e9
        e4 ((bundleSlaves_iff _ _ _ e11).1 k7) ((packed_iff _ _).1 k8) e10 e11, rfl⟩, rfl⟩
    · rintro ⟨t, body, ⟨r', h, rfl⟩, rfl⟩
      generalize hn : t!"bundle_load" = name at h
      generalize ht : false = eq at h
      cases h with
      | bundleLoad _ hs bs as st ds sl _ i j basis l id did a b ports x y z hw' e1 e2 e3 e4 e5 e6 e7 e8 e9 =>
        simp only [words_cons, words_nil, g1, Prod.mk.injEq] at hw'
        obtain ⟨_, _, ⟨_, rfl, rfl⟩, hw'⟩ := hw'
        simp only [g2, Prod.mk.injEq] at hw'
        obtain ⟨_, _, ⟨_, rfl, rfl⟩, hw'⟩ := hw'
        simp only [g3, Prod.mk.injEq] at hw'
        obtain ⟨_, _, ⟨_, rfl, rfl⟩, hw'⟩ := hw'
        simp only [g4, Prod.mk.injEq] at hw'
        obtain ⟨_, _, ⟨_, rfl, rfl⟩, hw'⟩ := hw'
        simp only [g5, Prod.mk.injEq] at hw'
        obtain ⟨_, _, ⟨_, rfl, rfl⟩, hw'⟩ := hw'
        simp only [g6, Prod.mk.injEq] at hw'
        obtain ⟨_, _, ⟨_, rfl, rfl⟩, rfl⟩ := hw'
        obtain ⟨dn, da, k4, k5, k6⟩ := (endBits_iff true false _ pyStructLen_iff g5 did a b).1 e5
        rw [← bundleLoad_pair] at k6
        rw [(hash_iff _ _).2 ⟨i, e1, rfl⟩, ok_bind, (parseInt_iff _ _ _).2 e2, ok_bind]
        dsimp only
        rw [(bdAlg_iff _ _).2 ⟨j, e3, rfl⟩, ok_bind, k4, ok_bind]
        dsimp only
        rw [k5, ok_bind]
        refine bind_iff.2 ⟨_, k6, ?_⟩
        dsimp only
        rw [(bundleSlaves_iff _ _ _ e9).2 e6, ok_bind, (packed_iff _ _).2 e7, ok_bind,
          (oxmid_iff _ _ (token_self g4) _).2 e4, ok_bind, Int.mul_comm a 64, (packed_iff _ _).2 e8, ok_bind,
          (packHs_packed _ _).2 e9, ok_bind]
        rfl
      | _ => nx_other hn

theorem bundleLoad_exact : NxExact t!"bundle_load" bundleLoadStr2act := bundleLoad_made.exact

/-! ## `output_reg` -/

theorem needBytes4_iff (b : Bytes) : needBytes b 0 4 = .ok () ↔ if true then 4 ≤ b.length else b.length = 4 := by
  unfold needBytes
  by_cases h : 4 ≤ b.length <;> simp [h]

theorem outputReg_pair (id : Bytes) (arg : Option Str) : (match arg with
      | some (c :: cs) => intPair (c :: cs)
      | _ => do
        needBytes id 0 4
        .ok (0, (uAt id 3 1 : Int) * 8) : Py (Int × Int)) = endPair id (needBytes id 0 4) arg := by
  rcases arg with _ | _ | ⟨c, cs⟩ <;> rfl

theorem maxLen_iff (m : Str) (k : Int) : (if m.isEmpty then .ok 0xffff else do
      let (n, _) ← parseInt m
      .ok n : Py Int) = .ok k ↔ MaxLen m k := by
  cases m with
  | nil =>
    constructor
    · intro h; cases h; exact .absent
    · intro h
      cases h with
      | absent => rfl
      | num _ _ _ h => obtain ⟨c, t, h, _⟩ := intSyntax_head h; cases h
  | cons c m =>
    rw [if_neg (by simp)]
    constructor
    · intro h
      obtain ⟨⟨v, l⟩, h1, h⟩ := bind_iff.1 h
      cases h
      exact .num _ _ l ((parseInt_iff _ _ _).1 h1)
    · intro h
      cases h with
      | num _ _ _ h => rw [(parseInt_iff _ _ _).2 h, ok_bind]

/-- What `output_reg` and `output_reg2` do after reading their arguments. -/
theorem outputReg_read (reg2 : Bool) (u : Str) (bin : Bytes) (n : Nat) (s m r : Str) (hw : Words u [s, m] r) :
    (do
      let (_, arg, u1) := getToken u
      let (name, arg) ← parseFunc arg
      let oxmid ← str2oxmid false name
      let (r0, r1) ← (
        match arg with
        | some (c :: cs) => intPair (c :: cs)
        | _ => do
          needBytes oxmid 0 4
          .ok (0, (uAt oxmid 3 1 : Int) * 8) : Py (Int × Int))
      let (_, marg, u2) := getToken u1
      let maxLen ← (
        if marg.isEmpty then .ok 0xffff
        else do
          let (n, _) ← parseInt marg
          .ok n : Py Int)
      let ofs := r0 * 64 + (r1 % 64 - 1)
      if reg2 || decide (oxmid.length > 4) then
        let b ← packAll [(2, ofs), (2, maxLen)]
        .ok (nxastHdr NXAST_OUTPUT_REG2 ++ (b ++ oxmid), u.length - u2.length)
      else
        let a ← packU 2 ofs
        let b ← packU 2 maxLen
        .ok (nxastHdr NXAST_OUTPUT_REG ++ (a ++ (oxmid ++ (b ++ zeros 6))), u.length - u2.length) : Py (Bytes × Nat)) = .ok (bin, n) ↔
    ∃ id a b k, EndBits false true s id a b ∧ MaxLen m k ∧ n = u.length - r.length ∧
      if reg2 = true ∨ 4 < id.length then ∃ x, Packed [(2, 64 * a + (b % 64 - 1)), (2, k)] x ∧ bin = nxastHdr 32 ++ (x ++ id)
      else ∃ x y, Packed [(2, 64 * a + (b % 64 - 1))] x ∧ Packed [(2, k)] y ∧ bin = nxastHdr 15 ++ (x ++ (id ++ (y ++ pad 6))) := by
  simp only [words_cons, words_nil] at hw
  obtain ⟨h1, u1, g1, h2, _, g2, rfl⟩ := hw
  rename_i r
  rw [g1]
  dsimp only
  rw [g2]
  dsimp only
  constructor
  · intro h
    obtain ⟨⟨dn, da⟩, k1, h⟩ := bind_iff.1 h
    obtain ⟨id, k2, h⟩ := bind_iff.1 h
    obtain ⟨⟨r0, r1⟩, k3, h⟩ := bind_iff.1 h
    obtain ⟨mx, k4, h⟩ := bind_iff.1 h
    have e3 := (outputReg_pair id da).symm.trans k3
    have e := (endBits_iff false true _ needBytes4_iff g1 id r0 r1).2 ⟨dn, da, k1, k2, e3⟩
    have e4 := (maxLen_iff _ _).1 k4
    dsimp only at h
    rw [Int.mul_comm r0 64] at h
    refine ⟨id, r0, r1, mx, e, e4, ?_⟩
    split at h
    · rename_i hc
      obtain ⟨x, k5, h⟩ := bind_iff.1 h
      cases h
      refine ⟨rfl, ?_⟩
      rw [if_pos (by simpa using hc)]
      exact ⟨x, (packed_iff _ _).1 k5, rfl⟩
    · rename_i hc
      obtain ⟨x, k5, h⟩ := bind_iff.1 h
      obtain ⟨y, k6, h⟩ := bind_iff.1 h
      cases h
      refine ⟨rfl, ?_⟩
      rw [if_neg (by simpa using hc)]
      exact ⟨x, y, (packU_packed _ _ _).1 k5, (packU_packed _ _ _).1 k6, rfl⟩
  · rintro ⟨id, a, b, k, e, e4, rfl, h⟩
    obtain ⟨dn, da, k4, k5, k6⟩ := (endBits_iff false true _ needBytes4_iff g1 id a b).1 e
    rw [← outputReg_pair] at k6
    rw [k4, ok_bind]
    dsimp only
    rw [k5, ok_bind, k6, ok_bind]
    dsimp only
    rw [(maxLen_iff _ _).2 e4, ok_bind, Int.mul_comm a 64]
    split at h
    · rename_i hc
      obtain ⟨x, hx, rfl⟩ := h
      rw [if_pos (by simpa using hc), (packed_iff _ _).2 hx, ok_bind]
      rfl
    · rename_i hc
      obtain ⟨x, y, hx, hy, rfl⟩ := h
      rw [if_neg (by simpa using hc), (packU_packed _ _ _).2 hx, ok_bind, (packU_packed _ _ _).2 hy, ok_bind]
      rfl

theorem words_two (u : Str) : ∃ s m r, Words u [s, m] r := by
  rcases g1 : getToken u with ⟨h1, t1, u1⟩
  rcases g2 : getToken u1 with ⟨h2, t2, u2⟩
  refine ⟨t1, t2, u2, ?_⟩
  simp only [words_cons, words_nil]
  exact ⟨_, _, g1, _, _, g2, rfl⟩

theorem words_unique {u : Str} {s m r s' m' r' : Str} (h : Words u [s, m] r) (h' : Words u [s', m'] r') : s = s' ∧ m = m' ∧ r = r' := by
  simp only [words_cons, words_nil] at h h'
  obtain ⟨h1, u1, g1, h2, _, g2, rfl⟩ := h
  obtain ⟨h1, u1, g1', h2, _, g2', rfl⟩ := h'
  rw [g1] at g1'
  cases g1'
  rw [g2] at g2'
  cases g2'
  exact ⟨rfl, rfl, rfl⟩

theorem outputReg_made : NxMade t!"output_reg" (outputRegRaw false) := by
  intro u eq bin n
  rw [outputRegRaw_early]
  unfold outputRegEarlyRaw rawArg
  obtain ⟨s, m, r, hw⟩ := words_two u
  refine (outputReg_read false u bin n s m r hw).trans ?_
  constructor
  · rintro ⟨id, a, b, k, h1, h2, rfl, h⟩
    split at h
    · rename_i hc
      obtain ⟨x, hx, rfl⟩ := h
      exact ⟨32, _, ⟨r, .outputRegLong eq u s m r id a b k x hw h1 (by simpa using hc) h2 hx, rfl⟩, rfl⟩
    · rename_i hc
      obtain ⟨x, y, hx, hy, rfl⟩ := h
      exact ⟨15, _, ⟨r, .outputReg eq u s m r id a b k x y hw h1 (by simpa using hc) h2 hx hy, rfl⟩, rfl⟩
  · rintro ⟨t, body, ⟨r', h, rfl⟩, rfl⟩
    generalize hn : t!"output_reg" = name at h
    cases h with
    | outputReg _ _ s' m' _ id a b k x y hw' h1 hc h2 hx hy =>
      obtain ⟨rfl, rfl, rfl⟩ := words_unique hw hw'
      refine ⟨id, a, b, k, h1, h2, rfl, ?_⟩
      rw [if_neg (by simp; omega)]
      exact ⟨x, y, hx, hy, rfl⟩
    | outputRegLong _ _ s' m' _ id a b k x hw' h1 hc h2 hx =>
      obtain ⟨rfl, rfl, rfl⟩ := words_unique hw hw'
      refine ⟨id, a, b, k, h1, h2, rfl, ?_⟩
      rw [if_pos (Or.inr hc)]
      exact ⟨x, hx, rfl⟩
    | _ => nx_other hn

theorem outputReg_exact : NxExact t!"output_reg" (outputRegStr2act false) := outputReg_made.exact

theorem outputReg2_made : NxMade t!"output_reg2" (outputRegRaw true) := by
  intro u eq bin n
  rw [outputRegRaw_early]
  unfold outputRegEarlyRaw rawArg
  obtain ⟨s, m, r, hw⟩ := words_two u
  refine (outputReg_read true u bin n s m r hw).trans ?_
  constructor
  · rintro ⟨id, a, b, k, h1, h2, rfl, h⟩
    rw [if_pos (Or.inl rfl)] at h
    obtain ⟨x, hx, rfl⟩ := h
    exact ⟨32, _, ⟨r, .outputReg2 eq u s m r id a b k x hw h1 h2 hx, rfl⟩, rfl⟩
  · rintro ⟨t, body, ⟨r', h, rfl⟩, rfl⟩
    generalize hn : t!"output_reg2" = name at h
    cases h with
    | outputReg2 _ _ s' m' _ id a b k x hw' h1 h2 hx =>
      obtain ⟨rfl, rfl, rfl⟩ := words_unique hw hw'
      refine ⟨id, a, b, k, h1, h2, rfl, ?_⟩
      rw [if_pos (Or.inl rfl)]
      exact ⟨x, hx, rfl⟩
    | _ => nx_other hn

theorem outputReg2_exact : NxExact t!"output_reg2" (outputRegStr2act true) := outputReg2_made.exact

end Ofpstr
