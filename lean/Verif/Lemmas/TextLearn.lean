import Verif.Lemmas.TextBundle

/-!
# Exactly which arguments `learn` takes
-/

set_option linter.unusedSimpArgs false

namespace Ofpstr
open Spec

theorem nameId_four (f : Field) (hf : f ∈ fields) : ((f.nameId false).length == 4) = true ↔ f.experimenter = false := by
  obtain ⟨_, _, _, h, _⟩ := nameId_parts f hf false
  rw [h]
  cases he : f.experimenter <;> simp [Field.extra, he]

theorem nameId_size4 (f : Field) (hf : f ∈ fields) (he : f.experimenter = false) :
    (uAt (f.nameId false) 3 1 : Int) * 8 = (8 * f.nameLen false : Nat) := by
  obtain ⟨_, h, _, _, _⟩ := nameId_parts f hf false
  rw [h]
  simp [Field.extra, he]
  omega

/-! ## Source -/

theorem learnSource_known {src n : Str} {sarg : Option Str} {f : Field} (hs : getToken src = ([], src, [])) (hf : Func src f.name sarg)
    (hm : f ∈ fields) (x : LearnSrc × Option Int) : learnSource src = .ok x ↔ f.experimenter = false ∧
    ∃ a w y, LearnSource src (.inl (f, a, w)) ∧ Packed [(2, a)] y ∧ x = (.fld (f.nameId false ++ y), some w) := by
  unfold learnSource
  rw [(func_iff _ _ _).2 hf, ok_bind]
  dsimp only
  rw [(oxmid_iff false f.name (name_self hs hf) _).2 (.known f hm), ok_bind, if_neg (by simpa using nameId_nonempty f hm false)]
  constructor
  · intro h
    obtain ⟨⟨⟩, h1, h⟩ := bind_iff.1 h
    have he := (nameId_four f hm).1 (pyAssert_inv h1)
    refine ⟨he, ?_⟩
    rw [nameId_size4 f hm he] at h
    obtain ⟨⟨a, w⟩, h2, h⟩ := bind_iff.1 h
    obtain ⟨y, h3, h⟩ := bind_iff.1 h
    cases h
    refine ⟨a, w, y, ?_, (packU_packed _ _ _).1 h3, rfl⟩
    rcases sarg with _ | _ | ⟨c, cs⟩
    · cases h2
      exact .whole src f none hf (Or.inl rfl) hm
    · cases h2
      exact .whole src f _ hf (Or.inr rfl) hm
    · dsimp only at h2
      obtain ⟨⟨o, o'⟩, h4, h2⟩ := bind_iff.1 h2
      cases h2
      obtain ⟨x, y, e, h5, h6⟩ := (optPair_iff _ _ _).1 h4
      rw [e] at hf
      exact .range src f x y _ _ hf hm ((intBound_iff _ _ _).2 ⟨o, h5, rfl⟩) ((intBound_iff _ _ _).2 ⟨o', h6, rfl⟩)
  · rintro ⟨he, a, w, y, h1, h2, rfl⟩
    rw [show pyAssert ((f.nameId false).length == 4) = .ok () from pyAssert_iff.2 ((nameId_four f hm).2 he), ok_bind, nameId_size4 f hm he]
    refine bind_iff.2 ⟨(a, w), ?_, ?_⟩
    · generalize hz : (Sum.inl (f, a, w) : (Field × Int × Int) ⊕ Int) = z at h1
      cases h1 with
      | imm => cases hz
      | whole g arg hg ha hgm =>
        cases hz
        have e := (func_unique hf hg).2
        subst e
        rcases ha with rfl | rfl <;> rfl
      | range g x y a b hg hgm h3 h4 =>
        cases hz
        have e := (func_unique hf hg).2
        subst e
        obtain ⟨o, k1, rfl⟩ := (intBound_iff _ _ _).1 h3
        obtain ⟨o', k2, rfl⟩ := (intBound_iff _ _ _).1 h4
        obtain ⟨c, cs, e⟩ := append_cons_ne x y ':'
        rw [e]
        dsimp only
        rw [(optPair_iff _ _ _).2 ⟨x, y, e.symm, k1, k2⟩, ok_bind]
    · dsimp only
      rw [(packU_packed _ _ _).2 h2, ok_bind]

theorem learnSource_unknown {src n : Str} {sarg : Option Str} (hs : getToken src = ([], src, [])) (hf : Func src n sarg)
    (hm : ∀ f ∈ fields, f.name ≠ n) (x : LearnSrc × Option Int) : learnSource src = .ok x ↔
    ∃ v, LearnSource src (.inr v) ∧ x = (.imm v, none) := by
  unfold learnSource
  rw [(func_iff _ _ _).2 hf, ok_bind]
  dsimp only
  rw [(oxmid_iff false n (name_self hs hf) _).2 (.unknown n hm), ok_bind, if_pos (show ([] : Bytes).isEmpty = true from rfl)]
  constructor
  · intro h
    obtain ⟨⟨v, l⟩, h1, h⟩ := bind_iff.1 h
    cases h
    exact ⟨v, .imm src n sarg v l hf hm ((parseInt_iff _ _ _).1 h1), rfl⟩
  · rintro ⟨v, h, rfl⟩
    generalize hz : (Sum.inr v : (Field × Int × Int) ⊕ Int) = z at h
    cases h with
    | imm n' arg v' l hf' hm' hi =>
      cases hz
      have e := (func_unique hf hf').1
      subst e
      rw [(parseInt_iff _ _ _).2 hi, ok_bind]
    | whole => cases hz
    | range => cases hz

theorem func_total {s h b r : Str} (hs : getToken s = (h, b, r)) : (∃ n a, Func b n a) ∨ ∀ n a, parseFunc b ≠ .ok (n, a) := by
  by_cases h : ∃ n a, Func b n a
  · exact Or.inl h
  · right
    intro n a hp
    exact h ⟨n, a, (func_iff _ _ _).1 hp⟩

theorem learnSource_iff {src : Str} (hs : getToken src = ([], src, [])) (x : LearnSrc × Option Int) : learnSource src = .ok x ↔
    (∃ f a w y, LearnSource src (.inl (f, a, w)) ∧ f.experimenter = false ∧ Packed [(2, a)] y ∧ x = (.fld (f.nameId false ++ y), some w)) ∨
    ∃ v, LearnSource src (.inr v) ∧ x = (.imm v, none) := by
  constructor
  · intro h
    have h' := h
    unfold learnSource at h'
    obtain ⟨⟨n, a⟩, hp, _⟩ := bind_iff.1 h'
    have hf := (func_iff _ _ _).1 hp
    by_cases hm : ∃ f ∈ fields, f.name = n
    · obtain ⟨f, hm, rfl⟩ := hm
      obtain ⟨he, a, w, y, h1, h2, h3⟩ := (learnSource_known (n := []) hs hf hm x).1 h
      exact Or.inl ⟨f, a, w, y, h1, he, h2, h3⟩
    · exact Or.inr ((learnSource_unknown hs hf (by
        intro f hf' e
        exact hm ⟨f, hf', e⟩) x).1 h)
  · rintro (⟨f, a, w, y, h1, he, h2, h3⟩ | ⟨v, h1, h2⟩)
    · have h1' := h1
      generalize hz : (Sum.inl (f, a, w) : (Field × Int × Int) ⊕ Int) = z at h1
      cases h1 with
      | imm => cases hz
      | whole g arg hg ha hgm =>
        cases hz
        exact (learnSource_known (n := []) hs hg hgm x).2 ⟨he, _, _, y, h1', h2, h3⟩
      | range g p q a b hg hgm _ _ =>
        cases hz
        exact (learnSource_known (n := []) hs hg hgm x).2 ⟨he, _, _, y, h1', h2, h3⟩
    · have h1' := h1
      generalize hz : (Sum.inr v : (Field × Int × Int) ⊕ Int) = z at h1
      cases h1 with
      | imm n arg v' l hf hm hi =>
        cases hz
        exact (learnSource_unknown hs hf hm x).2 ⟨v, h1', h2⟩
      | whole => cases hz
      | range => cases hz

/-! ## Destination -/

theorem learnDest_known {dst : Str} {darg : Option Str} {g : Field} (hs : getToken dst = ([], dst, [])) (hf : Func dst g.name darg)
    (hm : g ∈ fields) (id : Bytes) (c d : Int) : learnDest (some dst) = .ok (id, c, d) ↔
    g.experimenter = false ∧ LearnDest dst g c d ∧ id = g.nameId false := by
  unfold learnDest
  dsimp only
  rw [(func_iff _ _ _).2 hf, ok_bind]
  dsimp only
  rw [(oxmid_iff false g.name (name_self hs hf) _).2 (.known g hm), ok_bind]
  constructor
  · intro h
    obtain ⟨⟨⟩, h1, h⟩ := bind_iff.1 h
    have he := (nameId_four g hm).1 (pyAssert_inv h1)
    refine ⟨he, ?_⟩
    rw [nameId_size4 g hm he] at h
    rcases darg with _ | _ | ⟨p, ps⟩
    · cases h
      exact ⟨.whole dst g none hf (Or.inl rfl) hm, rfl⟩
    · cases h
      exact ⟨.whole dst g _ hf (Or.inr rfl) hm, rfl⟩
    · dsimp only at h
      obtain ⟨⟨o, o'⟩, h4, h2⟩ := bind_iff.1 h
      obtain ⟨x, y, e, h5, h6⟩ := (optPair_iff _ _ _).1 h4
      rw [e] at hf
      have hb := (intBound_iff 0 x _).2 ⟨o, h5, rfl⟩
      rcases (optInt_iff _ _).1 h6 with ⟨rfl, rfl⟩ | ⟨v, h7, rfl⟩
      · cases h2
        exact ⟨.tail dst g x _ hf hm hb, rfl⟩
      · cases h2
        exact ⟨.range dst g x y _ _ hf hm hb h7, rfl⟩
  · rintro ⟨he, h, rfl⟩
    rw [show pyAssert ((g.nameId false).length == 4) = .ok () from pyAssert_iff.2 ((nameId_four g hm).2 he), ok_bind, nameId_size4 g hm he]
    cases h with
    | whole arg hg ha hgm =>
      have e := (func_unique hf hg).2
      subst e
      rcases ha with rfl | rfl <;> rfl
    | range x y a b hg hgm h3 h4 =>
      have e := (func_unique hf hg).2
      subst e
      obtain ⟨o, k1, rfl⟩ := (intBound_iff _ _ _).1 h3
      obtain ⟨p, ps, e⟩ := append_cons_ne x y ':'
      rw [e]
      dsimp only
      rw [(optPair_iff _ _ _).2 ⟨x, y, e.symm, k1, (optInt_iff _ _).2 (Or.inr ⟨b, h4, rfl⟩)⟩, ok_bind]
    | tail x a hg hgm h3 =>
      have e := (func_unique hf hg).2
      subst e
      obtain ⟨o, k1, rfl⟩ := (intBound_iff _ _ _).1 h3
      obtain ⟨p, ps, e⟩ := append_cons_ne x [] ':'
      rw [e]
      dsimp only
      rw [(optPair_iff _ _ _).2 ⟨x, [], e.symm, k1, rfl⟩, ok_bind]

theorem learnDest_iff {dst : Str} (hs : getToken dst = ([], dst, [])) (id : Bytes) (c d : Int) : learnDest (some dst) = .ok (id, c, d) ↔
    ∃ g, LearnDest dst g c d ∧ g.experimenter = false ∧ id = g.nameId false := by
  constructor
  · intro h
    have h' := h
    unfold learnDest at h'
    dsimp only at h'
    obtain ⟨⟨n, a⟩, hp, h'⟩ := bind_iff.1 h'
    have hf := (func_iff _ _ _).1 hp
    dsimp only at h'
    obtain ⟨id', h1, h'⟩ := bind_iff.1 h'
    obtain ⟨⟨⟩, h2, _⟩ := bind_iff.1 h'
    have h3 := (oxmid_iff false n (name_self hs hf) _).1 h1
    cases h3 with
    | unknown _ _ => exact absurd (pyAssert_inv h2) (by decide)
    | known g hm =>
      obtain ⟨he, h4, h5⟩ := (learnDest_known hs hf hm id c d).1 h
      exact ⟨g, h4, he, h5⟩
  · rintro ⟨g, h, he, hid⟩
    have h' := h
    cases h with
    | whole arg hg ha hgm => exact (learnDest_known hs hg hgm id _ _).2 ⟨he, h', hid⟩
    | range x y a b hg hgm h3 h4 => exact (learnDest_known hs hg hgm id _ _).2 ⟨he, h', hid⟩
    | tail x a hg hgm h3 => exact (learnDest_known hs hg hgm id _ _).2 ⟨he, h', hid⟩

/-! ## A specification -/

theorem modeOutput (mode : Option Str) : (mode == some t!"output") = true ↔ mode = some t!"output" := by simp

theorem learnFlag_eq (mode : Option Str) (f : Int) : (if (mode == some t!"reg_load") = true then f + 1024 else f) = f + learnFlag mode := by
  unfold learnFlag
  by_cases h : mode = some t!"reg_load"
  · rw [if_pos (by simpa using h), if_pos h]
  · rw [if_neg (by simpa using h), if_neg h]; omega

theorem immSize (d : Int) : ((d + 15) / 16 * 2).toNat = (d.toNat + 15) / 16 * 2 := by omega

theorem flowModSpec_iff {src : Str} {dst mode : Option Str} (hs : getToken src = ([], src, []))
    (hd : ∀ d, dst = some d → getToken d = ([], d, [])) (b : Bytes) : flowModSpec src dst mode = .ok b ↔ LearnSpec src dst mode b := by
  unfold flowModSpec
  constructor
  · intro hh
    obtain ⟨⟨sobj, nb⟩, h1, h⟩ := bind_iff.1 hh
    clear hh
    dsimp only at h
    rcases (learnSource_iff hs _).1 h1 with ⟨f, a, w, y, h2, h3, h4, h5⟩ | ⟨v, h2, h5⟩
    · cases h5
      dsimp only at h
      split at h
      · rename_i hm
        cases (modeOutput mode).1 hm
        obtain ⟨x, h6, k⟩ := bind_iff.1 h
        cases k
        refine .outField src dst f a w x y h2 h3 h4 ?_
        have := (packU_packed _ _ _).1 h6
        simpa using this
      · rename_i hm
        have hm : mode ≠ some t!"output" := fun e => hm ((modeOutput mode).2 e)
        cases dst with
        | none => cases h
        | some dst =>
          obtain ⟨⟨id, c, d⟩, h6, k⟩ := bind_iff.1 h
          clear h
          obtain ⟨g, h7, h8, rfl⟩ := (learnDest_iff (hd dst rfl) _ _ _).1 h6
          dsimp only at k
          obtain ⟨n, h9, k2⟩ := bind_iff.1 k
          clear k
          have hn : n = d ∧ (w = 0 ∨ w = d) := by
            split at h9
            · rename_i h0
              cases h9
              exact ⟨rfl, Or.inl (by simpa using h0)⟩
            · obtain ⟨_, h10, k9⟩ := bind_iff.1 h9
              cases k9
              have := pyAssert_iff.1 h10
              have : w = d := by simpa using this
              exact ⟨this, Or.inr this⟩
          obtain ⟨rfl, hw⟩ := hn
          obtain ⟨z, h10, k3⟩ := bind_iff.1 k2
          clear k2
          rw [learnFlag_eq] at k3
          obtain ⟨x, h11, k4⟩ := bind_iff.1 k3
          cases k4
          refine .field src dst mode f a w g c n x y z hm h2 h3 h7 h8 hw h4 ((packU_packed _ _ _).1 h10) ?_
          have := (packU_packed _ _ _).1 h11
          simpa using this
    · cases h5
      dsimp only at h
      split at h
      · rename_i hm
        have hm := (modeOutput mode).1 hm
        rw [hm]
        exact .outImm src dst v b h2 ((packed_iff _ _).1 h)
      · rename_i hm
        have hm : mode ≠ some t!"output" := fun e => hm ((modeOutput mode).2 e)
        cases dst with
        | none => cases h
        | some dst =>
          obtain ⟨⟨id, c, d⟩, h6, k⟩ := bind_iff.1 h
          clear h
          obtain ⟨g, h7, h8, rfl⟩ := (learnDest_iff (hd dst rfl) _ _ _).1 h6
          dsimp only at k
          rw [ok_bind] at k
          obtain ⟨z, h10, k3⟩ := bind_iff.1 k
          clear k
          rw [learnFlag_eq] at k3
          obtain ⟨x, h11, k4⟩ := bind_iff.1 k3
          cases k4
          rw [immSize, intBE_eq, ← spec_be]
          exact .imm src dst mode v g c d _ x z hm h2 h7 h8 ((packU_packed _ _ _).1 h10) ((packU_packed _ _ _).1 h11) rfl
  · intro h
    cases h with
    | outField dst f a w x y h2 h3 h4 h5 =>
      rw [(learnSource_iff hs _).2 (Or.inl ⟨f, a, w, y, h2, h3, h4, rfl⟩), ok_bind]
      dsimp only
      rw [if_pos ((modeOutput _).2 rfl)]
      refine bind_iff.2 ⟨x, (packU_packed _ _ _).2 ?_, rfl⟩
      simpa using h5
    | outImm dst v x h2 h3 =>
      rw [(learnSource_iff hs _).2 (Or.inr ⟨v, h2, rfl⟩), ok_bind]
      dsimp only
      rw [if_pos ((modeOutput _).2 rfl)]
      exact (packed_iff _ _).2 h3
    | field dst mode f a w g c d x y z hm h2 h3 h7 h8 hw h4 h5 h6 =>
      rw [(learnSource_iff hs _).2 (Or.inl ⟨f, a, w, y, h2, h3, h4, rfl⟩), ok_bind]
      dsimp only
      rw [if_neg (fun e => hm ((modeOutput mode).1 e)), (learnDest_iff (hd dst rfl) _ _ _).2 ⟨g, h7, h8, rfl⟩, ok_bind]
      refine bind_iff.2 ⟨d, ?_, ?_⟩
      · dsimp only
        rcases hw with rfl | rfl
        · rfl
        · by_cases h0 : (w == 0) = true
          · rw [if_pos h0]
          · rw [if_neg h0, show pyAssert (w == w) = .ok () by simp [pyAssert], ok_bind]
      · dsimp only
        rw [(packU_packed _ _ _).2 h5, ok_bind, learnFlag_eq]
        refine bind_iff.2 ⟨x, (packU_packed _ _ _).2 ?_, rfl⟩
        simpa using h6
    | imm dst mode v g c d n x z hm h2 h7 h8 h5 h6 hn =>
      rw [(learnSource_iff hs _).2 (Or.inr ⟨v, h2, rfl⟩), ok_bind]
      dsimp only
      rw [if_neg (fun e => hm ((modeOutput mode).1 e)), (learnDest_iff (hd dst rfl) _ _ _).2 ⟨g, h7, h8, rfl⟩, ok_bind]
      refine bind_iff.2 ⟨d, rfl, ?_⟩
      dsimp only
      rw [(packU_packed _ _ _).2 h5, ok_bind, learnFlag_eq]
      refine bind_iff.2 ⟨x, (packU_packed _ _ _).2 h6, ?_⟩
      rw [immSize, intBE_eq, ← spec_be, ← hn]

/-! ## A word that stands alone -/

theorem learnWord_iff (w : Str) (b : Bytes) : learnPending (some w) = .ok b ↔ LearnWord w b := by
  constructor
  · intro h
    cases w with
    | nil => cases h; exact .empty
    | cons c cs =>
      unfold learnPending learnSingle at h
      dsimp only at h
      obtain ⟨⟨n, a⟩, h1, h⟩ := bind_iff.1 h
      have hf := (func_iff _ _ _).1 h1
      rcases a with _ | _ | ⟨d, ds⟩
      · cases h
      · cases h
      · dsimp only at h
        rcases hg : getToken (d :: ds) with ⟨h2, dst, u⟩
        rw [hg] at h
        dsimp only at h
        rcases hk : getToken u with ⟨h3, src, r⟩
        rw [hk] at h
        dsimp only at h
        obtain ⟨_, h4, h⟩ := bind_iff.1 h
        exact .call _ n _ _ _ _ _ _ _ _ hf (eq_tok hg) (eq_tok hk) ((hasChar_iff _ _).1 (pyAssert_iff.1 h4))
          ((flowModSpec_iff (token_self hk) (by intro d e; cases e; exact token_self hg) b).1 h)
  · intro h
    cases h with
    | empty => rfl
    | call _ n a h d u h' s r _ hf h1 h2 h3 h4 =>
      have ha : a ≠ [] := by
        rintro rfl
        have e := h1.1
        have e2 := h2.1
        have : u = [] := by
          have : ([] : Str).length = (h ++ (d ++ u)).length := by rw [← e]
          simp only [List.length_append, List.length_nil] at this
          exact List.length_eq_zero_iff.1 (by omega)
        subst this
        have : h' = [] := by
          have : ([] : Str).length = (h' ++ (s ++ r)).length := by rw [← e2]
          simp only [List.length_append, List.length_nil] at this
          exact List.length_eq_zero_iff.1 (by omega)
        subst this
        cases h3
      have hw : w ≠ [] := by
        rintro rfl
        have e : parseFunc [] = .ok ([], none) := rfl
        rw [(func_iff _ _ _).2 hf] at e
        cases e
      obtain ⟨c, cs, rfl⟩ : ∃ c cs, w = c :: cs := by cases w with | nil => exact absurd rfl hw | cons c cs => exact ⟨c, cs, rfl⟩
      obtain ⟨p, ps, rfl⟩ : ∃ c cs, a = c :: cs := by cases a with | nil => exact absurd rfl ha | cons c cs => exact ⟨c, cs, rfl⟩
      unfold learnPending learnSingle
      dsimp only
      rw [(func_iff _ _ _).2 hf, ok_bind]
      dsimp only
      rw [tok_get h1]
      dsimp only
      rw [tok_get h2]
      dsimp only
      rw [show pyAssert (hasChar h' '=') = .ok () from pyAssert_iff.2 ((hasChar_iff _ _).2 h3), ok_bind]
      exact (flowModSpec_iff (token_self (tok_get h2)) (by intro d e; cases e; exact token_self (tok_get h1)) b).2 h4

/-! ## The loop -/

theorem learnKeys_iff (k : Str) : learnKeys.contains k = true ↔ ∃ w, (k, w) ∈ learnWidths := by
  rw [show learnKeys = learnWidths.map (·.1) by decide]
  simp

theorem learnKeys_not (k : Str) : learnKeys.contains k = false ↔ ∀ e ∈ learnWidths, e.1 ≠ k := by
  rw [← Bool.not_eq_true, learnKeys_iff]
  constructor
  · intro h e he e'
    exact h ⟨e.2, by rw [← e']; exact he⟩
  · rintro h ⟨w, hw⟩
    exact h _ hw rfl

/-- What may follow a word that has been read. -/
inductive LearnAfter (l : Str) (u : Str) (sets : List (Str × Int)) (b : Bytes) : Prop
  | set (h v r n i w sets') : Tok u h v r → '=' ∈ h → (l, w) ∈ learnWidths → IntSyntax v n i → LearnText r sets' b →
      sets = (l, n) :: sets' → LearnAfter l u sets b
  | spec (h s r x b') : Tok u h s r → '=' ∈ h → (∀ e ∈ learnWidths, e.1 ≠ l) → LearnSpec s (some l) none x →
      LearnText r sets b' → b = x ++ b' → LearnAfter l u sets b
  | word (x b') : NoEq u → LearnWord l x → LearnText u sets b' → b = x ++ b' → LearnAfter l u sets b

theorem tok_nil {h v r : Str} (t : Tok [] h v r) : h = [] ∧ v = [] ∧ r = [] := by
  have := tok_get t
  rw [show getToken [] = ([], [], []) from rfl] at this
  cases this
  exact ⟨rfl, rfl, rfl⟩

theorem noEq_nil : NoEq [] := by
  intro h t r ht
  rw [(tok_nil ht).1]
  simp

theorem learnText_nil {sets : List (Str × Int)} {b : Bytes} (h : LearnText [] sets b) : sets = [] ∧ b = [] := by
  generalize hu : ([] : Str) = u at h
  cases h with
  | nil => exact ⟨rfl, rfl⟩
  | set _ h k u' h' v r n l w sets b h1 h2 h3 h4 =>
    subst hu
    have := (tok_nil h1).2.2
    subst this
    have := (tok_nil h3).1
    subst this
    cases h4
  | spec _ h k u' h' v r n sets b h1 h2 h3 h4 =>
    subst hu
    have := (tok_nil h1).2.2
    subst this
    have := (tok_nil h3).1
    subst this
    cases h4
  | word _ h w r x sets b h0 => exact absurd hu.symm h0

/-- The text starts with a word, and what follows depends on it. -/
theorem learnText_step (u : Str) (hu : u ≠ []) (sets : List (Str × Int)) (b : Bytes) : LearnText u sets b ↔
    ∃ h l r, Tok u h l r ∧ '=' ∉ h ∧ LearnAfter l r sets b := by
  constructor
  · intro h
    cases h with
    | nil => exact absurd rfl hu
    | set _ h k u' h' v r n l w sets b h1 h2 h3 h4 h5 h6 h7 =>
      exact ⟨h, k, u', h1, h2, .set _ _ _ _ _ _ _ h3 h4 h5 h6 h7 rfl⟩
    | spec _ h d u' h' s r x sets b h1 h2 h3 h4 h5 h6 h7 =>
      exact ⟨h, d, u', h1, h2, .spec _ _ _ _ _ h3 h4 h5 h6 h7 rfl⟩
    | word _ h w r x sets b h0 h1 h2 h3 h4 h5 =>
      exact ⟨h, w, r, h1, h2, .word _ _ h3 h4 h5 rfl⟩
  · rintro ⟨h, l, r, h1, h2, h3⟩
    cases h3 with
    | set h' v r' n i w sets' h3 h4 h5 h6 h7 h8 =>
      subst h8
      exact .set _ _ _ _ _ _ _ _ _ _ _ _ h1 h2 h3 h4 h5 h6 h7
    | spec h' s r' x b' h3 h4 h5 h6 h7 h8 =>
      subst h8
      exact .spec _ _ _ _ _ _ _ _ _ _ h1 h2 h3 h4 h5 h6 h7
    | word x b' h3 h4 h5 h6 =>
      subst h6
      exact .word _ _ _ _ _ _ _ hu h1 h2 h3 h4 h5

theorem learnGo_succ (fuel : Nat) (info : List (Str × Int)) (left : Option Str) (u : Str) : learnGo (fuel + 1) info left u =
    (if u.isEmpty then do
      let b ← learnPending left
      .ok (info, b)
    else do
      let (h, arg, rest) := getToken u
      if hasChar h '=' then
        if (match left with | some l => learnKeys.contains l | none => false) then
          let (n, _) ← parseInt arg
          learnGo fuel ((left.getD [], n) :: info) none rest
        else
          let b ← flowModSpec arg left none
          let (info, specs) ← learnGo fuel info none rest
          .ok (info, b ++ specs)
      else
        let b ← learnPending left
        let (info, specs) ← learnGo fuel info (some arg) rest
        .ok (info, b ++ specs)) := rfl

theorem learnAfter_noEq {l u : Str} (hu : NoEq u) (sets : List (Str × Int)) (b : Bytes) : LearnAfter l u sets b ↔
    ∃ x b', LearnWord l x ∧ LearnText u sets b' ∧ b = x ++ b' := by
  constructor
  · intro h
    cases h with
    | set h' v r' n i w sets' h3 h4 h5 h6 h7 h8 => exact absurd h4 (hu _ _ _ h3)
    | spec h' s r' x b' h3 h4 h5 h6 h7 h8 => exact absurd h4 (hu _ _ _ h3)
    | word x b' h3 h4 h5 h6 => exact ⟨x, b', h4, h5, h6⟩
  · rintro ⟨x, b', h4, h5, h6⟩
    exact .word x b' hu h4 h5 h6

/-- What is left to read, after a word or at the start. -/
def LearnRest : Option Str → Str → List (Str × Int) → Bytes → Prop
  | none, u, sets, b => LearnText u sets b
  | some l, u, sets, b => LearnAfter l u sets b

theorem tok_noEq {u h t r : Str} (ht : Tok u h t r) (hh : '=' ∉ h) : NoEq u := by
  intro h' t' r' ht'
  have := (tok_get ht).symm.trans (tok_get ht')
  cases this
  exact hh

theorem notHas {h : Str} (hh : ¬ hasChar h '=' = true) : '=' ∉ h := fun k => hh ((hasChar_iff _ _).2 k)

theorem learnGo_sound (fuel : Nat) : ∀ (info : List (Str × Int)) (left : Option Str) (u : Str) (info' : List (Str × Int)) (b : Bytes),
    (∀ l, left = some l → getToken l = ([], l, [])) → learnGo fuel info left u = .ok (info', b) →
    ∃ sets, LearnRest left u sets b ∧ info' = sets.reverse ++ info := by
  induction fuel with
  | zero => intro info left u info' b _ h; cases h
  | succ fuel ih =>
    intro info left u info' b hl h
    rw [learnGo_succ] at h
    by_cases hu : u = []
    · subst hu
      rw [if_pos (show ([] : Str).isEmpty = true from rfl)] at h
      obtain ⟨x, h1, h⟩ := bind_iff.1 h
      cases h
      cases left with
      | none => cases h1; exact ⟨[], .nil, rfl⟩
      | some l => exact ⟨[], (learnAfter_noEq noEq_nil _ _).2 ⟨b, [], (learnWord_iff _ _).1 h1, .nil, by simp⟩, rfl⟩
    · rw [if_neg (by simpa using hu)] at h
      rcases hg : getToken u with ⟨hd, arg, rest⟩
      have ht := eq_tok hg
      rw [hg] at h
      dsimp only at h
      split at h
      · rename_i heq
        have heq := (hasChar_iff _ _).1 heq
        cases left with
        | none =>
          dsimp only at h
          rw [if_neg (by simp)] at h
          obtain ⟨x, h1, _⟩ := bind_iff.1 h
          unfold flowModSpec at h1
          obtain ⟨y, h2, h1⟩ := bind_iff.1 h1
          dsimp only at h1
          rw [if_neg (by simp)] at h1
          cases h1
        | some l =>
          dsimp only at h
          split at h
          · rename_i hk
            obtain ⟨w, hk⟩ := (learnKeys_iff l).1 hk
            obtain ⟨⟨n, i⟩, h1, h2⟩ := bind_iff.1 h
            obtain ⟨sets, h3, rfl⟩ := ih _ _ _ _ _ (by intro l e; cases e) h2
            exact ⟨(l, n) :: sets, .set hd arg rest n i w sets ht heq hk ((parseInt_iff _ _ _).1 h1) h3 rfl, by simp⟩
          · rename_i hk
            obtain ⟨x, h1, h2⟩ := bind_iff.1 h
            obtain ⟨⟨i2, b2⟩, h3, h4⟩ := bind_iff.1 h2
            cases h4
            obtain ⟨sets, h5, rfl⟩ := ih _ _ _ _ _ (by intro l e; cases e) h3
            exact ⟨sets, .spec hd arg rest x b2 ht heq ((learnKeys_not l).1 (by simpa using hk))
              ((flowModSpec_iff (token_self hg) hl x).1 h1) h5 rfl, rfl⟩
      · rename_i heq
        have heq := notHas heq
        obtain ⟨x, h1, h2⟩ := bind_iff.1 h
        obtain ⟨⟨i2, b2⟩, h3, h4⟩ := bind_iff.1 h2
        cases h4
        obtain ⟨sets, h5, rfl⟩ := ih _ _ _ _ _ (by intro l e; cases e; exact token_self hg) h3
        have h6 := (learnText_step u hu sets b2).2 ⟨hd, arg, rest, ht, heq, h5⟩
        refine ⟨sets, ?_, rfl⟩
        cases left with
        | none => cases h1; exact h6
        | some l => exact (learnAfter_noEq (tok_noEq ht heq) _ _).2 ⟨x, b2, (learnWord_iff _ _).1 h1, h6, rfl⟩

/-- Where no word can be read, the loop does not end. -/
theorem learnGo_stuck {u : Str} (hu : u ≠ []) (hg : getToken u = ([], [], u)) (fuel : Nat) :
    ∀ info left x, learnGo fuel info left u ≠ .ok x := by
  induction fuel with
  | zero => intro info left x h; cases h
  | succ fuel ih =>
    intro info left x h
    rw [learnGo_succ, if_neg (by simpa using hu), hg] at h
    dsimp only at h
    rw [if_neg (show ¬ hasChar [] '=' = true by decide)] at h
    obtain ⟨y, _, h2⟩ := bind_iff.1 h
    obtain ⟨z, h3, _⟩ := bind_iff.1 h2
    exact ih _ _ _ h3

/-- The loop as one step. -/
theorem learnGo_fuel (f : Nat) : ∀ (info : List (Str × Int)) (left : Option Str) (u : Str) (x : List (Str × Int) × Bytes),
    learnGo f info left u = .ok x → ∀ g, u.length < g → learnGo g info left u = .ok x := by
  induction f with
  | zero => intro info left u x h; cases h
  | succ f ih =>
    intro info left u x h g hg
    obtain ⟨g, rfl⟩ : ∃ k, g = k + 1 := ⟨g - 1, by omega⟩
    by_cases hu : u = []
    · subst hu
      rw [learnGo_succ, if_pos (show ([] : Str).isEmpty = true from rfl)] at h ⊢
      exact h
    · rcases ht : getToken u with ⟨hd, arg, rest⟩
      have hlt : rest.length < g := by
        have h1 := (eq_tok ht).1
        have h2 : u.length = hd.length + (arg.length + rest.length) := by rw [h1]; simp
        by_contra hc
        have ha : hd = [] := List.length_eq_zero_iff.1 (by omega)
        have hb : arg = [] := List.length_eq_zero_iff.1 (by omega)
        subst ha; subst hb
        have : u = rest := by simpa using h1
        subst this
        exact learnGo_stuck hu ht _ _ _ _ h
      rw [learnGo_succ, if_neg (by simpa using hu), ht] at h ⊢
      dsimp only at h ⊢
      by_cases heq : hasChar hd '=' = true
      · rw [if_pos heq] at h ⊢
        by_cases hk : (match (generalizing := false) left with | some l => learnKeys.contains l | none => false) = true
        · rw [if_pos hk] at h ⊢
          obtain ⟨n, h1, h2⟩ := bind_iff.1 h
          exact bind_iff.2 ⟨n, h1, ih _ _ _ _ h2 g hlt⟩
        · rw [if_neg hk] at h ⊢
          obtain ⟨n, h1, h2⟩ := bind_iff.1 h
          obtain ⟨y, h3, h4⟩ := bind_iff.1 h2
          exact bind_iff.2 ⟨n, h1, bind_iff.2 ⟨y, ih _ _ _ _ h3 g hlt, h4⟩⟩
      · rw [if_neg heq] at h ⊢
        obtain ⟨n, h1, h2⟩ := bind_iff.1 h
        obtain ⟨y, h3, h4⟩ := bind_iff.1 h2
        exact bind_iff.2 ⟨n, h1, bind_iff.2 ⟨y, ih _ _ _ _ h3 g hlt, h4⟩⟩

theorem learnGo_word {l u : Str} (hu : NoEq u) (f : Nat) (info info' : List (Str × Int)) (x b : Bytes)
    (h1 : learnPending (some l) = .ok x) (h2 : learnGo f info none u = .ok (info', b)) :
    learnGo f info (some l) u = .ok (info', x ++ b) := by
  cases f with
  | zero => cases h2
  | succ f =>
    by_cases he : u = []
    · subst he
      rw [learnGo_succ, if_pos (show ([] : Str).isEmpty = true from rfl)] at h2 ⊢
      cases h2
      rw [h1, ok_bind]
      simp
    · rcases ht : getToken u with ⟨hd, arg, rest⟩
      have hh : ¬ hasChar hd '=' = true := fun k => hu _ _ _ (eq_tok ht) ((hasChar_iff _ _).1 k)
      rw [learnGo_succ, if_neg (by simpa using he), ht] at h2 ⊢
      dsimp only at h2 ⊢
      rw [if_neg hh] at h2 ⊢
      rw [h1, ok_bind]
      obtain ⟨y, h3, h4⟩ := bind_iff.1 h2
      cases h3
      obtain ⟨z, h5, h6⟩ := bind_iff.1 h4
      refine bind_iff.2 ⟨z, h5, ?_⟩
      cases h6
      rfl

theorem learnGo_complete {u : Str} {sets : List (Str × Int)} {b : Bytes} (h : LearnText u sets b) :
    ∀ info, ∃ f, learnGo f info none u = .ok (sets.reverse ++ info, b) := by
  induction h with
  | nil => intro info; exact ⟨1, rfl⟩
  | set u h k u' h' v r n l w sets b h1 h2 h3 h4 h5 h6 h7 ih =>
    intro info
    obtain ⟨f, hf⟩ := ih ((k, n) :: info)
    refine ⟨f + 2, ?_⟩
    have hu' : u' ≠ [] := by rintro rfl; rw [(tok_nil h3).1] at h4; cases h4
    have hu : u ≠ [] := by rintro rfl; exact hu' (tok_nil h1).2.2
    rw [learnGo_succ, if_neg (by simpa using hu), tok_get h1]
    dsimp only
    rw [if_neg (fun k => h2 ((hasChar_iff _ _).1 k)), show learnPending none = .ok [] from rfl, ok_bind]
    refine bind_iff.2 ⟨(((k, n) :: sets).reverse ++ info, b), ?_, rfl⟩
    rw [learnGo_succ, if_neg (by simpa using hu'), tok_get h3]
    dsimp only
    rw [if_pos ((hasChar_iff _ _).2 h4), if_pos ((learnKeys_iff k).2 ⟨w, h5⟩), (parseInt_iff _ _ _).2 h6, ok_bind]
    simpa using hf
  | spec u h d u' h' s r x sets b h1 h2 h3 h4 h5 h6 h7 ih =>
    intro info
    obtain ⟨f, hf⟩ := ih info
    refine ⟨f + 2, ?_⟩
    have hu' : u' ≠ [] := by rintro rfl; rw [(tok_nil h3).1] at h4; cases h4
    have hu : u ≠ [] := by rintro rfl; exact hu' (tok_nil h1).2.2
    rw [learnGo_succ, if_neg (by simpa using hu), tok_get h1]
    dsimp only
    rw [if_neg (fun k => h2 ((hasChar_iff _ _).1 k)), show learnPending none = .ok [] from rfl, ok_bind]
    refine bind_iff.2 ⟨(sets.reverse ++ info, x ++ b), ?_, rfl⟩
    rw [learnGo_succ, if_neg (by simpa using hu'), tok_get h3]
    dsimp only
    rw [if_pos ((hasChar_iff _ _).2 h4), if_neg (by rw [(learnKeys_not d).2 h5]; simp)]
    rw [(flowModSpec_iff (token_self (tok_get h3)) (by intro e he; cases he; exact token_self (tok_get h1)) x).2 h6, ok_bind, hf, ok_bind]
  | word u h w r x sets b h0 h1 h2 h3 h4 h5 ih =>
    intro info
    obtain ⟨f, hf⟩ := ih info
    refine ⟨f + 1, ?_⟩
    rw [learnGo_succ, if_neg (by simpa using h0), tok_get h1]
    dsimp only
    rw [if_neg (fun k => h2 ((hasChar_iff _ _).1 k)), show learnPending none = .ok [] from rfl, ok_bind,
      learnGo_word h3 f info _ x b ((learnWord_iff _ _).2 h4) hf, ok_bind]
    rfl

theorem learnGo_iff (u : Str) (info : List (Str × Int)) (b : Bytes) : learnGo (u.length + 1) [] none u = .ok (info, b) ↔
    ∃ sets, LearnText u sets b ∧ info = sets.reverse := by
  constructor
  · intro h
    obtain ⟨sets, h1, h2⟩ := learnGo_sound _ _ _ _ _ _ (by intro l e; cases e) h
    exact ⟨sets, h1, by simpa using h2⟩
  · rintro ⟨sets, h, rfl⟩
    obtain ⟨f, hf⟩ := learnGo_complete h []
    simpa using learnGo_fuel f _ _ _ _ hf (u.length + 1) (by omega)

theorem learnInfo_last (sets : List (Str × Int)) (k : Str) : learnInfo sets.reverse k = lastSet sets k := by
  unfold learnInfo lastSet
  rw [← List.head?_filter, List.filter_reverse, List.head?_reverse]
  simp only [Bool.beq_eq_decide_eq, beq_eq_decide]
  cases (List.filter (fun e => decide (e.1 = k)) sets).getLast? <;> rfl

theorem learn_made : NxMade t!"learn" learnRaw := by
  intro u eq bin n
  unfold learnRaw rawArg
  constructor
  · intro h
    cases eq with
    | true => cases h
    | false =>
      rw [if_neg (by simp)] at h
      obtain ⟨⟨info, specs⟩, h1, h2⟩ := bind_iff.1 h
      obtain ⟨sets, h3, rfl⟩ := (learnGo_iff _ _ _).1 h1
      dsimp only at h2
      simp only [learnInfo_last] at h2
      obtain ⟨x, h4, h5⟩ := bind_iff.1 h2
      obtain ⟨y, h6, h7⟩ := bind_iff.1 h5
      cases h7
      refine ⟨16, x ++ (pad 1 ++ (y ++ specs)), ⟨[], .learn u sets specs x y h3 ((packed_iff _ _).1 h4) ((packed_iff _ _).1 h6), by simp⟩, ?_⟩
      rw [spec_pad]
      rfl
  · rintro ⟨t, body, ⟨r, h, rfl⟩, rfl⟩
    generalize hn : t!"learn" = name at h
    cases h with
    | learn _ sets b x y h1 h2 h3 =>
      rw [if_neg (by simp), (learnGo_iff _ _ _).2 ⟨sets, h1, rfl⟩, ok_bind]
      dsimp only
      simp only [learnInfo_last]
      rw [(packed_iff _ _).2 h2, ok_bind, (packed_iff _ _).2 h3, ok_bind, spec_pad]
      simp [NXAST_LEARN]
    | _ => nx_other hn

theorem learn_exact : NxExact t!"learn" learnStr2act := learn_made.exact

end Ofpstr
