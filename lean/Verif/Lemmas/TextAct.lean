import Verif.Lemmas.TextArgs

/-!
# Exactly which texts are actions
-/

set_option linter.unusedSimpArgs false

namespace Ofpstr
open Spec

/-! ## Tokens -/

theorem token_first {c : Char} {t : Str} (h : Token (c :: t) ∨ OpenToken (c :: t)) : ¬ SepChar c ∧ c ≠ '=' := by
  have pr : ∀ o e, Pair o e → ¬ SepChar o ∧ o ≠ '=' := by intro o e h; cases h <;> decide
  rcases h with h | h
  · generalize hs : c :: t = s at h
    cases h with
    | nil => cases hs
    | char d s h1 h2 => cases hs; exact ⟨h1, h2⟩
    | group o e p s h => cases hs; exact pr _ _ h
  · generalize hs : c :: t = s at h
    cases h with
    | start o e s h => cases hs; exact pr _ _ h
    | char d s h1 h2 => cases hs; exact ⟨h1, h2⟩
    | group o e p s h => cases hs; exact pr _ _ h

theorem token_tail {c : Char} {t : Str} (hc : NotOpen c) (h : Token (c :: t)) : Token t := by
  generalize hs : c :: t = s at h
  cases h with
  | nil => cases hs
  | char d s h1 h2 _ h4 => cases hs; exact h4
  | group o e p s h => cases hs; exact absurd hc (pair_notOpen h)

theorem openToken_tail {c : Char} {t : Str} (hc : NotOpen c) (h : OpenToken (c :: t)) : OpenToken t := by
  generalize hs : c :: t = s at h
  cases h with
  | start o e s h => cases hs; exact absurd hc (pair_notOpen h)
  | char d s h1 h2 _ h4 => cases hs; exact h4
  | group o e p s h => cases hs; exact absurd hc (pair_notOpen h)

theorem token_drop {n t : Str} (hn : ∀ c ∈ n, NotOpen c) (h : Token (n ++ t)) : Token t := by
  induction n with
  | nil => exact h
  | cons c n ih => exact ih (fun x hx => hn x (by simp [hx])) (token_tail (hn c (by simp)) h)

theorem openToken_drop {n t : Str} (hn : ∀ c ∈ n, NotOpen c) (h : OpenToken (n ++ t)) : OpenToken t := by
  induction n with
  | nil => exact h
  | cons c n ih => exact ih (fun x hx => hn x (by simp [hx])) (openToken_tail (hn c (by simp)) h)

theorem space_notOpen {c : Char} (h : Space c) : NotOpen c := by
  have key : ∀ d ∈ t!"({[<", ¬ Space d := by decide
  unfold NotOpen
  refine ⟨?_, ?_, ?_, ?_⟩ <;> rintro rfl <;> exact key _ (by decide) h

theorem not_space_eq : ¬ Space '=' := by decide

/-- What was read is read again, without what follows. -/
theorem tok_cut {u h v r : Str} (t : Tok u h v r) : Tok (h ++ v) h v [] := by
  obtain ⟨h1, h2, h3⟩ := t
  have hstart : ∀ c t, v = c :: t → ∀ r', u = h ++ r' → ∃ t', r' = c :: t' := by
    intro c t e r' e2
    rw [h1, e] at e2
    exact ⟨t ++ r, (List.append_cancel_left e2).symm⟩
  refine ⟨by simp, ?_, ?_⟩
  · generalize hu : u = u' at h2
    cases h2 with
    | eq w1 w2 q k1 k2 k3 =>
      have e : q = v ++ r := by
        rw [h1] at hu
        exact (List.append_cancel_left hu).symm
      refine .eq w1 w2 v k1 k2 ?_
      intro c t hv
      exact k3 c (t ++ r) (by rw [e, hv]; rfl)
    | run _ q k1 k2 k3 =>
      have e : q = v ++ r := by
        rw [h1] at hu
        exact (List.append_cancel_left hu).symm
      refine .run h v ?_ k2 ?_
      · intro w t hw
        refine k1 w (t ++ r) ?_
        rw [e, ← List.append_assoc, hw]
        simp
      · intro c t hv
        exact k3 c (t ++ r) (by rw [e, hv]; rfl)
  · rcases h3 with ⟨h3, _⟩ | ⟨h3, _⟩
    · exact Or.inl ⟨h3, by intro c t e; cases e⟩
    · exact Or.inr ⟨h3, rfl⟩

theorem boundary_cut {u h v r : Str} (t : Tok u h v r) (hb : Boundary u) : Boundary (h ++ v) := by
  intro c q e
  have : u = c :: (q ++ r) := by rw [t.1, ← List.append_assoc, e]; rfl
  exact hb _ _ this

/-- White space in front of a token is separator text. -/
theorem tok_spaces {sp x y : Str} (hs : ∀ c ∈ sp, Space c) (hx : x ≠ []) (hf : ∀ c t, x = c :: t → ¬ Space c)
    (ht : (Token x ∧ Boundary y) ∨ (OpenToken x ∧ y = [])) : Tok (sp ++ (x ++ y)) sp x y := by
  refine ⟨rfl, ?_, ht⟩
  obtain ⟨c, t, rfl⟩ : ∃ c t, x = c :: t := by cases x with | nil => exact absurd rfl hx | cons c t => exact ⟨c, t, rfl⟩
  have hc := token_first (c := c) (t := t) (by rcases ht with ⟨h, _⟩ | ⟨h, _⟩; exact Or.inl h; exact Or.inr h)
  have hns := hf c t rfl
  refine .run sp (c :: t ++ y) ?_ (fun d hd => Or.inl (hs d hd)) ?_
  · intro w q e
    by_contra hw
    have hw : ∀ d ∈ w, Space d := by
      intro d hd
      by_contra h
      exact hw ⟨d, hd, h⟩
    rcases List.append_eq_append_iff.1 e with ⟨a, e1, e2⟩ | ⟨a, e1, e2⟩
    · cases a with
      | nil =>
        simp only [List.nil_append, List.cons_append, List.cons.injEq] at e2
        exact hc.2 e2.1
      | cons d a =>
        simp only [List.cons_append, List.cons.injEq] at e2
        apply hns
        rw [e2.1]
        exact hw d (by rw [e1]; simp)
    · cases a with
      | nil =>
        simp only [List.nil_append, List.cons_append, List.cons.injEq] at e2
        exact hc.2 e2.1.symm
      | cons d a =>
        simp only [List.cons_append, List.cons.injEq] at e2
        apply not_space_eq
        rw [e2.1]
        exact hs d (by rw [e1]; simp)
  · intro d q e
    simp only [List.cons_append, List.cons.injEq] at e
    rw [← e.1]
    refine ⟨hns, ?_⟩
    rintro rfl
    exact hc.1 (by decide)

/-- The leading white space. -/
theorem split_spaces (x : Str) : ∃ sp x', x = sp ++ x' ∧ (∀ c ∈ sp, Space c) ∧ ∀ c t, x' = c :: t → ¬ Space c := by
  induction x with
  | nil => exact ⟨[], [], rfl, by simp, by simp⟩
  | cons c x ih =>
    by_cases hc : Space c
    · obtain ⟨sp, x', rfl, h1, h2⟩ := ih
      exact ⟨c :: sp, x', rfl, by intro d hd; rcases List.mem_cons.1 hd with rfl | hd; exact hc; exact h1 d hd, h2⟩
    · exact ⟨[], c :: x, rfl, by simp, by intro d t e; cases e; exact hc⟩

/-- Where only white space stands before the separator text, it belongs to it. -/
theorem tok_blank {sp op v : Str} (hs : ∀ c ∈ sp, Space c) (ht : Tok (op ++ v) op v []) :
    Tok (sp ++ (op ++ v)) (sp ++ op) v [] := by
  obtain ⟨h1, h2, h3⟩ := ht
  refine ⟨by simp, ?_, h3⟩
  generalize hu : op ++ v = u at h2
  cases h2 with
  | eq w1 w2 q k1 k2 k3 =>
    have e := List.append_cancel_left hu
    subst e
    have := HeadOf.eq (sp ++ w1) w2 v (by
      intro c hc
      rcases List.mem_append.1 hc with h | h
      · exact hs c h
      · exact k1 c h) k2 k3
    simpa using this
  | run _ q k1 k2 k3 =>
    have e := List.append_cancel_left hu
    subst e
    have := HeadOf.run (sp ++ op) v ?_ (by
      intro c hc
      rcases List.mem_append.1 hc with h | h
      · exact Or.inl (hs c h)
      · exact k2 c h) k3
    · simpa using this
    · intro w t e
      rw [List.append_assoc] at e
      rcases List.append_eq_append_iff.1 e with ⟨a, e1, e2⟩ | ⟨a, e1, e2⟩
      · obtain ⟨c, hc, hn⟩ := k1 a t e2
        exact ⟨c, by rw [e1]; simp [hc], hn⟩
      · cases a with
        | nil =>
          simp only [List.nil_append] at e2
          obtain ⟨c, hc, _⟩ := k1 [] t e2.symm
          cases hc
        | cons d a =>
          simp only [List.cons_append, List.cons.injEq] at e2
          exact absurd (hs '=' (by rw [e1, e2.1]; simp)) not_space_eq

/-! ## Setting fields -/

/-- The value of a match made of a name and an argument is the argument. -/
theorem setItem {x op v w r : Str} {t : Tlv} (hx : (Token x ∧ Boundary (op ++ v)) ∨ (OpenToken x ∧ op ++ v = []))
    (hy : Tok (op ++ v) op v []) (hi : MatchItem (x ++ (op ++ v)) w t r) :
    (w = v ∧ r = []) ∧ ∃ sp, x = sp ++ t.field.name ∧ ∀ c ∈ sp, Space c := by
  obtain ⟨hd, op', r1, h1, h2, h3, h4, h5, _⟩ := hi
  obtain ⟨sp, x', rfl, k1, k2⟩ := split_spaces x
  by_cases he : x' = []
  · subst he
    rw [List.append_nil] at h1
    have := (tok_get (tok_blank k1 hy)).symm.trans (tok_get h1)
    cases this
    rw [(tok_nil h2).1] at h4
    cases h4
  · have hn : ∀ c ∈ sp, NotOpen c := fun c hc => space_notOpen (k1 c hc)
    have ht : (Token x' ∧ Boundary (op ++ v)) ∨ (OpenToken x' ∧ op ++ v = []) := by
      rcases hx with ⟨h, hb⟩ | ⟨h, hb⟩
      · exact Or.inl ⟨token_drop hn h, hb⟩
      · exact Or.inr ⟨openToken_drop hn h, hb⟩
    rw [List.append_assoc] at h1
    have := (tok_get (tok_spaces k1 he k2 ht)).symm.trans (tok_get h1)
    cases this
    have := (tok_get hy).symm.trans (tok_get h2)
    cases this
    exact ⟨⟨rfl, rfl⟩, _, rfl, k1⟩

theorem set_notAct {sp : Str} {f : Field} (hf : f ∈ fields) (hs : ∀ c ∈ sp, Space c) : t!"set_" ++ (sp ++ f.name) ∉ actNames := by
  intro h
  have key : ∀ n ∈ actNames, ∀ c ∈ n, ¬ Space c := by decide +kernel
  have key2 : ∀ f ∈ fields, t!"set_" ++ f.name ∉ actNames := by decide +kernel
  cases sp with
  | nil => exact key2 f hf h
  | cons c sp => exact key _ h c (by simp) (hs c (by simp))

theorem lookupAct_none {name : Str} (h : name ∉ actNames) : lookupAct name = none := by
  cases hk : lookupAct name with
  | none => rfl
  | some k => exact absurd ((lookupAct_isSome name).2 ⟨k, hk⟩) h

theorem actNames_bare {w : Str} (h : w ∈ actNames) : Func w w none := by
  have key : ∀ n ∈ actNames, ∀ c ∈ n, NotOpen c := by decide +kernel
  exact .bare w (key w h)

theorem prefix_iff (w p : Str) : startsWith w p = true ↔ ∃ x, w = p ++ x := by
  unfold startsWith
  rw [List.isPrefixOf_iff_prefix]
  constructor
  · rintro ⟨x, rfl⟩; exact ⟨x, rfl⟩
  · rintro ⟨x, rfl⟩; exact ⟨x, rfl⟩

/-- The name before the brackets starts as the whole. -/
theorem func_prefix {w n x : Str} {a : Option Str} (p : Str) (hp : ∀ c ∈ p, NotOpen c) (hw : w = p ++ x) (h : Func w n a) :
    ∃ y, n = p ++ y := by
  subst hw
  have key : ∀ (q : Str) (o : Char), ¬ NotOpen o → p ++ x = n ++ o :: q → ∃ y, n = p ++ y := by
    intro q o ho e
    rcases List.append_eq_append_iff.1 e with ⟨y, e1, _⟩ | ⟨y, e1, e2⟩
    · exact ⟨y, e1⟩
    · cases y with
      | nil => exact ⟨[], by rw [e1]; simp⟩
      | cons d y =>
        simp only [List.cons_append, List.cons.injEq] at e2
        exact absurd (hp o (by rw [e1, e2.1]; simp)) ho
  generalize hw : p ++ x = w at h
  cases h with
  | bare _ _ => exact ⟨x, hw.symm⟩
  | call _ o e q _ h2 _ => exact key _ o (pair_notOpen h2) hw
  | cut _ o e q _ h2 _ => exact key _ o (pair_notOpen h2) hw

theorem setAct_iff (oxm b : Bytes) : setFieldAct oxm = .ok b ↔ (setFieldWire oxm).length < 65536 ∧ b = setFieldWire oxm := by
  rw [setFieldAct_eq]
  constructor
  · intro h
    split at h
    · rename_i hl; cases h; exact ⟨hl, rfl⟩
    · cases h
  · rintro ⟨h, rfl⟩; rw [if_pos h]

theorem setWire_nil : (setFieldWire []).length < 65536 := by decide

/-- One field, of a text that is not empty. -/
theorem oxm1_iff {u : Str} (hu : u ≠ []) (oxm : Bytes) (n : Nat) : str2oxm1 u = .ok (oxm, n) ↔
    ∃ v t r, MatchItem u v t r ∧ oxm = (if v = [] then [] else t.cut) ∧ n = u.length - r.length := by
  rw [str2oxm1_matchItem]
  constructor
  · rintro (⟨h, _⟩ | ⟨t, r, h, h2, h3⟩ | ⟨v, t, r, h, h1, h2, h3⟩)
    · exact absurd h hu
    · exact ⟨[], t, r, h, by rw [if_pos rfl]; exact h2, h3⟩
    · exact ⟨v, t, r, h, by rw [if_neg h1]; exact h2, h3⟩
  · rintro ⟨v, t, r, h, h2, h3⟩
    right
    by_cases hv : v = []
    · subst hv
      exact Or.inl ⟨t, r, h, by rw [if_pos rfl] at h2; exact h2, h3⟩
    · exact Or.inr ⟨v, t, r, h, hv, by rw [if_neg hv] at h2; exact h2, h3⟩

theorem setLen_iff (v : Str) (t : Tlv) : (setFieldWire (if v = [] then [] else t.cut)).length < 65536 ↔
    (v ≠ [] → (setFieldWire t.cut).length < 65536) := by
  by_cases hv : v = []
  · rw [if_pos hv]
    exact ⟨fun _ h => absurd hv h, fun _ => setWire_nil⟩
  · rw [if_neg hv]
    exact ⟨fun h _ => h, fun h => h hv⟩

theorem setCall_form {s h w r x a h' v r' : Str} (hw : Tok s h w r) (hf : Func w (t!"set_" ++ x) (some a)) (hv : Tok a h' v r') :
    ((Token x ∧ Boundary (['='] ++ v)) ∨ (OpenToken x ∧ ['='] ++ v = [])) ∧ Tok (['='] ++ v) ['='] v [] := by
  have hself := token_self (tok_get hv)
  have htx : Token x := by
    obtain ⟨hno, y, hy⟩ := func_name hf
    have hch := name_chars hno (t := y) (by
      rw [← hy]
      rcases hw.2.2 with ⟨h, _⟩ | ⟨h, _⟩
      · exact Or.inl h
      · exact Or.inr h)
    exact token_of_chars (fun c hc => hno c (by simp [hc])) (fun c hc => hch c (by simp [hc]))
  refine ⟨Or.inl ⟨htx, by intro c t e; cases e; exact Or.inr rfl⟩, ?_⟩
  have hv2 := eq_tok hself
  refine ⟨by simp, ?_, hv2.2.2⟩
  have := headOf_nil_start hv2.2.1
  exact HeadOf.eq [] [] v (by simp) (by simp) (fun c t e => (this c t e).1)

theorem setPlain_form {s h x u op v r : Str} (hw : Tok s h (t!"set_" ++ x) u) (hv : Tok u op v r) :
    ((Token x ∧ Boundary (op ++ v)) ∨ (OpenToken x ∧ op ++ v = [])) ∧ Tok (op ++ v) op v [] := by
  have hno : ∀ c ∈ t!"set_", NotOpen c := by decide
  refine ⟨?_, tok_cut hv⟩
  rcases hw.2.2 with ⟨h1, h2⟩ | ⟨h1, h2⟩
  · exact Or.inl ⟨token_drop hno h1, boundary_cut hv h2⟩
  · subst h2
    refine Or.inr ⟨openToken_drop hno h1, ?_⟩
    obtain ⟨rfl, rfl, _⟩ := tok_nil hv
    rfl

/-- `set_` with the argument in brackets. -/
theorem setCall_iff {s h w r n : Str} {a : Str} (hw : Tok s h w r) (hf : Func w n (some a)) {x h' v r' : Str} (hn : n = t!"set_" ++ x)
    (hv : Tok a h' v r') (b : Bytes) : (do
      let (oxm, _) ← str2oxm1 (n.drop 4 ++ '=' :: v)
      let b ← setFieldAct oxm
      .ok (b, h.length + w.length) : Py (Bytes × Nat)) = .ok (b, h.length + w.length) ↔
    ∃ t, MatchItem (x ++ '=' :: v) v t [] ∧ (v ≠ [] → (setFieldWire t.cut).length < 65536) ∧
      b = setFieldWire (if v = [] then [] else t.cut) := by
  subst hn
  rw [show (t!"set_" ++ x).drop 4 = x from rfl]
  obtain ⟨hx, hy⟩ := setCall_form hw hf hv
  constructor
  · intro hh
    obtain ⟨⟨oxm, p⟩, h1, h2⟩ := bind_iff.1 hh
    obtain ⟨b', h3, h4⟩ := bind_iff.1 h2
    cases h4
    obtain ⟨w', t, q, h5, h6, _⟩ := (oxm1_iff (by simp) _ _).1 h1
    obtain ⟨⟨rfl, rfl⟩, _⟩ := setItem hx hy h5
    obtain ⟨h7, h8⟩ := (setAct_iff _ _).1 h3
    subst h6
    exact ⟨t, h5, (setLen_iff _ _).1 h7, h8⟩
  · rintro ⟨t, h1, h2, rfl⟩
    rw [(oxm1_iff (by simp) _ _).2 ⟨v, t, [], h1, rfl, rfl⟩, ok_bind]
    dsimp only
    rw [(setAct_iff _ _).2 ⟨(setLen_iff _ _).2 h2, rfl⟩, ok_bind]

/-- `set_` with the argument behind it. -/
theorem setPlain_iff {s h x u op v r : Str} (hw : Tok s h (t!"set_" ++ x) u) (hv : Tok u op v r) (b : Bytes) (n : Nat) : (do
      let (oxm, p) ← str2oxm1 ((t!"set_" ++ x).drop 4 ++ (op ++ v))
      let b ← setFieldAct oxm
      .ok (b, h.length + 4 + p) : Py (Bytes × Nat)) = .ok (b, n) ↔
    (x = [] ∧ u = [] ∧ b = setFieldWire [] ∧ n = s.length) ∨
    ∃ t, MatchItem (x ++ (op ++ v)) v t [] ∧ (v ≠ [] → (setFieldWire t.cut).length < 65536) ∧
      b = setFieldWire (if v = [] then [] else t.cut) ∧ n = s.length - r.length := by
  rw [show (t!"set_" ++ x).drop 4 = x from rfl]
  obtain ⟨hx, hy⟩ := setPlain_form hw hv
  have hlen : s.length = h.length + 4 + x.length + op.length + v.length + r.length := by
    rw [hw.1, hv.1]
    simp
    omega
  by_cases hT : x ++ (op ++ v) = []
  · have h1 : x = [] := (List.append_eq_nil_iff.1 hT).1
    have h2 : op = [] := (List.append_eq_nil_iff.1 (List.append_eq_nil_iff.1 hT).2).1
    have h3 : v = [] := (List.append_eq_nil_iff.1 (List.append_eq_nil_iff.1 hT).2).2
    have h4 : u = [] := by
      subst h1; subst h2; subst h3
      cases u with
      | nil => rfl
      | cons c t =>
        exfalso
        have hb : SepChar c ∨ c = '=' := by
          rcases hw.2.2 with ⟨_, hb⟩ | ⟨_, hb⟩
          · exact hb c t rfl
          · cases hb
        obtain ⟨hns, hnc⟩ := headOf_nil_start hv.2.1 c t rfl
        rcases hb with hb | rfl
        · unfold SepChar at hb
          rcases hb with rfl | rfl | rfl | rfl | rfl | rfl | rfl
          · exact hnc rfl
          all_goals exact hns (by decide)
        · have hh := hv.2.1
          generalize hz : '=' :: t = z at hh
          generalize hq : ([] : Str) = q at hh
          cases hh with
          | eq w1 w2 r _ _ _ => simp at hq
          | run _ r k1 _ _ =>
            subst hq
            obtain ⟨c, hc, _⟩ := k1 [] t (by rw [hz]; rfl)
            cases hc
    rw [hT]
    constructor
    · intro hh
      rw [show str2oxm1 [] = .ok ([], 0) from rfl, ok_bind] at hh
      dsimp only at hh
      rw [(setAct_iff _ _).2 ⟨setWire_nil, rfl⟩, ok_bind] at hh
      cases hh
      left
      refine ⟨h1, h4, rfl, ?_⟩
      rw [hlen, h1, h2, h3]
      have : r = [] := by
        have := hv.1
        rw [h4, h2, h3] at this
        exact this.symm
      rw [this]
      rfl
    · rintro (⟨_, _, rfl, rfl⟩ | ⟨t, h5, _⟩)
      · rw [show str2oxm1 [] = .ok ([], 0) from rfl, ok_bind]
        dsimp only
        rw [(setAct_iff _ _).2 ⟨setWire_nil, rfl⟩, ok_bind, hlen, h1, h2, h3]
        have : r = [] := by
          have := hv.1
          rw [h4, h2, h3] at this
          exact this.symm
        rw [this]
        rfl
      · exact absurd rfl (matchItem_ne h5)
  · constructor
    · intro hh
      right
      obtain ⟨⟨oxm, p⟩, h1, h2⟩ := bind_iff.1 hh
      obtain ⟨b', h3, h4⟩ := bind_iff.1 h2
      cases h4
      obtain ⟨w', t, q, h5, h6, h7⟩ := (oxm1_iff hT _ _).1 h1
      obtain ⟨⟨rfl, rfl⟩, _⟩ := setItem hx hy h5
      obtain ⟨h8, h9⟩ := (setAct_iff _ _).1 h3
      subst h6
      refine ⟨t, h5, (setLen_iff _ _).1 h8, h9, ?_⟩
      rw [h7, hlen]
      simp
      omega
    · rintro (⟨rfl, rfl, _⟩ | ⟨t, h1, h2, rfl, rfl⟩)
      · obtain ⟨rfl, rfl, _⟩ := tok_nil hv
        exact absurd rfl hT
      · rw [(oxm1_iff hT _ _).2 ⟨v, t, [], h1, rfl, rfl⟩, ok_bind]
        dsimp only
        rw [(setAct_iff _ _).2 ⟨(setLen_iff _ _).2 h2, rfl⟩, ok_bind]
        simp only [List.length_append, List.length_nil, Nat.sub_zero]
        congr 2
        omega

/-! ## `str2act` -/

theorem act_call {s h w u n : Str} {c : Char} {cs : Str} {k : ActEnc} (hg : Tok s h w u) (hf : Func w n (some (c :: cs)))
    (hk : lookupAct n = some k) : str2act s = (do
      let (b, _) ← runActEnc k (c :: cs) false
      .ok (b, h.length + w.length) : Py (Bytes × Nat)) := by
  unfold str2act
  rw [tok_get hg]
  dsimp only
  rw [(func_iff _ _ _).2 hf, ok_bind]
  dsimp only
  rw [hk]

theorem act_plain {s h w u n : Str} {a : Option Str} {k : ActEnc} (hg : Tok s h w u) (hf : Func w n a)
    (ha : NoArg a ∨ lookupAct n = none) (hk : lookupAct w = some k) : str2act s = (do
      let (b, p) ← runActEnc k u true
      .ok (b, h.length + w.length + p) : Py (Bytes × Nat)) := by
  unfold str2act
  rw [tok_get hg]
  dsimp only
  rw [(func_iff _ _ _).2 hf, ok_bind]
  rcases ha with (rfl | rfl) | ha
  · dsimp only; rw [hk]
  · dsimp only; rw [hk]
  · rcases a with _ | _ | ⟨c, cs⟩
    · dsimp only; rw [hk]
    · dsimp only; rw [hk]
    · dsimp only; rw [ha, hk]

theorem act_setCall {s h w u n : Str} {c : Char} {cs : Str} (hg : Tok s h w u) (hf : Func w n (some (c :: cs)))
    (ha : lookupAct n = none) (hk : lookupAct w = none) (hs : startsWith w t!"set_" = true) {h' v r' : Str} (hv : Tok (c :: cs) h' v r') :
    str2act s = (do
      let (oxm, _) ← str2oxm1 (n.drop 4 ++ '=' :: v)
      let b ← setFieldAct oxm
      .ok (b, h.length + w.length) : Py (Bytes × Nat)) := by
  unfold str2act
  rw [tok_get hg]
  dsimp only
  rw [(func_iff _ _ _).2 hf, ok_bind]
  dsimp only
  rw [ha, hk]
  dsimp only
  rw [if_pos hs, tok_get hv]

theorem act_setPlain {s h w u n : Str} {a : Option Str} (hg : Tok s h w u) (hf : Func w n a)
    (ha : NoArg a) (hk : lookupAct w = none) (hs : startsWith w t!"set_" = true) {op v r : Str} (hv : Tok u op v r) :
    str2act s = (do
      let (oxm, p) ← str2oxm1 (w.drop 4 ++ (op ++ v))
      let b ← setFieldAct oxm
      .ok (b, h.length + 4 + p) : Py (Bytes × Nat)) := by
  unfold str2act
  rw [tok_get hg]
  dsimp only
  rw [(func_iff _ _ _).2 hf, ok_bind]
  rcases ha with rfl | rfl <;> dsimp only <;> rw [hk] <;> dsimp only <;> rw [if_pos hs, tok_get hv]

theorem act_other {s h w u n : Str} {a : Option Str} (hg : Tok s h w u) (hf : Func w n a)
    (ha : NoArg a ∨ lookupAct n = none) (hk : lookupAct w = none) (hs : ¬ startsWith w t!"set_" = true) :
    str2act s = .ok ([], h.length) := by
  unfold str2act
  rw [tok_get hg]
  dsimp only
  rw [(func_iff _ _ _).2 hf, ok_bind]
  rcases ha with (rfl | rfl) | ha
  · dsimp only; rw [hk]; dsimp only; rw [if_neg hs]
  · dsimp only; rw [hk]; dsimp only; rw [if_neg hs]
  · rcases a with _ | _ | ⟨c, cs⟩
    · dsimp only; rw [hk]; dsimp only; rw [if_neg hs]
    · dsimp only; rw [hk]; dsimp only; rw [if_neg hs]
    · dsimp only; rw [ha, hk]; dsimp only; rw [if_neg hs]

theorem tok_suffix {u h v r : Str} (t : Tok u h v r) : r <:+ u := ⟨h ++ v, by rw [t.1]; simp⟩

theorem words_suffix {u r : Str} {ts : List Str} (h : Words u ts r) : r <:+ u := by
  induction h with
  | nil => exact List.suffix_refl _
  | cons u h t u' ts r h1 _ ih => exact ih.trans (tok_suffix h1)

theorem matchItem_suffix {u v r : Str} {t : Tlv} (h : MatchItem u v t r) : r <:+ u := by
  obtain ⟨_, _, _, h1, h2, _⟩ := h
  exact (tok_suffix h2).trans (tok_suffix h1)

theorem bitsText_suffix {u r : Str} {f : Field} {a b : Int} (h : Bits u f a b r) : r <:+ u := by
  cases h <;> exact tok_suffix ‹_›

theorem nxArg_suffix {eq : Bool} {name u : Str} {t : Nat} {b : Bytes} {r : Str} (h : NxArg eq name u t b r) : r <:+ u := by
  cases h <;> first
    | exact List.suffix_refl _
    | exact tok_suffix ‹_›
    | exact words_suffix ‹_›
    | exact matchItem_suffix ‹_›
    | exact (bitsText_suffix ‹Bits _ _ _ _ r›).trans (bitsText_suffix ‹Bits u _ _ _ _›)
    | exact List.nil_suffix

theorem actArgs_suffix {eq : Bool} {name u : Str} {b : Bytes} {r : Str} (h : ActArgs eq name u b r) : r <:+ u := by
  cases h with
  | std a _ _ _ ha h =>
    cases h <;> first | exact List.suffix_refl _ | exact tok_suffix ‹_›
  | output _ _ _ _ _ _ _ h => exact tok_suffix h
  | note _ _ _ _ _ h => exact tok_suffix h
  | nx _ _ t body _ h3 h4 => exact nxArg_suffix h3

theorem actArgs_le {eq : Bool} {name u : Str} {b : Bytes} {r : Str} (h : ActArgs eq name u b r) : r.length ≤ u.length :=
  (actArgs_suffix h).length_le

theorem actText_sound {s : Str} {b : Bytes} {n : Nat} (h : str2act s = .ok (b, n)) : ∃ r, ActText s b r ∧ n = s.length - r.length := by
  rcases hg : getToken s with ⟨hd, w, u⟩
  have ht := eq_tok hg
  have hlen : hd.length + w.length = s.length - u.length := tok_len ht
  have hp : ∃ y, parseFunc w = .ok y := by
    unfold str2act at h
    rw [hg] at h
    obtain ⟨y, hy, _⟩ := bind_iff.1 h
    exact ⟨y, hy⟩
  obtain ⟨⟨m, a⟩, hp⟩ := hp
  have hf := (func_iff _ _ _).1 hp
  by_cases hA : ∃ c cs, a = some (c :: cs)
  · obtain ⟨c, cs, rfl⟩ := hA
    cases hk : lookupAct m with
    | some k =>
      rw [act_call ht hf hk] at h
      obtain ⟨⟨b', p⟩, h1, h2⟩ := bind_iff.1 h
      cases h2
      obtain ⟨r', h3, _⟩ := (runAct_iff hk _ _ _ _).1 h1
      exact ⟨u, .call s hd w u m _ b r' ht hf (by simp) h3, hlen⟩
    | none =>
      have hmn : m ∉ actNames := fun hm => by
        obtain ⟨k, hk'⟩ := (lookupAct_isSome m).1 hm
        rw [hk] at hk'
        cases hk'
      have hw : lookupAct w = none := by
        apply lookupAct_none
        intro hw
        have := (func_unique (actNames_bare hw) hf).2
        cases this
      by_cases hs : startsWith w t!"set_" = true
      · rcases hv : getToken (c :: cs) with ⟨h', v, r'⟩
        have hv := eq_tok hv
        rw [act_setCall ht hf hk hw hs hv] at h
        obtain ⟨x, hx⟩ := (prefix_iff _ _).1 hs
        obtain ⟨y, hy⟩ := func_prefix t!"set_" (by decide) hx hf
        have hn : n = hd.length + w.length := by
          obtain ⟨y, _, h2⟩ := bind_iff.1 h
          obtain ⟨z, _, h4⟩ := bind_iff.1 h2
          cases h4
          rfl
        subst hn
        obtain ⟨t, h1, h2, rfl⟩ := (setCall_iff ht hf hy hv b).1 h
        subst hy
        exact ⟨u, .setCall s hd w u y _ h' v r' t ht hf (by simp) hv h1 h2, hlen⟩
      · rw [act_other ht hf (Or.inr hk) hw hs] at h
        cases h
        refine ⟨w ++ u, .other s hd w u m _ ht hf ((fun hw' => by
          obtain ⟨k, hk'⟩ := (lookupAct_isSome w).1 hw'
          rw [hw] at hk'
          cases hk')) (Or.inr hmn) (fun x e => hs ((prefix_iff _ _).2 ⟨x, e⟩)), ?_⟩
        rw [ht.1]
        simp
  · have hna : NoArg a := by
      rcases a with _ | _ | ⟨c, cs⟩
      · exact Or.inl rfl
      · exact Or.inr rfl
      · exact absurd ⟨c, cs, rfl⟩ hA
    cases hw : lookupAct w with
    | some k =>
      rw [act_plain ht hf (Or.inl hna) hw] at h
      obtain ⟨⟨b', p⟩, h1, h2⟩ := bind_iff.1 h
      cases h2
      obtain ⟨r', h3, h4⟩ := (runAct_iff hw _ _ _ _).1 h1
      refine ⟨r', .plain s hd w u b r' ht h3, ?_⟩
      have hle := actArgs_le h3
      have := congrArg List.length ht.1
      simp only [List.length_append] at this
      omega
    | none =>
      have hwn : w ∉ actNames := fun hw' => by
        obtain ⟨k, hk'⟩ := (lookupAct_isSome w).1 hw'
        rw [hw] at hk'
        cases hk'
      by_cases hs : startsWith w t!"set_" = true
      · rcases hv : getToken u with ⟨op, v, r⟩
        have hv := eq_tok hv
        rw [act_setPlain ht hf hna hw hs hv] at h
        obtain ⟨x, rfl⟩ := (prefix_iff _ _).1 hs
        rcases (setPlain_iff ht hv b n).1 h with ⟨rfl, rfl, rfl, rfl⟩ | ⟨t, h1, h2, rfl, h3⟩
        · exact ⟨[], .setNothing s hd ht, by simp⟩
        · exact ⟨r, .setPlain s hd x u op v r t ht hv h1 h2, h3⟩
      · rw [act_other ht hf (Or.inl hna) hw hs] at h
        cases h
        refine ⟨w ++ u, .other s hd w u m _ ht hf hwn (Or.inl hna) (fun x e => hs ((prefix_iff _ _).2 ⟨x, e⟩)), ?_⟩
        rw [ht.1]
        simp

theorem actText_complete {s : Str} {b : Bytes} {r : Str} (h : ActText s b r) : str2act s = .ok (b, s.length - r.length) := by
  cases h with
  | call hd w _ n a _ r' ht hf ha h1 =>
    obtain ⟨k, hk⟩ := (lookupAct_isSome n).1 (actArgs_name h1)
    obtain ⟨c, cs, rfl⟩ : ∃ c cs, a = c :: cs := by cases a with | nil => exact absurd rfl ha | cons c cs => exact ⟨c, cs, rfl⟩
    rw [act_call ht hf hk, (runAct_iff hk false (c :: cs) b _).2 ⟨r', h1, rfl⟩, ok_bind, tok_len ht]
  | plain hd w u _ _ ht h1 =>
    obtain ⟨k, hk⟩ := (lookupAct_isSome w).1 (actArgs_name h1)
    rw [act_plain ht (actNames_bare (actArgs_name h1)) (Or.inl (Or.inl rfl)) hk, (runAct_iff hk true u b _).2 ⟨r, h1, rfl⟩, ok_bind]
    have hle := actArgs_le h1
    have := congrArg List.length ht.1
    simp only [List.length_append] at this
    dsimp only
    congr 2
    omega
  | setCall hd w _ x a h' v r' t ht hf ha hv h1 h2 =>
    obtain ⟨c, cs, rfl⟩ : ∃ c cs, a = c :: cs := by cases a with | nil => exact absurd rfl ha | cons c cs => exact ⟨c, cs, rfl⟩
    have hno : ∀ c ∈ t!"set_", NotOpen c := by decide
    have hwn : w ∉ actNames := by
      intro hw
      have := (func_unique (actNames_bare hw) hf).2
      cases this
    have hxn : t!"set_" ++ x ∉ actNames := by
      obtain ⟨k1, k2⟩ := setCall_form ht hf hv
      obtain ⟨_, sp, rfl, k3⟩ := setItem k1 k2 h1
      obtain ⟨_, _, _, _, _, _, _, k4, _⟩ := h1
      exact set_notAct k4 k3
    obtain ⟨_, y, hy⟩ := func_name hf
    rw [act_setCall ht hf (lookupAct_none hxn) (lookupAct_none hwn) ((prefix_iff _ _).2 ⟨x ++ y, by rw [hy]; simp⟩) hv, ← tok_len ht]
    exact (setCall_iff ht hf rfl hv _).2 ⟨t, h1, h2, rfl⟩
  | setPlain hd x u op v _ t ht hv h1 h2 =>
    obtain ⟨k1, k2⟩ := setPlain_form ht hv
    obtain ⟨_, sp, rfl, k3⟩ := setItem k1 k2 h1
    have k4 : t.field ∈ fields := by
      obtain ⟨_, _, _, _, _, _, _, k4, _⟩ := h1
      exact k4
    have hno : ∀ c ∈ t!"set_" ++ (sp ++ t.field.name), NotOpen c := by
      intro c hc
      have key : ∀ c ∈ t!"set_", NotOpen c := by decide
      rcases List.mem_append.1 hc with hc | hc
      · exact key c hc
      · rcases List.mem_append.1 hc with hc | hc
        · exact space_notOpen (k3 c hc)
        · exact (fields_clean _ k4 c hc).2.2.2
    rw [act_setPlain ht (.bare _ hno) (Or.inl rfl) (lookupAct_none (set_notAct k4 k3)) ((prefix_iff _ _).2 ⟨_, rfl⟩) hv]
    exact (setPlain_iff ht hv _ _).2 (Or.inr ⟨t, h1, h2, rfl, rfl⟩)
  | setNothing hd ht =>
    rw [act_setPlain ht (.bare _ (by decide)) (Or.inl rfl) (by decide) (by decide) (eq_tok (show getToken [] = ([], [], []) from rfl))]
    exact (setPlain_iff (x := []) ht (eq_tok (show getToken [] = ([], [], []) from rfl)) _ _).2 (Or.inl ⟨rfl, rfl, rfl, by simp⟩)
  | other hd w u n arg ht hf h1 h2 h3 =>
    rw [act_other ht hf (h2.imp id lookupAct_none) (lookupAct_none h1) (fun hs => by
      obtain ⟨x, hx⟩ := (prefix_iff _ _).1 hs
      exact h3 x hx)]
    rw [ht.1]
    simp

end Ofpstr
