import Verif.Lemmas.Sentence
import Verif.Lemmas.EncEnds

/-!
# `str2dict`: termination, order of words, misplaced words
-/

namespace Ofpstr
open Spec

theorem ends_dictGo (fuel : Nat) {st : DictSt} {p : Place} (hg : GoodSt st p) (s : Str) (h : s.length < fuel) :
    Ends (dictGo fuel st s) := by
  induction fuel generalizing st p s with
  | zero => omega
  | succ fuel ih =>
    rw [dictGo]
    by_cases hs : s = []
    · subst hs
      rw [if_pos (by decide)]
      exact ends_runFunc _
    · rw [if_neg (by simpa using hs)]
      refine ends_bind (ends_dictStep _ _) ?_
      rintro ⟨st1, u⟩ h1
      obtain ⟨hh, name, t, w, q, ht, he, hb, hn, ha⟩ := dictStep_inv hg.phase h1
      have := body_shorter hs ht hb
      exact ih (applyWord_good hg hn ha) u (by omega)

theorem ends_str2dict (s : Str) : Ends (str2dict s) := ends_dictGo _ good_init _ (by omega)

theorem ends_str2mod (s : Str) (c x : Int) : Ends (str2mod s c x) := by
  unfold str2mod
  refine ends_bind (ends_str2dict s) fun _ _ => ends_bind ?_ fun _ _ => ends_bind (ends_packAll _) fun _ _ => ends_ok _
  exact ends_bind (ends_packAll _) fun _ _ => ends_ok _

/-! ## Fuel -/

theorem dictGo_fuel (f1 f2 : Nat) {st : DictSt} {p : Place} (hg : GoodSt st p) (s : Str) (h1 : s.length < f1)
    (h2 : s.length < f2) : dictGo f1 st s = dictGo f2 st s := by
  induction f1 generalizing f2 st p s with
  | zero => omega
  | succ f1 ih =>
    cases f2 with
    | zero => omega
    | succ f2 =>
      rw [dictGo, dictGo]
      by_cases hs : s = []
      · subst hs
        rw [if_pos (by decide), if_pos (by decide)]
      · rw [if_neg (by simpa using hs), if_neg (by simpa using hs)]
        cases hd : dictStep st s with
        | error e => rfl
        | ok x =>
          obtain ⟨st1, u⟩ := x
          obtain ⟨hh, name, t, w, q, ht, he, hb, hn, ha⟩ := dictStep_inv hg.phase hd
          have := body_shorter hs ht hb
          exact ih f2 (applyWord_good hg hn ha) u (by omega) (by omega)

theorem foldWords_append (st : DictSt) (a b : List Word) :
    foldWords st (a ++ b) = (foldWords st a >>= fun st => foldWords st b) := by
  induction a generalizing st with
  | nil => rfl
  | cons w a ih =>
    rw [List.cons_append, foldWords, foldWords, bind_assoc']
    congr 1
    funext st
    exact ih st

theorem foldWords_good {st st' : DictSt} {p q : Place} (hg : GoodSt st p) (ws : List Word)
    (hp : placeAfter p ws = some q) (h : foldWords st ws = .ok st') : GoodSt st' q := by
  induction ws generalizing st p with
  | nil => cases h; cases hp; exact hg
  | cons w ws ih =>
    rw [foldWords] at h
    obtain ⟨st1, h1, h⟩ := bind_ok h
    rw [placeAfter] at hp
    cases hn : w.next p with
    | none => rw [hn] at hp; cases hp
    | some q' => rw [hn] at hp; exact ih (applyWord_good hg hn h1) hp h

/-! ## Order -/

theorem apply_comm (st : DictSt) {a b : Word} (ha : StartWord a) (hb : StartWord b) (hi : Indep a b) :
    foldWords st [a, b] = foldWords st [b, a] := by
  cases a <;> first
    | exact absurd ha id
    | (cases b <;> first
        | exact absurd hb id
        | exact absurd hi id
        | rfl
        | skip)
  · rename_i k n k' n'
    cases k <;> cases k' <;> first | rfl | exact absurd rfl hi
  · rename_i k n _ _; cases k <;> rfl
  · rename_i k n _; cases k <;> rfl
  · rename_i k n _; cases k <;> rfl
  · rename_i k n; cases k <;> rfl
  · rename_i k n; cases k <;> rfl
  · rename_i x y
    simp only [foldWords, applyWord, ok_bind, Option.getD_some]
    rw [Nat.or_assoc, Nat.or_comm (2 ^ x), ← Nat.or_assoc]
  · rename_i k n; cases k <;> rfl

theorem foldWords_reorder {ks ks' : List (Word × Str)} (h : Reorder ks ks') (hs : ∀ e ∈ ks, StartWord e.1)
    (st : DictSt) : foldWords st (ks.map (·.1)) = foldWords st (ks'.map (·.1)) ∧ (∀ e ∈ ks', e ∈ ks) := by
  induction h generalizing st with
  | refl l => exact ⟨rfl, fun _ h => h⟩
  | swap l a b r hi =>
    refine ⟨?_, ?_⟩
    · have e1 : (l ++ a :: b :: r).map (·.1) = l.map (·.1) ++ ([a.1, b.1] ++ r.map (·.1)) := by simp
      have e2 : (l ++ b :: a :: r).map (·.1) = l.map (·.1) ++ ([b.1, a.1] ++ r.map (·.1)) := by simp
      rw [e1, e2, foldWords_append, foldWords_append]
      congr 1
      funext st
      rw [foldWords_append, foldWords_append, apply_comm st (hs a (by simp)) (hs b (by simp)) hi]
    · intro e he
      simp only [List.mem_append, List.mem_cons] at he ⊢
      tauto
  | trans l m n _ _ ih1 ih2 =>
    obtain ⟨h1, h2⟩ := ih1 hs st
    obtain ⟨h3, h4⟩ := ih2 (fun e he => hs e (h2 e he)) st
    exact ⟨h1.trans h3, fun e he => h2 e (h4 e he)⟩

theorem str2dict_prefix {ws : List Word} {s r : Str} (hr : ReadsWords oxmP actP ws s r)
    (hp : placeAfter .start ws ≠ none) :
    str2dict s = (foldWords {} ws >>= fun st => dictGo (r.length + 1) st r) := by
  obtain ⟨f', h1, h2⟩ := dictGo_words hr good_init hp (s.length + 1) (by omega)
  unfold str2dict
  rw [h2]
  cases hq : placeAfter .start ws with
  | none => exact absurd hq hp
  | some q =>
    cases hf : foldWords {} ws with
    | error e => rfl
    | ok st => exact dictGo_fuel _ _ (foldWords_good good_init ws hq hf) r h1 (by omega)

theorem str2dict_reorder {ks ks' : List (Word × Str)} (hk : ∀ e ∈ ks, StartWord e.1 ∧ IsWord oxmP actP e.1 e.2)
    (h : Reorder ks ks') (r : Str) (hr : Boundary r) :
    str2dict (commaList (ks.map (·.2)) ++ r) = str2dict (commaList (ks'.map (·.2)) ++ r) := by
  obtain ⟨h1, h2⟩ := foldWords_reorder h (fun e he => (hk e he).1) {}
  have hn : ks = [] ↔ ks' = [] := by
    clear h1 h2 hk
    induction h with
    | refl => exact Iff.rfl
    | swap l a b r => simp
    | trans l m n _ _ i1 i2 => exact i1.trans i2
  by_cases hz : ks = []
  · rw [hz, hn.1 hz]
  · have go : ∀ ks : List (Word × Str), ks ≠ [] → (∀ e ∈ ks, StartWord e.1 ∧ IsWord oxmP actP e.1 e.2) →
        str2dict (commaList (ks.map (·.2)) ++ r) =
          (foldWords {} (ks.map (·.1)) >>= fun st => dictGo (r.length + 1) st r) := by
      intro ks hz hk
      have hr := reads_comma (fun e he => (hk e he).2) hz (h := []) (by intro c hc; cases hc) hr
      have hp := place_start (ws := ks.map (·.1)) (by
        intro w hw
        obtain ⟨e, he, rfl⟩ := List.mem_map.1 hw
        exact (hk e he).1)
      exact str2dict_prefix hr (by rw [hp]; simp)
    rw [go ks hz hk, go ks' (fun h => hz (hn.2 h)) (fun e he => hk e (h2 e he)), h1]

theorem indep_symm {a b : Word} (h : Indep a b) : Indep b a := by
  cases a <;> cases b <;> first | trivial | exact h | exact fun e => h e.symm

theorem reorder_cons (a : Word × Str) {l m : List (Word × Str)} (h : Reorder l m) : Reorder (a :: l) (a :: m) := by
  induction h with
  | refl l => exact .refl _
  | swap l x y r hi => exact .swap (a :: l) x y r hi
  | trans l m n _ _ i1 i2 => exact .trans _ _ _ i1 i2

theorem reorder_perm {l m : List (Word × Str)} (h : l.Perm m) (hp : l.Pairwise fun a b => Indep a.1 b.1) :
    Reorder l m := by
  induction h with
  | nil => exact .refl _
  | cons a _ ih => exact reorder_cons a (ih (List.pairwise_cons.1 hp).2)
  | swap a b l => exact .swap [] b a l ((List.pairwise_cons.1 hp).1 a (by simp))
  | trans h1 h2 i1 i2 =>
    exact .trans _ _ _ (i1 hp) (i2 (h1.pairwise hp fun hi => indep_symm hi))

/-! ## Misplaced words -/

/-- If no word can be read where the loop stands, `str2dict` raises. -/
theorem str2dict_stop {ws : List Word} {s r : Str} {p : Place} (hr : ReadsWords oxmP actP ws s r)
    (hp : placeAfter .start ws = some p) (hn : r ≠ [])
    (hst : ∀ h name t w q u, Tok r h name t → '=' ∉ h → Body oxmP actP name t w u → w.next p = some q → False) :
    ∃ e, str2dict s = .error e := by
  rw [str2dict_prefix hr (by rw [hp]; simp)]
  cases hf : foldWords {} ws with
  | error e => exact ⟨e, rfl⟩
  | ok st =>
    have hg := foldWords_good good_init ws hp hf
    rw [ok_bind, dictGo, if_neg (by simpa using hn)]
    cases hd : dictStep st r with
    | error e => exact ⟨e, rfl⟩
    | ok x =>
      obtain ⟨st1, u⟩ := x
      obtain ⟨hh, name, t, w, q, ht, he, hb, hn, ha⟩ := dictStep_inv hg.phase hd
      exact (hst hh name t w q u ht he hb hn).elim

theorem tok_unique {s h b r h' b' r' : Str} (h1 : Tok s h b r) (h2 : Tok s h' b' r') :
    h = h' ∧ b = b' ∧ r = r' := by
  rw [← getToken_iff] at h1 h2
  rw [h1] at h2
  cases h2
  exact ⟨rfl, rfl, rfl⟩

theorem body_at {name t u : Str} {w : Word} (hb : Body oxmP actP name t w u) (h : name.head? = some '@') :
    name ∈ instNames := by
  have hk : ∀ n ∈ matchKeys, n.head? ≠ some '@' := by decide
  cases hb with
  | key k => exact absurd h (hk _ (keyName_mem k))
  | cookie => exact absurd h (by decide)
  | cookieMask => exact absurd h (by decide)
  | flag _ bit _ h1 => exact absurd h (hk _ (flagName_mem h1))
  | oxm _ _ b l _ h2 => exact absurd h h2
  | goto _ _ op pl n _ h1 => revert h1; simp [instNames]; tauto
  | metadata _ _ op pl n _ h1 => revert h1; simp [instNames]; tauto
  | metadataMask _ _ op v m n w _ h1 => revert h1; simp [instNames]; tauto
  | apply _ _ h1 => revert h1; simp [instNames]; tauto
  | write _ _ h1 => revert h1; simp [instNames]; tauto
  | clear _ _ h1 => revert h1; simp [instNames]; tauto
  | meter => decide
  | act _ _ b l h1 => exact absurd h h1

/-- A word that does not start with `@` is no instruction. -/
theorem body_noat {name t u : Str} {w : Word} (hb : Body oxmP actP name t w u) (h : name.head? ≠ some '@') :
    StartWord w ∨ ∃ b l, w = .act b ∧ actP (name ++ t) b l ∧ l ≠ 0 := by
  have hi : ∀ n ∈ instNames, n.head? = some '@' := by decide
  have no : ∀ l : List Str, name ∈ l → (∀ n ∈ l, n.head? = some '@') → False :=
    fun l h1 h2 => h (h2 _ h1)
  cases hb with
  | key k => exact Or.inl trivial
  | cookie => exact Or.inl trivial
  | cookieMask => exact Or.inl trivial
  | flag => exact Or.inl trivial
  | oxm => exact Or.inl trivial
  | goto _ _ op pl n _ h1 => exact (no _ h1 (by decide)).elim
  | metadata _ _ op pl n _ h1 => exact (no _ h1 (by decide)).elim
  | metadataMask _ _ op v m n w _ h1 => exact (no _ h1 (by decide)).elim
  | apply _ _ h1 => exact (no _ h1 (by decide)).elim
  | write _ _ h1 => exact (no _ h1 (by decide)).elim
  | clear _ _ h1 => exact (no _ h1 (by decide)).elim
  | meter => exact absurd h (by decide)
  | act _ _ b l _ h1 h2 => exact Or.inr ⟨b, l, rfl, h1, h2⟩

theorem startWord_next {w : Word} (h : StartWord w) {p q : Place} (hn : w.next p = some q) : p = .start := by
  cases w <;> cases p <;> first | rfl | exact absurd h id | cases hn

theorem act_next {b : Bytes} {p q : Place} (hn : (Word.act b).next p = some q) : p = .acts := by
  cases p <;> first | rfl | cases hn

theorem tok_boundary {s h b r : Str} (h1 : Tok s h b r) : AtEnd r := by
  rcases h1.2.2 with ⟨_, h⟩ | ⟨_, rfl⟩
  · exact h
  · exact atEnd_nil

theorem lookupAct_names {name : Str} {k : ActEnc} (h : lookupAct name = some k) : name ∈ actNames := by
  have key : ∀ e ∈ str2actTable, e.1 ∈ actNames := by decide +kernel
  unfold lookupAct at h
  cases hf : str2actTable.find? fun e => e.1 == name with
  | none => rw [hf] at h; cases h
  | some e =>
    have h1 := List.find?_some hf
    have h2 := List.mem_of_find?_eq_some hf
    rw [beq_iff_eq] at h1
    exact h1 ▸ key e h2

theorem lookupAct_not {name : Str} (h : name ∉ actNames) : lookupAct name = none := by
  cases hl : lookupAct name with
  | none => rfl
  | some k => exact absurd (lookupAct_names hl) h

theorem startsWith_iff (s p : Str) : startsWith s p = true ↔ ∃ t, s = p ++ t := by
  constructor
  · intro h
    obtain ⟨t, ht⟩ := List.isPrefixOf_iff_prefix.1 h
    exact ⟨t, ht.symm⟩
  · rintro ⟨t, rfl⟩
    exact List.isPrefixOf_iff_prefix.2 ⟨t, rfl⟩

/-- A word that is no action is not read. -/
theorem str2act_unknown (f name t : Str) (hc : Clean f) (hn : f ≠ []) (ht : AtEnd t) (hf : f ∉ actNames)
    (hs : ¬ ∃ u, f = t!"set_" ++ u) (hname : name = f ∨ ∃ a, Inside ')' a ∧ name = f ++ '(' :: a ++ [')']) :
    str2act (name ++ t) = .ok ([], 0) := by
  have hset : ∀ x, startsWith (f ++ '(' :: x) t!"set_" = false := by
    intro x
    rw [← Bool.not_eq_true, startsWith_iff]
    rintro ⟨u, hu⟩
    rcases List.append_eq_append_iff.1 hu with ⟨a, h1, h2⟩ | ⟨a, h1, h2⟩
    · cases a with
      | nil => exact hs ⟨[], by simpa using h1.symm⟩
      | cons c a =>
        simp only [List.cons_append, List.cons.injEq] at h2
        have : '(' ∈ t!"set_" := by rw [h1, h2.1]; simp
        revert this; decide
    · exact hs ⟨a, h1⟩
  rcases hname with rfl | ⟨a, ha, rfl⟩
  · have g := getToken_plain hc.token ht hc.plainStart hn
    have hset' : startsWith name t!"set_" = false := by
      rw [← Bool.not_eq_true, startsWith_iff]; exact hs
    unfold str2act
    rw [g]
    dsimp only
    rw [parseFunc_bare name hc.notOpen, ok_bind]
    dsimp only
    rw [lookupAct_not hf]
    dsimp only
    rw [hset']
    rfl
  · have g := getToken_call [] f a t head_nil hc hn ha ht
    rw [List.nil_append] at g
    have hp := parseFunc_call f a [] '(' ')' hc.notOpen .round ha
    rw [if_pos rfl] at hp
    have hno : lookupAct (f ++ '(' :: a ++ [')']) = none := by
      apply lookupAct_not
      have key : ∀ n ∈ actNames, '(' ∉ n := by decide +kernel
      exact fun h => key _ h (by simp)
    unfold str2act
    rw [g]
    dsimp only
    rw [hp, ok_bind]
    dsimp only
    rw [hno, lookupAct_not hf]
    have e : f ++ '(' :: a ++ [')'] = f ++ '(' :: (a ++ [')']) := by simp
    rw [e, hset]
    cases a <;> rfl

/-- Only a field name starts a match item. -/
theorem oxm1_field {name t : Str} {b : Bytes} {l : Nat} (hc : Token name) (hp : PlainStart name) (hn : name ≠ [])
    (ht : AtEnd t) (h : str2oxm1 (name ++ t) = .ok (b, l)) : ∃ f ∈ fields, f.name = name := by
  have g := getToken_plain hc ht hp hn
  unfold str2oxm1 str2oxmL at h
  obtain ⟨⟨m, r⟩, h1, -⟩ := bind_ok h
  rw [str2oxmGo, if_neg (by simp [hn])] at h1
  obtain ⟨⟨b1, l1, p1, r1⟩, h2, -⟩ := bind_ok h1
  unfold str2oxmOne at h2
  rw [g] at h2
  dsimp only at h2
  rcases hg : getToken t with ⟨op, p, r2⟩
  rw [hg] at h2
  dsimp only at h2
  obtain ⟨_, _, h2⟩ := bind_ok h2
  cases hl : lookupEnc name with
  | none => rw [hl] at h2; cases h2
  | some x =>
    obtain ⟨f, hf, he, _⟩ := lookupEnc_field (key := x.1) (k := x.2) hl
    exact ⟨f, hf, he⟩

theorem tok_seps {r : Str} (hr : ∀ c ∈ r, Space c ∨ c = ',') : Tok r r [] [] := by
  refine ⟨by simp, ?_, Or.inl ⟨.nil, atEnd_nil⟩⟩
  have := HeadOf.run r [] (by
    intro w t h
    exfalso
    have : '=' ∈ r := by
      rw [List.append_nil] at h
      rw [h]; simp
    exact noeq_of_seps hr this) hr (by intro c t h; cases h)
  simpa using this

theorem body_empty {w : Word} {u : Str} (h : Body oxmP actP [] [] w u) : False := by
  generalize hn : ([] : Str) = name at h
  generalize hs : ([] : Str) = s at h
  have hk : ∀ n ∈ matchKeys, n ≠ [] := by decide
  cases h with
  | key k => exact hk _ (keyName_mem k) hn.symm
  | cookie => cases hn
  | cookieMask => cases hn
  | flag _ bit _ h1 => exact hk _ (flagName_mem h1) hn.symm
  | oxm _ _ b l _ _ h1 h2 =>
    subst hn; subst hs
    rw [oxmP, show str2oxm1 ([] ++ []) = .ok ([], 0) from by decide +kernel] at h1
    cases h1; exact h2 rfl
  | goto _ _ op pl n _ h1 => subst hn; revert h1; decide
  | metadata _ _ op pl n _ h1 => subst hn; revert h1; decide
  | metadataMask _ _ op v m n w _ h1 => subst hn; revert h1; decide
  | apply _ _ h1 => subst hn; revert h1; decide
  | write _ _ h1 => subst hn; revert h1; decide
  | clear _ _ h1 => subst hn; revert h1; decide
  | meter => cases hn
  | act _ _ b l _ h1 h2 =>
    subst hn; subst hs
    rw [actP, show str2act ([] ++ []) = .ok ([], 0) from by decide +kernel] at h1
    cases h1; exact h2 rfl

end Ofpstr
