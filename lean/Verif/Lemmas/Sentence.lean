import Verif.Lemmas.DictGo

/-!
# Rules as comma lists of words
-/

namespace Ofpstr
open Spec

theorem joinStr_commaList (ts : List Str) : joinStr t!"," ts = commaList ts := by
  induction ts with
  | nil => rfl
  | cons t ts ih =>
    cases ts with
    | nil => rfl
    | cons u ts => rw [joinStr, commaList, ih]; simp

theorem tok_head {h b r : Str} (hh : Head h) (hb : Token b) (hr : AtEnd r) (hp : PlainStart b)
    (hn : b ≠ []) : Tok (h ++ (b ++ r)) h b r := (getToken_iff _ _ _ _).1 (getToken_head hh hb hr hp hn)

theorem tok_eq {b r : Str} (hb : Token b) (hr : AtEnd r) (hp : PlainStart b)
    (hn : b ≠ []) : Tok ('=' :: (b ++ r)) ['='] b r := (getToken_iff _ _ _ _).1 (getToken_eq hb hr hp hn)

/-- `name=value` with two clean parts. -/
theorem isWord_eq {w : Word} {name v : Str} (hc : Clean name) (hn : name ≠ []) (hv : Clean v) (hvn : v ≠ [])
    (hb : ∀ s op r, Tok s op v r → '=' ∈ op → Body oxmP actP name s w r) :
    IsWord oxmP actP w (name ++ '=' :: v) := by
  refine ⟨by simp, ?_⟩
  intro h r hh hr
  refine ⟨name, '=' :: (v ++ r), ?_, hb _ ['='] r (tok_eq hv.token hr hv.plainStart hvn) (by simp)⟩
  have := tok_head (Or.inl hh) hc.token (atEnd_eq (v ++ r)) hc.plainStart hn
  simpa using this

theorem isWord_bare {w : Word} {name : Str} (hc : Clean name) (hn : name ≠ [])
    (hb : ∀ s, Body oxmP actP name s w s) : IsWord oxmP actP w name :=
  ⟨hn, fun _ r hh hr => ⟨name, r, tok_head (Or.inl hh) hc.token hr hc.plainStart hn, hb r⟩⟩

theorem keyName_clean (k : FKey) : Clean k.name ∧ k.name ≠ [] := by
  cases k <;> decide

theorem keyArg_clean {k : FKey} {p : Str} {n : Int} (h : k.Arg p n) : Clean p ∧ p ≠ [] := by
  cases k <;> first
    | exact ⟨(intSyntax_clean h).1, (intSyntax_clean h).2.1⟩
    | exact ⟨(portText_clean h).1, (portText_clean h).2.1⟩
    | exact ⟨(groupText_clean h).1, (groupText_clean h).2.1⟩

theorem slash_clean {v m : Str} {n w : Int} (h1 : IntSyntax v n v.length) (h2 : IntSyntax m w m.length) :
    Clean (v ++ '/' :: m) := by
  intro c hc
  rcases List.mem_append.1 hc with h | h
  · exact (intSyntax_clean h1).1 c h
  · rcases List.mem_cons.1 h with rfl | h
    · decide
    · exact (intSyntax_clean h2).1 c h

theorem keyText_isWord {w : Word} {t : Str} (h : KeyText w t) : IsWord oxmP actP w t := by
  cases h with
  | key k p n h =>
    exact isWord_eq (keyName_clean k).1 (keyName_clean k).2 (keyArg_clean h).1 (keyArg_clean h).2
      (fun s op r h1 h2 => .key k s op p n r h1 h2 h)
  | cookie p n h =>
    exact isWord_eq (name := t!"cookie") (by decide) (by decide) (intSyntax_clean h).1 (intSyntax_clean h).2.1
      (fun s op r h1 h2 => .cookie s op p n r h1 h2 h)
  | cookieMask v m n w h1 h2 =>
    exact isWord_eq (name := t!"cookie") (by decide) (by decide) (slash_clean h1 h2) (by simp)
      (fun s op r h3 h4 => .cookieMask s op v m n w _ r h3 h4 h1 h2)
  | flag _ bit h =>
    have key : ∀ e ∈ flagWords, Clean e.1 ∧ e.1 ≠ [] := by decide
    exact isWord_bare (key _ h).1 (key _ h).2 (fun s => .flag _ bit s h)

theorem instName_clean {name : Str} {l : List Str} (h : name ∈ l) (hl : ∀ n ∈ l, Clean n ∧ n ≠ []) :
    Clean name ∧ name ≠ [] := hl name h

/-! ## Comma lists -/

theorem reads_append {ws ws' : List Word} {s r r' : Str} (h1 : ReadsWords oxmP actP ws s r)
    (h2 : ReadsWords oxmP actP ws' r r') : ReadsWords oxmP actP (ws ++ ws') s r' := by
  induction h1 with
  | nil => exact h2
  | cons s h name t w u ws r hs ht he hb _ ih => exact .cons s h name t w u _ _ hs ht he hb (ih h2)

theorem noeq_of_seps {h : Str} (hh : ∀ c ∈ h, Space c ∨ c = ',') : '=' ∉ h := by
  intro hm
  rcases hh _ hm with h | h
  · revert h; decide
  · revert h; decide

theorem reads_one {w : Word} {t : Str} (hw : IsWord oxmP actP w t) {h r : Str}
    (hh : ∀ c ∈ h, Space c ∨ c = ',') (hr : Boundary r) : ReadsWords oxmP actP [w] (h ++ (t ++ r)) r := by
  obtain ⟨hn, hw⟩ := hw
  obtain ⟨name, u, h1, h2⟩ := hw h r hh hr
  exact .cons _ h name u w r [] r (by simp [hn]) h1 (noeq_of_seps hh) h2 (.nil r)

theorem reads_comma {items : List (Word × Str)} (hi : ∀ e ∈ items, IsWord oxmP actP e.1 e.2) (hn : items ≠ [])
    {h r : Str} (hh : ∀ c ∈ h, Space c ∨ c = ',') (hr : Boundary r) :
    ReadsWords oxmP actP (items.map (·.1)) (h ++ (commaList (items.map (·.2)) ++ r)) r := by
  induction items generalizing h with
  | nil => exact absurd rfl hn
  | cons e items ih =>
    cases items with
    | nil => exact reads_one (hi e (by simp)) hh hr
    | cons e2 items =>
      have h1 := reads_one (hi e (by simp)) hh
        (atEnd_comma (commaList ((e2 :: items).map (·.2)) ++ r) : Boundary _)
      have h2 := ih (fun x hx => hi x (List.mem_cons_of_mem _ hx)) (by simp) (h := [','])
        (by intro c hc; exact Or.inr (List.mem_singleton.1 hc))
      have := reads_append h1 (by simpa using h2)
      simpa [commaList] using this

theorem reads_comma_nil {items : List (Word × Str)} (hi : ∀ e ∈ items, IsWord oxmP actP e.1 e.2) :
    ReadsWords oxmP actP (items.map (·.1)) (commaList (items.map (·.2))) [] := by
  cases items with
  | nil => exact .nil _
  | cons e items =>
    have := reads_comma hi (by simp) (h := []) (r := []) (by intro c hc; cases hc) atEnd_nil
    simpa using this

/-! ## Instructions -/

theorem placeAfter_append (p : Place) (a b : List Word) :
    placeAfter p (a ++ b) = (placeAfter p a).bind fun q => placeAfter q b := by
  induction a generalizing p with
  | nil => rfl
  | cons w a ih =>
    simp only [List.cons_append, placeAfter]
    cases w.next p with
    | none => rfl
    | some q => exact ih q

/-- What is known of the words of instructions. -/
structure InstWords (ws : List Word) (l : List Inst) : Prop where
  insts : instsOf ws = l
  lead : leading ws = []
  place : ∀ p, placeAfter p ws ≠ none
  only : ∀ w ∈ ws, Word.isInst w

theorem leading_acts (as : List Bytes) (ws : List Word) :
    leading (as.map Word.act ++ ws) = as.flatten ++ leading ws := by
  induction as with
  | nil => rfl
  | cons a as ih => simp [leading, ih]

theorem instsOf_acts (as : List Bytes) (ws : List Word) : instsOf (as.map Word.act ++ ws) = instsOf ws := by
  induction as with
  | nil => rfl
  | cons a as ih => simp [instsOf, ih]

theorem placeAfter_acts (as : List Bytes) (ws : List Word) :
    placeAfter .acts (as.map Word.act ++ ws) = placeAfter .acts ws := by
  induction as with
  | nil => rfl
  | cons a as ih => simp [placeAfter, Word.next, ih]

theorem instText_words {i : Inst} {ts : List Str} (h : InstText oxmP actP i ts) :
    ∃ items : List (Word × Str), items.map (·.2) = ts ∧ (∀ e ∈ items, IsWord oxmP actP e.1 e.2) ∧
      ∀ ws l, InstWords ws l → InstWords (items.map (·.1) ++ ws) (i :: l) := by
  have one : ∀ (w : Word) (t : Str), IsWord oxmP actP w t → (∀ ws, instsOf (w :: ws) = i :: instsOf ws) →
      (∀ ws, leading (w :: ws) = []) → (∀ p, w.next p = some .done) → Word.isInst w → ts = [t] →
      ∃ items : List (Word × Str), items.map (·.2) = ts ∧ (∀ e ∈ items, IsWord oxmP actP e.1 e.2) ∧
        ∀ ws l, InstWords ws l → InstWords (items.map (·.1) ++ ws) (i :: l) := by
    intro w t h1 h2 h3 h4 h5 h6
    refine ⟨[(w, t)], by simp [h6], by simpa using h1, ?_⟩
    intro ws l hw
    refine ⟨?_, h3 _, ?_, ?_⟩
    · exact (h2 ws).trans (by rw [hw.insts])
    · intro p
      show placeAfter p (w :: ws) ≠ none
      rw [placeAfter, h4]
      exact hw.place _
    · intro x hx
      rcases List.mem_cons.1 hx with rfl | hx
      · exact h5
      · exact hw.only x hx
  have acts : ∀ (w : Word) (name : Str) (as : List (Bytes × Str)), IsWord oxmP actP w name →
      (∀ a ∈ as, IsWord oxmP actP (.act a.1) a.2) →
      (∀ ws, leading ws = as.flatMap (·.1) → instsOf (w :: ws) = i :: instsOf ws) →
      (∀ ws, leading (w :: ws) = []) → (∀ p, w.next p = some .acts) → Word.isInst w →
      ts = name :: as.map (·.2) →
      ∃ items : List (Word × Str), items.map (·.2) = ts ∧ (∀ e ∈ items, IsWord oxmP actP e.1 e.2) ∧
        ∀ ws l, InstWords ws l → InstWords (items.map (·.1) ++ ws) (i :: l) := by
    intro w name as h1 ha h2 h3 h4 h5 h6
    refine ⟨(w, name) :: as.map (fun a => (.act a.1, a.2)), ?_, ?_, ?_⟩
    · rw [h6]; simp [Function.comp_def]
    · intro e he
      rcases List.mem_cons.1 he with rfl | he
      · exact h1
      · obtain ⟨a, h7, rfl⟩ := List.mem_map.1 he
        exact ha a h7
    · intro ws l hw
      have e : ((w, name) :: as.map (fun a => ((.act a.1, a.2) : Word × Str))).map (·.1) ++ ws =
          w :: ((as.map (·.1)).map Word.act ++ ws) := by simp [Function.comp_def]
      rw [e]
      refine ⟨?_, h3 _, ?_, ?_⟩
      · rw [h2, instsOf_acts, hw.insts]
        rw [leading_acts, hw.lead, List.append_nil, List.flatMap_def]
      · intro p
        rw [placeAfter, h4]
        dsimp only
        rw [placeAfter_acts]
        exact hw.place _
      · intro x hx
        rcases List.mem_cons.1 hx with rfl | hx
        · exact h5
        · rcases List.mem_append.1 hx with hx | hx
          · obtain ⟨a, -, rfl⟩ := List.mem_map.1 hx
            trivial
          · exact hw.only x hx
  cases h with
  | goto name p n h1 h2 =>
    obtain ⟨c1, c2⟩ := instName_clean h1 (by decide)
    exact one _ _ (isWord_eq (w := .goto n) c1 c2 (intSyntax_clean h2).1 (intSyntax_clean h2).2.1
      (fun s op r h3 h4 => .goto name s op p n r h1 h3 h4 h2)) (fun _ => rfl) (fun _ => rfl)
      (fun p => by cases p <;> rfl) trivial rfl
  | metadata name p n h1 h2 =>
    obtain ⟨c1, c2⟩ := instName_clean h1 (by decide)
    exact one _ _ (isWord_eq (w := .metadata n 0) c1 c2 (intSyntax_clean h2).1 (intSyntax_clean h2).2.1
      (fun s op r h3 h4 => .metadata name s op p n r h1 h3 h4 h2)) (fun _ => rfl) (fun _ => rfl)
      (fun p => by cases p <;> rfl) trivial rfl
  | metadataMask name v m n w h1 h2 h2' =>
    obtain ⟨c1, c2⟩ := instName_clean h1 (by decide)
    exact one _ _ (isWord_eq (w := .metadata n w) c1 c2 (slash_clean h2 h2') (by simp)
      (fun s op r h3 h4 => .metadataMask name s op v m n w r h1 h3 h4 h2 h2')) (fun _ => rfl) (fun _ => rfl)
      (fun p => by cases p <;> rfl) trivial rfl
  | apply name as h1 h2 =>
    obtain ⟨c1, c2⟩ := instName_clean h1 (by decide)
    exact acts .apply name as (isWord_bare c1 c2 (fun s => .apply name s h1)) h2
      (fun ws h => by rw [instsOf, h]) (fun _ => rfl) (fun p => by cases p <;> rfl) trivial rfl
  | write name as h1 h2 =>
    obtain ⟨c1, c2⟩ := instName_clean h1 (by decide)
    exact acts .write name as (isWord_bare c1 c2 (fun s => .write name s h1)) h2
      (fun ws h => by rw [instsOf, h]) (fun _ => rfl) (fun p => by cases p <;> rfl) trivial rfl
  | clear name h1 =>
    obtain ⟨c1, c2⟩ := instName_clean h1 (by decide)
    exact one _ _ (isWord_bare (w := .clear) c1 c2 (fun s => .clear name s h1)) (fun _ => rfl) (fun _ => rfl)
      (fun p => by cases p <;> rfl) trivial rfl
  | meter p n h2 =>
    exact one _ _ (isWord_eq (w := .meter n) (name := t!"@meter") (by decide) (by decide) (intSyntax_clean h2).1
      (intSyntax_clean h2).2.1 (fun s op r h3 h4 => .meter s op p n r h3 h4 h2)) (fun _ => rfl) (fun _ => rfl)
      (fun p => by cases p <;> rfl) trivial rfl

theorem instTexts_words (l : List (Inst × List Str)) (h : ∀ e ∈ l, InstText oxmP actP e.1 e.2) :
    ∃ items : List (Word × Str), items.map (·.2) = l.flatMap (·.2) ∧
      (∀ e ∈ items, IsWord oxmP actP e.1 e.2) ∧ InstWords (items.map (·.1)) (l.map (·.1)) := by
  induction l with
  | nil => exact ⟨[], rfl, by simp, ⟨rfl, rfl, fun p => by simp [placeAfter], by simp⟩⟩
  | cons e l ih =>
    obtain ⟨items, h1, h2, h3⟩ := ih (fun x hx => h x (List.mem_cons_of_mem _ hx))
    obtain ⟨items1, h4, h5, h6⟩ := instText_words (h e (by simp))
    refine ⟨items1 ++ items, by simp [h1, h4], ?_, ?_⟩
    · intro x hx
      rcases List.mem_append.1 hx with hx | hx
      · exact h5 x hx
      · exact h2 x hx
    · rw [List.map_append]
      exact h6 _ _ h3

/-! ## The words before the instructions -/

theorem place_start {ws : List Word} (h : ∀ w ∈ ws, StartWord w) : placeAfter .start ws = some .start := by
  induction ws with
  | nil => rfl
  | cons w ws ih =>
    have h1 : w.next .start = some .start := by
      have := h w (by simp)
      cases w <;> first | rfl | exact absurd this id
    rw [placeAfter, h1]
    exact ih fun x hx => h x (List.mem_cons_of_mem _ hx)

theorem instsOf_start {ws : List Word} (h : ∀ w ∈ ws, StartWord w) (ws' : List Word) :
    instsOf (ws ++ ws') = instsOf ws' := by
  induction ws with
  | nil => rfl
  | cons w ws ih =>
    have ih := ih fun x hx => h x (List.mem_cons_of_mem _ hx)
    have := h w (by simp)
    cases w <;> first | exact ih | exact absurd this id

theorem lastOf_insts (f : Word → Option Int) (hf : ∀ w, Word.isInst w → f w = none) (a b : List Word)
    (hb : ∀ w ∈ b, Word.isInst w) : lastOf f (a ++ b) = lastOf f a := by
  unfold lastOf
  rw [List.filterMap_append, List.filterMap_eq_nil_iff.2 (fun w hw => hf w (hb w hw)), List.append_nil]

theorem headOf_insts (c x : Int) (a b : List Word) (hb : ∀ w ∈ b, Word.isInst w) :
    headOf c x (a ++ b) = headOf c x a := by
  have hk : ∀ k w, Word.isInst w → Word.keyArg k w = none := by
    intro k w hw; cases w <;> first | rfl | exact absurd hw id
  have hc : ∀ w, Word.isInst w → Word.cookieArg w = none := by
    intro w hw; cases w <;> first | rfl | exact absurd hw id
  have hm : ∀ w, Word.isInst w → Word.maskArg w = none := by
    intro w hw; cases w <;> first | rfl | exact absurd hw id
  have hf : flagsOf (a ++ b) = flagsOf a := by
    have : ∀ i, (Word.flag i ∈ a ++ b ↔ Word.flag i ∈ a) := by
      intro i
      rw [List.mem_append]
      exact ⟨fun h => h.elim id fun h => absurd (hb _ h) id, Or.inl⟩
    unfold flagsOf
    simp only [this]
  unfold headOf
  simp only [lastOf_insts _ (hk _) a b hb, lastOf_insts _ hc a b hb, lastOf_insts _ hm a b hb, hf]

theorem oxmOf_insts (a b : List Word) (hb : ∀ w ∈ b, Word.isInst w) : oxmOf (a ++ b) = oxmOf a := by
  unfold oxmOf
  rw [List.flatMap_append]
  have : b.flatMap Word.oxmBytes = [] := by
    rw [List.flatMap_eq_nil_iff]
    intro w hw
    have := hb w hw
    cases w <;> first | rfl | exact absurd this id
  rw [this, List.append_nil]

/-- The words of a whole rule: keys and match items, then those of the instructions. -/
theorem rule_words_insts (ks : List (Word × Str)) (hk : ∀ e ∈ ks, StartWord e.1 ∧ IsWord oxmP actP e.1 e.2)
    (l : List (Inst × List Str)) (hl : ∀ e ∈ l, InstText oxmP actP e.1 e.2) (h r : Str)
    (hh : ∀ c ∈ h, Space c ∨ c = ',') (hr : Boundary r) (hn : ks ≠ [] ∨ l ≠ [] ∨ (h = [] ∧ r = [])) :
    ∃ iw, ReadsWords oxmP actP (ks.map (·.1) ++ iw) (h ++ (commaList (ks.map (·.2) ++ l.flatMap (·.2)) ++ r)) r ∧
      placeAfter .start (ks.map (·.1) ++ iw) ≠ none ∧ (∀ w ∈ iw, Word.isInst w) ∧
      instsOf (ks.map (·.1) ++ iw) = l.map (·.1) := by
  obtain ⟨items, h1, h2, h3⟩ := instTexts_words l hl
  have hr : ReadsWords oxmP actP ((ks ++ items).map (·.1))
      (h ++ (commaList ((ks ++ items).map (·.2)) ++ r)) r := by
    have hi : ∀ e ∈ ks ++ items, IsWord oxmP actP e.1 e.2 := by
      intro e he
      rcases List.mem_append.1 he with he | he
      · exact (hk e he).2
      · exact h2 e he
    by_cases hz : ks ++ items = []
    · rcases hn with hn | hn | ⟨rfl, rfl⟩
      · simp [hn] at hz
      · exfalso
        simp only [List.append_eq_nil_iff] at hz
        have hi := h3.insts
        rw [hz.2] at hi
        have : l.map (·.1) = [] := hi.symm
        simp [hn] at this
      · rw [hz]; exact .nil _
    · exact reads_comma hi hz hh hr
  rw [List.map_append, List.map_append, h1] at hr
  have hst : ∀ w ∈ ks.map (·.1), StartWord w := by
    intro w hw
    obtain ⟨e, he, rfl⟩ := List.mem_map.1 hw
    exact (hk e he).1
  refine ⟨_, hr, ?_, h3.only, ?_⟩
  · rw [placeAfter_append, place_start hst]
    exact h3.place _
  · rw [instsOf_start hst, h3.insts]

/-- The words of a whole rule: keys and match items, then instructions. -/
theorem rule_words (ks : List (Word × Str)) (hk : ∀ e ∈ ks, StartWord e.1 ∧ IsWord oxmP actP e.1 e.2)
    (l : List (Inst × List Str)) (hl : ∀ e ∈ l, InstText oxmP actP e.1 e.2) (c x : Int) (h r : Str)
    (hh : ∀ c ∈ h, Space c ∨ c = ',') (hr : Boundary r) (hn : ks ≠ [] ∨ l ≠ [] ∨ (h = [] ∧ r = [])) :
    ∃ ws, ReadsWords oxmP actP ws (h ++ (commaList (ks.map (·.2) ++ l.flatMap (·.2)) ++ r)) r ∧
      placeAfter .start ws ≠ none ∧ headOf c x ws = headOf c x (ks.map (·.1)) ∧
      oxmOf ws = oxmOf (ks.map (·.1)) ∧ instsOf ws = l.map (·.1) := by
  obtain ⟨iw, h1, h2, h3, h4⟩ := rule_words_insts ks hk l hl h r hh hr hn
  exact ⟨_, h1, h2, headOf_insts c x (ks.map (·.1)) _ h3, oxmOf_insts (ks.map (·.1)) _ h3, h4⟩

/-- A whole rule: keys and match items, then instructions. -/
theorem str2mod_rule' (ks : List (Word × Str)) (hk : ∀ e ∈ ks, StartWord e.1 ∧ IsWord oxmP actP e.1 e.2)
    (l : List (Inst × List Str)) (hl : ∀ e ∈ l, InstText oxmP actP e.1 e.2) (c x : Int) :
    ((headOf c x (ks.map (·.1))).Fits ∧ (∀ e ∈ l, e.1.Fits) ∧
        ((headOf c x (ks.map (·.1))).wire (oxmOf (ks.map (·.1))) (l.flatMap (·.1.wire))).length < 65536 →
      str2mod (commaList (ks.map (·.2) ++ l.flatMap (·.2))) c x =
        .ok ((headOf c x (ks.map (·.1))).wire (oxmOf (ks.map (·.1))) (l.flatMap (·.1.wire)))) ∧
    (¬ ((headOf c x (ks.map (·.1))).Fits ∧ (∀ e ∈ l, e.1.Fits) ∧
        ((headOf c x (ks.map (·.1))).wire (oxmOf (ks.map (·.1))) (l.flatMap (·.1.wire))).length < 65536) →
      str2mod (commaList (ks.map (·.2) ++ l.flatMap (·.2))) c x = .error .structError) := by
  obtain ⟨ws, hr, hp, ho, hox, hi⟩ := rule_words ks hk l hl c x [] [] (by simp) atEnd_nil (Or.inr (Or.inr ⟨rfl, rfl⟩))
  simp only [List.nil_append, List.append_nil] at hr
  have hib : instBytes ws = l.flatMap (·.1.wire) := by
    unfold instBytes
    rw [hi, List.flatMap_map]
  have hfl : FlowFits c x ws ↔ ((headOf c x (ks.map (·.1))).Fits ∧ (∀ e ∈ l, e.1.Fits) ∧
      ((headOf c x (ks.map (·.1))).wire (oxmOf (ks.map (·.1))) (l.flatMap (·.1.wire))).length < 65536) := by
    unfold FlowFits
    rw [ho, hox, hib, hi]
    have : ((headOf c x (ks.map (·.1))).wire (oxmOf (ks.map (·.1))) (l.flatMap (·.1.wire))).length =
        8 + ((headOf c x (ks.map (·.1))).body (oxmOf (ks.map (·.1))) (l.flatMap (·.1.wire))).length := by
      simp only [FlowHead.wire, message, List.length_append, u8_length, u16_length, u32_length]
      omega
    rw [this]
    simp
  have he : flowOf c x ws = (headOf c x (ks.map (·.1))).wire (oxmOf (ks.map (·.1))) (l.flatMap (·.1.wire)) := by
    rw [flowOf, ho, hox, hib]
  rw [← hfl, ← he]
  exact str2mod_words hr hp c x

theorem str2mod_rule (ks : List (Word × Str)) (hk : ∀ e ∈ ks, StartWord e.1 ∧ IsWord oxmP actP e.1 e.2)
    (l : List (Inst × List Str)) (hl : ∀ e ∈ l, InstText oxmP actP e.1 e.2) (c x : Int) (hfit : ∀ e ∈ l, e.1.Fits)
    (hh : (headOf c x (ks.map (·.1))).Fits)
    (hlen : ((headOf c x (ks.map (·.1))).wire (oxmOf (ks.map (·.1))) (l.flatMap (·.1.wire))).length < 65536) :
    str2mod (commaList (ks.map (·.2) ++ l.flatMap (·.2))) c x =
      .ok ((headOf c x (ks.map (·.1))).wire (oxmOf (ks.map (·.1))) (l.flatMap (·.1.wire))) :=
  (str2mod_rule' ks hk l hl c x).1 ⟨hh, hfit, hlen⟩

end Ofpstr
