import Verif.Lemmas.Group

/-!
# Group texts as comma lists
-/

namespace Ofpstr
open Spec

theorem str2actG_key (ox : Str → Py (Bytes × Nat)) (run : ActEnc → Str → Bool → Py (Bytes × Nat))
    (g : Bytes → Py Bytes) {s h name t : Str} (ht : getToken s = (h, name, t)) (hp : parseFunc name = .ok (name, none))
    (hl : lookupAct name = none) (hs : startsWith name t!"set_" = false) :
    str2actG ox run g s = .ok ([], h.length) := by
  unfold str2actG
  rw [ht]
  dsimp only
  rw [hp]
  simp only [bind, Except.bind]
  rw [hl]
  dsimp only
  rw [hs]
  rfl

/-- A token that is a key of a bucket is no action. -/
theorem str2act_key {s h name t : Str} (ht : Tok s h name t) (hn : name ∈ bucketKeys) :
    str2act s = .ok ([], h.length) := by
  have hp : ∀ n ∈ bucketKeys, parseFunc n = .ok (n, none) := by decide +kernel
  have hl : ∀ n ∈ bucketKeys, (lookupAct n).isNone = true := by decide +kernel
  have hs : ∀ n ∈ bucketKeys, startsWith n t!"set_" = false := by decide +kernel
  exact (str2act_G _).trans (str2actG_key str2oxm1 runActEnc setFieldAct ((getToken_iff _ _ _ _).2 ht) (hp _ hn)
    (by simpa using hl _ hn) (hs _ hn))

theorem isB_act {b : Bytes} {text : Str} (ne : text ≠ []) (start : PlainStart text)
    (noat : text.head? ≠ some '@')
    (reads : ∀ h r, Head h → AtEnd r → str2act (h ++ (text ++ r)) = .ok (b, h.length + text.length)) :
    IsB actP (.act b) text := by
  refine ⟨ne, ?_⟩
  intro h r hh hr
  obtain ⟨c, t, rfl⟩ := List.exists_cons_of_ne_nil ne
  have hth : tokenHead (h ++ (c :: t ++ r)) = h :=
    tokenHead_of_head (Or.inl hh) (plainStart_cons (start c t rfl) _)
  rcases hg : getToken (h ++ (c :: t ++ r)) with ⟨h', name, u⟩
  have ht := (getToken_iff _ _ _ _).1 hg
  have hh' : h' = h := by
    have := getToken_fst (h ++ (c :: t ++ r))
    rw [hg, hth] at this
    exact this
  subst hh'
  have hnu : c :: t ++ r = name ++ u := List.append_cancel_left ht.1
  have hno : name.head? ≠ some '@' := by
    cases name with
    | nil => simp
    | cons d n =>
      simp only [List.cons_append, List.cons.injEq] at hnu
      rw [← hnu.1]
      exact noat
  have hrd := reads h' r (Or.inl hh) hr
  have hkey : name ∉ bucketKeys := by
    intro hk
    rw [str2act_key ht hk] at hrd
    simp at hrd
  have hb := ReadsB.act (act := actP) _ h' name u b (h'.length + (c :: t).length) ht (noeq_of_seps hh) hno hkey hrd
    (by simp)
  have hd : (h' ++ (c :: t ++ r)).drop (h'.length + (c :: t).length) = r := by
    rw [← List.append_assoc, ← List.length_append, List.drop_left]
  rwa [hd] at hb

theorem isB_actTrip {b : Bytes} {text : Str} (h : ActTrip b text) : IsB actP (.act b) text :=
  isB_act h.ne h.start h.noat h.reads

theorem isB_num {w : BWord} {t : Str} (h : BNumText w t) : IsB actP w t := by
  have key : ∀ (name p : Str) (n : Int) (w : BWord), Clean name → name ≠ [] → IntSyntax p n p.length →
      (∀ s h t op r, Tok s h name t → '=' ∉ h → Tok t op p r → '=' ∈ op → ReadsB actP s w r) →
      IsB actP w (name ++ '=' :: p) := by
    intro name p n w hc hn hp hr
    refine ⟨by simp, ?_⟩
    intro h r hh hb
    have h1 := tok_head (Or.inl hh) hc.token (atEnd_eq (p ++ r)) hc.plainStart hn
    have hpc := intSyntax_clean hp
    have h2 := tok_eq hpc.1.token hb hpc.1.plainStart hpc.2.1
    refine hr _ h ('=' :: (p ++ r)) ['='] r ?_ (noeq_of_seps hh) h2 (by simp)
    simpa using h1
  cases h with
  | weight p n h => exact key t!"weight" p n _ (by decide) (by decide) h fun s h' t op r a1 a2 a3 a4 => .weight s h' t op p n r a1 a2 a3 a4 h
  | port p n h => exact key t!"watch_port" p n _ (by decide) (by decide) h fun s h' t op r a1 a2 a3 a4 => .port s h' t op p n r a1 a2 a3 a4 h
  | group p n h => exact key t!"watch_group" p n _ (by decide) (by decide) h fun s h' t op r a1 a2 a3 a4 => .group s h' t op p n r a1 a2 a3 a4 h

/-! ## Items -/

def lead (l : List Item) : List BWord := (sections l).headD []
def rest (l : List Item) : List (List BWord) := (sections l).tail

theorem sections_eq (l : List Item) : sections l = lead l :: rest l := by
  unfold lead rest
  cases h : sections l with
  | nil =>
    exfalso
    cases l with
    | nil => cases h
    | cons i l =>
      cases i with
      | mark => cases h
      | gap t =>
        induction l with
        | nil => cases h
        | cons j l ih =>
          cases j with
          | mark => cases h
          | gap t => exact ih h
          | word w t => simp only [sections] at h; split at h <;> cases h
      | word w t => simp only [sections] at h; split at h <;> cases h
  | cons a b => rfl

theorem lead_mark (l : List Item) : lead (.mark :: l) = [] := rfl
theorem rest_mark (l : List Item) : rest (.mark :: l) = lead l :: rest l := by
  rw [← sections_eq]; rfl
theorem lead_word (w : BWord) (t : Str) (l : List Item) : lead (.word w t :: l) = w :: lead l := by
  unfold lead; rw [sections, sections_eq]; rfl
theorem rest_word (w : BWord) (t : Str) (l : List Item) : rest (.word w t :: l) = rest l := by
  unfold rest; rw [sections, sections_eq]; rfl


theorem full_cons (ws : List BWord) (l : List (List BWord)) :
    full (ws :: l) = if ws = [] then full l else ws :: full l := by
  unfold full
  by_cases h : ws = [] <;> simp [h]

/-- Words and then buckets. -/
def Reads (l : List Item) (s : Str) : Prop :=
  ∃ u, BucketText actP (lead l) s u ∧ Buckets actP (full (rest l)) u

theorem reads_buckets {l : List Item} {s : Str} (h : Reads l s) : Buckets actP (full (sections l)) s := by
  obtain ⟨u, h1, h2⟩ := h
  rw [sections_eq, full_cons]
  by_cases hl : lead l = []
  · rw [if_pos hl]
    rw [hl] at h1
    rw [(bucketText_shorter h1).1 rfl] at h2
    exact h2
  · rw [if_neg hl]
    exact .bucket s _ u _ hl h1 h2

theorem mark_tok {h r : Str} (hh : ∀ c ∈ h, Space c ∨ c = ',') (hr : Boundary r) :
    Tok (h ++ (t!"@bucket" ++ r)) h t!"@bucket" r :=
  tok_head (Or.inl hh) (show Clean t!"@bucket" by decide).token hr (show Clean t!"@bucket" by decide).plainStart (by decide)

theorem reads_items (l : List Item) (ho : ∀ i ∈ l, i.Ok actP) (hg : NoGapEnd l) (h : Str)
    (hh : ∀ c ∈ h, Space c ∨ c = ',') (hl : l = [] → h = []) : Reads l (h ++ commaList (l.map Item.text)) := by
  induction l generalizing h with
  | nil =>
    rw [hl rfl]
    exact ⟨[], .nil _ (Or.inl rfl), .nil⟩
  | cons i l ih =>
    have ho' : ∀ i ∈ l, i.Ok actP := fun j hj => ho j (List.mem_cons_of_mem _ hj)
    have hg' : l ≠ [] → NoGapEnd l := by
      intro hl t ht
      refine hg t ?_
      rw [List.getLast?_cons, ht]
      rfl
    have comma : ∀ (hl : l ≠ []), Reads l (',' :: commaList (l.map Item.text)) := by
      intro hl
      have := ih ho' (hg' hl) [','] (by intro c hc; exact Or.inr (List.mem_singleton.1 hc)) (fun e => absurd e hl)
      simpa using this
    have after : ∃ r, commaList ((i :: l).map Item.text) = i.text ++ r ∧ Boundary r ∧ Reads l r := by
      by_cases hl : l = []
      · subst hl
        exact ⟨[], by simp [commaList], atEnd_nil, ih ho' (by intro t ht; cases ht) [] (by simp) (fun _ => rfl)⟩
      · refine ⟨',' :: commaList (l.map Item.text), ?_, atEnd_comma _, comma hl⟩
        rw [List.map_cons, commaList_cons _ (by simpa using hl)]
    cases i with
    | mark =>
      obtain ⟨r, h1, h2, h3⟩ := after
      rw [h1]
      refine ⟨h ++ (t!"@bucket" ++ r), ?_, ?_⟩
      · rw [lead_mark]
        exact .nil _ (Or.inr ⟨h, _, r, mark_tok hh h2, noeq_of_seps hh, Or.inl (by decide)⟩)
      · rw [rest_mark, ← sections_eq]
        refine .skip _ h t!"@bucket" r _ (by simp [Item.text]) ?_ (mark_tok hh h2) (by decide) (reads_buckets h3)
        exact .nil _ (Or.inr ⟨h, _, r, mark_tok hh h2, noeq_of_seps hh, Or.inl (by decide)⟩)
    | gap t =>
      by_cases hl : l = []
      · subst hl
        exact absurd rfl (hg t)
      · have hot : ∀ c ∈ t, Space c ∨ c = ',' := ho (.gap t) (by simp)
        have := ih ho' (hg' hl) (h ++ (t ++ [','])) (by
          intro c hc
          simp only [List.mem_append, List.mem_singleton] at hc
          rcases hc with hc | hc | hc
          · exact hh c hc
          · exact hot c hc
          · exact Or.inr hc) (fun e => absurd e hl)
        rw [List.map_cons, commaList_cons _ (by simpa using hl)]
        simpa [Item.text, Reads, lead, rest, sections] using this
    | word w t =>
      obtain ⟨r, h1, h2, u, h3, h4⟩ := after
      rw [h1]
      have how : IsB actP w t := ho (.word w t) (by simp)
      refine ⟨u, ?_, ?_⟩
      · rw [lead_word]
        exact .cons _ w r _ u (by simp [Item.text, how.1]) (how.2 h r hh h2) h3
      · rw [rest_word]; exact h4

/-! ## The head -/

theorem readsG_word {w : GWord} {t : Str} (hw : HeadWord w t) {h r : Str} (hh : ∀ c ∈ h, Space c ∨ c = ',')
    (hr : Boundary r) : ReadsG (h ++ (t ++ r)) w r ∧ t ≠ [] := by
  have num : ∀ (p : Str), Clean p → p ≠ [] → Tok (h ++ (t!"group=" ++ p ++ r)) h t!"group" ('=' :: (p ++ r)) ∧
      Tok ('=' :: (p ++ r)) ['='] p r := by
    intro p hc hn
    have h1 := tok_head (Or.inl hh) (show Clean t!"group" by decide).token (atEnd_eq (p ++ r))
      (show Clean t!"group" by decide).plainStart (by decide)
    exact ⟨by simpa using h1, tok_eq hc.token hr hc.plainStart hn⟩
  cases hw with
  | all p hp =>
    have hc : Clean p ∧ p ≠ [] := by
      refine ⟨?_, by rintro rfl; cases hp⟩
      intro c hc
      have hm : c.toLower ∈ t!"all" := by rw [← hp]; exact List.mem_map_of_mem hc
      simp only [List.mem_cons, List.not_mem_nil, or_false] at hm
      rcases hm with hm | hm | hm
      · rcases toLower_a hm with rfl | rfl <;> decide
      · rcases toLower_l hm with rfl | rfl <;> decide
      · rcases toLower_l hm with rfl | rfl <;> decide
    obtain ⟨h1, h2⟩ := num p hc.1 hc.2
    exact ⟨.all _ h _ ['='] p r h1 h2 hp, by simp⟩
  | id p n hp =>
    obtain ⟨h1, h2⟩ := num p (intSyntax_clean hp).1 (intSyntax_clean hp).2.1
    exact ⟨.id _ h _ ['='] p n r h1 h2 hp, by simp⟩
  | type k name hk =>
    have : Clean t ∧ t ≠ [] := by
      have hm := List.mem_of_getElem? hk
      have : ∀ n ∈ groupTypes, Clean n ∧ n ≠ [] := by decide
      exact this _ hm
    exact ⟨.type _ h t k r (tok_head (Or.inl hh) this.1.token hr this.1.plainStart this.2) hk, this.2⟩

theorem headText_words (gs : List (GWord × Str)) (hg : ∀ e ∈ gs, HeadWord e.1 e.2) (h r : Str)
    (hh : ∀ c ∈ h, Space c ∨ c = ',') (hr : Boundary r) (hn : gs ≠ []) (hstop : HeadText [] r r) :
    HeadText (gs.map (·.1)) (h ++ (commaList (gs.map (·.2)) ++ r)) r := by
  induction gs generalizing h with
  | nil => exact absurd rfl hn
  | cons e gs ih =>
    cases gs with
    | nil =>
      obtain ⟨h1, h2⟩ := readsG_word (hg e (by simp)) hh hr
      exact .cons _ e.1 r [] r (by simp [h2, commaList]) h1 hstop
    | cons e2 gs =>
      obtain ⟨h1, h2⟩ := readsG_word (hg e (by simp)) hh
        (atEnd_comma (commaList ((e2 :: gs).map (·.2)) ++ r) : Boundary _)
      have h3 := ih (fun x hx => hg x (List.mem_cons_of_mem _ hx)) [','] (by
        intro c hc; exact Or.inr (List.mem_singleton.1 hc)) (by simp)
      have ec : commaList ((e :: e2 :: gs).map (·.2)) = e.2 ++ ',' :: commaList ((e2 :: gs).map (·.2)) :=
        commaList_cons _ (by simp)
      rw [List.map_cons, ec]
      refine .cons _ e.1 (',' :: (commaList ((e2 :: gs).map (·.2)) ++ r)) _ r (by simp [h2]) ?_ (by simpa using h3)
      simpa using h1

/-- A text of head words and items, the items starting with `@bucket`. -/
theorem group_text (gs : List (GWord × Str)) (l : List Item) (hg : ∀ e ∈ gs, HeadWord e.1 e.2)
    (ho : ∀ i ∈ l, i.Ok actP) (he : NoGapEnd l) :
    ∃ u, HeadText (gs.map (·.1)) (commaList (gs.map (·.2) ++ (Item.mark :: l).map Item.text)) u ∧
      Buckets actP (full (sections (.mark :: l))) u := by
  have hend : NoGapEnd (.mark :: l) := by
    intro t ht
    rw [List.getLast?_cons] at ht
    cases hl : l.getLast? with
    | none => rw [hl] at ht; cases ht
    | some i => rw [hl] at ht; exact he t (by rw [hl]; exact ht)
  have hok : ∀ i ∈ Item.mark :: l, i.Ok actP := by
    intro i hi
    rcases List.mem_cons.1 hi with rfl | hi
    · trivial
    · exact ho i hi
  have stop : ∀ h, (∀ c ∈ h, Space c ∨ c = ',') →
      HeadText [] (h ++ commaList ((Item.mark :: l).map Item.text)) (h ++ commaList ((Item.mark :: l).map Item.text)) := by
    intro h hh
    obtain ⟨r, h1, h2⟩ : ∃ r, commaList ((Item.mark :: l).map Item.text) = t!"@bucket" ++ r ∧ Boundary r := by
      by_cases hl : l = []
      · subst hl; exact ⟨[], rfl, atEnd_nil⟩
      · refine ⟨',' :: commaList (l.map Item.text), ?_, atEnd_comma _⟩
        rw [List.map_cons, commaList_cons _ (by simpa using hl)]
        rfl
    rw [h1]
    exact .stop _ h t!"@bucket" r (mark_tok hh h2) (by decide)
  by_cases hn : gs = []
  · subst hn
    refine ⟨commaList ((Item.mark :: l).map Item.text), stop [] (by simp), ?_⟩
    exact reads_buckets (reads_items (.mark :: l) hok hend [] (by simp) (fun _ => rfl))
  · refine ⟨',' :: commaList ((Item.mark :: l).map Item.text), ?_, ?_⟩
    · rw [commaList_append _ (by simpa using hn) (by simp)]
      exact headText_words gs hg [] _ (by simp) (atEnd_comma _) hn (stop [','] (by
        intro c hc; exact Or.inr (List.mem_singleton.1 hc)))
    · exact reads_buckets (reads_items (.mark :: l) hok hend [','] (by
        intro c hc; exact Or.inr (List.mem_singleton.1 hc)) (fun e => by cases e))

/-- A text of head words only. -/
theorem group_text_nil (gs : List (GWord × Str)) (hg : ∀ e ∈ gs, HeadWord e.1 e.2) :
    HeadText (gs.map (·.1)) (commaList (gs.map (·.2))) [] ∧ Buckets actP [] [] := by
  refine ⟨?_, .nil⟩
  by_cases hn : gs = []
  · subst hn; exact .nil
  · have := headText_words gs hg [] [] (by simp) atEnd_nil hn .nil
    simpa using this

end Ofpstr
