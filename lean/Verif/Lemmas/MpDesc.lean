import Verif.Lemmas.MpGroup

/-!
# Group descriptions: printing and reading back
-/

namespace Ofpstr
open Spec

set_option linter.unusedSimpArgs false

/-! ## Buckets of a description -/

/-- Buckets with `@bucket` before some of them, and nothing else in between. -/
inductive Marked : List (List BWord) → Str → Prop
  | nil : Marked [] []
  | skip (s h r bs) : s ≠ [] → Tok s h t!"@bucket" r → Marked bs r → Marked bs s
  | bucket (s ws u bs) : ws ≠ [] → BucketText actP ws s u → Marked bs u → Marked (ws :: bs) s

/-- A bucket text with words does not start with `@bucket`. -/
theorem bucketText_no_mark {ws : List BWord} {s u h name t : Str} (hw : ws ≠ []) (hb : BucketText actP ws s u)
    (ht : Tok s h name t) : name ≠ t!"@bucket" := by
  rintro rfl
  cases hb with
  | nil => exact hw rfl
  | cons _ w v _ _ _ hr =>
    cases hr with
    | weight _ _ _ _ _ _ h1 => have := (tok_det ht h1).2.1; revert this; decide
    | port _ _ _ _ _ _ h1 => have := (tok_det ht h1).2.1; revert this; decide
    | group _ _ _ _ _ _ h1 => have := (tok_det ht h1).2.1; revert this; decide
    | act _ _ _ _ _ h1 _ h2 => have := (tok_det ht h1).2.1; rw [← this] at h2; exact h2 rfl

theorem descBuckets_text {bs : List (List BWord)} {s : Str} (h : Marked bs s) (type fuel : Nat)
    (hf : s.length < fuel) (hb : ∀ ws ∈ bs, BucketFits type ws) :
    descBuckets type fuel s = .ok (bs.flatMap (bucketOf type)) := by
  induction h generalizing fuel with
  | nil =>
    cases fuel with
    | zero => cases hf
    | succ f => rw [descBuckets, if_pos (by decide)]; rfl
  | skip s h r bs hs h1 _ ih =>
    cases fuel with
    | zero => omega
    | succ f =>
      have := tok_progress hs h1
      rw [descBuckets, if_neg (by simpa using hs), (getToken_iff _ _ _ _).2 h1]
      dsimp only
      rw [if_pos (by decide), ih f (by omega) hb]
  | bucket s ws u bs hws h1 _ ih =>
    cases fuel with
    | zero => omega
    | succ f =>
      have hl := (bucketText_shorter h1).2 hws
      have hs : s ≠ [] := by rintro rfl; cases hl
      rcases hg : getToken s with ⟨hd, name, t⟩
      have hn := bucketText_no_mark hws h1 ((getToken_iff _ _ _ _).1 hg)
      rw [descBuckets, if_neg (by simpa using hs), hg]
      dsimp only
      rw [if_neg (by simpa using hn), str2bucket_text h1, if_neg hws, if_pos (hb ws (by simp)), ok_bind]
      dsimp only
      rw [if_pos (by omega), ← bucketText_drop h1, ih f (by omega) (fun x hx => hb x (List.mem_cons_of_mem _ hx)), ok_bind]
      rfl

/-- Words and then buckets. -/
def ReadsM (l : List Item) (s : Str) : Prop :=
  ∃ u, BucketText actP (lead l) s u ∧ Marked (full (rest l)) u

theorem readsM_buckets {l : List Item} {s : Str} (h : ReadsM l s) : Marked (full (sections l)) s := by
  obtain ⟨u, h1, h2⟩ := h
  rw [sections_eq, full_cons]
  by_cases hl : lead l = []
  · rw [if_pos hl]
    rw [hl] at h1
    rw [(bucketText_shorter h1).1 rfl] at h2
    exact h2
  · rw [if_neg hl]
    exact .bucket s _ u _ hl h1 h2

theorem readsM_items (Z : List Item) (z : Str) (hz : ReadsM Z z) (hb : Boundary z) (l : List Item)
    (ho : ∀ i ∈ l, i.Ok actP) (hg : ∀ i ∈ l, ∀ t, i ≠ .gap t) (h : Str)
    (hh : ∀ c ∈ h, Space c ∨ c = ',') (hl : l = [] → h = []) :
    ReadsM (l ++ Z) (h ++ (commaList (l.map Item.text) ++ z)) := by
  induction l generalizing h with
  | nil => rw [hl rfl]; exact hz
  | cons i l ih =>
    have ho' : ∀ i ∈ l, i.Ok actP := fun j hj => ho j (List.mem_cons_of_mem _ hj)
    have hg' : ∀ i ∈ l, ∀ t, i ≠ .gap t := fun j hj => hg j (List.mem_cons_of_mem _ hj)
    have after : ∃ r, commaList ((i :: l).map Item.text) ++ z = i.text ++ r ∧ Boundary r ∧ ReadsM (l ++ Z) r := by
      by_cases hl : l = []
      · subst hl
        exact ⟨z, by simp [commaList], hb, hz⟩
      · have := ih ho' hg' [','] (by intro c hc; exact Or.inr (List.mem_singleton.1 hc)) (fun e => absurd e hl)
        refine ⟨',' :: (commaList (l.map Item.text) ++ z), ?_, atEnd_comma _, by simpa using this⟩
        rw [List.map_cons, commaList_cons _ (by simpa using hl)]
        simp
    cases i with
    | mark =>
      obtain ⟨r, h1, h2, h3⟩ := after
      rw [h1, List.cons_append]
      refine ⟨h ++ (t!"@bucket" ++ r), ?_, ?_⟩
      · rw [lead_mark]
        exact .nil _ (Or.inr ⟨h, _, r, mark_tok hh h2, noeq_of_seps hh, Or.inl (by decide)⟩)
      · rw [rest_mark, ← sections_eq]
        exact .skip _ h r _ (by simp [Item.text]) (mark_tok hh h2) (readsM_buckets h3)
    | gap t => exact absurd rfl (hg (.gap t) (by simp) t)
    | word w t =>
      obtain ⟨r, h1, h2, u, h3, h4⟩ := after
      rw [h1, List.cons_append]
      have how : IsB actP w t := ho (.word w t) (by simp)
      refine ⟨u, ?_, ?_⟩
      · rw [lead_word]
        exact .cons _ w r _ u (by simp [Item.text, how.1]) (how.2 h r hh h2) h3
      · rw [rest_word]; exact h4

/-- The end of the text: nothing. -/
theorem readsM_nil : ReadsM [] [] := ⟨[], .nil _ (Or.inl rfl), .nil⟩

/-- A lone comma is a word without bytes. -/
theorem readsM_comma : ReadsM [.word (.act []) []] t!"," := by
  refine ⟨[], .cons _ _ [] _ _ (by decide) ?_ (.nil _ (Or.inl rfl)), .nil⟩
  have ht : Tok t!"," t!"," [] [] := (getToken_iff _ _ _ _).1 (by decide)
  exact .act t!"," t!"," [] [] [] 1 ht (by decide) (by decide) (by decide)
    (show str2act t!"," = .ok ([], 1) by decide +kernel) (by decide)

/-! ## The row of a description -/

noncomputable def descRow (e : GroupDesc) (name : Str) : Str :=
  commaList ((t!"group=" ++ fmtD e.gid) :: name ::
    (e.buckets.flatMap fun b => [t!"@bucket", commaList ((bItems e.type b).map (·.2))]))

theorem sections_prefix (type : Nat) (bs : List Bucket) (T : List Item) (X : List (List BWord))
    (hT : sections T = [] :: X) :
    sections (bItemsAll type bs ++ T) = [] :: ((bs.map fun b => (bItems type b).map (·.1)) ++ X) := by
  induction bs with
  | nil => simpa [bItemsAll] using hT
  | cons b bs ih =>
    have e : bItemsAll type (b :: bs) ++ T =
        .mark :: (((bItems type b).map fun e => .word e.1 e.2) ++ (bItemsAll type bs ++ T)) := by
      simp [bItemsAll]
    rw [e, sections, sections_words]
    unfold lead rest
    rw [ih]
    simp

theorem commaList_snoc_nil (l : List Str) (h : l ≠ []) : commaList (l ++ [[]]) = commaList l ++ t!"," := by
  rw [commaList_append _ h (by simp)]
  rfl

theorem bItems_blank {type : Nat} {b : Bucket} (h : b.Blank type) : bItems type b = [] := (bItems_nil type b).2 h

theorem blank_wire {type : Nat} {b : Bucket} (h : b.Blank type) (hw : type ≠ 1 → b.weight = 0) :
    bucketOf type [.act []] = b.wire ∧ BucketFits type [.act []] := by
  obtain ⟨h1, h2, h3, h4⟩ := h
  have e1 : weightOf type [.act []] = (b.weight : Int) := by
    unfold weightOf lastB defaultWeight
    by_cases ht : type = 1
    · rw [h1 ht]; simp [ht, BWord.weightArg]
    · rw [hw ht]; simp [ht, BWord.weightArg]
  have e0 : b.weight < 256 ^ 2 := by
    by_cases ht : type = 1
    · rw [h1 ht]; decide
    · rw [hw ht]; decide
  constructor
  · unfold bucketOf Bucket.wire
    rw [e1, h2, h3, h4]
    rfl
  · refine ⟨by decide, ?_, by decide, by decide⟩
    rw [e1]; exact fitsIn_cast e0

/-- The row is a text of items, with a comma at the end if the last bucket is blank. -/
theorem descRow_items (e : GroupDesc) (name : Str) (hv : ∀ b ∈ e.buckets, b.Valid) (hl : e.Lossless) :
    ∃ Z z bs, descRow e name = commaList ((t!"group=" ++ fmtD e.gid) :: name :: (bItemsAll e.type e.buckets).map Item.text) ++ z ∧
      ReadsM Z z ∧ Boundary z ∧ (e.buckets = [] → z = []) ∧
      full (sections (bItemsAll e.type e.buckets ++ Z)) = bs ∧ (∀ ws ∈ bs, BucketFits e.type ws) ∧
      bs.flatMap (bucketOf e.type) = e.buckets.flatMap Bucket.wire := by
  obtain ⟨l1, l2⟩ := hl
  by_cases hlast : ∃ init b, e.buckets = init ++ [b] ∧ b.Blank e.type
  · obtain ⟨init, b, hbs, hblank⟩ := hlast
    have hin : ∀ x ∈ init, ¬ x.Blank e.type := by
      intro x hx
      refine l2 x ?_
      rw [hbs, List.dropLast_concat]
      exact hx
    have hitems : bItemsAll e.type (init ++ [b]) = bItemsAll e.type init ++ [.mark] := by
      simp [bItemsAll, bItems_blank hblank]
    refine ⟨[.word (.act []) []], t!",", (init.map fun b => (bItems e.type b).map (·.1)) ++ [[.act []]], ?_,
      readsM_comma, atEnd_comma _, ?_, ?_, ?_, ?_⟩
    · unfold descRow
      rw [hbs, hitems]
      have hs := bItemsAll_same e.type init hin [t!"group=" ++ fmtD e.gid, name] [t!"@bucket"]
      have e1 : ((t!"group=" ++ fmtD e.gid) :: name ::
          ((init ++ [b]).flatMap fun b => [t!"@bucket", commaList ((bItems e.type b).map (·.2))])) =
          ([t!"group=" ++ fmtD e.gid, name] ++ (init.flatMap fun b => [t!"@bucket", commaList ((bItems e.type b).map (·.2))]) ++
            [t!"@bucket"]) ++ [[]] := by
        simp [bItems_blank hblank, commaList]
      have e2 : (t!"group=" ++ fmtD e.gid) :: name :: (bItemsAll e.type init ++ [Item.mark]).map Item.text =
          [t!"group=" ++ fmtD e.gid, name] ++ (bItemsAll e.type init).map Item.text ++ [t!"@bucket"] := by
        simp [Item.text]
      rw [e1, commaList_snoc_nil _ (by simp), e2]
      congr 1
    · intro h; rw [h] at hbs; simp at hbs
    · rw [hbs, hitems, List.append_assoc, sections_prefix _ _ _ [[.act []]] rfl, full_cons, if_pos rfl]
      unfold full
      rw [List.filter_eq_self]
      intro ws hws
      rcases List.mem_append.1 hws with hws | hws
      · obtain ⟨x, hx, rfl⟩ := List.mem_map.1 hws
        simp only [ne_eq, List.map_eq_nil_iff, decide_not, Bool.not_eq_true', decide_eq_false_iff_not]
        rw [bItems_nil]
        exact hin x hx
      · rw [List.mem_singleton] at hws; subst hws; decide
    · intro ws hws
      rcases List.mem_append.1 hws with hws | hws
      · obtain ⟨x, hx, rfl⟩ := List.mem_map.1 hws
        have hx' : x ∈ e.buckets := by rw [hbs]; simp [hx]
        exact bItems_fits e.type x (hv x hx') (l1 x hx').1
      · rw [List.mem_singleton] at hws; subst hws
        exact (blank_wire hblank (l1 b (by rw [hbs]; simp)).1).2
    · rw [hbs, List.flatMap_append, List.flatMap_append, List.flatMap_map]
      congr 1
      · exact List.flatMap_congr fun x hx => bItems_bucket e.type x (l1 x (by rw [hbs]; simp [hx])).1
      · simp [(blank_wire hblank (l1 b (by rw [hbs]; simp)).1).1]
  · have hall : ∀ b ∈ e.buckets, ¬ b.Blank e.type := by
      intro b hb hbl
      by_cases hne : e.buckets = []
      · rw [hne] at hb; cases hb
      · have hsplit := List.dropLast_append_getLast hne
        rw [← hsplit] at hb
        rcases List.mem_append.1 hb with hb | hb
        · exact l2 b hb hbl
        · rw [List.mem_singleton] at hb
          exact hlast ⟨_, _, hsplit.symm, hb ▸ hbl⟩
    refine ⟨[], [], e.buckets.map fun b => (bItems e.type b).map (·.1), ?_, readsM_nil, atEnd_nil, fun _ => rfl, ?_, ?_, ?_⟩
    · unfold descRow
      have hs := bItemsAll_same e.type e.buckets hall [t!"group=" ++ fmtD e.gid, name] []
      simpa using hs
    · rw [List.append_nil, full_items _ _ hall]
    · intro ws hws
      obtain ⟨x, hx, rfl⟩ := List.mem_map.1 hws
      exact bItems_fits e.type x (hv x hx) (l1 x hx).1
    · rw [List.flatMap_map]
      exact List.flatMap_congr fun x hx => bItems_bucket e.type x (l1 x hx).1

theorem lower_types (k : Nat) (name : Str) (h : groupTypes[k]? = some name) : lowerStr name = name := by
  have hm := List.mem_of_getElem? h
  have : ∀ n ∈ groupTypes, lowerStr n = n := by decide
  exact this _ hm

/-- The head of the row. -/
theorem descHead_row (gid type : Nat) (name r : Str) (ht : groupTypes[type]? = some name) (hr : Boundary r)
    (hstop : r = [] ∨ ∃ r', r = ',' :: (t!"@bucket" ++ r') ∧ Boundary r') (fuel : Nat) (g0 : Int) (t0 : Nat) :
    descHead (fuel + 3) g0 t0 (t!"group=" ++ (fmtD gid ++ ',' :: (name ++ r))) = .ok ((gid : Int), type, r) := by
  have hi := intSyntax_fmtD gid
  have h1 : Tok (t!"group=" ++ (fmtD gid ++ ',' :: (name ++ r))) [] t!"group" ('=' :: (fmtD gid ++ ',' :: (name ++ r))) := by
    have := tok_head (h := []) head_nil (b := t!"group") (Clean.token (by decide))
      (atEnd_eq (fmtD gid ++ ',' :: (name ++ r))) (Clean.plainStart (by decide)) (by decide)
    simpa using this
  have h2 := (procArg_iff ('=' :: (fmtD gid ++ ',' :: (name ++ r))) (',' :: (name ++ r)) (gid : Int)).2
    ⟨['='], _, tok_eq (intSyntax_clean hi).1.token (atEnd_comma _) (intSyntax_clean hi).1.plainStart (intSyntax_clean hi).2.1,
      by decide, hi⟩
  have hname : Clean name ∧ name ≠ [] := by
    have hm := List.mem_of_getElem? ht
    have : ∀ n ∈ groupTypes, Clean n ∧ n ≠ [] := by decide
    exact this _ hm
  have h3 : Tok (',' :: (name ++ r)) [','] name r := by
    have := tok_head (h := [',']) (Or.inl (by decide)) hname.1.token hr hname.1.plainStart hname.2
    simpa using this
  obtain ⟨k1, k2, k3⟩ := ofpgt_idx type name ht
  rw [descHead, if_neg (by simp), (getToken_iff _ _ _ _).2 h1]
  dsimp only
  rw [if_pos (by decide), h2, ok_bind, descHead, if_neg (by simp), (getToken_iff _ _ _ _).2 h3]
  dsimp only
  rw [if_neg (by simpa using k3), lower_types type name ht, if_pos k1, k2]
  rcases hstop with rfl | ⟨r', rfl, hr'⟩
  · rw [descHead, if_pos (by decide)]
  · have h4 : Tok (',' :: (t!"@bucket" ++ r')) [','] t!"@bucket" r' := by
      have := mark_tok (h := [',']) (by decide) hr'
      simpa using this
    rw [descHead, if_neg (by simp), (getToken_iff _ _ _ _).2 h4]
    dsimp only
    rw [if_neg (by decide), if_neg (by decide)]

theorem groupDesc_length (e : GroupDesc) : e.wire.length = 8 + (e.buckets.flatMap Bucket.wire).length := by
  simp only [GroupDesc.wire, List.length_append, u8_length, u16_length, u32_length, pad_length]
  omega

/-- Reading a row back. -/
theorem descBody_row (e : GroupDesc) (name : Str) (ht : groupTypes[e.type]? = some name) (hv : e.Valid) (hl : e.Lossless) :
    descBody (descRow e name) = .ok e.wire := by
  obtain ⟨v1, v2, v3, v4⟩ := hv
  obtain ⟨Z, z, bs, h1, h2, h3, h4, h5, h6, h7⟩ := descRow_items e name v3 hl
  obtain ⟨o1, o2⟩ := bItemsAll_ok e.type e.buckets v3 (fun b hb => (hl.1 b hb).2)
  obtain ⟨r, hr, hrb, hstop, hm⟩ : ∃ r, descRow e name = t!"group=" ++ (fmtD e.gid ++ ',' :: (name ++ r)) ∧ Boundary r ∧
      (r = [] ∨ ∃ r', r = ',' :: (t!"@bucket" ++ r') ∧ Boundary r') ∧ Marked bs r := by
    rw [h1]
    cases hbs : e.buckets with
    | nil =>
      rw [hbs] at h5
      refine ⟨[], ?_, atEnd_nil, Or.inl rfl, ?_⟩
      · rw [h4 hbs]; simp [bItemsAll, commaList]
      · have := readsM_buckets h2
        rw [h4 hbs] at this
        rw [← h5]
        simpa [bItemsAll] using this
    | cons b bs' =>
      rw [← hbs]
      have hit : ∃ its, bItemsAll e.type e.buckets = .mark :: its := ⟨_, by rw [hbs]; rfl⟩
      obtain ⟨its, hits⟩ := hit
      refine ⟨',' :: (commaList ((bItemsAll e.type e.buckets).map Item.text) ++ z), ?_, atEnd_comma _, Or.inr ?_, ?_⟩
      · rw [commaList_cons _ (by simp), commaList_cons _ (by rw [hits]; simp)]
        simp
      · rw [hits, List.map_cons]
        by_cases hn : its = []
        · exact ⟨z, by subst hn; simp [commaList, Item.text], h3⟩
        · exact ⟨',' :: (commaList (its.map Item.text) ++ z), by
            rw [commaList_cons _ (by simpa using hn)]; simp [Item.text], atEnd_comma _⟩
      · have := readsM_items Z z h2 h3 (bItemsAll e.type e.buckets) o1 o2 [','] (by decide) (by rw [hits]; simp)
        rw [← h5]
        simpa using readsM_buckets this
  have hlen := groupDesc_length e
  have hfuel : ∃ f, (descRow e name).length + 1 = f + 3 := ⟨(descRow e name).length - 2, by
    rw [hr]; simp only [List.length_append, List.length_cons, List.length_nil]; omega⟩
  obtain ⟨f, hf⟩ := hfuel
  rw [descBody, hf, hr, descHead_row e.gid e.type name r ht hrb hstop, ok_bind]
  dsimp only
  rw [descBuckets_text hm e.type _ (Nat.lt_succ_self _) h6, ok_bind, h7, packAll_eq, if_pos (by
    intro x hx
    simp only [List.mem_cons, List.not_mem_nil, or_false] at hx
    rcases hx with rfl | rfl
    · exact (fitsIn2 (8 + (e.buckets.flatMap Bucket.wire).length)).2 (by omega)
    · exact fitsIn_cast (show e.type < 256 ^ 1 by omega)), ok_bind, packU_fits (fitsIn_cast v2), ok_bind]
  simp only [GroupDesc.wire, u8, u16, u32, spec_be, List.flatMap_cons, List.flatMap_nil, List.append_nil, List.append_assoc,
    Int.toNat_natCast]
  rfl

/-! ## Printing -/

theorem groupDesc_nums (e : GroupDesc) (hv : e.Valid) (rest : Bytes) :
    uAt (e.wire ++ rest) 0 2 = e.wire.length ∧ uAt (e.wire ++ rest) 2 1 = e.type ∧ uAt (e.wire ++ rest) 4 4 = e.gid ∧
    slice (e.wire ++ rest) 8 e.wire.length = e.buckets.flatMap Bucket.wire := by
  obtain ⟨v1, v2, v3, v4⟩ := hv
  have hL := groupDesc_length e
  refine ⟨?_, ?_, ?_, ?_⟩
  · have : e.wire ++ rest = u16 e.wire.length ++ ((u8 e.type ++ (pad 1 ++ (u32 e.gid ++ e.buckets.flatMap Bucket.wire))) ++ rest) := by
      rw [hL]; simp only [GroupDesc.wire, List.append_assoc]
    rw [this]
    exact uAt_u16_here _ _ v4
  · unfold GroupDesc.wire
    simp only [List.append_assoc, uAt_u8, uAt_u16, uAt_u32, uAt_u64, uAt_skip_pad, Nat.reduceLeDiff, Nat.reduceSub, Nat.sub_self, Nat.le_refl]
    exact uAt_u8_here _ _ (by omega)
  · unfold GroupDesc.wire
    simp only [List.append_assoc, uAt_u8, uAt_u16, uAt_u32, uAt_u64, uAt_skip_pad, Nat.reduceLeDiff, Nat.reduceSub, Nat.sub_self, Nat.le_refl]
    exact uAt_u32_here _ _ v2
  · rw [slice, List.take_left]
    unfold GroupDesc.wire
    simp only [← List.append_assoc]
    apply List.drop_left'
    simp only [List.length_append, u8_length, u16_length, u32_length, u64_length, pad_length]

noncomputable def descRows (l : List GroupDesc) : List Str := l.map fun e => descRow e (groupTypes[e.type]?.getD [])

theorem descsText_list (l : List GroupDesc) (hv : ∀ e ∈ l, e.Valid)
    (hl : ∀ e ∈ l, ∀ b ∈ e.buckets, ∀ a ∈ b.acts, a.Lossless) (fuel : Nat) (hf : l.length < fuel) :
    descsText fuel (l.flatMap GroupDesc.wire) = .ok (descRows l) := by
  induction l generalizing fuel with
  | nil =>
    cases fuel with
    | zero => omega
    | succ f => rw [descsText, if_pos (by decide)]; rfl
  | cons e l ih =>
    cases fuel with
    | zero => omega
    | succ f =>
      have hL := groupDesc_length e
      have hve := hv e (by simp)
      obtain ⟨n1, n2, n3, n4⟩ := groupDesc_nums e hve (l.flatMap GroupDesc.wire)
      obtain ⟨name, hname, hname2⟩ := groupTypeName_ok e.type hve.1
      rw [List.flatMap_cons, descsText, if_neg (by rw [List.length_append]; omega)]
      dsimp only
      rw [n1, n2, n3, n4, decide_eq_true (by omega : e.wire.length ≥ 8), pyAssert_ok, ok_bind, hname2, ok_bind,
        bucketsText_list e.type 16 e.buckets hve.2.2.1 (hl e (by simp)) (by omega) (by omega) (by omega) _ (by
          rw [List.length_append]; omega), ok_bind,
        List.drop_left, ih (fun x hx => hv x (List.mem_cons_of_mem _ hx)) (fun x hx => hl x (List.mem_cons_of_mem _ hx)) f
          (by simpa using hf), ok_bind, joinStr_commaList]
      simp only [descRows, List.map_cons, hname, descRow, Option.getD_some]

theorem descGo_list (l : List GroupDesc) (hv : ∀ e ∈ l, e.Valid) (hl : ∀ e ∈ l, e.Lossless) (cap : Bytes)
    (hc : cap.length + (l.flatMap GroupDesc.wire).length + 16 < 65536) :
    descGo cap (descRows l) = .ok (cap ++ l.flatMap GroupDesc.wire) := by
  induction l generalizing cap with
  | nil => simp [descGo, descRows]
  | cons e l ih =>
    rw [List.flatMap_cons, List.length_append] at hc
    obtain ⟨name, hname, -⟩ := groupTypeName_ok e.type (hv e (by simp)).1
    have hrow : descRows (e :: l) = descRow e name :: descRows l := by simp [descRows, hname]
    rw [hrow, descGo, descBody_row e name hname (hv e (by simp)) (hl e (by simp)), ok_bind, mpAppend,
      if_neg (by omega), ok_bind, ih (fun x hx => hv x (List.mem_cons_of_mem _ hx))
        (fun x hx => hl x (List.mem_cons_of_mem _ hx)) _ (by rw [List.length_append]; omega)]
    simp

theorem bItems_line (type : Nat) (b : Bucket) (hv : b.Valid) (hl : ∀ a ∈ b.acts, a.Lossless) :
    ∀ t ∈ (bItems type b).map (·.2), '\n' ∉ t := by
  intro t ht
  obtain ⟨e, he, rfl⟩ := List.mem_map.1 ht
  simp only [bItems, List.mem_append] at he
  rcases he with he | he | he | he
  · split at he
    · rw [List.mem_singleton] at he
      subst he
      exact line_append (by decide) (line_clean (fmtD_clean _))
    · cases he
  · split at he
    · rw [List.mem_singleton] at he
      subst he
      exact line_append (by decide) (line_clean (fmtD_clean _))
    · cases he
  · split at he
    · rw [List.mem_singleton] at he
      subst he
      exact line_append (by decide) (line_clean (fmtD_clean _))
    · cases he
  · obtain ⟨a, ha, rfl⟩ := List.mem_map.1 he
    exact (actText_trip a (hv.2.2.2.1 a ha) (hl a ha)).line

theorem descRow_line (e : GroupDesc) (hv : e.Valid) (hl : ∀ b ∈ e.buckets, ∀ a ∈ b.acts, a.Lossless) :
    '\n' ∉ descRow e (groupTypes[e.type]?.getD []) := by
  refine commaList_line _ ?_
  intro t ht
  rcases List.mem_cons.1 ht with rfl | ht
  · exact line_append (by decide) (line_clean (fmtD_clean _))
  · rcases List.mem_cons.1 ht with rfl | ht
    · obtain ⟨name, hname, -⟩ := groupTypeName_ok e.type hv.1
      rw [hname]
      have hm := List.mem_of_getElem? hname
      have : ∀ n ∈ groupTypes, '\n' ∉ n := by decide
      exact this _ hm
    · obtain ⟨b, hb, ht⟩ := List.mem_flatMap.1 ht
      simp only [List.mem_cons, List.not_mem_nil, or_false] at ht
      rcases ht with rfl | rfl
      · decide
      · exact commaList_line _ (bItems_line e.type b (hv.2.2.1 b hb) (hl b hb))

end Ofpstr
