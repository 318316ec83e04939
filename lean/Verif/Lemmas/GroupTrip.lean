import Verif.Lemmas.GroupText
import Verif.Lemmas.FlowTrip

/-!
# Group-mods to text and back
-/

namespace Ofpstr
open Spec

/-! ## One bucket -/

/-- The items that `bucket2str` prints. -/
noncomputable def bItems (type : Nat) (b : Bucket) : List (BWord × Str) :=
  (if type = 1 ∧ b.weight ≠ 1 then [(BWord.weight b.weight, t!"weight=" ++ fmtD b.weight)] else []) ++
  ((if b.port ≠ 0xffffffff then [(BWord.port b.port, t!"watch_port=" ++ fmtD b.port)] else []) ++
  ((if b.group ≠ 0xffffffff then [(BWord.group b.group, t!"watch_group=" ++ fmtD b.group)] else []) ++
  b.acts.map fun a => (BWord.act a.wire, actText a)))

theorem bItems_isB (type : Nat) (b : Bucket) (hv : b.Valid) (hl : ∀ a ∈ b.acts, a.Lossless) :
    ∀ e ∈ bItems type b, IsB actP e.1 e.2 := by
  intro e he
  simp only [bItems, List.mem_append] at he
  rcases he with he | he | he | he
  · split at he
    · rw [List.mem_singleton] at he
      subst he
      exact isB_num (.weight _ _ (intSyntax_fmtD _))
    · cases he
  · split at he
    · rw [List.mem_singleton] at he
      subst he
      exact isB_num (.port _ _ (intSyntax_fmtD _))
    · cases he
  · split at he
    · rw [List.mem_singleton] at he
      subst he
      exact isB_num (.group _ _ (intSyntax_fmtD _))
    · cases he
  · obtain ⟨a, ha, rfl⟩ := List.mem_map.1 he
    exact isB_actTrip (actText_trip a (hv.2.2.2.1 a ha) (hl a ha))

theorem bItems_nil (type : Nat) (b : Bucket) : bItems type b = [] ↔ b.Blank type := by
  unfold bItems Bucket.Blank
  simp only [List.append_eq_nil_iff, List.map_eq_nil_iff]
  by_cases h1 : type = 1 <;> by_cases h2 : b.weight = 1 <;> by_cases h3 : b.port = 0xffffffff <;>
    by_cases h4 : b.group = 0xffffffff <;> simp [h1, h2, h3, h4]

theorem bucketWire_length (w p g : Nat) (acts : Bytes) : (bucketWire w p g acts).length = 16 + acts.length := by
  unfold bucketWire
  simp only [List.length_append, u16_length, u32_length, pad_length]
  omega

theorem bucketWire_nums (w p g : Nat) (acts rest : Bytes) (h1 : w < 256 ^ 2) (h2 : p < 256 ^ 4) (h3 : g < 256 ^ 4)
    (h4 : 16 + acts.length < 65536) :
    uAt (bucketWire w p g acts ++ rest) 0 2 = 16 + acts.length ∧ uAt (bucketWire w p g acts ++ rest) 2 2 = w ∧
    uAt (bucketWire w p g acts ++ rest) 4 4 = p ∧ uAt (bucketWire w p g acts ++ rest) 8 4 = g := by
  unfold bucketWire
  simp only [List.append_assoc]
  refine ⟨uAt_u16_here _ _ h4, ?_, ?_, ?_⟩
  all_goals simp only [uAt_u16, uAt_u32, Nat.reduceLeDiff, Nat.reduceSub, Nat.sub_self, Nat.le_refl]
  · exact uAt_u16_here _ _ h1
  · exact uAt_u32_here _ _ h2
  · exact uAt_u32_here _ _ h3

theorem bucketWire_slice (w p g : Nat) (acts : Bytes) :
    slice (bucketWire w p g acts) 16 (16 + acts.length) = acts := by
  have e : bucketWire w p g acts =
      (u16 (16 + acts.length) ++ (u16 w ++ (u32 p ++ (u32 g ++ pad 4)))) ++ (acts ++ []) := by
    simp only [bucketWire, List.append_assoc, List.append_nil]
  rw [e]
  apply slice_middle
  · simp [u16_length, u32_length, pad_length]
  · simp [u16_length, u32_length, pad_length]

theorem bucket_acts (b : Bucket) (hv : ∀ a ∈ b.acts, a.Valid) (hl : ∀ a ∈ b.acts, a.Lossless) :
    act2str (b.acts.flatMap Act.wire) = .ok (commaList (b.acts.map actText)) := by
  have := act2str_list (b.acts.map fun a => (a.wire, actText a)) (by
    intro e he
    obtain ⟨a, ha, rfl⟩ := List.mem_map.1 he
    exact actText_trip a (hv a ha) (hl a ha))
  simpa [List.flatMap_map, Function.comp_def] using this

theorem bucket_prints (type : Nat) (b : Bucket) (hv : b.Valid) (hl : ∀ a ∈ b.acts, a.Lossless) :
    bucket2str type b.wire = .ok (commaList ((bItems type b).map (·.2))) := by
  obtain ⟨v1, v2, v3, v4, v5, v6⟩ := hv
  have hlen := bucketWire_length b.weight b.port b.group (b.acts.flatMap Act.wire)
  obtain ⟨n1, n2, n3, n4⟩ := bucketWire_nums b.weight b.port b.group (b.acts.flatMap Act.wire) [] v1 v2 v3 (by
    rw [← hlen]; exact v6)
  rw [List.append_nil] at n1 n2 n3 n4
  unfold bucket2str
  unfold Bucket.wire at v6 ⊢
  rw [needBytes_ok _ _ _ (by omega), ok_bind]
  dsimp only
  rw [n1, n2, n3, n4, bucketWire_slice, bucket_acts b v4 hl, ok_bind, joinStr_commaList]
  congr 1
  have hs := sameText_opt (x := b.acts.map actText) (by
    intro t ht
    obtain ⟨a, ha, rfl⟩ := List.mem_map.1 ht
    exact (actText_trip a (v4 a ha) (hl a ha)).ne)
  have e : (bItems type b).map (·.2) =
      ((if type == OFPGT_SELECT && b.weight != 1 then [t!"weight=" ++ fmtD b.weight] else []) ++
      ((if b.port != OFPP_ANY then [t!"watch_port=" ++ fmtD b.port] else []) ++
      (if b.group != OFPG_ANY then [t!"watch_group=" ++ fmtD b.group] else []))) ++ b.acts.map actText := by
    unfold bItems OFPGT_SELECT OFPP_ANY OFPG_ANY
    by_cases h1 : type = 1 <;> by_cases h2 : b.weight = 1 <;> by_cases h3 : b.port = 0xffffffff <;>
      by_cases h4 : b.group = 0xffffffff <;> simp [h1, h2, h3, h4, Function.comp_def]
  rw [e]
  have := hs ((if type == OFPGT_SELECT && b.weight != 1 then [t!"weight=" ++ fmtD b.weight] else []) ++
      ((if b.port != OFPP_ANY then [t!"watch_port=" ++ fmtD b.port] else []) ++
      (if b.group != OFPG_ANY then [t!"watch_group=" ++ fmtD b.group] else []))) []
  rw [List.append_nil, List.append_nil] at this
  rw [← this]
  congr 1
  simp only [List.append_assoc]
  unfold optTok
  rfl

/-! ## The bucket that the words stand for -/

theorem bItems_words (type : Nat) (b : Bucket) : (bItems type b).map (·.1) =
    (if type = 1 ∧ b.weight ≠ 1 then [BWord.weight b.weight] else []) ++
    ((if b.port ≠ 0xffffffff then [BWord.port b.port] else []) ++
    ((if b.group ≠ 0xffffffff then [BWord.group b.group] else []) ++ b.acts.map fun a => BWord.act a.wire)) := by
  unfold bItems
  simp only [List.map_append, List.map_map, Function.comp_def, apply_ite (List.map _), List.map_cons, List.map_nil]

theorem filterMap_acts (f : BWord → Option Int) (hf : ∀ b, f (.act b) = none) (l : List Act) :
    (l.map fun a => BWord.act a.wire).filterMap f = [] := by
  induction l with
  | nil => rfl
  | cons a l ih => simp [hf, ih]

theorem actsOf_acts (l : List Act) : actsOf (l.map fun a => BWord.act a.wire) = l.flatMap Act.wire := by
  induction l with
  | nil => rfl
  | cons a l ih =>
    rw [List.map_cons, List.flatMap_cons, ← ih]; rfl

theorem bItems_weight (type : Nat) (b : Bucket) (hw : type ≠ 1 → b.weight = 0) :
    weightOf type ((bItems type b).map (·.1)) = b.weight := by
  rw [bItems_words]
  unfold weightOf lastB defaultWeight
  simp only [List.filterMap_append, filterMap_acts BWord.weightArg (fun _ => rfl)]
  by_cases h1 : type = 1
  · by_cases h2 : b.weight = 1 <;> by_cases h3 : b.port = 0xffffffff <;>
      by_cases h4 : b.group = 0xffffffff <;> simp [h1, h2, h3, h4, BWord.weightArg, List.filterMap_cons]
  · have := hw h1
    by_cases h3 : b.port = 0xffffffff <;>
      by_cases h4 : b.group = 0xffffffff <;> simp [h1, this, h3, h4, BWord.weightArg, List.filterMap_cons]

theorem bItems_port (type : Nat) (b : Bucket) : portOf ((bItems type b).map (·.1)) = b.port := by
  rw [bItems_words]
  unfold portOf lastB
  simp only [List.filterMap_append, filterMap_acts BWord.portArg (fun _ => rfl)]
  by_cases h2 : type = 1 ∧ b.weight ≠ 1 <;> by_cases h3 : b.port = 0xffffffff <;>
    by_cases h4 : b.group = 0xffffffff <;> simp [h2, h3, h4, BWord.portArg, List.filterMap_cons]

theorem bItems_group (type : Nat) (b : Bucket) : groupOf ((bItems type b).map (·.1)) = b.group := by
  rw [bItems_words]
  unfold groupOf lastB
  simp only [List.filterMap_append, filterMap_acts BWord.groupArg (fun _ => rfl)]
  by_cases h2 : type = 1 ∧ b.weight ≠ 1 <;> by_cases h3 : b.port = 0xffffffff <;>
    by_cases h4 : b.group = 0xffffffff <;> simp [h2, h3, h4, BWord.groupArg, List.filterMap_cons]

theorem actsOf_append (a b : List BWord) : actsOf (a ++ b) = actsOf a ++ actsOf b := by
  simp [actsOf]

theorem bItems_acts (type : Nat) (b : Bucket) : actsOf ((bItems type b).map (·.1)) = b.acts.flatMap Act.wire := by
  rw [bItems_words]
  simp only [actsOf_append, actsOf_acts]
  have e : ∀ w : BWord, actsOf [w] = w.actBytes := by intro w; simp [actsOf]
  split <;> split <;> split <;> simp [e, BWord.actBytes, actsOf]

theorem bItems_bucket (type : Nat) (b : Bucket) (hw : type ≠ 1 → b.weight = 0) :
    bucketOf type ((bItems type b).map (·.1)) = b.wire := by
  unfold bucketOf Bucket.wire
  rw [bItems_weight type b hw, bItems_port, bItems_group, bItems_acts]
  rfl

theorem fitsIn_cast {k n : Nat} (h : n < 256 ^ k) : FitsIn k (n : Int) := by
  unfold FitsIn
  omega

theorem bItems_fits (type : Nat) (b : Bucket) (hv : b.Valid) (hw : type ≠ 1 → b.weight = 0) :
    BucketFits type ((bItems type b).map (·.1)) := by
  obtain ⟨v1, v2, v3, v4, v5, v6⟩ := hv
  unfold BucketFits
  rw [bItems_weight type b hw, bItems_port, bItems_group, bItems_acts]
  unfold Bucket.wire at v6
  rw [bucketWire_length] at v6
  exact ⟨v6, fitsIn_cast v1, fitsIn_cast v2, fitsIn_cast v3⟩

/-! ## All buckets -/

noncomputable def bItemsAll (type : Nat) (bs : List Bucket) : List Item :=
  bs.flatMap fun b => .mark :: (bItems type b).map fun e => .word e.1 e.2

theorem bucketsText_list (type minLen : Nat) (bs : List Bucket) (hv : ∀ b ∈ bs, b.Valid)
    (hl : ∀ b ∈ bs, ∀ a ∈ b.acts, a.Lossless) (hm : minLen ≤ 17) (hm0 : 0 < minLen)
    (hlast : minLen = 17 → ∀ b, bs.getLast? = some b → 16 < b.wire.length) (fuel : Nat)
    (hf : (bs.flatMap Bucket.wire).length < fuel) :
    bucketsText type minLen fuel (bs.flatMap Bucket.wire) =
      .ok (bs.flatMap fun b => [t!"@bucket", commaList ((bItems type b).map (·.2))]) := by
  induction bs generalizing fuel with
  | nil =>
    cases fuel with
    | zero => cases hf
    | succ f => rw [bucketsText, if_pos (by simpa using hm0)]; rfl
  | cons b bs ih =>
    cases fuel with
    | zero => omega
    | succ f =>
      have hvb := hv b (by simp)
      obtain ⟨v1, v2, v3, v4, v5, v6⟩ := hvb
      have hlen : b.wire.length = 16 + (b.acts.flatMap Act.wire).length := bucketWire_length _ _ _ _
      have hlong : ¬ (b.wire ++ bs.flatMap Bucket.wire).length < minLen := by
        rw [List.length_append]
        by_cases h16 : minLen = 17
        · cases bs with
          | nil => have := hlast h16 b rfl; omega
          | cons b2 bs =>
            have : b2.wire.length = 16 + (b2.acts.flatMap Act.wire).length := bucketWire_length _ _ _ _
            rw [List.flatMap_cons, List.length_append]
            omega
        · omega
      simp only [List.flatMap_cons] at hf ⊢
      have hn : uAt (b.wire ++ bs.flatMap Bucket.wire) 0 2 = b.wire.length := by
        rw [hlen]
        exact (bucketWire_nums b.weight b.port b.group _ _ v1 v2 v3 (by rw [← hlen]; exact v6)).1
      rw [bucketsText, if_neg hlong]
      dsimp only
      rw [hn, List.take_left, List.drop_left, bucket_prints type b (hv b (by simp)) (hl b (by simp)), ok_bind,
        ih (fun x hx => hv x (List.mem_cons_of_mem _ hx)) (fun x hx => hl x (List.mem_cons_of_mem _ hx)) ?_ f (by
          rw [List.length_append] at hf; omega), ok_bind]
      · rfl
      · intro h b' hb'
        refine hlast h b' ?_
        rw [List.getLast?_cons, hb']
        rfl

theorem bItemsAll_same (type : Nat) (bs : List Bucket) (hb : ∀ b ∈ bs, ¬ b.Blank type) :
    SameText (bs.flatMap fun b => [t!"@bucket", commaList ((bItems type b).map (·.2))])
      ((bItemsAll type bs).map Item.text) := by
  induction bs with
  | nil => exact sameText_refl _
  | cons b bs ih =>
    have hne : (bItems type b).map (·.2) ≠ [] := by
      intro h
      rw [List.map_eq_nil_iff] at h
      exact hb b (by simp) ((bItems_nil type b).1 h)
    have h1 : SameText ([t!"@bucket"] ++ [commaList ((bItems type b).map (·.2))])
        ([t!"@bucket"] ++ (bItems type b).map (·.2)) :=
      sameText_append (sameText_refl _) (sameText_of (by simp) hne rfl)
    have h2 := sameText_append h1 (ih fun x hx => hb x (List.mem_cons_of_mem _ hx))
    unfold bItemsAll at h2 ⊢
    simpa [Item.text, Function.comp_def] using h2

theorem sections_words (l : List (BWord × Str)) (t : List Item) :
    sections ((l.map fun e => Item.word e.1 e.2) ++ t) = (l.map (·.1) ++ lead t) :: rest t := by
  induction l with
  | nil => simp [sections_eq]
  | cons e l ih => rw [List.map_cons, List.cons_append, sections, ih]; rfl

theorem sections_items (type : Nat) (bs : List Bucket) :
    sections (bItemsAll type bs) = [] :: bs.map fun b => (bItems type b).map (·.1) := by
  induction bs with
  | nil => rfl
  | cons b bs ih =>
    have e : bItemsAll type (b :: bs) = .mark :: (((bItems type b).map fun e => .word e.1 e.2) ++ bItemsAll type bs) := rfl
    rw [e, sections, sections_words]
    unfold lead rest
    rw [ih]
    simp

theorem full_items (type : Nat) (bs : List Bucket) (hb : ∀ b ∈ bs, ¬ b.Blank type) :
    full (sections (bItemsAll type bs)) = bs.map fun b => (bItems type b).map (·.1) := by
  rw [sections_items, full_cons, if_pos rfl]
  unfold full
  rw [List.filter_eq_self]
  intro ws hws
  obtain ⟨b, hb', rfl⟩ := List.mem_map.1 hws
  simp only [ne_eq, List.map_eq_nil_iff, decide_not, Bool.not_eq_true', decide_eq_false_iff_not]
  rw [bItems_nil]
  exact hb b hb'

theorem bItemsAll_ok (type : Nat) (bs : List Bucket) (hv : ∀ b ∈ bs, b.Valid)
    (hl : ∀ b ∈ bs, ∀ a ∈ b.acts, a.Lossless) : (∀ i ∈ bItemsAll type bs, i.Ok actP) ∧
    ∀ i ∈ bItemsAll type bs, ∀ t, i ≠ .gap t := by
  constructor
  · intro i hi
    obtain ⟨b, hb, hi⟩ := List.mem_flatMap.1 hi
    rcases List.mem_cons.1 hi with rfl | hi
    · trivial
    · obtain ⟨e, he, rfl⟩ := List.mem_map.1 hi
      exact bItems_isB type b (hv b hb) (hl b hb) e he
  · intro i hi t
    obtain ⟨b, hb, hi⟩ := List.mem_flatMap.1 hi
    rcases List.mem_cons.1 hi with rfl | hi
    · intro h; cases h
    · obtain ⟨e, he, rfl⟩ := List.mem_map.1 hi
      intro h; cases h

/-! ## The message -/

def gItems (type gid : Nat) (name : Str) : List (GWord × Str) :=
  (if gid = 0xfffffffc then [(GWord.id 0xfffffffc, t!"group=all")]
    else if gid = 0xffffffff then [] else [(GWord.id gid, t!"group=" ++ fmtD gid)]) ++ [(GWord.type type, name)]

theorem gItems_words (type gid : Nat) (name : Str) (ht : groupTypes[type]? = some name) :
    (∀ e ∈ gItems type gid name, HeadWord e.1 e.2) ∧ groupId ((gItems type gid name).map (·.1)) = gid ∧
    groupType ((gItems type gid name).map (·.1)) = type := by
  refine ⟨?_, ?_, ?_⟩
  · intro e he
    unfold gItems at he
    rcases List.mem_append.1 he with he | he
    · split at he
      · rw [List.mem_singleton] at he; subst he
        exact .all t!"all" (by decide)
      · split at he
        · cases he
        · rw [List.mem_singleton] at he; subst he
          exact .id _ _ (intSyntax_fmtD _)
    · rw [List.mem_singleton] at he; subst he
      exact .type _ _ ht
  · unfold gItems groupId
    split
    · rename_i h; rw [h]; rfl
    · split
      · rename_i h; rw [h]; rfl
      · rfl
  · unfold gItems groupType
    split
    · rfl
    · split <;> rfl

theorem groupWire_length (x c t g : Nat) (B : Bytes) : (groupWire x c t g B).length = 16 + B.length := by
  simp only [groupWire, message, List.length_append, u8_length, u16_length, u32_length, pad_length]
  omega

theorem groupWire_nums (x c t g : Nat) (B : Bytes) (hx : x < 256 ^ 4) (hc : c < 256 ^ 2) (ht : t < 256) (hg : g < 256 ^ 4) :
    uAt (groupWire x c t g B) 1 1 = 15 ∧ uAt (groupWire x c t g B) 4 4 = x ∧ uAt (groupWire x c t g B) 8 2 = c ∧
    uAt (groupWire x c t g B) 10 1 = t ∧ uAt (groupWire x c t g B) 12 4 = g ∧ (groupWire x c t g B).drop 16 = B := by
  unfold groupWire message
  generalize 8 + _ = L
  refine ⟨?_, ?_, ?_, ?_, ?_, ?_⟩
  · simp only [uAt_u8, uAt_u16, uAt_u32, uAt_skip_pad, Nat.reduceLeDiff, Nat.reduceSub, Nat.sub_self, Nat.le_refl]
    exact uAt_u8_here _ _ (by decide)
  · simp only [uAt_u8, uAt_u16, uAt_u32, uAt_skip_pad, Nat.reduceLeDiff, Nat.reduceSub, Nat.sub_self, Nat.le_refl]
    exact uAt_u32_here _ _ hx
  · simp only [uAt_u8, uAt_u16, uAt_u32, uAt_skip_pad, Nat.reduceLeDiff, Nat.reduceSub, Nat.sub_self, Nat.le_refl]
    exact uAt_u16_here _ _ hc
  · simp only [uAt_u8, uAt_u16, uAt_u32, uAt_skip_pad, Nat.reduceLeDiff, Nat.reduceSub, Nat.sub_self, Nat.le_refl]
    exact uAt_u8_here _ _ ht
  · simp only [uAt_u8, uAt_u16, uAt_u32, uAt_skip_pad, Nat.reduceLeDiff, Nat.reduceSub, Nat.sub_self, Nat.le_refl]
    exact uAt_u32_here _ _ hg
  · have e : u8 4 ++ (u8 15 ++ (u16 L ++ (u32 x ++ (u16 c ++ (u8 t ++ (pad 1 ++ (u32 g ++ B))))))) =
        (u8 4 ++ (u8 15 ++ (u16 L ++ (u32 x ++ (u16 c ++ (u8 t ++ (pad 1 ++ u32 g))))))) ++ B := by
      simp only [List.append_assoc]
    rw [e]
    apply List.drop_left'
    simp only [List.length_append, u8_length, u16_length, u32_length, pad_length]

theorem groupTypeName_ok (t : Nat) (h : t < 4) : ∃ n, groupTypes[t]? = some n ∧ groupTypeName t = .ok n := by
  match t, h with
  | 0, _ => exact ⟨_, rfl, rfl⟩
  | 1, _ => exact ⟨_, rfl, rfl⟩
  | 2, _ => exact ⟨_, rfl, rfl⟩
  | 3, _ => exact ⟨_, rfl, rfl⟩

theorem group_trip (m : GroupMod) (hv : m.Valid) (hb : ∀ b ∈ m.buckets, b.Lossless m.type)
    (hlast : ∀ b, m.buckets.getLast? = some b → b.acts ≠ []) :
    ∃ text, group2str m.wire = .ok text ∧ str2group text m.command m.xid = .ok m.wire := by
  obtain ⟨v1, v2, v3, v4, v5, v6⟩ := hv
  obtain ⟨name, hname, hname2⟩ := groupTypeName_ok m.type v3
  obtain ⟨n1, n2, n3, n4, n5, n6⟩ := groupWire_nums m.xid m.command m.type m.gid (m.buckets.flatMap Bucket.wire) v1 v2
    (by omega) v4
  have hlen := groupWire_length m.xid m.command m.type m.gid (m.buckets.flatMap Bucket.wire)
  obtain ⟨g1, g2, g3⟩ := gItems_words m.type m.gid name hname
  have hacts : ∀ b ∈ m.buckets, ∀ a ∈ b.acts, a.Lossless := fun b h => (hb b h).2.2
  have hblank : ∀ b ∈ m.buckets, ¬ b.Blank m.type := fun b h => (hb b h).1
  have hprint := bucketsText_list m.type 17 m.buckets v5 hacts (by omega) (by omega) (by
    intro _ b hb'
    have hb := List.mem_of_getLast? hb'
    have hne := hlast b hb'
    have hw : b.wire.length = 16 + (b.acts.flatMap Act.wire).length := bucketWire_length _ _ _ _
    obtain ⟨a, as, has⟩ := List.exists_cons_of_ne_nil hne
    have ha : a ∈ b.acts := by rw [has]; simp
    have := (actText_trip a ((v5 b hb).2.2.2.1 a ha) (hacts b hb a ha)).long
    rw [has, List.flatMap_cons, List.length_append] at hw
    omega) (m.wire.length + 1) (by unfold GroupMod.wire; omega)
  have hsame := bItemsAll_same m.type m.buckets hblank
  refine ⟨commaList ((gItems m.type m.gid name).map (·.2) ++ (bItemsAll m.type m.buckets).map Item.text), ?_, ?_⟩
  · unfold group2str
    unfold GroupMod.wire at v6 hprint ⊢
    rw [needBytes_ok _ _ _ (by omega), ok_bind]
    dsimp only
    rw [n4, n5, n6, hname2, ok_bind, hprint, ok_bind, joinStr_commaList]
    congr 1
    have := hsame ((gItems m.type m.gid name).map (·.2)) []
    rw [List.append_nil, List.append_nil] at this
    rw [← this]
    congr 1
    unfold gItems OFPG_ALL OFPG_ANY
    by_cases h1 : m.gid = 0xfffffffc
    · simp [h1]
    · by_cases h2 : m.gid = 0xffffffff
      · simp [h2]
      · simp [h1, h2]
  · have hws : ∀ ws ∈ (m.buckets.map fun b => (bItems m.type b).map (·.1)), BucketFits m.type ws := by
      intro ws hws
      obtain ⟨b, hb', rfl⟩ := List.mem_map.1 hws
      exact bItems_fits m.type b (v5 b hb') (hb b hb').2.1
    have hbytes : (m.buckets.map fun b => (bItems m.type b).map (·.1)).flatMap (bucketOf m.type) =
        m.buckets.flatMap Bucket.wire := by
      rw [List.flatMap_map]
      exact List.flatMap_congr fun b hb' => bItems_bucket m.type b (hb b hb').2.1
    have hmod : groupMod m.command m.xid ((gItems m.type m.gid name).map (·.1))
        (m.buckets.map fun b => (bItems m.type b).map (·.1)) = m.wire := by
      unfold groupMod GroupMod.wire
      rw [g2, g3, hbytes]
      rfl
    have hfits : GroupFits m.command m.xid ((gItems m.type m.gid name).map (·.1))
        (m.buckets.map fun b => (bItems m.type b).map (·.1)) := by
      refine ⟨fitsIn_cast v1, fitsIn_cast v2, ?_, ?_, ?_⟩
      · rw [g2]; exact fitsIn_cast v4
      · rw [g3]; exact hws
      · rw [hmod]; exact v6
    have hread : ∃ u, HeadText ((gItems m.type m.gid name).map (·.1))
        (commaList ((gItems m.type m.gid name).map (·.2) ++ (bItemsAll m.type m.buckets).map Item.text)) u ∧
        Buckets actP (m.buckets.map fun b => (bItems m.type b).map (·.1)) u := by
      rw [← full_items m.type m.buckets hblank]
      cases hbs : m.buckets with
      | nil =>
        obtain ⟨h1, h2⟩ := group_text_nil _ g1
        exact ⟨[], by simpa [bItemsAll] using h1, h2⟩
      | cons b bs =>
        rw [hbs] at v5 hacts
        obtain ⟨o1, o2⟩ := bItemsAll_ok m.type (b :: bs) v5 hacts
        have e : bItemsAll m.type (b :: bs) =
          .mark :: (((bItems m.type b).map fun e => .word e.1 e.2) ++ bItemsAll m.type bs) := rfl
        rw [e] at o1 o2 ⊢
        refine group_text _ _ g1 (fun i hi => o1 i (List.mem_cons_of_mem _ hi)) ?_
        intro t ht
        exact o2 _ (List.mem_cons_of_mem _ (List.mem_of_getLast? ht)) t rfl
    obtain ⟨u, h1, h2⟩ := hread
    rw [str2group_text h1 h2, if_pos hfits, hmod]

end Ofpstr
