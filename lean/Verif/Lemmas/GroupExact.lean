import Verif.Lemmas.GroupBack

/-!
# Which group-mods come back
-/

set_option linter.unusedSimpArgs false

namespace Ofpstr
open Spec

theorem brel_buckets : BRel (Buckets actP) where
  nil := .nil
  mark := by
    intro bss s h r hh ht hb
    have hs : s ≠ [] := by rw [ht.1]; simp
    exact .skip s h _ r bss hs (.nil _ (Or.inr ⟨h, _, r, ht, noeq_of_seps hh, Or.inl (by decide)⟩)) ht (by decide) hb
  bucket := fun ws bss s u h1 h2 h3 => .bucket s ws u bss h1 h2 h3
  end_inv := fun bss h => buckets_det h .nil
  inv := by
    intro bss s h name r hs ht hb
    cases hb with
    | nil => exact absurd rfl hs
    | skip _ h' name' r' _ h1 h2 h3 h4 h5 =>
      obtain ⟨rfl, rfl, rfl⟩ := tok_det ht h3
      by_cases hm : name = t!"@bucket"
      · exact Or.inl ⟨hm, h5⟩
      · simp only [List.mem_cons, List.not_mem_nil, or_false] at h4
        rcases h4 with h4 | h4
        · refine Or.inr (Or.inr ⟨hm, ?_, Or.inl h4⟩)
          cases h2 with
          | nil _ h => exact h
        · exact absurd h4 hm
    | bucket _ ws u bs h1 h2 h3 => exact Or.inr (Or.inl ⟨ws, u, bs, h1, rfl, h2, h3⟩)

/-! ## Printing -/

theorem bucket_any (type : Nat) (b : Bucket) (hv : b.Valid) (text : Str) :
    bucket2str type b.wire = .ok text ↔ ∃ ts, ActTexts b.acts ts ∧ text = commaList (bTexts type (b, ts)) := by
  obtain ⟨v1, v2, v3, v4, v5, v6⟩ := hv
  have hlen := bucketWire_length b.weight b.port b.group (b.acts.flatMap Act.wire)
  obtain ⟨n1, n2, n3, n4⟩ := bucketWire_nums b.weight b.port b.group (b.acts.flatMap Act.wire) [] v1 v2 v3 (by
    rw [← hlen]; exact v6)
  rw [List.append_nil] at n1 n2 n3 n4
  have key : ∀ ts, ActTexts b.acts ts → joinStr t!"," (
      (if type == OFPGT_SELECT && b.weight != 1 then [t!"weight=" ++ fmtD b.weight] else []) ++
      ((if b.port != OFPP_ANY then [t!"watch_port=" ++ fmtD b.port] else []) ++
      ((if b.group != OFPG_ANY then [t!"watch_group=" ++ fmtD b.group] else []) ++
      (if (commaList ts).isEmpty then [] else [commaList ts])))) = commaList (bTexts type (b, ts)) := by
    intro ts hts
    rw [joinStr_commaList]
    have hs := sameText_opt (x := ts) (actTexts_ne v4 hts)
    have e : (bNums type b).map (·.2) =
        ((if type == OFPGT_SELECT && b.weight != 1 then [t!"weight=" ++ fmtD b.weight] else []) ++
        ((if b.port != OFPP_ANY then [t!"watch_port=" ++ fmtD b.port] else []) ++
        (if b.group != OFPG_ANY then [t!"watch_group=" ++ fmtD b.group] else []))) := by
      unfold bNums OFPGT_SELECT OFPP_ANY OFPG_ANY
      by_cases h1 : type = 1 <;> by_cases h2 : b.weight = 1 <;> by_cases h3 : b.port = 0xffffffff <;>
        by_cases h4 : b.group = 0xffffffff <;> simp [h1, h2, h3, h4, Function.comp_def]
    have := hs ((if type == OFPGT_SELECT && b.weight != 1 then [t!"weight=" ++ fmtD b.weight] else []) ++
        ((if b.port != OFPP_ANY then [t!"watch_port=" ++ fmtD b.port] else []) ++
        (if b.group != OFPG_ANY then [t!"watch_group=" ++ fmtD b.group] else []))) []
    rw [List.append_nil, List.append_nil] at this
    unfold bTexts
    dsimp only
    rw [e, ← this]
    congr 1
    simp only [List.append_assoc]
    unfold optTok
    rfl
  unfold bucket2str Bucket.wire
  unfold Bucket.wire at v6
  rw [needBytes_ok _ _ _ (by omega), ok_bind]
  dsimp only
  rw [n1, n2, n3, n4, bucketWire_slice]
  constructor
  · intro h
    obtain ⟨a, h1, h⟩ := bind_iff.1 h
    obtain ⟨ts, h2, rfl⟩ := (act2str_any b.acts v4 a).1 h1
    refine ⟨ts, h2, ?_⟩
    rw [← key ts h2]
    exact (Except.ok.inj h).symm
  · rintro ⟨ts, h2, rfl⟩
    rw [(act2str_any b.acts v4 _).2 ⟨ts, h2, rfl⟩, ok_bind, key ts h2]

theorem bucketText_same (type : Nat) (e : Bucket × List Str) : SameText [t!"@bucket", commaList (bTexts type e)] (pieces type e) := by
  unfold pieces
  by_cases h : bTexts type e = []
  · rw [if_pos h, h]
    exact sameText_refl _
  · rw [if_neg h]
    exact sameText_append (sameText_refl [t!"@bucket"]) (sameText_of (by simp) h rfl)

/-- The printed buckets `pb`, and those that are too short to be printed. -/
theorem bucketsText_any (type minLen : Nat) (pb ex : List Bucket) (hv : ∀ b ∈ pb, b.Valid)
    (hlong : ∀ a b c, pb = a ++ b :: c → minLen ≤ ((b :: c ++ ex).flatMap Bucket.wire).length)
    (hshort : (ex.flatMap Bucket.wire).length < minLen) (fuel : Nat) (hf : ((pb ++ ex).flatMap Bucket.wire).length < fuel) :
    (∀ toks, bucketsText type minLen fuel ((pb ++ ex).flatMap Bucket.wire) = .ok toks →
      ∃ L : List (Bucket × List Str), L.map (·.1) = pb ∧ (∀ e ∈ L, ActTexts e.1.acts e.2) ∧ SameText toks (allPieces type L)) ∧
    ∀ L : List (Bucket × List Str), L.map (·.1) = pb → (∀ e ∈ L, ActTexts e.1.acts e.2) →
      ∃ toks, bucketsText type minLen fuel ((pb ++ ex).flatMap Bucket.wire) = .ok toks ∧ SameText toks (allPieces type L) := by
  induction pb generalizing fuel with
  | nil =>
    cases fuel with
    | zero => cases hf
    | succ f =>
      rw [bucketsText, List.nil_append, if_pos hshort]
      constructor
      · intro toks h
        cases h
        exact ⟨[], rfl, by simp, sameText_refl _⟩
      · intro L h _
        rw [List.map_eq_nil_iff] at h
        subst h
        exact ⟨[], rfl, sameText_refl _⟩
  | cons b pb ih =>
    cases fuel with
    | zero => cases hf
    | succ f =>
      have hvb := hv b (by simp)
      obtain ⟨v1, v2, v3, v4, v5, v6⟩ := id hvb
      have hlen : b.wire.length = 16 + (b.acts.flatMap Act.wire).length := bucketWire_length _ _ _ _
      have hl := hlong [] b pb rfl
      simp only [List.cons_append, List.flatMap_cons] at hf hl ⊢
      have hn : uAt (b.wire ++ (pb ++ ex).flatMap Bucket.wire) 0 2 = b.wire.length := by
        rw [hlen]
        exact (bucketWire_nums b.weight b.port b.group _ _ v1 v2 v3 (by rw [← hlen]; exact v6)).1
      obtain ⟨ih1, ih2⟩ := ih (fun x hx => hv x (by simp [hx])) (fun a x c h => hlong (b :: a) x c (by rw [h]; rfl)) f (by
        rw [List.length_append] at hf; omega)
      rw [bucketsText, if_neg (by omega)]
      dsimp only
      rw [hn, List.take_left, List.drop_left]
      constructor
      · intro toks h
        obtain ⟨t, h1, h⟩ := bind_iff.1 h
        obtain ⟨rest, h2, h⟩ := bind_iff.1 h
        cases h
        obtain ⟨ts, h3, rfl⟩ := (bucket_any type b hvb t).1 h1
        obtain ⟨L, h4, h5, h6⟩ := ih1 rest h2
        refine ⟨(b, ts) :: L, by simp [h4], ?_, sameText_append (bucketText_same type (b, ts)) h6⟩
        intro e he
        rcases List.mem_cons.1 he with rfl | he
        · exact h3
        · exact h5 e he
      · intro L h1 h2
        cases L with
        | nil => cases h1
        | cons e L =>
          simp only [List.map_cons, List.cons.injEq] at h1
          obtain ⟨rfl, h1⟩ := h1
          obtain ⟨toks, h3, h4⟩ := ih2 L h1 fun x hx => h2 x (.tail _ hx)
          refine ⟨_, ?_, sameText_append (bucketText_same type e) h4⟩
          rw [(bucket_any type e.1 hvb _).2 ⟨e.2, h2 e (.head _), rfl⟩, ok_bind, h3, ok_bind]
          rfl

/-! ## Group-mods -/

theorem acts_long {as : List Act} (hv : ∀ a ∈ as, a.Valid) (hn : as ≠ []) : 4 < (as.flatMap Act.wire).length := by
  obtain ⟨a, l, rfl⟩ := List.exists_cons_of_ne_nil hn
  have := (act_back a (hv a (by simp))).long
  rw [List.flatMap_cons, List.length_append]
  omega

theorem bucket_length (b : Bucket) : b.wire.length = 16 + (b.acts.flatMap Act.wire).length := bucketWire_length _ _ _ _

/-- The last bucket is not printed if it has no actions. -/
theorem printed_split (bs : List Bucket) (hv : ∀ b ∈ bs, b.Valid) : ∃ pb ex, bs = pb ++ ex ∧
    (∀ a b c, pb = a ++ b :: c → 17 ≤ ((b :: c ++ ex).flatMap Bucket.wire).length) ∧ (ex.flatMap Bucket.wire).length < 17 ∧
    (ex = [] ↔ ∀ b, bs.getLast? = some b → b.acts ≠ []) := by
  rcases List.eq_nil_or_concat bs with rfl | ⟨l, x, rfl⟩
  · exact ⟨[], [], rfl, by intro a b c h; simp at h, by simp, by simp⟩
  · rw [List.concat_eq_append] at hv ⊢
    by_cases hx : x.acts = []
    · refine ⟨l, [x], rfl, ?_, ?_, ?_⟩
      · intro a b c _
        have := bucket_length b
        have := bucket_length x
        simp only [List.cons_append, List.flatMap_cons, List.flatMap_append, List.length_append, List.flatMap_nil]
        omega
      · have := bucket_length x
        rw [hx] at this
        simp only [List.flatMap_cons, List.flatMap_nil, List.append_nil, List.length_nil] at *
        omega
      · simp [hx]
    · refine ⟨l ++ [x], [], by simp, ?_, by simp, by simp [hx]⟩
      intro a b c h
      have hxl := acts_long (hv x (by simp)).2.2.2.1 hx
      have := bucket_length x
      have hb := bucket_length b
      rcases List.eq_nil_or_concat c with rfl | ⟨c', y, rfl⟩
      · obtain ⟨-, h2⟩ := List.append_inj' h rfl
        simp only [List.cons.injEq, and_true] at h2
        subst h2
        simp
        omega
      · rw [List.concat_eq_append]
        have := bucket_length y
        simp only [List.append_nil, List.flatMap_cons, List.flatMap_append, List.length_append, List.flatMap_nil]
        omega

/-- The text of a group-mod. -/
def groupText (type gid : Nat) (name : Str) (L : List (Bucket × List Str)) : Str :=
  commaList ((gItems type gid name).map (·.2) ++ allPieces type L)

theorem group_any (m : GroupMod) (hv : m.Valid) {name : Str} (hn : groupTypeName m.type = .ok name) (pb ex : List Bucket)
    (hb : m.buckets = pb ++ ex) (hlong : ∀ a b c, pb = a ++ b :: c → 17 ≤ ((b :: c ++ ex).flatMap Bucket.wire).length)
    (hshort : (ex.flatMap Bucket.wire).length < 17) (text : Str) :
    group2str m.wire = .ok text ↔ ∃ L : List (Bucket × List Str), L.map (·.1) = pb ∧ (∀ e ∈ L, ActTexts e.1.acts e.2) ∧
      text = groupText m.type m.gid name L := by
  obtain ⟨v1, v2, v3, v4, v5, v6⟩ := hv
  obtain ⟨n1, n2, n3, n4, n5, n6⟩ := groupWire_nums m.xid m.command m.type m.gid (m.buckets.flatMap Bucket.wire) v1 v2
    (by omega) v4
  have hlen := groupWire_length m.xid m.command m.type m.gid (m.buckets.flatMap Bucket.wire)
  have hpb : ∀ b ∈ pb, b.Valid := fun b h => v5 b (by rw [hb]; simp [h])
  obtain ⟨p1, p2⟩ := bucketsText_any m.type 17 pb ex hpb hlong hshort (m.wire.length + 1) (by
    rw [← hb]; unfold GroupMod.wire; omega)
  rw [← hb] at p1 p2
  have key : ∀ toks L, SameText toks (allPieces m.type L) → joinStr t!"," ((if m.gid == OFPG_ALL then [t!"group=all"]
      else if m.gid == OFPG_ANY then [] else [t!"group=" ++ fmtD m.gid]) ++ (name :: toks)) = groupText m.type m.gid name L := by
    intro toks L hsame
    rw [joinStr_commaList]
    have := hsame ((gItems m.type m.gid name).map (·.2)) []
    rw [List.append_nil, List.append_nil] at this
    unfold groupText
    rw [← this]
    congr 1
    unfold gItems OFPG_ALL OFPG_ANY
    by_cases h1 : m.gid = 0xfffffffc
    · simp [h1]
    · by_cases h2 : m.gid = 0xffffffff
      · simp [h2]
      · simp [h1, h2]
  unfold group2str
  unfold GroupMod.wire at v6 p1 p2 ⊢
  rw [needBytes_ok _ _ _ (by omega), ok_bind]
  dsimp only
  rw [n4, n5, n6, hn, ok_bind]
  constructor
  · intro h
    obtain ⟨toks, h1, h⟩ := bind_iff.1 h
    obtain ⟨L, h2, h3, h4⟩ := p1 toks h1
    refine ⟨L, h2, h3, ?_⟩
    rw [← key toks L h4]
    exact (Except.ok.inj h).symm
  · rintro ⟨L, h2, h3, rfl⟩
    obtain ⟨toks, h1, h4⟩ := p2 L h2 h3
    rw [h1, ok_bind, key toks L h4]

theorem headText_pieces (gs : List (GWord × Str)) (hg : ∀ e ∈ gs, HeadWord e.1 e.2) (hn : gs ≠ []) (type : Nat) (L : List (Bucket × List Str)) :
    ∃ u, RestOf u (allPieces type L) ∧ HeadText (gs.map (·.1)) (commaList (gs.map (·.2) ++ allPieces type L)) u := by
  cases L with
  | nil =>
    refine ⟨[], rest_all [], ?_⟩
    have := headText_words gs hg [] [] (by simp) atEnd_nil hn .nil
    simpa [allPieces] using this
  | cons e L =>
    have hne : allPieces type (e :: L) ≠ [] := by simp [allPieces, pieces]
    have hr : RestOf (',' :: commaList (allPieces type (e :: L))) (allPieces type (e :: L)) :=
      ⟨[','], Or.inr rfl, rfl, fun h => absurd h hne⟩
    refine ⟨_, hr, ?_⟩
    rw [commaList_append _ (by simpa using hn) hne]
    refine headText_words gs hg [] _ (by simp) (atEnd_comma _) hn ?_
    obtain ⟨h, r, hh, hre, he, -⟩ := pieces_split hr
    rw [he]
    exact .stop _ h t!"@bucket" r (mark_tok (seps_of hh) hre) (by decide)

theorem bucket_sized {type : Nat} {ws : List BWord} (h : BucketFits type ws) : Sized (bucketOf type ws) := by
  obtain ⟨f1, f2, f3, f4⟩ := h
  refine ⟨?_, fun rest => ?_⟩
  · intro h0
    have := bucketWire_length (weightOf type ws).toNat (portOf ws).toNat (groupOf ws).toNat (actsOf ws)
    unfold bucketOf at h0
    rw [h0] at this
    simp at this
    omega
  · unfold bucketOf
    rw [bucketWire_length]
    exact (bucketWire_nums _ _ _ _ rest (fitsIn_lt f2).1 (fitsIn_lt f3).1 (fitsIn_lt f4).1 f1).1

theorem bucketWire_sized (b : Bucket) (hv : b.Valid) : Sized b.wire := by
  obtain ⟨v1, v2, v3, v4, v5, v6⟩ := hv
  have hl := bucket_length b
  refine ⟨fun h => ?_, fun rest => ?_⟩
  · rw [h] at hl; simp at hl; omega
  · rw [hl]
    exact (bucketWire_nums b.weight b.port b.group _ rest v1 v2 v3 (by rw [← hl]; exact v6)).1

theorem groupWire_inj {x c t g t' g' : Nat} {x' c' : Nat} {B B' : Bytes} (ht : t < 256) (hg : g < 256 ^ 4) (ht' : t' < 256) (hg' : g' < 256 ^ 4)
    (hx : x < 256 ^ 4) (hc : c < 256 ^ 2) (hx' : x' < 256 ^ 4) (hc' : c' < 256 ^ 2)
    (h : groupWire x c t g B = groupWire x' c' t' g' B') : t = t' ∧ g = g' ∧ B = B' := by
  obtain ⟨-, -, -, n4, n5, n6⟩ := groupWire_nums x c t g B hx hc ht hg
  obtain ⟨-, -, -, m4, m5, m6⟩ := groupWire_nums x' c' t' g' B' hx' hc' ht' hg'
  rw [h] at n4 n5 n6
  exact ⟨n4.symm.trans m4, n5.symm.trans m5, n6.symm.trans m6⟩

theorem listSurvive_iff {type : Nat} {bs : List Bucket} : ListSurvive (BucketOk type) True bs ↔
    ∀ a b c, bs = a ++ b :: c → (b.Blank type → c = []) ∧ b.Survives type (c = []) := by
  unfold ListSurvive BucketOk
  simp only [and_true]

/-- The texts of actions that survive. -/
theorem survive_texts {last : Prop} (as : List Act) (hv : ∀ a ∈ as, a.Valid) (hs : ∀ c x d, as = c ++ x :: d → x.Survives (d = [] ∧ last)) :
    ∃ ts, ActTexts as ts :=
  texts_some as hv fun a ha => by
    obtain ⟨c, d, h⟩ := List.append_of_mem ha
    exact ⟨_, hs c a d h⟩

theorem bucket_texts {S : Bucket → Prop → Prop} {type : Nat} (hS : ∀ b q, S b q → b.Survives type q) (bs : List Bucket) (hv : ∀ b ∈ bs, b.Valid)
    (hs : ListSurvive S True bs) : ∃ L : List (Bucket × List Str), L.map (·.1) = bs ∧ ∀ e ∈ L, ActTexts e.1.acts e.2 := by
  induction bs with
  | nil => exact ⟨[], rfl, by simp⟩
  | cons b bs ih =>
    obtain ⟨h1, h2⟩ := listSurvive_cons.1 hs
    obtain ⟨L, h3, h4⟩ := ih (fun x hx => hv x (.tail _ hx)) h2
    obtain ⟨ts, h5⟩ := survive_texts b.acts (hv b (.head _)).2.2.2.1 (hS _ _ h1).2
    refine ⟨(b, ts) :: L, by simp [h3], ?_⟩
    intro e he
    rcases List.mem_cons.1 he with rfl | he
    · exact h5
    · exact h4 e he

/-- Exactly the group-mods that survive come back. -/
theorem group_exact (m : GroupMod) (hv : m.Valid) :
    (∃ text, group2str m.wire = .ok text ∧ str2group text m.command m.xid = .ok m.wire) ↔ m.Survives := by
  obtain ⟨v1, v2, v3, v4, v5, v6⟩ := id hv
  obtain ⟨name, hname, hname2⟩ := groupTypeName_ok m.type v3
  obtain ⟨g1, g2, g3⟩ := gItems_words m.type m.gid name hname
  have hgn : gItems m.type m.gid name ≠ [] := by simp [gItems]
  obtain ⟨pb, ex, hb, hlong, hshort, hex⟩ := printed_split m.buckets v5
  have hpr := group_any m hv hname2 pb ex hb hlong hshort
  constructor
  · rintro ⟨text, h1, h2⟩
    obtain ⟨L, h3, h4, rfl⟩ := (hpr text).1 h1
    obtain ⟨u, h5, h6⟩ := headText_pieces _ g1 hgn m.type L
    obtain ⟨gs, bss, u', h7, h8, h9, h10⟩ := (str2group_iff _ _ _ _).1 h2
    obtain ⟨rfl, rfl⟩ := headText_det h7 h6
    obtain ⟨f1, f2, f3, f4, f5⟩ := h9
    unfold GroupMod.wire groupMod at h10
    rw [g2, g3] at h10
    rw [g3] at f4
    obtain ⟨-, -, hB⟩ := groupWire_inj (by omega) v4 (by omega) (by simpa using v4) v1 v2 (by simpa using v1) (by simpa using v2) h10
    rw [List.flatMap_def, List.flatMap_def] at hB
    have hsame := sized_unique (by
      intro b hb
      obtain ⟨e, he, rfl⟩ := List.mem_map.1 hb
      exact bucketWire_sized e (v5 e he)) (by
      intro b hb
      obtain ⟨e, he, rfl⟩ := List.mem_map.1 hb
      exact bucket_sized (f4 e he)) hB
    have hvL : ∀ e ∈ L, e.1.Valid := by
      intro e he
      apply v5
      rw [hb, ← h3]
      exact List.mem_append_left _ (List.mem_map_of_mem he)
    obtain ⟨r1, r2⟩ := buckets_back brel_buckets L hvL h4 h5 h8 f4 (extra := ex.map Bucket.wire) (by
      rw [← hsame, hb, List.map_append, ← h3, List.map_map]; rfl)
    rw [List.map_eq_nil_iff] at r1
    subst r1
    rw [List.append_nil] at hb
    rw [h3, ← hb] at r2
    have hlast := hex.1 rfl
    refine ⟨fun a b c hab => ?_, hlast⟩
    obtain ⟨q1, q2⟩ := listSurvive_iff.1 r2 a b c hab
    refine ⟨fun hbl => ?_, q2⟩
    have := q1 hbl
    subst this
    exact hlast b (by rw [hab]; simp) hbl.2.2.2
  · rintro ⟨hs, hlast⟩
    have := hex.2 hlast
    subst this
    rw [List.append_nil] at hb
    subst hb
    have hok : ListSurvive (BucketOk m.type) True m.buckets := listSurvive_iff.2 fun a b c h =>
      ⟨fun hbl => absurd hbl (hs a b c h).1, (hs a b c h).2⟩
    obtain ⟨L, h3, h4⟩ := bucket_texts (S := BucketOk m.type) (fun _ _ h => h.2) m.buckets v5 hok
    refine ⟨_, (hpr _).2 ⟨L, h3, h4, rfl⟩, ?_⟩
    obtain ⟨u, h5, h6⟩ := headText_pieces _ g1 hgn m.type L
    have hvL : ∀ e ∈ L, e.1.Valid := by
      intro e he
      apply v5
      rw [← h3]
      exact List.mem_map_of_mem he
    have h7 := buckets_fwd brel_buckets L hvL h4 (by rw [h3]; exact hok) h5
    have hw : ∀ e ∈ L, m.type ≠ 1 → e.1.weight = 0 := by
      intro e he
      have hmem : e.1 ∈ m.buckets := by rw [← h3]; exact List.mem_map_of_mem he
      obtain ⟨a, c, hac⟩ := List.append_of_mem hmem
      exact (hs a e.1 c hac).2.1
    have hmod : groupMod m.command m.xid ((gItems m.type m.gid name).map (·.1)) (L.map fun e => readWords m.type e.1) = m.wire := by
      unfold groupMod GroupMod.wire
      rw [g2, g3, ← h3, List.flatMap_map, List.flatMap_map]
      congr 1
      exact List.flatMap_congr fun e he => (readWords_bucket (hvL e he) (hw e he)).1
    rw [groupText, str2group_text h6 h7, if_pos, hmod]
    refine ⟨fitsIn_cast v1, fitsIn_cast v2, ?_, ?_, ?_⟩
    · rw [g2]; exact fitsIn_cast v4
    · rw [g3]
      intro ws hws
      obtain ⟨e, he, rfl⟩ := List.mem_map.1 hws
      exact (readWords_bucket (hvL e he) (hw e he)).2
    · rw [hmod]; exact v6

end Ofpstr
