import Verif.Lemmas.GroupExact
import Verif.Lemmas.MpTextUnique

/-!
# Which group descriptions come back
-/

set_option linter.unusedSimpArgs false

namespace Ofpstr
open Spec

theorem brel_desc : BRel BucketsD where
  nil := .nil
  mark := by
    intro bss s h r hh ht hb
    exact .mark s h r bss (by rw [ht.1]; simp) ht hb
  bucket := by
    intro ws bss s u h1 h2 h3
    rw [actP_len] at h2
    exact .bucket s ws u bss h1 h2 h3
  end_inv := fun bss h => bucketsD_det h .nil
  inv := by
    intro bss s h name r hs ht hb
    cases hb with
    | nil => exact absurd rfl hs
    | mark _ h' r' _ h1 h2 h3 =>
      obtain ⟨-, rfl, rfl⟩ := tok_det ht h2
      exact Or.inl ⟨rfl, h3⟩
    | bucket _ ws u bs h1 h2 h3 =>
      rw [← actP_len] at h2
      exact Or.inr (Or.inl ⟨ws, u, bs, h1, rfl, h2, h3⟩)
    | junk _ h' name' t' h1 h2 h3 h4 =>
      obtain ⟨-, rfl, -⟩ := tok_det ht h2
      rw [← actP_len] at h4
      refine Or.inr (Or.inr ⟨h3, ?_, Or.inr rfl⟩)
      cases h4 with
      | nil _ h => exact h

/-! ## Printing -/

/-- The rows of a description. -/
def DescRow (e : GroupDesc) (row : Str) : Prop := ∃ name, groupTypes[e.type]? = some name ∧ ∃ L : List (Bucket × List Str),
  L.map (·.1) = e.buckets ∧ (∀ x ∈ L, ActTexts x.1.acts x.2) ∧ row = commaList ((t!"group=" ++ fmtD e.gid) :: name :: allPieces e.type L)

theorem buckets_long (bs : List Bucket) : ∀ a b c, bs = a ++ b :: c → 16 ≤ ((b :: c ++ []).flatMap Bucket.wire).length := by
  intro a b c _
  have := bucket_length b
  simp only [List.append_nil, List.flatMap_cons, List.length_append]
  omega

theorem descsText_any (l : List GroupDesc) (hv : ∀ e ∈ l, e.Valid) (fuel : Nat) (hf : l.length < fuel) (rows : List Str) :
    descsText fuel (l.flatMap GroupDesc.wire) = .ok rows ↔ List.Forall₂ DescRow l rows := by
  induction l generalizing fuel rows with
  | nil =>
    cases fuel with
    | zero => omega
    | succ f =>
      rw [descsText, if_pos (by decide)]
      constructor
      · intro h; cases h; exact .nil
      · intro h; cases h; rfl
  | cons e l ih =>
    cases fuel with
    | zero => omega
    | succ f =>
      have hL := groupDesc_length e
      have hve := hv e (by simp)
      obtain ⟨n1, n2, n3, n4⟩ := groupDesc_nums e hve (l.flatMap GroupDesc.wire)
      obtain ⟨name, hname, hname2⟩ := groupTypeName_ok e.type hve.1
      obtain ⟨p1, p2⟩ := bucketsText_any e.type 16 e.buckets [] hve.2.2.1 (buckets_long _) (by simp)
        ((e.wire ++ l.flatMap GroupDesc.wire).length + 1) (by rw [List.append_nil, List.length_append]; omega)
      rw [List.append_nil] at p1 p2
      have ih' := ih (fun x hx => hv x (List.mem_cons_of_mem _ hx)) f (by simpa using hf)
      have key : ∀ toks L, SameText toks (allPieces e.type L) →
          joinStr t!"," ((t!"group=" ++ fmtD e.gid) :: name :: toks) = commaList ((t!"group=" ++ fmtD e.gid) :: name :: allPieces e.type L) := by
        intro toks L h
        have := h [t!"group=" ++ fmtD e.gid, name] []
        rw [joinStr_commaList]
        simpa using this
      rw [List.flatMap_cons, descsText, if_neg (by rw [List.length_append]; omega)]
      dsimp only
      rw [n1, n2, n3, n4, decide_eq_true (by omega : e.wire.length ≥ 8), pyAssert_ok, ok_bind, hname2, ok_bind, List.drop_left]
      constructor
      · intro h
        obtain ⟨toks, h1, h⟩ := bind_iff.1 h
        obtain ⟨rows', h2, h⟩ := bind_iff.1 h
        cases h
        obtain ⟨L, h3, h4, h5⟩ := p1 toks h1
        exact .cons ⟨name, hname, L, h3, h4, key toks L h5⟩ ((ih' _).1 h2)
      · intro h
        cases h with
        | @cons _ row _ rows' h1 h2 =>
          obtain ⟨name', hn', L, h3, h4, rfl⟩ := h1
          rw [hname] at hn'
          cases hn'
          obtain ⟨toks, h5, h6⟩ := p2 L h3 h4
          rw [h5, ok_bind, (ih' _).2 h2, ok_bind, key toks L h6]

theorem mpdesc_any (es : List GroupDesc) (x : Nat) (hv : ∀ e ∈ es, e.Valid) (hx : x < 256 ^ 4)
    (hsize : 16 + (es.flatMap GroupDesc.wire).length < 65536) (text : Str) :
    mpgroupdesc2text (mpReply x 7 (es.flatMap GroupDesc.wire)) = .ok text ↔
      ∃ rows, List.Forall₂ DescRow es rows ∧ text = joinStr t!"\n" rows := by
  obtain ⟨n1, n2, n3, n4⟩ := mpWire_nums 19 x 7 0 (es.flatMap GroupDesc.wire) [] (by decide) hx (by decide) hsize
  rw [List.append_nil] at n1 n2 n3
  have hlen := mpWire_length 19 x 7 0 (es.flatMap GroupDesc.wire)
  have hcount : es.length ≤ (es.flatMap GroupDesc.wire).length := by
    clear hsize n1 n2 n3 n4 hlen hv
    induction es with
    | nil => simp
    | cons e es ih => rw [List.flatMap_cons, List.length_append, List.length_cons]; have := groupDesc_length e; omega
  have hone : mpgroupdesc2textOne (mpReply x 7 (es.flatMap GroupDesc.wire)) =
      descsText ((es.flatMap GroupDesc.wire).length + 1) (es.flatMap GroupDesc.wire) := by
    unfold mpgroupdesc2textOne
    rw [needBytes_ok _ _ _ (by rw [mpReply]; omega), ok_bind]
    rw [mpReply, n1, n2, n3, show pyAssert (7 == OFPMP_GROUP_DESC) = .ok () from rfl, ok_bind, if_neg (by decide)]
    dsimp only
    rw [← mpReply, mpReply_slice, mpReply, n4]
  have key := descsText_any es hv ((es.flatMap GroupDesc.wire).length + 1) (by omega)
  unfold mpgroupdesc2text
  constructor
  · intro h
    obtain ⟨rows, h1, h⟩ := bind_ok h
    cases h
    refine ⟨rows, ?_, rfl⟩
    rw [← key, ← hone]
    exact (reply_text_iff _ x 7 _ _ hx (by decide) hsize).1 h1
  · rintro ⟨rows, h1, rfl⟩
    rw [← key, ← hone] at h1
    rw [reply_text _ x 7 _ _ hx (by decide) hsize h1, ok_bind]

/-! ## Reading a row -/

theorem headD_row (gid type : Nat) (name : Str) (ht : groupTypes[type]? = some name) (L : List (Bucket × List Str)) :
    ∃ u, RestOf u (allPieces type L) ∧
      HeadD [.id gid, .type type] (commaList ((t!"group=" ++ fmtD gid) :: name :: allPieces type L)) u := by
  obtain ⟨u, hu, hub, he, hstop⟩ : ∃ u, RestOf u (allPieces type L) ∧ Boundary u ∧
      commaList ((t!"group=" ++ fmtD gid) :: name :: allPieces type L) = t!"group=" ++ (fmtD gid ++ ',' :: (name ++ u)) ∧
      HeadD [] u u := by
    cases L with
    | nil =>
      exact ⟨[], rest_all [], atEnd_nil, by simp [allPieces, commaList], .nil⟩
    | cons e L =>
      have hne : allPieces type (e :: L) ≠ [] := by simp [allPieces, pieces]
      have hr : RestOf (',' :: commaList (allPieces type (e :: L))) (allPieces type (e :: L)) :=
        ⟨[','], Or.inr rfl, rfl, fun h => absurd h hne⟩
      refine ⟨_, hr, atEnd_comma _, ?_, ?_⟩
      · rw [commaList_cons _ (by simp), commaList_cons _ hne]; simp
      · obtain ⟨h, r, hh, hre, he, -⟩ := pieces_split hr
        rw [he]
        exact .stop _ h t!"@bucket" r (mark_tok (seps_of hh) hre) (by decide) (by decide)
  have hi := intSyntax_fmtD gid
  have h1 : Tok (t!"group=" ++ (fmtD gid ++ ',' :: (name ++ u))) [] t!"group" ('=' :: (fmtD gid ++ ',' :: (name ++ u))) := by
    have := tok_head (h := []) head_nil (b := t!"group") (Clean.token (by decide))
      (atEnd_eq (fmtD gid ++ ',' :: (name ++ u))) (Clean.plainStart (by decide)) (by decide)
    simpa using this
  have h2 : NumArg ('=' :: (fmtD gid ++ ',' :: (name ++ u))) gid (',' :: (name ++ u)) :=
    ⟨['='], _, tok_eq (intSyntax_clean hi).1.token (atEnd_comma _) (intSyntax_clean hi).1.plainStart (intSyntax_clean hi).2.1,
      by decide, hi⟩
  have hname : Clean name ∧ name ≠ [] := by
    have hm := List.mem_of_getElem? ht
    have : ∀ n ∈ groupTypes, Clean n ∧ n ≠ [] := by decide
    exact this _ hm
  have h3 : Tok (',' :: (name ++ u)) [','] name u := by
    have := tok_head (h := [',']) (Or.inl (by decide)) hname.1.token hub hname.1.plainStart hname.2
    simpa using this
  refine ⟨u, hu, ?_⟩
  rw [he]
  refine .cons _ _ _ _ _ (by simp) (.id _ _ _ _ _ h1 h2) (.cons _ _ u _ _ (by simp) (.type _ [','] name type u h3 ?_) hstop)
  have hlow : ∀ n ∈ groupTypes, n.map Char.toLower = n := by decide
  rw [ht, hlow name (List.mem_of_getElem? ht)]

theorem bTexts_line {type : Nat} {b : Bucket} {ts : List Str} (hv : b.Valid) (hs : ∀ a ∈ b.acts, ∃ l, a.Survives l) (h : ActTexts b.acts ts) :
    (∀ t ∈ bTexts type (b, ts), '\n' ∉ t) ↔ ∀ x ∈ b.acts, x.OneLine := by
  rw [← actTexts_line h hv.2.2.2.1 hs]
  unfold bTexts
  rw [List.forall_mem_append]
  refine ⟨fun h => h.2, fun h => ⟨?_, h⟩⟩
  intro t ht
  obtain ⟨e, he, rfl⟩ := List.mem_map.1 ht
  simp only [bNums, List.mem_append] at he
  rcases he with he | he | he <;>
  · split at he
    · rw [List.mem_singleton] at he
      subst he
      exact line_append (by decide) (line_clean (fmtD_clean _))
    · cases he

theorem row_oneLine (e : GroupDesc) (hv : e.Valid) (hs : ∀ b ∈ e.buckets, ∀ a ∈ b.acts, ∃ l, a.Survives l) {row : Str} (hr : DescRow e row) :
    '\n' ∉ row ↔ ∀ b ∈ e.buckets, ∀ x ∈ b.acts, x.OneLine := by
  obtain ⟨name, hname, L, h1, h2, rfl⟩ := hr
  rw [commaList_line', List.forall_mem_cons, List.forall_mem_cons]
  have n1 : '\n' ∉ t!"group=" ++ fmtD e.gid := line_append (by decide) (line_clean (fmtD_clean _))
  have n2 : '\n' ∉ name := by
    have hm := List.mem_of_getElem? hname
    have : ∀ n ∈ groupTypes, '\n' ∉ n := by decide
    exact this _ hm
  have key : ∀ x ∈ L, ((∀ t ∈ pieces e.type x, '\n' ∉ t) ↔ ∀ a ∈ x.1.acts, a.OneLine) := by
    rintro ⟨b, ts⟩ hx
    have hb : b ∈ e.buckets := by rw [← h1]; exact List.mem_map_of_mem (f := Prod.fst) hx
    rw [← bTexts_line (type := e.type) (hv.2.2.1 b hb) (hs b hb) (h2 _ hx)]
    unfold pieces
    split
    · rename_i h
      rw [h]
      simp
    · rw [List.forall_mem_cons]
      exact ⟨fun h => h.2, fun h => ⟨by decide, h⟩⟩
  constructor
  · rintro ⟨-, -, h⟩ b hb
    rw [← h1] at hb
    obtain ⟨x, hx, rfl⟩ := List.mem_map.1 hb
    exact (key x hx).1 fun t ht => h t (List.mem_flatMap.2 ⟨x, hx, ht⟩)
  · intro h
    refine ⟨n1, n2, fun t ht => ?_⟩
    obtain ⟨x, hx, ht⟩ := List.mem_flatMap.1 ht
    exact (key x hx).2 (h x.1 (by rw [← h1]; exact List.mem_map_of_mem hx)) t ht

theorem groupDesc_inj {e : GroupDesc} {t g : Nat} {B : Bytes}
    (h : e.wire = u16 (8 + B.length) ++ (u8 t ++ (pad 1 ++ (u32 g ++ B)))) : e.buckets.flatMap Bucket.wire = B := by
  have e1 : e.wire = (u16 (8 + (e.buckets.flatMap Bucket.wire).length) ++ (u8 e.type ++ (pad 1 ++ u32 e.gid))) ++ e.buckets.flatMap Bucket.wire := by
    simp only [GroupDesc.wire, List.append_assoc]
  have e2 : u16 (8 + B.length) ++ (u8 t ++ (pad 1 ++ (u32 g ++ B))) = (u16 (8 + B.length) ++ (u8 t ++ (pad 1 ++ u32 g))) ++ B := by
    simp only [List.append_assoc]
  rw [e1, e2] at h
  exact (List.append_inj h (by simp only [List.length_append, u8_length, u16_length, u32_length, pad_length])).2

/-- A row that is read as its own description. -/
theorem descRow_back (e : GroupDesc) (hv : e.Valid) {row : Str} (hr : DescRow e row) (h : descBody row = .ok e.wire) :
    ListSurvive (BucketOk e.type) True e.buckets := by
  obtain ⟨name, hname, L, h1, h2, rfl⟩ := hr
  obtain ⟨⟨gs, bss⟩, ⟨⟨u', h3, h4⟩, ⟨h5, h6⟩, h7⟩, h8⟩ := (descBody_iff _ _).1 h
  obtain ⟨u, h9, h10⟩ := headD_row e.gid e.type name hname L
  obtain ⟨rfl, rfl⟩ := headD_det h3 h10
  have ht : groupType [.id e.gid, .type e.type] = e.type := rfl
  dsimp only at h4 h5 h6 h7
  unfold descOf at h8
  dsimp only at h8
  rw [ht] at h6 h7 h8
  have hB := groupDesc_inj h8
  rw [List.flatMap_def, List.flatMap_def] at hB
  have hsame := sized_unique (by
    intro b hb
    obtain ⟨x, hx, rfl⟩ := List.mem_map.1 hb
    exact bucketWire_sized x (hv.2.2.1 x hx)) (by
    intro b hb
    obtain ⟨x, hx, rfl⟩ := List.mem_map.1 hb
    exact bucket_sized (h6 x hx)) hB
  have hvL : ∀ x ∈ L, x.1.Valid := fun x hx => hv.2.2.1 _ (by rw [← h1]; exact List.mem_map_of_mem hx)
  have := (buckets_back brel_desc L hvL h2 h9 h4 h6 (extra := []) (by
    rw [← hsame, ← h1, List.map_map, List.append_nil]; rfl)).2
  rw [h1] at this
  exact this

theorem descRow_fwd (e : GroupDesc) (hv : e.Valid) (hs : ListSurvive (BucketOk e.type) True e.buckets) {row : Str} (hr : DescRow e row) :
    descBody row = .ok e.wire := by
  obtain ⟨name, hname, L, h1, h2, rfl⟩ := hr
  obtain ⟨u, h9, h10⟩ := headD_row e.gid e.type name hname L
  have hvL : ∀ x ∈ L, x.1.Valid := fun x hx => hv.2.2.1 _ (by rw [← h1]; exact List.mem_map_of_mem hx)
  have h7 := buckets_fwd brel_desc L hvL h2 (by rw [h1]; exact hs) h9
  have hw : ∀ x ∈ L, e.type ≠ 1 → x.1.weight = 0 := by
    intro x hx
    have hmem : x.1 ∈ e.buckets := by rw [← h1]; exact List.mem_map_of_mem hx
    obtain ⟨a, c, hac⟩ := List.append_of_mem hmem
    exact (listSurvive_iff.1 hs a x.1 c hac).2.1
  have hB : (L.map fun x => readWords e.type x.1).flatMap (bucketOf e.type) = e.buckets.flatMap Bucket.wire := by
    rw [← h1, List.flatMap_map, List.flatMap_map]
    exact List.flatMap_congr fun x hx => (readWords_bucket (hvL x hx) (hw x hx)).1
  have hl := groupDesc_length e
  have ht : groupType [.id e.gid, .type e.type] = e.type := rfl
  refine (descBody_iff _ _).2 ⟨([.id e.gid, .type e.type], L.map fun x => readWords e.type x.1), ⟨⟨u, h10, h7⟩, ⟨?_, ?_⟩, ?_⟩, ?_⟩
  · exact fitsIn_cast hv.2.1
  · intro ws hws
    obtain ⟨x, hx, rfl⟩ := List.mem_map.1 hws
    exact (readWords_bucket (hvL x hx) (hw x hx)).2
  · dsimp only
    rw [ht, hB, ← hl]
    exact hv.2.2.2
  · unfold descOf
    dsimp only
    rw [ht, hB]
    rfl

theorem mpdesc_raw (txt : Str) (x : Nat) (hx : x < 256 ^ 4) (m : Bytes) : text2mpgroupdesc txt 19 x = .ok m ↔
    ∃ bs, List.Forall₂ (fun l b => descBody l = .ok b) (splitAll '\n' txt) bs ∧ 16 + bs.flatten.length < 65536 ∧ m = mpReply x 7 bs.flatten := by
  unfold text2mpgroupdesc
  rw [if_neg (by decide), bind_iff]
  constructor
  · rintro ⟨cap, h1, h⟩
    obtain ⟨bs, h3, h4⟩ := (descGo_iff _ _ _).1 h1
    obtain ⟨h5, rfl⟩ := (packLines_iff _ _).1 h4
    obtain ⟨-, rfl⟩ := (mpMessage_iff _ _ _ _ _ (by decide)).1 h
    exact ⟨bs, h3, h5, rfl⟩
  · rintro ⟨bs, h3, h5, rfl⟩
    refine ⟨_, (descGo_iff _ _ _).2 ⟨bs, h3, (packLines_iff _ _).2 ⟨h5, rfl⟩⟩, (mpMessage_iff _ _ _ _ _ (by decide)).2 ⟨⟨?_, ?_, h5⟩, rfl⟩⟩
    · decide
    · exact fitsIn_cast hx

theorem descBody_sized {l : Str} {b : Bytes} (h : descBody l = .ok b) : Sized b := by
  obtain ⟨e, ⟨-, -, h3⟩, rfl⟩ := (descBody_iff _ _).1 h
  have hl : (descOf e).length = 8 + (e.2.flatMap (bucketOf (groupType e.1))).length := by
    simp only [descOf, List.length_append, u8_length, u16_length, u32_length, pad_length]; omega
  refine ⟨fun h => ?_, fun rest => ?_⟩
  · rw [h] at hl; simp at hl; omega
  · rw [hl, descOf, List.append_assoc]
    exact uAt_u16_here _ _ h3

theorem groupDesc_sized (e : GroupDesc) (hv : e.Valid) : Sized e.wire := by
  have hl := groupDesc_length e
  refine ⟨fun h => ?_, fun rest => (groupDesc_nums e hv rest).1⟩
  rw [h] at hl; simp at hl; omega

theorem desc_acts {type : Nat} {bs : List Bucket} (h : ListSurvive (BucketOk type) True bs) : ∀ b ∈ bs, ∀ a ∈ b.acts, ∃ l, a.Survives l := by
  intro b hb x hx
  obtain ⟨a, c, hac⟩ := List.append_of_mem hb
  obtain ⟨c', d, hd⟩ := List.append_of_mem hx
  exact ⟨_, (listSurvive_iff.1 h a b c hac).2.2 c' x d hd⟩

/-- Exactly the replies whose descriptions survive come back. -/
theorem descs_exact (es : List GroupDesc) (x : Nat) (hv : ∀ e ∈ es, e.Valid) (hx : x < 256 ^ 4)
    (hsize : 16 + (es.flatMap GroupDesc.wire).length < 65536) :
    (∃ text, mpgroupdesc2text (mpReply x 7 (es.flatMap GroupDesc.wire)) = .ok text ∧
      text2mpgroupdesc text 19 x = .ok (mpReply x 7 (es.flatMap GroupDesc.wire))) ↔ es ≠ [] ∧ ∀ e ∈ es, e.Survives := by
  constructor
  · rintro ⟨text, h1, h2⟩
    obtain ⟨rows, h3, rfl⟩ := (mpdesc_any es x hv hx hsize _).1 h1
    obtain ⟨bs, h4, h5, h6⟩ := (mpdesc_raw _ x hx _).1 h2
    have h7 := mpReply_inj hx (by decide) hsize h5 h6
    rw [List.flatMap_def] at h7
    have hbs : ∀ b ∈ bs, Sized b := by
      intro b hb
      obtain ⟨l, -, k⟩ := forall₂_mem_right h4 b hb
      exact descBody_sized k
    have h8 := sized_unique (by
      intro b hb
      obtain ⟨e, he, rfl⟩ := List.mem_map.1 hb
      exact groupDesc_sized e (hv e he)) hbs h7
    subst h8
    have h9 := h4.length_eq
    have h10 := h3.length_eq
    rw [List.length_map] at h9
    have hne : es ≠ [] := by
      intro h
      rw [h] at h9
      exact splitAll_ne_nil _ _ (List.length_eq_zero_iff.1 h9)
    have hrn : rows ≠ [] := by
      intro h
      rw [h] at h10
      exact hne (List.length_eq_zero_iff.1 h10)
    have h11 := join_count rows hrn (by rw [h9, h10])
    rw [rows_split rows hrn h11] at h4
    refine ⟨hne, ?_⟩
    clear h1 h2 h5 h6 h7 h9 h10 hne hrn hsize hbs
    induction h3 with
    | nil => simp
    | @cons e row es rows hr _ ih =>
      rw [List.map_cons] at h4
      cases h4 with
      | cons hb h4 =>
        intro e' he'
        rcases List.mem_cons.1 he' with rfl | he'
        · have hve := hv e' (by simp)
          have q := descRow_back e' hve hr hb
          exact ⟨listSurvive_iff.1 q, (row_oneLine e' hve (desc_acts q) hr).1 (h11 row (by simp))⟩
        · exact ih (fun x hx => hv x (by simp [hx])) h4 (fun x hx => h11 x (by simp [hx])) e' he'
  · rintro ⟨hne, hs⟩
    obtain ⟨rows, h1, h2, h3⟩ : ∃ rows, List.Forall₂ DescRow es rows ∧ (∀ t ∈ rows, '\n' ∉ t) ∧
        List.Forall₂ (fun l b => descBody l = .ok b) rows (es.map GroupDesc.wire) := by
      clear hne hsize
      induction es with
      | nil => exact ⟨[], .nil, by simp, .nil⟩
      | cons e es ih =>
        obtain ⟨rows, h1, h2, h3⟩ := ih (fun x hx => hv x (by simp [hx])) (fun x hx => hs x (by simp [hx]))
        have hve := hv e (by simp)
        obtain ⟨s1, s2⟩ := hs e (by simp)
        have q : ListSurvive (BucketOk e.type) True e.buckets := listSurvive_iff.2 s1
        obtain ⟨L, hL1, hL2⟩ := bucket_texts (S := BucketOk e.type) (fun _ _ h => h.2) e.buckets hve.2.2.1 q
        obtain ⟨name, hname, -⟩ := groupTypeName_ok e.type hve.1
        have hr : DescRow e _ := ⟨name, hname, L, hL1, hL2, rfl⟩
        refine ⟨_ :: rows, .cons hr h1, ?_, .cons (descRow_fwd e hve q hr) h3⟩
        intro t ht
        rcases List.mem_cons.1 ht with rfl | ht
        · exact (row_oneLine e hve (desc_acts q) hr).2 s2
        · exact h2 t ht
    have hrn : rows ≠ [] := by
      intro h
      rw [h] at h1
      cases h1
      exact hne rfl
    refine ⟨_, (mpdesc_any es x hv hx hsize _).2 ⟨rows, h1, rfl⟩, (mpdesc_raw _ x hx _).2 ⟨es.map GroupDesc.wire, ?_, ?_, ?_⟩⟩
    · rw [rows_split rows hrn h2]; exact h3
    · rw [← List.flatMap_def]; exact hsize
    · rw [← List.flatMap_def]

end Ofpstr
