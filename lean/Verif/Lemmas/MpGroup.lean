import Verif.Lemmas.Mp

/-!
# Group statistics: printing and reading back
-/

namespace Ofpstr
open Spec

set_option linter.unusedSimpArgs false

/-! ## Words of one line -/

inductive SW where
  | cnt (k : CKey) (n : Nat)
  | mark

def SW.text : SW → Str
  | .cnt k n => cText (k, n)
  | .mark => t!"@bucket"

/-- What a word does to the state of the reader. -/
def SW.step (st : Counters × List (Option Int × Option Int)) : SW → Counters × List (Option Int × Option Int)
  | .mark => (st.1, (none, none) :: st.2)
  | .cnt k n =>
    match st.2 with
    | [] => (k.set n st.1, [])
    | (pc, bc) :: bs =>
      match k with
      | .pk => (st.1, (some (n : Int), bc) :: bs)
      | .by => (st.1, (pc, some (n : Int)) :: bs)
      | _ => st

/-- Inside a bucket only the two counters of buckets. -/
def SW.fits (inB : Bool) : SW → Prop
  | .mark => True
  | .cnt k _ => inB = true → k = .pk ∨ k = .by

def SWs : Bool → List SW → Prop
  | _, [] => True
  | _, .mark :: ws => SWs true ws
  | b, .cnt k n :: ws => (SW.cnt k n).fits b ∧ SWs b ws

theorem groupStatsGo_nil (fuel : Nat) (g : Counters) (bs : List (Option Int × Option Int)) :
    groupStatsGo (fuel + 1) g bs [] = .ok (g, bs) := by
  rw [groupStatsGo, if_pos (by decide)]

theorem groupStatsGo_word (w : SW) (g : Counters) (bs : List (Option Int × Option Int)) {h r : Str}
    (hh : ∀ c ∈ h, Space c ∨ c = ',') (hr : Boundary r) (hw : w.fits (!bs.isEmpty)) (fuel : Nat) :
    groupStatsGo (fuel + 1) g bs (h ++ (w.text ++ r)) =
      groupStatsGo fuel (SW.step (g, bs) w).1 (SW.step (g, bs) w).2 r := by
  cases w with
  | mark =>
    have ht : getToken (h ++ (SW.mark.text ++ r)) = _ := (getToken_iff _ _ _ _).2 (mark_tok hh hr)
    have hne : (h ++ (SW.mark.text ++ r)).isEmpty = false := by
      cases h <;> rfl
    rw [groupStatsGo, hne, if_neg (by decide), ht]
    dsimp only
    rw [if_pos (by decide)]
    rfl
  | cnt k n =>
    obtain ⟨h1, h2⟩ := cText_tok (k, n) hh hr
    have hne : (h ++ (SW.text (.cnt k n) ++ r)).isEmpty = false := by
      have := cText_ne (k, n)
      cases h with
      | nil =>
        cases ht : cText (k, n) with
        | nil => exact absurd ht this
        | cons a b => simp [SW.text, ht]
      | cons a b => rfl
    rw [groupStatsGo, hne, if_neg (by decide), SW.text, h1]
    dsimp only
    rw [h2]
    cases bs with
    | nil => cases k <;> rfl
    | cons b bs =>
      obtain ⟨pc, bc⟩ := b
      rcases hw rfl with rfl | rfl <;> rfl

theorem step_empty (g : Counters) (bs : List (Option Int × Option Int)) (k : CKey) (n : Nat) :
    (SW.step (g, bs) (.cnt k n)).2.isEmpty = bs.isEmpty := by
  cases bs with
  | nil => rfl
  | cons b bs => cases k <;> rfl

theorem groupStatsGo_words (ws : List SW) (g : Counters) (bs : List (Option Int × Option Int)) (h : Str)
    (hh : ∀ c ∈ h, Space c ∨ c = ',') (hl : ws = [] → h = []) (hw : SWs (!bs.isEmpty) ws) (fuel : Nat)
    (hf : (h ++ commaList (ws.map SW.text)).length < fuel) :
    groupStatsGo fuel g bs (h ++ commaList (ws.map SW.text)) = .ok (ws.foldl SW.step (g, bs)) := by
  induction ws generalizing g bs h fuel with
  | nil =>
    rw [hl rfl]
    cases fuel with
    | zero => omega
    | succ f => exact groupStatsGo_nil f g bs
  | cons w ws ih =>
    have hfit : w.fits (!bs.isEmpty) ∧ SWs (!(SW.step (g, bs) w).2.isEmpty) ws := by
      cases w with
      | mark => exact ⟨trivial, hw⟩
      | cnt k n => refine ⟨hw.1, ?_⟩; rw [step_empty]; exact hw.2
    cases fuel with
    | zero => omega
    | succ f =>
      by_cases hn : ws = []
      · subst hn
        have e : commaList (List.map SW.text [w]) = w.text ++ [] := by simp [commaList]
        rw [e] at hf ⊢
        rw [groupStatsGo_word w g bs hh atEnd_nil hfit.1]
        have hpos : 0 < f := by
          have : w.text ≠ [] := by cases w with
            | mark => decide
            | cnt k n => exact cText_ne _
          have := List.length_pos_iff.2 this
          simp only [List.length_append] at hf; omega
        have := ih (SW.step (g, bs) w).1 (SW.step (g, bs) w).2 [] (by simp) (fun _ => rfl) hfit.2 f (by simpa [commaList] using hpos)
        simpa [commaList] using this
      · have e : commaList ((w :: ws).map SW.text) = w.text ++ (',' :: commaList (ws.map SW.text)) := by
          rw [List.map_cons, commaList_cons _ (by simpa using hn)]
        rw [e] at hf ⊢
        rw [groupStatsGo_word w g bs hh (atEnd_comma _) hfit.1]
        have := ih (SW.step (g, bs) w).1 (SW.step (g, bs) w).2 [','] (by simp) (fun h => absurd h hn) hfit.2 f (by
          have : w.text ≠ [] := by cases w with
            | mark => decide
            | cnt k n => exact cText_ne _
          have := List.length_pos_iff.2 this
          simp only [List.length_append, List.length_cons, List.length_nil] at hf ⊢; omega)
        simpa using this

/-! ## The words of an entry -/

def cWords (k : CKey) (n : Nat) : List SW := (cItem k n).map fun e => .cnt e.1 e.2

def bWords (b : BucketStat) : List SW := .mark :: (cWords .pk b.packets ++ cWords .by b.bytes)

def headCnts (e : GroupStat) : List SW :=
  cWords .ref e.refs ++ (cWords .pk e.packets ++ (cWords .by e.bytes ++ (cWords .sec e.sec ++ cWords .nsec e.nsec)))

def sWords (e : GroupStat) : List SW := headCnts e ++ e.buckets.flatMap bWords

theorem cWords_text (k : CKey) (n : Nat) : (cWords k n).map SW.text = countTok k.name n := by
  rw [countTok_item, cWords, List.map_map]; rfl

theorem cWords_zero (k : CKey) : cWords k 0 = [] := rfl

theorem cWords_pos (k : CKey) {n : Nat} (h : n ≠ 0) : cWords k n = [.cnt k n] := by
  unfold cWords cItem; rw [if_neg h]; rfl

theorem sWords_ne (e : GroupStat) (h : e.Counts) : sWords e ≠ [] := by
  intro h0
  simp only [sWords, headCnts, List.append_eq_nil_iff] at h0
  obtain ⟨⟨a, b, c, d, f⟩, g⟩ := h0
  have key : ∀ k n, cWords k n = [] → n = 0 := by
    intro k n hk
    by_contra hn
    rw [cWords_pos k hn] at hk; cases hk
  rcases h with h | h | h | h | h | h
  · exact h (key _ _ a)
  · exact h (key _ _ b)
  · exact h (key _ _ c)
  · exact h (key _ _ d)
  · exact h (key _ _ f)
  · cases hb : e.buckets with
    | nil => exact h hb
    | cons x l => rw [hb] at g; simp [bWords] at g

theorem sws_cWords_true (k : CKey) (n : Nat) (hk : k = .pk ∨ k = .by) (ws : List SW) (h : SWs true ws) :
    SWs true (cWords k n ++ ws) := by
  by_cases hn : n = 0
  · subst hn; exact h
  · rw [cWords_pos k hn]; exact ⟨fun _ => hk, h⟩

theorem sws_cWords_false (k : CKey) (n : Nat) (ws : List SW) (h : SWs false ws) :
    SWs false (cWords k n ++ ws) := by
  by_cases hn : n = 0
  · subst hn; exact h
  · rw [cWords_pos k hn]; exact ⟨fun h' => absurd h' (by decide), h⟩

theorem sws_buckets (l : List BucketStat) (b : Bool) : SWs b (l.flatMap bWords) := by
  induction l generalizing b with
  | nil => trivial
  | cons x l ih =>
    rw [List.flatMap_cons, bWords, List.cons_append, List.append_assoc]
    exact sws_cWords_true _ _ (Or.inl rfl) _ (sws_cWords_true _ _ (Or.inr rfl) _ (ih true))

theorem sws_sWords (e : GroupStat) : SWs false (sWords e) := by
  unfold sWords headCnts
  simp only [List.append_assoc]
  exact sws_cWords_false _ _ _ (sws_cWords_false _ _ _ (sws_cWords_false _ _ _ (sws_cWords_false _ _ _
    (sws_cWords_false _ _ _ (sws_buckets _ _)))))

def optN (n : Nat) : Option Int := if n = 0 then none else some (n : Int)

theorem optN_getD (n : Nat) : (optN n).getD 0 = n := by
  unfold optN; by_cases h : n = 0 <;> simp [h]

theorem fold_bWords (b : BucketStat) (g : Counters) (bs : List (Option Int × Option Int)) :
    (bWords b).foldl SW.step (g, bs) = (g, (optN b.packets, optN b.bytes) :: bs) := by
  unfold bWords
  by_cases h1 : b.packets = 0 <;> by_cases h2 : b.bytes = 0 <;>
    simp [h1, h2, cWords, cItem, SW.step, optN]

theorem fold_buckets (l : List BucketStat) (g : Counters) (bs : List (Option Int × Option Int)) :
    (l.flatMap bWords).foldl SW.step (g, bs) =
      (g, (l.map fun b => (optN b.packets, optN b.bytes)).reverse ++ bs) := by
  induction l generalizing bs with
  | nil => rfl
  | cons x l ih =>
    rw [List.flatMap_cons, List.foldl_append, fold_bWords, ih]; simp

theorem fold_c (k : CKey) (n : Nat) (g : Counters) :
    (cWords k n).foldl SW.step (g, []) = (if n = 0 then g else k.set n g, []) := by
  by_cases h : n = 0
  · subst h; rfl
  · rw [cWords_pos k h, if_neg h]; rfl

theorem fold_head (e : GroupStat) : (headCnts e).foldl SW.step ({}, []) =
    ({ refCount := optN e.refs, packetCount := optN e.packets, byteCount := optN e.bytes, durationSec := optN e.sec, durationNsec := optN e.nsec }, []) := by
  unfold headCnts
  rw [List.foldl_append, fold_c, List.foldl_append, fold_c, List.foldl_append, fold_c, List.foldl_append, fold_c, fold_c]
  by_cases h1 : e.refs = 0 <;> by_cases h2 : e.packets = 0 <;> by_cases h3 : e.bytes = 0 <;>
    by_cases h4 : e.sec = 0 <;> by_cases h5 : e.nsec = 0 <;> simp [h1, h2, h3, h4, h5, CKey.set, optN]

theorem fold_sWords (e : GroupStat) : (sWords e).foldl SW.step ({}, []) =
    ({ refCount := optN e.refs, packetCount := optN e.packets, byteCount := optN e.bytes, durationSec := optN e.sec, durationNsec := optN e.nsec },
      (e.buckets.map fun b => (optN b.packets, optN b.bytes)).reverse) := by
  rw [sWords, List.foldl_append, fold_head, fold_buckets, List.append_nil]

/-! ## Printing -/

theorem bucketStat_length (b : BucketStat) : b.wire.length = 16 := by
  rw [BucketStat.wire, List.length_append, u64_length, u64_length]

theorem bucketStats_length (l : List BucketStat) : (l.flatMap BucketStat.wire).length = 16 * l.length := by
  induction l with
  | nil => rfl
  | cons b l ih => rw [List.flatMap_cons, List.length_append, bucketStat_length, ih, List.length_cons]; omega

theorem bucketStatsText_list (l : List BucketStat) (hv : ∀ b ∈ l, b.packets < 256 ^ 8 ∧ b.bytes < 256 ^ 8) (fuel : Nat)
    (hf : l.length < fuel) :
    bucketStatsText fuel (l.flatMap BucketStat.wire) = .ok ((l.flatMap bWords).map SW.text) := by
  induction l generalizing fuel with
  | nil =>
    cases fuel with
    | zero => omega
    | succ f => rw [bucketStatsText, if_pos (by decide)]; rfl
  | cons b l ih =>
    cases fuel with
    | zero => omega
    | succ f =>
      obtain ⟨h1, h2⟩ := hv b (by simp)
      rw [List.flatMap_cons, bucketStatsText, if_neg (by rw [List.length_append, bucketStat_length]; omega)]
      have hd : (b.wire ++ l.flatMap BucketStat.wire).drop 16 = l.flatMap BucketStat.wire :=
        List.drop_left' (bucketStat_length b)
      have e1 : uAt (b.wire ++ l.flatMap BucketStat.wire) 0 8 = b.packets := by
        rw [BucketStat.wire, List.append_assoc]; exact uAt_u64_here _ _ h1
      have e2 : uAt (b.wire ++ l.flatMap BucketStat.wire) 8 8 = b.bytes := by
        rw [BucketStat.wire, List.append_assoc]
        simp only [uAt_u64, Nat.reduceLeDiff, Nat.reduceSub, Nat.sub_self, Nat.le_refl]
        exact uAt_u64_here _ _ h2
      rw [hd, ih (fun x hx => hv x (List.mem_cons_of_mem _ hx)) f (by simpa using hf), ok_bind, e1, e2]
      simp only [List.flatMap_cons, bWords, List.map_append, List.map_cons, List.cons_append, cWords_text,
        List.append_assoc]
      rfl

def gRow (e : GroupStat) : Str := t!"group=" ++ (fmtD e.gid ++ ' ' :: commaList ((sWords e).map SW.text))

theorem groupStat_length (e : GroupStat) : e.wire.length = 40 + 16 * e.buckets.length := by
  simp only [GroupStat.wire, List.length_append, u16_length, u32_length, u64_length, pad_length, bucketStats_length]
  omega

theorem groupStat_nums (e : GroupStat) (hv : e.Valid) (rest : Bytes) :
    uAt (e.wire ++ rest) 0 2 = e.wire.length ∧ uAt (e.wire ++ rest) 4 4 = e.gid ∧
    uAt (e.wire ++ rest) 8 4 = e.refs ∧ uAt (e.wire ++ rest) 16 8 = e.packets ∧ uAt (e.wire ++ rest) 24 8 = e.bytes ∧
    uAt (e.wire ++ rest) 32 4 = e.sec ∧ uAt (e.wire ++ rest) 36 4 = e.nsec ∧
    slice (e.wire ++ rest) 40 e.wire.length = e.buckets.flatMap BucketStat.wire := by
  obtain ⟨h1, h2, h3, h4, h5, h6, h7, h8⟩ := hv
  have hL := groupStat_length e
  have hB := bucketStats_length e.buckets
  have eL : 40 + (e.buckets.flatMap BucketStat.wire).length = e.wire.length := by omega
  refine ⟨?_, ?_, ?_, ?_, ?_, ?_, ?_, ?_⟩
  · unfold GroupStat.wire at eL ⊢
    rw [eL] 
    rw [List.append_assoc]
    rw [← GroupStat.wire.eq_def] at *
    exact uAt_u16_here _ _ h8
  · unfold GroupStat.wire
    simp only [List.append_assoc, uAt_u8, uAt_u16, uAt_u32, uAt_u64, uAt_skip_pad, Nat.reduceLeDiff, Nat.reduceSub, Nat.sub_self, Nat.le_refl]
    exact uAt_u32_here _ _ h1
  · unfold GroupStat.wire
    simp only [List.append_assoc, uAt_u8, uAt_u16, uAt_u32, uAt_u64, uAt_skip_pad, Nat.reduceLeDiff, Nat.reduceSub, Nat.sub_self, Nat.le_refl]
    exact uAt_u32_here _ _ h2
  · unfold GroupStat.wire
    simp only [List.append_assoc, uAt_u8, uAt_u16, uAt_u32, uAt_u64, uAt_skip_pad, Nat.reduceLeDiff, Nat.reduceSub, Nat.sub_self, Nat.le_refl]
    exact uAt_u64_here _ _ h3
  · unfold GroupStat.wire
    simp only [List.append_assoc, uAt_u8, uAt_u16, uAt_u32, uAt_u64, uAt_skip_pad, Nat.reduceLeDiff, Nat.reduceSub, Nat.sub_self, Nat.le_refl]
    exact uAt_u64_here _ _ h4
  · unfold GroupStat.wire
    simp only [List.append_assoc, uAt_u8, uAt_u16, uAt_u32, uAt_u64, uAt_skip_pad, Nat.reduceLeDiff, Nat.reduceSub, Nat.sub_self, Nat.le_refl]
    exact uAt_u32_here _ _ h5
  · unfold GroupStat.wire
    simp only [List.append_assoc, uAt_u8, uAt_u16, uAt_u32, uAt_u64, uAt_skip_pad, Nat.reduceLeDiff, Nat.reduceSub, Nat.sub_self, Nat.le_refl]
    exact uAt_u32_here _ _ h6
  · rw [slice, List.take_left]
    unfold GroupStat.wire
    simp only [← List.append_assoc]
    apply List.drop_left'
    simp only [List.length_append, u16_length, u32_length, u64_length, pad_length]

theorem groupStatsText_list (l : List GroupStat) (hv : ∀ e ∈ l, e.Valid)
    (hg : ∀ e ∈ l, e.gid ≠ 0xfffffffc ∧ e.gid ≠ 0xffffffff) (fuel : Nat) (hf : l.length < fuel) :
    groupStatsText fuel (l.flatMap GroupStat.wire) = .ok (l.map gRow) := by
  induction l generalizing fuel with
  | nil =>
    cases fuel with
    | zero => omega
    | succ f => rw [groupStatsText, if_pos (by decide)]; rfl
  | cons e l ih =>
    cases fuel with
    | zero => omega
    | succ f =>
      have hL := groupStat_length e
      obtain ⟨n1, n2, n3, n4, n5, n6, n7, n8⟩ := groupStat_nums e (hv e (by simp)) (l.flatMap GroupStat.wire)
      rw [List.flatMap_cons, groupStatsText, if_neg (by rw [List.length_append]; omega)]
      dsimp only
      rw [n1, n2, n3, n4, n5, n6, n7, n8, decide_eq_true (by omega : e.wire.length ≥ 40), pyAssert_ok, ok_bind,
        bucketStatsText_list e.buckets (hv e (by simp)).2.2.2.2.2.2.1 _ (by rw [List.length_append]; omega), ok_bind,
        List.drop_left, ih (fun x hx => hv x (List.mem_cons_of_mem _ hx)) (fun x hx => hg x (List.mem_cons_of_mem _ hx)) f
          (by simpa using hf), ok_bind]
      obtain ⟨g1, g2⟩ := hg e (by simp)
      have b1 : ¬ ((e.gid == OFPG_ALL) = true) := by simpa [OFPG_ALL] using g1
      have b2 : ¬ ((e.gid == OFPG_ANY) = true) := by simpa [OFPG_ANY] using g2
      rw [if_neg b1, if_neg b2, joinStr_commaList]
      have : (sWords e).map SW.text = countTok t!"ref_count" e.refs ++ (countTok t!"packet_count" e.packets ++
          (countTok t!"byte_count" e.bytes ++ (countTok t!"duration_sec" e.sec ++
          (countTok t!"duration_nsec" e.nsec ++ (e.buckets.flatMap bWords).map SW.text)))) := by
        simp only [sWords, headCnts, List.map_append, cWords_text, List.append_assoc]
        rfl
      rw [← this]
      rfl

theorem commaList_line (l : List Str) (h : ∀ t ∈ l, '\n' ∉ t) : '\n' ∉ commaList l := by
  induction l with
  | nil => simp [commaList]
  | cons a l ih =>
    have ha := h a (by simp)
    have hl := ih fun t ht => h t (List.mem_cons_of_mem _ ht)
    by_cases hn : l = []
    · subst hn; simpa [commaList] using ha
    · rw [commaList_cons _ hn]
      exact line_append ha (line_cons (by decide) hl)

theorem sw_line (w : SW) : '\n' ∉ w.text := by
  cases w with
  | mark => decide
  | cnt k n => exact cText_line _

theorem gRow_line (e : GroupStat) : '\n' ∉ gRow e :=
  line_append (by decide) (line_append (line_clean (fmtD_clean _)) (line_cons (by decide)
    (commaList_line _ (by intro t ht; obtain ⟨w, -, rfl⟩ := List.mem_map.1 ht; exact sw_line w))))

/-! ## Reading back -/

theorem packBucketStats_list (l : List BucketStat) (hv : ∀ b ∈ l, b.packets < 256 ^ 8 ∧ b.bytes < 256 ^ 8) :
    packBucketStats (l.map fun b => (optN b.packets, optN b.bytes)) = .ok (l.flatMap BucketStat.wire) := by
  induction l with
  | nil => rfl
  | cons b l ih =>
    obtain ⟨h1, h2⟩ := hv b (by simp)
    rw [List.map_cons, packBucketStats, optN_getD, optN_getD, packAll_eq, if_pos (by
      intro e he
      simp only [List.mem_cons, List.not_mem_nil, or_false] at he
      rcases he with rfl | rfl
      · exact fitsIn_cast h1
      · exact fitsIn_cast h2), ok_bind, ih fun x hx => hv x (List.mem_cons_of_mem _ hx), ok_bind]
    simp [BucketStat.wire, u64, spec_be]

theorem statGroupHead_row (e : GroupStat) (he : e.Counts) (fuel : Nat) (g0 : Int) :
    statGroupHead (fuel + 2) g0 (gRow e) = .ok ((e.gid : Int), ' ' :: commaList ((sWords e).map SW.text)) := by
  have hi := intSyntax_fmtD e.gid
  have hr : Boundary (' ' :: commaList ((sWords e).map SW.text)) := atEnd_sep (by decide) _
  have h1 : Tok (gRow e) [] t!"group" ('=' :: (fmtD e.gid ++ ' ' :: commaList ((sWords e).map SW.text))) := by
    have := tok_head (h := []) (head_nil) (b := t!"group") (Clean.token (by decide))
      (atEnd_eq (fmtD e.gid ++ ' ' :: commaList ((sWords e).map SW.text))) (Clean.plainStart (by decide)) (by decide)
    simpa [gRow] using this
  have h2 := (procArg_iff ('=' :: (fmtD e.gid ++ ' ' :: commaList ((sWords e).map SW.text)))
    (' ' :: commaList ((sWords e).map SW.text)) (e.gid : Int)).2
    ⟨['='], _, tok_eq (intSyntax_clean hi).1.token hr (intSyntax_clean hi).1.plainStart (intSyntax_clean hi).2.1,
      by decide, hi⟩
  rw [statGroupHead, if_neg (by unfold gRow; simp), (getToken_iff _ _ _ _).2 h1]
  dsimp only
  rw [if_pos (by decide), h2, ok_bind, statGroupHead, if_neg (by simp)]
  have hne := sWords_ne e he
  obtain ⟨w, ws, hw⟩ := List.exists_cons_of_ne_nil hne
  obtain ⟨r, hr1, hr2⟩ : ∃ r, commaList ((sWords e).map SW.text) = w.text ++ r ∧ Boundary r := by
    rw [hw]
    by_cases hn : ws = []
    · subst hn; exact ⟨[], by simp [commaList], atEnd_nil⟩
    · exact ⟨_, by rw [List.map_cons, commaList_cons _ (by simpa using hn)], atEnd_comma _⟩
  rw [hr1]
  have hnm : (getToken (' ' :: (w.text ++ r))).2.1 ≠ t!"group" := by
    cases w with
    | mark =>
      have := (getToken_iff _ _ _ _).2 (mark_tok (h := [' ']) (by decide) hr2)
      have e : ' ' :: (SW.mark.text ++ r) = [' '] ++ (t!"@bucket" ++ r) := rfl
      rw [e, this]; dsimp only; decide
    | cnt k n =>
      have := (cText_tok (k, n) (h := [' ']) (by decide) hr2).1
      have e : ' ' :: ((SW.cnt k n).text ++ r) = [' '] ++ (cText (k, n) ++ r) := rfl
      rw [e, this]; exact (cName_clean k).2.2.2
  rcases hg : getToken (' ' :: (w.text ++ r)) with ⟨hd, name, t⟩
  rw [hg] at hnm
  dsimp only at hnm ⊢
  rw [if_neg (by simpa using hnm)]

theorem groupStatBody_words (e : GroupStat) (hv : e.Valid) (h : Str) (hh : ∀ c ∈ h, Space c ∨ c = ',')
    (hl : sWords e = [] → h = []) :
    groupStatBody e.gid (h ++ commaList ((sWords e).map SW.text)) = .ok e.wire := by
  obtain ⟨h1, h2, h3, h4, h5, h6, h7, h8⟩ := hv
  have hgo' := groupStatsGo_words (sWords e) {} [] h hh hl (sws_sWords e)
    ((h ++ commaList ((sWords e).map SW.text)).length + 1) (by simp)
  have hL := groupStat_length e
  have hB := bucketStats_length e.buckets
  rw [groupStatBody, hgo', fold_sWords, ok_bind]
  dsimp only
  rw [List.reverse_reverse, packBucketStats_list _ h7, ok_bind, optN_getD, optN_getD, optN_getD, optN_getD, optN_getD]
  have hp := packU_fits (k := 2) (n := ((40 + (e.buckets.flatMap BucketStat.wire).length : Nat) : Int))
    ((fitsIn2 _).2 (by omega))
  have hp' : packU 2 (40 + ((e.buckets.flatMap BucketStat.wire).length : Int)) = _ := hp
  rw [hp', ok_bind, packAll_eq, if_pos (by
      intro x hx
      simp only [List.mem_cons, List.not_mem_nil, or_false] at hx
      rcases hx with rfl | rfl
      · exact fitsIn_cast h1
      · exact fitsIn_cast h2), ok_bind, packAll_eq, if_pos (by
      intro x hx
      simp only [List.mem_cons, List.not_mem_nil, or_false] at hx
      rcases hx with rfl | rfl | rfl | rfl
      · exact fitsIn_cast h3
      · exact fitsIn_cast h4
      · exact fitsIn_cast h5
      · exact fitsIn_cast h6), ok_bind]
  simp only [GroupStat.wire, u16, u32, u64, spec_be, List.flatMap_cons, List.flatMap_nil, List.append_nil, List.append_assoc,
    Int.toNat_natCast]
  rfl

theorem groupStatBody_row (e : GroupStat) (hv : e.Valid) (he : e.Counts) :
    groupStatBody e.gid (' ' :: commaList ((sWords e).map SW.text)) = .ok e.wire :=
  groupStatBody_words e hv [' '] (by decide) fun h => absurd h (sWords_ne e he)

theorem mpgroupGo_list (l : List GroupStat) (hv : ∀ e ∈ l, e.Valid) (he : ∀ e ∈ l, e.Counts) (cap : Bytes)
    (hc : cap.length + (l.flatMap GroupStat.wire).length + 16 < 65536) :
    mpgroupGo 19 cap (l.map gRow) = .ok (cap ++ l.flatMap GroupStat.wire) := by
  induction l generalizing cap with
  | nil => simp [mpgroupGo]
  | cons e l ih =>
    rw [List.flatMap_cons, List.length_append] at hc
    have hlen : ∃ f, (gRow e).length + 1 = f + 2 := ⟨(gRow e).length - 1, by
      have : gRow e ≠ [] := by unfold gRow; simp
      have := List.length_pos_iff.2 this; omega⟩
    obtain ⟨f, hf⟩ := hlen
    rw [List.map_cons, mpgroupGo, hf, statGroupHead_row e (he e (by simp)), ok_bind]
    dsimp only
    rw [if_neg (by decide), groupStatBody_row e (hv e (by simp)) (he e (by simp)), ok_bind, mpAppend,
      if_neg (by omega), ok_bind, ih (fun x hx => hv x (List.mem_cons_of_mem _ hx))
        (fun x hx => he x (List.mem_cons_of_mem _ hx)) _ (by rw [List.length_append]; omega)]
    simp

end Ofpstr
