import Verif.Lemmas.MpFlow

/-!
# Group statistics that do not survive printing
-/

set_option linter.unusedSimpArgs false

namespace Ofpstr
open Spec

/-- The row of any entry. -/
def anyRow (e : GroupStat) : Str :=
  if e.gid = 0xfffffffc then t!"group=all " ++ commaList ((sWords e).map SW.text)
  else if e.gid = 0xffffffff then commaList ((sWords e).map SW.text)
  else gRow e

theorem groupStatsText_any (l : List GroupStat) (hv : ∀ e ∈ l, e.Valid) (fuel : Nat) (hf : l.length < fuel) :
    groupStatsText fuel (l.flatMap GroupStat.wire) = .ok (l.map anyRow) := by
  induction l generalizing fuel with
  | nil =>
    cases fuel with
    | zero => omega
    | succ f => rw [groupStatsText, if_pos (by decide)]; rfl
  | cons e l ih =>
    cases fuel with
    | zero => omega
    | succ f =>
      have hL := groupStat_length e
      obtain ⟨n1, n2, n3, n4, n5, n6, n7, n8⟩ := groupStat_nums e (hv e (by simp)) (l.flatMap GroupStat.wire)
      rw [List.flatMap_cons, groupStatsText, if_neg (by rw [List.length_append]; omega)]
      dsimp only
      rw [n1, n2, n3, n4, n5, n6, n7, n8, decide_eq_true (by omega : e.wire.length ≥ 40), pyAssert_ok, ok_bind,
        bucketStatsText_list e.buckets (hv e (by simp)).2.2.2.2.2.2.1 _ (by rw [List.length_append]; omega), ok_bind,
        List.drop_left, ih (fun x hx => hv x (List.mem_cons_of_mem _ hx)) f (by simpa using hf), ok_bind,
        joinStr_commaList]
      have : (sWords e).map SW.text = countTok t!"ref_count" e.refs ++ (countTok t!"packet_count" e.packets ++
          (countTok t!"byte_count" e.bytes ++ (countTok t!"duration_sec" e.sec ++
          (countTok t!"duration_nsec" e.nsec ++ (e.buckets.flatMap bWords).map SW.text)))) := by
        simp only [sWords, headCnts, List.map_append, cWords_text, List.append_assoc]
        rfl
      rw [← this, List.map_cons]
      have e1 : OFPG_ALL = 0xfffffffc := rfl
      have e2 : OFPG_ANY = 0xffffffff := rfl
      unfold anyRow
      by_cases h1 : e.gid = 0xfffffffc
      · rw [if_pos (by rw [e1, h1]; decide), if_pos h1]
      · rw [if_neg (by rw [e1]; simpa using h1), if_neg h1]
        by_cases h2 : e.gid = 0xffffffff
        · rw [if_pos (by rw [e2, h2]; decide), if_pos h2]
        · rw [if_neg (by rw [e2]; simpa using h2), if_neg h2]
          rfl

theorem anyRow_line (e : GroupStat) : '\n' ∉ anyRow e := by
  have hc : '\n' ∉ commaList ((sWords e).map SW.text) := commaList_line _ (by
    intro t ht; obtain ⟨w, -, rfl⟩ := List.mem_map.1 ht; exact sw_line w)
  unfold anyRow
  split
  · exact line_append (by decide) hc
  · split
    · exact hc
    · exact gRow_line e

theorem sWords_nil (e : GroupStat) (h : ¬ e.Counts) : sWords e = [] := by
  simp only [GroupStat.Counts, not_or, not_not] at h
  obtain ⟨a, b, c, d, f, g⟩ := h
  simp [sWords, headCnts, a, b, c, d, f, g, cWords_zero]

/-- A row without a group number is read as group 0. -/
theorem head_any (e : GroupStat) (f : Nat) :
    statGroupHead (f + 1) 0 (commaList ((sWords e).map SW.text)) = .ok (0, commaList ((sWords e).map SW.text)) := by
  rw [statGroupHead]
  by_cases hn : sWords e = []
  · rw [hn]; rfl
  · obtain ⟨w, ws, hw⟩ := List.exists_cons_of_ne_nil hn
    obtain ⟨r, hr1, hr2⟩ : ∃ r, commaList ((sWords e).map SW.text) = w.text ++ r ∧ Boundary r := by
      rw [hw]
      by_cases hn : ws = []
      · subst hn; exact ⟨[], by simp [commaList], atEnd_nil⟩
      · exact ⟨_, by rw [List.map_cons, commaList_cons _ (by simpa using hn)], atEnd_comma _⟩
    rw [hr1]
    have hnm : (getToken (w.text ++ r)).2.1 ≠ t!"group" := by
      cases w with
      | mark =>
        have := (getToken_iff _ _ _ _).2 (mark_tok (h := []) (by decide) hr2)
        have e : (SW.mark.text ++ r) = [] ++ (t!"@bucket" ++ r) := rfl
        rw [e, this]; dsimp only; decide
      | cnt k n =>
        have := (cText_tok (k, n) (h := []) (by decide) hr2).1
        have e : ((SW.cnt k n).text ++ r) = [] ++ (cText (k, n) ++ r) := rfl
        rw [e, this]; exact (cName_clean k).2.2.2
    split
    · rfl
    · rcases hg : getToken (w.text ++ r) with ⟨hd, name, t⟩
      rw [hg] at hnm
      dsimp only at hnm ⊢
      rw [if_neg (by simpa using hnm)]

/-- The row of all groups cannot be read. -/
theorem head_all (e : GroupStat) (f : Nat) :
    ∃ er, statGroupHead (f + 1) 0 (t!"group=all " ++ commaList ((sWords e).map SW.text)) = .error er := by
  have h1 : Tok (t!"group=all " ++ commaList ((sWords e).map SW.text)) [] t!"group"
      ('=' :: (t!"all" ++ ' ' :: commaList ((sWords e).map SW.text))) := by
    have := tok_head (h := []) head_nil (b := t!"group") (Clean.token (by decide))
      (atEnd_eq (t!"all" ++ ' ' :: commaList ((sWords e).map SW.text))) (Clean.plainStart (by decide)) (by decide)
    simpa using this
  have h2 : Tok ('=' :: (t!"all" ++ ' ' :: commaList ((sWords e).map SW.text))) ['='] t!"all"
      (' ' :: commaList ((sWords e).map SW.text)) :=
    tok_eq (Clean.token (by decide)) (atEnd_sep (by decide) _) (Clean.plainStart (by decide)) (by decide)
  rw [statGroupHead, if_neg (by simp), (getToken_iff _ _ _ _).2 h1]
  dsimp only
  rw [if_pos (by decide)]
  unfold procArg
  rw [(getToken_iff _ _ _ _).2 h2]
  exact ⟨.valueError, rfl⟩

/-- An entry with nothing but a group number cannot be read. -/
theorem head_bare (gid : Nat) (f : Nat) : statGroupHead (f + 2) 0 (t!"group=" ++ (fmtD gid ++ [' '])) = .ok ((gid : Int), [' ']) := by
  have hi := intSyntax_fmtD gid
  have h1 : Tok (t!"group=" ++ (fmtD gid ++ [' '])) [] t!"group" ('=' :: (fmtD gid ++ [' '])) := by
    have := tok_head (h := []) head_nil (b := t!"group") (Clean.token (by decide))
      (atEnd_eq (fmtD gid ++ [' '])) (Clean.plainStart (by decide)) (by decide)
    simpa using this
  have h2 := (procArg_iff ('=' :: (fmtD gid ++ [' '])) [' '] (gid : Int)).2
    ⟨['='], _, tok_eq (intSyntax_clean hi).1.token (atEnd_sep (by decide) _) (intSyntax_clean hi).1.plainStart
      (intSyntax_clean hi).2.1, by decide, hi⟩
  rw [statGroupHead, if_neg (by simp), (getToken_iff _ _ _ _).2 h1]
  dsimp only
  rw [if_pos (by decide), h2, ok_bind, statGroupHead]
  rfl

theorem mpgroupGo_grows (t : Int) (ht : (t != OFPT_MULTIPART_REPLY) = false) (ls : List Str) (cap out : Bytes)
    (h : mpgroupGo t cap ls = .ok out) : cap <+: out := by
  induction ls generalizing cap with
  | nil => rw [mpgroupGo] at h; cases h; exact List.prefix_refl _
  | cons s ls ih =>
    rw [mpgroupGo] at h
    obtain ⟨⟨g, r⟩, -, h⟩ := bind_ok h
    dsimp only at h
    rw [ht, if_neg (by decide)] at h
    obtain ⟨b, -, h⟩ := bind_ok h
    obtain ⟨c, hc, h⟩ := bind_ok h
    obtain ⟨rfl, -⟩ := mpAppend_inv hc
    exact (List.prefix_append cap b).trans (ih _ h)

theorem wire_gid (e : GroupStat) (hv : e.Valid) (h : ({ e with gid := 0 } : GroupStat).wire <+: e.wire) : e.gid = 0 := by
  have hv0 : ({ e with gid := 0 } : GroupStat).Valid := by
    obtain ⟨h1, h2, h3, h4, h5, h6, h7, h8⟩ := hv
    exact ⟨(by decide : 0 < 256 ^ 4), h2, h3, h4, h5, h6, h7, by rw [groupStat_length] at h8 ⊢; exact h8⟩
  have heq := h.eq_of_length (by rw [groupStat_length, groupStat_length])
  have n1 := (groupStat_nums e hv []).2.1
  have n2 := (groupStat_nums { e with gid := 0 } hv0 []).2.1
  rw [heq, n1] at n2
  exact n2

theorem mpgroupGo_any (l : List GroupStat) (hv : ∀ e ∈ l, e.Valid) (cap : Bytes)
    (h : mpgroupGo 19 cap (l.map anyRow) = .ok (cap ++ l.flatMap GroupStat.wire)) : ∀ e ∈ l, e.Lossless := by
  induction l generalizing cap with
  | nil => intro e he; cases he
  | cons e l ih =>
    have hve := hv e (by simp)
    rw [List.map_cons, mpgroupGo] at h
    obtain ⟨⟨g, r⟩, h1, h⟩ := bind_ok h
    dsimp only at h
    rw [if_neg (by decide)] at h
    obtain ⟨b, hb, h⟩ := bind_ok h
    obtain ⟨c, hc, h⟩ := bind_ok h
    obtain ⟨rfl, -⟩ := mpAppend_inv hc
    have hpre := mpgroupGo_grows 19 (by decide) _ _ _ h
    rw [List.prefix_append_right_inj, List.flatMap_cons] at hpre
    have hl : e.Lossless := by
      by_cases g1 : e.gid = 0xfffffffc
      · obtain ⟨er, he⟩ := head_all e (anyRow e).length
        have hr : anyRow e = t!"group=all " ++ commaList ((sWords e).map SW.text) := by rw [anyRow, if_pos g1]
        rw [← hr, h1] at he
        cases he
      · by_cases g2 : e.gid = 0xffffffff
        · exfalso
          have hr : anyRow e = commaList ((sWords e).map SW.text) := by rw [anyRow, if_neg g1, if_pos g2]
          have hh := head_any e (anyRow e).length
          rw [← hr, h1] at hh
          cases hh
          have hv0 : ({ e with gid := 0 } : GroupStat).Valid := by
            obtain ⟨h1, h2, h3, h4, h5, h6, h7, h8⟩ := hve
            exact ⟨(by decide : 0 < 256 ^ 4), h2, h3, h4, h5, h6, h7, by rw [groupStat_length] at h8 ⊢; exact h8⟩
          have hbody := groupStatBody_words { e with gid := 0 } hv0 [] (by simp) (fun _ => rfl)
          have hw : sWords { e with gid := 0 } = sWords e := rfl
          rw [hw, List.nil_append, ← hr] at hbody
          have hb' : b = ({ e with gid := 0 } : GroupStat).wire := by
            have : groupStatBody 0 (anyRow e) = .ok b := hb
            have h2 : groupStatBody 0 (anyRow e) = .ok ({ e with gid := 0 } : GroupStat).wire := hbody
            rw [h2] at this
            exact (Except.ok.inj this).symm
          rw [hb'] at hpre
          have h3 : ({ e with gid := 0 } : GroupStat).wire <+: e.wire :=
            List.prefix_of_prefix_length_le hpre (List.prefix_append _ _) (by rw [groupStat_length, groupStat_length])
          rw [wire_gid e hve h3] at g2
          exact absurd g2 (by decide)
        · refine ⟨g1, g2, ?_⟩
          by_contra hn
          have hr : anyRow e = t!"group=" ++ (fmtD e.gid ++ [' ']) := by
            rw [anyRow, if_neg g1, if_neg g2, gRow, sWords_nil e hn]; rfl
          obtain ⟨f, hf⟩ : ∃ f, (anyRow e).length + 1 = f + 2 := ⟨(anyRow e).length - 1, by rw [hr]; simp⟩
          rw [hf] at h1
          have hh := head_bare e.gid f
          rw [← hr, h1] at hh
          cases hh
          have : ∀ er, groupStatBody (e.gid : Int) [' '] ≠ .ok er := by
            intro er hx
            unfold groupStatBody at hx
            obtain ⟨y, hy, -⟩ := bind_ok hx
            have : groupStatsGo ([' '].length + 1) {} [] [' '] = .error .assertionError := by decide +kernel
            rw [this] at hy
            cases hy
          exact this _ hb
    obtain ⟨l1, l2, l3⟩ := hl
    have hb' : b = e.wire := by
      have hr : anyRow e = gRow e := by rw [anyRow, if_neg l1, if_neg l2]
      obtain ⟨f, hf⟩ : ∃ f, (anyRow e).length + 1 = f + 2 := ⟨(anyRow e).length - 1, by
        rw [hr]; unfold gRow; simp⟩
      rw [hf, hr, statGroupHead_row e l3] at h1
      cases h1
      rw [groupStatBody_row e hve l3] at hb
      cases hb; rfl
    subst hb'
    intro e' he'
    rcases List.mem_cons.1 he' with rfl | he'
    · exact ⟨l1, l2, l3⟩
    · exact ih (fun x hx => hv x (List.mem_cons_of_mem _ hx)) _ (by rw [h, List.flatMap_cons, List.append_assoc]) e' he'

end Ofpstr
