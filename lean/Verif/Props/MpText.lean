import Verif.Lemmas.MpTextUnique
import Verif.Props.RuleText

/-!
# C71: exactly which texts are multipart messages, and which bytes they mean
-/

namespace Ofpstr
open Spec

/-! ## Flow statistics -/

/-- C71: `text2mpflow` gives a message exactly for the texts whose lines are counters and a rule with numbers
that fit, and which give a message of less than 64 KiB; the message has one entry for each line, in order.
With a type that is not 19 each line gives the body of a request. -/
theorem C71_flow (txt : Str) (type xid : Int) (m : Bytes) : text2mpflow txt type xid = .ok m ↔
    ∃ lines es, TextLines txt lines ∧ List.Forall₂ StatLine lines es ∧ (∀ e ∈ es, LineFits type e) ∧
      MpFits type xid (es.flatMap (lineOf type)) ∧ m = mpWire type.toNat xid.toNat 1 0 (es.flatMap (lineOf type)) :=
  text2mpflow_iff txt type xid m

/-- C71: a line can be read in one way only. -/
theorem C71_flow_unique {s : Str} {e e' : List (Str × Int) × List Word} (h : StatLine s e) (h' : StatLine s e') : e = e' := by
  obtain ⟨r, h1, h2⟩ := h
  obtain ⟨r', h1', h2'⟩ := h'
  obtain ⟨e1, rfl⟩ : e.1 = e'.1 ∧ r = r' := by
    clear h2 h2'
    obtain ⟨l, ws⟩ := e
    obtain ⟨l', ws'⟩ := e'
    dsimp only at h1 h1' ⊢
    induction h1 generalizing l' with
    | nil =>
      cases h1' with
      | nil => exact ⟨rfl, rfl⟩
      | stop => exact ⟨rfl, rfl⟩
      | cons _ _ _ _ _ _ _ _ h => exact absurd rfl h
    | stop s h name t ht hn =>
      cases h1' with
      | nil => exact ⟨rfl, rfl⟩
      | stop => exact ⟨rfl, rfl⟩
      | cons _ h' name' t' n u l' _ _ ht' hn' => exact absurd ((tok_det ht ht').2.1 ▸ hn') hn
    | cons s h name t n u l r hs ht hn ha _ ih =>
      cases h1' with
      | nil => exact absurd rfl hs
      | stop _ h' name' t' ht' hn' => exact absurd ((tok_det ht ht').2.1 ▸ hn) hn'
      | cons _ h' name' t' n' u' l' _ _ ht' hn' ha' h2' =>
        obtain ⟨-, rfl, rfl⟩ := tok_det ht ht'
        have e := ((numArg_iff _ _ _).2 ha).symm.trans ((numArg_iff _ _ _).2 ha')
        simp only [Except.ok.injEq, Prod.mk.injEq] at e
        obtain ⟨rfl, rfl⟩ := e
        obtain ⟨rfl, rfl⟩ := ih l' h2'
        exact ⟨rfl, rfl⟩
  exact Prod.ext e1 (ruleText_unique h2 h2')

/-- C71 for requests: counters in front of the rule are read and not used; the line without them gives the
same message, or the same exception. -/
theorem C71_flow_counters {l : List (Str × Int)} {s r : Str} (h : CountText flowCounters l s r) (hn : '\n' ∉ s) (type xid : Int) (ht : type ≠ 19) :
    text2mpflow s type xid = text2mpflow r type xid := by
  have hr : CountText flowCounters [] r r ∧ r <:+ s := by
    induction h with
    | nil => exact ⟨.nil, List.suffix_refl _⟩
    | stop s h name t h1 h2 => exact ⟨.stop s h name t h1 h2, List.suffix_refl _⟩
    | cons s h name t n u l r _ h2 _ h4 _ ih =>
      obtain ⟨op, p, h5, -⟩ := h4
      have hu : u <:+ s := (tok_suffix h5).trans (tok_suffix h2)
      obtain ⟨i1, i2⟩ := ih (fun hc => hn (hu.subset hc))
      exact ⟨i1, i2.trans hu⟩
  have hn' : '\n' ∉ r := fun hc => hn (hr.2.subset hc)
  have e1 := (countersGo_iff (s.length + 1) {} s (by omega) _ r).2 ⟨l, h, rfl⟩
  have e2 := (countersGo_iff (r.length + 1) {} r (by omega) _ r).2 ⟨[], hr.1, rfl⟩
  have hb : ∀ c c' i, statBody type c i = statBody type c' i := by
    intro c c' i
    have : (type != (OFPT_MULTIPART_REPLY : Nat)) = true := bne_iff_ne.2 ht
    unfold statBody
    simp only [this, if_true]
  have p1 : parseStat s = (do let i ← str2dict r; .ok (setCounts {} l, i) : Py (Counters × Info)) := by
    rw [parseStat, e1, ok_bind]
  have p2 : parseStat r = (do let i ← str2dict r; .ok (setCounts {} [], i) : Py (Counters × Info)) := by
    rw [parseStat, e2, ok_bind]
  unfold text2mpflow
  rw [splitAll_line s hn, splitAll_line r hn', parseStats.eq_2 s, parseStats.eq_2 r, p1, p2, parseStats]
  cases hd : str2dict r with
  | error e => rfl
  | ok i =>
    simp only [ok_bind, mpflowGo]
    rw [hb _ (setCounts {} [])]

example : CountText flowCounters [(t!"byte_count", 4)] t!"byte_count=4,in_port=2" t!",in_port=2" := by
  have tk : ∀ {s h b r : Str}, getToken s = (h, b, r) → Tok s h b r := fun h => (getToken_iff _ _ _ _).1 h
  exact .cons _ [] _ t!"=4,in_port=2" 4 _ _ _ (by decide) (tk (by decide +kernel)) (by decide)
    ⟨['='], t!"4", tk (by decide +kernel), by decide, (parseInt_iff t!"4" 4 1).1 (by decide)⟩
    (.stop _ [','] t!"in_port" t!"=2" (tk (by decide +kernel)) (by decide))

/-! ## Group descriptions -/

/-- C71: `text2mpgroupdesc` with type 19 gives a message exactly for the texts whose lines are descriptions (a head, then
buckets) with numbers that fit, and which give a message of less than 64 KiB. -/
theorem C71_desc (txt : Str) (xid : Int) (m : Bytes) : text2mpgroupdesc txt 19 xid = .ok m ↔
    ∃ lines es, TextLines txt lines ∧ List.Forall₂ DescLine lines es ∧ (∀ e ∈ es, DescFits e) ∧
      MpFits 19 xid (es.flatMap descOf) ∧ m = mpWire 19 xid.toNat 7 0 (es.flatMap descOf) :=
  text2mpgroupdesc_iff txt xid m

/-- C71: a line can be read in one way only. -/
theorem C71_desc_unique {s : Str} {e e' : List GWord × List (List BWord)} (h : DescLine s e) (h' : DescLine s e') : e = e' := by
  obtain ⟨u, h1, h2⟩ := h
  obtain ⟨u', h1', h2'⟩ := h'
  obtain ⟨e1, rfl⟩ := headD_det h1 h1'
  exact Prod.ext e1 (bucketsD_det h2 h2')

/-- C71: with another type the text is not looked at. -/
theorem C71_desc_request (txt : Str) (type xid : Int) (ht : type ≠ 19) (m : Bytes) : text2mpgroupdesc txt type xid = .ok m ↔
    MpFits type xid [] ∧ m = mpWire type.toNat xid.toNat 7 0 [] := by
  unfold text2mpgroupdesc
  rw [if_pos (show (type != (OFPT_MULTIPART_REPLY : Nat)) = true from bne_iff_ne.2 ht)]
  exact mpMessage_iff _ _ _ _ _ (by decide)

/-! ## Group statistics -/

/-- C71: `text2mpgroup` with type 19 gives a message exactly for the texts whose lines are statistics (groups, counters, buckets
with counters) with numbers that fit, and which give a message of less than 64 KiB. -/
theorem C71_group (txt : Str) (xid : Int) (m : Bytes) : text2mpgroup txt 19 xid = .ok m ↔
    ∃ lines es, TextLines txt lines ∧ List.Forall₂ GStatLine lines es ∧ (∀ e ∈ es, e.Fits) ∧
      MpFits 19 xid (es.flatMap GStat.wire) ∧ m = mpWire 19 xid.toNat 6 0 (es.flatMap GStat.wire) :=
  text2mpgroup_iff txt xid m

/-- C71: a line can be read in one way only. -/
theorem C71_group_unique {s : Str} {e e' : GStat} (h : GStatLine s e) (h' : GStatLine s e') : e = e' := by
  obtain ⟨u, h1, h2⟩ := h
  obtain ⟨u', h1', h2'⟩ := h'
  obtain ⟨e1, rfl⟩ := headS_det h1 h1'
  obtain ⟨e2, e3⟩ := statParts_det mark_not.2 h2 h2'
  cases e; cases e'
  simp only at e1 e2 e3
  rw [e1, e2, e3]

/-- C71: with another type only the head of the first line counts: the last group given there, 0 without one. -/
theorem C71_group_request (txt : Str) (type xid : Int) (ht : type ≠ 19) (m : Bytes) : text2mpgroup txt type xid = .ok m ↔
    ∃ line lines ids r, TextLines txt (line :: lines) ∧ HeadS ids line r ∧ FitsIn 4 (ids.getLast?.getD 0) ∧ FitsIn 1 type ∧ FitsIn 4 xid ∧
      m = mpWire type.toNat xid.toNat 6 0 (u32 (ids.getLast?.getD 0).toNat ++ pad 4) := by
  simp only [textLines_iff]
  unfold text2mpgroup
  rw [bind_iff]
  constructor
  · rintro ⟨cap, h1, h2⟩
    obtain ⟨l, ls, hl⟩ := List.exists_cons_of_ne_nil (splitAll_ne_nil '\n' txt)
    rw [hl, mpgroupGo] at h1
    obtain ⟨⟨g, r⟩, h3, h1⟩ := bind_iff.1 h1
    dsimp only at h1
    rw [if_pos (show (type != (OFPT_MULTIPART_REPLY : Nat)) = true from bne_iff_ne.2 ht)] at h1
    obtain ⟨b, h4, h1⟩ := bind_iff.1 h1
    cases h1
    obtain ⟨ids, h5, rfl⟩ := (statGroupHead_iff _ _ _ (by omega) _ _).1 h3
    obtain ⟨f4, rfl⟩ := (packU_packed _ _ _).1 h4
    obtain ⟨⟨f1, f2, -⟩, rfl⟩ := (mpMessage_iff _ _ _ _ _ (by decide)).1 h2
    refine ⟨l, ls, ids, r, hl, h5, f4 (4, _) (.head _), f1, f2, ?_⟩
    simp only [u32, List.flatMap_cons, List.flatMap_nil, List.append_nil]
    rfl
  · rintro ⟨l, ls, ids, r, hl, h5, f4, f1, f2, rfl⟩
    refine ⟨u32 (ids.getLast?.getD 0).toNat ++ pad 4, ?_, (mpMessage_iff _ _ _ _ _ (by decide)).2 ⟨⟨f1, f2, ?_⟩, rfl⟩⟩
    · rw [hl, mpgroupGo]
      refine bind_iff.2 ⟨_, (statGroupHead_iff _ _ _ (by omega) _ _).2 ⟨ids, h5, rfl⟩, ?_⟩
      dsimp only
      rw [if_pos (show (type != (OFPT_MULTIPART_REPLY : Nat)) = true from bne_iff_ne.2 ht)]
      refine bind_iff.2 ⟨_, (packU_packed _ _ _).2 ⟨?_, rfl⟩, ?_⟩
      · intro e he
        simp only [List.mem_cons, List.not_mem_nil, or_false] at he
        subst he; exact f4
      · simp only [u32, List.flatMap_cons, List.flatMap_nil, List.append_nil]
        rfl
    · simp only [List.length_append, u32_length, pad_length]
      omega

/-! ## What is left out -/

/-- C71: parts of a line that are not understood are left out without an error: the rest of a line of group
statistics after an unknown counter, the rest of a group description after something that is no action, the whole text of
a request for descriptions, everything but the head of the first line of a request for statistics. -/
theorem C71_silent :
    text2mpgroup t!"group=1 ref_count=2,foo=3,packet_count=9" 19 7 = text2mpgroup t!"group=1 ref_count=2" 19 7 ∧
    text2mpgroupdesc t!"group=1,select,output=1,outptu=2,output=3" 19 7 = text2mpgroupdesc t!"group=1,select,output=1" 19 7 ∧
    text2mpgroupdesc t!"what is this" 19 7 = text2mpgroupdesc t!"group=0,all" 19 7 ∧
    text2mpgroup t!"group=1 foo\ngroup=x" 18 7 = text2mpgroup t!"group=1" 18 7 ∧
    ∃ m, text2mpgroup t!"group=1 ref_count=2" 19 7 = .ok m ∧ ∃ m', text2mpgroupdesc t!"group=1,select,output=1" 19 7 = .ok m' := by
  refine ⟨by decide +kernel, by decide +kernel, by decide +kernel, by decide +kernel, ?_⟩
  obtain ⟨m, h⟩ := ok_of_isOk (show (text2mpgroup t!"group=1 ref_count=2" 19 7).isOk = true by decide +kernel)
  obtain ⟨m', h'⟩ := ok_of_isOk (show (text2mpgroupdesc t!"group=1,select,output=1" 19 7).isOk = true by decide +kernel)
  exact ⟨m, h, m', h'⟩

/-- C71: a group description never fails because of what stands after its buckets: any text may follow
that does not start a word of a bucket. -/
theorem C71_desc_junk {gs : List GWord} {s u : Str} (hh : HeadD gs s u) (hu : u ≠ []) {h name t : Str} (ht : Tok u h name t) (hn : name ≠ t!"@bucket")
    (he : '=' ∉ h) (ha : name.head? = some '@' ∨ (name ∉ bucketKeys ∧ ∃ b, ActLen u b 0)) : DescLine s (gs, []) :=
  ⟨u, hh, .junk u h name t hu ht hn (.nil _ (.inr ⟨h, name, t, ht, he, ha⟩))⟩

/-! ## Cases -/

/-- Texts with two lines, counters, buckets. -/
example : (∃ es, List.Forall₂ StatLine [t!"packet_count=3,table=1,in_port=2,@apply,output=1", t!"priority=5"] es ∧ ∀ e ∈ es, LineFits 19 e) ∧
    (∃ es, List.Forall₂ DescLine [t!"group=1,SELECT,@bucket,output=1,@bucket,weight=2,output=2", t!"group=3"] es ∧ ∀ e ∈ es, DescFits e) ∧
    ∃ es, List.Forall₂ GStatLine [t!"group=1,ref_count=2,@bucket,packet_count=5,@bucket byte_count=6", t!"group=2 foo=1"] es ∧ ∀ e ∈ es, e.Fits := by
  refine ⟨?_, ?_, ?_⟩
  · obtain ⟨m, h⟩ := ok_of_isOk (show (text2mpflow t!"packet_count=3,table=1,in_port=2,@apply,output=1\npriority=5" 19 7).isOk = true by decide +kernel)
    obtain ⟨ls, es, h1, h2, h3, -⟩ := (C71_flow _ _ _ _).1 h
    rw [textLines_iff] at h1
    subst h1
    exact ⟨es, h2, h3⟩
  · obtain ⟨m, h⟩ := ok_of_isOk (show (text2mpgroupdesc t!"group=1,SELECT,@bucket,output=1,@bucket,weight=2,output=2\ngroup=3" 19 7).isOk = true by decide +kernel)
    obtain ⟨ls, es, h1, h2, h3, -⟩ := (C71_desc _ _ _).1 h
    rw [textLines_iff] at h1
    subst h1
    exact ⟨es, h2, h3⟩
  · obtain ⟨m, h⟩ := ok_of_isOk (show (text2mpgroup t!"group=1,ref_count=2,@bucket,packet_count=5,@bucket byte_count=6\ngroup=2 foo=1" 19 7).isOk = true by decide +kernel)
    obtain ⟨ls, es, h1, h2, h3, -⟩ := (C71_group _ _ _).1 h
    rw [textLines_iff] at h1
    subst h1
    exact ⟨es, h2, h3⟩
/-- The bytes of a line of group statistics. -/
example : (⟨[1], [(t!"ref_count", 2)], [[(t!"packet_count", 5)]]⟩ : GStat).wire = [0, 56, 0, 0, 0, 0, 0, 1, 0, 0, 0, 2, 0, 0, 0, 0,
    0, 0, 0, 0, 0, 0, 0, 0, 0, 0, 0, 0, 0, 0, 0, 0, 0, 0, 0, 0, 0, 0, 0, 0, 0, 0, 0, 0, 0, 0, 0, 5, 0, 0, 0, 0, 0, 0, 0, 0] := by decide
/-- The bytes of a line of flow statistics. -/
example : statOf [(t!"packet_count", 3)] [.key .table 1, .flag 0, .goto 2] = [0, 64, 1, 0, 0, 0, 0, 0, 0, 0, 0, 0, 0, 0, 0, 0, 0, 0, 0, 1,
    0, 0, 0, 0, 0, 0, 0, 0, 0, 0, 0, 0, 0, 0, 0, 0, 0, 0, 0, 3, 0, 0, 0, 0, 0, 0, 0, 0, 0, 1, 0, 4, 0, 0, 0, 0, 0, 1, 0, 8, 2, 0, 0, 0] := by decide

end Ofpstr
