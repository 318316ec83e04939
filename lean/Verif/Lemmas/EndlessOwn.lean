import Verif.Lemmas.Endless
import Verif.Props.RuleText
import Verif.Props.Act
import Verif.Props.ActPrint
import Verif.Props.MpText

/-! # Lemmas: what is read from texts is never printed for ever -/

set_option linter.unusedSimpArgs false

namespace Ofpstr
open Spec

/-- Nothing, or an action with its true length. -/
def TrueAct (b : Bytes) : Prop := b = [] ∨ ∃ t, ActHead t b

theorem trueAct_read {s : Str} {b : Bytes} {l : Nat} (h : ActLen s b l) : TrueAct b := by
  obtain ⟨r, h1, h2⟩ := h
  rcases C27_length_true_partial s b l ((C69_action s b l).2 ⟨r, h1, h2⟩) with h | ⟨t, h, _⟩
  · exact Or.inl h
  · exact Or.inr ⟨t, h⟩

theorem lenWalk_cons {b r : Bytes} (hb : TrueAct b) (hr : LenWalk r) : LenWalk (b ++ r) := by
  rcases hb with rfl | ⟨t, h1, h2, body, h3⟩
  · exact hr
  · have h4 : 4 ≤ b.length := by
      have := congrArg List.length h3
      simp only [List.length_append, u16_length] at this
      omega
    have hl : lenField (b ++ r) = b.length := by
      rw [h3, List.append_assoc, List.append_assoc, lenField_at t _ h2, ← h3]
    by_cases h5 : (b ++ r).length ≤ 4
    · exact .done _ h5
    · refine .step _ (by omega) (by omega) ?_
      rw [hl, List.drop_left' rfl]
      exact hr

theorem lenWalk_one {b : Bytes} (hb : TrueAct b) : LenWalk b := by
  have := lenWalk_cons hb (.done [] (by simp))
  simpa using this

theorem acts_end {b : Bytes} (h : LenWalk b) : ¬ ActionsHang b := fun hh =>
  ends_act2str b h ((C77_actions_error b _).2 ((hang_actions b).2 hh))

theorem insts_end {b : Bytes} (h : InstWalk b) : ¬ InstsHang b := fun hh =>
  ends_inst2str b h ((C78_instructions_error b _).2 ((hang_insts b).2 hh))

theorem words_true {ws : List Word} {s r : Str} (h : ReadsWords OxmLen ActLen ws s r) : ∀ b, Word.act b ∈ ws → TrueAct b := by
  induction h with
  | nil => intro b hb; simp at hb
  | cons s h name t w u ws r h1 h2 h3 h4 h5 ih =>
    intro b hb
    rcases List.mem_cons.1 hb with rfl | hb
    · cases h4 with
      | act name s b l _ h _ => exact trueAct_read h
    · exact ih b hb

theorem leading_walk (ws : List Word) (h : ∀ b, Word.act b ∈ ws → TrueAct b) : LenWalk (leading ws) := by
  induction ws with
  | nil => exact .done _ (by simp [leading])
  | cons w ws ih =>
    cases w with
    | act b => exact lenWalk_cons (h b (by simp)) (ih fun b hb => h b (by simp [hb]))
    | _ => exact .done _ (by simp [leading])

/-- The actions of an instruction can be walked through. -/
def Inst.Walks : Inst → Prop
  | .write a => LenWalk a
  | .apply a => LenWalk a
  | _ => True

theorem insts_walk_each (ws : List Word) (h : ∀ b, Word.act b ∈ ws → TrueAct b) : ∀ i ∈ instsOf ws, Inst.Walks i := by
  induction ws with
  | nil => intro i hi; simp [instsOf] at hi
  | cons w ws ih =>
    have ih := ih fun b hb => h b (by simp [hb])
    have hw : LenWalk (leading ws) := leading_walk ws fun b hb => h b (by simp [hb])
    intro i hi
    cases w <;> simp only [instsOf, List.mem_cons] at hi <;>
      first
        | exact ih i hi
        | (rcases hi with rfl | hi
           · first | trivial | exact hw
           · exact ih i hi)

theorem inst_split (i : Inst) (hf : i.Fits) : ∃ k body, i.wire = u16 k ++ (u16 i.wire.length ++ body) ∧ k < 65536 ∧
    8 ≤ i.wire.length ∧ i.wire.length < 65536 ∧
    (Inst.Walks i → k = 3 ∨ k = 4 → LenWalk (i.wire.drop 8)) := by
  cases i with
  | goto n => exact ⟨1, _, rfl, by omega, by simp [Inst.wire, u16_length, u8_length, pad], by simp [Inst.wire, u16_length, u8_length, pad], by omega⟩
  | metadata n m => exact ⟨2, _, rfl, by omega, by simp [Inst.wire, u16_length, u64_length, pad], by simp [Inst.wire, u16_length, u64_length, pad], by omega⟩
  | write a =>
    have hl : (Inst.write a).wire.length = 8 + a.length := by simp [Inst.wire, u16_length, pad]; omega
    have hf : 8 + a.length < 65536 := hf
    refine ⟨3, pad 4 ++ a, by rw [hl]; rfl, by omega, by omega, by omega, fun hw _ => ?_⟩
    have : (Inst.write a).wire = (u16 3 ++ (u16 (8 + a.length) ++ pad 4)) ++ a := by simp [Inst.wire]
    rw [this, List.drop_left' (by simp [u16_length, pad])]
    exact hw
  | apply a =>
    have hl : (Inst.apply a).wire.length = 8 + a.length := by simp [Inst.wire, u16_length, pad]; omega
    have hf : 8 + a.length < 65536 := hf
    refine ⟨4, pad 4 ++ a, by rw [hl]; rfl, by omega, by omega, by omega, fun hw _ => ?_⟩
    have : (Inst.apply a).wire = (u16 4 ++ (u16 (8 + a.length) ++ pad 4)) ++ a := by simp [Inst.wire]
    rw [this, List.drop_left' (by simp [u16_length, pad])]
    exact hw
  | clear => exact ⟨5, _, rfl, by omega, by decide, by decide, by omega⟩
  | meter n => exact ⟨6, _, rfl, by omega, by simp [Inst.wire, u16_length, u32_length], by simp [Inst.wire, u16_length, u32_length], by omega⟩

theorem instWalk_wires (is : List Inst) (hf : ∀ i ∈ is, i.Fits) (hw : ∀ i ∈ is, Inst.Walks i) : InstWalk (is.flatMap Inst.wire) := by
  induction is with
  | nil => exact .done _ (by simp)
  | cons i is ih =>
    have ih := ih (fun i hi => hf i (by simp [hi])) (fun i hi => hw i (by simp [hi]))
    obtain ⟨k, body, h1, h2, h3, h4, h5⟩ := inst_split i (hf i (by simp))
    rw [List.flatMap_cons]
    generalize is.flatMap Inst.wire = r at ih ⊢
    have hl : lenField (i.wire ++ r) = i.wire.length := by
      rw [h1, List.append_assoc, List.append_assoc, lenField_at k _ h4, ← h1]
    have ht : typeField (i.wire ++ r) = k := by
      rw [uAt0_type _ (by rw [List.length_append]; omega), h1, List.append_assoc, List.append_assoc]
      uat
    refine .step _ (by rw [List.length_append]; omega) (by omega) ?_ ?_
    · rw [ht, hl, List.take_left' rfl]
      exact h5 (hw i (by simp))
    · rw [hl, List.drop_left' rfl]
      exact ih

theorem roundUp8_align (n : Nat) : roundUp8 n = align8 n := by
  unfold roundUp8 align8
  rfl

theorem flow_ends {s : Str} {c x : Int} {ws : List Word} (h : RuleText s ws) (hf : FlowFits c x ws) : ¬ ModHang (flowOf c x ws) := by
  rintro ⟨h1, h2, h3, h4⟩
  obtain ⟨f1, f2, f3⟩ := hf
  have hlen : (flowOf c x ws).length = 8 + ((headOf c x ws).body (oxmOf ws) (instBytes ws)).length := by
    simp [flowOf, FlowHead.wire, message, u8_length, u16_length, u32_length]
    omega
  have hn := flowWire_nums (headOf c x ws) f1 (oxmOf ws) (instBytes ws) (by change (flowOf c x ws).length < 65536; omega)
  have hs := (flowWire_slices (headOf c x ws) (oxmOf ws) (instBytes ws)).2
  obtain ⟨n1, -, -, -, -, -, -, -, -, -, -, -, -, -, n2⟩ := hn
  change uAt (flowOf c x ws) 2 2 = (flowOf c x ws).length at n1
  change uAt (flowOf c x ws) 50 2 = _ at n2
  change slice (flowOf c x ws) _ (flowOf c x ws).length = _ at hs
  rw [word16_uAt _ _ (by omega), word16_uAt _ _ (by omega), n1, n2, roundUp8_align] at h4
  unfold slice at hs
  rw [hs] at h4
  exact insts_end (instWalk_wires _ f2 (insts_walk_each ws (words_true h.1))) h4

/-! ## Groups -/

theorem bucket_true {ws : List BWord} {s r : Str} (h : BucketText ActLen ws s r) : ∀ b, BWord.act b ∈ ws → TrueAct b := by
  induction h with
  | nil => intro b hb; simp at hb
  | cons s w u ws r h1 h2 h3 ih =>
    intro b hb
    rcases List.mem_cons.1 hb with rfl | hb
    · cases h2 with
      | act h name t b l h1 h2 h3 h4 h => exact trueAct_read (by assumption)
    · exact ih b hb

theorem buckets_true {bs : List (List BWord)} {s : Str} (h : Buckets ActLen bs s) : ∀ ws ∈ bs, ∀ b, BWord.act b ∈ ws → TrueAct b := by
  induction h with
  | nil => intro ws hws; simp at hws
  | skip s h name r bs _ _ _ _ _ ih => exact ih
  | bucket s ws u bs _ h _ ih =>
    intro ws' hws
    rcases List.mem_cons.1 hws with rfl | hws
    · exact bucket_true h
    · exact ih ws' hws

theorem actsOf_walk (ws : List BWord) (h : ∀ b, BWord.act b ∈ ws → TrueAct b) : LenWalk (actsOf ws) := by
  unfold actsOf
  induction ws with
  | nil => exact .done _ (by simp)
  | cons w ws ih =>
    have ih := ih fun b hb => h b (by simp [hb])
    rw [List.flatMap_cons]
    cases w with
    | act b => exact lenWalk_cons (h b (by simp)) ih
    | _ => simpa [BWord.actBytes] using ih

theorem bucketOf_head (type : Nat) (ws : List BWord) (hf : BucketFits type ws) (r : Bytes) :
    word16 (bucketOf type ws ++ r) 0 = (bucketOf type ws).length ∧ (bucketOf type ws).drop 16 = actsOf ws ∧
    16 ≤ (bucketOf type ws).length := by
  have hl : (bucketOf type ws).length = 16 + (actsOf ws).length := by
    simp [bucketOf, bucketWire, u16_length, u32_length, pad]; omega
  have hf := hf.1
  refine ⟨?_, ?_, by omega⟩
  · rw [hl, bucketOf, bucketWire, List.append_assoc, word16_at _ hf]
  · have : bucketOf type ws = (u16 (16 + (actsOf ws).length) ++ (u16 (weightOf type ws).toNat ++ (u32 (portOf ws).toNat ++
      (u32 (groupOf ws).toNat ++ pad 4)))) ++ actsOf ws := by simp [bucketOf, bucketWire]
    rw [this, List.drop_left' (by simp [u16_length, u32_length, pad])]

theorem buckets_end (type least : Nat) (bs : List (List BWord)) (hl : 0 < least) (hf : ∀ ws ∈ bs, BucketFits type ws)
    (ht : ∀ ws ∈ bs, ∀ b, BWord.act b ∈ ws → TrueAct b) : ¬ BucketsHang type least (bs.flatMap (bucketOf type)) := by
  induction bs with
  | nil => exact buckets_short (by simpa using hl)
  | cons ws bs ih =>
    have ih := ih (fun w hw => hf w (by simp [hw])) (fun w hw => ht w (by simp [hw]))
    obtain ⟨h1, h2, h3⟩ := bucketOf_head type ws (hf ws (by simp)) (bs.flatMap (bucketOf type))
    rw [List.flatMap_cons]
    rintro ⟨c, hc, h4, h5⟩
    cases hc with
    | here =>
      rw [h1, List.take_left' rfl, h2] at h5
      exact acts_end (actsOf_walk ws (ht ws (by simp))) h5
    | next _ _ h6 h7 h8 h9 =>
      rw [h1, List.drop_left' rfl] at h9
      exact ih ⟨c, h9, h4, h5⟩

theorem group_ends {s : Str} {c x : Int} {gs : List GWord} {bs : List (List BWord)} (h : GroupRule s gs bs)
    (hf : GroupFits c x gs bs) : ¬ GroupModHang (groupMod c x gs bs) := by
  rintro ⟨h1, h2, h3⟩
  obtain ⟨u, hu, hb⟩ := h
  obtain ⟨f1, f2, f3, f4, f5⟩ := hf
  have htype : groupType gs < 4 := groupType_lt (headText_type hu)
  obtain ⟨-, -, -, n1, -, hd⟩ := groupWire_nums x.toNat c.toNat (groupType gs) (groupId gs).toNat (bs.flatMap (bucketOf (groupType gs)))
    (by have := f1.2; have := f1.1; simp only [Nat.reducePow] at *; omega)
    (by have := f2.2; have := f2.1; simp only [Nat.reducePow] at *; omega) (by omega)
    (by have := f3.2; have := f3.1; simp only [Nat.reducePow] at *; omega)
  have hd : (groupMod c x gs bs).drop 16 = bs.flatMap (bucketOf (groupType gs)) := hd
  have hb10 : ((groupMod c x gs bs).getD 10 0).toNat = groupType gs := by
    rw [byte_uAt _ _ (by omega)]
    exact n1
  rw [hd, hb10] at h3
  exact buckets_end _ 17 bs (by omega) f4 (buckets_true hb) h3

/-! ## Multipart messages -/

/-- Going through entries that say their true length: a place that is reached and has bytes is one of them. -/
theorem reach_entry {least : Nat} {P : Bytes → Prop} (hl : 0 < least) (es : List Bytes) (c : Bytes)
    (he : ∀ e ∈ es, ∀ r, word16 (e ++ r) 0 = e.length) (h : Reach least (word16 · 0) P es.flatten c) (hc : least ≤ c.length) :
    ∃ e ∈ es, ∃ r, c = e ++ r := by
  induction es with
  | nil =>
    rw [reach_nil h (by simpa using hl)] at hc
    simp at hc
    omega
  | cons e es ih =>
    rw [List.flatten_cons] at h
    cases h with
    | here => exact ⟨e, by simp, _, rfl⟩
    | next _ _ h1 h2 h3 h4 =>
      rw [he e (by simp), List.drop_left' rfl] at h4
      obtain ⟨e', h5, r, h6⟩ := ih (fun e he' => he e (by simp [he'])) h4
      exact ⟨e', by simp [h5], r, h6⟩

/-- A message that says its true length. -/
theorem msgs_one {P : Bytes → List Str → Prop} {H : Bytes → Prop} (hH : ∀ b, H b → 16 ≤ b.length) (m : Bytes)
    (hm : lenField m = m.length) (h : MsgsHang P H m) : H m := by
  obtain ⟨c, hc, h⟩ := h
  cases hc with
  | here => rwa [hm, List.take_of_length_le (Nat.le_refl _)] at h
  | next _ _ h1 h2 h3 h4 =>
    rw [hm, List.drop_eq_nil_of_le (Nat.le_refl _)] at h4
    rw [reach_nil h4 (by simp)] at h
    exact absurd (hH _ h) (by simp)

theorem mp_facts (type xid : Int) (k : Nat) (B : Bytes) (hf : MpFits type xid B) (hk : k < 65536) :
    let m := mpWire type.toNat xid.toNat k 0 B
    lenField m = m.length ∧ word16 m 2 = 16 + B.length ∧ (m.getD 1 0).toNat = type.toNat ∧ m.drop 16 = B := by
  intro m
  obtain ⟨f1, f2, f3⟩ := hf
  have hl : m.length = 16 + B.length := mpWire_length _ _ _ _ _
  obtain ⟨n1, n2, n3, n4⟩ := mpWire_nums type.toNat xid.toNat k 0 B []
    (by have := f1.2; have := f1.1; simp only [Nat.reducePow] at *; omega)
    (by have := f2.2; have := f2.1; simp only [Nat.reducePow] at *; omega) (by simpa using hk) f3
  rw [List.append_nil] at n1 n2
  refine ⟨?_, ?_, ?_, n4⟩
  · rw [lenField_uAt _ (by omega), hl]; exact n2
  · rw [word16_uAt _ _ (by omega)]; exact n2
  · rw [byte_uAt _ _ (by omega)]; exact n1

theorem reply_long {α : Type} {kind least : Nat} {P : Bytes → α → Prop} {H : Bytes → Prop} {b : Bytes}
    (h : ReplyHang kind least P H b) : 16 ≤ b.length := h.1

/-- A reply of entries that say their true length and are not printed for ever. -/
theorem reply_ends {α : Type} {P : Bytes → α → Prop} {Q : Bytes → List Str → Prop} {H : Bytes → Prop} (kind least : Nat) (hl : 0 < least)
    (hk : kind < 65536) (type xid : Int) (es : List Bytes) (hf : MpFits type xid es.flatten)
    (he : type = 19 → ∀ e ∈ es, ∀ r, word16 (e ++ r) 0 = e.length ∧ ¬ H (e ++ r)) :
    ¬ MsgsHang Q (ReplyHang kind least P H) (mpWire type.toNat xid.toNat kind 0 es.flatten) := by
  intro h
  obtain ⟨h1, h2, h3, h4⟩ := mp_facts type xid kind es.flatten hf hk
  obtain ⟨-, g2, -, c, g4, g5, g6⟩ := msgs_one (fun _ h => reply_long h) _ h1 h
  have ht : type = 19 := by
    rw [g2] at h3
    have := hf.1.1
    have h19 : (19 : UInt8).toNat = 19 := rfl
    omega
  have he := he ht
  rw [h2, h4, List.take_of_length_le (by omega)] at g4
  obtain ⟨e, h5, r, rfl⟩ := reach_entry hl es c (fun e h r => (he e h r).1) g4 g5
  exact (he e h5 r).2 g6

theorem stat_cut (l : List (Str × Int)) (ws : List Word) (h : 48 + (statTail ws).length < 65536) (r : Bytes) :
    word16 (statOf l ws ++ r) 0 = (statOf l ws).length ∧ word16 (statOf l ws ++ r) 50 = 4 + (oxmOf ws).length ∧
    (statOf l ws).drop (48 + roundUp8 (4 + (oxmOf ws).length)) = instBytes ws := by
  have hF : ∃ F : Bytes, F.length = 46 ∧ statOf l ws = u16 (48 + (statTail ws).length) ++ (F ++ (u16 1 ++ (u16 (4 + (oxmOf ws).length) ++
      (oxmOf ws ++ (fill (4 + (oxmOf ws).length) ++ instBytes ws))))) := by
    refine ⟨u8 (keyOf .table ws).toNat ++ (pad 1 ++ (u32 (countOf t!"duration_sec" l).toNat ++
      (u32 (countOf t!"duration_nsec" l).toNat ++ (u16 (keyOf .priority ws).toNat ++ (u16 (keyOf .idle ws).toNat ++
      (u16 (keyOf .hard ws).toNat ++ (u16 (flagsOf ws) ++ (pad 4 ++ (u64 ((lastOf Word.cookieArg ws).getD 0).toNat ++
      (u64 (countOf t!"packet_count" l).toNat ++ u64 (countOf t!"byte_count" l).toNat)))))))))), ?_, ?_⟩
    · simp only [List.length_append, u8_length, u16_length, u32_length, u64_length, pad_length]
    · unfold statOf
      generalize 48 + (statTail ws).length = N
      simp only [statTail, matchWire, List.append_assoc]
  obtain ⟨F, hF, he⟩ := hF
  have hfl := fill_length (4 + (oxmOf ws).length)
  have ha := align8_facts (4 + (oxmOf ws).length)
  have hlen : (statOf l ws).length = 48 + (statTail ws).length := by
    simp only [statOf, List.length_append, u8_length, u16_length, u32_length, u64_length, pad_length]
    omega
  have ht : (statTail ws).length = 4 + (oxmOf ws).length + (fill (4 + (oxmOf ws).length)).length + (instBytes ws).length := by
    simp only [statTail, matchWire, List.length_append, u16_length]
    omega
  refine ⟨?_, ?_, ?_⟩
  · rw [hlen, he, List.append_assoc, word16_at _ h]
  · rw [he, show (u16 (48 + (statTail ws).length) ++ (F ++ (u16 1 ++ (u16 (4 + (oxmOf ws).length) ++
      (oxmOf ws ++ (fill (4 + (oxmOf ws).length) ++ instBytes ws)))))) ++ r = (u16 (48 + (statTail ws).length) ++ (F ++ u16 1)) ++
      (u16 (4 + (oxmOf ws).length) ++ (oxmOf ws ++ (fill (4 + (oxmOf ws).length) ++ (instBytes ws ++ r)))) by simp,
      word16_skip 50 _ _ (by simp [u16_length, hF]), word16_at _ (by omega)]
  · rw [he, show u16 (48 + (statTail ws).length) ++ (F ++ (u16 1 ++ (u16 (4 + (oxmOf ws).length) ++
      (oxmOf ws ++ (fill (4 + (oxmOf ws).length) ++ instBytes ws))))) = (u16 (48 + (statTail ws).length) ++ (F ++ (u16 1 ++
      (u16 (4 + (oxmOf ws).length) ++ (oxmOf ws ++ fill (4 + (oxmOf ws).length)))))) ++ instBytes ws by simp]
    refine List.drop_left' ?_
    rw [roundUp8_align]
    simp only [List.length_append, u16_length, hF]
    omega

theorem stat_ends (l : List (Str × Int)) (ws : List Word) (h : 48 + (statTail ws).length < 65536) {s : Str} (hr : RuleText s ws)
    (hf : ∀ i ∈ instsOf ws, i.Fits) (r : Bytes) : ¬ FlowStatHang (statOf l ws ++ r) := by
  obtain ⟨h1, h2, h3⟩ := stat_cut l ws h r
  have hlen : (statOf l ws).length = 48 + (statTail ws).length := by
    simp only [statOf, List.length_append, u8_length, u16_length, u32_length, u64_length, pad_length]
    omega
  rintro ⟨-, -, h4 | h4⟩
  · omega
  · rw [h1, h2, List.take_left' rfl, h3] at h4
    exact insts_end (instWalk_wires _ hf (insts_walk_each ws (words_true hr.1))) h4

theorem flow_text_ends (txt : Str) (type xid : Int) (m : Bytes) (h : text2mpflow txt type xid = .ok m) : ¬ FlowStatsHang m := by
  obtain ⟨lines, es, h1, h2, h3, h4, rfl⟩ := (C71_flow txt type xid m).1 h
  rw [List.flatMap_def] at h4 ⊢
  refine reply_ends 1 56 (by omega) (by omega) type xid _ h4 ?_
  rintro rfl b hb r
  obtain ⟨e, he, rfl⟩ := List.mem_map.1 hb
  have hlen : (lineOf 19 e).length ≤ (es.map (lineOf 19)).flatten.length := by
    rw [List.length_flatten]
    exact List.single_le_sum (by simp) _ (List.mem_map_of_mem hb)
  have hl : lineOf 19 e = statOf e.1 e.2 := rfl
  have hs : 48 + (statTail e.2).length < 65536 := by
    have := h4.2.2
    have hlen' : (statOf e.1 e.2).length = 48 + (statTail e.2).length := by
      simp only [statOf, List.length_append, u8_length, u16_length, u32_length, u64_length, pad_length]
      omega
    rw [hl] at hlen
    omega
  obtain ⟨s, hs'⟩ : ∃ s, StatLine s e := by
    clear h3 h4 hlen hb h h1
    induction h2 with
    | nil => simp at he
    | cons hab _ ih =>
      rcases List.mem_cons.1 he with rfl | he
      · exact ⟨_, hab⟩
      · exact ih he
  obtain ⟨u, _, hr⟩ := hs'
  rw [hl]
  exact ⟨(stat_cut e.1 e.2 hs r).1, stat_ends e.1 e.2 hs hr (h3 e he).1 r⟩

theorem bucketsD_true {bs : List (List BWord)} {s : Str} (h : BucketsD bs s) : ∀ ws ∈ bs, ∀ b, BWord.act b ∈ ws → TrueAct b := by
  induction h with
  | nil => intro ws hws; simp at hws
  | mark s h r bs _ _ _ ih => exact ih
  | bucket s ws u bs _ h _ ih =>
    intro ws' hws
    rcases List.mem_cons.1 hws with rfl | hws
    · exact bucket_true h
    · exact ih ws' hws
  | junk => intro ws hws; simp at hws

theorem desc_text_ends (txt : Str) (type xid : Int) (m : Bytes) (h : text2mpgroupdesc txt type xid = .ok m) : ¬ DescsHang m := by
  by_cases ht : type = 19
  · subst ht
    obtain ⟨lines, es, h1, h2, h3, h4, rfl⟩ := (C71_desc txt xid m).1 h
    rw [List.flatMap_def] at h4 ⊢
    refine reply_ends 7 8 (by omega) (by omega) 19 xid _ h4 ?_
    rintro - b hb r
    obtain ⟨e, he, rfl⟩ := List.mem_map.1 hb
    have hlen : (descOf e).length ≤ (es.map descOf).flatten.length := by
      rw [List.length_flatten]
      exact List.single_le_sum (by simp) _ (List.mem_map_of_mem hb)
    have hs : (descOf e).length < 65536 := by
      have := h4.2.2
      omega
    obtain ⟨s, u, hs', hb'⟩ : ∃ s, DescLine s e := by
      clear h3 h4 hlen hb h h1
      induction h2 with
      | nil => simp at he
      | cons hab _ ih =>
        rcases List.mem_cons.1 he with rfl | he
        · exact ⟨_, hab⟩
        · exact ih he
    have htype := groupType_lt (headD_type hs')
    have hB := buckets_end (groupType e.1) 16 e.2 (by omega) (h3 e he).2 (bucketsD_true hb')
    unfold descOf at hs ⊢
    generalize hg : e.2.flatMap (bucketOf (groupType e.1)) = B at *
    have hl : (u16 (8 + B.length) ++ (u8 (groupType e.1) ++ (pad 1 ++ (u32 (lineGroup e.1).toNat ++ B)))).length = 8 + B.length := by
      simp only [List.length_append, u8_length, u16_length, u32_length, pad_length]
      omega
    rw [hl] at hs ⊢
    rw [List.append_assoc]
    refine ⟨word16_at _ hs _, ?_⟩
    rintro ⟨-, g⟩
    rw [word16_at _ hs] at g
    have hd : ((u16 (8 + B.length) ++ ((u8 (groupType e.1) ++ (pad 1 ++ (u32 (lineGroup e.1).toNat ++ B))) ++ r)).drop 8).take
        (8 + B.length - 8) = B := by
      rw [show u16 (8 + B.length) ++ ((u8 (groupType e.1) ++ (pad 1 ++ (u32 (lineGroup e.1).toNat ++ B))) ++ r) =
        (u16 (8 + B.length) ++ (u8 (groupType e.1) ++ (pad 1 ++ u32 (lineGroup e.1).toNat))) ++ (B ++ r) by simp,
        List.drop_left' (by simp [u8_length, u16_length, u32_length, pad]), List.take_left' (by omega)]
    have hty : ((u16 (8 + B.length) ++ ((u8 (groupType e.1) ++ (pad 1 ++ (u32 (lineGroup e.1).toNat ++ B))) ++ r)).getD 2 0).toNat =
        groupType e.1 := by
      have hb8 : u8 (groupType e.1) = [UInt8.ofNat (groupType e.1)] := by
        generalize groupType e.1 = k at htype
        rcases (by omega : k = 0 ∨ k = 1 ∨ k = 2 ∨ k = 3) with rfl | rfl | rfl | rfl <;> rfl
      rw [List.getD_eq_getElem?_getD, List.getElem?_append_right (by simp [u16_length]), hb8]
      simp [u16_length]
      omega
    rw [hd, hty] at g
    exact hB g
  · obtain ⟨h1, rfl⟩ := (C71_desc_request txt type xid ht m).1 h
    exact reply_ends 7 8 (by omega) (by omega) type xid [] h1 (fun h => absurd h ht)

end Ofpstr
