import Verif.Lemmas.MpLines
import Verif.Lemmas.Order

/-!
# Flow statistics: printing and reading back
-/

namespace Ofpstr
open Spec

set_option linter.unusedSimpArgs false

/-! ## The items of an entry -/

/-- The numbers of an entry that are printed as in a flow-mod. -/
def statHead (e : FlowStat) : FlowHead := ⟨0, 0, e.cookie, 0, e.table, e.idle, e.hard, e.priority, 0xffffffff, 0, 0, e.flags⟩

theorem statHead_fits (e : FlowStat) (hv : e.Valid) : (statHead e).Fits := by
  obtain ⟨h1, h2, h3, h4, h5, h6, h7, h8, h9, h10, h11, h12, h13⟩ := hv
  exact ⟨by show FitsIn 4 (0 : Int); decide, by show FitsIn 1 (0 : Int); decide, fitsIn_cast h8, by show FitsIn 8 (0 : Int); decide, fitsIn_cast h1, fitsIn_cast h5, fitsIn_cast h6,
    fitsIn_cast h4, by show FitsIn 4 (0xffffffff : Int); decide, by show FitsIn 4 (0 : Int); decide,
    by show FitsIn 4 (0 : Int); decide, fitsIn_cast h7⟩

/-- The items before the instructions. -/
noncomputable def statItems (e : FlowStat) : List (Word × Str) :=
  headItems (defaults 0 0) (statHead e) ++ e.mtch.map fun t => (.oxm t.wire, tlvText t)

noncomputable def statTexts (e : FlowStat) : List Str := (statItems e).map (·.2) ++ e.insts.flatMap instTexts

/-- The printed counters. -/
def statCnts (e : FlowStat) : List (CKey × Nat) :=
  cItem .pk e.packets ++ (cItem .by e.bytes ++ (cItem .sec e.sec ++ cItem .nsec e.nsec))

/-- The line of an entry. -/
noncomputable def statRow (e : FlowStat) : Str :=
  joinStr t!" " (([(statCnts e).map cText, statTexts e].filter fun x => !x.isEmpty).map commaList)

theorem emitF_self (n : Nat) (f : Nat → Str) : emitF (some n) (some n) f = [] := by
  unfold emitF; simp

theorem stat_fixed (e : FlowStat) (hv : e.Valid) :
    fixedText { cookie := some 0, table := some 0, priority := some 0x8000, idleTimeout := some 0, hardTimeout := some 0, flags := some 0 }
      { cookie := some e.cookie, table := some e.table, priority := some e.priority, idleTimeout := some e.idle, hardTimeout := some e.hard, flags := some e.flags } =
    (headItems (defaults 0 0) (statHead e)).map (·.2) := by
  have h := fixedText_head (statHead e) (statHead_fits e hv) 0
  have : (statHead e).command = 0 := rfl
  rw [this] at h
  rw [← h]
  have e0 : modDefault 0 = ⟨some 0, some 0, some 0, some 0x8000, some 0xffffffff, some 0, some 0, some 0, some 0, some 0⟩ := by decide
  have e1 : headFixed (statHead e) = ⟨some e.cookie, some 0, some e.table, some e.priority, some 0xffffffff, some 0, some 0, some e.idle, some e.hard, some e.flags⟩ := by
    simp [headFixed, statHead]
  rw [e0, e1]
  unfold fixedText
  dsimp only
  rw [emitF_self 0xffffffff, emitF_self 0 (fun n => t!"out_port=" ++ nameOrD ofpp n),
    emitF_self 0 (fun n => t!"out_group=" ++ nameOrD ofpg n)]
  rfl

/-! ## Printing -/

theorem tail_length (e : FlowStat) : e.tail.length =
    align8 (4 + (e.mtch.flatMap Tlv.wire).length) + (e.insts.flatMap fun i => i.inst.wire).length := by
  rw [FlowStat.tail, List.length_append, matchWire_length]

theorem flowStat_length (e : FlowStat) : e.wire.length = 48 + e.tail.length := by
  simp only [FlowStat.wire, List.length_append, u8_length, u16_length, u32_length, u64_length, pad_length]
  omega

theorem flowStat_nums (e : FlowStat) (hv : e.Valid) (rest : Bytes) :
    uAt (e.wire ++ rest) 0 2 = e.wire.length ∧ uAt (e.wire ++ rest) 2 1 = e.table ∧
    uAt (e.wire ++ rest) 4 4 = e.sec ∧ uAt (e.wire ++ rest) 8 4 = e.nsec ∧ uAt (e.wire ++ rest) 12 2 = e.priority ∧
    uAt (e.wire ++ rest) 14 2 = e.idle ∧ uAt (e.wire ++ rest) 16 2 = e.hard ∧ uAt (e.wire ++ rest) 18 2 = e.flags ∧
    uAt (e.wire ++ rest) 24 8 = e.cookie ∧ uAt (e.wire ++ rest) 32 8 = e.packets ∧ uAt (e.wire ++ rest) 40 8 = e.bytes ∧
    uAt (e.wire ++ rest) 48 2 = 1 ∧ uAt (e.wire ++ rest) 50 2 = 4 + (e.mtch.flatMap Tlv.wire).length := by
  obtain ⟨h1, h2, h3, h4, h5, h6, h7, h8, h9, h10, h11, h12, h13⟩ := hv
  have hL := flowStat_length e
  have hT := tail_length e
  have ha := align8_facts (4 + (e.mtch.flatMap Tlv.wire).length)
  rw [hL] at h13 ⊢
  unfold FlowStat.wire
  generalize hn : 48 + e.tail.length = n at *
  simp only [FlowStat.tail, matchWire, List.append_assoc]
  refine ⟨?_, ?_, ?_, ?_, ?_, ?_, ?_, ?_, ?_, ?_, ?_, ?_, ?_⟩
  all_goals try simp only [uAt_u8, uAt_u16, uAt_u32, uAt_u64, uAt_skip_pad, Nat.reduceLeDiff, Nat.reduceSub, Nat.sub_self,
    Nat.le_refl]
  · exact uAt_u16_here _ _ h13
  · exact uAt_u8_here _ _ (by omega)
  · exact uAt_u32_here _ _ h2
  · exact uAt_u32_here _ _ h3
  · exact uAt_u16_here _ _ h4
  · exact uAt_u16_here _ _ h5
  · exact uAt_u16_here _ _ h6
  · exact uAt_u16_here _ _ h7
  · exact uAt_u64_here _ _ h8
  · exact uAt_u64_here _ _ h9
  · exact uAt_u64_here _ _ h10
  · exact uAt_u16_here _ _ (by omega)
  · exact uAt_u16_here _ _ (by omega)

/-- The bytes of an entry before the match items. -/
def statFront (e : FlowStat) : Bytes :=
  u16 (48 + e.tail.length) ++ (u8 e.table ++ (pad 1 ++ (u32 e.sec ++ (u32 e.nsec ++ (u16 e.priority ++
  (u16 e.idle ++ (u16 e.hard ++ (u16 e.flags ++ (pad 4 ++ (u64 e.cookie ++ (u64 e.packets ++ (u64 e.bytes ++
  (u16 1 ++ u16 (4 + (e.mtch.flatMap Tlv.wire).length))))))))))))))

theorem statFront_length (e : FlowStat) : (statFront e).length = 52 := by
  simp only [statFront, List.length_append, u8_length, u16_length, u32_length, u64_length, pad_length]

theorem flowStat_front (e : FlowStat) : e.wire = statFront e ++ (e.mtch.flatMap Tlv.wire ++
    (fill (4 + (e.mtch.flatMap Tlv.wire).length) ++ e.insts.flatMap fun i => i.inst.wire)) := by
  unfold FlowStat.wire statFront
  generalize 48 + e.tail.length = n
  simp only [FlowStat.tail, matchWire, List.append_assoc]

theorem flowStat_slices (e : FlowStat) (rest : Bytes) :
    slice (e.wire ++ rest) 52 (52 + (4 + (e.mtch.flatMap Tlv.wire).length) - 4) = e.mtch.flatMap Tlv.wire ∧
    slice (e.wire ++ rest) (48 + align8 (4 + (e.mtch.flatMap Tlv.wire).length)) e.wire.length =
      e.insts.flatMap fun i => i.inst.wire := by
  have hL := flowStat_length e
  have hT := tail_length e
  have ha := align8_facts (4 + (e.mtch.flatMap Tlv.wire).length)
  have hfl := fill_length (4 + (e.mtch.flatMap Tlv.wire).length)
  have hF := statFront_length e
  rw [hL, hT, flowStat_front]
  clear hL hT
  generalize statFront e = F at *
  generalize e.mtch.flatMap Tlv.wire = oxm at *
  generalize (e.insts.flatMap fun i => i.inst.wire) = inst at *
  generalize fill (4 + oxm.length) = P at *
  generalize align8 (4 + oxm.length) = A at *
  constructor
  · rw [List.append_assoc, List.append_assoc]
    apply slice_middle
    · exact hF
    · omega
  · have : (F ++ (oxm ++ (P ++ inst))) ++ rest = (F ++ (oxm ++ P)) ++ (inst ++ rest) := by
      simp only [List.append_assoc]
    rw [this]
    apply slice_middle
    · simp only [List.length_append]; omega
    · simp only [List.length_append]; omega

theorem isEmpty_app (a b : List Str) : (a ++ b).isEmpty = (a.isEmpty && b.isEmpty) := by cases a <;> rfl

theorem optTok_empty {l : List Str} (h : ∀ t ∈ l, t ≠ []) : (optTok (commaList l)).isEmpty = l.isEmpty := by
  by_cases hl : l = []
  · subst hl; rfl
  · have := commaList_ne hl h
    unfold optTok
    rw [if_neg (by simpa using this)]
    cases l with
    | nil => exact absurd rfl hl
    | cons a l => rfl

theorem instTexts_ne (e : FlowStat) (hv : e.Valid) (hl : e.PartsLossless) : ∀ t ∈ e.insts.flatMap instTexts, t ≠ [] := by
  intro t ht
  obtain ⟨i, hi', ht⟩ := List.mem_flatMap.1 ht
  have hit := instTexts_text i (hv.2.2.2.2.2.2.2.2.2.2.2.1 i hi') (hl.2 i hi')
  obtain ⟨items, h1, h2, _⟩ := instText_words hit
  rw [← h1] at ht
  obtain ⟨e, he, rfl⟩ := List.mem_map.1 ht
  exact (h2 e he).1

theorem statText_row (e : FlowStat) (hv : e.Valid) (hl : e.PartsLossless) (rest : Bytes) :
    statText (e.wire ++ rest) = .ok (statRow e) := by
  obtain ⟨n1, n2, n3, n4, n5, n6, n7, n8, n9, n10, n11, n12, n13⟩ := flowStat_nums e hv rest
  obtain ⟨s1, s2⟩ := flowStat_slices e rest
  have htx : oxm2str (e.mtch.flatMap Tlv.wire) = .ok (commaList (e.mtch.map tlvText)) := by
    rw [← joinStr_commaList]
    exact (oxm_list e.mtch (fun t ht => ⟨hv.2.2.2.2.2.2.2.2.2.2.1 t ht, hl.1 t ht⟩)).1
  have hin := fInsts_trip e.insts hv.2.2.2.2.2.2.2.2.2.2.2.1 hl.2
  unfold statText
  dsimp only
  rw [n1, n2, n3, n4, n5, n6, n7, n8, n9, n10, n11, n12, n13, s1, s2, if_pos (by decide), htx, ok_bind, hin, ok_bind,
    stat_fixed e hv]
  have hne1 : ∀ t ∈ e.mtch.map tlvText, t ≠ [] := by
    intro t ht
    obtain ⟨x, _, rfl⟩ := List.mem_map.1 ht
    simp [tlvText]
  have hne2 := instTexts_ne e hv hl
  have hsame := sameText_append (sameText_opt hne1) (sameText_opt hne2)
    ((headItems (defaults 0 0) (statHead e)).map (·.2)) []
  simp only [List.append_nil] at hsame
  have hemp : ((headItems (defaults 0 0) (statHead e)).map (·.2) ++ (optTok (commaList (e.mtch.map tlvText)) ++
      optTok (commaList (e.insts.flatMap instTexts)))).isEmpty = (statTexts e).isEmpty := by
    unfold statTexts statItems
    simp only [List.map_append, List.map_map, List.append_assoc, isEmpty_app, optTok_empty hne1, optTok_empty hne2]
    simp only [List.isEmpty_map]
  have htexts : commaList ((headItems (defaults 0 0) (statHead e)).map (·.2) ++ (e.mtch.map tlvText ++
      e.insts.flatMap instTexts)) = commaList (statTexts e) := by
    unfold statTexts statItems
    simp only [List.map_append, List.map_map, List.append_assoc]
    rfl
  have hc : countTok t!"packet_count" e.packets ++ (countTok t!"byte_count" e.bytes ++
      (countTok t!"duration_sec" e.sec ++ countTok t!"duration_nsec" e.nsec)) = (statCnts e).map cText := by
    unfold statCnts
    simp only [List.map_append, ← countTok_item]
    rfl
  rw [hc]
  unfold statRow
  generalize (headItems (defaults 0 0) (statHead e)).map (·.2) ++ (optTok (commaList (e.mtch.map tlvText)) ++
      optTok (commaList (e.insts.flatMap instTexts))) = R at *
  rw [htexts] at hsame
  rw [show (joinStr t!"," : List Str → Str) = commaList from funext joinStr_commaList]
  congr 2
  simp only [List.filter_cons, List.filter_nil, hemp]
  split <;> split <;> simp [hsame]

theorem statsGo_list (l : List FlowStat) (hv : ∀ e ∈ l, e.Valid) (hl : ∀ e ∈ l, e.PartsLossless) (fuel : Nat)
    (hf : l.length < fuel) : statsGo fuel (l.flatMap FlowStat.wire) = .ok (l.map statRow) := by
  induction l generalizing fuel with
  | nil =>
    cases fuel with
    | zero => omega
    | succ f => rw [statsGo, if_pos (by decide)]; rfl
  | cons e l ih =>
    cases fuel with
    | zero => omega
    | succ f =>
      have hL := flowStat_length e
      have hT := tail_length e
      have ha := align8_facts (4 + (e.mtch.flatMap Tlv.wire).length)
      rw [List.flatMap_cons, statsGo, if_neg (by rw [List.length_append]; omega),
        statText_row e (hv e (by simp)) (hl e (by simp)), ok_bind, (flowStat_nums e (hv e (by simp)) _).1, List.drop_left,
        ih (fun x hx => hv x (List.mem_cons_of_mem _ hx)) (fun x hx => hl x (List.mem_cons_of_mem _ hx)) f (by simpa using hf),
        ok_bind]
      rfl

/-! ## Lines -/

theorem keyText_line {w : Word} {t : Str} (h : KeyText w t) : '\n' ∉ t := by
  cases h with
  | key k p n h => exact line_append (line_clean (keyName_clean k).1) (line_cons (by decide) (line_clean (keyArg_clean h).1))
  | cookie p n h => exact line_append (s := t!"cookie") (by decide) (line_cons (by decide) (line_clean (intSyntax_clean h).1))
  | cookieMask v m n w h1 h2 => exact line_append (s := t!"cookie") (by decide) (line_cons (by decide) (line_clean (slash_clean h1 h2)))
  | flag _ bit h =>
    have key : ∀ e ∈ flagWords, Clean e.1 := by decide
    exact line_clean (key _ h)

theorem instTexts_line (i : FInst) (hv : i.Valid) (hl : ∀ a ∈ i.actions, a.Lossless) : ∀ t ∈ instTexts i, '\n' ∉ t := by
  have acts : ∀ as : List Act, (∀ a ∈ as, a.Valid) → (∀ a ∈ as, a.Lossless) → ∀ t ∈ as.map actText, '\n' ∉ t := by
    intro as h1 h2 t ht
    obtain ⟨a, ha, rfl⟩ := List.mem_map.1 ht
    exact (actText_trip a (h1 a ha) (h2 a ha)).line
  have lx : ∀ n, '\n' ∉ fmtX 0 n := fun n => line_clean (intSyntax_clean (intSyntax_fmtX 0 n)).1
  intro t ht
  cases i with
  | goto n =>
    simp only [instTexts, List.mem_singleton] at ht
    subst ht
    exact line_append (by decide) (line_clean (fmtD_clean n))
  | metadata n m =>
    rw [instTexts.eq_def] at ht
    dsimp only at ht
    split at ht <;> rw [List.mem_singleton] at ht <;> subst ht
    · exact line_append (by decide) (lx n)
    · exact line_append (by decide) (line_append (lx n) (line_cons (by decide) (lx m)))
  | write as =>
    rcases List.mem_cons.1 ht with rfl | ht
    · decide
    · exact acts as hv.2.1 hl t ht
  | apply as =>
    rcases List.mem_cons.1 ht with rfl | ht
    · decide
    · exact acts as hv.2.1 hl t ht
  | clear =>
    simp only [instTexts, List.mem_singleton] at ht
    subst ht
    decide
  | meter n =>
    simp only [instTexts, List.mem_singleton] at ht
    subst ht
    exact line_append (by decide) (line_clean (fmtD_clean n))

theorem statTexts_line (e : FlowStat) (hv : e.Valid) (hl : e.PartsLossless) : ∀ t ∈ statTexts e, '\n' ∉ t := by
  intro t ht
  unfold statTexts statItems at ht
  rcases List.mem_append.1 ht with ht | ht
  · rw [List.map_append] at ht
    rcases List.mem_append.1 ht with ht | ht
    · obtain ⟨x, hx, rfl⟩ := List.mem_map.1 ht
      exact keyText_line (headItems_keys _ _ (statHead_fits e hv) x hx).2
    · rw [List.map_map] at ht
      obtain ⟨x, hx, rfl⟩ := List.mem_map.1 ht
      exact tlvText_line x (hv.2.2.2.2.2.2.2.2.2.2.1 x hx) (hl.1 x hx)
  · obtain ⟨i, hi, ht⟩ := List.mem_flatMap.1 ht
    exact instTexts_line i (hv.2.2.2.2.2.2.2.2.2.2.2.1 i hi) (hl.2 i hi) t ht

/-- A line is the counters, a separator and the other items. -/
theorem statRow_split (e : FlowStat) : ∃ h : Str, (∀ c ∈ h, Space c ∨ c = ',') ∧ '\n' ∉ h ∧ (statTexts e = [] → h = []) ∧
    (statCnts e ≠ [] → Boundary (h ++ commaList (statTexts e))) ∧
    statRow e = commaList ((statCnts e).map cText) ++ (h ++ commaList (statTexts e)) := by
  unfold statRow
  by_cases h1 : statCnts e = [] <;> by_cases h2 : statTexts e = []
  · exact ⟨[], by simp, by simp, by simp, fun h => absurd h1 h, by simp [h1, h2, joinStr, commaList]⟩
  · exact ⟨[], by simp, by simp, by simp, fun h => absurd h1 h, by simp [h1, h2, joinStr, commaList]⟩
  · exact ⟨[], by simp, by simp, by simp, fun _ => by rw [h2]; exact atEnd_nil, by simp [h1, h2, joinStr, commaList]⟩
  · exact ⟨[' '], by decide, by decide, fun h => absurd h h2, fun _ => atEnd_sep (by decide) _, by simp [h1, h2, joinStr]⟩

theorem statRow_line (e : FlowStat) (hv : e.Valid) (hl : e.PartsLossless) : '\n' ∉ statRow e := by
  obtain ⟨h, _, h1, _, _, h2⟩ := statRow_split e
  rw [h2]
  refine line_append (commaList_line _ ?_) (line_append h1 (commaList_line _ (statTexts_line e hv hl)))
  intro t ht
  obtain ⟨x, _, rfl⟩ := List.mem_map.1 ht
  exact cText_line x

/-! ## Reading counters -/

def statNames : List Str := [t!"packet_count", t!"byte_count", t!"duration_sec", t!"duration_nsec"]

theorem countersGo_stop (fuel : Nat) (c : Counters) (s : Str) (h : s = [] ∨ (getToken s).2.1 ∉ statNames) :
    countersGo (fuel + 1) c s = .ok (c, s) := by
  rw [countersGo]
  by_cases hs : s = []
  · rw [if_pos (by simp [hs])]
  · have h := h.resolve_left hs
    rw [if_neg (by simpa using hs)]
    rcases hg : getToken s with ⟨hd, name, t⟩
    rw [hg] at h
    simp only [statNames, List.mem_cons, List.not_mem_nil, or_false, not_or] at h
    dsimp only
    rw [if_neg (by simpa using h.1), if_neg (by simpa using h.2.1), if_neg (by simpa using h.2.2.1),
      if_neg (by simpa using h.2.2.2)]

theorem countersGo_word (e : CKey × Nat) (he : e.1 ≠ .ref) (c : Counters) {h r : Str} (hh : ∀ c ∈ h, Space c ∨ c = ',')
    (hr : Boundary r) (fuel : Nat) :
    countersGo (fuel + 1) c (h ++ (cText e ++ r)) = countersGo fuel (e.1.set e.2 c) r := by
  obtain ⟨h1, h2⟩ := cText_tok e hh hr
  have hne : (h ++ (cText e ++ r)).isEmpty = false := by
    have := cText_ne e
    rw [List.isEmpty_eq_false_iff]
    simp [this]
  rw [countersGo, hne, if_neg (by decide), h1]
  dsimp only
  rw [h2]
  obtain ⟨k, n⟩ := e
  cases k with
  | ref => exact absurd rfl he
  | pk => rfl
  | «by» => rfl
  | sec => rfl
  | nsec => rfl

theorem countersGo_words (l : List (CKey × Nat)) (hl : ∀ e ∈ l, e.1 ≠ .ref) (hn : l ≠ []) (c : Counters) {h r : Str}
    (hh : ∀ c ∈ h, Space c ∨ c = ',') (hr : Boundary r) (fuel : Nat)
    (hf : (h ++ (commaList (l.map cText) ++ r)).length < fuel) :
    ∃ fuel', r.length < fuel' ∧ countersGo fuel c (h ++ (commaList (l.map cText) ++ r)) = countersGo fuel' (setAll c l) r := by
  induction l generalizing c h fuel with
  | nil => exact absurd rfl hn
  | cons e l ih =>
    have hpos := List.length_pos_iff.2 (cText_ne e)
    cases fuel with
    | zero => omega
    | succ f =>
      by_cases hz : l = []
      · subst hz
        refine ⟨f, ?_, ?_⟩
        · simp only [List.map_cons, List.map_nil, commaList, List.length_append] at hf; omega
        · simp only [List.map_cons, List.map_nil, commaList]
          exact countersGo_word e (hl e (by simp)) c hh hr f
      · have e1 : commaList ((e :: l).map cText) ++ r = cText e ++ ([','] ++ (commaList (l.map cText) ++ r)) := by
          rw [List.map_cons, commaList_cons _ (by simpa using hz)]; simp
        rw [e1] at hf ⊢
        rw [countersGo_word e (hl e (by simp)) c hh (show Boundary ([','] ++ _) from atEnd_comma _)]
        exact ih (fun x hx => hl x (List.mem_cons_of_mem _ hx)) hz _ (h := [',']) (by decide) f (by
          simp only [List.length_append] at hf ⊢; omega)

/-- No word of a rule is a counter. -/
theorem reads_name {ws : List Word} {s : Str} (hr : ReadsWords oxmP actP ws s []) (hp : placeAfter .start ws ≠ none) :
    s = [] ∨ (getToken s).2.1 ∉ statNames := by
  cases hr with
  | nil => exact Or.inl rfl
  | cons s h name t w u ws r hs ht he hb _ =>
    right
    rw [(getToken_iff _ _ _ _).2 ht]
    dsimp only
    cases hb with
    | key k s op p n r => cases k <;> decide
    | cookie => decide
    | cookieMask => decide
    | flag _ bit _ h1 =>
      have key : ∀ e ∈ flagWords, e.1 ∉ statNames := by decide
      exact key _ h1
    | oxm _ _ b l h1 h2 h3 h4 =>
      intro hm
      have hc : ∀ n ∈ statNames, Clean n ∧ n ≠ [] := by decide
      obtain ⟨c1, c2⟩ := hc _ hm
      obtain ⟨f, hf, hn⟩ := oxm1_field c1.token c1.plainStart c2 (tok_boundary ht) h3
      have key : ∀ f ∈ fields, f.name ∉ statNames := by decide +kernel
      exact key f hf (hn ▸ hm)
    | goto _ _ _ _ _ _ h1 =>
      have key : ∀ n ∈ [t!"@goto", t!"@goto_table"], n ∉ statNames := by decide
      exact key _ h1
    | metadata _ _ _ _ _ _ h1 =>
      have key : ∀ n ∈ [t!"@metadata", t!"@write_metadata"], n ∉ statNames := by decide
      exact key _ h1
    | metadataMask _ _ _ _ _ _ _ _ h1 =>
      have key : ∀ n ∈ [t!"@metadata", t!"@write_metadata"], n ∉ statNames := by decide
      exact key _ h1
    | apply _ _ h1 =>
      have key : ∀ n ∈ [t!"@apply", t!"@apply_actions"], n ∉ statNames := by decide
      exact key _ h1
    | write _ _ h1 =>
      have key : ∀ n ∈ [t!"@write", t!"@write_actions"], n ∉ statNames := by decide
      exact key _ h1
    | clear _ _ h1 =>
      have key : ∀ n ∈ [t!"@clear", t!"@clear_actions"], n ∉ statNames := by decide
      exact key _ h1
    | meter => decide
    | act => exact absurd rfl hp

/-- Counters, then a rule. -/
theorem parseStat_words (l : List (CKey × Nat)) (hl : ∀ e ∈ l, e.1 ≠ .ref) {ws : List Word} {s : Str}
    (hr : ReadsWords oxmP actP ws s []) (hp : placeAfter .start ws ≠ none) (hb : l ≠ [] → Boundary s)
    (hfit : ∀ i ∈ instsOf ws, i.Fits) :
    parseStat (commaList (l.map cText) ++ s) = .ok (setAll {} l, infoAfter {} ws (instsOf ws)) := by
  have hd := str2dict_words hr hp
  rw [guard_pos hfit] at hd
  have hstop := reads_name hr hp
  have hgo : countersGo ((commaList (l.map cText) ++ s).length + 1) {} (commaList (l.map cText) ++ s) = .ok (setAll {} l, s) := by
    by_cases hn : l = []
    · subst hn
      exact countersGo_stop _ _ _ hstop
    · obtain ⟨f, h1, h2⟩ := countersGo_words l hl hn {} (h := []) (by simp) (hb hn)
        ((commaList (l.map cText) ++ s).length + 1) (by simp)
      rw [List.nil_append] at h2
      rw [h2]
      cases f with
      | zero => omega
      | succ f => exact countersGo_stop _ _ _ hstop
  rw [parseStat, hgo, ok_bind]
  dsimp only
  rw [hd, ok_bind]

/-! ## Reading an entry -/

theorem fold_cnts (e : FlowStat) : setAll {} (statCnts e) =
    { packetCount := optN e.packets, byteCount := optN e.bytes, durationSec := optN e.sec, durationNsec := optN e.nsec } := by
  unfold statCnts setAll
  by_cases h2 : e.packets = 0 <;> by_cases h3 : e.bytes = 0 <;>
    by_cases h4 : e.sec = 0 <;> by_cases h5 : e.nsec = 0 <;> simp [h2, h3, h4, h5, CKey.set, optN, cItem]

theorem statCnts_keys (e : FlowStat) : ∀ x ∈ statCnts e, x.1 ≠ .ref := by
  intro x hx
  unfold statCnts cItem at hx
  simp only [List.mem_append] at hx
  rcases hx with hx | hx | hx | hx <;> split at hx <;> simp at hx <;> subst hx <;> intro h <;> cases h

theorem statItems_words (e : FlowStat) (hv : e.Valid) (hl : e.PartsLossless) :
    ∀ x ∈ statItems e, StartWord x.1 ∧ IsWord oxmP actP x.1 x.2 := by
  intro x hx
  unfold statItems at hx
  rcases List.mem_append.1 hx with hx | hx
  · exact headItems_words _ _ (statHead_fits e hv) x hx
  · obtain ⟨t, ht, rfl⟩ := List.mem_map.1 hx
    exact ⟨trivial, isWord_tlv t (hv.2.2.2.2.2.2.2.2.2.2.1 t ht) (hl.1 t ht)⟩

theorem statItems_map (e : FlowStat) : (statItems e).map (·.1) =
    (headItems (defaults 0 0) (statHead e)).map (·.1) ++ e.mtch.map fun t => Word.oxm t.wire := by
  unfold statItems
  rw [List.map_append, List.map_map]; rfl

/-- The priority of flow-mods is not printed. -/
theorem stat_priority (e : FlowStat) (ws : List Word) (hw : ∀ w ∈ ws, ∃ b, w = .oxm b) :
    (lastOf (Word.keyArg .priority) ((headItems (defaults 0 0) (statHead e)).map (·.1) ++ ws)).getD 0 =
      ((if e.priority = 0x8000 then 0 else e.priority : Nat) : Int) := by
  obtain ⟨bs, hbs⟩ := flagItems_words (statHead e).flags.toNat
  rw [headItems_map, hbs]
  unfold lastOf
  rw [List.filterMap_append, List.filterMap_append, filterMap_none (l := ws), filterMap_none (l := bs.map Word.flag),
      List.append_nil, List.append_nil]
  · unfold headWords
    simp only [List.filterMap_append, cookie_keyArg, opt_self,
      ne_eq, reduceCtorEq, not_false_eq_true, opt_other, List.nil_append, List.append_nil]
    have : ((statHead e).priority = (defaults 0 0).priority) ↔ e.priority = 0x8000 := by
      show ((e.priority : Int) = 0x8000) ↔ _
      omega
    by_cases h : e.priority = 0x8000
    · rw [if_pos (this.2 h), if_pos h]; rfl
    · rw [if_neg (fun h' => h (this.1 h')), if_neg h]; rfl
  · intro w hw; obtain ⟨i, _, rfl⟩ := List.mem_map.1 hw; rfl
  · intro w hm; obtain ⟨b, rfl⟩ := hw w hm; rfl

/-- The bytes of the words of an entry. -/
theorem stat_body (e : FlowStat) (hv : e.Valid) (iw : List Word) (hiw : ∀ w ∈ iw, Word.isInst w)
    (hw5 : ∀ i, Word.flag i ∈ (statItems e).map (·.1) ++ iw → i < 5)
    (hi' : instsOf ((statItems e).map (·.1) ++ iw) = e.insts.map FInst.inst) :
    statBody 19 (setAll {} (statCnts e)) (infoAfter {} ((statItems e).map (·.1) ++ iw) (instsOf ((statItems e).map (·.1) ++ iw))) =
      .ok e.seen.wire := by
  have hox : ∀ w ∈ e.mtch.map fun t => Word.oxm t.wire, ∃ b, w = .oxm b := by
    intro w hw
    obtain ⟨t, _, rfl⟩ := List.mem_map.1 hw
    exact ⟨_, rfl⟩
  have hhead : headOf 0 0 ((statItems e).map (·.1) ++ iw) = { statHead e with flags := (statHead e).flags % 32 } := by
    rw [headOf_insts 0 0 _ _ hiw, statItems_map]
    exact headOf_items 0 0 (statHead e) rfl rfl (by show (0 : Int) ≤ e.flags; omega) _ hox
  have hpr : (lastOf (Word.keyArg .priority) ((statItems e).map (·.1) ++ iw)).getD 0 =
      ((if e.priority = 0x8000 then 0 else e.priority : Nat) : Int) := by
    rw [lastOf_insts _ (fun w hw => by cases w <;> first | rfl | exact absurd hw id) _ _ hiw, statItems_map]
    exact stat_priority e _ hox
  have hoxm : oxmOf ((statItems e).map (·.1) ++ iw) = e.mtch.flatMap Tlv.wire := by
    rw [oxmOf_insts _ _ hiw, statItems_map, oxmOf_items]
  have hfl := flagFold_eq hw5
  rw [hi', fold_cnts]
  generalize (statItems e).map (·.1) ++ iw = ws at *
  have v1 : (lastOf (Word.keyArg .table) ws).getD 0 = (e.table : Int) := congrArg FlowHead.table hhead
  have v2 : (lastOf (Word.keyArg .idle) ws).getD 0 = (e.idle : Int) := congrArg FlowHead.idle hhead
  have v3 : (lastOf (Word.keyArg .hard) ws).getD 0 = (e.hard : Int) := congrArg FlowHead.hard hhead
  have v4 : (lastOf Word.cookieArg ws).getD 0 = (e.cookie : Int) := congrArg FlowHead.cookie hhead
  have v5 : ((flagsOf ws : Nat) : Int) = (e.flags : Int) % 32 := congrArg FlowHead.flags hhead
  have v5' : flagsOf ws = e.flags % 32 := by omega
  rw [v5'] at hfl
  obtain ⟨h1, h2, h3, h4, h5, h6, h7, h8, h9, h10, h11, h12, h13⟩ := hv
  have hL := flowStat_length e
  have hT := tail_length e
  have ha := align8_facts (4 + (e.mtch.flatMap Tlv.wire).length)
  unfold infoAfter statBody
  dsimp only
  simp only [Option.or_none, List.nil_append]
  rw [hoxm, v1, v2, v3, v4, hfl, hpr, optN_getD, optN_getD, optN_getD, optN_getD, packMatch_fit _ (by omega), ok_bind,
    if_neg (by decide)]
  have ei : (e.insts.map FInst.inst).flatMap Inst.wire = e.insts.flatMap fun i => i.inst.wire := by
    rw [List.flatMap_map]
  rw [ei, matchWire_length, packAll_eq, if_pos (by
      intro x hx
      simp only [List.mem_cons, List.not_mem_nil, or_false] at hx
      rcases hx with rfl | rfl
      · exact (fitsIn2 (48 + align8 (4 + (e.mtch.flatMap Tlv.wire).length) + (e.insts.flatMap fun i => i.inst.wire).length)).2 (by omega)
      · exact fitsIn_cast h1), ok_bind, packAll_eq, if_pos (by
      intro x hx
      simp only [List.mem_cons, List.not_mem_nil, or_false] at hx
      rcases hx with rfl | rfl | rfl | rfl | rfl | rfl
      · exact fitsIn_cast h2
      · exact fitsIn_cast h3
      · refine fitsIn_cast ?_
        split
        · decide
        · exact h4
      · exact fitsIn_cast h5
      · exact fitsIn_cast h6
      · refine fitsIn_cast ?_
        exact Nat.lt_of_lt_of_le (Nat.mod_lt _ (by decide)) (show 32 ≤ 256 ^ 2 by decide)), ok_bind, packAll_eq, if_pos (by
      intro x hx
      simp only [List.mem_cons, List.not_mem_nil, or_false] at hx
      rcases hx with rfl | rfl | rfl
      · exact fitsIn_cast h8
      · exact fitsIn_cast h9
      · exact fitsIn_cast h10), ok_bind]
  have et : 48 + e.seen.tail.length = 48 + align8 (4 + (e.mtch.flatMap Tlv.wire).length) + (e.insts.flatMap fun i => i.inst.wire).length := by
    show 48 + e.tail.length = _
    omega
  rw [FlowStat.wire, et]
  have en : (48 + ((align8 (4 + (e.mtch.flatMap Tlv.wire).length) : Nat) : Int) + ((e.insts.flatMap fun i => i.inst.wire).length : Int)) =
      ((48 + align8 (4 + (e.mtch.flatMap Tlv.wire).length) + (e.insts.flatMap fun i => i.inst.wire).length : Nat) : Int) := by
    push_cast; ring
  rw [en]
  simp only [FlowStat.seen, FlowStat.tail, u8, u16, u32, u64, spec_be, List.flatMap_cons, List.flatMap_nil, List.append_nil, List.append_assoc,
    Int.toNat_natCast]
  rfl

theorem stat_reads (e : FlowStat) (hv : e.Valid) (hl : e.PartsLossless) :
    ∃ c i, parseStat (statRow e) = .ok (c, i) ∧ statBody 19 c i = .ok e.seen.wire := by
  obtain ⟨h, hh, _, he, hb, hrow⟩ := statRow_split e
  have hit : ∀ x ∈ e.insts.map (fun i => (i.inst, instTexts i)), InstText oxmP actP x.1 x.2 := by
    intro x hx
    obtain ⟨i, hi, rfl⟩ := List.mem_map.1 hx
    exact instTexts_text i (hv.2.2.2.2.2.2.2.2.2.2.2.1 i hi) (hl.2 i hi)
  obtain ⟨iw, hr, hp, hiw, hi⟩ := rule_words_insts (statItems e) (statItems_words e hv hl)
    (e.insts.map fun i => (i.inst, instTexts i)) hit h [] hh atEnd_nil (by
      by_cases h1 : statItems e = []
      · by_cases h2 : e.insts = []
        · exact Or.inr (Or.inr ⟨he (by unfold statTexts; rw [h1, h2]; rfl), rfl⟩)
        · exact Or.inr (Or.inl (by simpa using h2))
      · exact Or.inl h1)
  rw [List.append_nil, List.flatMap_map] at hr
  have hi' : instsOf ((statItems e).map (·.1) ++ iw) = e.insts.map FInst.inst := by
    rw [hi, List.map_map]; rfl
  have hparse := parseStat_words (statCnts e) (statCnts_keys e) hr hp (fun h => hb h) (by
    rw [hi']
    intro i him
    obtain ⟨j, hj, rfl⟩ := List.mem_map.1 him
    exact (hv.2.2.2.2.2.2.2.2.2.2.2.1 j hj).1)
  exact ⟨_, _, by rw [hrow]; exact hparse, stat_body e hv iw hiw (fun i hi => reads_flags hr i hi) hi'⟩

theorem seen_length (e : FlowStat) : e.seen.wire.length = e.wire.length := by
  rw [flowStat_length, flowStat_length]; rfl

theorem seen_valid (e : FlowStat) (hv : e.Valid) : e.seen.Valid := by
  obtain ⟨h1, h2, h3, h4, h5, h6, h7, h8, h9, h10, h11, h12, h13⟩ := hv
  refine ⟨h1, h2, h3, ?_, h5, h6, ?_, h8, h9, h10, h11, h12, by rw [seen_length]; exact h13⟩
  · show (if e.priority = 0x8000 then 0 else e.priority) < _
    split
    · decide
    · exact h4
  · show e.flags % 32 < _
    exact Nat.lt_of_lt_of_le (Nat.mod_lt _ (by decide)) (by decide)

theorem seen_lossless (e : FlowStat) (hl : e.Lossless) : e.seen = e := by
  obtain ⟨h1, h2, _⟩ := hl
  unfold FlowStat.seen
  rw [if_neg h2, Nat.mod_eq_of_lt h1]

theorem seen_wire_inj (e : FlowStat) (hv : e.Valid) (h : e.seen.wire = e.wire) : e.flags < 32 ∧ e.priority ≠ 0x8000 := by
  obtain ⟨_, _, _, _, a5, _, _, a8, _⟩ := flowStat_nums e hv []
  obtain ⟨_, _, _, _, b5, _, _, b8, _⟩ := flowStat_nums e.seen (seen_valid e hv) []
  rw [h] at b5 b8
  rw [a5] at b5
  rw [a8] at b8
  have c5 : e.priority = if e.priority = 0x8000 then 0 else e.priority := b5
  have c8 : e.flags = e.flags % 32 := b8
  refine ⟨by omega, fun hp => ?_⟩
  rw [if_pos hp, hp] at c5
  omega

theorem seen_list_length (es : List FlowStat) :
    ((es.map FlowStat.seen).flatMap FlowStat.wire).length = (es.flatMap FlowStat.wire).length := by
  induction es with
  | nil => rfl
  | cons e es ih => rw [List.map_cons, List.flatMap_cons, List.flatMap_cons, List.length_append, List.length_append, seen_length, ih]

theorem seen_list_inj (es : List FlowStat) (h : (es.map FlowStat.seen).flatMap FlowStat.wire = es.flatMap FlowStat.wire) :
    ∀ e ∈ es, e.seen.wire = e.wire := by
  induction es with
  | nil => intro e he; cases he
  | cons e es ih =>
    rw [List.map_cons, List.flatMap_cons, List.flatMap_cons] at h
    obtain ⟨h1, h2⟩ := List.append_inj h (seen_length e)
    intro x hx
    rcases List.mem_cons.1 hx with rfl | hx
    · exact h1
    · exact ih h2 x hx

theorem mpReply_inj {x k : Nat} {B B' : Bytes} (hx : x < 256 ^ 4) (hk : k < 256 ^ 2) (hl : 16 + B.length < 65536)
    (hl' : 16 + B'.length < 65536) (h : mpReply x k B = mpReply x k B') : B = B' := by
  have h1 := (mpWire_nums 19 x k 0 B [] (by decide) hx hk hl).2.2.2
  have h2 := (mpWire_nums 19 x k 0 B' [] (by decide) hx hk hl').2.2.2
  rw [← h1, ← h2]
  exact congrArg (List.drop 16) h

/-- The rows of a reply, and what they are read as. -/
theorem flow_rows (es : List FlowStat) (x : Nat) (hv : ∀ e ∈ es, e.Valid) (hl : ∀ e ∈ es, e.PartsLossless)
    (hne : es ≠ []) (hx : x < 256 ^ 4) (hsize : 16 + (es.flatMap FlowStat.wire).length < 65536) :
    mpflow2text (mpReply x 1 (es.flatMap FlowStat.wire)) = .ok (joinStr t!"\n" (es.map statRow)) ∧
      text2mpflow (joinStr t!"\n" (es.map statRow)) 19 x =
        .ok (mpReply x 1 ((es.map FlowStat.seen).flatMap FlowStat.wire)) := by
  obtain ⟨n1, n2, n3, n4⟩ := mpWire_nums 19 x 1 0 (es.flatMap FlowStat.wire) [] (by decide) hx (by decide) hsize
  rw [List.append_nil] at n1 n2 n3
  have hlen := mpWire_length 19 x 1 0 (es.flatMap FlowStat.wire)
  have hcount : es.length ≤ (es.flatMap FlowStat.wire).length := by
    clear hsize n1 n2 n3 n4 hlen hne hv hl
    induction es with
    | nil => simp
    | cons e es ih => rw [List.flatMap_cons, List.length_append, List.length_cons]; have := flowStat_length e; omega
  have hone : mpflow2textOne (mpReply x 1 (es.flatMap FlowStat.wire)) = .ok (es.map statRow) := by
    unfold mpflow2textOne
    rw [needBytes_ok _ _ _ (by rw [mpReply]; omega), ok_bind]
    rw [mpReply, n1, n2, n3, show pyAssert (1 == OFPMP_FLOW) = .ok () from rfl, ok_bind, if_neg (by decide)]
    rw [← mpReply, mpReply_slice, mpReply, n4]
    exact statsGo_list es hv hl _ (by omega)
  constructor
  · unfold mpflow2text
    rw [reply_text _ x 1 _ _ hx (by decide) hsize hone, ok_bind]
  · have h2 : List.Forall₂ (fun l b => ∃ c i, parseStat l = .ok (c, i) ∧ statBody 19 c i = .ok b) (es.map statRow)
        (es.map fun e => e.seen.wire) := by
      clear hsize n1 n2 n3 n4 hlen hne hcount hone
      induction es with
      | nil => exact .nil
      | cons e es ih =>
        exact .cons (stat_reads e (hv e (by simp)) (hl e (by simp)))
          (ih (fun x hx => hv x (List.mem_cons_of_mem _ hx)) (fun x hx => hl x (List.mem_cons_of_mem _ hx)))
    obtain ⟨rules, h3, h4⟩ := mpflowGo_lines h2
    have hfl : (es.map fun e => e.seen.wire).flatten = (es.map FlowStat.seen).flatMap FlowStat.wire := by
      rw [List.flatMap_map, List.flatMap_def]
    have hsl := seen_list_length es
    unfold text2mpflow
    rw [rows_split _ (by simpa using hne) (by
      intro t ht
      obtain ⟨e, he, rfl⟩ := List.mem_map.1 ht
      exact statRow_line e (hv e he) (hl e he)), h3, ok_bind, h4, packLines_eq _ _ (by simp), hfl, if_pos (by
        rw [hsl]; simp only [List.length_nil]; omega), ok_bind, List.nil_append,
      mpMessage_fit 19 x OFPMP_FLOW _ (by decide) (fitsIn_cast hx) (by decide) (by omega)]
    rfl

end Ofpstr
