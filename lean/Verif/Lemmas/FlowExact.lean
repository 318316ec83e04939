import Verif.Lemmas.RuleBack
import Verif.Lemmas.DictGo

/-!
# Which flow-mods come back
-/

set_option linter.unusedSimpArgs false

namespace Ofpstr
open Spec

/-! ## Printing instructions -/

/-- What an instruction prints. -/
def instToks : FInst → Py (List Str)
  | .write as => (act2str (as.flatMap Act.wire)).bind fun arg => .ok (t!"@write" :: optTok arg)
  | .apply as => (act2str (as.flatMap Act.wire)).bind fun arg => .ok (t!"@apply" :: optTok arg)
  | i => .ok [(instWord i).2]

theorem instActions_any (name : Str) (t : Nat) (A : Bytes) (hd : 8 ∣ A.length) (rest : Bytes) :
    instActions name ((u16 t ++ (u16 (8 + A.length) ++ (pad 4 ++ A))) ++ rest) (8 + A.length) =
      (act2str A).bind fun arg => .ok (name :: optTok arg) := by
  have hs : slice ((u16 t ++ (u16 (8 + A.length) ++ (pad 4 ++ A))) ++ rest) 8 (8 + A.length) = A := by
    have e : (u16 t ++ (u16 (8 + A.length) ++ (pad 4 ++ A))) ++ rest =
        (u16 t ++ (u16 (8 + A.length) ++ pad 4)) ++ (A ++ rest) := by simp
    rw [e]
    apply slice_middle
    · simp [u16_length, pad_length]
    · simp [u16_length, pad_length]
  have hm : ((8 + A.length) % 8 == 0) = true := by
    simp only [beq_iff_eq]; omega
  unfold instActions
  rw [hm, pyAssert_ok, ok_bind, hs]
  cases act2str A with
  | error e => rfl
  | ok arg =>
    show Except.ok _ = Except.ok _
    unfold optTok
    split <;> rfl

theorem inst_one (i : FInst) (hv : i.Valid) : 4 < i.inst.wire.length ∧ (∀ rest, uAt (i.inst.wire ++ rest) 2 2 = i.inst.wire.length) ∧
    ∀ rest, inst2strOne (i.inst.wire ++ rest) = instToks i := by
  have len : ∀ (t l : Nat) (b : Bytes), l < 65536 → l = 4 + b.length → (u16 t ++ (u16 l ++ b)).length = l := by
    intro t l b _ h
    simp only [List.length_append, u16_length]; omega
  cases i with
  | goto n =>
    have hn : n < 256 := by have := hv.1.2; simp at this; omega
    have hw : (FInst.goto n).inst.wire = u16 1 ++ (u16 8 ++ (u8 n ++ pad 3)) := rfl
    have hL := len 1 8 (u8 n ++ pad 3) (by omega) (by simp [u8_length, pad_length])
    refine ⟨by rw [hw, hL]; omega, fun rest => by rw [hw, inst_uAt2 _ _ _ _ (by omega), hL], fun rest => ?_⟩
    rw [hw]
    unfold inst2strOne
    rw [inst_uAt0 _ _ _ _ (by omega), inst_uAt2 _ _ _ _ (by omega), inst_uAt _ _ _ _ _ _ (by omega)]
    rw [List.append_assoc, show uAt (u8 n ++ (pad 3 ++ rest)) (4 - 4) 1 = n from uAt_here 1 n _ hn]
    rfl
  | metadata n m =>
    have hn : n < 256 ^ 8 := by have := hv.1.1.2; simp at this; omega
    have hm : m < 256 ^ 8 := by have := hv.1.2.2; simp at this; omega
    have hw : (FInst.metadata n m).inst.wire = u16 2 ++ (u16 24 ++ (pad 4 ++ (u64 n ++ u64 m))) := rfl
    have hL := len 2 24 (pad 4 ++ (u64 n ++ u64 m)) (by omega) (by simp [u64_length, pad_length])
    refine ⟨by rw [hw, hL]; omega, fun rest => by rw [hw, inst_uAt2 _ _ _ _ (by omega), hL], fun rest => ?_⟩
    rw [hw]
    unfold inst2strOne
    have hnb : 8 + 16 ≤ ((u16 2 ++ (u16 24 ++ (pad 4 ++ (u64 n ++ u64 m)))) ++ rest).length := by
      rw [List.length_append, hL]; omega
    rw [inst_uAt0 _ _ _ _ (by omega), inst_uAt2 _ _ _ _ (by omega), inst_uAt _ _ _ _ 8 8 (by omega),
      inst_uAt _ _ _ _ 16 8 (by omega), needBytes_ok _ _ _ hnb]
    have e1 : uAt ((pad 4 ++ (u64 n ++ u64 m)) ++ rest) (8 - 4) 8 = n := by
      rw [List.append_assoc, uAt_skip_pad _ _ _ _ (by omega), List.append_assoc]; exact uAt_here 8 n _ hn
    have e2 : uAt ((pad 4 ++ (u64 n ++ u64 m)) ++ rest) (16 - 4) 8 = m := by
      rw [List.append_assoc, uAt_skip_pad _ _ _ _ (by omega), List.append_assoc,
        show u64 n = be 8 n from rfl, uAt_skip 8 _ _ _ _ (by omega)]; exact uAt_here 8 m _ hm
    rw [e1, e2]
    dsimp only
    rw [show (2 == OFPIT_GOTO_TABLE) = false from rfl, show (2 == OFPIT_WRITE_METADATA) = true from rfl,
      if_neg (by decide), if_pos (by decide), show ((24 : Nat) == 24) = true from rfl, pyAssert_ok, ok_bind, ok_bind]
    rw [instToks, instWord]
    · dsimp only
      by_cases hz : m = 0
      · rw [if_pos (by simpa using hz), if_pos hz]
      · rw [if_neg (by simpa using hz), if_neg hz]
    · simp
    · simp
  | write as =>
    have he : (FInst.write as).inst.wire = u16 3 ++ (u16 (8 + (as.flatMap Act.wire).length) ++ (pad 4 ++ as.flatMap Act.wire)) := rfl
    have hd : 8 ∣ (as.flatMap Act.wire).length := hv.2.2
    have hlt : 8 + (as.flatMap Act.wire).length < 65536 := hv.1
    rw [he, instToks]
    generalize as.flatMap Act.wire = A at *
    have hL := len 3 _ (pad 4 ++ A) hlt (by simp [pad_length]; omega)
    refine ⟨by rw [hL]; omega, fun rest => by rw [inst_uAt2 _ _ _ _ hlt, hL], fun rest => ?_⟩
    rw [← instActions_any t!"@write" 3 A hd rest]
    unfold inst2strOne
    rw [inst_uAt0 _ _ _ _ (by omega), inst_uAt2 _ _ _ _ hlt]
    rfl
  | apply as =>
    have he : (FInst.apply as).inst.wire = u16 4 ++ (u16 (8 + (as.flatMap Act.wire).length) ++ (pad 4 ++ as.flatMap Act.wire)) := rfl
    have hd : 8 ∣ (as.flatMap Act.wire).length := hv.2.2
    have hlt : 8 + (as.flatMap Act.wire).length < 65536 := hv.1
    rw [he, instToks]
    generalize as.flatMap Act.wire = A at *
    have hL := len 4 _ (pad 4 ++ A) hlt (by simp [pad_length]; omega)
    refine ⟨by rw [hL]; omega, fun rest => by rw [inst_uAt2 _ _ _ _ hlt, hL], fun rest => ?_⟩
    rw [← instActions_any t!"@apply" 4 A hd rest]
    unfold inst2strOne
    rw [inst_uAt0 _ _ _ _ (by omega), inst_uAt2 _ _ _ _ hlt]
    rfl
  | clear =>
    have hw : FInst.clear.inst.wire = u16 5 ++ (u16 8 ++ pad 4) := rfl
    have hL := len 5 8 (pad 4) (by omega) (by simp [pad_length])
    refine ⟨by rw [hw, hL]; omega, fun rest => by rw [hw, inst_uAt2 _ _ _ _ (by omega), hL], fun rest => ?_⟩
    rw [hw]
    unfold inst2strOne
    rw [inst_uAt0 _ _ _ _ (by omega), inst_uAt2 _ _ _ _ (by omega)]
    rfl
  | meter n =>
    have hn : n < 256 ^ 4 := by have := hv.1.2; simp at this; omega
    have hw : (FInst.meter n).inst.wire = u16 6 ++ (u16 8 ++ u32 n) := rfl
    have hL := len 6 8 (u32 n) (by omega) (by simp [u32_length])
    refine ⟨by rw [hw, hL]; omega, fun rest => by rw [hw, inst_uAt2 _ _ _ _ (by omega), hL], fun rest => ?_⟩
    rw [hw]
    unfold inst2strOne
    have hnb : 4 + 4 ≤ ((u16 6 ++ (u16 8 ++ u32 n)) ++ rest).length := by
      rw [List.length_append, hL]; omega
    rw [inst_uAt0 _ _ _ _ (by omega), inst_uAt2 _ _ _ _ (by omega), inst_uAt _ _ _ _ 4 4 (by omega), needBytes_ok _ _ _ hnb,
      show uAt (u32 n ++ rest) (4 - 4) 4 = n from uAt_here 4 n _ hn]
    rfl

theorem actTexts_ne {as : List Act} (hv : ∀ a ∈ as, a.Valid) {ts : List Str} (h : ActTexts as ts) : ∀ t ∈ ts, t ≠ [] := by
  induction h with
  | nil => simp
  | @cons a t as ts hpr _ ih =>
    intro x hx
    rcases List.mem_cons.1 hx with rfl | hx
    · rcases (act_back a (hv a (by simp))).back with ⟨e, -, he, -⟩ | ⟨text, hpt, hne, -⟩
      · have := hpr []
        rw [he] at this
        cases this
      · have := hpt []
        rw [hpr] at this
        cases this
        exact hne
    · exact ih (fun y hy => hv y (by simp [hy])) x hx

theorem instToks_iff (i : FInst) (hv : i.Valid) :
    (∀ toks, instToks i = .ok toks → ∃ ts, ActTexts i.actions ts ∧ SameText toks ((instWord i).2 :: ts)) ∧
    ∀ ts, ActTexts i.actions ts → ∃ toks, instToks i = .ok toks ∧ SameText toks ((instWord i).2 :: ts) := by
  have plain : i.actions = [] → instToks i = .ok [(instWord i).2] →
      (∀ toks, instToks i = .ok toks → ∃ ts, ActTexts i.actions ts ∧ SameText toks ((instWord i).2 :: ts)) ∧
      ∀ ts, ActTexts i.actions ts → ∃ toks, instToks i = .ok toks ∧ SameText toks ((instWord i).2 :: ts) := by
    intro h1 h2
    rw [h1, h2]
    constructor
    · rintro toks h
      cases h
      exact ⟨[], .nil, sameText_refl _⟩
    · intro ts h
      cases h
      exact ⟨_, rfl, sameText_refl _⟩
  have acts : ∀ as name, i.actions = as → (instWord i).2 = name →
      instToks i = ((act2str (as.flatMap Act.wire)).bind fun arg => .ok (name :: optTok arg)) →
      (∀ toks, instToks i = .ok toks → ∃ ts, ActTexts i.actions ts ∧ SameText toks ((instWord i).2 :: ts)) ∧
      ∀ ts, ActTexts i.actions ts → ∃ toks, instToks i = .ok toks ∧ SameText toks ((instWord i).2 :: ts) := by
    intro as name h1 h2 h3
    have hva : ∀ a ∈ as, a.Valid := by rw [← h1]; exact hv.2.1
    rw [h1, h2, h3]
    constructor
    · intro toks h
      obtain ⟨text, ht, h⟩ := bind_ok h
      obtain ⟨ts, h4, rfl⟩ := (act2str_any as hva text).1 ht
      cases h
      exact ⟨ts, h4, sameText_append (sameText_refl [name]) (sameText_opt (actTexts_ne hva h4))⟩
    · intro ts h
      rw [(act2str_any as hva _).2 ⟨ts, h, rfl⟩]
      exact ⟨_, rfl, sameText_append (sameText_refl [name]) (sameText_opt (actTexts_ne hva h))⟩
  cases i with
  | write as => exact acts as _ rfl rfl rfl
  | apply as => exact acts as _ rfl rfl rfl
  | _ => exact plain rfl rfl

/-- The texts of the instructions. -/
def InstTokens (is : List FInst) (L : List (FInst × List Str)) : Prop :=
  L.map (·.1) = is ∧ ∀ e ∈ L, ActTexts e.1.actions e.2

theorem insts_print (is : List FInst) (hv : ∀ i ∈ is, i.Valid) (fuel : Nat) (hf : (is.flatMap fun i => i.inst.wire).length < fuel) :
    (∀ toks, inst2strGo fuel (is.flatMap fun i => i.inst.wire) = .ok toks →
      ∃ L, InstTokens is L ∧ SameText toks (L.flatMap fun e => (instWord e.1).2 :: e.2)) ∧
    ∀ L, InstTokens is L → ∃ toks, inst2strGo fuel (is.flatMap fun i => i.inst.wire) = .ok toks ∧
      SameText toks (L.flatMap fun e => (instWord e.1).2 :: e.2) := by
  induction is generalizing fuel with
  | nil =>
    cases fuel with
    | zero => simp at hf
    | succ f =>
      constructor
      · intro toks h
        simp [inst2strGo] at h
        subst h
        exact ⟨[], ⟨rfl, by simp⟩, sameText_refl _⟩
      · rintro L ⟨h1, -⟩
        rw [List.map_eq_nil_iff] at h1
        subst h1
        exact ⟨[], by simp [inst2strGo], sameText_refl _⟩
  | cons i is ih =>
    obtain ⟨h4, hlen, hone⟩ := inst_one i (hv i (by simp))
    obtain ⟨t1, t2⟩ := instToks_iff i (hv i (by simp))
    cases fuel with
    | zero => simp at hf
    | succ f =>
      simp only [List.flatMap_cons, List.length_append] at hf ⊢
      obtain ⟨ih1, ih2⟩ := ih (fun x hx => hv x (by simp [hx])) f (by omega)
      rw [inst2strGo, if_neg (by simp only [List.length_append]; omega), hone, hlen, List.drop_left]
      constructor
      · intro toks h
        obtain ⟨k1, g1, h⟩ := bind_ok h
        obtain ⟨k2, g2, h⟩ := bind_ok h
        cases h
        obtain ⟨ts, g3, g4⟩ := t1 k1 g1
        obtain ⟨L, ⟨g5, g6⟩, g7⟩ := ih1 k2 g2
        refine ⟨(i, ts) :: L, ⟨by simp [g5], ?_⟩, sameText_append g4 g7⟩
        intro e he
        rcases List.mem_cons.1 he with rfl | he
        · exact g3
        · exact g6 e he
      · rintro L ⟨g1, g2⟩
        cases L with
        | nil => cases g1
        | cons e L =>
          simp only [List.map_cons, List.cons.injEq] at g1
          obtain ⟨rfl, g1⟩ := g1
          obtain ⟨k1, g3, g4⟩ := t2 e.2 (g2 e (by simp))
          obtain ⟨k2, g5, g6⟩ := ih2 L ⟨g1, fun x hx => g2 x (by simp [hx])⟩
          refine ⟨k1 ++ k2, by rw [g3, ok_bind, g5, ok_bind], ?_⟩
          rw [List.flatMap_cons]
          exact sameText_append g4 g6

theorem inst2str_any (is : List FInst) (hv : ∀ i ∈ is, i.Valid) (text : Str) :
    inst2str (is.flatMap fun i => i.inst.wire) = .ok text ↔
      ∃ L, InstTokens is L ∧ text = commaList (L.flatMap fun e => (instWord e.1).2 :: e.2) := by
  obtain ⟨h1, h2⟩ := insts_print is hv _ (Nat.lt_succ_self _)
  unfold inst2str
  constructor
  · intro h
    obtain ⟨toks, ht, h⟩ := bind_ok h
    obtain ⟨L, g1, g2⟩ := h1 toks ht
    simp only [Except.ok.injEq] at h
    rw [joinStr_commaList] at h
    have := g2 [] []
    simp only [List.append_nil, List.nil_append] at this
    exact ⟨L, g1, by rw [← h, this]⟩
  · rintro ⟨L, g1, rfl⟩
    obtain ⟨toks, ht, g2⟩ := h2 L g1
    have := g2 [] []
    simp only [List.append_nil, List.nil_append] at this
    rw [ht, ok_bind, joinStr_commaList, this]

theorem oxm2str_any (ts : List Tlv) (hv : ∀ t ∈ ts, t.Valid) (text : Str) :
    oxm2str (wireAll ts) = .ok text ↔
      (∀ t ∈ ts, t.field.kind = .ssid → t.mask ≠ none → ∃ x ∈ t.value, x ≠ 0) ∧ text = commaList (ts.map tlvPrint) := by
  by_cases hz : ∀ t ∈ ts, t.field.kind = .ssid → t.mask ≠ none → ∃ x ∈ t.value, x ≠ 0
  · rw [oxm2str_print ts hv hz, joinStr_commaList]
    simp only [Except.ok.injEq]
    exact ⟨fun h => ⟨hz, h.symm⟩, fun h => h.2.symm⟩
  · refine ⟨fun h => ?_, fun h => absurd h.1 hz⟩
    exfalso
    push Not at hz
    have hgo := oxm2strGo_zero ts hv (by
      obtain ⟨t, h1, h2, h3, h4⟩ := hz
      exact ⟨t, h1, h2, h3, h4⟩) _ (Nat.lt_succ_self _)
    unfold oxm2str at h
    rw [hgo] at h
    cases h

theorem mod2str_any (m : FlowMod) (hv : m.Valid) (text : Str) :
    mod2str m.wire = .ok text ↔ (∀ t ∈ m.mtch, t.field.kind = .ssid → t.mask ≠ none → ∃ x ∈ t.value, x ≠ 0) ∧
      ∃ L, InstTokens m.insts L ∧ text = commaList ((headItems (defaults m.head.command m.head.xid) m.head).map (·.2) ++
        (m.mtch.map tlvPrint ++ L.flatMap fun e => (instWord e.1).2 :: e.2)) := by
  obtain ⟨hf, hm, hi, hlen⟩ := hv
  unfold FlowMod.wire at hlen ⊢
  obtain ⟨n1, n2, n3, n4, n5, n6, n7, n8, n9, n10, n11, n12, n13, n14, n15⟩ := flowWire_nums _ hf _ _ hlen
  obtain ⟨s1, s2⟩ := flowWire_slices m.head (m.mtch.flatMap Tlv.wire) (m.insts.flatMap fun i => i.inst.wire)
  have h52 : 0 + 52 ≤ (m.head.wire (m.mtch.flatMap Tlv.wire) (m.insts.flatMap fun i => i.inst.wire)).length := by
    have ha := align8_facts (4 + (m.mtch.flatMap Tlv.wire).length)
    rw [flowWire_split]
    simp only [List.length_append, u8_length, u16_length, u32_length, flowBody_length]; omega
  have hcmd : ((m.head.command.toNat : Nat) : Int) = m.head.command := by
    exact Int.toNat_of_nonneg hf.2.1.1
  have hfx := fixedText_head m.head hf m.head.xid
  unfold headFixed at hfx
  have ho := oxm2str_any m.mtch hm
  have hin := inst2str_any m.insts hi
  unfold mod2str
  rw [needBytes_ok _ _ _ h52, ok_bind]
  dsimp only
  rw [n1, n3, n4, n5, n6, n7, n8, n9, n10, n11, n12, n13, n14, n15, s1, s2, hcmd, hfx, if_pos (by decide)]
  have hne1 : (∀ t ∈ m.mtch, t.field.kind = .ssid → t.mask ≠ none → ∃ x ∈ t.value, x ≠ 0) → ∀ t ∈ m.mtch.map tlvPrint, t ≠ [] := by
    intro hz t ht
    obtain ⟨x, hx, rfl⟩ := List.mem_map.1 ht
    obtain ⟨f, hf, z, h1, -⟩ := tlv_form x (hm x hx) (hz x hx)
    rw [h1]
    have := (field_name _ hf).2.1
    simp [this]
  have hne2 : ∀ L, InstTokens m.insts L → ∀ t ∈ L.flatMap (fun e => (instWord e.1).2 :: e.2), t ≠ [] := by
    rintro L ⟨g1, g2⟩ t ht
    obtain ⟨e, he, ht⟩ := List.mem_flatMap.1 ht
    have hei : e.1 ∈ m.insts := by rw [← g1]; exact List.mem_map_of_mem he
    rcases List.mem_cons.1 ht with rfl | ht
    · exact (instWord_isWord e.1).1
    · exact actTexts_ne (hi _ hei).2.1 (g2 e he) t ht
  have join : ∀ L, InstTokens m.insts L → (∀ t ∈ m.mtch, t.field.kind = .ssid → t.mask ≠ none → ∃ x ∈ t.value, x ≠ 0) →
      joinStr t!"," ((headItems (defaults m.head.command m.head.xid) m.head).map (·.2) ++
        (optTok (commaList (m.mtch.map tlvPrint)) ++ optTok (commaList (L.flatMap fun e => (instWord e.1).2 :: e.2)))) =
      commaList ((headItems (defaults m.head.command m.head.xid) m.head).map (·.2) ++
        (m.mtch.map tlvPrint ++ L.flatMap fun e => (instWord e.1).2 :: e.2)) := by
    intro L hL hz
    rw [joinStr_commaList]
    have := sameText_append (sameText_opt (hne1 hz)) (sameText_opt (hne2 L hL))
      ((headItems (defaults m.head.command m.head.xid) m.head).map (·.2)) []
    simpa only [List.append_nil] using this
  constructor
  · intro h
    obtain ⟨o, h1, h⟩ := bind_ok h
    obtain ⟨i, h2, h⟩ := bind_ok h
    obtain ⟨hz, rfl⟩ := (ho o).1 h1
    obtain ⟨L, hL, rfl⟩ := (hin i).1 h2
    simp only [Except.ok.injEq] at h
    exact ⟨hz, L, hL, by rw [← h]; exact join L hL hz⟩
  · rintro ⟨hz, L, hL, rfl⟩
    have h1 := (ho _).2 ⟨hz, rfl⟩
    unfold wireAll at h1
    rw [h1, ok_bind, (hin _).2 ⟨L, hL, rfl⟩, ok_bind, join L hL hz]

/-! ## The words of a rule -/

/-- The words of a rule whose parts survive. -/
theorem rule_reads (ks : List (Word × Str)) (hk : ∀ e ∈ ks, StartWord e.1 ∧ IsWord oxmP actP e.1 e.2) (ts : List Tlv)
    (ht : ∀ t ∈ ts, t.Valid) (is : List FInst) (hi : ∀ i ∈ is, i.Valid) {L : List (FInst × List Str)} (hL : InstTokens is L)
    (hs : PartsSurvive ts is) :
    ReadsWords oxmP actP (ks.map (·.1) ++ (ts.map (fun t => .oxm t.wire) ++ is.flatMap instWordsOf))
      (commaList (ks.map (·.2) ++ (ts.map tlvPrint ++ L.flatMap fun e => (instWord e.1).2 :: e.2))) [] := by
  obtain ⟨rfl, h2⟩ := hL
  have hLn : (L.flatMap (fun e => (instWord e.1).2 :: e.2) = []) = (L.map (·.1) = []) := by
    cases L <;> simp
  obtain ⟨s1, g1, g2⟩ := words_reads ks (fun e he => (hk e he).2) (rest_all (ks.map (·.2) ++ (ts.map tlvPrint ++ L.flatMap fun e => (instWord e.1).2 :: e.2)))
  obtain ⟨s2, g3, g4⟩ := tlvs_reads ts ht (by rw [hLn]; exact hs.1) g1
  have g5 := insts_reads L (fun e he => hi e.1 (List.mem_map_of_mem he)) h2 hs.2 g3
  exact reads_append g2 (reads_append g4 g5)

/-- The words of a rule that is read as the bytes it was printed from. -/
theorem rule_back (ks : List (Word × Str)) (hk : ∀ e ∈ ks, StartWord e.1 ∧ IsWord oxmP actP e.1 e.2) (hko : ∀ e ∈ ks, e.1.oxmBytes = [])
    (ts : List Tlv) (ht : ∀ t ∈ ts, t.Valid) (hz : ∀ t ∈ ts, t.field.kind = .ssid → t.mask ≠ none → ∃ x ∈ t.value, x ≠ 0)
    (is : List FInst) (hi : ∀ i ∈ is, i.Valid) {L : List (FInst × List Str)} (hL : InstTokens is L) {ws : List Word}
    (hrd : ReadsWords oxmP actP ws (commaList (ks.map (·.2) ++ (ts.map tlvPrint ++ L.flatMap fun e => (instWord e.1).2 :: e.2))) [])
    (hp : placeAfter .start ws ≠ none) (hfit : ∀ i ∈ instsOf ws, i.Fits) (ho : oxmOf ws = wireAll ts)
    (hin : (instsOf ws).flatMap Inst.wire = is.flatMap fun i => i.inst.wire) :
    PartsSurvive ts is ∧ ws = ks.map (·.1) ++ (ts.map (fun t => .oxm t.wire) ++ is.flatMap instWordsOf) := by
  obtain ⟨rfl, h2⟩ := hL
  have hLn : (L.flatMap (fun e => (instWord e.1).2 :: e.2) = []) = (L.map (·.1) = []) := by
    cases L <;> simp
  obtain ⟨ws1, s1, rfl, g1, g2, g3⟩ := words_peel ks (fun e he => (hk e he).symm) (rest_all _) hrd hp
  have hsw : ∀ w ∈ ks.map (·.1), StartWord w := by
    intro w hw
    obtain ⟨e, he, rfl⟩ := List.mem_map.1 hw
    exact (hk e he).1
  have hko' : oxmOf (ks.map (·.1)) = [] := by
    unfold oxmOf
    rw [List.flatMap_eq_nil_iff]
    intro w hw
    obtain ⟨e, he, rfl⟩ := List.mem_map.1 hw
    exact hko e he
  have hoa : ∀ a b, oxmOf (a ++ b) = oxmOf a ++ oxmOf b := fun a b => List.flatMap_append
  rw [hoa, hko', List.nil_append] at ho
  rw [instsOf_start hsw] at hfit hin
  obtain ⟨g4, ws2, s2, rfl, g5, g6, g7⟩ := tlvs_peel ts ht hz g1 g2 g3 ho
  have hsw2 : ∀ w ∈ ts.map (fun t => Word.oxm t.wire), StartWord w := by
    intro w hw
    obtain ⟨t, -, rfl⟩ := List.mem_map.1 hw
    trivial
  rw [instsOf_start hsw2] at hfit hin
  obtain ⟨g8, rfl⟩ := insts_peel L (fun e he => hi e.1 (List.mem_map_of_mem he)) h2 g5 g6 g7 hfit hin
  rw [hLn] at g4
  exact ⟨⟨g4, g8⟩, rfl⟩

theorem texts_some (as : List Act) (hv : ∀ a ∈ as, a.Valid) (hs : ∀ a ∈ as, ∃ q, a.Survives q) : ∃ ts, ActTexts as ts := by
  induction as with
  | nil => exact ⟨[], .nil⟩
  | cons a as ih =>
    obtain ⟨ts, hts⟩ := ih (fun y hy => hv y (by simp [hy])) (fun y hy => hs y (by simp [hy]))
    obtain ⟨q, hq⟩ := hs a (by simp)
    rcases (act_back a (hv a (by simp))).back with ⟨e, -, -, hn⟩ | ⟨text, hpt, -⟩
    · exact absurd hq (hn _)
    · exact ⟨text :: ts, .cons hpt hts⟩

theorem tokens_some (is : List FInst) (hi : ∀ i ∈ is, i.Valid) (hs : ∀ i ∈ is, ∀ x ∈ i.actions, ∃ q, x.Survives q) :
    ∃ L, InstTokens is L := by
  induction is with
  | nil => exact ⟨[], rfl, by simp⟩
  | cons i is ih =>
    obtain ⟨L, h1, h2⟩ := ih (fun y hy => hi y (by simp [hy])) (fun y hy => hs y (by simp [hy]))
    obtain ⟨ts, h3⟩ := texts_some i.actions (hi i (by simp)).2.1 (hs i (by simp))
    refine ⟨(i, ts) :: L, by simp [h1], ?_⟩
    intro e he
    rcases List.mem_cons.1 he with rfl | he
    · exact h3
    · exact h2 e he

theorem survives_tokens (ts : List Tlv) (is : List FInst) (hi : ∀ i ∈ is, i.Valid) (hs : PartsSurvive ts is) : ∃ L, InstTokens is L := by
  refine tokens_some is hi fun i h x hx => ?_
  obtain ⟨a, b, rfl⟩ := List.append_of_mem h
  obtain ⟨c, d, hd⟩ := List.append_of_mem hx
  exact ⟨_, hs.2 a i b rfl c x d hd⟩

theorem parts_nonzero (ts : List Tlv) (is : List FInst) (hs : PartsSurvive ts is) :
    ∀ t ∈ ts, t.field.kind = .ssid → t.mask ≠ none → ∃ x ∈ t.value, x ≠ 0 := by
  intro t h hk hm
  obtain ⟨a, b, rfl⟩ := List.append_of_mem h
  exact ssid_nonzero hk (hs.1 a t b rfl) hm

/-! ## Flow-mods -/

/-- The words of a printed flow-mod. -/
noncomputable def flowWords (m : FlowMod) : List Word :=
  (headItems (defaults m.head.command m.head.xid) m.head).map (·.1) ++
    (m.mtch.map (fun t => .oxm t.wire) ++ m.insts.flatMap instWordsOf)

theorem oxmOf_tlvs (ts : List Tlv) : oxmOf (ts.map fun t => Word.oxm t.wire) = ts.flatMap Tlv.wire := by
  unfold oxmOf
  rw [List.flatMap_map]
  rfl

theorem headItems_start (m : FlowMod) (hf : m.head.Fits) : ∀ w ∈ (headItems (defaults m.head.command m.head.xid) m.head).map (·.1) ++
    (m.mtch.map fun t => Word.oxm t.wire), StartWord w := by
  intro w hw
  rcases List.mem_append.1 hw with hw | hw
  · obtain ⟨e, he, rfl⟩ := List.mem_map.1 hw
    exact (headItems_words _ _ hf e he).1
  · obtain ⟨t, -, rfl⟩ := List.mem_map.1 hw
    trivial

theorem flowWords_facts (m : FlowMod) (hf : m.head.Fits) :
    headOf m.head.command m.head.xid (flowWords m) = m.knownFlags.head ∧ oxmOf (flowWords m) = m.mtch.flatMap Tlv.wire ∧
    instsOf (flowWords m) = m.insts.map FInst.inst ∧ placeAfter .start (flowWords m) ≠ none := by
  have hi := instWords_of m.insts
  have hst := headItems_start m hf
  have e : flowWords m = ((headItems (defaults m.head.command m.head.xid) m.head).map (·.1) ++
      (m.mtch.map fun t => Word.oxm t.wire)) ++ m.insts.flatMap instWordsOf := by
    unfold flowWords; rw [List.append_assoc]
  rw [e]
  refine ⟨?_, ?_, ?_, ?_⟩
  · rw [headOf_insts _ _ _ _ hi.only]
    refine headOf_items _ _ m.head rfl rfl hf.2.2.2.2.2.2.2.2.2.2.2.1 _ ?_
    intro w hw
    obtain ⟨t, -, rfl⟩ := List.mem_map.1 hw
    exact ⟨_, rfl⟩
  · rw [oxmOf_insts _ _ hi.only, oxmOf_items]
  · rw [instsOf_start hst, hi.insts]
  · rw [placeAfter_append, place_start hst]
    exact hi.place _

theorem flowWire_inj {h h' : FlowHead} (hf : h.Fits) (hf' : h'.Fits) {o i o' i' : Bytes} (hl : (h.wire o i).length < 65536)
    (he : h.wire o i = h'.wire o' i') : o = o' ∧ i = i' ∧ h.flags = h'.flags := by
  obtain ⟨-, -, -, -, -, -, -, -, -, -, -, -, a1, -, a2⟩ := flowWire_nums h hf o i hl
  obtain ⟨-, -, -, -, -, -, -, -, -, -, -, -, b1, -, b2⟩ := flowWire_nums h' hf' o' i' (by rw [← he]; exact hl)
  obtain ⟨a3, a4⟩ := flowWire_slices h o i
  obtain ⟨b3, b4⟩ := flowWire_slices h' o' i'
  have h1 : 0 ≤ h.flags := hf.2.2.2.2.2.2.2.2.2.2.2.1
  have h2 : 0 ≤ h'.flags := hf'.2.2.2.2.2.2.2.2.2.2.2.1
  clear hf hf' hl
  rw [← he] at b1 b2 b3 b4
  clear he
  generalize h.wire o i = W at *
  rw [a2] at b2
  rw [← b2] at b3 b4
  rw [a1] at b1
  exact ⟨a3.symm.trans b3, a4.symm.trans b4, by omega⟩

/-- Reading the text of a flow-mod whose parts survive. -/
theorem flow_survive_reads (m : FlowMod) (hv : m.Valid) (hs : PartsSurvive m.mtch m.insts) :
    ∃ text, mod2str m.wire = .ok text ∧ str2mod text m.head.command m.head.xid = .ok m.knownFlags.wire := by
  have hv' := hv
  obtain ⟨hf, hm, hi, hlen⟩ := hv
  obtain ⟨L, hL⟩ := survives_tokens _ _ hi hs
  refine ⟨_, (mod2str_any m hv' _).2 ⟨parts_nonzero _ _ hs, L, hL, rfl⟩, ?_⟩
  obtain ⟨w1, w2, w3, w4⟩ := flowWords_facts m hf
  have hr := rule_reads _ (headItems_words (defaults m.head.command m.head.xid) m.head hf) m.mtch hm m.insts hi hL hs
  have hib : instBytes (flowWords m) = m.insts.flatMap fun i => i.inst.wire := by
    unfold instBytes
    rw [w3, List.flatMap_map]
  have hfit : FlowFits m.head.command m.head.xid (flowWords m) := by
    unfold FlowFits
    rw [w1, w2, w3, hib]
    refine ⟨?_, ?_, ?_⟩
    · obtain ⟨f1, f2, f3, f4, f5, f6, f7, f8, f9, f10, f11, f12⟩ := hf
      refine ⟨f1, f2, f3, f4, f5, f6, f7, f8, f9, f10, f11, ?_⟩
      show FitsIn 2 (m.head.flags % 32)
      refine ⟨by omega, ?_⟩
      have : m.head.flags % 32 < 32 := by omega
      exact Int.lt_of_lt_of_le this (by decide)
    · intro i hi'
      obtain ⟨j, hj, rfl⟩ := List.mem_map.1 hi'
      exact (hi j hj).1
    · have := knownFlags_length m
      unfold FlowMod.wire at this
      have h8 : ∀ (h : FlowHead) a b, (h.wire a b).length = 8 + (h.body a b).length := by
        intro h a b
        simp only [FlowHead.wire, message, List.length_append, u8_length, u16_length, u32_length]
        omega
      rw [← h8]
      exact lt_of_eq_of_lt this hlen
  have key := (str2mod_words hr w4 m.head.command m.head.xid).1 hfit
  unfold flowOf at key
  change str2mod _ _ _ = Except.ok ((headOf _ _ (flowWords m)).wire (oxmOf (flowWords m)) (instBytes (flowWords m))) at key
  rw [w1, w2, hib] at key
  exact key

/-- A flow-mod whose text is read as the flow-mod survives. -/
theorem flow_back_survive (m : FlowMod) (hv : m.Valid) {text : Str} (hp : mod2str m.wire = .ok text)
    (hr : str2mod text m.head.command m.head.xid = .ok m.wire) : m.Survives := by
  obtain ⟨hz, L, hL, rfl⟩ := (mod2str_any m hv _).1 hp
  obtain ⟨hf, hm, hi, hlen⟩ := hv
  obtain ⟨ws, g1, g2, ⟨g3, g4, g5⟩, g6⟩ := str2mod_inv hr
  unfold FlowMod.wire flowOf at g6
  unfold FlowMod.wire at hlen
  obtain ⟨h1, h2, h3⟩ := flowWire_inj hf g3 hlen g6
  have hko : ∀ e ∈ headItems (defaults m.head.command m.head.xid) m.head, e.1.oxmBytes = [] := by
    have := oxmOf_items (defaults m.head.command m.head.xid) m.head []
    rw [List.map_nil, List.append_nil, List.flatMap_nil] at this
    unfold oxmOf at this
    rw [List.flatMap_eq_nil_iff] at this
    exact fun e he => this _ (List.mem_map_of_mem he)
  obtain ⟨k1, k2⟩ := rule_back _ (headItems_words (defaults m.head.command m.head.xid) m.head hf) hko m.mtch hm hz m.insts hi hL
    g1 g2 g4 h1.symm (by rw [h2]; rfl)
  obtain ⟨w1, -⟩ := flowWords_facts m hf
  have : ws = flowWords m := k2
  rw [this, w1] at h3
  refine ⟨?_, k1⟩
  change m.head.flags = m.head.flags % 32 at h3
  omega

end Ofpstr
