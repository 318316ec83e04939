import Verif.Lemmas.FlowExact
import Verif.Lemmas.MpFlow
import Verif.Lemmas.MpText

/-!
# Which flow statistics come back
-/

set_option linter.unusedSimpArgs false

namespace Ofpstr
open Spec

/-! ## Lines -/

theorem line_app {a b : Str} : '\n' ∉ a ++ b ↔ '\n' ∉ a ∧ '\n' ∉ b := by simp

theorem line_hex (m : Bytes) : '\n' ∉ '/' :: b2aHex m := line_clean (hex_tail m).1

theorem oneLine_of {t : Tlv} {p : Bytes} {k : Nat} (hval : t.value = p ++ zeros k) (hk0 : t.mask = none → k = 0)
    (hl : t.mask ≠ none → p.getLast? ≠ some 0) (hi : '\n' ∉ b2aQp p) : t.OneLine := by
  intro _ p' k' hval' hk0' hl'
  have he : p' ++ zeros k' = p ++ zeros k := by rw [← hval]; exact hval'.symm
  by_cases hm : t.mask = none
  · rw [hk0 hm, hk0' hm] at he
    simp [zeros] at he
    rw [he]; exact hi
  · obtain ⟨i, hi'⟩ := zeros_cut he (hl hm)
    obtain ⟨j, hj⟩ := zeros_cut he.symm (hl' hm)
    have h1 := congrArg List.length hi'
    have h2 := congrArg List.length hj
    simp only [List.length_append, zeros, List.length_replicate] at h1 h2
    have : i = 0 := by omega
    rw [hi', this]
    simpa [zeros] using hi

theorem tlvPrint_line (t : Tlv) (hv : t.Valid) {l : Prop} (hs : t.Survives l) : '\n' ∉ tlvPrint t ↔ t.OneLine := by
  by_cases hk : t.field.kind = .ssid
  · rcases ssid_shape t hv hk (ssid_nonzero hk hs) with ⟨hm, htx, -⟩ | ⟨m, p, k, hm, hpn, hpl, hval, -, -, htx, -⟩
    · rw [htx, line_app]
      constructor
      · intro h
        refine oneLine_of (p := t.value) (k := 0) (by simp [zeros]) (fun _ => rfl) (fun h => absurd hm h) ?_
        exact fun hc => h.2 (List.mem_cons_of_mem _ hc)
      · intro h
        have := h hk t.value 0 (by simp [pad]) (fun _ => rfl) (fun h => absurd hm h)
        exact ⟨by decide, line_cons (by decide) this⟩
    · have hm0 : t.mask ≠ none := by rw [hm]; simp
      rw [htx, line_app]
      constructor
      · intro h
        refine oneLine_of hval (fun h => absurd h hm0) (fun _ => hpl) ?_
        exact fun hc => h.2 (List.mem_cons_of_mem _ (List.mem_append_left _ hc))
      · intro h
        have := h hk p k hval (fun h => absurd h hm0) (fun _ => hpl)
        exact ⟨by decide, line_cons (by decide) (line_append this (line_hex m))⟩
  · have hl := (survives_plain hk).1 hs
    obtain ⟨d, h1, h2, h3, -⟩ := tlvText_spec t hv hl
    rw [tlvPrint_eq t h1 h3]
    exact ⟨fun _ h => absurd h hk, fun _ => tlvText_line t hv hl⟩

theorem act_line (a : Act) (hv : a.Valid) {l : Prop} (hs : a.Survives l) {t : Str} (hpr : ∀ rest, act2strOne (a.wire ++ rest) = .ok t) :
    '\n' ∉ t ↔ a.OneLine := by
  have same : ∀ t', (∀ rest, act2strOne (a.wire ++ rest) = .ok t') → t = t' := by
    intro t' h
    have := hpr []
    rw [h] at this
    cases this
    rfl
  have plain : a.Lossless → a.OneLine → ('\n' ∉ t ↔ a.OneLine) := by
    intro hl ho
    have ht := actText_trip a hv hl
    rw [same _ ht.prints]
    exact ⟨fun _ => ho, fun _ => ht.line⟩
  cases a with
  | setField x =>
    by_cases hk : x.field.kind = .ssid
    · have hz := ssid_nonzero hk (show x.Survives l from hs)
      obtain ⟨l1, l2⟩ := tlv_length x hv
      obtain ⟨m1, m2⟩ := setFieldWire_length x.wire
      have hlen : (setFieldWire x.wire).length < 65536 := by
        have := align8_facts (4 + x.wire.length)
        rw [m1, fill_length]; omega
      rw [same (t!"set_" ++ tlvPrint x) (fun rest => by
        show act2strOne (setFieldWire x.wire ++ rest) = _
        rw [(setField_prints x.wire rest hlen).1, ssid_prints x hv hk hz]; rfl), line_app]
      exact ⟨fun h => (tlvPrint_line x hv hs).1 h.2, fun h => ⟨by decide, (tlvPrint_line x hv hs).2 h⟩⟩
    · exact plain ((survives_plain hk).1 hs) (fun h => absurd h hk)
  | regLoad2 x =>
    have hs1 : x.Survives False := hs.1
    by_cases hk : x.field.kind = .ssid
    · have hz := ssid_nonzero hk hs1
      obtain ⟨l1, l2⟩ := tlv_length x hv
      have hfit := nxWire_fits 33 x.wire (by omega)
      have hlen : (nxWire 33 x.wire).length = 10 + (x.wire ++ fill (10 + x.wire.length)).length := by
        unfold nxWire; rw [nxRaw_length]
      have hp := fun rest => nx_prints 33 (x.wire ++ fill (10 + x.wire.length)) rest .regLoad2 (by decide) (by decide)
        (by omega) (by decide)
      rw [same (t!"reg_load2(" ++ (tlvPrint x ++ [')'])) (fun rest => by
        refine (hp rest).1.trans ?_
        simp only [runActDec, regLoad2Act2str]
        rw [ssid_prints x hv hk hz, ok_bind]), line_app, line_app]
      exact ⟨fun h => (tlvPrint_line x hv hs1).1 h.2.1, fun h => ⟨by decide, (tlvPrint_line x hv hs1).2 h, by decide⟩⟩
    · exact plain ⟨(survives_plain hk).1 hs1, fun h => absurd h hk⟩ (fun h => absurd h hk)
  | note b =>
    have hlen : b.length < 60000 := hv
    have hp := fun rest => nx_prints 8 b rest .note (by decide) (by decide) (by omega) (by decide)
    rw [same (t!"note(" ++ (b2aQp b ++ [')'])) (fun rest => by
      refine (hp rest).1.trans ?_
      simp only [runActDec]
      rfl), line_app, line_app]
    exact ⟨fun h => h.2.1, fun h => ⟨by decide, h, by decide⟩⟩
  | _ => exact plain hs trivial

theorem commaList_line' (l : List Str) : '\n' ∉ commaList l ↔ ∀ t ∈ l, '\n' ∉ t := by
  constructor
  · intro h t ht hc
    apply h
    obtain ⟨a, b, rfl⟩ := List.append_of_mem ht
    clear h ht
    induction a with
    | nil =>
      cases b with
      | nil => simpa [commaList] using hc
      | cons x b => simp [commaList, hc]
    | cons x a ih =>
      rw [List.cons_append, commaList_cons _ (by simp)]
      simp [ih]
  · exact commaList_line l

theorem actTexts_line {as : List Act} {ts : List Str} (h : ActTexts as ts) (hv : ∀ a ∈ as, a.Valid) (hs : ∀ a ∈ as, ∃ l, a.Survives l) :
    (∀ t ∈ ts, '\n' ∉ t) ↔ ∀ a ∈ as, a.OneLine := by
  induction h with
  | nil => simp
  | @cons a t as ts hpr _ ih =>
    obtain ⟨l, hl⟩ := hs a (by simp)
    have h1 := act_line a (hv a (by simp)) hl hpr
    have h2 := ih (fun x hx => hv x (by simp [hx])) (fun x hx => hs x (by simp [hx]))
    simp only [List.forall_mem_cons, h1, h2]

theorem instWord_line (i : FInst) : '\n' ∉ (instWord i).2 := by
  have lx : ∀ n, '\n' ∉ fmtX 0 n := fun n => line_clean (intSyntax_clean (intSyntax_fmtX 0 n)).1
  cases i with
  | goto n => exact line_append (by decide) (line_clean (fmtD_clean n))
  | metadata n m =>
    unfold instWord
    dsimp only
    split
    · exact line_append (by decide) (lx n)
    · exact line_append (by decide) (line_append (lx n) (line_cons (by decide) (lx m)))
  | write as => show '\n' ∉ t!"@write"; decide
  | apply as => show '\n' ∉ t!"@apply"; decide
  | clear => show '\n' ∉ t!"@clear"; decide
  | meter n => exact line_append (by decide) (line_clean (fmtD_clean n))

/-! ## A blank before the words -/

theorem getToken_blank {s : Str} (hp : PlainStart s) : (getToken s).1 = [] ∧
    getToken (' ' :: s) = ([' '], (getToken s).2) := by
  have h1 : tokenHead s = [] := tokenHead_of_head (h := []) head_nil hp
  have h2 : tokenHead (' ' :: s) = [' '] := tokenHead_of_head (h := [' ']) (Or.inl (by decide)) hp
  unfold getToken
  simp only [h1, h2, List.length_nil, List.length_cons, List.drop_zero, List.drop_succ_cons, Nat.zero_add, true_and]
  rw [Nat.add_comm 1, List.drop_succ_cons]

theorem reads_blank {ws : List Word} {s : Str} (hs : s ≠ []) (hp : PlainStart s) :
    ReadsWords oxmP actP ws (' ' :: s) [] ↔ ReadsWords oxmP actP ws s [] := by
  obtain ⟨g1, g2⟩ := getToken_blank hp
  rcases hg : getToken s with ⟨h, name, t⟩
  rw [hg] at g1 g2
  dsimp only at g1 g2
  subst g1
  have ht := (getToken_iff _ _ _ _).1 hg
  have hb := (getToken_iff _ _ _ _).1 g2
  constructor
  · intro hr
    obtain ⟨w, u, ws', rfl, -, h2, h3⟩ := reads_inv hr (by simp) hb
    exact .cons s [] name t w u ws' [] hs ht (by simp) h2 h3
  · intro hr
    obtain ⟨w, u, ws', rfl, -, h2, h3⟩ := reads_inv hr hs ht
    exact .cons _ [' '] name t w u ws' [] (by simp) hb (by decide) h2 h3

/-! ## Printing -/

/-- The items of an entry. -/
noncomputable def statToks (e : FlowStat) (L : List (FInst × List Str)) : List Str :=
  (headItems (defaults 0 0) (statHead e)).map (·.2) ++ (e.mtch.map tlvPrint ++ L.flatMap fun e => (instWord e.1).2 :: e.2)

/-- Counters, then other items. -/
def rowOf (cs : List (CKey × Nat)) (texts : List Str) : Str :=
  joinStr t!" " (([cs.map cText, texts].filter fun x => !x.isEmpty).map commaList)

theorem tlvPrint_ne (t : Tlv) (hv : t.Valid) (hz : t.field.kind = .ssid → t.mask ≠ none → ∃ x ∈ t.value, x ≠ 0) : tlvPrint t ≠ [] := by
  obtain ⟨f, hf, z, h1, -⟩ := tlv_form t hv hz
  rw [h1]
  have := (field_name _ hf).2.1
  simp [this]

theorem instToks_ne {is : List FInst} (hi : ∀ i ∈ is, i.Valid) {L : List (FInst × List Str)} (hL : InstTokens is L) :
    ∀ t ∈ L.flatMap (fun e => (instWord e.1).2 :: e.2), t ≠ [] := by
  obtain ⟨g1, g2⟩ := hL
  intro t ht
  obtain ⟨e, he, ht⟩ := List.mem_flatMap.1 ht
  have hei : e.1 ∈ is := by rw [← g1]; exact List.mem_map_of_mem he
  rcases List.mem_cons.1 ht with rfl | ht
  · exact (instWord_isWord e.1).1
  · exact actTexts_ne (hi _ hei).2.1 (g2 e he) t ht

/-- No SSID with a mask is all zeros. -/
def NonZero (ts : List Tlv) : Prop := ∀ t ∈ ts, t.field.kind = .ssid → t.mask ≠ none → ∃ x ∈ t.value, x ≠ 0

theorem statText_any (e : FlowStat) (hv : e.Valid) (rest : Bytes) (text : Str) : statText (e.wire ++ rest) = .ok text ↔
    NonZero e.mtch ∧ ∃ L, InstTokens e.insts L ∧ text = rowOf (statCnts e) (statToks e L) := by
  obtain ⟨n1, n2, n3, n4, n5, n6, n7, n8, n9, n10, n11, n12, n13⟩ := flowStat_nums e hv rest
  obtain ⟨s1, s2⟩ := flowStat_slices e rest
  have hm := hv.2.2.2.2.2.2.2.2.2.2.1
  have hi := hv.2.2.2.2.2.2.2.2.2.2.2.1
  have ho := oxm2str_any e.mtch hm
  have hin := inst2str_any e.insts hi
  unfold statText
  dsimp only
  rw [n1, n2, n3, n4, n5, n6, n7, n8, n9, n10, n11, n12, n13, s1, s2, if_pos (by decide), stat_fixed e hv]
  have hc : countTok t!"packet_count" e.packets ++ (countTok t!"byte_count" e.bytes ++
      (countTok t!"duration_sec" e.sec ++ countTok t!"duration_nsec" e.nsec)) = (statCnts e).map cText := by
    unfold statCnts
    simp only [List.map_append, ← countTok_item]
    rfl
  rw [hc]
  have join : ∀ L, NonZero e.mtch → InstTokens e.insts L →
      joinStr t!" " (([(statCnts e).map cText, (headItems (defaults 0 0) (statHead e)).map (·.2) ++
        (optTok (commaList (e.mtch.map tlvPrint)) ++ optTok (commaList (L.flatMap fun e => (instWord e.1).2 :: e.2)))].filter
          fun x => !x.isEmpty).map (joinStr t!",")) = rowOf (statCnts e) (statToks e L) := by
    intro L hz hL
    have hne1 : ∀ t ∈ e.mtch.map tlvPrint, t ≠ [] := by
      intro t ht
      obtain ⟨x, hx, rfl⟩ := List.mem_map.1 ht
      exact tlvPrint_ne x (hm x hx) (hz x hx)
    have hne2 := instToks_ne hi hL
    have hsame := sameText_append (sameText_opt hne1) (sameText_opt hne2)
      ((headItems (defaults 0 0) (statHead e)).map (·.2)) []
    simp only [List.append_nil] at hsame
    have hemp : ((headItems (defaults 0 0) (statHead e)).map (·.2) ++ (optTok (commaList (e.mtch.map tlvPrint)) ++
        optTok (commaList (L.flatMap fun e => (instWord e.1).2 :: e.2)))).isEmpty = (statToks e L).isEmpty := by
      unfold statToks
      simp only [isEmpty_app, optTok_empty hne1, optTok_empty hne2]
    change _ = commaList (statToks e L) at hsame
    unfold rowOf
    generalize (headItems (defaults 0 0) (statHead e)).map (·.2) ++ (optTok (commaList (e.mtch.map tlvPrint)) ++
        optTok (commaList (L.flatMap fun e => (instWord e.1).2 :: e.2))) = R at *
    rw [show (joinStr t!"," : List Str → Str) = commaList from funext joinStr_commaList]
    congr 1
    simp only [List.filter_cons, List.filter_nil, hemp]
    split <;> split <;> simp [hsame]
  constructor
  · intro h
    obtain ⟨o, h1, h⟩ := bind_ok h
    obtain ⟨i, h2, h⟩ := bind_ok h
    obtain ⟨hz, rfl⟩ := (ho o).1 h1
    obtain ⟨L, hL, rfl⟩ := (hin i).1 h2
    simp only [Except.ok.injEq] at h
    exact ⟨hz, L, hL, by rw [← h]; exact join L hz hL⟩
  · rintro ⟨hz, L, hL, rfl⟩
    have h1 := (ho _).2 ⟨hz, rfl⟩
    unfold wireAll at h1
    rw [h1, ok_bind, (hin _).2 ⟨L, hL, rfl⟩, ok_bind, join L hz hL]

/-- The row that an entry prints. -/
def StatRow (e : FlowStat) (row : Str) : Prop :=
  NonZero e.mtch ∧ ∃ L, InstTokens e.insts L ∧ row = rowOf (statCnts e) (statToks e L)

theorem statsGo_any (l : List FlowStat) (hv : ∀ e ∈ l, e.Valid) (fuel : Nat) (hf : l.length < fuel) (rows : List Str) :
    statsGo fuel (l.flatMap FlowStat.wire) = .ok rows ↔ List.Forall₂ StatRow l rows := by
  induction l generalizing fuel rows with
  | nil =>
    cases fuel with
    | zero => omega
    | succ f =>
      rw [statsGo, if_pos (by decide)]
      constructor
      · intro h; cases h; exact .nil
      · intro h; cases h; rfl
  | cons e l ih =>
    cases fuel with
    | zero => omega
    | succ f =>
      have hL := flowStat_length e
      have hT := tail_length e
      have ha := align8_facts (4 + (e.mtch.flatMap Tlv.wire).length)
      have hve := hv e (by simp)
      have ih := ih (fun x hx => hv x (List.mem_cons_of_mem _ hx)) f (by simpa using hf)
      rw [List.flatMap_cons, statsGo, if_neg (by rw [List.length_append]; omega), (flowStat_nums e hve _).1, List.drop_left,
        bind_iff]
      constructor
      · rintro ⟨row, h1, h⟩
        obtain ⟨rows', h2, h⟩ := bind_iff.1 h
        cases h
        exact .cons ((statText_any e hve _ _).1 h1) ((ih _).1 h2)
      · intro h
        cases h with
        | @cons _ row _ rows' h1 h2 =>
          exact ⟨row, (statText_any e hve _ _).2 h1, bind_iff.2 ⟨rows', (ih _).2 h2, rfl⟩⟩

theorem reply_text_iff (one : Bytes → Py (List Str)) (x k : Nat) (B : Bytes) (rows : List Str) (hx : x < 256 ^ 4)
    (hk : k < 256 ^ 2) (hl : 16 + B.length < 65536) :
    msgsGo one ((mpReply x k B).length + 1) (mpReply x k B) = .ok rows ↔ one (mpReply x k B) = .ok rows := by
  refine ⟨fun h => ?_, reply_text one x k B rows hx hk hl⟩
  have hlen : (mpReply x k B).length = 16 + B.length := by rw [mpReply, mpWire_length]
  have hu : uAt (mpReply x k B) 2 2 = (mpReply x k B).length := by
    have := (mpWire_nums 19 x k 0 B [] (by decide) hx hk hl).2.1
    rw [List.append_nil] at this
    rw [hlen]
    exact this
  have h0 := h
  rw [msgsGo, if_neg (by intro hc; have := List.isEmpty_iff.1 hc; rw [this] at hlen; simp at hlen; omega),
    needBytes_ok _ _ _ (by omega), ok_bind] at h
  dsimp only at h
  rw [hu, List.take_length] at h
  obtain ⟨r, h1, h⟩ := bind_iff.1 h
  have := reply_text one x k B r hx hk hl h1
  rw [h0] at this
  cases this
  exact h1

theorem mpflow_any (es : List FlowStat) (x : Nat) (hv : ∀ e ∈ es, e.Valid) (hx : x < 256 ^ 4)
    (hsize : 16 + (es.flatMap FlowStat.wire).length < 65536) (text : Str) :
    mpflow2text (mpReply x 1 (es.flatMap FlowStat.wire)) = .ok text ↔
      ∃ rows, List.Forall₂ StatRow es rows ∧ text = joinStr t!"\n" rows := by
  obtain ⟨n1, n2, n3, n4⟩ := mpWire_nums 19 x 1 0 (es.flatMap FlowStat.wire) [] (by decide) hx (by decide) hsize
  rw [List.append_nil] at n1 n2 n3
  have hlen := mpWire_length 19 x 1 0 (es.flatMap FlowStat.wire)
  have hcount : es.length ≤ (es.flatMap FlowStat.wire).length := by
    clear hsize n1 n2 n3 n4 hlen hv
    induction es with
    | nil => simp
    | cons e es ih => rw [List.flatMap_cons, List.length_append, List.length_cons]; have := flowStat_length e; omega
  have hone : mpflow2textOne (mpReply x 1 (es.flatMap FlowStat.wire)) =
      statsGo ((es.flatMap FlowStat.wire).length + 1) (es.flatMap FlowStat.wire) := by
    unfold mpflow2textOne
    rw [needBytes_ok _ _ _ (by rw [mpReply]; omega), ok_bind]
    rw [mpReply, n1, n2, n3, show pyAssert (1 == OFPMP_FLOW) = .ok () from rfl, ok_bind, if_neg (by decide)]
    rw [← mpReply, mpReply_slice, mpReply, n4]
  have key := statsGo_any es hv ((es.flatMap FlowStat.wire).length + 1) (by omega)
  unfold mpflow2text
  constructor
  · intro h
    obtain ⟨rows, h1, h⟩ := bind_ok h
    cases h
    refine ⟨rows, ?_, rfl⟩
    rw [← key, ← hone]
    exact (reply_text_iff _ x 1 _ _ hx (by decide) hsize).1 h1
  · rintro ⟨rows, h1, rfl⟩
    rw [← key, ← hone] at h1
    rw [reply_text _ x 1 _ _ hx (by decide) hsize h1, ok_bind]

/-! ## Reading a row -/

/-- A word with a clean name that is not a counter, at its end or before `=`. -/
def FormTok (t : Str) : Prop := ∃ name z, Clean name ∧ name ≠ [] ∧ name ∉ statNames ∧ t = name ++ z ∧ (z = [] ∨ ∃ v, z = '=' :: v)

theorem keyText_form {w : Word} {t : Str} (h : KeyText w t) : FormTok t := by
  cases h with
  | key k p n h => exact ⟨_, _, (keyName_clean k).1, by cases k <;> decide, by cases k <;> decide, rfl, Or.inr ⟨_, rfl⟩⟩
  | cookie p n h => exact ⟨t!"cookie", '=' :: p, by decide, by decide, by decide, rfl, Or.inr ⟨_, rfl⟩⟩
  | cookieMask v m n w h1 h2 => exact ⟨t!"cookie", '=' :: (v ++ '/' :: m), by decide, by decide, by decide, rfl, Or.inr ⟨_, rfl⟩⟩
  | flag _ bit h =>
    have key : ∀ e ∈ flagWords, Clean e.1 ∧ e.1 ≠ [] ∧ e.1 ∉ statNames := by decide
    obtain ⟨k1, k2, k3⟩ := key _ h
    exact ⟨_, [], k1, k2, k3, by simp, Or.inl rfl⟩

theorem tlv_formTok (t : Tlv) (hv : t.Valid) (hz : t.field.kind = .ssid → t.mask ≠ none → ∃ x ∈ t.value, x ≠ 0) : FormTok (tlvPrint t) := by
  obtain ⟨f, hf, z, h1, h2⟩ := tlv_form t hv hz
  have key : ∀ f ∈ fields, f.name ∉ statNames := by decide +kernel
  exact ⟨f.name, z, (field_name _ hf).1, (field_name _ hf).2.1, key f hf, h1, h2⟩

theorem instWord_form (i : FInst) : FormTok (instWord i).2 := by
  cases i with
  | goto n => exact ⟨t!"@goto", '=' :: fmtD n, by decide, by decide, by decide, rfl, Or.inr ⟨_, rfl⟩⟩
  | metadata n m =>
    unfold instWord
    dsimp only
    split
    · exact ⟨t!"@metadata", '=' :: fmtX 0 n, by decide, by decide, by decide, rfl, Or.inr ⟨_, rfl⟩⟩
    · exact ⟨t!"@metadata", '=' :: (fmtX 0 n ++ '/' :: fmtX 0 m), by decide, by decide, by decide, rfl, Or.inr ⟨_, rfl⟩⟩
  | write as => exact ⟨t!"@write", [], by decide, by decide, by decide, rfl, Or.inl rfl⟩
  | apply as => exact ⟨t!"@apply", [], by decide, by decide, by decide, rfl, Or.inl rfl⟩
  | clear => exact ⟨t!"@clear", [], by decide, by decide, by decide, rfl, Or.inl rfl⟩
  | meter n => exact ⟨t!"@meter", '=' :: fmtD n, by decide, by decide, by decide, rfl, Or.inr ⟨_, rfl⟩⟩

theorem statToks_first (e : FlowStat) (hv : e.Valid) (hz : NonZero e.mtch) {L : List (FInst × List Str)} :
    statToks e L = [] ∨ ∃ t r, statToks e L = t :: r ∧ FormTok t := by
  have hk := headItems_keys (defaults 0 0) _ (statHead_fits e hv)
  have hm := hv.2.2.2.2.2.2.2.2.2.2.1
  unfold statToks
  cases hks : headItems (defaults 0 0) (statHead e) with
  | cons k ks => exact Or.inr ⟨_, _, rfl, keyText_form (hk k (by rw [hks]; simp)).2⟩
  | nil =>
    cases hms : e.mtch with
    | cons t ts => exact Or.inr ⟨_, _, rfl, tlv_formTok t (hm t (by rw [hms]; simp)) (hz t (by rw [hms]; simp))⟩
    | nil =>
      cases L with
      | nil => exact Or.inl rfl
      | cons i L => exact Or.inr ⟨_, _, rfl, instWord_form i.1⟩

theorem commaList_head (t : Str) (r : List Str) : ∃ z, commaList (t :: r) = t ++ z ∧ (z = [] ∨ ∃ z', z = ',' :: z') := by
  cases r with
  | nil => exact ⟨[], by simp [commaList], Or.inl rfl⟩
  | cons a r => exact ⟨_, commaList_cons _ (by simp), Or.inr ⟨_, rfl⟩⟩

theorem form_first {t : Str} (ht : FormTok t) (r : List Str) : commaList (t :: r) ≠ [] ∧ PlainStart (commaList (t :: r)) ∧
    (getToken (commaList (t :: r))).2.1 ∉ statNames := by
  obtain ⟨name, z, h1, h2, h3, rfl, h4⟩ := ht
  obtain ⟨y, h5, h6⟩ := commaList_head (name ++ z) r
  rw [h5, List.append_assoc]
  refine ⟨by simp [h2], ?_, ?_⟩
  · obtain ⟨c, s, rfl⟩ := List.exists_cons_of_ne_nil h2
    intro c' u e
    cases e
    exact h1.plainStart c s rfl
  · have := getToken_head head_nil h1.token (form_atEnd h4 h6) h1.plainStart h2
    rw [List.nil_append] at this
    rw [this]
    exact h3

/-- A row is the counters, perhaps a blank, and the other items. -/
theorem rowOf_split (cs : List (CKey × Nat)) (texts : List Str) : ∃ h : Str, (h = [] ∨ h = [' '] ∧ texts ≠ []) ∧
    (cs ≠ [] → Boundary (h ++ commaList texts)) ∧ rowOf cs texts = commaList (cs.map cText) ++ (h ++ commaList texts) := by
  unfold rowOf
  by_cases h1 : cs = [] <;> by_cases h2 : texts = []
  · exact ⟨[], Or.inl rfl, fun h => absurd h1 h, by simp [h1, h2, joinStr, commaList]⟩
  · exact ⟨[], Or.inl rfl, fun h => absurd h1 h, by simp [h1, h2, joinStr, commaList]⟩
  · exact ⟨[], Or.inl rfl, fun _ => by rw [h2]; exact atEnd_nil, by simp [h1, h2, joinStr, commaList]⟩
  · exact ⟨[' '], Or.inr ⟨rfl, h2⟩, fun _ => atEnd_sep (by decide) _, by simp [h1, h2, joinStr]⟩

/-- Counters, then whatever is not a counter. -/
theorem parseStat_rest (l : List (CKey × Nat)) (hl : ∀ e ∈ l, e.1 ≠ .ref) {s : Str} (hb : l ≠ [] → Boundary s)
    (hstop : s = [] ∨ (getToken s).2.1 ∉ statNames) :
    parseStat (commaList (l.map cText) ++ s) = (do let i ← str2dict s; .ok (setAll {} l, i) : Py (Counters × Info)) := by
  have hgo : countersGo ((commaList (l.map cText) ++ s).length + 1) {} (commaList (l.map cText) ++ s) = .ok (setAll {} l, s) := by
    by_cases hn : l = []
    · subst hn
      exact countersGo_stop _ _ _ hstop
    · obtain ⟨f, h1, h2⟩ := countersGo_words l hl hn {} (h := []) (by simp) (hb hn)
        ((commaList (l.map cText) ++ s).length + 1) (by simp)
      rw [List.nil_append] at h2
      rw [h2]
      cases f with
      | zero => omega
      | succ f => exact countersGo_stop _ _ _ hstop
  rw [parseStat, hgo, ok_bind]

theorem parseStat_row (e : FlowStat) (hv : e.Valid) (hz : NonZero e.mtch) {L : List (FInst × List Str)} :
    ∃ h, parseStat (rowOf (statCnts e) (statToks e L)) =
      (do let i ← str2dict (h ++ commaList (statToks e L)); .ok (setAll {} (statCnts e), i) : Py (Counters × Info)) ∧
    ∀ ws, ReadsWords oxmP actP ws (h ++ commaList (statToks e L)) [] ↔ ReadsWords oxmP actP ws (commaList (statToks e L)) [] := by
  obtain ⟨h, h1, h2, h3⟩ := rowOf_split (statCnts e) (statToks e L)
  refine ⟨h, ?_, ?_⟩
  · rw [h3]
    refine parseStat_rest _ (statCnts_keys e) h2 ?_
    rcases statToks_first e hv hz (L := L) with h4 | ⟨t, r, h4, h5⟩
    · rcases h1 with rfl | ⟨-, h1⟩
      · rw [h4]; exact Or.inl rfl
      · exact absurd h4 h1
    · rw [h4]
      obtain ⟨k1, k2, k3⟩ := form_first h5 r
      right
      rcases h1 with rfl | ⟨rfl, -⟩
      · exact k3
      · rw [List.singleton_append, (getToken_blank k2).2]
        exact k3
  · intro ws
    rcases h1 with rfl | ⟨rfl, h1⟩
    · rfl
    · rcases statToks_first e hv hz (L := L) with h4 | ⟨t, r, h4, h5⟩
      · exact absurd h4 h1
      · rw [h4]
        obtain ⟨k1, k2, k3⟩ := form_first h5 r
        exact reads_blank k1 k2

theorem setAll_counts (c : Counters) (l : List (CKey × Nat)) : setAll c l = setCounts c (l.map fun e => (e.1.name, (e.2 : Int))) := by
  induction l generalizing c with
  | nil => rfl
  | cons e l ih =>
    have : setAll c (e :: l) = setAll (e.1.set e.2 c) l := rfl
    rw [this, ih]
    obtain ⟨k, n⟩ := e
    cases k <;> rfl

/-- The words of a printed entry. -/
noncomputable def statWords (e : FlowStat) : List Word :=
  (headItems (defaults 0 0) (statHead e)).map (·.1) ++ (e.mtch.map (fun t => .oxm t.wire) ++ e.insts.flatMap instWordsOf)

theorem statWords_eq (e : FlowStat) : statWords e = (statItems e).map (·.1) ++ e.insts.flatMap instWordsOf := by
  rw [statItems_map, statWords, List.append_assoc]

theorem statWords_facts (e : FlowStat) (hv : e.Valid) : instsOf (statWords e) = e.insts.map FInst.inst ∧ placeAfter .start (statWords e) ≠ none := by
  have hi := instWords_of e.insts
  have hst : ∀ w ∈ (statItems e).map (·.1), StartWord w := by
    rw [statItems_map]
    intro w hw
    rcases List.mem_append.1 hw with hw | hw
    · obtain ⟨x, hx, rfl⟩ := List.mem_map.1 hw
      exact (headItems_words _ _ (statHead_fits e hv) x hx).1
    · obtain ⟨t, -, rfl⟩ := List.mem_map.1 hw
      trivial
  rw [statWords_eq]
  refine ⟨?_, ?_⟩
  · rw [instsOf_start hst, hi.insts]
  · rw [placeAfter_append, place_start hst]
    exact hi.place _

theorem stat_body' (e : FlowStat) (hv : e.Valid) (h5 : ∀ i, Word.flag i ∈ statWords e → i < 5) :
    statBody 19 (setAll {} (statCnts e)) (infoAfter {} (statWords e) (instsOf (statWords e))) = .ok e.seen.wire := by
  have h1 := (statWords_facts e hv).1
  rw [statWords_eq] at h1 h5 ⊢
  exact stat_body e hv _ (instWords_of e.insts).only h5 h1

/-- Reading the row of an entry whose parts survive. -/
theorem statRow_reads (e : FlowStat) (hv : e.Valid) (hs : PartsSurvive e.mtch e.insts) {row : Str} (hr : StatRow e row) :
    ∃ c i, parseStat row = .ok (c, i) ∧ statBody 19 c i = .ok e.seen.wire := by
  obtain ⟨hz, L, hL, rfl⟩ := hr
  have hm := hv.2.2.2.2.2.2.2.2.2.2.1
  have hi := hv.2.2.2.2.2.2.2.2.2.2.2.1
  obtain ⟨h, h1, h2⟩ := parseStat_row e hv hz (L := L)
  have h3 : ReadsWords oxmP actP (statWords e) (commaList (statToks e L)) [] :=
    rule_reads _ (headItems_words (defaults 0 0) _ (statHead_fits e hv)) e.mtch hm e.insts hi hL hs
  obtain ⟨w1, w2⟩ := statWords_facts e hv
  have hd := str2dict_words ((h2 _).2 h3) w2
  rw [guard_pos (by
    rw [w1]
    intro i hi'
    obtain ⟨j, hj, rfl⟩ := List.mem_map.1 hi'
    exact (hi j hj).1)] at hd
  refine ⟨_, _, ?_, stat_body' e hv (reads_flags h3)⟩
  rw [h1, hd, ok_bind]

theorem matchWire_inj {a b x y : Bytes} (ha : 4 + a.length < 65536) (hb : 4 + b.length < 65536)
    (h : matchWire a ++ x = matchWire b ++ y) : a = b ∧ x = y := by
  simp only [matchWire, List.append_assoc] at h
  have h1 := List.append_cancel_left h
  obtain ⟨h2, h3⟩ := List.append_inj h1 (by simp [u16_length])
  have h4 : 4 + a.length = 4 + b.length := be_inj (k := 2) (by simpa using ha) (by simpa using hb) h2
  obtain ⟨rfl, h5⟩ := List.append_inj h3 (by omega)
  exact ⟨rfl, List.append_cancel_left h5⟩

/-- An entry whose row is read as the entry survives, apart from line feeds. -/
theorem statRow_back (e : FlowStat) (hv : e.Valid) {row : Str} (hr : StatRow e row) {c : Counters} {i : Info}
    (h1 : parseStat row = .ok (c, i)) (h2 : statBody 19 c i = .ok e.wire) :
    e.flags < 32 ∧ e.priority ≠ 0x8000 ∧ PartsSurvive e.mtch e.insts := by
  obtain ⟨hz, L, hL, rfl⟩ := hr
  have hm := hv.2.2.2.2.2.2.2.2.2.2.1
  have hi := hv.2.2.2.2.2.2.2.2.2.2.2.1
  obtain ⟨h, h3, h4⟩ := parseStat_row e hv hz (L := L)
  rw [h3] at h1
  obtain ⟨i', h5, h1⟩ := bind_iff.1 h1
  cases h1
  obtain ⟨ws, h6, h7⟩ := str2dict_inv h5
  have hd := str2dict_words h6 h7
  rw [h5] at hd
  unfold guardFits at hd
  split at hd
  · rename_i hfit
    cases hd
    have h8 := (h4 _).1 h6
    have hb := h2
    rw [setAll_counts] at h2
    obtain ⟨⟨-, -, g5⟩, g6⟩ := (statBody_reply _ ws (reads_flags h6) _).1 h2
    obtain ⟨k1, k2⟩ : oxmOf ws = wireAll e.mtch ∧ (instsOf ws).flatMap Inst.wire = e.insts.flatMap fun i => i.inst.wire := by
      have e1 : e.wire.drop 48 = e.tail := by
        obtain ⟨F, h1, h2⟩ : ∃ F : Bytes, F.length = 48 ∧ e.wire = F ++ e.tail := by
          refine ⟨u16 (48 + e.tail.length) ++ (u8 e.table ++ (pad 1 ++ (u32 e.sec ++ (u32 e.nsec ++ (u16 e.priority ++
            (u16 e.idle ++ (u16 e.hard ++ (u16 e.flags ++ (pad 4 ++ (u64 e.cookie ++ (u64 e.packets ++ u64 e.bytes))))))))))), ?_, ?_⟩
          · simp only [List.length_append, u8_length, u16_length, u32_length, u64_length, pad_length]
          · simp only [FlowStat.wire, List.append_assoc]
        rw [h2, ← h1, List.drop_left]
      have e2 : e.wire.drop 48 = statTail ws := by
        rw [g6, statOf]
        simp only [← List.append_assoc]
        rw [List.drop_left' (by simp only [List.length_append, u8_length, u16_length, u32_length, u64_length, pad_length])]
      have hT := tail_length e
      have hL := flowStat_length e
      have ha := align8_facts (4 + (e.mtch.flatMap Tlv.wire).length)
      have hb := align8_facts (4 + (oxmOf ws).length)
      have h13 := hv.2.2.2.2.2.2.2.2.2.2.2.2
      rw [e1] at e2
      have hl2 : (statTail ws).length = align8 (4 + (oxmOf ws).length) + (instBytes ws).length := by
        rw [statTail, List.length_append, matchWire_length]
      obtain ⟨q1, q2⟩ := matchWire_inj (by omega) (by omega) e2
      exact ⟨q1.symm, q2.symm⟩
    have hko : ∀ x ∈ headItems (defaults 0 0) (statHead e), x.1.oxmBytes = [] := by
      have := oxmOf_items (defaults 0 0) (statHead e) []
      rw [List.map_nil, List.append_nil, List.flatMap_nil] at this
      unfold oxmOf at this
      rw [List.flatMap_eq_nil_iff] at this
      exact fun e he => this _ (List.mem_map_of_mem he)
    obtain ⟨m1, m2⟩ := rule_back _ (headItems_words (defaults 0 0) _ (statHead_fits e hv)) hko e.mtch hm hz e.insts hi hL h8 h7 hfit k1 k2
    have m3 : ws = statWords e := m2
    subst m3
    rw [stat_body' e hv (reads_flags h6)] at hb
    obtain ⟨q1, q2⟩ := seen_wire_inj e hv (Except.ok.inj hb)
    exact ⟨q1, q2, m1⟩
  · cases hd

/-! ## Lines of rows -/

theorem rowOf_line (cs : List (CKey × Nat)) (texts : List Str) : '\n' ∉ rowOf cs texts ↔ ∀ t ∈ texts, '\n' ∉ t := by
  obtain ⟨h, h1, -, h3⟩ := rowOf_split cs texts
  have hc : '\n' ∉ commaList (cs.map cText) := by
    refine commaList_line _ ?_
    intro t ht
    obtain ⟨x, _, rfl⟩ := List.mem_map.1 ht
    exact cText_line x
  have hh : '\n' ∉ h := by rcases h1 with rfl | ⟨rfl, -⟩ <;> decide
  rw [h3, line_app, line_app, commaList_line' texts]
  exact ⟨fun h => h.2.2, fun h => ⟨hc, hh, h⟩⟩

theorem insts_line {is : List FInst} {L : List (FInst × List Str)} (hi : ∀ i ∈ is, i.Valid) (hL : InstTokens is L)
    (hs : ∀ i ∈ is, ∀ a ∈ i.actions, ∃ l, a.Survives l) :
    (∀ t ∈ L.flatMap (fun e => (instWord e.1).2 :: e.2), '\n' ∉ t) ↔ ∀ i ∈ is, ∀ a ∈ i.actions, a.OneLine := by
  obtain ⟨rfl, g2⟩ := hL
  have key : ∀ e ∈ L, ((∀ t ∈ e.2, '\n' ∉ t) ↔ ∀ a ∈ e.1.actions, a.OneLine) := fun e he =>
    actTexts_line (g2 e he) (hi e.1 (List.mem_map_of_mem he)).2.1 (hs e.1 (List.mem_map_of_mem he))
  constructor
  · intro h i hi'
    obtain ⟨e, he, rfl⟩ := List.mem_map.1 hi'
    exact (key e he).1 fun t ht => h t (List.mem_flatMap.2 ⟨e, he, List.mem_cons_of_mem _ ht⟩)
  · intro h t ht
    obtain ⟨e, he, ht⟩ := List.mem_flatMap.1 ht
    rcases List.mem_cons.1 ht with rfl | ht
    · exact instWord_line e.1
    · exact (key e he).2 (h e.1 (List.mem_map_of_mem he)) t ht

theorem statRow_oneLine (e : FlowStat) (hv : e.Valid) (hs : PartsSurvive e.mtch e.insts) {row : Str} (hr : StatRow e row) :
    '\n' ∉ row ↔ (∀ t ∈ e.mtch, t.OneLine) ∧ ∀ i ∈ e.insts, ∀ a ∈ i.actions, a.OneLine := by
  obtain ⟨hz, L, hL, rfl⟩ := hr
  have hm := hv.2.2.2.2.2.2.2.2.2.2.1
  have hi := hv.2.2.2.2.2.2.2.2.2.2.2.1
  have h1 := insts_line hi hL (by
    intro i hi' x hx
    obtain ⟨a, b, hab⟩ := List.append_of_mem hi'
    obtain ⟨c, d, hd⟩ := List.append_of_mem hx
    exact ⟨_, hs.2 a i b hab c x d hd⟩)
  have h2 : (∀ t ∈ e.mtch.map tlvPrint, '\n' ∉ t) ↔ ∀ t ∈ e.mtch, t.OneLine := by
    rw [List.forall_mem_map]
    refine forall₂_congr fun t ht => ?_
    obtain ⟨a, b, hab⟩ := List.append_of_mem ht
    exact tlvPrint_line t (hm t ht) (hs.1 a t b hab)
  rw [rowOf_line, ← h1, ← h2]
  unfold statToks
  simp only [List.forall_mem_append]
  refine ⟨fun h => h.2, fun h => ⟨?_, h⟩⟩
  intro t ht
  obtain ⟨x, hx, rfl⟩ := List.mem_map.1 ht
  exact keyText_line (headItems_keys _ _ (statHead_fits e hv) x hx).2

/-! ## Entries of a reply -/

/-- Bytes that start with their length. -/
def Sized (b : Bytes) : Prop := b ≠ [] ∧ ∀ rest, uAt (b ++ rest) 0 2 = b.length

theorem sized_unique {as bs : List Bytes} (ha : ∀ b ∈ as, Sized b) (hb : ∀ b ∈ bs, Sized b) (h : as.flatten = bs.flatten) : as = bs := by
  induction as generalizing bs with
  | nil =>
    cases bs with
    | nil => rfl
    | cons b bs => exact absurd h.symm (by simp [(hb b (by simp)).1])
  | cons a as ih =>
    cases bs with
    | nil => exact absurd h (by simp [(ha a (by simp)).1])
    | cons b bs =>
      rw [List.flatten_cons, List.flatten_cons] at h
      have h1 := (ha a (by simp)).2 as.flatten
      rw [h, (hb b (by simp)).2] at h1
      obtain ⟨rfl, h2⟩ := List.append_inj h h1.symm
      rw [ih (fun b hb => ha b (by simp [hb])) (fun b h => hb b (by simp [h])) h2]

theorem forall₂_mem_right {α β : Type} {R : α → β → Prop} {l : List α} {m : List β} (h : List.Forall₂ R l m) : ∀ b ∈ m, ∃ a ∈ l, R a b := by
  induction h with
  | nil => simp
  | cons h1 _ ih =>
    intro b hb
    rcases List.mem_cons.1 hb with rfl | hb
    · exact ⟨_, by simp, h1⟩
    · obtain ⟨a, ha, hr⟩ := ih b hb
      exact ⟨a, by simp [ha], hr⟩

theorem splitAll_length (txt : Str) : (splitAll '\n' txt).length = txt.count '\n' + 1 := by
  obtain ⟨h1, h2⟩ := splitAll_eq '\n' txt _ rfl
  have h3 := splitAll_ne_nil '\n' txt
  conv_rhs => rw [h2]
  generalize splitAll '\n' txt = ls at *
  clear h2
  induction ls with
  | nil => exact absurd rfl h3
  | cons l ls ih =>
    have hl : l.count '\n' = 0 := List.count_eq_zero.2 (h1 l (by simp))
    cases ls with
    | nil => simp [joinStr, hl]
    | cons m ls =>
      have := ih (fun t ht => h1 t (List.mem_cons_of_mem _ ht)) (by simp)
      have e : List.count '\n' ['\n'] = 1 := by decide
      rw [joinStr, List.count_append, List.count_append, hl, e, List.length_cons, this]
      omega

theorem join_count (rows : List Str) (hn : rows ≠ []) (h : (splitAll '\n' (joinStr t!"\n" rows)).length = rows.length) :
    ∀ t ∈ rows, '\n' ∉ t := by
  rw [splitAll_length] at h
  have key : ∀ rows : List Str, rows ≠ [] → (joinStr t!"\n" rows).count '\n' + 1 = rows.length + (rows.map fun t => t.count '\n').sum := by
    intro rows hn
    induction rows with
    | nil => exact absurd rfl hn
    | cons l ls ih =>
      cases ls with
      | nil => simp [joinStr]; omega
      | cons m ls =>
        have := ih (by simp)
        rw [joinStr, List.count_append, List.count_append, List.map_cons, List.sum_cons, List.length_cons]
        have e : List.count '\n' t!"\n" = 1 := by decide
        omega
  have h0 : (rows.map fun t => t.count '\n').sum = 0 := by have := key rows hn; omega
  intro t ht
  rw [List.sum_eq_zero_iff] at h0
  exact List.count_eq_zero.1 (h0 _ (List.mem_map_of_mem ht))

theorem mpflow_raw (txt : Str) (x : Nat) (hx : x < 256 ^ 4) (m : Bytes) : text2mpflow txt 19 x = .ok m ↔
    ∃ bs, List.Forall₂ (fun l b => ∃ c i, parseStat l = .ok (c, i) ∧ statBody 19 c i = .ok b) (splitAll '\n' txt) bs ∧
      16 + bs.flatten.length < 65536 ∧ m = mpReply x 1 bs.flatten := by
  unfold text2mpflow
  rw [bind_iff]
  constructor
  · rintro ⟨rules, h1, h⟩
    obtain ⟨cap, h2, h⟩ := bind_iff.1 h
    obtain ⟨bs, h3, h4⟩ := (mpflowGo_iff _ _ _ _).1 ⟨rules, h1, h2⟩
    obtain ⟨h5, rfl⟩ := (packLines_iff _ _).1 h4
    obtain ⟨-, rfl⟩ := (mpMessage_iff _ _ _ _ _ (by decide)).1 h
    exact ⟨bs, h3, h5, rfl⟩
  · rintro ⟨bs, h3, h5, rfl⟩
    obtain ⟨rules, h1, h2⟩ := (mpflowGo_iff _ _ _ _).2 ⟨bs, h3, (packLines_iff _ _).2 ⟨h5, rfl⟩⟩
    refine ⟨rules, h1, bind_iff.2 ⟨_, h2, (mpMessage_iff _ _ _ _ _ (by decide)).2 ⟨⟨?_, ?_, h5⟩, rfl⟩⟩⟩
    · decide
    · exact fitsIn_cast hx

theorem statLine_sized {l : Str} {b : Bytes} {c : Counters} {i : Info} (h1 : parseStat l = .ok (c, i)) (h2 : statBody 19 c i = .ok b) : Sized b := by
  obtain ⟨⟨l, ws⟩, h3, h4, rfl, rfl⟩ := (parseStat_iff _ _ _).1 h1
  obtain ⟨r, -, h5, -⟩ := id h3
  rw [← readsWords_len] at h5
  obtain ⟨⟨-, -, h8⟩, rfl⟩ := (statBody_reply _ _ (reads_flags h5) _).1 h2
  have hl : (statOf l ws).length = 48 + (statTail ws).length := by
    simp only [statOf, List.length_append, u8_length, u16_length, u32_length, u64_length, pad_length]
    omega
  refine ⟨fun h => ?_, fun rest => ?_⟩
  · rw [h] at hl; simp at hl; omega
  · rw [hl, statOf, List.append_assoc]
    exact uAt_u16_here _ _ h8

theorem flowStat_sized (e : FlowStat) (hv : e.Valid) : Sized e.wire := by
  have hl := flowStat_length e
  refine ⟨fun h => ?_, fun rest => (flowStat_nums e hv rest).1⟩
  rw [h] at hl; simp at hl; omega

/-- Exactly the replies whose entries survive come back. -/
theorem flowStats_exact (es : List FlowStat) (x : Nat) (hv : ∀ e ∈ es, e.Valid) (hx : x < 256 ^ 4)
    (hsize : 16 + (es.flatMap FlowStat.wire).length < 65536) :
    (∃ text, mpflow2text (mpReply x 1 (es.flatMap FlowStat.wire)) = .ok text ∧
      text2mpflow text 19 x = .ok (mpReply x 1 (es.flatMap FlowStat.wire))) ↔ es ≠ [] ∧ ∀ e ∈ es, e.Survives := by
  constructor
  · rintro ⟨text, h1, h2⟩
    obtain ⟨rows, h3, rfl⟩ := (mpflow_any es x hv hx hsize _).1 h1
    obtain ⟨bs, h4, h5, h6⟩ := (mpflow_raw _ x hx _).1 h2
    have h7 := mpReply_inj hx (by decide) hsize h5 h6
    rw [List.flatMap_def] at h7
    have hbs : ∀ b ∈ bs, Sized b := by
      intro b hb
      obtain ⟨l, -, c, i, k1, k2⟩ := forall₂_mem_right h4 b hb
      exact statLine_sized k1 k2
    have h8 := sized_unique (by
      intro b hb
      obtain ⟨e, he, rfl⟩ := List.mem_map.1 hb
      exact flowStat_sized e (hv e he)) hbs h7
    subst h8
    have h9 := h4.length_eq
    have h10 := h3.length_eq
    rw [List.length_map] at h9
    have hne : es ≠ [] := by
      intro h
      rw [h] at h9
      exact splitAll_ne_nil _ _ (List.length_eq_zero_iff.1 h9)
    have hrn : rows ≠ [] := by
      intro h
      rw [h] at h10
      exact hne (List.length_eq_zero_iff.1 h10)
    have h11 := join_count rows hrn (by rw [h9, h10])
    rw [rows_split rows hrn h11] at h4
    refine ⟨hne, ?_⟩
    clear h1 h2 h5 h6 h7 h9 h10 hne hrn hsize hbs
    induction h3 with
    | nil => simp
    | @cons e row es rows hr _ ih =>
      rw [List.map_cons] at h4
      cases h4 with
      | cons hb h4 =>
        obtain ⟨c, i, k1, k2⟩ := hb
        intro e' he'
        rcases List.mem_cons.1 he' with rfl | he'
        · have hve := hv e' (by simp)
          obtain ⟨q1, q2, q3⟩ := statRow_back e' hve hr k1 k2
          obtain ⟨q4, q5⟩ := (statRow_oneLine e' hve q3 hr).1 (h11 row (by simp))
          exact ⟨q1, q2, q3, q4, q5⟩
        · exact ih (fun x hx => hv x (by simp [hx])) h4 (fun x hx => h11 x (by simp [hx])) e' he'
  · rintro ⟨hne, hs⟩
    obtain ⟨rows, h1, h2, h3⟩ : ∃ rows, List.Forall₂ StatRow es rows ∧ (∀ t ∈ rows, '\n' ∉ t) ∧
        List.Forall₂ (fun l b => ∃ c i, parseStat l = .ok (c, i) ∧ statBody 19 c i = .ok b) rows (es.map FlowStat.wire) := by
      clear hne hsize
      induction es with
      | nil => exact ⟨[], .nil, by simp, .nil⟩
      | cons e es ih =>
        obtain ⟨rows, h1, h2, h3⟩ := ih (fun x hx => hv x (by simp [hx])) (fun x hx => hs x (by simp [hx]))
        have hve := hv e (by simp)
        obtain ⟨s1, s2, s3, s4, s5⟩ := hs e (by simp)
        obtain ⟨L, hL⟩ := survives_tokens _ _ hve.2.2.2.2.2.2.2.2.2.2.2.1 s3
        have hr : StatRow e _ := ⟨parts_nonzero _ _ s3, L, hL, rfl⟩
        have hse : e.seen = e := by
          unfold FlowStat.seen
          rw [if_neg s2, Nat.mod_eq_of_lt s1]
        refine ⟨_ :: rows, .cons hr h1, ?_, ?_⟩
        · intro t ht
          rcases List.mem_cons.1 ht with rfl | ht
          · exact (statRow_oneLine e hve s3 hr).2 ⟨s4, s5⟩
          · exact h2 t ht
        · have := statRow_reads e hve s3 hr
          rw [hse] at this
          exact .cons this h3
    have hrn : rows ≠ [] := by
      intro h
      rw [h] at h1
      cases h1
      exact hne rfl
    refine ⟨_, (mpflow_any es x hv hx hsize _).2 ⟨rows, h1, rfl⟩, (mpflow_raw _ x hx _).2 ⟨es.map FlowStat.wire, ?_, ?_, ?_⟩⟩
    · rw [rows_split rows hrn h2]; exact h3
    · rw [← List.flatMap_def]; exact hsize
    · rw [← List.flatMap_def]

end Ofpstr
