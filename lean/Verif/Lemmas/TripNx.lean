import Verif.Lemmas.TripStd

/-!
# Printing and parsing the simple Nicira actions
-/

namespace Ofpstr
open Spec

/-! ## Text between brackets -/

theorem inside_append' {e : Char} {s t : Str} (hs : Inside e s) (ht : Inside e t) : Inside e (s ++ t) := by
  induction hs with
  | nil e => simpa using ht
  | char e c s h1 h2 h3 ih => exact .char e c _ h1 h2 (ih ht)
  | nest e o e' p s h1 h2 h3 h4 ih1 ih2 =>
    have := Inside.nest e o e' p (s ++ t) h1 h2 h3 (ih2 ht)
    simpa using this

theorem inside_chars {e : Char} {s : Str} (h : ∀ c ∈ s, c ≠ e ∧ NotOpen c) : Inside e s := by
  induction s with
  | nil => exact .nil e
  | cons c s ih =>
    exact .char e c s (h c (by simp)).1 (h c (by simp)).2 (ih fun x hx => h x (by simp [hx]))

theorem inside_append {e : Char} {s t : Str} (hs : InLine e s) (ht : InLine e t) : InLine e (s ++ t) :=
  ⟨inside_append' hs.ins ht.ins, line_append hs.line ht.line⟩

theorem inside_clean {s : Str} (h : Clean s) (hp : NP s) : InLine ')' s := ⟨clean_inside ')' h hp, line_clean h⟩

theorem inside_cons {e c : Char} {s : Str} (h1 : c ≠ e) (h2 : NotOpen c ∧ c ≠ '\n') (h : InLine e s) :
    InLine e (c :: s) := ⟨.char e c s h1 h2.1 h.ins, line_cons h2.2 h.line⟩

theorem inside_comma {s t : Str} (hs : InLine ')' s) (ht : InLine ')' t) :
    InLine ')' (s ++ ',' :: t) :=
  inside_append hs (inside_cons (by decide) (by decide) ht)

theorem inside_join {ss : List Str} (h : ∀ s ∈ ss, InLine ')' s) : InLine ')' (joinStr t!"," ss) := by
  induction ss with
  | nil => exact ⟨.nil _, List.not_mem_nil⟩
  | cons s ss ih =>
    cases ss with
    | nil => exact h s (by simp)
    | cons t ss =>
      have := inside_comma (h s (by simp)) (ih fun x hx => h x (by simp [hx]))
      simpa [joinStr] using this

theorem getToken_comma_clean {s r : Str} (h : Clean s) (hn : s ≠ []) (hr : AtEnd r) :
    getToken (',' :: (s ++ r)) = ([','], s, r) := getToken_comma h.token hr h.plainStart hn

theorem getToken_comma_last {s : Str} (h : Clean s) (hn : s ≠ []) :
    getToken (',' :: s) = ([','], s, []) := by
  have := getToken_comma_clean h hn atEnd_nil
  rwa [List.append_nil] at this

/-! ## Comma separated lists -/

theorem splitGo_join (ps : List Str) (h : ∀ p ∈ ps, Clean p ∧ p ≠ []) (f : Nat)
    (hf : (joinStr t!"," ps).length < f) : splitGo f [] (joinStr t!"," ps) = ps := by
  induction ps generalizing f with
  | nil =>
    cases f with
    | zero => simp [joinStr] at hf
    | succ f => rfl
  | cons p ps ih =>
    have hp := h p (by simp)
    have hplain : ∀ c ∈ p, ¬ SepChar c ∧ NotOpen c := fun c hc => ⟨(hp.1 c hc).notSep, (hp.1 c hc).2.2.2⟩
    have hne : p.isEmpty = false := by
      cases p with
      | nil => exact absurd rfl hp.2
      | cons c s => rfl
    cases ps with
    | nil =>
      simp only [joinStr] at hf ⊢
      have := splitGo_plain p hplain (f - p.length) [] []
      rw [show p.length + (f - p.length) = f by omega, List.append_nil] at this
      rw [this]
      cases hx : f - p.length with
      | zero => omega
      | succ n => simp [splitGo, hne]
    | cons q ps =>
      have e : joinStr t!"," (p :: q :: ps) = p ++ ',' :: joinStr t!"," (q :: ps) := by
        simp [joinStr]
      rw [e] at hf ⊢
      simp only [List.length_append, List.length_cons] at hf
      have := splitGo_plain p hplain (f - p.length) [] (',' :: joinStr t!"," (q :: ps))
      rw [show p.length + (f - p.length) = f by omega] at this
      rw [this]
      cases hx : f - p.length with
      | zero => omega
      | succ n =>
        simp only [splitGo, List.nil_append, hne]
        rw [if_pos (by decide), if_neg (by simp)]
        rw [ih (fun x hx => h x (by simp [hx])) n (by omega)]

theorem splitTokens_join (ps : List Str) (h : ∀ p ∈ ps, Clean p ∧ p ≠ []) :
    splitTokens (joinStr t!"," ps) = ps := splitGo_join ps h _ (by omega)

theorem hsAt_succ (b : Bytes) (off n : Nat) : hsAt b off (n + 1) = uAt b off 2 :: hsAt b (off + 2) n := by
  unfold hsAt
  rw [List.range_succ_eq_map]
  simp only [List.map_cons, List.map_map, Nat.mul_zero, Nat.add_zero, List.cons.injEq, true_and]
  apply List.map_congr_left
  intro i _
  simp only [Function.comp_apply]
  congr 1
  omega

theorem hsAt_flat (ids : List Nat) (h : ∀ i ∈ ids, i < 256 ^ 2) (a rest : Bytes) (off : Nat)
    (ha : a.length = off) : hsAt (a ++ (ids.flatMap u16 ++ rest)) off ids.length = ids := by
  induction ids generalizing a off with
  | nil => rfl
  | cons i ids ih =>
    rw [List.length_cons, hsAt_succ]
    congr 1
    · rw [uAt_right _ _ _ _ (by omega), ha, Nat.sub_self, List.flatMap_cons, List.append_assoc]
      exact uAt_here 2 i _ (h i (by simp))
    · have := ih (fun x hx => h x (by simp [hx])) (a ++ u16 i) (off + 2) (by simp [u16_length, ha])
      simpa using this

theorem flatMap_u16_length (ids : List Nat) : (ids.flatMap u16).length = 2 * ids.length := by
  induction ids with
  | nil => rfl
  | cons i ids ih => rw [List.flatMap_cons, List.length_append, ih, u16_length, List.length_cons]; omega

theorem packHs_nat (ids : List Nat) (h : ∀ i ∈ ids, i < 256 ^ 2) :
    packHs (ids.map fun i : Nat => (i : Int)) = .ok (ids.flatMap u16) := by
  unfold packHs
  induction ids with
  | nil => rfl
  | cons i ids ih =>
    simp only [List.map_cons]
    rw [packAll_int, if_pos ⟨by omega, by exact_mod_cast h i (by simp)⟩,
      ih fun x hx => h x (by simp [hx])]
    rfl

theorem parseInts_fmtI (f : IFmt) (ids : List Nat) :
    parseInts (ids.map (fmtI f)) = .ok (ids.map fun i : Nat => (i : Int)) := by
  induction ids with
  | nil => rfl
  | cons i ids ih =>
    simp only [List.map_cons, parseInts]
    rw [parseInt_fmtI_all, ih]
    rfl

/-! ## The actions -/

theorem packU_nat (k n : Nat) (h : n < 256 ^ k) : packU k (n : Int) = .ok (be k n) := by
  rw [packU_int, if_pos ⟨by omega, by exact_mod_cast h⟩]; rfl

theorem packAll_nat (k n : Nat) (h : n < 256 ^ k) (l : List (Nat × Int)) (x : Bytes)
    (hl : packAll l = .ok x) : packAll ((k, (n : Int)) :: l) = .ok (be k n ++ x) := by
  rw [packAll_int, if_pos ⟨by omega, by exact_mod_cast h⟩, hl]; rfl

theorem nxWrap_fit {t : Nat} {body x : Bytes} {l : Nat} (h : (nxWire t body).length < 65536)
    (hx : x = nxastHdr t ++ body) : nxWrap (.ok (x, l)) = .ok (nxWire t body, l) := by
  rw [hx, nxWrap_hdr, if_pos h]

theorem nxWire_fits (t : Nat) (body : Bytes) (h : body.length < 65500) : (nxWire t body).length < 65536 := by
  rw [(nxWire_length t body).2]
  have := align8_facts (10 + body.length)
  omega

theorem trip_cntIds (ids : List Nat) (hi : ∀ i ∈ ids, i < 256 ^ 2) (hl : ids.length < 30000)
    (hn : ids ≠ []) :
    ∃ text, ActTrip (nxWire 21 (u16 ids.length ++ (pad 4 ++ ids.flatMap u16))) text := by
  have hlen : (u16 ids.length ++ (pad 4 ++ ids.flatMap u16)).length = 6 + 2 * ids.length := by
    simp only [List.length_append, u16_length, pad_length, flatMap_u16_length]; omega
  have hfit := nxWire_fits 21 (u16 ids.length ++ (pad 4 ++ ids.flatMap u16)) (by omega)
  have hparts : ∀ p ∈ ids.map (fmtX 0), Clean p ∧ p ≠ [] := by
    intro p hp
    obtain ⟨i, _, rfl⟩ := List.mem_map.1 hp
    exact ⟨fmtX_clean 0 i, fmtX_ne_nil 0 i⟩
  refine ⟨_, nx_call 21 (u16 ids.length ++ (pad 4 ++ ids.flatMap u16)) t!"cnt_ids"
    (joinStr t!"," (ids.map (fmtX 0))) .cntIds .cntIds (by omega) (by omega) hfit (by decide) (by decide)
    (by decide) (by decide) (by decide) ?_ ?_ ?_ ⟨0, ?_⟩⟩
  · apply inside_join
    intro s hs
    obtain ⟨i, _, rfl⟩ := List.mem_map.1 hs
    exact inside_clean (fmtX_clean 0 i) (np_fmtX 0 i)
  · cases ids with
    | nil => exact absurd rfl hn
    | cons i ids =>
      cases ids with
      | nil => simpa [joinStr] using fmtX_ne_nil 0 i
      | cons j ids => simp [joinStr]
  · simp only [runActDec, cntIdsAct2str]
    have e1 : uAt (u16 ids.length ++ (pad 4 ++ ids.flatMap u16) ++
        fill (10 + (u16 ids.length ++ (pad 4 ++ ids.flatMap u16)).length)) 0 2 = ids.length := by
      simp only [List.append_assoc]
      exact uAt_here 2 _ _ (by omega)
    rw [needBytes_ok _ 0 2 (by simp only [List.length_append, u16_length]; omega), e1,
      needBytes_ok _ 6 _ (by rw [List.length_append, hlen]; omega)]
    have e2 := hsAt_flat ids hi (u16 ids.length ++ pad 4)
      (fill (10 + (u16 ids.length ++ (pad 4 ++ ids.flatMap u16)).length)) 6
      (by simp [u16_length, pad_length])
    simp only [List.append_assoc] at e2 ⊢
    simp only [bind, Except.bind]
    rw [e2]
    rfl
  · refine (congrArg nxWrap ?_).trans (nxWrap_fit hfit rfl)
    rw [if_neg (by simp), splitTokens_join _ hparts]
    have := parseInts_fmtI (.hex 0) ids
    rw [show (fmtI (.hex 0)) = fmtX 0 from rfl] at this
    rw [this]
    simp only [ok_bind, List.length_map]
    rw [packU_nat 2 ids.length (by omega), packHs_nat ids hi]
    rfl

theorem trip_tunnel (t size : Nat) (name : Str) (id : Nat)
    (hs : (t = 2 ∧ size = 4 ∧ name = t!"set_tunnel") ∨
      (t = 9 ∧ size = 8 ∧ name = t!"set_tunnel64" ∧ 256 ^ 4 ≤ id)) (hid : id < 256 ^ size) :
    ∃ text, ActTrip (nxWire t (be size id)) text := by
  have hlen : (be size id).length = size := be_length size id
  have hsz : size ≤ 8 := by omega
  have hfit := nxWire_fits t (be size id) (by omega)
  have hl : lookupActDec (.nx t) = some (.setTunnel name size) ∧
      (∃ k, lookupAct name = some k ∧ runActEnc k (fmtX 0 id) false = setTunnelStr2act t (fmtX 0 id) false) ∧
      Clean name ∧ name ≠ [] ∧ name.head? ≠ some '@' ∧ t < 65536 ∧ t ≠ 25 := by
    rcases hs with ⟨rfl, rfl, rfl⟩ | ⟨rfl, rfl, rfl, _⟩
    · exact ⟨by decide, ⟨.setTunnel, by decide, rfl⟩, by decide, by decide, by decide, by decide, by decide⟩
    · exact ⟨by decide, ⟨.setTunnel64, by decide, rfl⟩, by decide, by decide, by decide, by decide, by decide⟩
  obtain ⟨h1, ⟨k, h2, h3⟩, h4, h5, h6, h7, h8⟩ := hl
  refine ⟨_, nx_call t (be size id) name (fmtX 0 id) (.setTunnel name size) k h7 h8 hfit h1 h2 h4 h5 h6
    (inside_clean (fmtX_clean 0 id) (np_fmtX 0 id)) (fmtX_ne_nil 0 id) ?_ ⟨(fmtX 0 id).length, ?_⟩⟩
  · simp only [runActDec, setTunnelAct2str]
    rw [needBytes_ok _ 0 size (by rw [List.length_append, hlen]; omega), uAt_here size id _ hid]
    simp only [bind, Except.bind, List.append_assoc, List.cons_append]
  · rw [h3]
    unfold setTunnelStr2act
    rw [getToken_clean_all (fmtX_clean 0 id)]
    dsimp only
    have := parseInt_fmtI_all (.hex 0) id
    rw [show fmtI (.hex 0) id = fmtX 0 id from rfl] at this
    rw [this]
    simp only [ok_bind, pyAssert_ok, Bool.not_false, Bool.true_or, beq_self_eq_true, List.length_nil,
      Nat.zero_add]
    rcases hs with ⟨rfl, rfl, _⟩ | ⟨rfl, rfl, _, hb⟩
    · rw [if_neg (by simp at hid; omega), packU_nat 4 id hid, ok_bind]
      exact nxWrap_fit hfit rfl
    · rw [if_pos (by simp at hb; omega), packU_nat 8 id hid, ok_bind]
      exact nxWrap_fit hfit rfl

theorem trip_popQueue : ∃ text, ActTrip (nxWire 5 []) text :=
  ⟨t!"pop_queue", nx_word 5 t!"pop_queue" .learn (by decide) (by decide) (by decide) (by decide) (by decide)
    (by decide) (by decide)⟩

theorem trip_exit : ∃ text, ActTrip (nxWire 17 []) text :=
  ⟨t!"exit", nx_word 17 t!"exit" .learn (by decide) (by decide) (by decide) (by decide) (by decide)
    (by decide) (by decide)⟩

theorem fmtD_upper (p : Nat) : upperStr (fmtD p) ≠ t!"IN_PORT" := by
  intro he
  cases hf : fmtD p with
  | nil => exact fmtD_ne_nil p hf
  | cons c s =>
    have hd := fmtD_isDec p c (by rw [hf]; simp)
    rw [hf] at he
    simp only [upperStr, List.map_cons, List.cons.injEq] at he
    have h1 := he.1
    obtain ⟨d, hd⟩ := (isDec_iff c).1 hd
    cases hd with
    | mk hlt hm =>
      simp only [List.mem_cons, Prod.mk.injEq, List.not_mem_nil, or_false] at hm
      rcases hm with h | h | h | h | h | h | h | h | h | h | h | h | h | h | h | h | h | h | h | h | h | h <;>
        first
        | omega
        | (rw [h.1] at h1; revert h1; decide)

theorem resubmitPort_text (p : Nat) (h : p < 0xff00 ∨ p = 0xfff8) :
    resubmitPort (resubmitPortText p) = .ok (p : Int) ∧ Clean (resubmitPortText p) ∧
    NP (resubmitPortText p) ∧ resubmitPortText p ≠ [] := by
  unfold resubmitPortText
  by_cases hp : p = 0xfff8
  · subst hp
    rw [if_pos (by decide)]
    decide
  · have hlt : p < 0xff00 := by omega
    rw [if_neg (by simpa using hp)]
    refine ⟨?_, fmtD_clean p, np_fmtD p, fmtD_ne_nil p⟩
    unfold resubmitPort
    have hne := fmtD_upper p
    rw [if_neg (by simpa using hne)]
    have := parseInt_fmtI_all .dec p
    rw [show fmtI .dec p = fmtD p from rfl] at this
    rw [this]
    simp only [ok_bind, pyAssert_ok, beq_self_eq_true]
    rw [show decide ((p : Int) < 0xff00) = true by simp; omega, pyAssert_ok, ok_bind]

theorem trip_resubmit (port : Nat) (h : port < 0xff00 ∨ port = 0xfff8) :
    ∃ text, ActTrip (nxWire 1 (u16 port ++ u8 0xff)) text := by
  obtain ⟨p1, p2, p3, p4⟩ := resubmitPort_text port h
  have hlen : (u16 port ++ u8 0xff).length = 3 := by simp [u16_length, u8_length]
  have hfit := nxWire_fits 1 (u16 port ++ u8 0xff) (by omega)
  refine ⟨_, nx_call 1 (u16 port ++ u8 0xff) t!"resubmit" (resubmitPortText port) .resubmit .resubmit
    (by decide) (by decide) hfit (by decide) (by decide) (by decide) (by decide) (by decide)
    (inside_clean p2 p3) p4 ?_ ⟨(resubmitPortText port).length, ?_⟩⟩
  · simp only [runActDec, resubmitAct2str]
    rw [needBytes_ok _ 0 2 (by simp [u16_length]), List.append_assoc,
      show uAt (u16 port ++ _) 0 2 = port from uAt_here 2 port _ (by omega)]
    rfl
  · simp only [runActEnc, resubmitStr2act]
    rw [getToken_clean_all p2]
    dsimp only
    rw [p1]
    simp only [ok_bind, Bool.false_eq_true, if_false, resubmitTbl, List.isEmpty_nil, Bool.true_or,
      if_true]
    rw [packAll_nat 2 port (by omega) [(1, 255)] (be 1 255) (by decide), ok_bind]
    exact nxWrap_fit hfit rfl

theorem resubmitTbl_text (t : Nat) (h : t < 256) :
    resubmitTbl (if t == 0xff then t!"all" else fmtD t) = .ok (t : Int) ∧
    Clean (if t == 0xff then t!"all" else fmtD t) ∧ NP (if t == 0xff then t!"all" else fmtD t) ∧
    (if t == 0xff then t!"all" else fmtD t) ≠ [] := by
  by_cases ht : t = 0xff
  · subst ht; decide
  · rw [if_neg (by simpa using ht)]
    have key : ∀ t < 255, resubmitTbl (fmtD t) = .ok (t : Int) := by decide +kernel
    exact ⟨key t (by omega), fmtD_clean t, np_fmtD t, fmtD_ne_nil t⟩

theorem resubmitTable_dec (port table : Nat) (hp : port < 256 ^ 2) (ht : table < 256) (z : Bytes) :
    runActDec .resubmitTable (u16 port ++ u8 table ++ z) = .ok (t!"resubmit_table" ++ '(' ::
      (resubmitPortText port ++ ',' :: (if table == 0xff then t!"all" else fmtD table)) ++ [')']) := by
  simp only [runActDec, resubmitTableAct2str]
  rw [needBytes_ok _ 0 3 (by simp [u16_length, u8_length]; omega), List.append_assoc,
    show uAt (u16 port ++ _) 0 2 = port from uAt_here 2 port _ (by omega),
    show uAt (u16 port ++ (u8 table ++ _)) 2 1 = table from
      (uAt_skip 2 port _ 2 1 (by omega)).trans (uAt_here 1 table _ (by omega))]
  simp only [bind, Except.bind, List.append_assoc, List.cons_append]
  rfl

theorem trip_resubmitTable (port table : Nat) (h : port < 0xff00 ∨ port = 0xfff8) (ht : table < 256) :
    ∃ text, ActTrip (nxWire 14 (u16 port ++ u8 table)) text := by
  obtain ⟨p1, p2, p3, p4⟩ := resubmitPort_text port h
  obtain ⟨t1, t2, t3, t4⟩ := resubmitTbl_text table ht
  have hlen : (u16 port ++ u8 table).length = 3 := by simp [u16_length, u8_length]
  have hfit := nxWire_fits 14 (u16 port ++ u8 table) (by omega)
  refine ⟨_, nx_call 14 (u16 port ++ u8 table) t!"resubmit_table"
    (resubmitPortText port ++ ',' :: (if table == 0xff then t!"all" else fmtD table)) .resubmitTable
    .resubmitTable
    (by decide) (by decide) hfit (by decide) (by decide) (by decide) (by decide) (by decide)
    (inside_comma (inside_clean p2 p3) (inside_clean t2 t3)) (by simp) ?_
    ⟨(resubmitPortText port ++ ',' :: (if table == 0xff then t!"all" else fmtD table)).length, ?_⟩⟩
  · exact resubmitTable_dec port table (by omega) ht _
  · simp only [runActEnc, resubmitStr2act]
    rw [getToken_clean p2 p4 (atEnd_comma _)]
    dsimp only
    rw [p1, getToken_comma_last t2 t4]
    simp only [ok_bind, Bool.false_eq_true, if_false, if_true]
    rw [t1, ok_bind]
    rw [packAll_nat 2 port (by omega) [(1, (table : Int))] (be 1 table)
      (packAll_nat 1 table (by omega) [] [] rfl |>.trans (by simp)), ok_bind]
    exact nxWrap_fit hfit rfl

theorem trip_note (b : Bytes) (hp : PlainSsid b) (hc : (41 : UInt8) ∉ b) : ∃ text, ActTrip (nxRaw 8 b) text := by
  obtain ⟨p1, p2, p3, p4⟩ := hp
  have hlen : (nxRaw 8 b).length = 10 + b.length := nxRaw_length 8 b
  have hd := fun rest => nx_prints 8 b rest .note (by decide) (by decide) (by omega) (by decide)
  have hcl : Clean (b.map chr) := fun c hc => (ssidMap_clean b p1 c hc).2
  have hne : b.map chr ≠ [] := by simpa using p4
  have hi : InLine ')' (b.map chr) := by
    apply inside_clean hcl
    rintro c hc' rfl
    obtain ⟨x, hx, he⟩ := List.mem_map.1 hc'
    have h1 := (ssidByte_facts x (p1 x hx)).2.2.2.1
    rw [he] at h1
    have h2 : x = 41 := UInt8.toNat_inj.1 (by rw [← h1]; rfl)
    exact hc (h2 ▸ hx)
  refine ⟨t!"note" ++ '(' :: b.map chr ++ [')'], by omega, by omega, fun rest => ?_, fun rest => ?_, by simp,
    plainStart_cons (by decide) _, by simp, line_append (line_append (by decide) (line_cons (by decide) hi.line)) (by decide), ?_⟩
  · rw [hlen]; exact (hd rest).2
  · rw [(hd rest).1]
    simp only [runActDec, qpAct2str]
    rw [b2aQp_plain b p1 p2 p3]
    simp
  · intro h r hh hr
    rw [str2act_call h t!"note" (b.map chr) r .note hh (by decide) (by decide) hi.ins hne hr (by decide)]
    simp only [runActEnc, qpStr2act]
    rw [getToken_clean_all hcl]
    dsimp only
    rw [a2bQp_plain b p1]
    simp only [ok_bind, pyAssert_ok, Bool.not_false, Bool.true_or]
    rw [show NXAST_NOTE = 8 from rfl, fixActLen_hdr, if_pos (by omega)]
    rfl

end Ofpstr
