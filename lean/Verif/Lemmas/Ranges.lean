import Verif.Spec.Range
import Verif.Lemmas.FlowTrip

/-!
# Reading and printing bit ranges
-/

set_option linter.unusedSimpArgs false

namespace Ofpstr
open Spec

/-! ## Bounds -/

theorem numeral_isDec {ds : Str} {n : Nat} (h : Numeral 10 ds n) : ∀ c ∈ ds, isDec c = true := by
  intro c hc
  exact (isDec_iff c).2 (((numeral_iff 10 (by omega) _ _).1 h).2.1 c hc)

theorem pyInt_numeral {ds : Str} {n : Nat} (h : Numeral 10 ds n) : pyInt ds = .ok (n : Int) := by
  have hd := numeral_isDec h
  obtain ⟨hne, _, hval⟩ := (numeral_iff 10 (by omega) _ _).1 h
  have h1 : ds.dropWhile isReSpace = ds := dropWhile_none _ _ fun c hc => isDec_notSpace (hd c hc)
  have h2 : ds.reverse.dropWhile isReSpace = ds.reverse :=
    dropWhile_none _ _ fun c hc => isDec_notSpace (hd c (List.mem_reverse.1 hc))
  unfold pyInt
  simp only [h1, h2, List.reverse_reverse]
  cases hf : ds with
  | nil => exact absurd hf hne
  | cons c t =>
    have hc : isDec c = true := hd c (by simp [hf])
    have hm : c ≠ '-' := by intro h; subst h; revert hc; decide
    have hp : c ≠ '+' := by intro h; subst h; revert hc; decide
    rw [pyInt.match_1.eq_3 _ _ _ _ _ (by intro t' h; cases h; exact hm rfl) (by intro t' h; cases h; exact hp rfl)]
    dsimp only
    rw [← hf, pyIntBody_dec _ hd (Or.inr rfl) false (Or.inr hne)]
    simp [hval]

theorem bound_isDec {d : Nat} {s : Str} {a : Nat} (h : Bound d s a) : ∀ c ∈ s, isDec c = true := by
  cases h with
  | absent => intro c hc; cases hc
  | num _ _ h => exact numeral_isDec h

theorem optInt_bound {d : Nat} {s : Str} {a : Nat} (h : Bound d s a) :
    ∃ o, optInt s = .ok o ∧ o.getD (d : Int) = (a : Int) := by
  cases h with
  | absent => exact ⟨none, rfl, rfl⟩
  | num _ _ h =>
    refine ⟨some a, ?_, rfl⟩
    unfold optInt
    have : s.isEmpty = false := by
      cases s with
      | nil => exact absurd rfl ((numeral_iff 10 (by omega) _ _).1 h).1
      | cons c s => rfl
    rw [this, if_neg (by simp), pyInt_numeral h]
    rfl

theorem inside_bounds {s t : Str} (hs : ∀ c ∈ s, isDec c = true) (ht : ∀ c ∈ t, isDec c = true) :
    Inside ']' (s ++ ':' :: t) := by
  apply inside_chars
  intro c hc
  simp only [List.mem_append, List.mem_cons] at hc
  rcases hc with hc | rfl | hc
  · exact ⟨(isHex_close (isDec_isHex (hs c hc))).2.1, (isDec_clean (hs c hc)).2.2.2⟩
  · decide
  · exact ⟨(isHex_close (isDec_isHex (ht c hc))).2.1, (isDec_clean (ht c hc)).2.2.2⟩

/-- What the readers of ranges find between the brackets. -/
inductive RangeArg (f : Field) (a b : Nat) : Option Str → Prop
  | whole : a = 0 → b = f.bits → RangeArg f a b none
  | bits (s t : Str) : Bound 0 s a → Bound f.bits t b → RangeArg f a b (some (s ++ ':' :: t))

theorem rangeText_facts {f : Field} {n a b : Nat} {t : Str} (h : IdField f n) (ht : RangeText f a b t) :
    Token t ∧ PlainStart t ∧ t ≠ [] ∧ InLine ')' t ∧ ∃ o, parseFunc t = .ok (f.name, o) ∧ RangeArg f a b o := by
  cases ht with
  | whole =>
    exact ⟨h.nameClean.1.token, h.nameClean.1.plainStart, h.nameClean.2, h.nameInside, none,
      parseFunc_bare _ h.nameClean.1.notOpen, .whole rfl rfl⟩
  | bits s t _ _ hs ht =>
    have hi := inside_bounds (bound_isDec hs) (bound_isDec ht)
    refine ⟨?_, ?_, by simp, ?_, _, ?_, .bits s t hs ht⟩
    · rw [List.append_assoc]
      exact token_append_plain h.nameClean.1 (Token.group '[' ']' _ [] .square hi .nil)
    · rw [List.append_assoc]
      exact plainStart_append h.nameClean.1.plainStart h.nameClean.2
    · rw [List.append_assoc]
      apply inside_append h.nameInside
      refine ⟨Inside.nest ')' '[' ']' _ [] (by decide) .square hi (.nil _), line_cons (by decide)
        (line_append (line_append ?_ (line_cons (by decide) ?_)) (by decide))⟩
      · exact line_clean fun c hc => isDec_clean (bound_isDec hs c hc)
      · exact line_clean fun c hc => isDec_clean (bound_isDec ht c hc)
    · have := parseFunc_call f.name (s ++ ':' :: t) [] '[' ']' h.nameClean.1.notOpen .square hi
      simpa using this

theorem rangeText_token {f : Field} {n a b : Nat} {t : Str} (h : IdField f n) (ht : RangeText f a b t)
    (hd r : Str) (hh : Head hd) (hr : AtEnd r) : getToken (hd ++ (t ++ r)) = (hd, t, r) := by
  obtain ⟨h1, h2, h3, _⟩ := rangeText_facts h ht
  exact getToken_head hh h1 hr h2 h3

theorem bounds_cons (s t : Str) : ∃ c u, s ++ ':' :: t = c :: u := by
  cases s with
  | nil => exact ⟨_, _, rfl⟩
  | cons c s => exact ⟨_, _, rfl⟩

theorem bounds_split {s t : Str} (hs : ∀ c ∈ s, isDec c = true) : split1 ':' (s ++ ':' :: t) = (s, some t) := by
  apply split1_some
  intro c hc
  exact (isHex_ne (isDec_isHex (hs c hc))).2.1

/-- `get_bits` on any text of a range. -/
theorem getBits_range {f : Field} {n a b : Nat} {t : Str} (h : IdField f n) (ht : RangeText f a b t)
    (hd r : Str) (hh : Head hd) (hr : AtEnd r) :
    getBits (hd ++ (t ++ r)) = .ok (f.id, (a : Int), (b : Int) - (a : Int), r) := by
  obtain ⟨_, _, _, _, o, ho, hra⟩ := rangeText_facts h ht
  unfold getBits
  rw [rangeText_token h ht hd r hh hr]
  dsimp only
  have hsz : (if (uAt f.id 0 2 == 0xffff) = true then (uAt f.id 3 1 : Int) - 4 else (uAt f.id 3 1 : Int)) = n := by
    have h1 := h.isExp []
    have h2 := h.lenByte []
    rw [List.append_nil] at h1 h2
    rw [h1, h2]
    cases f.experimenter <;> simp
  have hnb : needBytes f.id 0 4 = .ok () := needBytes_ok _ _ _ (by rw [h.length]; omega)
  have hbits : ((n : Int) * 8) = (f.bits : Int) := by rw [h.bits]; push_cast; ring
  rw [ho]
  simp only [ok_bind]
  rw [h.encodeName]
  simp only [ok_bind]
  rw [hnb]
  simp only [ok_bind]
  rw [hsz, hbits]
  cases hra with
  | whole h1 h2 =>
    subst h1 h2
    simp
  | bits s t hs ht =>
    obtain ⟨c, u, hcu⟩ := bounds_cons s t
    rw [hcu]
    dsimp only
    rw [← hcu, bounds_split (bound_isDec hs)]
    dsimp only
    obtain ⟨x, hx, hx'⟩ := optInt_bound hs
    obtain ⟨y, hy, hy'⟩ := optInt_bound ht
    rw [hx]
    simp only [ok_bind]
    rw [hy]
    simp only [ok_bind]
    rw [hy', show x.getD 0 = (a : Int) from hx']

/-! ## Encoders -/

theorem regMove_enc {src dst : Field} {ns nd a b c d : Nat} {ts td : Str} (is : IdField src ns)
    (id : IdField dst nd) (hs : RangeText src c d ts) (hd : RangeText dst a b td) :
    regMoveStr2act (td ++ '=' :: ts) false = nxWrap (do
      pyAssert ((b : Int) - (a : Int) == (d : Int) - (c : Int))
      let x ← packAll [(2, (b : Int) - (a : Int)), (2, (c : Int)), (2, (a : Int))]
      .ok (nxastHdr NXAST_REG_MOVE ++ (x ++ (src.id ++ dst.id)), (td ++ '=' :: ts).length)) := by
  simp only [regMoveStr2act]
  rw [if_neg (by simp)]
  have g1 := getBits_range id hd [] ('=' :: ts) head_nil (atEnd_eq _)
  have g2 := getBits_range is hs ['='] [] head_eq atEnd_nil
  rw [List.append_nil, List.singleton_append] at g2
  rw [List.nil_append] at g1
  rw [g1]
  simp only [ok_bind]
  rw [g2]
  simp only [ok_bind]
  rfl

/-- A text for a number. -/
theorem intText_facts {s : Str} {v : Int} (h : IntSyntax s v s.length) :
    Clean s ∧ s ≠ [] ∧ InLine ')' s ∧ parseInt s = .ok (v, s.length) := by
  obtain ⟨h1, h2, _⟩ := intSyntax_clean h
  exact ⟨h1, h2, ⟨intSyntax_inside h, line_clean h1⟩, (parseInt_iff _ _ _).2 h⟩

theorem multipath_enc {dst : Field} {n a b : Nat} {hs as sb sl sg td : Str} {i j : Nat} {vb vl vg : Int}
    (id : IdField dst n) (Hh : Named nxHashNames i hs) (Ha : Named nxMpAlgNames j as)
    (hb : IntSyntax sb vb sb.length) (hl : IntSyntax sl vl sl.length) (hg : IntSyntax sg vg sg.length)
    (hd : RangeText dst a b td) :
    multipathStr2act (hs ++ ',' :: (sb ++ ',' :: (as ++ ',' :: (sl ++ ',' :: (sg ++ ',' :: td))))) false =
      nxWrap (do
        let x ← packAll [(2, (i : Int)), (2, vb)]
        let y ← packAll [(2, (j : Int)), (2, vl), (4, vg)]
        let z ← packU 2 ((a : Int) * 64 + ((b : Int) - (a : Int) - 1))
        .ok (nxastHdr NXAST_MULTIPATH ++ (x ++ (zeros 2 ++ (y ++ (zeros 2 ++ (z ++ dst.id))))),
          (hs ++ ',' :: (sb ++ ',' :: (as ++ ',' :: (sl ++ ',' :: (sg ++ ',' :: td))))).length)) := by
  obtain ⟨b1, b2, _, b4⟩ := intText_facts hb
  obtain ⟨l1, l2, _, l4⟩ := intText_facts hl
  obtain ⟨a1, a2, _, a4⟩ := intText_facts hg
  simp only [multipathStr2act]
  rw [if_neg (by simp), getToken_clean Hh.clean Hh.ne (atEnd_comma _)]
  dsimp only
  rw [Hh.index, ok_bind, getToken_comma_clean b1 b2 (atEnd_comma _)]
  dsimp only
  rw [b4, ok_bind]
  simp only [beq_self_eq_true, pyAssert_ok]
  rw [ok_bind, getToken_comma_clean Ha.clean Ha.ne (atEnd_comma _)]
  dsimp only
  rw [Ha.index, ok_bind, getToken_comma_clean l1 l2 (atEnd_comma _)]
  dsimp only
  rw [l4, ok_bind]
  simp only [beq_self_eq_true]
  rw [pyAssert_ok, ok_bind, getToken_comma_clean a1 a2 (atEnd_comma _)]
  dsimp only
  rw [a4, ok_bind]
  have g0 := rangeText_token id hd [','] [] head_comma atEnd_nil
  rw [List.append_nil, List.singleton_append] at g0
  rw [g0]
  dsimp only
  have g1 := getBits_range id hd [] [] head_nil atEnd_nil
  rw [List.append_nil, List.nil_append] at g1
  rw [g1]
  simp only [ok_bind, List.isEmpty_nil]
  rw [pyAssert_ok, ok_bind]
  rfl

/-- What a range without open bounds is to `bundle_load` and `output_reg`. -/
theorem closed_parse {f : Field} {n a b : Nat} {t : Str} (h : IdField f n) (ht : ClosedText f a b t) :
    ∃ c u, parseFunc t = .ok (f.name, some (c :: u)) ∧ intSplit (c :: u) = .ok ((a : Int), some (b : Int)) := by
  obtain ⟨_, _, _, _, o, ho, _⟩ := rangeText_facts h ht.range
  cases ht with
  | bits s t _ _ hs ht =>
    have hi := inside_bounds (numeral_isDec hs) (numeral_isDec ht)
    obtain ⟨c, u, hcu⟩ := bounds_cons s t
    refine ⟨c, u, ?_, ?_⟩
    · have := parseFunc_call f.name (s ++ ':' :: t) [] '[' ']' h.nameClean.1.notOpen .square hi
      rw [← hcu]
      simpa using this
    · rw [← hcu]
      unfold intSplit
      rw [bounds_split (numeral_isDec hs)]
      dsimp only
      rw [pyInt_numeral hs, ok_bind, pyInt_numeral ht, ok_bind]

theorem outputReg_encode {f : Field} {n a b : Nat} {t tm : Str} {m : Int} (h : IdField f n)
    (ht : ClosedText f a b t) (hm : MaxLenText tm m) (reg2 : Bool) (x : Bool) :
    outputRegStr2act reg2 (t ++ tm) x = nxWrap (
      if (reg2 || decide (f.id.length > 4)) = true then do
        let y ← packAll [(2, (a : Int) * 64 + ((b : Int) % 64 - 1)), (2, m)]
        .ok (nxastHdr NXAST_OUTPUT_REG2 ++ (y ++ f.id), (t ++ tm).length)
      else do
        let y ← packU 2 ((a : Int) * 64 + ((b : Int) % 64 - 1))
        let z ← packU 2 m
        .ok (nxastHdr NXAST_OUTPUT_REG ++ (y ++ (f.id ++ (z ++ zeros 6))), (t ++ tm).length)) := by
  obtain ⟨c, u, h1, h2⟩ := closed_parse h ht
  have hr : AtEnd tm := by cases hm with
    | absent => exact atEnd_nil
    | num => exact atEnd_comma _
  have g0 := rangeText_token h ht.range [] tm head_nil hr
  rw [List.nil_append] at g0
  have hnil : getToken [] = ([], [], []) := by decide
  unfold outputRegStr2act
  rw [g0]
  dsimp only
  rw [h1]
  simp only [ok_bind]
  rw [h.encodeName]
  simp only [ok_bind]
  rw [h2]
  simp only [ok_bind]
  cases hm with
  | absent =>
    rw [hnil]
    simp only [List.isEmpty_nil, if_true, ok_bind, intSecond]
    rfl
  | num s _ hs =>
    obtain ⟨s1, s2, _, s4⟩ := intText_facts hs
    have g1 : getToken (',' :: s) = ([','], s, []) := by
      have := getToken_comma_clean s1 s2 atEnd_nil
      rwa [List.append_nil] at this
    rw [g1]
    dsimp only
    have he : s.isEmpty = false := by
      cases s with
      | nil => exact absurd rfl s2
      | cons c s => rfl
    rw [he, if_neg (by simp), s4]
    simp only [ok_bind, intSecond]
    rfl

/-! ## Printing -/

theorem act2str_nx (t : Nat) (body : Bytes) (d : ActDec) (text : Str) (ht : t < 65536) (h1 : t ≠ 25)
    (hl : (nxWire t body).length < 65536) (hd : lookupActDec (.nx t) = some d)
    (hp : runActDec d (body ++ fill (10 + body.length)) = .ok text) : act2str (nxWire t body) = .ok text := by
  have hlen : (nxWire t body).length = 10 + (body ++ fill (10 + body.length)).length := by
    unfold nxWire; rw [nxRaw_length]
  have hd' := nx_prints t (body ++ fill (10 + body.length)) [] d ht h1 (by omega) hd
  rw [List.append_nil] at hd'
  have h2 : act2strOne (nxWire t body) = .ok text := hd'.1.trans hp
  have h3 : uAt (nxWire t body) 2 2 = (nxWire t body).length := hd'.2.trans hlen.symm
  generalize nxWire t body = w at *
  unfold act2str
  rw [act2strGo, if_neg (by omega), h2, ok_bind, h3, List.drop_length]
  obtain ⟨k, hk⟩ : ∃ k, w.length = k + 1 := ⟨w.length - 1, by omega⟩
  rw [hk, act2strGo]
  simp [ok_bind, joinStr]

theorem uAt_nxWire (t v : Nat) (rest : Bytes) (hv : v < 65536) : uAt (nxWire t (u16 v ++ rest)) 10 2 = v := by
  unfold nxWire nxRaw
  simp only [List.append_assoc]
  rw [uAt_u16 _ _ _ _ (by omega), uAt_u16 _ _ _ _ (by omega), uAt_u32 _ _ _ _ (by omega), uAt_u16 _ _ _ _ (by omega)]
  exact uAt_u16_here _ _ hv

theorem fitsIn_of_lt {k n : Nat} (h : n < 256 ^ k) : FitsIn k (n : Int) := by
  unfold FitsIn
  exact ⟨by omega, by exact_mod_cast h⟩

theorem bitText_range {f : Field} {n : Nat} (id : IdField f n) (w : Bool) (a b : Nat) (h : w = true → a = 0 ∧ b = f.bits) :
    RangeText f a b (bitText f w a b) := by
  cases w with
  | true => obtain ⟨rfl, rfl⟩ := h rfl; unfold bitText; rw [if_pos rfl, id.shown]; exact .whole
  | false =>
    show RangeText f a b (fmtRange (shownName f) a b)
    rw [fmtRange_eq, id.shown]
    exact .bits _ _ a b (.num _ _ (decimal_fmtD a).1) (.num _ _ (decimal_fmtD b).1)

theorem bitText_closed {f : Field} {n : Nat} (id : IdField f n) (a b : Nat) : ClosedText f a b (bitText f false a b) := by
  show ClosedText f a b (fmtRange (shownName f) a b)
  rw [fmtRange_eq, id.shown]
  exact .bits _ _ a b (decimal_fmtD a).1 (decimal_fmtD b).1

/-! ## Slaves -/

theorem bundlePort_int {s : Str} {v : Int} (h : IntSyntax s v s.length) : bundlePort s = .ok v := by
  unfold bundlePort
  have : ofpp.find? (fun e => e.2 == s) = none := by
    rw [List.find?_eq_none]
    intro e he hp
    have hp : e.2 = s := by simpa using hp
    have key : ∀ e ∈ ofpp, ∃ c ∈ e.2, ¬ (isHex c = true ∨ c = '-' ∨ c = 'x' ∨ c = 'X') := by decide
    obtain ⟨c, hc, hd⟩ := key e he
    rw [hp] at hc
    exact hd (intSyntax_ne h c hc)
  rw [this]
  dsimp only
  rw [(parseInt_iff _ _ _).2 h, ok_bind]

theorem bundlePorts_int {ss : List Str} {vs : List Int} (h : SlaveTexts ss vs) : bundlePorts ss = .ok vs := by
  induction h with
  | nil => rfl
  | cons s ss v vs h1 _ ih => rw [bundlePorts, bundlePort_int h1, ok_bind, ih, ok_bind]

theorem slaveTexts_clean {ss : List Str} {vs : List Int} (h : SlaveTexts ss vs) :
    ∀ p ∈ ss, Clean p ∧ p ≠ [] ∧ InLine ')' p := by
  induction h with
  | nil => simp
  | cons s ss v vs h1 _ ih =>
    obtain ⟨s1, s2, s3, _⟩ := intText_facts h1
    intro p hp
    rcases List.mem_cons.1 hp with rfl | hp
    · exact ⟨s1, s2, s3⟩
    · exact ih p hp

theorem slavesArg_eq (ss : List Str) : slavesArg ss = t!"slaves" ++ '(' :: joinStr t!"," ss ++ [')'] := by
  rw [joinStr_commaList]; rfl

theorem slavesArg_facts {ss : List Str} {vs : List Int} (h : SlaveTexts ss vs) :
    Token (slavesArg ss) ∧ PlainStart (slavesArg ss) ∧ slavesArg ss ≠ [] ∧ InLine ')' (slavesArg ss) := by
  have hi : InLine ')' (joinStr t!"," ss) := inside_join fun s hs => (slaveTexts_clean h s hs).2.2
  refine ⟨slavesArg_eq ss ▸ call_token t!"slaves" _ (by decide) hi.ins, plainStart_cons (by decide) _,
    by simp [slavesArg], ?_⟩
  rw [slavesArg_eq]
  rw [List.append_assoc]
  apply inside_append (inside_clean (by decide) (by decide))
  exact ⟨Inside.nest ')' '(' ')' _ [] (by decide) .round hi.ins (.nil _), line_cons (by decide)
    (line_append hi.line (by decide))⟩

theorem bundleSlaves_int {ss : List Str} {vs : List Int} (h : SlaveTexts ss vs) :
    bundleSlaves (slavesArg ss) = .ok vs := by
  have hi : InLine ')' (joinStr t!"," ss) := inside_join fun s hs => (slaveTexts_clean h s hs).2.2
  rw [slavesArg_eq]
  unfold bundleSlaves
  have := parseFunc_call t!"slaves" (joinStr t!"," ss) [] '(' ')' (by decide) .round hi.ins
  rw [if_pos rfl] at this
  rw [this, ok_bind]
  dsimp only
  rw [show ((t!"slaves" : Str) == t!"slaves") = true by decide, pyAssert_ok, ok_bind]
  cases h with
  | nil => rfl
  | cons s ss v vs h1 h2 =>
    have hne : ∃ c u, joinStr t!"," (s :: ss) = c :: u := by
      cases hj : joinStr t!"," (s :: ss) with
      | cons c u => exact ⟨c, u, rfl⟩
      | nil =>
        cases ss with
        | nil => exact absurd hj (intText_facts h1).2.1
        | cons q ps => simp [joinStr] at hj
    obtain ⟨c, u, hcu⟩ := hne
    rw [hcu]
    dsimp only
    rw [← hcu, splitTokens_join, bundlePorts_int (.cons s ss v vs h1 h2)]
    intro q hq
    obtain ⟨g1, g2, _⟩ := slaveTexts_clean (.cons s ss v vs h1 h2) q hq
    exact ⟨g1, g2⟩

/-- The id that `bundle` and `bundle_load` take for a field: with the mask bit for some kinds. -/
theorem IdField.encodeTrue {f : Field} {n : Nat} (h : IdField f n) :
    ∃ b, str2oxmid true f.name = .ok b ∧ b.length = f.id.length := by
  have := str2oxmidGo_names true [f] [] (Or.inl rfl) (by simpa using h.mem) (by simp) (f.name.length + 1)
    (by simp [joinStr])
  simp only [List.nil_append, List.map_cons, List.map_nil, joinStr, List.flatMap_cons, List.flatMap_nil,
    List.append_nil, h.lookup] at this
  refine ⟨encId (fieldKey f) (kindEnc f.kind) true, ?_, ?_⟩
  · unfold str2oxmid
    rw [this]
  · rw [h.id]
    cases hk : f.kind <;> simp [encId, kindEnc, header_length] 

theorem bundleLoad_encode {dst : Field} {n a b : Nat} {hs as sb ss td : Str} {sl : List Str} {i j : Nat} {vb : Int}
    {vs : List Int} {sid did : Bytes} (id : IdField dst n) (Hh : Named nxHashNames i hs) (Ha : Named nxBdAlgNames j as)
    (hb : IntSyntax sb vb sb.length) (hc : Clean ss) (hne : ss ≠ []) (hsi : str2oxmid true ss = .ok sid)
    (hdi : str2oxmid true dst.name = .ok did)
    (hd : ClosedText dst a b td) (hl : SlaveTexts sl vs) :
    bundleLoadStr2act (hs ++ ',' :: (sb ++ ',' :: (as ++ ',' :: (ss ++ ',' :: (td ++ ',' :: slavesArg sl))))) false =
      nxWrap (do
        let x ← packAll [(2, (j : Int)), (2, (i : Int)), (2, vb)]
        let y ← packAll [(2, (vs.length : Int)), (2, (a : Int) * 64 + ((b : Int) - 1))]
        let z ← packHs vs
        .ok (nxastHdr NXAST_BUNDLE_LOAD ++ (x ++ (sid ++ (y ++ (did ++ (zeros 4 ++ z))))),
          (hs ++ ',' :: (sb ++ ',' :: (as ++ ',' :: (ss ++ ',' :: (td ++ ',' :: slavesArg sl))))).length)) := by
  obtain ⟨b1, b2, _, b4⟩ := intText_facts hb
  obtain ⟨tk1, tk2, tk3, tk4⟩ := slavesArg_facts hl
  obtain ⟨c, u, h1, h2⟩ := closed_parse id hd
  simp only [bundleLoadStr2act]
  have g0 : getToken (',' :: slavesArg sl) = ([','], slavesArg sl, []) := by
    have := getToken_comma tk1 atEnd_nil tk2 tk3
    rwa [List.append_nil] at this
  have g1 := rangeText_token id hd.range [','] (',' :: slavesArg sl) head_comma (atEnd_comma _)
  rw [List.singleton_append] at g1
  rw [if_neg (by simp), getToken_clean Hh.clean Hh.ne (atEnd_comma _)]
  dsimp only
  rw [getToken_comma_clean b1 b2 (atEnd_comma _)]
  dsimp only
  rw [getToken_comma_clean Ha.clean Ha.ne (atEnd_comma _)]
  dsimp only
  rw [getToken_comma_clean hc hne (atEnd_comma _)]
  dsimp only
  rw [g1]
  dsimp only
  rw [g0]
  dsimp only
  rw [Hh.index, ok_bind, b4, ok_bind]
  dsimp only
  rw [Ha.index, ok_bind, h1, ok_bind]
  dsimp only
  rw [hdi, ok_bind, h2, ok_bind]
  dsimp only
  rw [bundleSlaves_int hl, ok_bind, hsi]
  simp only [ok_bind, intSecond]
  rfl

end Ofpstr
