import Verif.Lemmas.Ranges
import Verif.Lemmas.Group
import Verif.Props.ActTrip
import Verif.Props.Flow

/-!
# Properties C50 and C51 (Nicira actions)

`RangeText f a b s` says that the text `s` names the bits of the field `f` from `a` up to but not
including `b`; `Act.wire` gives the bytes of an action from offset and number of bits.
-/

set_option linter.unusedSimpArgs false

namespace Ofpstr
open Spec

def fDot11 : Field := ⟨t!"dot11", 0xffff, 2, .uint 1, false⟩

/-! ## Calls -/

theorem call_ok {name a : Str} {k : ActEnc} {b : Bytes} (h r : Str) (hh : Head h) (hr : Boundary r)
    (hc : Clean name) (hn : name ≠ []) (ha : InLine ')' a) (han : a ≠ []) (hl : lookupAct name = some k)
    (he : ∃ l, runActEnc k a false = .ok (b, l)) :
    str2act (h ++ ((name ++ '(' :: a ++ [')']) ++ r)) = .ok (b, h.length + (name ++ '(' :: a ++ [')']).length) := by
  obtain ⟨l, he⟩ := he
  rw [str2act_call h name a r k hh hc hn ha.ins han hr hl, he]; rfl

theorem call_error {name a : Str} {k : ActEnc} {e : Err} (h r : Str) (hh : Head h) (hr : Boundary r)
    (hc : Clean name) (hn : name ≠ []) (ha : InLine ')' a) (han : a ≠ []) (hl : lookupAct name = some k)
    (he : runActEnc k a false = .error e) :
    str2act (h ++ ((name ++ '(' :: a ++ [')']) ++ r)) = .error e := by
  rw [str2act_call h name a r k hh hc hn ha.ins han hr hl, he]; rfl

theorem nxWrap_error (e : Err) : nxWrap (.error e) = .error e := rfl

theorem packAll_fits {l : List (Nat × Int)} (h : ∀ e ∈ l, FitsIn e.1 e.2) :
    packAll l = .ok (l.flatMap fun e => be e.1 e.2.toNat) := by rw [packAll_eq, if_pos h]

theorem packAll_nofit {l : List (Nat × Int)} (h : ¬ ∀ e ∈ l, FitsIn e.1 e.2) :
    packAll l = .error .structError := by rw [packAll_eq, if_neg h]

theorem hash_named {i : Nat} {s : Str} (h : hashWords[i]? = some s) : i < 2 ∧ Named nxHashNames i s := by
  have hi : i < 2 := (List.getElem?_eq_some_iff.1 h).1
  have : i = 0 ∨ i = 1 := by omega
  rcases this with rfl | rfl <;> cases h
  · exact ⟨by decide, by decide, by decide, by decide, by decide, by decide⟩
  · exact ⟨by decide, by decide, by decide, by decide, by decide, by decide⟩

theorem mpAlg_named {i : Nat} {s : Str} (h : mpAlgWords[i]? = some s) : i < 4 ∧ Named nxMpAlgNames i s := by
  have hi : i < 4 := (List.getElem?_eq_some_iff.1 h).1
  have : i = 0 ∨ i = 1 ∨ i = 2 ∨ i = 3 := by omega
  rcases this with rfl | rfl | rfl | rfl <;> cases h
  all_goals exact ⟨by decide, by decide, by decide, by decide, by decide, by decide⟩

theorem bdAlg_named {i : Nat} {s : Str} (h : bdAlgWords[i]? = some s) : i < 2 ∧ Named nxBdAlgNames i s := by
  have hi : i < 2 := (List.getElem?_eq_some_iff.1 h).1
  have : i = 0 ∨ i = 1 := by omega
  rcases this with rfl | rfl <;> cases h
  all_goals exact ⟨by decide, by decide, by decide, by decide, by decide, by decide⟩

theorem bitsOf_id {f : Field} {a b : Nat} (h : BitsOf f a b) (hb : f.name ∉ badIds) : ∃ n, IdField f n :=
  range_idField h.2 hb

theorem bitsOf_facts {f : Field} {a b : Nat} (h : BitsOf f a b) : a < b ∧ b ≤ f.bits := by
  obtain ⟨h1, _, _, h2, h3⟩ := h
  omega

/-! ## C50: reg_move -/

theorem regMove_args {src dst : Field} {ns nd a b c d : Nat} {ts td : Str} (is : IdField src ns)
    (id : IdField dst nd) (hs : RangeText src c d ts) (hd : RangeText dst a b td) :
    InLine ')' (td ++ '=' :: ts) ∧ td ++ '=' :: ts ≠ [] :=
  ⟨inside_append (rangeText_facts id hd).2.2.2.1 (inside_cons (by decide) (by decide)
    (rangeText_facts is hs).2.2.2.1), by simp⟩

/-- C50 for `reg_move(dst[a:b]=src[c:d])`: for any fields, valid ranges of the same width and any way of
writing them, the action holds the width and both offsets. -/
theorem C50_reg_move (src dst : Field) (a b c d : Nat) (ts td h r : Str) (hsb : BitsOf src c d)
    (hdb : BitsOf dst a b) (hns : src.name ∉ badIds) (hnd : dst.name ∉ badIds) (hw : b - a = d - c)
    (hs : RangeText src c d ts) (hd : RangeText dst a b td) (hh : Head h) (hr : Boundary r) :
    str2act (h ++ ((t!"reg_move" ++ '(' :: (td ++ '=' :: ts) ++ [')']) ++ r)) =
      .ok ((Act.regMove src c dst a (b - a)).wire,
        h.length + (t!"reg_move" ++ '(' :: (td ++ '=' :: ts) ++ [')']).length) := by
  obtain ⟨ns, is⟩ := bitsOf_id hsb hns
  obtain ⟨nd, id⟩ := bitsOf_id hdb hnd
  obtain ⟨h1, h2⟩ := bitsOf_facts hsb
  obtain ⟨h3, h4⟩ := bitsOf_facts hdb
  have hsm := is.small
  have hdm := id.small
  have hsbits := is.bits
  have hdbits := id.bits
  have hsl := is.length
  have hdl := id.length
  obtain ⟨g1, g2⟩ := regMove_args is id hs hd
  refine call_ok (k := .regMove) h r hh hr (by decide) (by decide) g1 g2
    (by decide) ⟨(td ++ '=' :: ts).length, ?_⟩
  simp only [runActEnc]
  rw [regMove_enc is id hs hd]
  have e1 : ((b : Int) - (a : Int)) = ((b - a : Nat) : Int) := by omega
  have e2 : ((d : Int) - (c : Int)) = ((b - a : Nat) : Int) := by omega
  rw [e1, e2, beq_self_eq_true, pyAssert_ok, ok_bind, packAll_nat 2 (b - a) (by omega) _ _ (packAll_nat 2 c (by omega) _ _
    (packAll_nat 2 a (by omega) [] [] rfl)), ok_bind]
  refine nxWrap_fit (t := 6) ?_ ?_
  · apply nxWire_fits
    simp only [List.length_append, u16_length, hsl, hdl]
    split <;> split <;> omega
  · simp only [List.append_assoc, List.append_nil]
    rfl

example : BitsOf fReg0 4 20 ∧ BitsOf fIpv6Src 100 116 ∧ RangeText fReg0 4 20 t!"nxm_reg0[4:20]" ∧
    RangeText fIpv6Src 100 116 t!"ipv6_src[0100:116]" := by
  refine ⟨by decide +kernel, by decide +kernel, RangeText.bits t!"4" t!"20" 4 20 (.num _ _ ?_) (.num _ _ ?_),
    RangeText.bits t!"0100" t!"116" 100 116 (.num _ _ ?_) (.num _ _ ?_)⟩
  all_goals exact (numeral_iff 10 (by decide) _ _).2 ⟨by decide, fun c hc => (isDec_iff c).1
    (by revert c; decide), by decide⟩

/-- Ranges of different widths are refused. -/
theorem C50_reg_move_width (src dst : Field) (a b c d : Nat) (ts td h r : Str) (hsb : BitsOf src c d)
    (hdb : BitsOf dst a b) (hns : src.name ∉ badIds) (hnd : dst.name ∉ badIds) (hw : b - a ≠ d - c)
    (hs : RangeText src c d ts) (hd : RangeText dst a b td) (hh : Head h) (hr : Boundary r) :
    str2act (h ++ ((t!"reg_move" ++ '(' :: (td ++ '=' :: ts) ++ [')']) ++ r)) = .error .assertionError := by
  obtain ⟨ns, is⟩ := bitsOf_id hsb hns
  obtain ⟨nd, id⟩ := bitsOf_id hdb hnd
  obtain ⟨h1, h2⟩ := bitsOf_facts hsb
  obtain ⟨h3, h4⟩ := bitsOf_facts hdb
  obtain ⟨g1, g2⟩ := regMove_args is id hs hd
  refine call_error (k := .regMove) h r hh hr (by decide) (by decide) g1 g2 (by decide) ?_
  simp only [runActEnc]
  rw [regMove_enc is id hs hd, beq_false_of_ne (by omega)]
  rfl

/-- Printing `reg_move`: both ranges are printed as they are, unless the destination is printed as a
whole field because the width is that of the source.  Missing: that case, for which it is false
(`C50_reg_move_print_refuted`). -/
theorem C50_reg_move_print_partial (src dst : Field) (srcOfs dstOfs nbits : Nat)
    (hv : (Act.regMove src srcOfs dst dstOfs nbits).Valid) (hns : src.name ∉ badIds) (hnd : dst.name ∉ badIds)
    (hw : src.experimenter = false → dstOfs = 0 → nbits = src.bits → nbits = dst.bits) :
    ∃ td ts, act2str (Act.regMove src srcOfs dst dstOfs nbits).wire =
        .ok (t!"reg_move" ++ '(' :: (td ++ '=' :: ts) ++ [')']) ∧
      RangeText dst dstOfs (dstOfs + nbits) td ∧ RangeText src srcOfs (srcOfs + nbits) ts := by
  obtain ⟨hs, hd⟩ := hv
  obtain ⟨ns, is⟩ := range_idField hs hns
  obtain ⟨nd, id⟩ := range_idField hd hnd
  obtain ⟨_, _, hpos, hse⟩ := hs
  obtain ⟨_, _, _, hde⟩ := hd
  have hsbits := is.bits
  have hsl := is.length
  have hdl := id.length
  refine ⟨_, _, act2str_nx 6 _ .regMove _ (by decide) (by decide) ?_ (by decide)
    (regMove_dec is.toIdShape id.toIdShape srcOfs dstOfs nbits hse hde _), bitText_range id _ _ _ ?_, bitText_range is _ _ _ ?_⟩
  · apply nxWire_fits
    simp only [List.length_append, u16_length, hsl, hdl]
    split <;> split <;> omega
  · intro h
    simp only [Bool.and_eq_true, beq_iff_eq] at h
    obtain ⟨h1, h2⟩ := h
    refine ⟨h1, ?_⟩
    cases he : src.experimenter with
    | true => rw [he] at h2; simp only [if_true] at h2; omega
    | false =>
      rw [he] at h2
      simp only [Bool.false_eq_true, if_false] at h2
      have := hw he h1 (by omega)
      omega
  · intro h
    simp only [Bool.and_eq_true, beq_iff_eq] at h
    obtain ⟨h1, h2⟩ := h
    refine ⟨h1, ?_⟩
    split at h2 <;> omega

example : (Act.regMove fIpv6Src 4 fReg0 8 16).Valid ∧
    act2str (Act.regMove fIpv6Src 4 fReg0 8 16).wire = .ok t!"reg_move(nxm_reg0[8:24]=ipv6_src[4:20])" :=
  ⟨⟨by decide +kernel, by decide +kernel⟩, by decide +kernel⟩

/-- The first 32 bits of `ipv6_src` are printed as the whole of it. -/
theorem C50_reg_move_print_refuted : (Act.regMove fReg0 0 fIpv6Src 0 32).Valid ∧
    act2str (Act.regMove fReg0 0 fIpv6Src 0 32).wire = .ok t!"reg_move(ipv6_src=nxm_reg0)" :=
  ⟨⟨by decide +kernel, by decide +kernel⟩, by decide +kernel⟩

/-! ## C50: multipath -/

theorem multipath_inside {dst : Field} {n a b : Nat} {hs as sb sl sg td : Str} {i j : Nat} {vb vl vg : Int}
    (id : IdField dst n) (Hh : Named nxHashNames i hs) (Ha : Named nxMpAlgNames j as)
    (hb : IntSyntax sb vb sb.length) (hl : IntSyntax sl vl sl.length) (hg : IntSyntax sg vg sg.length)
    (hd : RangeText dst a b td) :
    InLine ')' (hs ++ ',' :: (sb ++ ',' :: (as ++ ',' :: (sl ++ ',' :: (sg ++ ',' :: td))))) :=
  inside_comma (inside_clean Hh.clean Hh.np) <| inside_comma (intText_facts hb).2.2.1 <|
    inside_comma (inside_clean Ha.clean Ha.np) <| inside_comma (intText_facts hl).2.2.1 <|
    inside_comma (intText_facts hg).2.2.1 (rangeText_facts id hd).2.2.2.1

/-- What `multipath` stores for any range of a field, and that it raises an exception if a number does
not fit. -/
theorem multipath_all (dst : Field) (n a b i j : Nat) (hs as sb sl sg td h r : Str) (vb vl vg : Int)
    (id : IdField dst n) (ha : a < b) (hbb : b ≤ dst.bits) (hi : hashWords[i]? = some hs)
    (hj : mpAlgWords[j]? = some as) (hb : IntSyntax sb vb sb.length) (hl : IntSyntax sl vl sl.length)
    (hg : IntSyntax sg vg sg.length) (hd : RangeText dst a b td) (hh : Head h) (hr : Boundary r) :
    (FitsIn 2 vb ∧ FitsIn 2 vl ∧ FitsIn 4 vg →
      str2act (h ++ ((t!"multipath" ++ '(' ::
        (hs ++ ',' :: (sb ++ ',' :: (as ++ ',' :: (sl ++ ',' :: (sg ++ ',' :: td))))) ++ [')']) ++ r)) =
      .ok ((Act.multipath i vb.toNat j vl.toNat vg.toNat dst a (b - a)).wire,
        h.length + (t!"multipath" ++ '(' ::
        (hs ++ ',' :: (sb ++ ',' :: (as ++ ',' :: (sl ++ ',' :: (sg ++ ',' :: td))))) ++ [')']).length)) ∧
    (¬ (FitsIn 2 vb ∧ FitsIn 2 vl ∧ FitsIn 4 vg) →
      str2act (h ++ ((t!"multipath" ++ '(' ::
        (hs ++ ',' :: (sb ++ ',' :: (as ++ ',' :: (sl ++ ',' :: (sg ++ ',' :: td))))) ++ [')']) ++ r)) =
      .error .structError) := by
  obtain ⟨i2, Hh⟩ := hash_named hi
  obtain ⟨j4, Ha⟩ := mpAlg_named hj
  have hin := multipath_inside id Hh Ha hb hl hg hd
  have henc := multipath_enc id Hh Ha hb hl hg hd
  have hsm := id.small
  have hbits := id.bits
  have hdl := id.length
  have hfi : FitsIn 2 (i : Int) := fitsIn_of_lt (by omega)
  have hfj : FitsIn 2 (j : Int) := fitsIn_of_lt (by omega)
  have hst : ((a : Int) * 64 + ((b : Int) - (a : Int) - 1)) = ((ofsNbits a (b - a) : Nat) : Int) := by
    unfold ofsNbits; push_cast [show a ≤ b by omega, show 1 ≤ b - a by omega]; ring
  have hsf : ofsNbits a (b - a) < 256 ^ 2 := by unfold ofsNbits; omega
  constructor
  · rintro ⟨h1, h2, h3⟩
    refine call_ok (k := .multipath) h r hh hr (by decide) (by decide) hin (by simp) (by decide)
      ⟨(hs ++ ',' :: (sb ++ ',' :: (as ++ ',' :: (sl ++ ',' :: (sg ++ ',' :: td))))).length, henc.trans ?_⟩
    rw [packAll_fits (by
        intro e he
        simp only [List.mem_cons, List.not_mem_nil, or_false] at he
        rcases he with rfl | rfl
        · exact hfi
        · exact h1), ok_bind, packAll_fits (by
        intro e he
        simp only [List.mem_cons, List.not_mem_nil, or_false] at he
        rcases he with rfl | rfl | rfl
        · exact hfj
        · exact h2
        · exact h3), ok_bind, hst, packU_nat 2 _ hsf, ok_bind]
    refine nxWrap_fit (t := 10) ?_ ?_
    · apply nxWire_fits
      simp only [List.length_append, u16_length, u32_length, pad_length, hdl]
      split <;> omega
    · simp only [List.flatMap_cons, List.flatMap_nil, List.append_assoc, List.append_nil, Int.toNat_natCast]
      rfl
  · intro hn
    refine call_error (k := .multipath) h r hh hr (by decide) (by decide) hin (by simp) (by decide) (henc.trans ?_)
    by_cases h1 : FitsIn 2 vb
    · rw [packAll_fits (by
        intro e he
        simp only [List.mem_cons, List.not_mem_nil, or_false] at he
        rcases he with rfl | rfl
        · exact hfi
        · exact h1), ok_bind, packAll_nofit (by
        intro hf
        exact hn ⟨h1, hf (2, vl) (by simp), hf (4, vg) (by simp)⟩)]
      rfl
    · rw [packAll_nofit (fun hf => h1 (hf (2, vb) (by simp)))]
      rfl

/-- C50 for `multipath`: for any field and valid range of at most 64 bits, however written, the action
holds offset and width.  Missing: wider ranges, for which it is false (`C50_multipath_wide_refuted`). -/
theorem C50_multipath_partial (dst : Field) (a b i j : Nat) (hs as sb sl sg td h r : Str) (vb vl vg : Int)
    (hdb : BitsOf dst a b) (_h64 : b - a ≤ 64) (hnd : dst.name ∉ badIds) (hi : hashWords[i]? = some hs)
    (hj : mpAlgWords[j]? = some as) (hb : IntSyntax sb vb sb.length) (hl : IntSyntax sl vl sl.length)
    (hg : IntSyntax sg vg sg.length) (hfit : FitsIn 2 vb ∧ FitsIn 2 vl ∧ FitsIn 4 vg)
    (hd : RangeText dst a b td) (hh : Head h) (hr : Boundary r) :
    str2act (h ++ ((t!"multipath" ++ '(' ::
        (hs ++ ',' :: (sb ++ ',' :: (as ++ ',' :: (sl ++ ',' :: (sg ++ ',' :: td))))) ++ [')']) ++ r)) =
      .ok ((Act.multipath i vb.toNat j vl.toNat vg.toNat dst a (b - a)).wire,
        h.length + (t!"multipath" ++ '(' ::
        (hs ++ ',' :: (sb ++ ',' :: (as ++ ',' :: (sl ++ ',' :: (sg ++ ',' :: td))))) ++ [')']).length) ∧
      (Act.multipath i vb.toNat j vl.toNat vg.toNat dst a (b - a)).Valid := by
  obtain ⟨n, id⟩ := bitsOf_id hdb hnd
  obtain ⟨h3, h4⟩ := bitsOf_facts hdb
  refine ⟨(multipath_all dst n a b i j hs as sb sl sg td h r vb vl vg id h3 h4 hi hj hb hl hg hd hh hr).1 hfit, ?_⟩
  exact ⟨(hash_named hi).1, fitsIn_nat hfit.1, (mpAlg_named hj).1, fitsIn_nat hfit.2.1, fitsIn_nat hfit.2.2, hdb.2, _h64⟩

/-- C50 is false of `multipath` and every range of more than 64 bits: the text is accepted, and another
offset is stored. -/
theorem C50_multipath_wide_refuted (dst : Field) (a b i j : Nat) (hs as sb sl sg td h r : Str) (vb vl vg : Int)
    (hdb : BitsOf dst a b) (h64 : 64 < b - a) (hnd : dst.name ∉ badIds) (hi : hashWords[i]? = some hs)
    (hj : mpAlgWords[j]? = some as) (hb : IntSyntax sb vb sb.length) (hl : IntSyntax sl vl sl.length)
    (hg : IntSyntax sg vg sg.length) (hfit : FitsIn 2 vb ∧ FitsIn 2 vl ∧ FitsIn 4 vg)
    (hd : RangeText dst a b td) (hh : Head h) (hr : Boundary r) :
    ∃ bytes l, str2act (h ++ ((t!"multipath" ++ '(' ::
        (hs ++ ',' :: (sb ++ ',' :: (as ++ ',' :: (sl ++ ',' :: (sg ++ ',' :: td))))) ++ [')']) ++ r)) =
      .ok (bytes, l) ∧ uAt bytes 26 2 / 64 ≠ a := by
  obtain ⟨n, id⟩ := bitsOf_id hdb hnd
  obtain ⟨h3, h4⟩ := bitsOf_facts hdb
  have hsm := id.small
  have hbits := id.bits
  refine ⟨_, _, (multipath_all dst n a b i j hs as sb sl sg td h r vb vl vg id h3 h4 hi hj hb hl hg hd hh hr).1 hfit, ?_⟩
  have hsf : ofsNbits a (b - a) < 65536 := by unfold ofsNbits; omega
  simp only [Act.wire, nxWire, nxRaw, List.append_assoc]
  rw [uAt_u16 _ _ _ _ (by omega), uAt_u16 _ _ _ _ (by omega), uAt_u32 _ _ _ _ (by omega), uAt_u16 _ _ _ _ (by omega),
    uAt_u16 _ _ _ _ (by omega), uAt_u16 _ _ _ _ (by omega), uAt_skip_pad _ _ _ _ (by omega), uAt_u16 _ _ _ _ (by omega),
    uAt_u16 _ _ _ _ (by omega), uAt_u32 _ _ _ _ (by omega), uAt_skip_pad _ _ _ _ (by omega)]
  rw [show uAt (u16 (ofsNbits a (b - a)) ++ (dst.id ++ fill (10 + (u16 i ++ (u16 vb.toNat ++ (pad 2 ++ (u16 j ++
    (u16 vl.toNat ++ (u32 vg.toNat ++ (pad 2 ++ (u16 (ofsNbits a (b - a)) ++ dst.id)))))))).length))) _ 2 =
    ofsNbits a (b - a) from uAt_u16_here _ _ hsf]
  unfold ofsNbits
  omega

example : BitsOf fIpv6Src 0 100 ∧ hashWords[0]? = some t!"eth_src" ∧ mpAlgWords[2]? = some t!"hrw" := by
  decide +kernel

example : str2act t!"multipath(eth_src,50,hrw,12,0,ipv6_src[0:100])" =
    .ok ((Act.multipath 0 50 2 12 0 fIpv6Src 1 36).wire, 46) := by decide +kernel

/-- Printing `multipath`: any valid range is printed as offset and end. -/
theorem C50_multipath_print (hash basis alg maxLink arg : Nat) (dst : Field) (ofs nbits : Nat)
    (hv : (Act.multipath hash basis alg maxLink arg dst ofs nbits).Valid) (hnd : dst.name ∉ badIds) :
    ∃ pre td, act2str (Act.multipath hash basis alg maxLink arg dst ofs nbits).wire =
        .ok (t!"multipath" ++ '(' :: (pre ++ ',' :: td) ++ [')']) ∧ ClosedText dst ofs (ofs + nbits) td := by
  obtain ⟨h1, h2, h3, h4, h5, hd, h64⟩ := hv
  obtain ⟨n, id⟩ := range_idField hd hnd
  obtain ⟨_, _, hpos, hde⟩ := hd
  obtain ⟨hs, Hh⟩ := named_hash hash h1
  obtain ⟨as, Ha⟩ := named_mpAlg alg h3
  have hdl := id.length
  refine ⟨hs ++ ',' :: (fmtD basis ++ ',' :: (as ++ ',' :: (fmtD maxLink ++ ',' :: fmtX 0 arg))), _,
    act2str_nx 10 _ .multipath _ (by decide) (by decide) ?_ (by decide)
    ((multipath_dec id.toIdShape hash basis alg maxLink arg ofs nbits hs as h1 h2 h3 h4 h5 hpos hde h64 Hh Ha _).trans ?_),
    bitText_closed id _ _⟩
  · apply nxWire_fits
    simp only [List.length_append, u16_length, u32_length, pad_length, hdl]
    split <;> omega
  · simp only [List.append_assoc, List.cons_append]

/-! ## C50: output_reg and output_reg2 -/

/-- The action that `output_reg` and `output_reg2` make. -/
def outReg (reg2 : Bool) (src : Field) (ofs nbits maxLen : Nat) : Act :=
  if reg2 || src.experimenter then .outputReg2 src ofs nbits maxLen else .outputReg src ofs nbits maxLen

def outRegName (reg2 : Bool) : Str := if reg2 then t!"output_reg2" else t!"output_reg"

theorem outRegName_facts (reg2 : Bool) : Clean (outRegName reg2) ∧ outRegName reg2 ≠ [] ∧
    lookupAct (outRegName reg2) = some (if reg2 then .outputReg2 else .outputReg) := by
  cases reg2 <;> exact ⟨by decide, by decide, by decide⟩

theorem maxLenText_inside {tm : Str} {m : Int} (h : MaxLenText tm m) : InLine ')' tm := by
  cases h with
  | absent => exact ⟨.nil _, List.not_mem_nil⟩
  | num s v hs => exact inside_cons (by decide) (by decide) (intText_facts hs).2.2.1

/-- What `output_reg` and `output_reg2` store: `a * 64 + (b % 64 - 1)`. -/
theorem outputReg_all (reg2 : Bool) (src : Field) (n a b : Nat) (t tm h r : Str) (m : Int) (id : IdField src n)
    (ht : ClosedText src a b t) (hm : MaxLenText tm m) (hh : Head h) (hr : Boundary r) :
    (∀ ofs nbits, FitsIn 2 m → 0 < nbits → ofsNbits ofs nbits < 65536 →
      (a : Int) * 64 + ((b : Int) % 64 - 1) = ofsNbits ofs nbits →
      str2act (h ++ ((outRegName reg2 ++ '(' :: (t ++ tm) ++ [')']) ++ r)) =
        .ok ((outReg reg2 src ofs nbits m.toNat).wire, h.length + (outRegName reg2 ++ '(' :: (t ++ tm) ++ [')']).length)) ∧
    (¬ FitsIn 2 m ∨ ¬ FitsIn 2 ((a : Int) * 64 + ((b : Int) % 64 - 1)) →
      str2act (h ++ ((outRegName reg2 ++ '(' :: (t ++ tm) ++ [')']) ++ r)) = .error .structError) := by
  obtain ⟨n1, n2, n3⟩ := outRegName_facts reg2
  have hin : InLine ')' (t ++ tm) := inside_append (rangeText_facts id ht.range).2.2.2.1 (maxLenText_inside hm)
  have hne : t ++ tm ≠ [] := by
    intro h
    exact (rangeText_facts id ht.range).2.2.1 (List.append_eq_nil_iff.1 h).1
  have hrun : ∀ x, runActEnc (if reg2 then .outputReg2 else .outputReg) (t ++ tm) x = outputRegStr2act reg2 (t ++ tm) x := by
    intro x; cases reg2 <;> rfl
  have henc := outputReg_encode id ht hm reg2 false
  have hl := id.length
  have hx : (reg2 || decide (src.id.length > 4)) = (reg2 || src.experimenter) := by
    rw [hl]; cases src.experimenter <;> simp
  rw [hx] at henc
  constructor
  · intro ofs nbits hfm hpos hlt hst
    refine call_ok h r hh hr n1 n2 hin hne n3 ⟨(t ++ tm).length, (hrun _).trans (henc.trans ?_)⟩
    rw [hst]
    unfold outReg
    have hpu : packU 2 m = .ok (be 2 m.toNat) := packU_fits hfm
    by_cases hb : (reg2 || src.experimenter) = true
    · rw [if_pos hb, if_pos hb, packAll_fits (by
        intro e he
        simp only [List.mem_cons, List.not_mem_nil, or_false] at he
        rcases he with rfl | rfl
        · exact fitsIn_of_lt hlt
        · exact hfm), ok_bind]
      refine nxWrap_fit (t := 32) ?_ ?_
      · apply nxWire_fits
        simp only [List.length_append, u16_length, hl]
        split <;> omega
      · simp only [List.flatMap_cons, List.flatMap_nil, List.append_assoc, List.append_nil, Int.toNat_natCast]
        rfl
    · rw [if_neg hb, if_neg hb, packU_nat 2 _ hlt, ok_bind, hpu, ok_bind]
      refine nxWrap_fit (t := 15) ?_ ?_
      · apply nxWire_fits
        simp only [List.length_append, u16_length, pad_length, hl]
        split <;> omega
      · rfl
  · intro hn
    refine call_error h r hh hr n1 n2 hin hne n3 ((hrun _).trans (henc.trans ?_))
    by_cases hb : (reg2 || src.experimenter) = true
    · rw [if_pos hb, packAll_nofit (by
        intro hf
        rcases hn with hn | hn
        · exact hn (hf (2, m) (by simp))
        · exact hn (hf (2, _) (List.mem_cons_self ..)))]
      rfl
    · rw [if_neg hb]
      by_cases hv : FitsIn 2 ((a : Int) * 64 + ((b : Int) % 64 - 1))
      · rw [packU_fits hv, ok_bind, packU_nofit (by
          rcases hn with hn | hn
          · exact hn
          · exact absurd hv hn)]
        rfl
      · rw [packU_nofit hv]; rfl

theorem uAt_outReg (reg2 : Bool) (src : Field) (ofs nbits maxLen : Nat) (h : ofsNbits ofs nbits < 65536) :
    uAt (outReg reg2 src ofs nbits maxLen).wire 10 2 = ofsNbits ofs nbits := by
  unfold outReg
  split
  · exact uAt_nxWire 32 _ _ h
  · exact uAt_nxWire 15 _ _ h

/-- C50 for `output_reg` and `output_reg2`, exactly: for any field and any valid range of at most 64 bits
with both bounds written out, the action holds offset and width if and only if the offset is a multiple of
64 and the width is below 64. -/
theorem C50_output_reg_iff (reg2 : Bool) (src : Field) (a b : Nat) (t tm h r : Str) (m : Int)
    (hb : BitsOf src a b) (h64 : b - a ≤ 64) (hns : src.name ∉ badIds) (ht : ClosedText src a b t)
    (hm : MaxLenText tm m) (hfm : FitsIn 2 m) (hh : Head h) (hr : Boundary r) :
    str2act (h ++ ((outRegName reg2 ++ '(' :: (t ++ tm) ++ [')']) ++ r)) =
        .ok ((outReg reg2 src a (b - a) m.toNat).wire, h.length + (outRegName reg2 ++ '(' :: (t ++ tm) ++ [')']).length) ↔
      a % 64 = 0 ∧ b - a < 64 := by
  obtain ⟨n, id⟩ := bitsOf_id hb hns
  obtain ⟨h3, h4⟩ := bitsOf_facts hb
  have hsm := id.small
  have hbits := id.bits
  obtain ⟨k1, k2⟩ := outputReg_all reg2 src n a b t tm h r m id ht hm hh hr
  have hlt : ofsNbits a (b - a) < 65536 := by unfold ofsNbits; omega
  constructor
  · intro he
    by_cases hf : FitsIn 2 ((a : Int) * 64 + ((b : Int) % 64 - 1))
    · obtain ⟨f1, f2⟩ := hf
      have f2 : (a : Int) * 64 + ((b : Int) % 64 - 1) < 65536 := by simpa using f2
      generalize hv : ((a : Int) * 64 + ((b : Int) % 64 - 1)).toNat = v
      have hw : ofsNbits (v / 64) (v % 64 + 1) = v := by unfold ofsNbits; omega
      have := k1 (v / 64) (v % 64 + 1) hfm (by omega) (by omega) (by omega)
      rw [this] at he
      injection he with he
      have he := congrArg (fun x => uAt x.1 10 2) he
      dsimp only at he
      rw [uAt_outReg _ _ _ _ _ (by omega), uAt_outReg _ _ _ _ _ hlt, hw] at he
      unfold ofsNbits at he
      omega
    · rw [k2 (Or.inr hf)] at he
      cases he
  · rintro ⟨g1, g2⟩
    refine k1 a (b - a) hfm (by omega) hlt ?_
    unfold ofsNbits
    omega

example : BitsOf fIpv6Src 64 72 ∧ str2act t!"output_reg(ipv6_src[64:72])" =
    .ok ((Act.outputReg fIpv6Src 64 8 0xffff).wire, 27) := by decide +kernel

/-- C50 is false of `output_reg` and every range that ends at bit 64 and starts at bit 0, the whole of a field
of eight bytes among them: it is refused. -/
theorem C50_output_reg_64_refuted (reg2 : Bool) (src : Field) (t tm h r : Str) (m : Int)
    (hb : BitsOf src 0 64) (hns : src.name ∉ badIds) (ht : ClosedText src 0 64 t)
    (hm : MaxLenText tm m) (hh : Head h) (hr : Boundary r) :
    str2act (h ++ ((outRegName reg2 ++ '(' :: (t ++ tm) ++ [')']) ++ r)) = .error .structError := by
  obtain ⟨n, id⟩ := bitsOf_id hb hns
  exact (outputReg_all reg2 src n 0 64 t tm h r m id ht hm hh hr).2 (Or.inr (by decide))

/-- A range whose offset is not a multiple of 64 is stored as another range: bits 16 to 31 become the 32 bits
from 16 on, bits 60 to 67 the four bits from 60 on, and the 64 bits from 64 on the 64 bits from 63 on. -/
theorem C50_output_reg_refuted :
    str2act t!"output_reg(nxm_reg0[16:32])" = .ok ((Act.outputReg fReg0 16 32 0xffff).wire, 27) ∧
    str2act t!"output_reg(ipv6_src[60:68])" = .ok ((Act.outputReg fIpv6Src 60 4 0xffff).wire, 27) ∧
    str2act t!"output_reg2(ipv6_src[64:128])" = .ok ((Act.outputReg2 fIpv6Src 63 64 0xffff).wire, 29) ∧
    BitsOf fReg0 16 32 ∧ BitsOf fIpv6Src 60 68 ∧ BitsOf fIpv6Src 64 128 := by decide +kernel

/-- Open bounds, which the other actions take, are refused by `output_reg` and `bundle_load`; and the whole of an
experimenter field is stored with four bytes more than it has. -/
theorem C50_output_reg_forms_refuted :
    str2act t!"output_reg(nxm_reg0[:8])" = .error .valueError ∧
    str2act t!"output_reg(nxm_reg0[8:])" = .error .valueError ∧
    str2act t!"bundle_load(eth_src,50,hrw,in_port,in_port[:8],slaves(1))" = .error .valueError ∧
    str2act t!"output_reg(dot11)" = .ok ((Act.outputReg2 fDot11 0 40 0xffff).wire, 17) ∧ fDot11 ∈ fields ∧ fDot11.bits = 8 := by
  decide +kernel

/-- Printing `output_reg` and `output_reg2`: any valid range is printed as it is. -/
theorem C50_output_reg_print (src : Field) (ofs nbits maxLen : Nat)
    (hv : (Act.outputReg src ofs nbits maxLen).Valid) (hns : src.name ∉ badIds) :
    ∃ t, act2str (Act.outputReg src ofs nbits maxLen).wire = .ok (t!"output_reg" ++ '(' :: t ++ [')']) ∧
      RangeText src ofs (ofs + nbits) t := by
  obtain ⟨hb, h64, hx, hm⟩ := hv
  obtain ⟨n, id⟩ := range_idField hb hns
  obtain ⟨_, _, hpos, he⟩ := hb
  have hl := id.length
  have hbits := id.bits
  refine ⟨_, act2str_nx 15 _ .outputReg _ (by decide) (by decide) ?_ (by decide)
    (outputReg_dec id.toIdShape ofs nbits maxLen hx hpos he h64 _), bitText_range id _ _ _ ?_⟩
  · apply nxWire_fits
    simp only [List.length_append, u16_length, pad_length, hl]
    split <;> omega
  · intro h
    simp only [Bool.and_eq_true, beq_iff_eq] at h
    obtain ⟨h1, h2⟩ := h
    split at h2 <;> omega

theorem C50_output_reg2_print (src : Field) (ofs nbits maxLen : Nat)
    (hv : (Act.outputReg2 src ofs nbits maxLen).Valid) (hns : src.name ∉ badIds) :
    ∃ t, act2str (Act.outputReg2 src ofs nbits maxLen).wire = .ok (t!"output_reg2" ++ '(' :: t ++ [')']) ∧
      RangeText src ofs (ofs + nbits) t := by
  obtain ⟨hb, h64, hm⟩ := hv
  obtain ⟨n, id⟩ := range_idField hb hns
  obtain ⟨_, _, hpos, he⟩ := hb
  have hl := id.length
  have hbits := id.bits
  refine ⟨_, act2str_nx 32 _ .outputReg2 _ (by decide) (by decide) ?_ (by decide)
    (outputReg2_dec id.toIdShape ofs nbits maxLen hpos he h64 _), bitText_range id _ _ _ ?_⟩
  · apply nxWire_fits
    simp only [List.length_append, u16_length, hl]
    split <;> omega
  · intro h
    simp only [Bool.and_eq_true, beq_iff_eq] at h
    obtain ⟨h1, h2⟩ := h
    split at h2 <;> omega

example : (Act.outputReg fReg0 16 16 0xffff).Valid ∧
    act2str (Act.outputReg fReg0 16 16 0xffff).wire = .ok t!"output_reg(nxm_reg0[16:32])" :=
  ⟨⟨by decide +kernel, by decide, by decide, by decide⟩, by decide +kernel⟩

/-! ## C50: bundle_load -/

/-- What `bundle_load` stores for any range: the upper bound as width.  `sid` and `did` are the ids that the
library takes for the two fields. -/
theorem bundleLoad_all (st dst : Field) (n m a b i j : Nat) (hs as sb td h r : Str) (sl : List Str) (vb : Int)
    (vs : List Int) (is : IdField st n) (id : IdField dst m) (hi : hashWords[i]? = some hs)
    (hj : bdAlgWords[j]? = some as) (hb : IntSyntax sb vb sb.length) (hd : ClosedText dst a b td)
    (hl : SlaveTexts sl vs) (hh : Head h) (hr : Boundary r) (h0 : 0 < b) (hlt : ofsNbits a b < 65536)
    (hn : vs.length < 30000) :
    ∃ sid did, str2oxmid true st.name = .ok sid ∧ str2oxmid true dst.name = .ok did ∧
    sid.length = st.id.length ∧ did.length = dst.id.length ∧
    (FitsIn 2 vb ∧ (∀ v ∈ vs, FitsIn 2 v) →
      str2act (h ++ ((t!"bundle_load" ++ '(' ::
        (hs ++ ',' :: (sb ++ ',' :: (as ++ ',' :: (st.name ++ ',' :: (td ++ ',' :: slavesArg sl))))) ++ [')']) ++ r)) =
      .ok (nxWire 13 (u16 j ++ (u16 i ++ (u16 vb.toNat ++ (sid ++ (u16 vs.length ++ (u16 (ofsNbits a b) ++ (did ++
        (pad 4 ++ vs.flatMap fun v => u16 v.toNat)))))))),
        h.length + (t!"bundle_load" ++ '(' ::
        (hs ++ ',' :: (sb ++ ',' :: (as ++ ',' :: (st.name ++ ',' :: (td ++ ',' :: slavesArg sl))))) ++ [')']).length)) ∧
    (¬ (FitsIn 2 vb ∧ (∀ v ∈ vs, FitsIn 2 v)) →
      str2act (h ++ ((t!"bundle_load" ++ '(' ::
        (hs ++ ',' :: (sb ++ ',' :: (as ++ ',' :: (st.name ++ ',' :: (td ++ ',' :: slavesArg sl))))) ++ [')']) ++ r)) =
      .error .structError) := by
  obtain ⟨i2, Hh⟩ := hash_named hi
  obtain ⟨j2, Ha⟩ := bdAlg_named hj
  obtain ⟨sid, s1, s2⟩ := is.encodeTrue
  obtain ⟨did, d1, d2⟩ := id.encodeTrue
  refine ⟨sid, did, s1, d1, s2, d2, ?_⟩
  have hin : InLine ')' (hs ++ ',' :: (sb ++ ',' :: (as ++ ',' :: (st.name ++ ',' :: (td ++ ',' :: slavesArg sl))))) :=
    inside_comma (inside_clean Hh.clean Hh.np) <| inside_comma (intText_facts hb).2.2.1 <|
    inside_comma (inside_clean Ha.clean Ha.np) <| inside_comma is.nameInside <|
    inside_comma (rangeText_facts id hd.range).2.2.2.1 (slavesArg_facts hl).2.2.2
  have henc := bundleLoad_encode id Hh Ha hb is.nameClean.1 is.nameClean.2 s1 d1 hd hl
  have hfi : FitsIn 2 (i : Int) := fitsIn_of_lt (by omega)
  have hfj : FitsIn 2 (j : Int) := fitsIn_of_lt (by omega)
  have hfl : FitsIn 2 (vs.length : Int) := fitsIn_of_lt (by omega)
  have hst : ((a : Int) * 64 + ((b : Int) - 1)) = ((ofsNbits a b : Nat) : Int) := by
    unfold ofsNbits; push_cast [show 1 ≤ b by omega]; ring
  have hsl := is.length
  have hdl := id.length
  have hy : packAll [(2, (vs.length : Int)), (2, ((ofsNbits a b : Nat) : Int))] = .ok (u16 vs.length ++ (u16 (ofsNbits a b) ++ [])) :=
    packAll_nat 2 _ (by omega) _ _ (packAll_nat 2 _ hlt [] [] rfl)
  constructor
  · rintro ⟨h1, h2⟩
    refine call_ok (k := .bundleLoad) h r hh hr (by decide) (by decide) hin (by simp) (by decide)
      ⟨(hs ++ ',' :: (sb ++ ',' :: (as ++ ',' :: (st.name ++ ',' :: (td ++ ',' :: slavesArg sl))))).length, henc.trans ?_⟩
    rw [packAll_fits (by
        intro e he
        simp only [List.mem_cons, List.not_mem_nil, or_false] at he
        rcases he with rfl | rfl | rfl
        · exact hfj
        · exact hfi
        · exact h1), ok_bind, hst, hy, ok_bind]
    unfold packHs
    rw [packAll_fits (by
      intro e he
      obtain ⟨v, hv, rfl⟩ := List.mem_map.1 he
      exact h2 v hv), ok_bind]
    refine nxWrap_fit (t := 13) ?_ ?_
    · apply nxWire_fits
      have : (vs.flatMap fun v => u16 v.toNat).length = 2 * vs.length := by
        clear hl hn hfl hy henc hin h2
        induction vs with
        | nil => rfl
        | cons v vs ih => simp only [List.flatMap_cons, List.length_append, u16_length, ih, List.length_cons]; omega
      simp only [List.length_append, u16_length, pad_length, s2, d2, hsl, hdl, this]
      split <;> split <;> omega
    · simp only [List.flatMap_cons, List.flatMap_nil, List.append_assoc, List.append_nil, Int.toNat_natCast,
        List.flatMap_map]
      rfl
  · intro hn
    refine call_error (k := .bundleLoad) h r hh hr (by decide) (by decide) hin (by simp) (by decide) (henc.trans ?_)
    by_cases h1 : FitsIn 2 vb
    · rw [packAll_fits (by
        intro e he
        simp only [List.mem_cons, List.not_mem_nil, or_false] at he
        rcases he with rfl | rfl | rfl
        · exact hfj
        · exact hfi
        · exact h1), ok_bind, hst, hy, ok_bind]
      unfold packHs
      rw [packAll_nofit (by
        intro hf
        refine hn ⟨h1, fun v hv => ?_⟩
        exact hf (2, v) (List.mem_map.2 ⟨v, hv, rfl⟩))]
      rfl
    · rw [packAll_nofit (fun hf => h1 (hf (2, vb) (by simp)))]
      rfl

theorem size_small {f : Field} {n : Nat} (h : IdField f n) : n ≤ 16 := by
  have key : ∀ f ∈ fields, f.kind.size.getD 0 ≤ 16 := by decide +kernel
  have := key f h.mem
  rwa [h.size] at this

/-- C50 for `bundle_load`, exactly: for any fields (with ids of four bytes) and any valid range with both bounds
written out, the slot of offset and width holds the upper bound as width, so that it is right if and only
if the offset is zero. -/
theorem C50_bundle_load_iff (st dst : Field) (a b i j : Nat) (hs as sb td h r : Str) (sl : List Str) (vb : Int)
    (vs : List Int) (hst : st ∈ fields) (hsz : st.kind.size ≠ none) (hsx : st.experimenter = false)
    (hsb : st.name ∉ badIds) (hdb : BitsOf dst a b) (hnd : dst.name ∉ badIds) (hi : hashWords[i]? = some hs)
    (hj : bdAlgWords[j]? = some as) (hb : IntSyntax sb vb sb.length) (hd : ClosedText dst a b td)
    (hl : SlaveTexts sl vs) (hfit : FitsIn 2 vb ∧ ∀ v ∈ vs, FitsIn 2 v) (hn : vs.length < 30000)
    (hh : Head h) (hr : Boundary r) :
    ∃ bytes l, str2act (h ++ ((t!"bundle_load" ++ '(' ::
        (hs ++ ',' :: (sb ++ ',' :: (as ++ ',' :: (st.name ++ ',' :: (td ++ ',' :: slavesArg sl))))) ++ [')']) ++ r)) =
      .ok (bytes, l) ∧ uAt bytes 22 2 = ofsNbits a b ∧ (uAt bytes 22 2 = ofsNbits a (b - a) ↔ a = 0) := by
  obtain ⟨n, is⟩ : ∃ n, IdField st n := by
    cases hs : st.kind.size with
    | none => exact absurd hs hsz
    | some n => exact ⟨n, ⟨hst, hs⟩, hsb⟩
  obtain ⟨m, id⟩ := bitsOf_id hdb hnd
  obtain ⟨h3, h4⟩ := bitsOf_facts hdb
  have hsm := size_small id
  have hbits := id.bits
  have hlt : ofsNbits a b < 65536 := by unfold ofsNbits; omega
  obtain ⟨sid, did, _, _, s2, _, k, _⟩ := bundleLoad_all st dst n m a b i j hs as sb td h r sl vb vs is id hi hj hb hd hl
    hh hr (by omega) hlt hn
  refine ⟨_, _, k hfit, ?_⟩
  have hsl : sid.length = 4 := by rw [s2, is.length, hsx]; rfl
  have hu : ∀ z : Bytes, uAt (nxRaw 13 (u16 j ++ (u16 i ++ (u16 vb.toNat ++ (sid ++ (u16 vs.length ++
      (u16 (ofsNbits a b) ++ z))))))) 22 2 = ofsNbits a b := by
    intro z
    unfold nxRaw
    rw [uAt_u16 _ _ _ _ (by omega), uAt_u16 _ _ _ _ (by omega), uAt_u32 _ _ _ _ (by omega), uAt_u16 _ _ _ _ (by omega),
      uAt_u16 _ _ _ _ (by omega), uAt_u16 _ _ _ _ (by omega), uAt_u16 _ _ _ _ (by omega),
      uAt_right _ _ _ _ (by omega), hsl, uAt_u16 _ _ _ _ (by omega)]
    exact uAt_u16_here _ _ hlt
  have hw : uAt (nxWire 13 (u16 j ++ (u16 i ++ (u16 vb.toNat ++ (sid ++ (u16 vs.length ++ (u16 (ofsNbits a b) ++ (did ++
        (pad 4 ++ vs.flatMap fun v => u16 v.toNat))))))))) 22 2 = ofsNbits a b := by
    unfold nxWire
    simp only [List.append_assoc]
    exact hu _
  rw [hw]
  refine ⟨rfl, ?_⟩
  unfold ofsNbits
  omega

/-- The same for the fields whose id has no mask bit: `[a:b]` gives the action for the `b` bits from `a` on. -/
theorem C50_bundle_load_wire (st dst : Field) (a b i j : Nat) (hs as sb td h r : Str) (sl : List Str) (vb : Int)
    (vs : List Int) (hst : st ∈ fields) (hsz : st.kind.size ≠ none) (hsx : st.experimenter = false)
    (hsb : st.name ∉ badIds) (hsm : st.kind.noMaskId = true) (hdm : dst.kind.noMaskId = true)
    (hdb : BitsOf dst a b) (hnd : dst.name ∉ badIds) (hi : hashWords[i]? = some hs)
    (hj : bdAlgWords[j]? = some as) (hb : IntSyntax sb vb sb.length) (hd : ClosedText dst a b td)
    (hl : SlaveTexts sl vs) (hfit : FitsIn 2 vb ∧ ∀ v ∈ vs, FitsIn 2 v) (hn : vs.length < 30000)
    (hh : Head h) (hr : Boundary r) :
    str2act (h ++ ((t!"bundle_load" ++ '(' ::
        (hs ++ ',' :: (sb ++ ',' :: (as ++ ',' :: (st.name ++ ',' :: (td ++ ',' :: slavesArg sl))))) ++ [')']) ++ r)) =
      .ok ((Act.bundleLoad i vb.toNat j st dst a b (vs.map Int.toNat)).wire,
        h.length + (t!"bundle_load" ++ '(' ::
        (hs ++ ',' :: (sb ++ ',' :: (as ++ ',' :: (st.name ++ ',' :: (td ++ ',' :: slavesArg sl))))) ++ [')']).length) := by
  obtain ⟨n, is⟩ : ∃ n, IdField st n := by
    cases hs : st.kind.size with
    | none => exact absurd hs hsz
    | some n => exact ⟨n, ⟨hst, hs⟩, hsb⟩
  obtain ⟨m, id⟩ := bitsOf_id hdb hnd
  obtain ⟨h3, h4⟩ := bitsOf_facts hdb
  have hsms := size_small id
  have hbits := id.bits
  have hlt : ofsNbits a b < 65536 := by unfold ofsNbits; omega
  obtain ⟨sid, did, s1, d1, _, _, k, _⟩ := bundleLoad_all st dst n m a b i j hs as sb td h r sl vb vs is id hi hj hb hd hl
    hh hr (by omega) hlt hn
  rw [is.encodeMaskName hsm] at s1
  rw [id.encodeMaskName hdm] at d1
  cases s1
  cases d1
  rw [k hfit]
  simp only [Act.wire, List.length_map, List.flatMap_map]

example : BitsOf fInPort 4 12 ∧ str2act t!"bundle_load(eth_src,50,hrw,in_port,in_port[4:12],slaves(1,0x2))" =
    .ok ((Act.bundleLoad 0 50 1 fInPort fInPort 4 12 [1, 2]).wire, 63) := by decide +kernel

/-- C50 is false of `bundle_load`: `[4:12]` names eight bits, and twelve are loaded. -/
theorem C50_bundle_load_refuted : BitsOf fInPort 4 12 ∧
    str2act t!"bundle_load(eth_src,50,hrw,in_port,in_port[4:12],slaves(1))" =
      .ok ((Act.bundleLoad 0 50 1 fInPort fInPort 4 12 [1]).wire, 59) ∧
    (Act.bundleLoad 0 50 1 fInPort fInPort 4 12 [1]).wire ≠ (Act.bundleLoad 0 50 1 fInPort fInPort 4 8 [1]).wire := by
  decide +kernel

/-- Printing `bundle_load`: any valid range is printed as offset and end. -/
theorem C50_bundle_load_print (hash basis alg : Nat) (st dst : Field) (ofs nbits : Nat) (slaves : List Nat)
    (hv : (Act.bundleLoad hash basis alg st dst ofs nbits slaves).Valid) (hns : st.name ∉ badIds)
    (hnd : dst.name ∉ badIds) :
    ∃ pre post td, act2str (Act.bundleLoad hash basis alg st dst ofs nbits slaves).wire =
        .ok (t!"bundle_load" ++ '(' :: (pre ++ ',' :: (td ++ ',' :: post)) ++ [')']) ∧
      ClosedText dst ofs (ofs + nbits) td := by
  obtain ⟨h1, h2, h3, h4, h5, h6, hd, h64, hdx, hp, hl⟩ := hv
  obtain ⟨n, is⟩ : ∃ n, IdField st n := by
    cases hs : st.kind.size with
    | none => exact absurd hs h5
    | some n => exact ⟨n, ⟨h4, hs⟩, hns⟩
  obtain ⟨m, id⟩ := range_idField hd hnd
  obtain ⟨_, _, hpos, hde⟩ := hd
  obtain ⟨hs, Hh⟩ := named_hash hash h1
  obtain ⟨as, Ha⟩ := named_bdAlg alg h3
  have hsl := is.length
  have hdl := id.length
  refine ⟨hs ++ ',' :: (fmtD basis ++ ',' :: (as ++ ',' :: shownName st)),
    t!"slaves" ++ '(' :: joinStr t!"," (slaves.map bundlePortText) ++ [')'], _,
    act2str_nx 13 _ .bundleLoad _ (by decide) (by decide) ?_ (by decide)
    ((bundleLoad_dec is.toIdShape id.toIdShape hash basis alg ofs nbits hs as slaves h1 h2 h3 h6 hpos hde h64 hdx hp hl Hh Ha _).trans ?_),
    bitText_closed id _ _⟩
  · apply nxWire_fits
    simp only [List.length_append, u16_length, pad_length, flatMap_u16_length, hsl, hdl]
    split <;> split <;> omega
  · simp only [List.append_assoc, List.cons_append]

example : (Act.bundleLoad 0 50 1 fInPort fReg0 4 8 [1, 0xfffd]).Valid ∧
    act2str (Act.bundleLoad 0 50 1 fInPort fReg0 4 8 [1, 0xfffd]).wire =
      .ok t!"bundle_load(eth_src,50,hrw,in_port,nxm_reg0[4:12],slaves(1,controller))" :=
  ⟨⟨by decide, by decide, by decide, by decide +kernel, by decide, by decide, by decide +kernel, by decide, by decide,
    by decide, by decide⟩, by decide +kernel⟩

/-! ## C51 -/

theorem raises_struct {α : Type} {x : Py α} (h : x = .error .structError) : Raises x := ⟨_, h, by decide⟩

/-- C51 for the numbers of `multipath`. -/
theorem C51_multipath (dst : Field) (a b i j : Nat) (hs as sb sl sg td h r : Str) (vb vl vg : Int)
    (hdb : BitsOf dst a b) (hnd : dst.name ∉ badIds) (hi : hashWords[i]? = some hs)
    (hj : mpAlgWords[j]? = some as) (hb : IntSyntax sb vb sb.length) (hl : IntSyntax sl vl sl.length)
    (hg : IntSyntax sg vg sg.length) (hfit : ¬ FitsIn 2 vb ∨ ¬ FitsIn 2 vl ∨ ¬ FitsIn 4 vg)
    (hd : RangeText dst a b td) (hh : Head h) (hr : Boundary r) :
    Raises (str2act (h ++ ((t!"multipath" ++ '(' ::
        (hs ++ ',' :: (sb ++ ',' :: (as ++ ',' :: (sl ++ ',' :: (sg ++ ',' :: td))))) ++ [')']) ++ r))) := by
  obtain ⟨n, id⟩ := bitsOf_id hdb hnd
  obtain ⟨h3, h4⟩ := bitsOf_facts hdb
  refine raises_struct ((multipath_all dst n a b i j hs as sb sl sg td h r vb vl vg id h3 h4 hi hj hb hl hg hd hh hr).2 ?_)
  rintro ⟨g1, g2, g3⟩
  rcases hfit with h | h | h
  · exact h g1
  · exact h g2
  · exact h g3

example : str2act t!"multipath(eth_src,65536,hrw,12,0,nxm_reg0)" = .error .structError := by decide +kernel

/-- C51 for the numbers of `bundle_load`. -/
theorem C51_bundle_load (st dst : Field) (a b i j : Nat) (hs as sb td h r : Str) (sl : List Str) (vb : Int)
    (vs : List Int) (hst : st ∈ fields) (hsz : st.kind.size ≠ none) (hsb : st.name ∉ badIds) (hdb : BitsOf dst a b)
    (hnd : dst.name ∉ badIds) (hi : hashWords[i]? = some hs) (hj : bdAlgWords[j]? = some as)
    (hb : IntSyntax sb vb sb.length) (hd : ClosedText dst a b td) (hl : SlaveTexts sl vs)
    (hfit : ¬ FitsIn 2 vb ∨ ∃ v ∈ vs, ¬ FitsIn 2 v) (hn : vs.length < 30000) (hh : Head h) (hr : Boundary r) :
    Raises (str2act (h ++ ((t!"bundle_load" ++ '(' ::
        (hs ++ ',' :: (sb ++ ',' :: (as ++ ',' :: (st.name ++ ',' :: (td ++ ',' :: slavesArg sl))))) ++ [')']) ++ r))) := by
  obtain ⟨n, is⟩ : ∃ n, IdField st n := by
    cases hs : st.kind.size with
    | none => exact absurd hs hsz
    | some n => exact ⟨n, ⟨hst, hs⟩, hsb⟩
  obtain ⟨m, id⟩ := bitsOf_id hdb hnd
  obtain ⟨h3, h4⟩ := bitsOf_facts hdb
  have hsms := size_small id
  have hbits := id.bits
  have hlt : ofsNbits a b < 65536 := by unfold ofsNbits; omega
  obtain ⟨sid, did, _, _, _, _, _, k⟩ := bundleLoad_all st dst n m a b i j hs as sb td h r sl vb vs is id hi hj hb hd hl
    hh hr (by omega) hlt hn
  refine raises_struct (k ?_)
  rintro ⟨g1, g2⟩
  rcases hfit with h | ⟨v, hv, h⟩
  · exact h g1
  · exact h (g2 v hv)

/-- C51 for the second argument of `output_reg` and `output_reg2`. -/
theorem C51_output_reg (reg2 : Bool) (src : Field) (a b : Nat) (t tm h r : Str) (m : Int)
    (hb : BitsOf src a b) (hns : src.name ∉ badIds) (ht : ClosedText src a b t) (hm : MaxLenText tm m)
    (hfm : ¬ FitsIn 2 m) (hh : Head h) (hr : Boundary r) :
    Raises (str2act (h ++ ((outRegName reg2 ++ '(' :: (t ++ tm) ++ [')']) ++ r))) := by
  obtain ⟨n, id⟩ := bitsOf_id hb hns
  exact raises_struct ((outputReg_all reg2 src n a b t tm h r m id ht hm hh hr).2 (Or.inl hfm))

example : str2act t!"output_reg(nxm_reg0[0:16],-1)" = .error .structError := by decide +kernel

/-- C51 for the bounds in `reg_move`, valid or not. -/
theorem C51_reg_move (src dst : Field) (ns nd a b c d : Nat) (ts td h r : Str)
    (is : src ∈ fields ∧ src.name ∉ badIds ∧ src.kind.size = some ns)
    (id : dst ∈ fields ∧ dst.name ∉ badIds ∧ dst.kind.size = some nd)
    (hs : RangeText src c d ts) (hd : RangeText dst a b td)
    (hn : ¬ FitsIn 2 (a : Int) ∨ ¬ FitsIn 2 (c : Int) ∨ ¬ FitsIn 2 ((b : Int) - (a : Int)) ∨
      ¬ FitsIn 2 ((d : Int) - (c : Int))) (hh : Head h) (hr : Boundary r) :
    Raises (str2act (h ++ ((t!"reg_move" ++ '(' :: (td ++ '=' :: ts) ++ [')']) ++ r))) := by
  have is : IdField src ns := ⟨⟨is.1, is.2.2⟩, is.2.1⟩
  have id : IdField dst nd := ⟨⟨id.1, id.2.2⟩, id.2.1⟩
  obtain ⟨g1, g2⟩ := regMove_args is id hs hd
  have key : ∃ e, regMoveStr2act (td ++ '=' :: ts) false = .error e ∧ e ≠ .loops := by
    rw [regMove_enc is id hs hd]
    by_cases hw : ((b : Int) - (a : Int)) = ((d : Int) - (c : Int))
    · rw [← hw, beq_self_eq_true, pyAssert_ok, ok_bind, packAll_nofit (by
        intro hf
        rcases hn with hn | hn | hn | hn
        · exact hn (hf (2, a) (by simp))
        · exact hn (hf (2, c) (by simp))
        · exact hn (hf (2, _) (List.mem_cons_self ..))
        · rw [← hw] at hn; exact hn (hf (2, _) (List.mem_cons_self ..)))]
      exact ⟨_, rfl, by decide⟩
    · rw [beq_false_of_ne hw]
      exact ⟨_, rfl, by decide⟩
  obtain ⟨e, he, hl⟩ := key
  exact ⟨e, call_error (k := .regMove) h r hh hr (by decide) (by decide) g1 g2 (by decide) he, hl⟩

example : str2act t!"reg_move(nxm_reg0[65536:65544]=nxm_reg1[0:8])" = .error .structError := by decide +kernel

/-- A list of numbers. -/
theorem parseInts_texts {ss : List Str} {vs : List Int} (h : SlaveTexts ss vs) : parseInts ss = .ok vs := by
  induction h with
  | nil => rfl
  | cons s ss v vs h1 _ ih =>
    rw [parseInts, (parseInt_iff _ _ _).2 h1, ok_bind]
    dsimp only
    rw [ih, ok_bind]

/-- C51 for the controller ids of `cnt_ids`. -/
theorem C51_cnt_ids (ss : List Str) (vs : List Int) (h r : Str) (hs : SlaveTexts ss vs)
    (hn : ∃ v ∈ vs, ¬ FitsIn 2 v) (hh : Head h) (hr : Boundary r) :
    Raises (str2act (h ++ ((t!"cnt_ids" ++ '(' :: commaList ss ++ [')']) ++ r))) := by
  obtain ⟨v, hv, hf⟩ := hn
  have hne : commaList ss ≠ [] := by
    cases hs with
    | nil => cases hv
    | cons s ss v vs h1 h2 =>
      cases ss with
      | nil => exact (intText_facts h1).2.1
      | cons t ss => simp [commaList]
  have hin : InLine ')' (commaList ss) := by
    rw [← joinStr_commaList]
    exact inside_join fun s hs' => (slaveTexts_clean hs s hs').2.2
  refine raises_struct (call_error (k := .cntIds) h r hh hr (by decide) (by decide) hin hne (by decide) ?_)
  simp only [runActEnc, cntIdsStr2act]
  rw [if_neg (by simp), ← joinStr_commaList, splitTokens_join _ (fun p hp =>
    ⟨(slaveTexts_clean hs p hp).1, (slaveTexts_clean hs p hp).2.1⟩), parseInts_texts hs, ok_bind]
  by_cases hl : FitsIn 2 (vs.length : Int)
  · rw [packU_fits hl, ok_bind]
    unfold packHs
    rw [packAll_nofit (fun hall => hf (hall (2, v) (List.mem_map.2 ⟨v, hv, rfl⟩)))]
    rfl
  · rw [packU_nofit hl]; rfl

example : SlaveTexts [t!"1", t!"65536"] [1, 65536] ∧ str2act t!"cnt_ids(1,65536)" = .error .structError := by
  refine ⟨.cons _ _ _ _ ((parseInt_iff _ _ _).1 (by decide)) (.cons _ _ _ _ ((parseInt_iff _ _ _).1 (by decide)) .nil),
    by decide +kernel⟩

/-- What the encoder of an action sees of its argument. -/
inductive ArgSeen (r : Str) : Str → Str → Bool → Prop
  | call : ArgSeen r [] [] false
  | assign : ArgSeen r ['='] r true

theorem ArgSeen.token {r h t s : Str} {x : Bool} (a : ArgSeen r h t x) (hr : Boundary r) (hs : Clean s) (hn : s ≠ []) :
    getToken (h ++ (s ++ t)) = (h, s, t) ∧ (!x || hasChar h '=') = true := by
  cases a with
  | call => exact ⟨by rw [List.append_nil, List.nil_append]; exact getToken_clean_all hs, rfl⟩
  | assign => exact ⟨getToken_head head_eq hs.token hr hs.plainStart hn, by decide⟩

theorem oneArg_ok {name s u : Str} {k : ActEnc} {b : Bytes} (h r : Str) (hh : Head h) (hr : Boundary r)
    (hc : Clean name) (hn : name ≠ []) (hs : InLine ')' s) (hsn : s ≠ []) (hl : lookupAct name = some k)
    (hu : OneArg name s u)
    (he : ∀ h t x, ArgSeen r h t x → runActEnc k (h ++ (s ++ t)) x = .ok (b, h.length + s.length)) :
    str2act (h ++ (u ++ r)) = .ok (b, h.length + u.length) := by
  cases hu with
  | call =>
    have := he [] [] false .call
    rw [List.append_nil, List.nil_append] at this
    exact call_ok h r hh hr hc hn hs hsn hl ⟨_, this⟩
  | assign =>
    have := he ['='] r true .assign
    rw [show h ++ ((name ++ '=' :: s) ++ r) = h ++ (name ++ (['='] ++ (s ++ r))) by simp,
      str2act_word h name (['='] ++ (s ++ r)) k hh hc hn (atEnd_eq _) hl, this]
    simp only [Except.bind, List.length_append, List.length_cons, List.length_nil]
    congr 2
    omega

theorem oneArg_error {name s u : Str} {k : ActEnc} {e : Err} (h r : Str) (hh : Head h) (hr : Boundary r)
    (hc : Clean name) (hn : name ≠ []) (hs : InLine ')' s) (hsn : s ≠ []) (hl : lookupAct name = some k)
    (hu : OneArg name s u)
    (he : ∀ h t x, ArgSeen r h t x → runActEnc k (h ++ (s ++ t)) x = .error e) :
    str2act (h ++ (u ++ r)) = .error e := by
  cases hu with
  | call =>
    refine call_error h r hh hr hc hn hs hsn hl ?_
    have := he [] [] false .call
    rwa [List.append_nil, List.nil_append] at this
  | assign =>
    have := he ['='] r true .assign
    rw [show h ++ ((name ++ '=' :: s) ++ r) = h ++ (name ++ (['='] ++ (s ++ r))) by simp,
      str2act_word h name (['='] ++ (s ++ r)) k hh hc hn (atEnd_eq _) hl, this]
    rfl

theorem setTunnel_big {t : Nat} {r s h v : Str} {x : Bool} {n : Int} (a : ArgSeen r h v x) (hr : Boundary r)
    (hs : IntSyntax s n s.length) (hn : 0xffffffff < n) : setTunnelStr2act t (h ++ (s ++ v)) x =
    if FitsIn 8 n then .ok (nxWire 9 (u64 n.toNat), h.length + s.length) else .error .structError := by
  obtain ⟨s1, s2, s3, s4⟩ := intText_facts hs
  obtain ⟨g1, g2⟩ := a.token hr s1 s2
  unfold setTunnelStr2act
  rw [g1]
  dsimp only
  rw [g2, pyAssert_ok, ok_bind, s4]
  simp only [ok_bind, beq_self_eq_true, pyAssert_ok]
  rw [if_pos hn]
  split
  · rename_i hf
    rw [packU_fits hf, ok_bind]
    exact nxWrap_fit (nxWire_fits _ _ (by rw [u64_length]; omega)) rfl
  · rename_i hf
    rw [packU_nofit hf]; rfl

theorem setTunnel_small {t : Nat} {r s h v : Str} {x : Bool} {n : Int} (a : ArgSeen r h v x) (hr : Boundary r)
    (hs : IntSyntax s n s.length) (hn : ¬ 0xffffffff < n) : setTunnelStr2act t (h ++ (s ++ v)) x =
    if FitsIn 4 n then .ok (nxWire t (u32 n.toNat), h.length + s.length) else .error .structError := by
  obtain ⟨s1, s2, s3, s4⟩ := intText_facts hs
  obtain ⟨g1, g2⟩ := a.token hr s1 s2
  unfold setTunnelStr2act
  rw [g1]
  dsimp only
  rw [g2, pyAssert_ok, ok_bind, s4]
  simp only [ok_bind, beq_self_eq_true, pyAssert_ok]
  rw [if_neg hn]
  split
  · rename_i hf
    rw [packU_fits hf, ok_bind]
    exact nxWrap_fit (nxWire_fits _ _ (by rw [u32_length]; omega)) rfl
  · rename_i hf
    rw [packU_nofit hf]; rfl

/-- C51 for `set_tunnel`, exactly: the number must fit four or eight bytes, and it selects the action. -/
theorem C51_set_tunnel (s u h r : Str) (n : Int) (hs : IntSyntax s n s.length) (hu : OneArg t!"set_tunnel" s u)
    (hh : Head h) (hr : Boundary r) :
    (FitsIn 4 n → str2act (h ++ (u ++ r)) = .ok ((Act.setTunnel n.toNat).wire, h.length + u.length)) ∧
    (FitsIn 8 n → ¬ FitsIn 4 n → str2act (h ++ (u ++ r)) = .ok ((Act.setTunnel64 n.toNat).wire, h.length + u.length)) ∧
    (¬ FitsIn 8 n → Raises (str2act (h ++ (u ++ r)))) := by
  obtain ⟨s1, s2, s3, s4⟩ := intText_facts hs
  refine ⟨fun hf => ?_, fun hf h4 => ?_, fun hf => raises_struct ?_⟩
  · refine oneArg_ok (k := .setTunnel) h r hh hr (by decide) (by decide) s3 s2 (by decide) hu fun h' t x a => ?_
    have := hf
    simp only [FitsIn] at this
    rw [show runActEnc .setTunnel (h' ++ (s ++ t)) x = setTunnelStr2act 2 (h' ++ (s ++ t)) x from rfl,
      setTunnel_small a hr hs (by omega), if_pos hf]
    rfl
  · refine oneArg_ok (k := .setTunnel) h r hh hr (by decide) (by decide) s3 s2 (by decide) hu fun h' t x a => ?_
    have := hf
    simp only [FitsIn] at this h4
    rw [show runActEnc .setTunnel (h' ++ (s ++ t)) x = setTunnelStr2act 2 (h' ++ (s ++ t)) x from rfl,
      setTunnel_big a hr hs (by omega), if_pos hf]
    rfl
  · refine oneArg_error (k := .setTunnel) h r hh hr (by decide) (by decide) s3 s2 (by decide) hu fun h' t x a => ?_
    rw [show runActEnc .setTunnel (h' ++ (s ++ t)) x = setTunnelStr2act 2 (h' ++ (s ++ t)) x from rfl]
    by_cases hb : 0xffffffff < n
    · rw [setTunnel_big a hr hs hb, if_neg hf]
    · rw [setTunnel_small a hr hs hb, if_neg]
      simp only [FitsIn] at hf ⊢
      omega

example : str2act t!"set_tunnel=0x100000000" = .ok ((Act.setTunnel64 0x100000000).wire, 22) := by decide +kernel
example : str2act t!"set_tunnel=18446744073709551616" = .error .structError := by decide +kernel

/-- Small numbers of `set_tunnel64` are written with four bytes under the subtype of eight. -/
theorem C51_set_tunnel64_refuted : str2act t!"set_tunnel64=5" = .ok (nxWire 9 (u32 5), 14) ∧
    nxWire 9 (u32 5) ≠ (Act.setTunnel64 5).wire ∧ act2str (nxWire 9 (u32 5)) ≠ .ok t!"set_tunnel64(0x5)" := by
  decide +kernel

theorem upper_hexish {c : Char} (h : isHex c = true ∨ c = '-' ∨ c = 'x' ∨ c = 'X') :
    upperChar c ≠ 'I' ∧ upperChar c ≠ 'L' := by
  rcases h with h | rfl | rfl | rfl
  · obtain ⟨d, hd⟩ := (isHex_iff c).1 h
    cases hd with
    | mk hlt hm =>
      simp only [List.mem_cons, Prod.mk.injEq, List.not_mem_nil, or_false] at hm
      rcases hm with h | h | h | h | h | h | h | h | h | h | h | h | h | h | h | h | h | h | h | h | h | h <;>
        (rw [h.1]; decide)
  all_goals decide

theorem int_not_upper {s : Str} {n : Int} (hs : IntSyntax s n s.length) {w : Str} (hw : 'I' ∈ w ∨ 'L' ∈ w) :
    (upperStr s == w) = false := by
  apply beq_false_of_ne
  rintro rfl
  rcases hw with hw | hw
  · obtain ⟨c, hc, he⟩ := List.mem_map.1 hw
    exact (upper_hexish (intSyntax_ne hs c hc)).1 he
  · obtain ⟨c, hc, he⟩ := List.mem_map.1 hw
    exact (upper_hexish (intSyntax_ne hs c hc)).2 he

/-- The port of `resubmit`. -/
theorem resubmitPort_int {s : Str} {n : Int} (hs : IntSyntax s n s.length) :
    resubmitPort s = if n < 0xff00 then .ok n else .error .assertionError := by
  obtain ⟨s1, s2, s3, s4⟩ := intText_facts hs
  unfold resubmitPort
  rw [int_not_upper hs (Or.inl (by decide)), if_neg (by simp), s4, ok_bind]
  dsimp only
  rw [beq_self_eq_true, pyAssert_ok, ok_bind]
  by_cases h : n < 0xff00
  · rw [decide_eq_true h, pyAssert_ok, ok_bind, if_pos h]
  · rw [decide_eq_false h, if_neg h]; rfl

theorem resubmitTbl_int {s : Str} {n : Int} (hs : IntSyntax s n s.length) : resubmitTbl s = .ok n := by
  obtain ⟨s1, s2, s3, s4⟩ := intText_facts hs
  unfold resubmitTbl
  rw [int_not_upper hs (Or.inr (by decide)), if_neg (by cases s <;> simp_all), s4, ok_bind]
  dsimp only
  rw [beq_self_eq_true, pyAssert_ok, ok_bind]

theorem resubmit_pack {p : Int} (hp : FitsIn 2 p) {t : Int} (ht : FitsIn 1 t) :
    packAll [(2, p), (1, t)] = .ok (u16 p.toNat ++ u8 t.toNat) := by
  rw [packAll_fits (by
    intro e he
    simp only [List.mem_cons, List.not_mem_nil, or_false] at he
    rcases he with rfl | rfl
    · exact hp
    · exact ht)]
  simp only [List.flatMap_cons, List.flatMap_nil, List.append_nil]
  rfl

/-- C51 for the port of `resubmit`, exactly. -/
theorem C51_resubmit (s u h r : Str) (n : Int) (hs : IntSyntax s n s.length) (hu : OneArg t!"resubmit" s u)
    (hh : Head h) (hr : Boundary r) :
    (0 ≤ n ∧ n < 0xff00 → str2act (h ++ (u ++ r)) = .ok ((Act.resubmit n.toNat).wire, h.length + u.length)) ∧
    (¬ (0 ≤ n ∧ n < 0xff00) → Raises (str2act (h ++ (u ++ r)))) := by
  obtain ⟨s1, s2, s3, s4⟩ := intText_facts hs
  have hp := resubmitPort_int hs
  have run : ∀ h' t x, ArgSeen r h' t x → runActEnc .resubmit (h' ++ (s ++ t)) x = nxWrap (do
      let port ← resubmitPort s
      let b ← packAll [(2, port), (1, 0xff)]
      .ok (nxastHdr 1 ++ b, h'.length + s.length)) := by
    intro h' t x a
    obtain ⟨g1, g2⟩ := a.token hr s1 s2
    show resubmitStr2act false _ _ = _
    unfold resubmitStr2act
    rw [g1]
    dsimp only
    have hlen : h'.length + s.length = (h' ++ (s ++ t)).length - t.length := by
      simp only [List.length_append]; omega
    rw [hlen]
    cases resubmitPort s with
    | error e => rfl
    | ok port =>
      cases x with
      | false => rfl
      | true =>
        rw [Bool.not_true, Bool.false_or] at g2
        rw [g2]
        rfl
  refine ⟨fun hn => ?_, fun hn => ?_⟩
  · refine oneArg_ok (k := .resubmit) h r hh hr (by decide) (by decide) s3 s2 (by decide) hu fun h' t x a => ?_
    rw [run h' t x a, hp, if_pos hn.2, ok_bind, resubmit_pack (by simp only [FitsIn]; omega) (by decide), ok_bind]
    exact nxWrap_fit (nxWire_fits _ _ (by rw [List.length_append, u16_length, u8_length]; omega)) rfl
  · by_cases h1 : n < 0xff00
    · refine raises_struct (oneArg_error (k := .resubmit) h r hh hr (by decide) (by decide) s3 s2 (by decide) hu
        fun h' t x a => ?_)
      rw [run h' t x a, hp, if_pos h1, ok_bind, packAll_nofit]
      · rfl
      · intro hall
        have := hall (2, n) (by simp)
        simp only [FitsIn] at this
        omega
    · refine ⟨.assertionError, oneArg_error (k := .resubmit) h r hh hr (by decide) (by decide) s3 s2 (by decide) hu
        fun h' t x a => ?_, by decide⟩
      rw [run h' t x a, hp, if_neg h1]
      rfl

example : str2act t!"resubmit=65280" = .error .assertionError ∧ str2act t!"resubmit(-1)" = .error .structError ∧
    str2act t!"resubmit(0x10),exit" = .ok ((Act.resubmit 16).wire, 14) := by decide +kernel

/-- C51 for the numbers of `resubmit_table`, exactly. -/
theorem C51_resubmit_table (sp st h r : Str) (p t : Int) (hp : IntSyntax sp p sp.length) (ht : IntSyntax st t st.length)
    (hh : Head h) (hr : Boundary r) :
    (0 ≤ p ∧ p < 0xff00 ∧ FitsIn 1 t →
      str2act (h ++ ((t!"resubmit_table" ++ '(' :: (sp ++ ',' :: st) ++ [')']) ++ r)) =
        .ok ((Act.resubmitTable p.toNat t.toNat).wire,
          h.length + (t!"resubmit_table" ++ '(' :: (sp ++ ',' :: st) ++ [')']).length)) ∧
    (¬ (0 ≤ p ∧ p < 0xff00 ∧ FitsIn 1 t) →
      Raises (str2act (h ++ ((t!"resubmit_table" ++ '(' :: (sp ++ ',' :: st) ++ [')']) ++ r)))) := by
  obtain ⟨p1, p2, p3, p4⟩ := intText_facts hp
  obtain ⟨t1, t2, t3, t4⟩ := intText_facts ht
  have run : runActEnc .resubmitTable (sp ++ ',' :: st) false = nxWrap (do
      let port ← resubmitPort sp
      let b ← packAll [(2, port), (1, t)]
      .ok (nxastHdr 14 ++ b, (sp ++ ',' :: st).length)) := by
    show resubmitStr2act true _ _ = _
    unfold resubmitStr2act
    have g0 : getToken (',' :: st) = ([','], st, []) := by
      have := getToken_comma t1.token atEnd_nil t1.plainStart t2
      rwa [List.append_nil] at this
    rw [getToken_clean p1 p2 (atEnd_comma _)]
    dsimp only
    cases resubmitPort sp with
    | error e => rfl
    | ok port =>
      rw [ok_bind, if_neg (by simp), if_pos rfl, g0]
      dsimp only
      rw [ok_bind]
      dsimp only
      rw [resubmitTbl_int ht]
      rfl
  have hpp := resubmitPort_int hp
  have hin : InLine ')' (sp ++ ',' :: st) := inside_comma p3 t3
  refine ⟨fun hn => ?_, fun hn => ?_⟩
  · refine call_ok (k := .resubmitTable) h r hh hr (by decide) (by decide) hin (by simp) (by decide)
      ⟨(sp ++ ',' :: st).length, run.trans ?_⟩
    rw [hpp, if_pos hn.2.1, ok_bind, resubmit_pack (by simp only [FitsIn]; omega) hn.2.2, ok_bind]
    exact nxWrap_fit (nxWire_fits _ _ (by rw [List.length_append, u16_length, u8_length]; omega)) rfl
  · by_cases h1 : p < 0xff00
    · refine raises_struct (call_error (k := .resubmitTable) h r hh hr (by decide) (by decide) hin (by simp) (by decide)
        (run.trans ?_))
      rw [hpp, if_pos h1, ok_bind, packAll_nofit]
      · rfl
      · intro hall
        have h2 := hall (2, p) (by simp)
        have h3 := hall (1, t) (by simp)
        simp only [FitsIn] at h2
        exact hn ⟨by omega, h1, h3⟩
    · refine ⟨.assertionError, call_error (k := .resubmitTable) h r hh hr (by decide) (by decide) hin (by simp)
        (by decide) (run.trans ?_), by decide⟩
      rw [hpp, if_neg h1]
      rfl

example : str2act t!"resubmit_table(1,256)" = .error .structError ∧
    str2act t!"resubmit_table(1,7)" = .ok ((Act.resubmitTable 1 7).wire, 19) := by decide +kernel

theorem bundle_encode {i j : Nat} {hs as sb ss : Str} {sl : List Str} {vb : Int} {vs : List Int} {sid : Bytes}
    (Hh : Named nxHashNames i hs) (Ha : Named nxBdAlgNames j as) (hb : IntSyntax sb vb sb.length) (hc : Clean ss)
    (hne : ss ≠ []) (hsi : str2oxmid true ss = .ok sid) (hl : SlaveTexts sl vs) :
    bundleStr2act (hs ++ ',' :: (sb ++ ',' :: (as ++ ',' :: (ss ++ ',' :: slavesArg sl)))) false =
      nxWrap (do
        let x ← packAll [(2, (j : Int)), (2, (i : Int)), (2, vb)]
        let y ← packU 2 (vs.length : Int)
        let z ← packHs vs
        .ok (nxastHdr NXAST_BUNDLE ++ (x ++ (sid ++ ((y ++ zeros 10) ++ z))),
          (hs ++ ',' :: (sb ++ ',' :: (as ++ ',' :: (ss ++ ',' :: slavesArg sl)))).length)) := by
  obtain ⟨b1, b2, _, b4⟩ := intText_facts hb
  obtain ⟨tk1, tk2, tk3, tk4⟩ := slavesArg_facts hl
  simp only [bundleStr2act]
  have g0 : getToken (',' :: slavesArg sl) = ([','], slavesArg sl, []) := by
    have := getToken_comma tk1 atEnd_nil tk2 tk3
    rwa [List.append_nil] at this
  rw [if_neg (by simp), getToken_clean Hh.clean Hh.ne (atEnd_comma _)]
  dsimp only
  rw [getToken_comma_clean b1 b2 (atEnd_comma _)]
  dsimp only
  rw [getToken_comma_clean Ha.clean Ha.ne (atEnd_comma _)]
  dsimp only
  rw [getToken_comma_clean hc hne (atEnd_comma _)]
  dsimp only
  rw [g0]
  dsimp only
  rw [Hh.index, ok_bind, b4, ok_bind]
  dsimp only
  rw [Ha.index, ok_bind, hsi, ok_bind, bundleSlaves_int hl]
  simp only [ok_bind]
  rfl

/-- C51 for the numbers of `bundle`. -/
theorem C51_bundle (st : Field) (i j : Nat) (hs as sb h r : Str) (sl : List Str) (vb : Int) (vs : List Int)
    (hst : st ∈ fields) (hsz : st.kind.size ≠ none) (hsb : st.name ∉ badIds) (hi : hashWords[i]? = some hs)
    (hj : bdAlgWords[j]? = some as) (hb : IntSyntax sb vb sb.length) (hl : SlaveTexts sl vs)
    (hfit : ¬ FitsIn 2 vb ∨ ∃ v ∈ vs, ¬ FitsIn 2 v) (hh : Head h) (hr : Boundary r) :
    Raises (str2act (h ++ ((t!"bundle" ++ '(' ::
        (hs ++ ',' :: (sb ++ ',' :: (as ++ ',' :: (st.name ++ ',' :: slavesArg sl)))) ++ [')']) ++ r))) := by
  obtain ⟨n, is⟩ : ∃ n, IdField st n := by
    cases hs : st.kind.size with
    | none => exact absurd hs hsz
    | some n => exact ⟨n, ⟨hst, hs⟩, hsb⟩
  obtain ⟨i2, Hh⟩ := hash_named hi
  obtain ⟨j2, Ha⟩ := bdAlg_named hj
  obtain ⟨sid, s1, s2⟩ := is.encodeTrue
  have hin : InLine ')' (hs ++ ',' :: (sb ++ ',' :: (as ++ ',' :: (st.name ++ ',' :: slavesArg sl)))) :=
    inside_comma (inside_clean Hh.clean Hh.np) <| inside_comma (intText_facts hb).2.2.1 <|
    inside_comma (inside_clean Ha.clean Ha.np) <| inside_comma is.nameInside (slavesArg_facts hl).2.2.2
  have hfi : FitsIn 2 (i : Int) := fitsIn_of_lt (by omega)
  have hfj : FitsIn 2 (j : Int) := fitsIn_of_lt (by omega)
  have henc := bundle_encode Hh Ha hb is.nameClean.1 is.nameClean.2 s1 hl
  refine raises_struct (call_error (k := .bundle) h r hh hr (by decide) (by decide) hin (by simp) (by decide)
    (henc.trans ?_))
  by_cases h1 : FitsIn 2 vb
  · rw [packAll_fits (by
        intro e he
        simp only [List.mem_cons, List.not_mem_nil, or_false] at he
        rcases he with rfl | rfl | rfl
        · exact hfj
        · exact hfi
        · exact h1), ok_bind]
    by_cases h2 : FitsIn 2 (vs.length : Int)
    · rw [packU_fits h2, ok_bind]
      unfold packHs
      rw [packAll_nofit]
      · rfl
      · intro hall
        rcases hfit with h | ⟨v, hv, h⟩
        · exact h h1
        · exact h (hall (2, v) (List.mem_map.2 ⟨v, hv, rfl⟩))
    · rw [packU_nofit h2]; rfl
  · rw [packAll_nofit (fun hall => h1 (hall (2, vb) (by simp)))]
    rfl

example : str2act t!"bundle(eth_src,0,hrw,in_port,slaves(1,65536))" = .error .structError := by decide +kernel

/-! ### `learn` -/

theorem learnKey_facts {k : Str} {w : Nat} (h : (k, w) ∈ learnWidths) :
    Clean k ∧ k ≠ [] ∧ NP k ∧ learnKeys.contains k = true := by
  have : ∀ e ∈ learnWidths, Clean e.1 ∧ e.1 ≠ [] ∧ NP e.1 ∧ learnKeys.contains e.1 = true := by decide
  exact this _ h

theorem learnSets_ne {ts : List Str} {l : List (Str × Int)} (hl : LearnSets ts l) (hn : ts ≠ []) :
    ∃ c u, commaList ts = c :: u := by
  cases hl with
  | nil => exact absurd rfl hn
  | cons k s v w ts l hk hs hl =>
    obtain ⟨_, k2, _⟩ := learnKey_facts hk
    cases k with
    | nil => exact absurd rfl k2
    | cons c k => cases ts <;> exact ⟨_, _, rfl⟩

/-- One setting. -/
theorem learnGo_step {k s hd r : Str} {v : Int} {w : Nat} (hk : (k, w) ∈ learnWidths) (hs : IntSyntax s v s.length)
    (hh : Head hd) (he : hasChar hd '=' = false) (hr : Boundary r) (f : Nat) (info : List (Str × Int)) :
    learnGo (f + 2) info none (hd ++ (k ++ '=' :: (s ++ r))) =
      (learnGo f ((k, v) :: info) none r).bind fun x => .ok (x.1, x.2) := by
  obtain ⟨k1, k2, k3, k4⟩ := learnKey_facts hk
  obtain ⟨s1, s2, s3, s4⟩ := intText_facts hs
  have g1 : getToken (hd ++ (k ++ '=' :: (s ++ r))) = (hd, k, '=' :: (s ++ r)) :=
    getToken_head hh k1.token (atEnd_eq _) k1.plainStart k2
  have g2 : getToken ('=' :: (s ++ r)) = (['='], s, r) :=
    getToken_head head_eq s1.token hr s1.plainStart s2
  have hne : (hd ++ (k ++ '=' :: (s ++ r))).isEmpty = false := by
    cases hd <;> cases k <;> first | rfl | exact absurd rfl k2
  rw [show f + 2 = (f + 1) + 1 from rfl, learnGo, hne, if_neg (by simp), g1]
  dsimp only
  rw [he, if_neg (by simp)]
  show (learnGo (f + 1) info (some k) ('=' :: (s ++ r))).bind _ = _
  rw [learnGo, if_neg (by simp), g2]
  dsimp only
  rw [if_pos (by decide), if_pos k4, s4, ok_bind]
  dsimp only [Option.getD]
  cases learnGo f ((k, v) :: info) none r <;> rfl

theorem learnSets_go {ts : List Str} {l : List (Str × Int)} (hl : LearnSets ts l) :
    ∀ (f : Nat) (info : List (Str × Int)) (hd : Str), Head hd → hasChar hd '=' = false → ts ≠ [] →
      2 * ts.length < f → learnGo f info none (hd ++ commaList ts) = .ok (l.reverse ++ info, []) := by
  induction hl with
  | nil => intro f info hd _ _ h; exact absurd rfl h
  | cons k s v w ts l hk hs hl ih =>
    intro f info hd hh he _ hf
    obtain ⟨f, rfl⟩ : ∃ g, f = g + 2 := ⟨f - 2, by simp at hf; omega⟩
    cases hts : ts with
    | nil =>
      subst hts
      have : l = [] := by cases hl; rfl
      subst this
      have := learnGo_step hk hs hh he atEnd_nil f info
      rw [List.append_nil] at this
      rw [show commaList [k ++ '=' :: s] = k ++ '=' :: s from rfl, this]
      obtain ⟨g, rfl⟩ : ∃ g, f = g + 1 := ⟨f - 1, by simp at hf; omega⟩
      rfl
    | cons t ts' =>
      rw [← hts]
      have hcl : commaList ((k ++ '=' :: s) :: ts) = k ++ '=' :: (s ++ ([','] ++ commaList ts)) := by
        rw [hts]; simp [commaList]
      have := ih f ((k, v) :: info) [','] head_comma (by decide) (by rw [hts]; simp) (by simp at hf; omega)
      rw [hcl, learnGo_step hk hs hh he (r := [','] ++ commaList ts) (atEnd_comma _), this]
      simp [Except.bind]

theorem learnSets_inside {ts : List Str} {l : List (Str × Int)} (hl : LearnSets ts l) : InLine ')' (commaList ts) := by
  rw [← joinStr_commaList]
  apply inside_join
  induction hl with
  | nil => simp
  | cons k s v w ts l hk hs hl ih =>
    obtain ⟨k1, k2, k3, k4⟩ := learnKey_facts hk
    obtain ⟨s1, s2, s3, s4⟩ := intText_facts hs
    intro t ht
    rcases List.mem_cons.1 ht with rfl | ht
    · exact inside_append (inside_clean k1 k3) (inside_cons (by decide) (by decide) s3)
    · exact ih t ht

theorem learnInfo_mem {l : List (Str × Int)} (hn : (l.map Prod.fst).Nodup) {k : Str} {v : Int} (h : (k, v) ∈ l) :
    learnInfo (l.reverse ++ []) k = v := by
  unfold learnInfo
  rw [List.append_nil]
  cases hf : l.reverse.find? (fun e => e.1 == k) with
  | none => exact absurd (List.find?_eq_none.1 hf (k, v) (List.mem_reverse.2 h)) (by simp)
  | some e =>
    have h1 : e.1 = k := by simpa using List.find?_some hf
    have h2 : e ∈ l := List.mem_reverse.1 (List.mem_of_find?_eq_some hf)
    have : e = (k, v) := List.inj_on_of_nodup_map hn h2 h h1
    rw [this]

/-- C51 for the fixed keys of `learn`. -/
theorem C51_learn (ts : List Str) (l : List (Str × Int)) (h r : Str) (hl : LearnSets ts l)
    (hnd : (l.map Prod.fst).Nodup) (hfit : ∃ k v w, (k, v) ∈ l ∧ (k, w) ∈ learnWidths ∧ ¬ FitsIn w v)
    (hh : Head h) (hr : Boundary r) :
    Raises (str2act (h ++ ((t!"learn" ++ '(' :: commaList ts ++ [')']) ++ r))) := by
  obtain ⟨k, v, w, hm, hw, hf⟩ := hfit
  have hts : ts ≠ [] := by
    rintro rfl
    cases hl
    cases hm
  obtain ⟨c, u, hcu⟩ := learnSets_ne hl hts
  have hlen : 2 * ts.length < (commaList ts).length + 1 := by
    clear hcu hts hm hnd
    induction hl with
    | nil => simp [commaList]
    | cons k s v w ts l hk hs hl ih =>
      obtain ⟨_, k2, _⟩ := learnKey_facts hk
      have := (intText_facts hs).2.1
      have h1 := List.length_pos_iff.2 k2
      have h2 := List.length_pos_iff.2 this
      cases ts with
      | nil => simp [commaList]; omega
      | cons t ts =>
        have ih := ih
        simp only [commaList, List.length_append, List.length_cons] at ih ⊢
        omega
  refine raises_struct (call_error (k := .learn) h r hh hr (by decide) (by decide) (learnSets_inside hl)
    (by rw [hcu]; simp) (by decide) ?_)
  have hgo := learnSets_go hl ((commaList ts).length + 1) [] [] head_nil (by decide) hts hlen
  rw [List.nil_append] at hgo
  show learnStr2act _ _ = _
  unfold learnStr2act
  rw [if_neg (by simp), hgo, ok_bind]
  dsimp only
  have hv := learnInfo_mem hnd hm
  generalize hA : [(2, learnInfo (l.reverse ++ []) t!"idle_timeout"), (2, learnInfo (l.reverse ++ []) t!"hard_timeout"),
      (2, learnInfo (l.reverse ++ []) t!"priority"), (8, learnInfo (l.reverse ++ []) t!"cookie"),
      (2, learnInfo (l.reverse ++ []) t!"flags"), (1, learnInfo (l.reverse ++ []) t!"table")] = A
  generalize hB : [(2, learnInfo (l.reverse ++ []) t!"fin_idle_timeout"),
      (2, learnInfo (l.reverse ++ []) t!"fin_hard_timeout")] = B
  have hAB : (w, v) ∈ A ∨ (w, v) ∈ B := by
    rw [← hA, ← hB, ← hv]
    simp only [learnWidths, List.mem_cons, Prod.mk.injEq, List.not_mem_nil, or_false] at hw
    rcases hw with ⟨rfl, rfl⟩ | ⟨rfl, rfl⟩ | ⟨rfl, rfl⟩ | ⟨rfl, rfl⟩ | ⟨rfl, rfl⟩ | ⟨rfl, rfl⟩ | ⟨rfl, rfl⟩ | ⟨rfl, rfl⟩ <;>
      simp
  by_cases h1 : ∀ e ∈ A, FitsIn e.1 e.2
  · rw [packAll_fits h1, ok_bind, packAll_nofit]
    · rfl
    · intro hall
      rcases hAB with h | h
      · exact hf (h1 _ h)
      · exact hf (hall _ h)
  · rw [packAll_nofit h1]; rfl

example : LearnSets [t!"table=256", t!"priority=1"] [(t!"table", 256), (t!"priority", 1)] ∧
    str2act t!"learn(table=256,priority=1)" = .error .structError :=
  ⟨.cons t!"table" t!"256" 256 1 _ _ (by decide) ((parseInt_iff _ _ _).1 (by decide)) (.cons t!"priority" t!"1" 1 2 _ _
    (by decide) ((parseInt_iff _ _ _).1 (by decide)) .nil), by decide +kernel⟩

/-- Immediate values of `learn` are cut to their width without notice. -/
theorem C51_learn_immediate_refuted :
    ∃ b, str2act t!"learn(vlan_vid=65537)" = .ok (b, 21) ∧ str2act t!"learn(vlan_vid=1)" = .ok (b, 17) := by
  refine ⟨_, ?_, rfl⟩
  decide +kernel

end Ofpstr
