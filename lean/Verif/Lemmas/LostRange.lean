import Verif.Lemmas.LostField

/-!
# Actions on bit ranges that do not survive printing
-/

set_option linter.unusedSimpArgs false

namespace Ofpstr
open Spec

/-- The id that the library makes of the name of a field has the length of the id of the field, and is
that id for the fields and masks that survive. -/
def idMade (f : Field) (m : Bool) : Bool :=
  match str2oxmid m (shownName f) with
  | .ok x => x.length == f.id.length && ((x == f.id) == (decide (f.name ∉ badIds) && (!m || f.kind.noMaskId)))
  | .error _ => false

theorem idMade_table : ∀ f ∈ fields, f.kind.size ≠ none → idMade f false = true ∧ idMade f true = true := by
  decide +kernel

theorem IdShape.made {f : Field} {n : Nat} (h : IdShape f n) (m : Bool) : ∃ x, str2oxmid m (shownName f) = .ok x ∧
    x.length = f.id.length ∧ (x = f.id ↔ f.name ∉ badIds ∧ (m = true → f.kind.noMaskId = true)) := by
  have key := idMade_table f h.mem (by rw [h.size]; simp)
  have key : idMade f m = true := by cases m; exacts [key.1, key.2]
  unfold idMade at key
  cases hx : str2oxmid m (shownName f) with
  | error e => rw [hx] at key; cases key
  | ok x =>
    rw [hx] at key
    simp only [Bool.and_eq_true, beq_iff_eq] at key
    refine ⟨x, rfl, key.1, ?_⟩
    have h2 := key.2
    by_cases he : x = f.id
    · simp only [he, beq_self_eq_true, true_iff] at h2 ⊢
      have h3 := h2.symm
      simp only [Bool.and_eq_true, decide_eq_true_eq, Bool.or_eq_true, Bool.not_eq_true'] at h3
      exact ⟨h3.1, fun hm => h3.2.resolve_left (by rw [hm]; simp)⟩
    · simp only [he, false_iff]
      rw [show (x == f.id) = false by simpa using he] at h2
      rintro ⟨h3, h4⟩
      have h5 := h2.symm
      rw [decide_eq_true h3] at h5
      cases m with
      | false => simp at h5
      | true => rw [h4 rfl] at h5; simp at h5

theorem packAll_cons_inv {k : Nat} {v : Int} {l : List (Nat × Int)} {x : Bytes} (h : packAll ((k, v) :: l) = .ok x) :
    ∃ c, 0 ≤ v ∧ v < (256 ^ k : Nat) ∧ packAll l = .ok c ∧ x = be k v.toNat ++ c := by
  rw [packAll] at h
  obtain ⟨a, ha, h⟩ := bind_ok h
  obtain ⟨c, hc, h⟩ := bind_ok h
  obtain ⟨h1, h2, rfl⟩ := packU_be ha
  cases h
  exact ⟨c, h1, h2, hc, rfl⟩

theorem be_inj {k a b : Nat} (ha : a < 256 ^ k) (hb : b < 256 ^ k) (h : be k a = be k b) : a = b := by
  have h1 := uAt_here' k a ha
  rw [h, uAt_here' k b hb] at h1
  exact h1.symm

theorem getBits_shape {f : Field} {n : Nat} (h : IdShape f n) (whole : Bool) (a b : Nat) (hd r : Str)
    (hh : Head hd) (hr : AtEnd r) :
    ∃ x s k, getBits (hd ++ (bitText f whole a b ++ r)) = .ok (x, s, k, r) ∧ x.length = f.id.length ∧
      (x = f.id ↔ f.name ∉ badIds) ∧ (whole = true → f.name ∉ badIds → s = 0 ∧ k = (f.bits : Int)) ∧
      (whole = false → s = (a : Int) ∧ k = (b : Int) - a) := by
  obtain ⟨x, hx, hxl, hxi⟩ := h.made false
  have hxi : x = f.id ↔ f.name ∉ badIds := by simpa using hxi
  have hnb : needBytes x 0 4 = .ok () := needBytes_ok _ _ _ (by rw [hxl, h.length]; omega)
  unfold getBits
  rw [bitText_token h whole a b hd r hh hr]
  dsimp only
  cases whole with
  | true =>
    simp only [bitText, if_true]
    rw [parseFunc_bare _ h.clean.1.notOpen]
    simp only [ok_bind]
    rw [hx]
    simp only [ok_bind]
    rw [hnb]
    simp only [ok_bind]
    refine ⟨_, _, _, rfl, hxl, hxi, fun _ hb => ⟨rfl, ?_⟩, by simp⟩
    rw [hxi.2 hb]
    have h1 := h.isExp []
    have h2 := h.lenByte []
    rw [List.append_nil] at h1 h2
    rw [h1, h2, h.bits]
    cases f.experimenter <;> simp <;> omega
  | false =>
    simp only [bitText, Bool.false_eq_true, if_false]
    rw [fmtRange_parse _ a b h.clean.1]
    simp only [ok_bind]
    rw [hx]
    simp only [ok_bind]
    rw [hnb]
    simp only [ok_bind]
    obtain ⟨c, s, hcs⟩ := range_cons a b
    rw [hcs]
    dsimp only
    rw [← hcs, range_split]
    dsimp only
    rw [optInt_fmtD]
    simp only [ok_bind]
    rw [optInt_fmtD]
    simp only [ok_bind, Option.getD_some]
    exact ⟨_, _, _, rfl, hxl, hxi, by simp, fun _ => ⟨rfl, rfl⟩⟩

theorem lost_regMove (src dst : Field) (srcOfs dstOfs nbits : Nat) (hs : Range src srcOfs nbits)
    (hd : Range dst dstOfs nbits) (hl : ¬ (src.name ∉ badIds ∧ dst.name ∉ badIds ∧
      (src.experimenter = false → dstOfs = 0 → nbits = src.bits → nbits = dst.bits))) :
    ActLost (nxWire 6 (u16 nbits ++ (u16 srcOfs ++ (u16 dstOfs ++ (src.id ++ dst.id))))) := by
  obtain ⟨ns, is⟩ := range_shape hs
  obtain ⟨nd, id⟩ := range_shape hd
  obtain ⟨_, _, hpos, hse⟩ := hs
  obtain ⟨_, _, _, hde⟩ := hd
  have hsm := is.small
  have hdm := id.small
  have hsbits := is.bits
  have hdbits := id.bits
  have hsl := is.length
  have hdl := id.length
  have hlen : (u16 nbits ++ (u16 srcOfs ++ (u16 dstOfs ++ (src.id ++ dst.id)))).length =
      6 + (src.id.length + dst.id.length) := by
    simp only [List.length_append, u16_length]; omega
  have hfit := nxWire_fits 6 _ (show (u16 nbits ++ (u16 srcOfs ++ (u16 dstOfs ++ (src.id ++ dst.id)))).length < 65500 by
    split at hsl <;> split at hdl <;> omega)
  let ws : Bool := srcOfs == 0 && nbits == (ns + (if src.experimenter then 4 else 0)) * 8
  let wd : Bool := dstOfs == 0 && nbits == (ns + (if src.experimenter then 4 else 0)) * 8
  have ts := bitText_facts is ws srcOfs (srcOfs + nbits)
  have td := bitText_facts id wd dstOfs (dstOfs + nbits)
  refine nx_lost 6 _ t!"reg_move"
    (bitText dst wd dstOfs (dstOfs + nbits) ++ '=' :: bitText src ws srcOfs (srcOfs + nbits))
    .regMove .regMove (by decide) (by decide) hfit (by decide) (by decide) (by decide) (by decide)
    (inside_append td.2.2.2 (inside_cons (by decide) (by decide) ts.2.2.2)) (by simp)
    (regMove_dec is id srcOfs dstOfs nbits hse hde _) ?_
  intro c l hc he
  simp only [runActEnc, regMoveStr2act] at hc
  rw [if_neg (by simp)] at hc
  obtain ⟨xd, sd, kd, g1, xdl, xdi, wdt, -⟩ := getBits_shape id wd dstOfs (dstOfs + nbits) []
    ('=' :: bitText src ws srcOfs (srcOfs + nbits)) head_nil (atEnd_eq _)
  obtain ⟨xs, ss, ks, g2, xsl, xsi, -, -⟩ := getBits_shape is ws srcOfs (srcOfs + nbits) ['='] [] head_eq atEnd_nil
  rw [List.append_nil] at g2
  rw [List.nil_append] at g1
  rw [List.singleton_append] at g2
  rw [g1] at hc
  simp only [ok_bind] at hc
  rw [g2] at hc
  simp only [ok_bind] at hc
  obtain ⟨bin, h1, h2⟩ := nxWrap_inv hc
  obtain ⟨_, _, h1⟩ := bind_ok h1
  obtain ⟨b, hb, h1⟩ := bind_ok h1
  simp only [Except.ok.injEq, Prod.mk.injEq] at h1
  obtain ⟨rfl, rfl⟩ := h1
  have h3 := nxWrap_hdr_inv (t := 6) h2
  rw [he] at h3
  obtain ⟨b1, v1, v1', hb1, rfl⟩ := packAll_cons_inv hb
  obtain ⟨b2, _, _, hb2, rfl⟩ := packAll_cons_inv hb1
  obtain ⟨b3, _, _, hb3, rfl⟩ := packAll_cons_inv hb2
  cases hb3
  have e1 := nxWire_part (a := u16 nbits ++ (u16 srcOfs ++ u16 dstOfs)) (x := src.id) (r := dst.id)
    (a' := be 2 kd.toNat ++ (be 2 ss.toNat ++ (be 2 sd.toNat ++ []))) (x' := xs) (r' := xd)
    (t := 6) (t' := 6) (by rw [← h3]; simp) (by simp [u16_length, be_length]) xsl.symm
  have e2 := nxWire_part (a := u16 nbits ++ (u16 srcOfs ++ (u16 dstOfs ++ src.id))) (x := dst.id) (r := [])
    (a' := be 2 kd.toNat ++ (be 2 ss.toNat ++ (be 2 sd.toNat ++ xs))) (x' := xd) (r' := [])
    (t := 6) (t' := 6) (by simpa using h3) (by simp [u16_length, be_length, xsl]) xdl.symm
  have hsb := xsi.1 e1.2.symm
  have hdb := xdi.1 e2.2.symm
  refine hl ⟨hsb, hdb, fun hx h0 hn => ?_⟩
  have hwd : wd = true := by
    simp only [wd, hx, h0, Bool.and_eq_true, beq_iff_eq, Bool.false_eq_true, if_false, true_and]; omega
  have hk := (wdt hwd hdb).2
  have e3 : be 2 nbits = be 2 kd.toNat := (List.append_inj e1.1 (by simp [be_length, u16_length])).1
  have := be_inj (by omega) (by omega) e3
  omega

theorem lost_multipath (hash basis alg maxLink arg : Nat) (dst : Field) (ofs nbits : Nat) (hh : hash < 2)
    (hb : basis < 256 ^ 2) (ha : alg < 4) (hm : maxLink < 256 ^ 2) (hg : arg < 256 ^ 4)
    (hd : Range dst ofs nbits) (h64 : nbits ≤ 64) (hl : ¬ dst.name ∉ badIds) :
    ActLost (nxWire 10 (u16 hash ++ (u16 basis ++ (pad 2 ++ (u16 alg ++ (u16 maxLink ++ (u32 arg ++
      (pad 2 ++ (u16 (ofsNbits ofs nbits) ++ dst.id))))))))) := by
  obtain ⟨nd, id⟩ := range_shape hd
  obtain ⟨_, _, hpos, hde⟩ := hd
  obtain ⟨hs, Hh⟩ := named_hash hash hh
  obtain ⟨as, Ha⟩ := named_mpAlg alg ha
  have hdl := id.length
  have hfit := nxWire_fits 10 _ (show (u16 hash ++ (u16 basis ++ (pad 2 ++ (u16 alg ++ (u16 maxLink ++ (u32 arg ++
      (pad 2 ++ (u16 (ofsNbits ofs nbits) ++ dst.id)))))))).length < 65500 by
    simp only [List.length_append, u16_length, u32_length, pad_length]
    split at hdl <;> omega)
  have td := bitText_facts id false ofs (ofs + nbits)
  refine nx_lost 10 _ t!"multipath" (hs ++ ',' :: (fmtD basis ++ ',' :: (as ++ ',' ::
    (fmtD maxLink ++ ',' :: (fmtX 0 arg ++ ',' :: bitText dst false ofs (ofs + nbits))))))
    .multipath .multipath (by decide) (by decide) hfit (by decide) (by decide) (by decide) (by decide)
    (inside_comma (inside_clean Hh.clean Hh.np) <|
      inside_comma (inside_clean (fmtD_clean _) (np_fmtD _)) <|
      inside_comma (inside_clean Ha.clean Ha.np) <|
      inside_comma (inside_clean (fmtD_clean _) (np_fmtD _)) <|
      inside_comma (inside_clean (fmtX_clean 0 _) (np_fmtX 0 _)) td.2.2.2) (by simp)
    (multipath_dec id hash basis alg maxLink arg ofs nbits hs as hh hb ha hm hg hpos hde h64 Hh Ha _) ?_
  intro c l hc he
  simp only [runActEnc, multipathStr2act] at hc
  rw [if_neg (by simp), getToken_clean Hh.clean Hh.ne (atEnd_comma _)] at hc
  dsimp only at hc
  rw [Hh.index, ok_bind, getToken_comma_clean (fmtD_clean basis) (fmtD_ne_nil _) (atEnd_comma _)] at hc
  dsimp only at hc
  rw [fmtI_dec, ok_bind] at hc
  simp only [beq_self_eq_true, pyAssert_ok] at hc
  rw [ok_bind, getToken_comma_clean Ha.clean Ha.ne (atEnd_comma _)] at hc
  dsimp only at hc
  rw [Ha.index, ok_bind, getToken_comma_clean (fmtD_clean maxLink) (fmtD_ne_nil _) (atEnd_comma _)] at hc
  dsimp only at hc
  rw [fmtI_dec, ok_bind] at hc
  simp only [beq_self_eq_true] at hc
  rw [pyAssert_ok, ok_bind, getToken_comma_clean (fmtX_clean 0 arg) (fmtX_ne_nil 0 _) (atEnd_comma _)] at hc
  dsimp only at hc
  rw [fmtI_hex, ok_bind] at hc
  have g0 := bitText_token id false ofs (ofs + nbits) [','] [] head_comma atEnd_nil
  rw [List.append_nil, List.singleton_append] at g0
  rw [g0] at hc
  dsimp only at hc
  obtain ⟨x, s, k, g1, xl, xi, -, -⟩ := getBits_shape id false ofs (ofs + nbits) [] [] head_nil atEnd_nil
  rw [List.append_nil, List.nil_append] at g1
  rw [g1] at hc
  simp only [ok_bind] at hc
  obtain ⟨bin, h1, h2⟩ := nxWrap_inv hc
  obtain ⟨_, _, h1⟩ := bind_ok h1
  obtain ⟨b1, hb1, h1⟩ := bind_ok h1
  obtain ⟨b2, hb2, h1⟩ := bind_ok h1
  obtain ⟨b3, hb3, h1⟩ := bind_ok h1
  simp only [Except.ok.injEq, Prod.mk.injEq] at h1
  obtain ⟨rfl, rfl⟩ := h1
  have h3 := nxWrap_hdr_inv (t := 10) h2
  rw [he] at h3
  have l1 := packAll_length hb1
  have l2 := packAll_length hb2
  have l3 := packU_length hb3
  simp at l1 l2
  have e1 := nxWire_part (a := u16 hash ++ (u16 basis ++ (pad 2 ++ (u16 alg ++ (u16 maxLink ++ (u32 arg ++
      (pad 2 ++ u16 (ofsNbits ofs nbits)))))))) (x := dst.id) (r := [])
    (a' := b1 ++ (zeros 2 ++ (b2 ++ (zeros 2 ++ b3)))) (x' := x) (r' := [])
    (t := 10) (t' := 10) (by simpa using h3) (by simp [u16_length, u32_length, pad_length, zeros_length, l1, l2, l3])
    xl.symm
  exact hl (xi.1 e1.2.symm)

/-- What `output_reg` and `output_reg2` make of the text of a range. -/
theorem outputReg_shape {f : Field} {n : Nat} (h : IdShape f n) (reg2 w : Bool) (ofs nbits : Nat) {c : Bytes} {l : Nat}
    (hw : w = (ofs == 0 && nbits == (n + (if f.experimenter then 4 else 0)) * 8))
    (hc : outputRegStr2act reg2 (bitText f w ofs (ofs + nbits)) false = .ok (c, l)) :
    ∃ (x : Bytes) (v : Nat), x.length = f.id.length ∧ (x = f.id ↔ f.name ∉ badIds) ∧ v < 256 ^ 2 ∧
      (f.name ∉ badIds → (v : Int) = (ofs : Int) * 64 + (((ofs + nbits : Nat) : Int) % 64 - 1)) ∧
      c = if (reg2 || decide (x.length > 4)) = true then nxWire 32 (u16 v ++ (u16 0xffff ++ x))
        else nxWire 15 (u16 v ++ (x ++ (u16 0xffff ++ pad 6))) := by
  obtain ⟨x, hx, hxl, hxi⟩ := h.made false
  have hxi : x = f.id ↔ f.name ∉ badIds := by simpa using hxi
  have g0 := bitText_token h w ofs (ofs + nbits) [] [] head_nil atEnd_nil
  rw [List.append_nil, List.nil_append] at g0
  have hnil : getToken [] = ([], [], []) := by decide
  rw [outputReg_early] at hc
  unfold outputRegEarly at hc
  rw [g0] at hc
  dsimp only at hc
  rw [hnil] at hc
  simp only [List.isEmpty_nil, if_true] at hc
  have hrange : ∃ s e : Int, (f.name ∉ badIds → s = ofs ∧ e = ((ofs + nbits : Nat) : Int)) ∧
      nxWrap (if (reg2 || decide (x.length > 4)) = true then do
        let b ← packAll [(2, s * 64 + (e % 64 - 1)), (2, 0xffff)]
        .ok (nxastHdr NXAST_OUTPUT_REG2 ++ (b ++ x), (bitText f w ofs (ofs + nbits)).length - ([] : Str).length)
      else do
        let a ← packU 2 (s * 64 + (e % 64 - 1))
        let b ← packU 2 0xffff
        .ok (nxastHdr NXAST_OUTPUT_REG ++ (a ++ (x ++ (b ++ zeros 6))),
          (bitText f w ofs (ofs + nbits)).length - ([] : Str).length)) = .ok (c, l) := by
    cases w with
    | true =>
      simp only [bitText, if_true] at hc ⊢
      rw [parseFunc_bare _ h.clean.1.notOpen, ok_bind] at hc
      dsimp only at hc
      rw [hx, ok_bind, needBytes_ok _ 0 4 (by rw [hxl, h.length]; omega), ok_bind, ok_bind] at hc
      dsimp only at hc
      rw [ok_bind] at hc
      refine ⟨_, _, fun hb => ⟨?_, ?_⟩, hc⟩
      · simp only [Bool.true_eq, Bool.and_eq_true, beq_iff_eq] at hw; omega
      · have h2 := h.lenByte []
        rw [List.append_nil] at h2
        rw [hxi.2 hb, h2]
        simp only [Bool.true_eq, Bool.and_eq_true, beq_iff_eq] at hw; omega
    | false =>
      simp only [bitText, Bool.false_eq_true, if_false] at hc ⊢
      rw [fmtRange_parse _ ofs (ofs + nbits) h.clean.1, ok_bind] at hc
      dsimp only at hc
      rw [hx, ok_bind] at hc
      obtain ⟨d, s, hcs⟩ := range_cons ofs (ofs + nbits)
      rw [hcs] at hc
      dsimp only at hc
      rw [← hcs, intPair_range, ok_bind] at hc
      dsimp only at hc
      rw [ok_bind] at hc
      exact ⟨_, _, fun _ => ⟨rfl, rfl⟩, hc⟩
  obtain ⟨s, e, hse, hc⟩ := hrange
  obtain ⟨bin, h1, h2⟩ := nxWrap_inv hc
  by_cases hr : (reg2 || decide (x.length > 4)) = true
  · rw [if_pos hr] at h1
    obtain ⟨b, hb, h1⟩ := bind_ok h1
    obtain ⟨b1, v0, v1, hb1, rfl⟩ := packAll_cons_inv hb
    obtain ⟨b2, _, _, hb2, rfl⟩ := packAll_cons_inv hb1
    cases hb2
    simp only [Except.ok.injEq, Prod.mk.injEq] at h1
    obtain ⟨rfl, rfl⟩ := h1
    refine ⟨x, (s * 64 + (e % 64 - 1)).toNat, hxl, hxi, by omega, fun hb => ?_, ?_⟩
    · rw [Int.toNat_of_nonneg v0, (hse hb).1, (hse hb).2]
    · rw [if_pos hr, nxWrap_hdr_inv (t := 32) h2]
      simp only [List.append_assoc, List.append_nil]
      rfl
  · rw [if_neg hr] at h1
    obtain ⟨a, ha, h1⟩ := bind_ok h1
    obtain ⟨b, hb, h1⟩ := bind_ok h1
    obtain ⟨v0, v1, rfl⟩ := packU_be ha
    obtain ⟨_, _, rfl⟩ := packU_be hb
    simp only [Except.ok.injEq, Prod.mk.injEq] at h1
    obtain ⟨rfl, rfl⟩ := h1
    refine ⟨x, (s * 64 + (e % 64 - 1)).toNat, hxl, hxi, by omega, fun hb => ?_, ?_⟩
    · rw [Int.toNat_of_nonneg v0, (hse hb).1, (hse hb).2]
    · rw [if_neg hr, nxWrap_hdr_inv (t := 15) h2]
      rfl

theorem u16_be_inj {a b : Nat} (ha : a < 256 ^ 2) (hb : b < 256 ^ 2) (h : u16 a = u16 b) : a = b := be_inj ha hb h

theorem lost_outputReg (src : Field) (ofs nbits maxLen : Nat) (hs : Range src ofs nbits) (h64 : nbits ≤ 64)
    (hx : src.experimenter = false) (hm : maxLen < 256 ^ 2)
    (hl : ¬ (src.name ∉ badIds ∧ ofs % 64 = 0 ∧ nbits < 64 ∧ maxLen = 0xffff)) :
    ActLost (nxWire 15 (u16 (ofsNbits ofs nbits) ++ (src.id ++ (u16 maxLen ++ pad 6)))) := by
  obtain ⟨n, is⟩ := range_shape hs
  obtain ⟨_, _, hpos, he⟩ := hs
  have hil := is.length
  rw [hx] at hil
  have hfit := nxWire_fits 15 _ (show (u16 (ofsNbits ofs nbits) ++ (src.id ++ (u16 maxLen ++ pad 6))).length < 65500 by
    simp only [List.length_append, u16_length, pad_length, hil]; simp)
  generalize hw : (ofs == 0 && nbits == (n + (if src.experimenter then 4 else 0)) * 8) = w
  have tf := bitText_facts is w ofs (ofs + nbits)
  have hdec := fun z => outputReg_dec is ofs nbits maxLen hx hpos he h64 z
  rw [hw] at hdec
  refine nx_lost 15 _ t!"output_reg" (bitText src w ofs (ofs + nbits)) .outputReg .outputReg (by decide)
    (by decide) hfit (by decide) (by decide) (by decide) (by decide) tf.2.2.2 tf.2.2.1 (hdec _) ?_
  intro c l hc heq
  obtain ⟨x, v, xl, xi, hv, hv', hce⟩ := outputReg_shape is false w ofs nbits hw.symm hc
  rw [if_neg (by rw [xl, hil]; simp), heq] at hce
  have e1 := nxWire_part (a := u16 (ofsNbits ofs nbits)) (x := src.id) (r := u16 maxLen ++ pad 6)
    (a' := u16 v) (x' := x) (r' := u16 0xffff ++ pad 6) hce (by simp [u16_length]) xl.symm
  have e2 := nxWire_part (a := u16 (ofsNbits ofs nbits) ++ src.id) (x := u16 maxLen) (r := pad 6)
    (a' := u16 v ++ x) (x' := u16 0xffff) (r' := pad 6) (t := 15) (t' := 15) (by simpa using hce)
    (by simp [u16_length, xl]) (by simp [u16_length])
  have hb := xi.1 e1.2.symm
  have h1 := u16_be_inj hm (by omega) e2.2
  have h2 := u16_be_inj (range_fits is hpos he h64) hv e1.1
  have h3 := hv' hb
  rw [← h2] at h3
  unfold ofsNbits at h3
  exact hl ⟨hb, by omega, by omega, h1⟩

theorem lost_outputReg2 (src : Field) (ofs nbits maxLen : Nat) (hs : Range src ofs nbits) (h64 : nbits ≤ 64)
    (hm : maxLen < 256 ^ 2)
    (hl : ¬ (src.name ∉ badIds ∧ ofs % 64 = 0 ∧ nbits < 64 ∧ maxLen = 0xffff)) :
    ActLost (nxWire 32 (u16 (ofsNbits ofs nbits) ++ (u16 maxLen ++ src.id))) := by
  obtain ⟨n, is⟩ := range_shape hs
  obtain ⟨_, _, hpos, he⟩ := hs
  have hil := is.length
  have hfit := nxWire_fits 32 _ (show (u16 (ofsNbits ofs nbits) ++ (u16 maxLen ++ src.id)).length < 65500 by
    simp only [List.length_append, u16_length]; split at hil <;> omega)
  generalize hw : (ofs == 0 && nbits == (n + (if src.experimenter then 4 else 0)) * 8) = w
  have tf := bitText_facts is w ofs (ofs + nbits)
  have hdec := fun z => outputReg2_dec is ofs nbits maxLen hpos he h64 z
  rw [hw] at hdec
  refine nx_lost 32 _ t!"output_reg2" (bitText src w ofs (ofs + nbits)) .outputReg2 .outputReg2 (by decide)
    (by decide) hfit (by decide) (by decide) (by decide) (by decide) tf.2.2.2 tf.2.2.1 (hdec _) ?_
  intro c l hc heq
  obtain ⟨x, v, xl, xi, hv, hv', hce⟩ := outputReg_shape is true w ofs nbits hw.symm hc
  rw [if_pos (by simp), heq] at hce
  have e1 := nxWire_part (a := u16 (ofsNbits ofs nbits)) (x := u16 maxLen) (r := src.id)
    (a' := u16 v) (x' := u16 0xffff) (r' := x) hce (by simp [u16_length]) (by simp [u16_length])
  have e2 := nxWire_part (a := u16 (ofsNbits ofs nbits) ++ u16 maxLen) (x := src.id) (r := [])
    (a' := u16 v ++ u16 0xffff) (x' := x) (r' := []) (t := 32) (t' := 32) (by simpa using hce)
    (by simp [u16_length]) xl.symm
  have hb := xi.1 e2.2.symm
  have h1 := u16_be_inj hm (by omega) e1.2
  have h2 := u16_be_inj (range_fits is hpos he h64) hv e1.1
  have h3 := hv' hb
  rw [← h2] at h3
  unfold ofsNbits at h3
  exact hl ⟨hb, by omega, by omega, h1⟩

/-! ## Bundles -/

theorem bundleText_clean (p : Nat) : Clean (bundlePortText p) ∧ bundlePortText p ≠ [] ∧ NP (bundlePortText p) := by
  unfold bundlePortText
  have key : ∀ e ∈ ofpp, Clean e.2 ∧ e.2 ≠ [] ∧ NP e.2 := by decide
  split
  · next e he => exact key e (List.mem_of_find?_eq_some he)
  · exact ⟨fmtD_clean p, fmtD_ne_nil p, np_fmtD p⟩

/-- The name of a reserved port stands for a number that does not fit two bytes. -/
theorem bundlePort_text (p : Nat) : ∃ v : Int, bundlePort (bundlePortText p) = .ok v ∧ (p ∈ reservedLow → 65536 ≤ v) := by
  by_cases hp : p ∈ reservedLow
  · have key : ∀ p ∈ reservedLow, (match bundlePort (bundlePortText p) with
        | .ok v => decide (65536 ≤ v)
        | .error _ => false) = true := by decide +kernel
    have := key p hp
    split at this
    · next v hv => exact ⟨v, hv, fun _ => by simpa using this⟩
    · cases this
  · exact ⟨p, by rw [bundlePortText_num p hp, bundlePort_num], fun h => absurd h hp⟩

theorem bundlePorts_text (ps : List Nat) : ∃ vs : List Int, bundlePorts (ps.map bundlePortText) = .ok vs ∧
    vs.length = ps.length ∧ ((∃ p ∈ ps, p ∈ reservedLow) → ∃ v ∈ vs, 65536 ≤ v) := by
  induction ps with
  | nil => exact ⟨[], rfl, rfl, by simp⟩
  | cons p ps ih =>
    obtain ⟨v, hv, hr⟩ := bundlePort_text p
    obtain ⟨vs, hvs, hl, hrs⟩ := ih
    refine ⟨v :: vs, by rw [List.map_cons, bundlePorts, hv, ok_bind, hvs, ok_bind], by simp [hl], ?_⟩
    rintro ⟨q, hq, hqr⟩
    rcases List.mem_cons.1 hq with rfl | hq
    · exact ⟨v, by simp, hr hqr⟩
    · obtain ⟨w, hw, hwr⟩ := hrs ⟨q, hq, hqr⟩
      exact ⟨w, by simp [hw], hwr⟩

theorem packHs_inv {vs : List Int} {b : Bytes} (h : packHs vs = .ok b) : ∀ v ∈ vs, v < 65536 := by
  unfold packHs at h
  induction vs generalizing b with
  | nil => simp
  | cons v vs ih =>
    rw [List.map_cons] at h
    obtain ⟨c, _, h1, hc, rfl⟩ := packAll_cons_inv h
    intro w hw
    rcases List.mem_cons.1 hw with rfl | hw
    · simpa using h1
    · exact ih hc w hw

/-- The printed slaves. -/
def portsText (ps : List Nat) : Str := t!"slaves" ++ '(' :: joinStr t!"," (ps.map bundlePortText) ++ [')']

theorem portsText_facts (ps : List Nat) : Token (portsText ps) ∧ PlainStart (portsText ps) ∧
    portsText ps ≠ [] ∧ InLine ')' (portsText ps) := by
  have hin : InLine ')' (joinStr t!"," (ps.map bundlePortText)) := inside_join fun t h => by
    obtain ⟨p, _, rfl⟩ := List.mem_map.1 h
    exact inside_clean (bundleText_clean p).1 (bundleText_clean p).2.2
  refine ⟨call_token t!"slaves" _ (by decide) hin.ins, plainStart_cons (by decide) _,
    by simp [portsText], ?_⟩
  unfold portsText
  rw [List.append_assoc]
  apply inside_append (inside_clean (by decide) (by decide))
  exact ⟨Inside.nest ')' '(' ')' _ [] (by decide) .round hin.ins (.nil _), line_cons (by decide)
    (line_append hin.line (by decide))⟩

theorem bundleSlaves_ports (ps : List Nat) : ∃ vs : List Int, bundleSlaves (portsText ps) = .ok vs ∧
    vs.length = ps.length ∧ ((∃ p ∈ ps, p ∈ reservedLow) → ∃ v ∈ vs, 65536 ≤ v) := by
  obtain ⟨vs, h1, h2⟩ := bundlePorts_text ps
  refine ⟨vs, ?_, h2⟩
  unfold portsText
  rw [bundleSlaves_tokens, h1]
  intro t ht
  obtain ⟨p, _, rfl⟩ := List.mem_map.1 ht
  exact bundleText_clean p

theorem lost_bundle (hash basis alg : Nat) (st : Field) (slaves : List Nat) (hh : hash < 2)
    (hb : basis < 256 ^ 2) (ha : alg < 2) (hst : st ∈ fields) (hsz : st.kind.size ≠ none)
    (hx : st.experimenter = false) (hp : ∀ p ∈ slaves, p < 256 ^ 2) (hl : slaves.length < 30000)
    (hn : ¬ (st.name ∉ badIds ∧ st.kind.noMaskId = true ∧ ∀ p ∈ slaves, p ∉ reservedLow)) :
    ActLost (nxWire 12 (u16 alg ++ (u16 hash ++ (u16 basis ++ (st.id ++ (u16 slaves.length ++ (pad 10 ++
      slaves.flatMap u16))))))) := by
  obtain ⟨n, is⟩ : ∃ n, IdShape st n := by
    cases hs : st.kind.size with
    | none => exact absurd hs hsz
    | some n => exact ⟨n, hst, hs⟩
  obtain ⟨hs, Hh⟩ := named_hash hash hh
  obtain ⟨as, Ha⟩ := named_bdAlg alg ha
  have hil := is.length
  rw [hx] at hil
  have hfit := nxWire_fits 12 _ (show (u16 alg ++ (u16 hash ++ (u16 basis ++ (st.id ++ (u16 slaves.length ++ (pad 10 ++
      slaves.flatMap u16)))))).length < 65500 by
    simp only [List.length_append, u16_length, pad_length, flatMap_u16_length, hil]; simp; omega)
  obtain ⟨tk1, tk2, tk3, tk4⟩ := portsText_facts slaves
  refine nx_lost 12 _ t!"bundle" (hs ++ ',' :: (fmtD basis ++ ',' :: (as ++ ',' ::
    (shownName st ++ ',' :: portsText slaves))))
    .bundle .bundle (by decide) (by decide) hfit (by decide) (by decide) (by decide) (by decide)
    (inside_comma (inside_clean Hh.clean Hh.np) <|
      inside_comma (inside_clean (fmtD_clean _) (np_fmtD _)) <|
      inside_comma (inside_clean Ha.clean Ha.np) <|
      inside_comma is.inside tk4) (by simp)
    (bundle_dec is hash basis alg hs as slaves hh hb ha hx hp hl Hh Ha _) ?_
  intro c l hc he
  simp only [runActEnc, bundleStr2act] at hc
  have g0 : getToken (',' :: portsText slaves) = ([','], portsText slaves, []) := by
    have := getToken_comma tk1 atEnd_nil tk2 tk3
    rwa [List.append_nil] at this
  rw [if_neg (by simp), getToken_clean Hh.clean Hh.ne (atEnd_comma _)] at hc
  dsimp only at hc
  rw [getToken_comma_clean (fmtD_clean basis) (fmtD_ne_nil _) (atEnd_comma _)] at hc
  dsimp only at hc
  rw [getToken_comma_clean Ha.clean Ha.ne (atEnd_comma _)] at hc
  dsimp only at hc
  rw [getToken_comma_clean is.clean.1 is.clean.2 (atEnd_comma _)] at hc
  dsimp only at hc
  rw [g0] at hc
  dsimp only at hc
  rw [Hh.index, ok_bind, fmtI_dec, ok_bind] at hc
  dsimp only at hc
  obtain ⟨x, hx1, hxl, hxi⟩ := is.made true
  obtain ⟨vs, hv1, hv2, hv3⟩ := bundleSlaves_ports slaves
  rw [Ha.index, ok_bind, hx1, ok_bind, hv1, ok_bind] at hc
  obtain ⟨bin, h1, h2⟩ := nxWrap_inv hc
  obtain ⟨a, ha1, h1⟩ := bind_ok h1
  obtain ⟨m, hm1, h1⟩ := bind_ok h1
  obtain ⟨ps, hps, h1⟩ := bind_ok h1
  simp only [Except.ok.injEq, Prod.mk.injEq] at h1
  obtain ⟨rfl, rfl⟩ := h1
  have h3 := nxWrap_hdr_inv (t := 12) h2
  rw [he] at h3
  have l1 := packAll_length ha1
  simp at l1
  have e1 := nxWire_part (a := u16 alg ++ (u16 hash ++ u16 basis)) (x := st.id)
    (r := u16 slaves.length ++ (pad 10 ++ slaves.flatMap u16)) (a' := a) (x' := x) (r' := (m ++ zeros 10) ++ ps)
    (t := 12) (t' := 12) (by rw [← h3]; simp) (by simp [u16_length, l1]) hxl.symm
  have h4 := hxi.1 e1.2.symm
  refine hn ⟨h4.1, h4.2 rfl, fun p hp1 hp2 => ?_⟩
  obtain ⟨v, hv, hv'⟩ := hv3 ⟨p, hp1, hp2⟩
  have := packHs_inv hps v hv
  omega

theorem lost_bundleLoad (hash basis alg : Nat) (st dst : Field) (ofs nbits : Nat) (slaves : List Nat) (hh : hash < 2)
    (hb : basis < 256 ^ 2) (ha : alg < 2) (hst : st ∈ fields) (hsz : st.kind.size ≠ none)
    (hx : st.experimenter = false) (hd : Range dst ofs nbits) (h64 : nbits ≤ 64) (hdx : dst.experimenter = false)
    (hp : ∀ p ∈ slaves, p < 256 ^ 2) (hl : slaves.length < 30000)
    (hn : ¬ (st.name ∉ badIds ∧ st.kind.noMaskId = true ∧ dst.name ∉ badIds ∧ dst.kind.noMaskId = true ∧ ofs = 0 ∧
      ∀ p ∈ slaves, p ∉ reservedLow)) :
    ActLost (nxWire 13 (u16 alg ++ (u16 hash ++ (u16 basis ++ (st.id ++ (u16 slaves.length ++
      (u16 (ofsNbits ofs nbits) ++ (dst.id ++ (pad 4 ++ slaves.flatMap u16))))))))) := by
  obtain ⟨n, is⟩ : ∃ n, IdShape st n := by
    cases hs : st.kind.size with
    | none => exact absurd hs hsz
    | some n => exact ⟨n, hst, hs⟩
  obtain ⟨nd, id⟩ := range_shape hd
  obtain ⟨_, _, hpos, hde⟩ := hd
  obtain ⟨hs, Hh⟩ := named_hash hash hh
  obtain ⟨as, Ha⟩ := named_bdAlg alg ha
  have hil := is.length
  rw [hx] at hil
  have hdl := id.length
  rw [hdx] at hdl
  have hfit := nxWire_fits 13 _ (show (u16 alg ++ (u16 hash ++ (u16 basis ++ (st.id ++ (u16 slaves.length ++
      (u16 (ofsNbits ofs nbits) ++ (dst.id ++ (pad 4 ++ slaves.flatMap u16)))))))).length < 65500 by
    simp only [List.length_append, u16_length, pad_length, flatMap_u16_length, hil, hdl]; simp; omega)
  obtain ⟨tk1, tk2, tk3, tk4⟩ := portsText_facts slaves
  have td := bitText_facts id false ofs (ofs + nbits)
  refine nx_lost 13 _ t!"bundle_load" (hs ++ ',' :: (fmtD basis ++ ',' :: (as ++ ',' ::
    (shownName st ++ ',' :: (bitText dst false ofs (ofs + nbits) ++ ',' :: portsText slaves)))))
    .bundleLoad .bundleLoad (by decide) (by decide) hfit (by decide) (by decide) (by decide) (by decide)
    (inside_comma (inside_clean Hh.clean Hh.np) <|
      inside_comma (inside_clean (fmtD_clean _) (np_fmtD _)) <|
      inside_comma (inside_clean Ha.clean Ha.np) <|
      inside_comma is.inside <| inside_comma td.2.2.2 tk4) (by simp)
    (bundleLoad_dec is id hash basis alg ofs nbits hs as slaves hh hb ha hx hpos hde h64 hdx hp hl Hh Ha _) ?_
  intro c l hc he
  rw [show runActEnc .bundleLoad = bundleLoadStr2act from rfl, bundleLoad_early] at hc
  simp only [bundleLoadEarly] at hc
  have g0 : getToken (',' :: portsText slaves) = ([','], portsText slaves, []) := by
    have := getToken_comma tk1 atEnd_nil tk2 tk3
    rwa [List.append_nil] at this
  have g1 := bitText_token id false ofs (ofs + nbits) [','] (',' :: portsText slaves) head_comma (atEnd_comma _)
  rw [List.singleton_append] at g1
  rw [if_neg (by simp), getToken_clean Hh.clean Hh.ne (atEnd_comma _)] at hc
  dsimp only at hc
  rw [getToken_comma_clean (fmtD_clean basis) (fmtD_ne_nil _) (atEnd_comma _)] at hc
  dsimp only at hc
  rw [getToken_comma_clean Ha.clean Ha.ne (atEnd_comma _)] at hc
  dsimp only at hc
  rw [getToken_comma_clean is.clean.1 is.clean.2 (atEnd_comma _)] at hc
  dsimp only at hc
  rw [g1] at hc
  dsimp only at hc
  rw [g0] at hc
  dsimp only at hc
  rw [Hh.index, ok_bind, fmtI_dec, ok_bind] at hc
  dsimp only at hc
  obtain ⟨x, hx1, hxl, hxi⟩ := is.made true
  obtain ⟨y, hy1, hyl, hyi⟩ := id.made true
  obtain ⟨vs, hv1, hv2, hv3⟩ := bundleSlaves_ports slaves
  rw [Ha.index, ok_bind, show bitText dst false ofs (ofs + nbits) = fmtRange (shownName dst) ofs (ofs + nbits) from rfl,
    fmtRange_parse _ ofs (ofs + nbits) id.clean.1, ok_bind] at hc
  dsimp only at hc
  rw [hy1, ok_bind] at hc
  obtain ⟨d, s, hcs⟩ := range_cons ofs (ofs + nbits)
  rw [hcs] at hc
  dsimp only at hc
  rw [← hcs, intPair_range, ok_bind] at hc
  dsimp only at hc
  rw [hv1, ok_bind, hx1] at hc
  obtain ⟨bin, h1, h2⟩ := nxWrap_inv hc
  obtain ⟨a, ha1, h1⟩ := bind_ok h1
  rw [ok_bind] at h1
  obtain ⟨m, hm1, h1⟩ := bind_ok h1
  obtain ⟨ps, hps, h1⟩ := bind_ok h1
  simp only [Except.ok.injEq, Prod.mk.injEq] at h1
  obtain ⟨rfl, rfl⟩ := h1
  have h3 := nxWrap_hdr_inv (t := 13) h2
  rw [he] at h3
  have l1 := packAll_length ha1
  simp at l1
  obtain ⟨b1, _, _, hb1, rfl⟩ := packAll_cons_inv hm1
  obtain ⟨b2, v0, v1, hb2, rfl⟩ := packAll_cons_inv hb1
  cases hb2
  generalize hw : ((ofs : Int) * 64 + (((ofs + nbits : Nat) : Int) - 1)).toNat = w at h3
  generalize ((vs.length : Int)).toNat = k at h3
  have e1 := nxWire_part (a := u16 alg ++ (u16 hash ++ u16 basis)) (x := st.id)
    (r := u16 slaves.length ++ (u16 (ofsNbits ofs nbits) ++ (dst.id ++ (pad 4 ++ slaves.flatMap u16))))
    (a' := a) (x' := x) (r' := be 2 k ++ (be 2 w ++
      [])  ++ (y ++ (zeros 4 ++ ps)))
    (t := 13) (t' := 13) (by rw [← h3]; simp) (by simp [u16_length, l1]) hxl.symm
  have e2 := nxWire_part (a := u16 alg ++ (u16 hash ++ (u16 basis ++ (st.id ++ u16 slaves.length))))
    (x := u16 (ofsNbits ofs nbits)) (r := dst.id ++ (pad 4 ++ slaves.flatMap u16))
    (a' := a ++ (x ++ be 2 k))
    (x' := be 2 w) (r' := y ++ (zeros 4 ++ ps))
    (t := 13) (t' := 13) (by simpa using h3) (by simp only [List.length_append, u16_length, be_length, l1, hxl]; omega) (by simp [u16_length, be_length])
  have e3 := nxWire_part (a := u16 alg ++ (u16 hash ++ (u16 basis ++ (st.id ++ (u16 slaves.length ++
      u16 (ofsNbits ofs nbits))))))
    (x := dst.id) (r := pad 4 ++ slaves.flatMap u16)
    (a' := a ++ (x ++ (be 2 k ++ be 2 w)))
    (x' := y) (r' := zeros 4 ++ ps)
    (t := 13) (t' := 13) (by simpa using h3) (by simp only [List.length_append, u16_length, be_length, l1, hxl]; omega) hyl.symm
  have h4 := hxi.1 e1.2.symm
  have h5 := hyi.1 e3.2.symm
  have h6 := be_inj (range_fits id hpos hde h64) (by omega) e2.2
  unfold ofsNbits at h6
  refine hn ⟨h4.1, h4.2 rfl, h5.1, h5.2 rfl, by omega, fun p hp1 hp2 => ?_⟩
  obtain ⟨v, hv, hv'⟩ := hv3 ⟨p, hp1, hp2⟩
  have := packHs_inv hps v hv
  omega

end Ofpstr
