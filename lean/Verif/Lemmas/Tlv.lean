import Verif.Lemmas.Fields

/-!
# Reading and writing one TLV, and lists of them
-/

namespace Ofpstr
open Spec

theorem expId_length (c : Cls) : (expId c).length = extra c := by
  unfold expId extra; split <;> simp

theorem header_length (key : Key) (n : Nat) (hm : Bool) :
    (header key n hm).length = 4 + extra key.cls := by
  rw [header_eq]; simp [expId_length]; omega

theorem cls_code_lt (c : Cls) : c.code < 256 ^ 2 := by cases c <;> decide

theorem uAt_second (a b : Bytes) (off k n : Nat) (r : Bytes) (ha : a.length = off)
    (hb : b = beBytes k n ++ r) (hn : n < 256 ^ k) : uAt (a ++ b) off k = n := by
  rw [uAt_right a b off k (by omega), ha, Nat.sub_self, hb, uAt_front k n r hn]

/-- The numbers in a TLV header. -/
theorem header_nums (key : Key) (n : Nat) (hm : Bool) (r : Bytes) (hk : key.num < 128) :
    uAt (header key n hm ++ r) 0 2 = key.cls.code ∧
    uAt (header key n hm ++ r) 2 1 = 2 * key.num + (if hm then 1 else 0) ∧
    uAt (header key n hm ++ r) 3 1 = min 255 ((if hm then 2 * n else n) + extra key.cls) := by
  rw [header_eq]
  simp only [List.append_assoc]
  refine ⟨uAt_front _ _ _ (cls_code_lt _), ?_, ?_⟩
  · exact uAt_second _ _ 2 1 _ _ (by simp) rfl (by cases hm <;> simp <;> omega)
  · rw [← List.append_assoc]
    exact uAt_second _ _ 3 1 _ _ (by simp) rfl (by omega)

theorem header_exp (key : Key) (n : Nat) (hm : Bool) (r : Bytes) (hc : key.cls = .stratos) :
    uAt (header key n hm ++ r) 4 4 = STRATOS_EXPERIMENTER_ID := by
  rw [header_eq]
  simp only [List.append_assoc]
  rw [← List.append_assoc, ← List.append_assoc]
  refine uAt_second _ _ 4 4 _ r (by simp) ?_ (by decide)
  simp [expId, hc]

theorem slice_middle {α : Type} (a b c : List α) (i j : Nat) (hi : a.length = i)
    (hj : a.length + b.length = j) : slice (a ++ (b ++ c)) i j = b := by
  rw [slice_right _ _ _ _ (by omega), slice_left _ _ _ _ (by omega), hi, Nat.sub_self]
  exact slice_all _ _ (by omega)

/-- The text of one TLV. -/
theorem oxm2strOne_tlv (key : Key) (n : Nat) (hm : Bool) (d : Dec) (body rest : Bytes)
    (hk : key.num < 128) (hd : lookupDec key = some d)
    (hb : body.length = if hm then 2 * n else n) (hf : body.length + extra key.cls < 256) :
    oxm2strOne (header key n hm ++ (body ++ rest)) = decText d body hm ∧
    uAt (header key n hm ++ (body ++ rest)) 3 1 = body.length + extra key.cls := by
  obtain ⟨h1, h2, h3⟩ := header_nums key n hm (body ++ rest) hk
  have hlen := header_length key n hm
  rw [← hb] at h3
  have h3' : uAt (header key n hm ++ (body ++ rest)) 3 1 = body.length + extra key.cls := by
    rw [h3]; omega
  refine ⟨?_, h3'⟩
  have hmask : ((2 * key.num + if hm then 1 else 0) % 2 == 1) = hm := by
    cases hm <;> simp
  have hnum : (2 * key.num + if hm then 1 else 0) / 2 = key.num := by
    cases hm <;> simp
    omega
  have hget : getDec key = .ok d := by simp [getDec, hd]
  rcases key with ⟨c, num⟩
  unfold oxm2strOne
  simp only [h1, h2, h3', hmask, hnum]
  cases c with
  | stratos =>
    have h4 := header_exp ⟨.stratos, num⟩ n hm (body ++ rest) rfl
    have hnb : needBytes (header ⟨.stratos, num⟩ n hm ++ (body ++ rest)) 4 4 = .ok () := by
      unfold needBytes
      rw [if_pos]
      rw [List.length_append, hlen]; simp [extra]
    have hsl : slice (header ⟨.stratos, num⟩ n hm ++ (body ++ rest)) 8
        (4 + (body.length + extra Cls.stratos)) = body :=
      slice_middle _ _ _ _ _ (by rw [hlen]; rfl) (by rw [hlen]; simp [extra]; omega)
    simp only [Cls.code, hnb, h4, hsl, hget, bind, Except.bind]
    simp [OFPXMC_EXPERIMENTER]
  | basic =>
    have hsl : slice (header ⟨.basic, num⟩ n hm ++ (body ++ rest)) 4
        (4 + (body.length + extra Cls.basic)) = body :=
      slice_middle _ _ _ _ _ (by rw [hlen]; rfl) (by rw [hlen]; simp [extra])
    simp only [Cls.code, hsl, hget, bind, Except.bind]
    simp [OFPXMC_EXPERIMENTER, OFPXMC_OPENFLOW_BASIC]
  | nxm0 =>
    have hsl : slice (header ⟨.nxm0, num⟩ n hm ++ (body ++ rest)) 4
        (4 + (body.length + extra Cls.nxm0)) = body :=
      slice_middle _ _ _ _ _ (by rw [hlen]; rfl) (by rw [hlen]; simp [extra])
    simp only [Cls.code, hsl, hget, bind, Except.bind]
    simp [OFPXMC_EXPERIMENTER, OFPXMC_OPENFLOW_BASIC, OFPXMC_NXM_0]
  | nxm1 =>
    have hsl : slice (header ⟨.nxm1, num⟩ n hm ++ (body ++ rest)) 4
        (4 + (body.length + extra Cls.nxm1)) = body :=
      slice_middle _ _ _ _ _ (by rw [hlen]; rfl) (by rw [hlen]; simp [extra])
    simp only [Cls.code, hsl, hget, bind, Except.bind]
    simp [OFPXMC_EXPERIMENTER, OFPXMC_OPENFLOW_BASIC, OFPXMC_NXM_0, OFPXMC_NXM_1]

theorem fieldKey_extra (f : Field) (h : (fieldKey f).cls.code = f.cls) :
    extra (fieldKey f).cls = if f.experimenter then 4 else 0 := by
  unfold extra Field.experimenter
  rw [← h]
  cases (fieldKey f).cls <;> simp [Cls.code]

/-- The bytes of a TLV of the specification, as the library writes them. -/
theorem tlv_wire (t : Tlv) (hv : t.Valid) (n : Nat) (hn : t.value.length = n) :
    t.wire = header (fieldKey t.field) n t.mask.isSome ++ t.body ∧
    t.body.length = (if t.mask.isSome then 2 * n else n) ∧
    t.body.length + extra (fieldKey t.field).cls < 256 := by
  have hok := table_fields _ hv.mem
  simp only [fieldOk, Bool.and_eq_true, decide_eq_true_eq] at hok
  obtain ⟨⟨⟨h1, h2⟩, h3⟩, h4⟩ := hok
  have hx := fieldKey_extra t.field h2
  have hlen : t.body.length = (if t.mask.isSome then 2 * n else n) := by
    unfold Tlv.body
    cases hm : t.mask with
    | none => simp [hn]
    | some m =>
      have := (hv.mask m hm).2
      simp [hn]; omega
  have hfit : t.body.length + extra (fieldKey t.field).cls < 256 := by rw [hx]; exact hv.fits
  refine ⟨?_, hlen, hfit⟩
  unfold Tlv.wire Field.header u16 u8 u32
  rw [header_eq, h2, hx, ← hlen]
  have hmin : min 255 (t.body.length + if t.field.experimenter then 4 else 0) =
      t.body.length + if t.field.experimenter then 4 else 0 := by
    have := hv.fits; omega
  rw [hmin]
  simp only [spec_be, List.append_assoc]
  have hnum : (fieldKey t.field).num = t.field.num := rfl
  have he : expId (fieldKey t.field).cls =
      if t.field.experimenter then beBytes 4 4278247501 else [] := by
    unfold expId Field.experimenter
    rw [← h2]
    cases (fieldKey t.field).cls <;> simp [Cls.code, STRATOS_EXPERIMENTER_ID]
  rw [hnum, he]

/-- Printing and parsing back one TLV. -/
theorem trip_tlv (t : Tlv) (hv : t.Valid) (hl : t.Lossless) :
    ∃ d, lookupDec (fieldKey t.field) = some d ∧
      lookupEnc t.field.name = some (fieldKey t.field, kindEnc t.field.kind) ∧
      Trip (decText d t.body t.mask.isSome) (encText (fieldKey t.field) (kindEnc t.field.kind))
        t.field.name t.wire := by
  have hdec := table_dec _ hv.mem hl.name
  have henc := table_enc _ hv.mem (by
    intro h; apply hl.name; rw [h]; decide)
  unfold linkedEnc at henc
  unfold linkedDec at hdec
  obtain ⟨hw, -, -⟩ := tlv_wire t hv _ rfl
  cases hd : lookupDec (fieldKey t.field) with
  | none => simp [hd] at hdec
  | some d =>
    rw [hd] at hdec
    refine ⟨d, rfl, by simpa using henc, ?_⟩
    rw [hw]
    have hsz := hv.size
    have hmk := hv.mask
    have hll := hl
    rcases t with ⟨⟨name, cls, num, kind, maskable⟩, value, mask⟩
    dsimp only at *
    generalize hkey : fieldKey ⟨name, cls, num, kind, maskable⟩ = key at *
    cases d with
    | uint g =>
      cases kind <;> simp [decFits] at hdec
      rename_i n
      obtain ⟨⟨h1, h2⟩, h3⟩ := hdec
      obtain ⟨vf, hvf⟩ := Option.isSome_iff_exists.1 h2
      have hn := hsz n rfl
      subst h1
      cases mask with
      | none => simpa [Trip, decText, encText, kindEnc, Tlv.body, hn] using trip_uint key n g vf hvf value hn
      | some m =>
        obtain ⟨hm1, hm2⟩ := hmk m rfl
        have h3' : g.mask.isSome = true := by
          rcases h3 with h | h
          · exact h
          · rw [h] at hm1; cases hm1
        obtain ⟨mf, hmf⟩ := Option.isSome_iff_exists.1 h3'
        simpa [Trip, decText, encText, kindEnc, Tlv.body, hn] using trip_uint_mask key n g vf mf hvf hmf value m hn (by omega)
    | port nm n =>
      simp [decFits] at hdec
      obtain ⟨⟨⟨h1, h2⟩, h3⟩, h4⟩ := hdec
      subst h1 h2
      have hn := hsz n rfl
      cases mask with
      | none => simpa [Trip, decText, encText, kindEnc, Tlv.body, hn] using trip_port key nm n h3 value hn
      | some m => have := (hmk m rfl).1; rw [h4] at this; cases this
    | mac nm =>
      simp [decFits] at hdec
      obtain ⟨h1, h2⟩ := hdec
      subst h1 h2
      have hn := hsz 6 rfl
      cases mask with
      | none => simpa [Trip, decText, encText, kindEnc, Tlv.body, hn] using trip_mac key nm value hn
      | some m =>
        have := (hmk m rfl).2
        simpa [Trip, decText, encText, kindEnc, Tlv.body, hn] using trip_mac_mask key nm value m hn (by omega)
    | ipv4 nm =>
      simp [decFits] at hdec
      obtain ⟨h1, h2⟩ := hdec
      subst h1 h2
      have hn := hsz 4 rfl
      cases mask with
      | none => simpa [Trip, decText, encText, kindEnc, Tlv.body, hn] using trip_ipv4 key nm value hn
      | some m =>
        have := (hmk m rfl).2
        simpa [Trip, decText, encText, kindEnc, Tlv.body, hn] using trip_ipv4_mask key nm value m hn (by omega)
    | ipv6 nm =>
      simp [decFits] at hdec
      obtain ⟨h1, h2⟩ := hdec
      subst h1 h2
      have hn := hsz 16 rfl
      cases mask with
      | none => simpa [Trip, decText, encText, kindEnc, Tlv.body, hn] using trip_ipv6 key nm value hn
      | some m =>
        have := (hmk m rfl).2
        simpa [Trip, decText, encText, kindEnc, Tlv.body, hn] using trip_ipv6_mask key nm value m hn (by omega)
    | pkt =>
      simp [decFits] at hdec
      obtain ⟨⟨h1, h2⟩, h4⟩ := hdec
      subst h1 h2
      have hn := hsz 4 rfl
      cases mask with
      | none => simpa [Trip, decText, encText, kindEnc, Tlv.body, hn] using trip_pkt key value hn
      | some m => have := (hmk m rfl).1; rw [h4] at this; cases this
    | hex nm =>
      simp [decFits] at hdec
      obtain ⟨h1, h2⟩ := hdec
      subst h1 h2
      cases mask with
      | none => simpa [Trip, decText, encText, kindEnc, Tlv.body] using trip_hex key nm value (hll.bytes rfl rfl)
      | some m =>
        have := (hmk m rfl).2
        simpa [Trip, decText, encText, kindEnc, Tlv.body] using trip_hex_mask key nm value m (by omega)
    | ssid =>
      simp [decFits] at hdec
      obtain ⟨h1, h2⟩ := hdec
      subst h1 h2
      cases mask with
      | none =>
        obtain ⟨p1, p2, p3, p4⟩ := hll.ssid rfl rfl
        simpa [Trip, decText, encText, kindEnc, Tlv.body] using trip_ssid key value p1 p2 p3 p4
      | some m =>
        have hml := (hmk m rfl).2
        obtain ⟨p, k, ⟨p1, p2, p3, p4⟩, hp⟩ := hll.ssidMask rfl (by simp)
        dsimp only at hp
        subst hp
        rw [spec_pad] at hml ⊢
        have hm' : m.length = p.length + k := by simpa using hml
        have := trip_ssid_mask key p m k p1 p2 p3 p4 hm'
        rw [hml] at this
        simpa [Trip, decText, encText, kindEnc, Tlv.body] using this
    | le g =>
      cases kind <;> simp [decFits] at hdec
      rename_i n
      obtain ⟨⟨h1, h2⟩, h4⟩ := hdec
      obtain ⟨vf, hvf⟩ := Option.isSome_iff_exists.1 h2
      have hn := hsz n rfl
      subst h1
      cases mask with
      | none => simpa [Trip, decText, encText, kindEnc, Tlv.body, hn] using trip_le key n g vf hvf value hn
      | some m => have := (hmk m rfl).1; rw [h4] at this; cases this
    | rate =>
      simp [decFits] at hdec
      obtain ⟨⟨h1, h2⟩, h4⟩ := hdec
      subst h1 h2
      have hn := hsz 1 rfl
      cases mask with
      | none => simpa [Trip, decText, encText, kindEnc, Tlv.body, hn] using trip_rate key value hn
      | some m => have := (hmk m rfl).1; rw [h4] at this; cases this
    | ch =>
      simp [decFits] at hdec
      obtain ⟨h1, h2⟩ := hdec
      subst h1 h2
      have hn := hsz 4 rfl
      cases mask with
      | none => simpa [Trip, decText, encText, kindEnc, Tlv.body, hn] using trip_ch key value hn
      | some m =>
        have := (hmk m rfl).2
        simpa [Trip, decText, encText, kindEnc, Tlv.body, hn] using trip_ch_mask key value m hn (by omega)
    | comp nm sizes fmts =>
      simp [decFits] at hdec
      obtain ⟨⟨⟨h1, h2⟩, h3⟩, h4⟩ := hdec
      subst h1 h2
      have hn := hsz sizes.sum rfl
      cases mask with
      | none => simpa [Trip, decText, encText, kindEnc, Tlv.body, hn] using trip_comp key nm sizes fmts value hn h3 h4
      | some m =>
        have := (hmk m rfl).2
        simpa [Trip, decText, encText, kindEnc, Tlv.body, hn] using trip_comp_mask key nm sizes fmts value m hn (by omega) h3 h4
    | vht =>
      simp [decFits] at hdec
      obtain ⟨h1, h2⟩ := hdec
      subst h1 h2
      have hn := hsz 12 rfl
      cases mask with
      | none => simpa [Trip, decText, encText, kindEnc, Tlv.body, hn] using trip_vht key value hn (hll.vht rfl)
      | some m =>
        have := (hmk m rfl).2
        simpa [Trip, decText, encText, kindEnc, Tlv.body, hn] using
          trip_vht_mask key value m hn (by omega) (hll.vht rfl) (hll.vhtMask rfl m rfl)
    | s8 nm =>
      simp [decFits] at hdec
      obtain ⟨⟨h1, h2⟩, h4⟩ := hdec
      subst h1 h2
      have hn := hsz 1 rfl
      cases mask with
      | none => simpa [Trip, decText, encText, kindEnc, Tlv.body, hn] using trip_s8 key nm value hn
      | some m => have := (hmk m rfl).1; rw [h4] at this; cases this

end Ofpstr
