import Verif.Lemmas.ActLost

/-!
# Actions on one field that do not survive printing: `set_field` and `reg_load2`
-/

set_option linter.unusedSimpArgs false

namespace Ofpstr
open Spec

theorem oxm2str1_dec (t : Tlv) (hv : t.Valid) {d : Dec} {s : Str} (hd : lookupDec (fieldKey t.field) = some d)
    (hdec : decText d t.body t.mask.isSome = .ok s) (rest : Bytes) : oxm2str1 (t.wire ++ rest) = .ok s := by
  obtain ⟨w1, w2, w3⟩ := tlv_wire t hv t.value.length rfl
  have hk : (fieldKey t.field).num < 128 := (field_name _ hv.mem).2.2
  have := (oxm2strOne_tlv (fieldKey t.field) t.value.length t.mask.isSome d t.body rest hk hd w2 w3).1
  unfold oxm2str1
  rw [w1, List.append_assoc, if_neg, this, hdec]
  simp only [List.length_append, header_length]
  omega

theorem not_ssid_dec : ∀ f ∈ fields, f.kind ≠ .ssid → lookupDec (fieldKey f) ≠ some .ssid := by decide +kernel

theorem lossy_np (t : Tlv) (hv : t.Valid) (hk : t.field.kind ≠ .ssid) {d : Dec} {s : Str}
    (hd : lookupDec (fieldKey t.field) = some d) (hdec : decText d t.body t.mask.isSome = .ok s) : NP s := by
  have h1 := table_shown _ hv.mem
  rw [hd] at h1
  have h2 : decId d = shownName t.field := by simpa using h1.1
  exact decText_np hdec (fun h => not_ssid_dec _ hv.mem hk (h ▸ hd)) (h2 ▸ h1.2.2.2)

theorem LossyText.inside {w : Bytes} {s : Str} (h : LossyText w s) (hn : NP s) : InLine ')' s := by
  cases h with
  | name f hf => exact inside_clean (field_name _ hf).1 hn
  | item f v key k hf hv hl he =>
    exact inside_append (inside_clean (field_name _ hf).1 (fun c hc => hn c (by simp [hc])))
      (inside_cons (by decide) (by decide) (inside_clean hv (fun c hc => hn c (by simp [hc]))))

/-- `str2oxm(…, loop=False)` on such a text. -/
theorem LossyText.oxm1 {w : Bytes} {s : Str} (h : LossyText w s) (hw : ∃ x ∈ w, x ≠ 0) {r : Str}
    (hr : r = [] ∨ ∃ r', r = ',' :: r') {b : Bytes} {l : Nat} (hs : str2oxm1 (s ++ r) = .ok (b, l)) (k : Nat) :
    ¬ w <+: b ++ pad k := by
  unfold str2oxm1 str2oxmL at hs
  obtain ⟨⟨m, rest⟩, h1, h2⟩ := bind_ok hs
  simp only [Except.ok.injEq, Prod.mk.injEq] at h2
  obtain ⟨rfl, -⟩ := h2
  exact h.never.go h.ne hw (h := []) (Or.inl rfl) hr h1 _ ⟨k, rfl⟩

theorem str2actG_set_any (ox : Str → Py (Bytes × Nat))
    (run : ActEnc → Str → Bool → Py (Bytes × Nat)) (g : Bytes → Py Bytes)
    (h n fn r : Str) (hh : Head h) (hr : AtEnd r) (hc : Clean n) (hne : n ≠ []) (hlk : lookupAct n = none)
    (hst : startsWith n t!"set_" = true) (hd : n.drop 4 = fn) :
    str2actG ox run g (h ++ (n ++ r)) = (ox (fn ++ ((getToken r).1 ++ (getToken r).2.1))).bind fun x =>
      (g x.1).bind fun b => .ok (b, h.length + 4 + x.2) := by
  unfold str2actG
  rw [getToken_head hh hc.token hr hc.plainStart hne]
  dsimp only
  rw [parseFunc_bare _ hc.notOpen]
  rcases hg : getToken r with ⟨o, p, q⟩
  cases ho : ox (fn ++ (o ++ p)) with
  | error e => simp only [bind, Except.bind, hlk, hst, if_true, hd, hg, ho]
  | ok x =>
    cases ha : g x.1 with
    | error e => simp only [bind, Except.bind, hlk, hst, if_true, hd, hg, ho, ha]
    | ok b => simp only [bind, Except.bind, hlk, hst, if_true, hd, hg, ho, ha]

theorem getToken_front (r : Str) : (getToken r).1 ++ (getToken r).2.1 <+: r := by
  have := getToken_append r
  exact ⟨(getToken r).2.2, this⟩

theorem prefix_comma {a r : Str} (h : a <+: r) (hr : r = [] ∨ ∃ r', r = ',' :: r') : a = [] ∨ ∃ r', a = ',' :: r' := by
  obtain ⟨t, rfl⟩ := h
  cases a with
  | nil => exact Or.inl rfl
  | cons c a =>
    right
    rcases hr with hr | ⟨r', hr⟩
    · cases hr
    · cases hr; exact ⟨a, rfl⟩

/-- What `str2act` makes of `set_` and a text that loses its match. -/
theorem set_lossy {w : Bytes} {s : Str} (hs : LossyText w s) {h r : Str} {c : Bytes} {n : Nat}
    (hh : h = [] ∨ h = [',']) (hr : r = [] ∨ ∃ r', r = ',' :: r')
    (ha : str2act (h ++ (t!"set_" ++ s ++ r)) = .ok (c, n)) :
    ∃ r' oxm l, (r' = [] ∨ ∃ r'', r' = ',' :: r'') ∧ str2oxm1 (s ++ r') = .ok (oxm, l) ∧ setFieldAct oxm = .ok c := by
  have key : ∀ (f : Field) (q u : Str), f ∈ fields → AtEnd q → (getToken q).1 ++ (getToken q).2.1 = u →
      str2act (h ++ (t!"set_" ++ f.name ++ q)) = .ok (c, n) →
      ∃ oxm l, str2oxm1 (f.name ++ u) = .ok (oxm, l) ∧ setFieldAct oxm = .ok c := by
    intro f q u hf hq hu ha
    have := (str2act_G _).symm.trans ha
    rw [str2actG_set_any str2oxm1 runActEnc setFieldAct h (t!"set_" ++ f.name) f.name q (head_of hh) hq
      (clean_append (by decide) (field_name f hf).1) (by simp) (set_names f hf) (startsWith_append _ _) rfl, hu] at this
    cases ho : str2oxm1 (f.name ++ u) with
    | error e => rw [ho] at this; cases this
    | ok x =>
      rw [ho, Except.bind] at this
      cases hg : setFieldAct x.1 with
      | error e => rw [hg] at this; cases this
      | ok b =>
        rw [hg] at this
        simp only [Except.bind, Except.ok.injEq, Prod.mk.injEq] at this
        exact ⟨x.1, x.2, rfl, by rw [hg, this.1]⟩
  cases hs with
  | name f hf =>
    obtain ⟨oxm, l, h1, h2⟩ := key f r _ hf (atEnd_of hr) rfl ha
    exact ⟨_, oxm, l, prefix_comma (getToken_front r) hr, h1, h2⟩
  | item f v k e hf hv hl he =>
    have hg : getToken ('=' :: (v ++ r)) = (['='], v, r) := by
      by_cases hvn : v = []
      · subst hvn; exact getToken_empty r hr
      · exact getToken_eq hv.token (atEnd_of hr) hv.plainStart hvn
    obtain ⟨oxm, l, h1, h2⟩ := key f ('=' :: (v ++ r)) ('=' :: v) hf (atEnd_eq _) (by rw [hg]; rfl)
      (by rw [← ha]; simp)
    exact ⟨[], oxm, l, Or.inl rfl, by simpa using h1, h2⟩

theorem fill_pad (n : Nat) : ∃ k, fill n = pad k := ⟨_, rfl⟩

theorem lost_setField (t : Tlv) (hv : t.Valid) (hl : ¬ t.Lossless) (hk : t.field.kind ≠ .ssid) :
    ActLost (setFieldWire t.wire) := by
  obtain ⟨d, s, hd, hdec, hlt⟩ := tlv_lossy t hv hl hk
  obtain ⟨l1, l2⟩ := tlv_length t hv
  obtain ⟨m1, m2⟩ := setFieldWire_length t.wire
  have hlen : (setFieldWire t.wire).length < 65536 := by
    have := align8_facts (4 + t.wire.length)
    rw [m1, fill_length]; omega
  have hp := fun rest => setField_prints t.wire rest hlen
  refine ⟨by omega, hlen, fun rest => (hp rest).2, Or.inr ⟨t!"set_" ++ s, fun rest => ?_, by simp,
    actStart_append (by decide) (by decide) (by decide), ?_⟩⟩
  · rw [(hp rest).1, oxm2str1_dec t hv hd hdec]; rfl
  · intro h r c n hh hr ha he
    obtain ⟨r', oxm, l, hr', h1, h2⟩ := set_lossy hlt hh hr ha
    obtain ⟨h3, -⟩ := setFieldAct_wire oxm c h2
    rw [he] at h3
    unfold setFieldWire at h3
    have h4 := (List.append_inj (List.append_inj h3 rfl).2 (by simp [u16_length])).2
    obtain ⟨k, hk⟩ := fill_pad (4 + oxm.length)
    exact hlt.oxm1 (wire_nonzero t hv) hr' h1 k ⟨_, by rw [h4, hk]⟩

theorem tlv_paren (t : Tlv) (hv : t.Valid) (hl : t.Lossless) (hk : t.field.kind = .ssid) (h41 : (41 : UInt8) ∈ t.value) :
    ')' ∈ tlvValue t := by
  obtain ⟨d, hd, _, hdec, _, _, _⟩ := tlvText_spec t hv hl
  rw [ssid_dec _ hv.mem hk] at hd
  cases hd
  have hch : ∀ p : Bytes, PlainSsid p → (41 : UInt8) ∈ p → ')' ∈ b2aQp p := by
    intro p ⟨p1, p2, p3, p4⟩ hp
    rw [b2aQp_plain p p1 p2 p3]
    exact List.mem_map.2 ⟨41, hp, by decide⟩
  have hmem : ')' ∈ tlvText t → ')' ∈ tlvValue t := by
    intro h
    simp only [tlvText, List.mem_append, List.mem_cons] at h
    rcases h with h | h | h
    · exact absurd rfl (fields_np _ hv.mem _ h)
    · exact absurd h (by decide)
    · exact h
  apply hmem
  cases hm : t.mask with
  | none =>
    rw [hm] at hdec
    simp only [decText, ssidBin2str, Option.isSome_none, Bool.false_eq_true, if_false] at hdec
    injection hdec with hdec
    rw [← hdec]
    simp only [Tlv.body, hm, Option.getD_none, List.append_nil]
    exact List.mem_append_right _ (hch _ (hl.ssid hk hm) h41)
  | some m =>
    obtain ⟨p, k, hp, hpk⟩ := hl.ssidMask hk (by simp [hm])
    rw [hm] at hdec
    simp only [decText, ssidBin2str, Option.isSome_some, if_true] at hdec
    have hb : t.body = (p ++ zeros k) ++ m := by simp only [Tlv.body, hm, Option.getD_some, hpk]; rfl
    have hml := (hv.mask m hm).2
    rw [hpk] at hml
    have hml' : m.length = p.length + k := by
      rw [hml]; simp [pad_length]
    have hs' : ((p ++ zeros k) ++ m).length / 2 = (p ++ zeros k).length := by
      simp [hml']; omega
    have hnz : ∀ x ∈ p, x ≠ 0 := by
      intro x hx h
      subst h
      exact absurd (hp.1 0 hx) (by decide)
    rw [hb, hs', List.take_left, List.drop_left, stripZeros_pad p k hnz hp.2.2.2] at hdec
    simp only [bind, Except.bind] at hdec
    injection hdec with hdec
    rw [← hdec]
    have h1 : (41 : UInt8) ∈ p := by
      rw [hpk, List.mem_append] at h41
      rcases h41 with h | h
      · exact h
      · simp [pad] at h
    exact List.mem_append_right _ (List.mem_append_left _ (hch p hp h1))

theorem lost_regLoad2 (t : Tlv) (hv : t.Valid) (hk : t.field.kind = .ssid → t.Lossless)
    (hl : ¬ (t.Lossless ∧ (t.field.kind = .ssid → (41 : UInt8) ∉ t.value))) : ActLost (nxWire 33 t.wire) := by
  obtain ⟨l1, l2⟩ := tlv_length t hv
  have hfit := nxWire_fits 33 t.wire (by omega)
  by_cases hl' : t.Lossless
  · have hc : t.field.kind = .ssid ∧ (41 : UInt8) ∈ t.value := by
      by_contra hc
      exact hl ⟨hl', fun h1 h2 => hc ⟨h1, h2⟩⟩
    obtain ⟨d, hd, -, hdec, c1, c2, -⟩ := tlvText_spec t hv hl'
    obtain ⟨p, q, hpq, hnp⟩ := List.eq_append_cons_of_mem (tlv_paren t hv hl' hc.1 hc.2)
    have hlen : (nxWire 33 t.wire).length = 10 + (t.wire ++ fill (10 + t.wire.length)).length := by
      unfold nxWire; rw [nxRaw_length]
    have hd' := fun rest => nx_prints 33 (t.wire ++ fill (10 + t.wire.length)) rest .regLoad2 (by decide) (by decide)
      (by omega) (by decide)
    refine ⟨by omega, hfit, fun rest => by rw [hlen]; exact (hd' rest).2,
      Or.inr ⟨t!"reg_load2" ++ '(' :: tlvText t ++ [')'], fun rest => ?_, by simp,
        by rw [List.append_assoc]; exact actStart_append (by decide) (by decide) (by decide), ?_⟩⟩
    · refine (hd' rest).1.trans ?_
      simp only [runActDec, regLoad2Act2str]
      rw [oxm2str1_tlv t hv hl', ok_bind]
      simp
    · obtain ⟨n1, n2, -⟩ := field_name _ hv.mem
      rw [hpq] at c1
      have := misreads_paren (nxWire 33 t.wire) t!"reg_load2" (t.field.name ++ '=' :: p) q (by decide) (by decide)
        (inside_append' (clean_inside _ n1 (fields_np _ hv.mem)) (.char _ _ _ (by decide) (by decide)
          (clean_inside _ (fun c hc => c1 c (by simp [hc])) (fun c hc he => hnp (he ▸ hc)))))
        (fun c hc => c1 c (by simp [hc]))
      have e : tlvText t = t.field.name ++ '=' :: p ++ ')' :: q := by simp [tlvText, hpq]
      rw [e]
      exact this
  · have hk' : t.field.kind ≠ .ssid := fun h => hl' (hk h)
    obtain ⟨d, s, hd, hdec, hlt⟩ := tlv_lossy t hv hl' hk'
    refine nx_lost 33 t.wire t!"reg_load2" s .regLoad2 .regLoad2 (by decide) (by decide) hfit (by decide) (by decide)
      (by decide) (by decide) (hlt.inside (lossy_np t hv hk' hd hdec)) hlt.ne ?_ ?_
    · simp only [runActDec, regLoad2Act2str]
      rw [oxm2str1_dec t hv hd hdec, ok_bind]
      simp
    · intro c l hc he
      simp only [runActEnc, regLoad2Str2act] at hc
      rw [if_neg (by simp)] at hc
      obtain ⟨bin, h1, h2⟩ := nxWrap_inv hc
      obtain ⟨⟨oxm, rl⟩, h3, h1⟩ := bind_ok h1
      dsimp only at h1
      split at h1
      · cases h1
      · obtain ⟨_, _, h1⟩ := bind_ok h1
        simp only [Except.ok.injEq, Prod.mk.injEq] at h1
        obtain ⟨rfl, rfl⟩ := h1
        have h4 := nxWrap_hdr_inv (t := 33) h2
        rw [he] at h4
        have h5 := nxWire_eq h4
        obtain ⟨k, hk⟩ := fill_pad (10 + oxm.length)
        exact hlt.oxm1 (wire_nonzero t hv) (r := []) (Or.inl rfl) (by simpa using h3) k ⟨_, by rw [h5, hk]⟩

end Ofpstr
