import Verif.Lemmas.SsidActs

/-!
# `set_field` and `reg_load2` with any SSID
-/

set_option linter.unusedSimpArgs false

namespace Ofpstr
open Spec

/-- The value of an item, read without what follows it. -/
theorem value_alone {s op payload rest : Str} (hg : getToken ('=' :: s) = (op, payload, rest)) :
    getToken (op ++ payload) = (op, payload, []) := by
  obtain ⟨w, rfl, -, hw, hst, htok, -⟩ := value_token hg
  rw [getToken_iff]
  refine ⟨by simp, ?_, ?_⟩
  · have := HeadOf.eq [] w payload (by simp) hw (fun c t hc => (hst c t hc).1)
    simpa using this
  · rcases htok with h | h
    · exact Or.inl ⟨h.1, fun c t hc => by cases hc⟩
    · exact Or.inr ⟨h.1, rfl⟩

theorem value_op {s op payload rest : Str} (hg : getToken ('=' :: s) = (op, payload, rest)) : ∃ w, op = '=' :: w := by
  obtain ⟨w, h, -⟩ := value_token hg
  exact ⟨w, h⟩

theorem ssidOne_alone {s op payload rest : Str} (hg : getToken ('=' :: s) = (op, payload, rest)) :
    (∀ b l p r, str2oxmOne (t!"dot11_ssid" ++ '=' :: s) = .ok (b, l, p, r) →
      str2oxmOne (t!"dot11_ssid" ++ (op ++ payload)) = .ok (b, l, p, []) ∧ p = payload ∧ r = rest) ∧
    (∀ b l p r, str2oxmOne (t!"dot11_ssid" ++ (op ++ payload)) = .ok (b, l, p, r) →
      str2oxmOne (t!"dot11_ssid" ++ '=' :: s) = .ok (b, l, p, rest)) := by
  have h1 := getToken_clean (s := t!"dot11_ssid") (r := '=' :: s) (by decide) (by decide) (atEnd_eq _)
  obtain ⟨w, rfl⟩ := value_op hg
  have h2 := getToken_clean (s := t!"dot11_ssid") (r := '=' :: w ++ payload) (by decide) (by decide) (atEnd_eq _)
  have h3 := value_alone hg
  constructor
  · intro b l p r h
    unfold str2oxmOne at h ⊢
    rw [h1] at h
    rw [h2]
    dsimp only at h ⊢
    rw [hg] at h
    rw [h3]
    dsimp only at h ⊢
    obtain ⟨_, ha, h⟩ := bind_ok h
    rw [ha, ok_bind]
    split at h
    · cases h
    · rename_i key k he
      obtain ⟨⟨b', l'⟩, he', h⟩ := bind_ok h
      simp only [Except.ok.injEq, Prod.mk.injEq] at h
      obtain ⟨rfl, rfl, rfl, rfl⟩ := h
      rw [he', ok_bind]
      exact ⟨rfl, rfl, rfl⟩
  · intro b l p r h
    unfold str2oxmOne at h ⊢
    rw [h2] at h
    rw [h1]
    dsimp only at h ⊢
    rw [h3] at h
    rw [hg]
    dsimp only at h ⊢
    obtain ⟨_, ha, h⟩ := bind_ok h
    rw [ha, ok_bind]
    split at h
    · cases h
    · rename_i key k he
      obtain ⟨⟨b', l'⟩, he', h⟩ := bind_ok h
      simp only [Except.ok.injEq, Prod.mk.injEq] at h
      obtain ⟨rfl, rfl, rfl, rfl⟩ := h
      rw [he', ok_bind]

theorem str2oxm1_of {u v : Str} {b : Bytes} (hu : u ≠ []) (hv : v ≠ [])
    (h : str2oxmOne u = .ok (b, v.length, v, [])) : str2oxm1 u = .ok (b, u.length) := by
  have hnz : (v.length == 0) = false := by
    cases v with
    | nil => exact absurd rfl hv
    | cons c v => simp
  unfold str2oxm1 str2oxmL
  rw [str2oxmGo, if_neg (by simpa using hu), h, ok_bind]
  dsimp only
  rw [hnz, if_neg (by simp), show pyAssert (v.length == v.length) = .ok () by simp [pyAssert], ok_bind,
    if_neg (by simp), ok_bind]
  simp

theorem setFieldWire_eq {a b : Bytes} (h : setFieldWire a = setFieldWire b) :
    ∃ j k, a ++ zeros j = b ++ zeros k := by
  unfold setFieldWire at h
  have h4 := (List.append_inj (List.append_inj h rfl).2 (by simp [u16_length])).2
  obtain ⟨j, hj⟩ := fill_pad (4 + a.length)
  obtain ⟨k, hk⟩ := fill_pad (4 + b.length)
  rw [hj, hk] at h4
  exact ⟨j, k, h4⟩

/-- `set_dot11_ssid` and anything. -/
theorem ssid_set_eq {h s : Str} (hh : h = [] ∨ h = [',']) :
    str2act (h ++ (t!"set_dot11_ssid" ++ '=' :: s)) =
      (str2oxm1 (t!"dot11_ssid" ++ ((getToken ('=' :: s)).1 ++ (getToken ('=' :: s)).2.1))).bind fun x =>
        (setFieldAct x.1).bind fun b => .ok (b, h.length + 4 + x.2) :=
  (str2act_G _).trans (str2actG_set_any str2oxm1 runActEnc setFieldAct h t!"set_dot11_ssid" t!"dot11_ssid" ('=' :: s)
    (head_of hh) (atEnd_eq _) (by decide) (by decide) (by decide +kernel) (by decide) (by decide))

theorem ssid_print_shape (t : Tlv) (hv : t.Valid) (hk : t.field.kind = .ssid)
    (hz : t.mask ≠ none → ∃ x ∈ t.value, x ≠ 0) : ∃ s, tlvPrint t = t!"dot11_ssid" ++ '=' :: s := by
  rcases ssid_shape t hv hk hz with ⟨-, h, -⟩ | ⟨_, _, _, -, -, -, -, -, -, h, -⟩
  exacts [⟨_, h⟩, ⟨_, h⟩]

theorem set_back (t : Tlv) (hv : t.Valid) (hk : t.field.kind = .ssid) (hz : t.mask ≠ none → ∃ x ∈ t.value, x ≠ 0)
    {h r : Str} (hh : h = [] ∨ h = [',']) (hr : r = [] ∨ ∃ r', r = ',' :: r') {n : Nat}
    (hs : str2act (h ++ ((t!"set_" ++ tlvPrint t) ++ r)) = .ok (setFieldWire t.wire, n)) : t.Survives (r = []) := by
  obtain ⟨s, hsp⟩ := ssid_print_shape t hv hk hz
  have e : h ++ ((t!"set_" ++ tlvPrint t) ++ r) = h ++ (t!"set_dot11_ssid" ++ '=' :: (s ++ r)) := by rw [hsp]; simp
  rw [e, ssid_set_eq hh] at hs
  rcases hg : getToken ('=' :: (s ++ r)) with ⟨op, payload, rest⟩
  rw [hg] at hs
  dsimp only at hs
  obtain ⟨⟨oxm, l⟩, ho, hs⟩ := bind_ok hs
  obtain ⟨b, hb, hs⟩ := bind_ok hs
  simp only [Except.ok.injEq, Prod.mk.injEq] at hs
  obtain ⟨rfl, -⟩ := hs
  obtain ⟨j, k, hjk⟩ := setFieldWire_eq (setFieldAct_wire _ _ hb).1
  unfold str2oxm1 str2oxmL at ho
  obtain ⟨⟨m, rest'⟩, h1, h2⟩ := bind_ok ho
  simp only [Except.ok.injEq, Prod.mk.injEq] at h2
  obtain ⟨rfl, -⟩ := h2
  obtain ⟨bin, l', p, r', hone, hc⟩ := str2oxmGo_one h1 (by simp)
  rcases hc with ⟨-, rfl⟩ | ⟨hl, msg, rfl⟩
  · exfalso
    obtain ⟨x, hx, hx0⟩ := wire_nonzero t hv
    have : x ∈ zeros k := by
      rw [List.nil_append] at hjk
      rw [← hjk]; simp [hx]
    exact hx0 (List.eq_of_mem_replicate this)
  · have hone' := (ssidOne_alone hg).2 _ _ _ _ hone
    rw [List.append_assoc] at hjk
    exact tlv_back t hv (fun _ => hz) (h := []) (Or.inl rfl) hr (by rw [hsp]; simpa using hone') hl
      (zeros_head _) hjk.symm

theorem ssid_nonzero {t : Tlv} {last : Prop} (hk : t.field.kind = .ssid) (hs : t.Survives last) :
    t.mask ≠ none → ∃ x ∈ t.value, x ≠ 0 := by
  intro hm
  obtain ⟨p, k, hp, hpl, hval⟩ := hs.ssidMask hk hm
  have hne := hp.1
  refine ⟨p.getLast hne, by rw [hval]; simp, ?_⟩
  rw [List.getLast?_eq_some_getLast hne] at hpl
  simpa using hpl

theorem set_fwd (t : Tlv) (hv : t.Valid) (hk : t.field.kind = .ssid)
    {h r : Str} (hh : h = [] ∨ h = [',']) (hr : r = [] ∨ ∃ r', r = ',' :: r') (hs : t.Survives (r = [])) :
    str2act (h ++ ((t!"set_" ++ tlvPrint t) ++ r)) =
      .ok (setFieldWire t.wire, h.length + (t!"set_" ++ tlvPrint t).length) := by
  obtain ⟨s, hsp⟩ := ssid_print_shape t hv hk (ssid_nonzero hk hs)
  have e : h ++ ((t!"set_" ++ tlvPrint t) ++ r) = h ++ (t!"set_dot11_ssid" ++ '=' :: (s ++ r)) := by rw [hsp]; simp
  obtain ⟨v, hvn, hone⟩ := tlv_fwd t hv (h := []) (Or.inl rfl) hr hs
  rcases hg : getToken ('=' :: (s ++ r)) with ⟨op, payload, rest⟩
  have hone2 : str2oxmOne (t!"dot11_ssid" ++ '=' :: (s ++ r)) = .ok (t.wire, v.length, v, r) := by
    rw [← hone, hsp]; simp
  obtain ⟨h1, rfl, rfl⟩ := (ssidOne_alone hg).1 _ _ _ _ hone2
  have hop : op ++ v = '=' :: s := by
    have := ((getToken_iff _ _ _ _).1 hg).1
    rw [← List.append_assoc, ← List.cons_append] at this
    exact (List.append_cancel_right this).symm
  have h2 := str2oxm1_of (by simp) hvn h1
  rw [e, ssid_set_eq hh, hg]
  dsimp only
  rw [h2, Except.bind, setFieldAct_eq]
  dsimp only
  obtain ⟨l1, l2⟩ := tlv_length t hv
  obtain ⟨m1, m2⟩ := setFieldWire_length t.wire
  have hlen : (setFieldWire t.wire).length < 65536 := by
    have := align8_facts (4 + t.wire.length)
    rw [m1, fill_length]; omega
  rw [if_pos hlen, Except.bind, hop, hsp]
  simp only [Except.ok.injEq, Prod.mk.injEq, true_and, List.length_append, List.length_cons, List.length_nil]
  omega

theorem boxed_of {t : Tlv} {p : Bytes} {k : Nat} (hval : t.value = p ++ zeros k) (hk0 : t.mask = none → k = 0)
    (hl : t.mask ≠ none → p.getLast? ≠ some 0) (hi : Inside ')' (b2aQp p)) : t.Boxed := by
  intro _ p' k' hval' hk0' hl'
  have he : p' ++ zeros k' = p ++ zeros k := by rw [← hval]; exact hval'.symm
  by_cases hm : t.mask = none
  · rw [hk0 hm, hk0' hm] at he
    simp [zeros] at he
    rw [he]; exact hi
  · obtain ⟨i, hi'⟩ := zeros_cut he (hl hm)
    obtain ⟨j, hj⟩ := zeros_cut he.symm (hl' hm)
    have h1 := congrArg List.length hi'
    have h2 := congrArg List.length hj
    simp only [List.length_append, zeros, List.length_replicate] at h1 h2
    have : i = 0 := by omega
    rw [hi', this]
    simpa [zeros] using hi

theorem load_back (t : Tlv) (hv : t.Valid) (hk : t.field.kind = .ssid) (hz : t.mask ≠ none → ∃ x ∈ t.value, x ≠ 0)
    {h r : Str} (hh : h = [] ∨ h = [',']) {n : Nat}
    (hs : str2act (h ++ ((t!"reg_load2" ++ '(' :: tlvPrint t ++ [')']) ++ r)) = .ok (nxWire 33 t.wire, n)) :
    t.Survives False ∧ t.Boxed := by
  obtain ⟨a, y, p, hrun, han, hay, hcase⟩ := call_cases h t!"reg_load2" (tlvPrint t) r .regLoad2 (head_of hh) (by decide)
    (by decide) (by intro x; rfl) (by decide) (nxRaw_ne _ _) hs
  obtain ⟨bin, l, payload, r', msg, hone, hl, j, k, hb⟩ := load_arg han hrun
  have hfd := ssid_facts _ hv.mem hk
  rw [ssid_survives hfd]
  rcases ssid_shape t hv hk hz with ⟨hm, htx, hw, hfit⟩ | ⟨m, p, k', hm, hpn, hpl, hval, hml, hfit, htx, hw⟩
  · rw [htx] at hay
    rw [hw] at hb
    obtain ⟨h1, h2⟩ := box_back hfit hay hcase hone hl hb
    exact ⟨⟨fun _ => h1, fun h => absurd hm h⟩, boxed_of (k := 0) (by simp [zeros]) (fun _ => rfl) (fun h => absurd hm h) h2⟩
  · rw [htx] at hay
    rw [hw] at hb
    obtain ⟨h1, h2⟩ := box_back_mask hpn hpl hml hfit hay hcase hone hb
    exact ⟨⟨(fun h => by rw [hm] at h; cases h), fun _ => ⟨p, k', h1, hpl, hval⟩⟩,
      boxed_of hval (fun h => by rw [hm] at h; cases h) (fun _ => hpl) h2⟩

theorem load_fwd (t : Tlv) (hv : t.Valid) (hk : t.field.kind = .ssid) (hs : t.Survives False) (hbx : t.Boxed)
    {h r : Str} (hh : h = [] ∨ h = [',']) (hr : AtEnd r) :
    str2act (h ++ ((t!"reg_load2" ++ '(' :: tlvPrint t ++ [')']) ++ r)) =
      .ok (nxWire 33 t.wire, h.length + (t!"reg_load2" ++ '(' :: tlvPrint t ++ [')']).length) := by
  have hz := ssid_nonzero hk hs
  obtain ⟨s, hsp⟩ := ssid_print_shape t hv hk hz
  have hin : Inside ')' (tlvPrint t) := by
    have hname : ∀ {s}, Inside ')' s → Inside ')' (t!"dot11_ssid" ++ '=' :: s) := fun hs =>
      inside_append' (clean_inside _ (by decide) (by decide)) (.char _ _ _ (by decide) (by decide) hs)
    rcases ssid_shape t hv hk hz with ⟨hm, htx, hw, hfit⟩ | ⟨m, p, k', hm, hpn, hpl, hval, hml, hfit, htx, hw⟩
    · rw [htx]
      exact hname (hbx hk t.value 0 (by simp [pad]) (fun _ => rfl) (fun h => absurd hm h))
    · rw [htx]
      have h1 := hbx hk p k' hval (fun h => by rw [hm] at h; cases h) (fun _ => hpl)
      exact hname (inside_append' h1 (clean_inside _ (hex_tail m).1 fun c hc => ((hex_tail m).2 c hc).2.1))
  have hsv : t.Survives (([] : Str) = []) := by
    rw [ssid_survives (ssid_facts _ hv.mem hk)] at hs ⊢
    have hmono : ∀ p, SsidText False p → SsidText (([] : Str) = []) p := by
      rintro p ⟨h1, h2, h3, h4⟩
      exact ⟨h1, h2, h3, h4.imp id (fun h => h.1.elim)⟩
    refine ⟨fun h => hmono _ (hs.1 h), fun h => ?_⟩
    obtain ⟨p, k, h1, h2⟩ := hs.2 h
    exact ⟨p, k, hmono _ h1, h2⟩
  obtain ⟨v, hvn, hone⟩ := tlv_fwd t hv (h := []) (r := []) (Or.inl rfl) (Or.inl rfl) hsv
  rw [List.nil_append, List.append_nil] at hone
  have hne : tlvPrint t ≠ [] := by rw [hsp]; simp
  obtain ⟨l1, l2⟩ := tlv_length t hv
  rw [str2act_call h t!"reg_load2" (tlvPrint t) r .regLoad2 (head_of hh) (by decide) (by decide) hin hne hr (by decide)]
  simp only [runActEnc, regLoad2Str2act]
  rw [if_neg (by simp), str2oxm1_of hne hvn hone, ok_bind]
  dsimp only
  rw [if_neg (by simpa using hne), needBytes_ok _ 0 4 (by omega), ok_bind]
  rw [show nxWrap (.ok (nxastHdr NXAST_REG_LOAD2 ++ t.wire, (tlvPrint t).length)) = .ok (nxWire 33 t.wire, (tlvPrint t).length) from
    nxWrap_fit (nxWire_fits 33 t.wire (by omega)) rfl]
  rfl

end Ofpstr
