import Verif.Lemmas.RuleText
import Verif.Lemmas.ActQpList
import Verif.Props.Value

/-!
# Match items that are dropped

An item with an empty value is skipped in a flow rule.  A match whose text is skipped cannot come from what
follows.
-/

set_option linter.unusedSimpArgs false

namespace Ofpstr
open Spec

theorem numeral_ne {b n : Nat} {s : Str} (h : Numeral b s n) : s ≠ [] := by cases h <;> simp

theorem quad_ne {s : Str} {b : Bytes} (h : DottedQuad s b) : s ≠ [] := by cases h; simp

/-- Only byte strings can be empty. -/
theorem valueText_empty (k : Kind) (p : Bytes) (m : Option Bytes) (h : ValueText k [] p m)
    (hk : ∀ n, k ≠ .parts [n]) : k = .bytes ∨ k = .ssid := by
  have hi : ∀ v, ¬ WholeInt [] v := fun v hv => (intSyntax_clean hv).2.1 rfl
  have masked : ∀ {P Q : Str → Bytes → Prop}, (∀ p, ¬ P [] p) → ¬ Masked P Q [] p m := by
    intro P Q hP hm
    generalize hs : ([] : Str) = s at hm
    cases hm with
    | plain _ _ h => subst hs; exact hP _ h
    | mask a b _ _ h1 h2 => simp at hs
  have hcn : ∀ n, ¬ CNum [] n := by intro n h; cases h
  have hq : ∀ ws, ¬ QuadGroups [] ws := by
    intro ws h
    generalize hs : ([] : Str) = s at h
    cases h with
    | one _ _ h => subst hs; exact numeral_ne h rfl
    | quad _ a b c d h => subst hs; exact quad_ne h rfl
    | cons _ _ _ _ h => simp at hs
  cases k with
  | uint n => exact absurd h (masked (by rintro p ⟨v, hv, _⟩; exact hi v hv))
  | port n =>
    exfalso
    obtain ⟨h, -⟩ := h
    cases h with
    | name k s h =>
      have : ∀ e ∈ reservedPorts ++ reservedPortsUpper, e.2 ≠ [] := by decide
      exact this _ h rfl
    | num s v h => exact hi v h
  | mac =>
    refine absurd h (masked ?_)
    intro p h
    generalize hs : ([] : Str) = s at h
    cases h with
    | bare g b h hl => subst hs; cases h; simp at hl
    | groups g1 g2 g3 c d b h => simp at hs
    | pairs => simp at hs
  | ipv4 =>
    refine absurd h (masked ?_)
    intro p h
    generalize hs : ([] : Str) = s at h
    cases h with
    | last _ _ n h => subst hs; exact hcn _ h
    | part _ sa a s b h => simp at hs
  | ipv6 =>
    refine absurd h (masked ?_)
    rintro p ⟨ws, h, -⟩
    generalize hs : ([] : Str) = s at h
    cases h with
    | full _ _ h => subst hs; exact hq _ h
    | short => simp at hs
  | packetType =>
    exfalso
    obtain ⟨h, -⟩ := h
    generalize hs : ([] : Str) = s at h
    cases h
    simp at hs
  | bytes => exact Or.inl rfl
  | ssid => exact Or.inr rfl
  | le n => exact absurd h.1 (by rintro ⟨v, hv, _⟩; exact hi v hv)
  | rate =>
    exfalso
    obtain ⟨h, -⟩ := h
    generalize hs : ([] : Str) = s at h
    cases h <;> simp at hs
  | channel =>
    refine absurd h (masked ?_)
    intro p h
    generalize hs : ([] : Str) = s at h
    cases h
    simp at hs
  | parts sizes =>
    refine absurd h (masked ?_)
    intro p h
    generalize hs : ([] : Str) = s at h
    cases h with
    | one n => exact hk n rfl
    | cons => simp at hs
  | vht =>
    refine absurd h (masked ?_)
    rintro p ⟨-, h⟩
    generalize hs : ([] : Str) = s at h
    cases h with
    | mk s t1 t2 t3 h v1 v2 v3 b us hc hd he =>
      rw [← hs] at he
      simp [joinStr] at he
  | signed => exact absurd h.1 (by rintro ⟨v, hv, _⟩; exact hi v hv)

theorem field_parts : ∀ f ∈ fields, (match f.textKind with | .parts [_] => false | _ => true) = true := by decide +kernel

theorem field_textKind : ∀ f ∈ fields, f.textKind = .bytes ∨ f.textKind = .ssid → f.textKind = f.kind := by decide +kernel

/-- Only items of byte strings are skipped. -/
theorem matchItem_empty {u r : Str} {t : Tlv} (h : MatchItem u [] t r) : t.field.kind = .bytes ∨ t.field.kind = .ssid := by
  obtain ⟨_, _, _, _, _, _, _, hf, hv⟩ := h
  have := valueText_empty _ _ _ hv (by
    intro n hn
    have := field_parts _ hf
    rw [hn] at this
    cases this)
  rwa [field_textKind _ hf this] at this

/-- Byte strings are told apart by class and number. -/
theorem bytes_field : ∀ f ∈ fields, ∀ g ∈ fields, g.kind = .bytes ∨ g.kind = .ssid → f.cls = g.cls → f.num = g.num → f = g := by
  decide +kernel

theorem field_short : ∀ f ∈ fields, f.cls < 65536 ∧ f.num < 128 := by decide +kernel

theorem fieldHeader_inj {f g : Field} (hf : f ∈ fields) (hg : g ∈ fields) (hk : g.kind = .bytes ∨ g.kind = .ssid) {m m' : Bool}
    {n n' : Nat} {x y : Bytes} (hn : n + (if f.experimenter then 4 else 0) < 256) (hn' : n' + (if g.experimenter then 4 else 0) < 256)
    (h : f.header m n ++ x = g.header m' n' ++ y) : f = g ∧ m = m' ∧ n = n' ∧ x = y := by
  obtain ⟨a1, a2⟩ := field_short f hf
  obtain ⟨b1, b2⟩ := field_short g hg
  unfold Field.header at h
  simp only [List.append_assoc] at h
  obtain ⟨h1, h⟩ := List.append_inj h (by simp [u16_length])
  obtain ⟨h2, h⟩ := List.append_inj h (by simp [u8_length])
  obtain ⟨h3, h⟩ := List.append_inj h (by simp [u8_length])
  have e1 := be_inj (k := 2) (by simpa using a1) (by simpa using b1) h1
  have e2 := be_inj (k := 1) (by split <;> omega) (by split <;> omega) h2
  have e3 := be_inj (k := 1) (by simpa using hn) (by simpa using hn') h3
  have em : m = m' ∧ f.num = g.num := by
    cases m <;> cases m' <;> simp at e2 ⊢ <;> omega
  have hfg := bytes_field f hf g hg hk e1 em.2
  subst hfg
  exact ⟨rfl, em.1, by omega, List.append_cancel_left h⟩

theorem extra_exp : ∀ f ∈ fields, f.extra = if f.experimenter then 4 else 0 := by decide +kernel

/-- An item that is read as the bytes of a match of a byte string is an item of its field. -/
theorem item_same (t : Tlv) (hv : t.Valid) (hk : t.field.kind = .bytes ∨ t.field.kind = .ssid) {u : Str} {b msg x : Bytes} {n : Nat}
    (h : str2oxm1 u = .ok (b, n)) (hb : b ≠ []) (he : b ++ msg = t.wire ++ x) :
    ∃ v t' r, MatchItem u v t' r ∧ v ≠ [] ∧ t'.field = t.field ∧ t'.mask.isSome = t.mask.isSome ∧
      min t'.body.length (255 - t'.field.extra) = t.body.length ∧ t'.body ++ msg = t.body ++ x := by
  rcases (str2oxm1_matchItem _ _ _).1 h with ⟨_, rfl, _⟩ | ⟨_, _, _, rfl, _⟩ | ⟨v, t', r, hi, hvn, rfl, -⟩
  · exact absurd rfl hb
  · exact absurd rfl hb
  · obtain ⟨_, _, _, _, _, _, _, hf, _⟩ := id hi
    unfold Tlv.cut Tlv.wire at he
    rw [List.append_assoc, List.append_assoc] at he
    have hex := extra_exp _ hf
    obtain ⟨h1, h2, h3, h4⟩ := fieldHeader_inj hf hv.mem hk (by rw [← hex]; have : t'.field.extra ≤ 4 := (by rw [hex]; split <;> omega); omega) hv.fits he
    exact ⟨v, t', r, hi, hvn, h1, h2, h3, h4⟩

/-- No item is read as an empty byte string. -/
theorem read_empty (t : Tlv) (hv : t.Valid) (hk : t.field.kind = .bytes ∨ t.field.kind = .ssid) (hm : t.mask = none)
    (hval : t.value = []) {u : Str} {b msg x : Bytes} {n : Nat} (h : str2oxm1 u = .ok (b, n)) (hb : b ≠ []) :
    b ++ msg ≠ t.wire ++ x := by
  intro he
  obtain ⟨v, t', r, ⟨_, op, r1, -, htok, -, -, hf, hvt⟩, hvn, h1, h2, h3, -⟩ := item_same t hv hk h hb he
  have hex : t'.field.extra ≤ 4 := by rw [extra_exp _ hf]; split <;> omega
  have hb0 : t.body = [] := by simp [Tlv.body, hm, hval]
  have hb' : t'.body = [] := by
    rw [hb0, List.length_nil] at h3
    exact List.length_eq_zero_iff.1 (by omega)
  have hm' : t'.mask = none := by
    rw [hm] at h2
    cases hc : t'.mask with
    | none => rfl
    | some m => rw [hc] at h2; cases h2
  have hv' : t'.value = [] := by simpa [Tlv.body, hm'] using hb'
  have hkk : t'.field.textKind = .bytes ∨ t'.field.textKind = .ssid := by
    rw [h1]
    have key : ∀ f ∈ fields, f.kind = .bytes ∨ f.kind = .ssid → f.textKind = f.kind := by decide +kernel
    rw [key _ hv.mem hk]; exact hk
  have hst : ∀ c s, v = c :: s → c ≠ '=' := fun c s hc =>
    (token_start (htok.2.2.elim (fun h => Or.inl h.1) (fun h => Or.inr h.1)) c s hc).1
  obtain ⟨tf, tv, tm⟩ := t'
  dsimp only at *
  rcases hkk with hkk | hkk
  · rw [hkk] at hvt
    cases hvt with
    | plain _ _ h => subst hv'; cases h; exact hvn rfl
    | mask => cases hm'
  · rw [hkk] at hvt
    cases hvt with
    | mask => cases hm'
    | plain _ _ h =>
      subst hv'
      obtain ⟨-, -, h⟩ := h
      cases v with
      | nil => exact hvn rfl
      | cons c s =>
        have := hst c s rfl
        cases h <;> exact this rfl

/-- No item is read as an SSID that starts with a blank or a comma. -/
theorem read_blank (t : Tlv) (hv : t.Valid) (hk : t.field.kind = .ssid) {y : UInt8} {p : Bytes} (hval : t.value = y :: p)
    (hy : y.toNat ∈ [9, 10, 13, 32, 44]) {u : Str} {b msg x : Bytes} {n : Nat} (h : str2oxm1 u = .ok (b, n)) (hb : b ≠ []) :
    b ++ msg ≠ t.wire ++ x := by
  intro he
  obtain ⟨v, t', r, ⟨_, op, r1, -, htok, -, -, hf, hvt⟩, hvn, h1, h2, h3, h4⟩ := item_same t hv (Or.inr hk) h hb he
  have hkk : t'.field.textKind = .ssid := by
    rw [h1]
    have key : ∀ f ∈ fields, f.kind = .ssid → f.textKind = .ssid := by decide +kernel
    exact key _ hv.mem hk
  have hst : ∀ c s, v = c :: s → c ≠ '=' ∧ ¬ SepChar c := fun c s hc =>
    token_start (htok.2.2.elim (fun h => Or.inl h.1) (fun h => Or.inr h.1)) c s hc
  have hbody : ∃ q, t.body = y :: q := by
    unfold Tlv.body
    rw [hval]
    cases t.mask <;> exact ⟨_, rfl⟩
  obtain ⟨q, hq⟩ := hbody
  rw [hq] at h3 h4
  have hbyte : ∀ c : Char, c.toNat < 128 → ¬ SepChar c → UInt8.ofNat c.toNat ≠ y := by
    intro c hc hs hcy
    have : c.toNat = y.toNat := by
      rw [← hcy, UInt8.toNat_ofNat', Nat.mod_eq_of_lt (by omega)]
    rw [← this] at hy
    have ho : c = Char.ofNat c.toNat := by simp
    simp only [List.mem_cons, List.not_mem_nil, or_false] at hy
    apply hs
    rcases hy with h | h | h | h | h <;> rw [h] at ho <;> rw [ho] <;> decide
  have first : ∀ (a : Str) (d z : Bytes), (∀ c s, a = c :: s → c ≠ '=' ∧ ¬ SepChar c) → (∀ c ∈ a, c.toNat < 128) → QpMeans a d →
      a ≠ [] → t'.body = d ++ z → False := by
    intro a d z ha hasc hd hne hbd
    cases a with
    | nil => exact hne rfl
    | cons c s =>
      obtain ⟨hc1, hc2⟩ := ha c s rfl
      cases hd with
      | char _ _ b _ hb2 =>
        rw [hbd] at h4
        simp only [List.cons_append, List.cons.injEq] at h4
        exact hbyte c (hasc c (by simp)) hc2 h4.1
      | _ => exact hc1 rfl
  obtain ⟨tf, tv, tm⟩ := t'
  dsimp only at *
  rw [hkk] at hvt
  cases hvt with
  | plain _ _ h =>
    exact first v tv [] hst h.2.1 h.2.2 hvn (by simp [Tlv.body])
  | mask a b' d m' ha hb' =>
    cases a with
    | cons c s =>
      refine first (c :: s) d (pad (m'.length - d.length) ++ (m' ++ pad (d.length - m'.length))) ?_ ha.2.1 ha.2.2 (by simp) (by simp [Tlv.body])
      intro c' s' hc'
      cases hc'
      exact hst c (s ++ '/' :: b') rfl
    | nil =>
      have hd : d = [] := by
        have := ha.2.2
        generalize hs : ([] : Str) = a at this
        cases this <;> first | rfl | cases hs
      subst hd
      cases m' with
      | nil =>
        simp [Tlv.body, pad] at h3
      | cons k m' =>
        simp [Tlv.body, pad, List.replicate_succ] at h4
        rw [← h4.1] at hy
        revert hy; decide

/-- The first token of `name` and of `name=value` is the name. -/
theorem name_tok {f : Field} (hf : f ∈ fields) {h z : Str} (hh : h = [] ∨ h = [',']) (hz : AtEnd z) :
    Tok (h ++ (f.name ++ z)) h f.name z := by
  have hhd : Head h := by rcases hh with rfl | rfl; exacts [head_nil, head_comma]
  obtain ⟨hc, hn, -⟩ := field_name _ hf
  exact (getToken_iff _ _ _ _).1 (getToken_head hhd hc.token hz hc.plainStart hn)

/-- What is printed is the name of a field, or starts with it and `=`. -/
theorem tlv_form (t : Tlv) (hv : t.Valid) (hz : t.field.kind = .ssid → t.mask ≠ none → ∃ x ∈ t.value, x ≠ 0) :
    ∃ f ∈ fields, ∃ z, tlvPrint t = f.name ++ z ∧ (z = [] ∨ ∃ v, z = '=' :: v) := by
  by_cases hk : t.field.kind = .ssid
  · refine ⟨t.field, hv.mem, ?_⟩
    have hfd := ssid_facts _ hv.mem hk
    have hn : t.field.name = t!"dot11_ssid" := by rw [hfd]
    rcases ssid_shape t hv hk (hz hk) with ⟨hm, htx, -, -⟩ | ⟨m, p, k, hm, -, -, -, -, -, htx, -⟩ <;> rw [htx, ← hn] <;>
      exact ⟨_, rfl, Or.inr ⟨_, rfl⟩⟩
  · by_cases hl : t.Lossless
    · obtain ⟨d, h1, h2, h3, -⟩ := tlvText_spec t hv hl
      exact ⟨t.field, hv.mem, _, by rw [tlvPrint_eq t h1 h3, tlvText], Or.inr ⟨_, rfl⟩⟩
    · obtain ⟨d, s, g1, g2, g3⟩ := tlv_lossy t hv hl hk
      rw [tlvPrint_eq t g1 g2]
      cases g3 with
      | name f hf => exact ⟨f, hf, [], by simp, Or.inl rfl⟩
      | item f v key k hf hc hl he => exact ⟨f, hf, _, rfl, Or.inr ⟨_, rfl⟩⟩

theorem form_atEnd {z r : Str} (hz : z = [] ∨ ∃ v, z = '=' :: v) (hr : r = [] ∨ ∃ r', r = ',' :: r') : AtEnd (z ++ r) := by
  rcases hz with rfl | ⟨v, rfl⟩
  · exact atEnd_of hr
  · exact atEnd_eq _

/-- What is printed starts with the name of a field. -/
theorem tlv_starts (t : Tlv) (hv : t.Valid) (hz : t.field.kind = .ssid → t.mask ≠ none → ∃ x ∈ t.value, x ≠ 0)
    {h r : Str} (hh : h = [] ∨ h = [',']) (hr : r = [] ∨ ∃ r', r = ',' :: r') :
    ∃ f ∈ fields, ∃ z, Tok (h ++ (tlvPrint t ++ r)) h f.name z := by
  obtain ⟨f, hf, z, h1, h2⟩ := tlv_form t hv hz
  rw [h1, List.append_assoc]
  exact ⟨f, hf, _, name_tok hf hh (form_atEnd h2 hr)⟩

/-- What is printed of a lossy match other than an empty byte string is not read as an empty one. -/
theorem lossy_form (t : Tlv) (hv : t.Valid) (hl : ¬ t.Lossless) (hs : t.field.kind ≠ .ssid)
    (hb : ¬ (t.field.kind = .bytes ∧ t.mask = none ∧ t.value = [])) :
    ∃ f ∈ fields, f.kind ≠ .bytes ∧ f.kind ≠ .ssid ∧ ∃ z, tlvPrint t = f.name ++ z ∧ (z = [] ∨ ∃ v, z = '=' :: v) := by
  have hreg : ∀ f ∈ fields, f.name ∈ lossyNames → f.kind ≠ .bytes := by decide +kernel
  rcases lossy_cases t hl hs with hn | ⟨hn, h | ⟨hk, hz⟩⟩
  · rcases lossy_regs _ hv.mem hn with h | h | h
    · refine ⟨t.field, hv.mem, hreg _ hv.mem hn, hs, [], ?_, Or.inl rfl⟩
      rw [tlvPrint_eq t h (s := t.field.name) (by cases t.mask <;> simp [decText, uintBin2str, fmtField])]
      simp
    · obtain ⟨v, h1, h2⟩ := uintBin2str_text ⟨t!"nxm_icmp_type", some .dec, some .dec⟩ _ _ rfl rfl t.body
        t.mask.isSome
      refine ⟨⟨t!"nxm_icmp_type", 0, 13, .uint 1, true⟩, by decide +kernel, by decide, by decide, '=' :: v, ?_, Or.inr ⟨_, rfl⟩⟩
      exact tlvPrint_eq t (d := .uint ⟨t!"nxm_icmp_type", some .dec, some .dec⟩) (by rw [h]; decide +kernel) h1
    · obtain ⟨v, h1, h2⟩ := uintBin2str_text ⟨t!"nxm_ct_label", some (.hex 0), some (.hex 0)⟩ _ _ rfl rfl t.body
        t.mask.isSome
      refine ⟨⟨t!"nxm_ct_label", 1, 108, .uint 16, true⟩, by decide +kernel, by decide, by decide, '=' :: v, ?_, Or.inr ⟨_, rfl⟩⟩
      exact tlvPrint_eq t (d := .uint ⟨t!"nxm_ct_label", some (.hex 0), some (.hex 0)⟩) (by rw [h]; decide +kernel) h1
  · exact absurd h hb
  · have hdec := table_dec _ hv.mem hn
    unfold linkedDec at hdec
    cases hd : lookupDec (fieldKey t.field) with
    | none => simp [hd] at hdec
    | some d =>
      rw [hd] at hdec
      cases d <;> simp [decFits, hk] at hdec
      have hlen : t.value.length = 12 := hv.size 12 (by rw [hk]; rfl)
      obtain ⟨v, h1, -, -⟩ := vht_lossy (fieldKey t.field) t.value t.mask hlen
        (fun m hm => by rw [(hv.mask m hm).2, hlen])
      have hb : t.body = t.value ++ t.mask.getD [] := by
        unfold Tlv.body; cases t.mask <;> simp
      exact ⟨t.field, hv.mem, by rw [hk]; decide, hs, _, tlvPrint_eq t hd (by rw [hb, hdec]; exact h1), Or.inr ⟨_, rfl⟩⟩

/-- If the value of a printed match is read as an empty one, the text goes on with `=` or the match is
none that can be read. -/
theorem tlv_dropped (t : Tlv) (hv : t.Valid) (hz : t.field.kind = .ssid → t.mask ≠ none → ∃ x ∈ t.value, x ≠ 0)
    {r r' : Str} (hr : r = [] ∨ ∃ r', r = ',' :: r') {t' : Tlv} (hi : MatchItem (tlvPrint t ++ r) [] t' r') :
    (∃ q, r' = '=' :: q) ∨ ∀ u b n msg x, str2oxm1 u = .ok (b, n) → b ≠ [] → b ++ msg ≠ t.wire ++ x := by
  have hhn : ([] : Str) = [] ∨ ([] : Str) = [','] := Or.inl rfl
  by_cases hk : t.field.kind = .ssid
  · have hfd := ssid_facts _ hv.mem hk
    have hn : t.field.name = t!"dot11_ssid" := by rw [hfd]
    -- the value as printed
    obtain ⟨p, z0, htx, hpv, hp0⟩ : ∃ p z0, tlvPrint t = t.field.name ++ '=' :: (b2aQp p ++ z0) ∧
        (p = [] → t.value = [] ∧ t.mask = none ∧ z0 = []) ∧ ∀ y p', p = y :: p' → ∃ q, t.value = y :: q := by
      rw [hn]
      rcases ssid_shape t hv hk (hz hk) with ⟨hm, htx, -, -⟩ | ⟨m, p, k, hm, hpn, -, hval, -, -, htx, -⟩
      · exact ⟨t.value, [], by rw [htx]; simp, fun h => ⟨h, hm, rfl⟩, fun y p' h => ⟨p', h⟩⟩
      · refine ⟨p, '/' :: b2aHex m, htx, fun h => absurd h hpn, fun y p' h => ⟨p' ++ zeros k, by rw [hval, h]; rfl⟩⟩
    by_cases hpe : p = []
    · right
      intro u b n msg x h hb
      exact read_empty t hv (Or.inr hk) (hpv hpe).2.1 (hpv hpe).1 h hb
    have hqt := b2aQp_text p
    obtain ⟨c, s, hcs⟩ : ∃ c s, b2aQp p = c :: s := by
      cases hc : b2aQp p with
      | nil =>
        have := hqt.empty.1 hc
        exact absurd ((nlAs_nil _ _).1 this) hpe
      | cons c s => exact ⟨c, s, rfl⟩
    obtain ⟨h0, op, r1, htok, hop, hne, heq, hf, hvt⟩ := hi
    rw [htx, List.append_assoc] at htok
    obtain ⟨rfl, h2, rfl⟩ := tok_unique (name_tok hv.mem (h := []) hhn (atEnd_eq _)) htok
    have hg := (getToken_iff _ _ _ _).2 hop
    rw [hcs] at hg
    obtain ⟨w, -, hw, hsp, -, hbd, -⟩ := value_token hg
    -- the first character
    have hc : c = '=' ∧ w = [] ∨ (SepChar c ∨ Space c) := by
      cases w with
      | nil =>
        simp only [List.nil_append, List.cons_append] at hw
        rcases hbd with ⟨-, hb⟩ | ⟨ho, -⟩
        · rcases hb c _ hw.symm with h | h
          · exact Or.inr (Or.inl h)
          · exact Or.inl ⟨h, rfl⟩
        · cases ho
      | cons d w =>
        right
        have hcd : c = d := (List.cons.inj (show c :: ((s ++ z0) ++ r) = d :: (w ++ ([] ++ r')) from hw)).1
        rw [hcd]
        exact Or.inr (hsp d (by simp))
    rcases hc with ⟨rfl, rfl⟩ | hc
    · left
      exact ⟨_, hw.symm⟩
    · right
      rw [hcs] at hqt
      generalize hnl : nlAs (qpCrlf p) p = nb at hqt
      cases hqt with
      | raw _ _ _ b hraw _ =>
        obtain ⟨y, p', hp', hy⟩ := nlAs_head _ _ _ _ hnl
        obtain ⟨q, hq⟩ := hp0 y p' hp'
        intro u b n msg x h hb
        refine read_blank t hv hk hq ?_ h hb
        rcases hy with rfl | ⟨-, hy⟩
        · rcases hraw with rfl | rfl | rfl | ⟨h1, h2, -⟩
          · decide
          · decide
          · decide
          · have ho : c = Char.ofNat c.toNat := by simp
            have key : ∀ n : Fin 127, 32 ≤ n.1 → (SepChar (Char.ofNat n.1) ∨ Space (Char.ofNat n.1)) → (UInt8.ofNat n.1).toNat ∈ [9, 10, 13, 32, 44] := by
              decide
            exact key ⟨c.toNat, by omega⟩ h1 (by simpa using hc)
        · simp only [List.mem_cons, List.not_mem_nil, or_false] at hy ⊢
          omega
      | quoted => exact absurd hc (by decide)
  · by_cases hl : t.Lossless
    · exfalso
      obtain ⟨v, hvn, h1⟩ := tlv_fwd t hv hhn hr ((survives_plain hk).2 hl)
      have h2 := (str2oxmOne_exact _ _ _ _).2 ⟨t', hi, rfl⟩
      rw [List.nil_append, h2] at h1
      simp only [Except.ok.injEq, Prod.mk.injEq, List.length_nil] at h1
      exact hvn h1.2.2.1.symm
    · by_cases hb : t.field.kind = .bytes ∧ t.mask = none ∧ t.value = []
      · right
        intro u b n msg x h hbn
        exact read_empty t hv (Or.inl hb.1) hb.2.1 hb.2.2 h hbn
      · exfalso
        obtain ⟨f, hf, hf1, hf2, z, h1, h2⟩ := lossy_form t hv hl hk hb
        obtain ⟨h0, op, r1, htok, hop, hne, heq, hf', hvt⟩ := id hi
        rw [h1, List.append_assoc] at htok
        obtain ⟨-, h3, -⟩ := tok_unique (name_tok hf (h := []) hhn (form_atEnd h2 hr)) htok
        have := name_unique _ hf _ hf' h3
        subst this
        exact (matchItem_empty hi).elim hf1 hf2

end Ofpstr
