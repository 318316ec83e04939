import Verif.Lemmas.ValueExact

/-!
# C68: exactly which texts are matches, and which bytes they mean
-/

namespace Ofpstr
open Spec

/-- C68: a text is parsed as a match if and only if it is a sequence of items `name=value` with names of
the list and values in the notation of the field, up to the end or the first item with an empty value; the
result is the bytes of these matches and the length of the text read.  Every other text is refused. -/
theorem C68_match (u : Str) (b : Bytes) (n : Nat) : str2oxm u = .ok (b, n) ↔
    ∃ ts rest, MatchText u ts rest ∧ b = ts.flatMap Tlv.cut ∧ n = u.length - rest.length :=
  str2oxm_matchText u b n

/-- C68 for the form that reads one item (as for `set_`). -/
theorem C68_one (u : Str) (b : Bytes) (n : Nat) : str2oxm1 u = .ok (b, n) ↔
    (u = [] ∧ b = [] ∧ n = 0) ∨ (∃ t r, MatchItem u [] t r ∧ b = [] ∧ n = u.length - r.length) ∨
    ∃ v t r, MatchItem u v t r ∧ v ≠ [] ∧ b = t.cut ∧ n = u.length - r.length :=
  str2oxm1_matchItem u b n

/-- C68 for one field: which values a field takes. -/
theorem C68_value (f : Field) (hf : f ∈ fields) (v : Str) (hv : Tok v [] v []) (hne : v ≠ []) (b : Bytes) (n : Nat) :
    str2oxm (f.name ++ '=' :: v) = .ok (b, n) ↔
    ∃ p m, ValueText f.textKind v p m ∧ b = (⟨f, p, m⟩ : Tlv).cut ∧ n = (f.name ++ '=' :: v).length := by
  obtain ⟨n1, n2, _⟩ := field_name f hf
  have g1 : getToken (f.name ++ '=' :: v) = ([], f.name, '=' :: v) := getToken_plain n1.token (atEnd_eq v) n1.plainStart n2
  have g2 : getToken ('=' :: v) = (['='], v, []) :=
    getToken_again v [] v [] ((getToken_iff _ _ _ _).2 hv) ['='] (Or.inr ⟨[], [], rfl, by simp, by simp⟩) hne
  have item : ∀ v' t r, MatchItem (f.name ++ '=' :: v) v' t r → v' = v ∧ t.field = f ∧ r = [] ∧
      ValueText f.textKind v t.value t.mask := by
    rintro v' t r ⟨h, op, r1, h1, h2, _, _, h5, h6⟩
    have h1 := (getToken_iff _ _ _ _).2 h1
    rw [g1] at h1
    simp only [Prod.mk.injEq] at h1
    obtain ⟨_, hn, rfl⟩ := h1
    have h2 := (getToken_iff _ _ _ _).2 h2
    rw [g2] at h2
    simp only [Prod.mk.injEq] at h2
    obtain ⟨_, rfl, rfl⟩ := h2
    have hfe := name_unique _ h5 _ hf hn.symm
    exact ⟨rfl, hfe, rfl, hfe ▸ h6⟩
  rw [C68_match]
  constructor
  · rintro ⟨ts, rest, h, rfl, rfl⟩
    generalize hu : f.name ++ '=' :: v = u at *
    cases h with
    | done => simp at hu
    | stop _ t _ h => exact absurd (item _ _ _ h).1 hne.symm
    | item _ v' t r ts _ h hv' h2 =>
      obtain ⟨rfl, h3, rfl, h4⟩ := item _ _ _ h
      cases h2 with
      | done =>
        obtain ⟨tf, tv, tm⟩ := t
        dsimp only at h3 h4
        subst h3
        exact ⟨tv, tm, h4, by simp, by simp⟩
      | stop _ _ _ h => exact absurd rfl (matchItem_ne h)
      | item _ _ _ _ _ _ h => exact absurd rfl (matchItem_ne h)
  · rintro ⟨p, m, h, rfl, rfl⟩
    refine ⟨[⟨f, p, m⟩], [], .item _ v _ [] _ _ ⟨[], ['='], '=' :: v, (getToken_iff _ _ _ _).1 g1,
      (getToken_iff _ _ _ _).1 g2, by simp, by simp, hf, h⟩ hne .done, by simp, by simp⟩

/-! ## cases -/

/-- A match text with a mask, an address as C writes it, and an item with an empty value, where reading
stops. -/
example : ∃ ts rest, MatchText t!"eth_dst=0011x2233-4455/ffffffff0000, ipv4_src=0x1.02 dot11_ssid=,eth_type=1" ts rest ∧
    ts.flatMap Tlv.cut = [128, 0, 7, 12, 0, 17, 34, 51, 68, 85, 255, 255, 255, 255, 0, 0, 128, 0, 22, 4, 1, 0, 0, 2] := by
  obtain ⟨ts, rest, h1, h2, _⟩ := (C68_match t!"eth_dst=0011x2233-4455/ffffffff0000, ipv4_src=0x1.02 dot11_ssid=,eth_type=1"
    [128, 0, 7, 12, 0, 17, 34, 51, 68, 85, 255, 255, 255, 255, 0, 0, 128, 0, 22, 4, 1, 0, 0, 2] 64).1 (by decide +kernel)
  exact ⟨ts, rest, h1, h2.symm⟩

/-- Addresses need not have four parts; the prefix length 128 is a mask, in any notation of `int`. -/
example : Aton 4 t!"1.2" [1, 0, 0, 2] :=
  .part 3 t!"1" 1 t!"2" [0, 0, 2] (.dec '1' [] 1 (by decide) (.one '1' 1 ((digit_iff 10 (by omega) _ _).2 ⟨by decide, by omega⟩))) (by omega)
    (.last 2 t!"2" 2 (.dec '2' [] 2 (by decide) (.one '2' 2 ((digit_iff 10 (by omega) _ _).2 ⟨by decide, by omega⟩))) (by omega))

example : str2oxm t!"ipv6_src=::1.2.3.4/+1_2_8" = .ok ([128, 0, 53, 32, 0, 0, 0, 0, 0, 0, 0, 0, 0, 0, 0, 0, 1, 2, 3, 4,
    255, 255, 255, 255, 255, 255, 255, 255, 255, 255, 255, 255, 255, 255, 255, 255], 25) := by decide +kernel

/-- Any other prefix length is refused, so by C68 it is no value. -/
example : ¬ ∃ p m, ValueText .ipv6 t!"::1/127" p m := by
  rintro ⟨p, m, h⟩
  have := (C68_value ⟨t!"ipv6_src", 0x8000, 26, .ipv6, true⟩ (by decide +kernel) t!"::1/127" ((getToken_iff _ _ _ _).1 (by decide +kernel))
    (by decide) _ _).2 ⟨p, m, h, rfl, rfl⟩
  have e : str2oxm (t!"ipv6_src" ++ '=' :: t!"::1/127") = .error .structError := by decide +kernel
  rw [e] at this
  cases this

/-- Rates are rounded down, ports are names or numbers, and masks of channels may leave a number out. -/
example : str2oxm t!"radiotap_rate=2.9M,in_port=LOCAL,vlan_vid=0x1000/0x1000,radiotap_channel=2412:0/:1" =
    .ok ([255, 255, 36, 5, 255, 0, 224, 77, 5, 128, 0, 0, 4, 255, 255, 255, 254, 128, 0, 13, 4, 16, 0, 16, 0, 255,
      255, 39, 12, 255, 0, 224, 77, 9, 108, 0, 0, 0, 0, 0, 1], 82) := by decide +kernel

end Ofpstr
