import Verif.Lemmas.OxmExact

/-!
# Which matches print, and which come back (C12, C59)
-/

namespace Ofpstr
open Spec

/-- C12: a well-formed match comes back from its text exactly if each of its TLVs is `Lossless`.  Partial:
SSIDs that are not plain are left out (some of them survive inside brackets). -/
theorem C12_roundtrip_iff_partial (ts : List Tlv) (hv : ∀ t ∈ ts, t.Valid)
    (hs : ∀ t ∈ ts, t.field.kind = .ssid → t.Lossless) :
    (∃ text, oxm2str (wireAll ts) = .ok text ∧ str2oxm text = .ok (wireAll ts, text.length)) ↔
      ∀ t ∈ ts, t.Lossless := by
  constructor
  · rintro ⟨text, h1, h2⟩
    have hp := oxm2str_print ts hv (by
      intro t ht hk hm
      obtain ⟨p, k, ⟨p1, p2, p3, p4⟩, hval⟩ := (hs t ht hk).ssidMask hk hm
      cases p with
      | nil => exact absurd rfl p4
      | cons x p =>
        refine ⟨x, by rw [hval]; simp, ?_⟩
        rintro rfl
        have := (p1 0 (by simp)).1
        revert this; decide)
    rw [hp] at h1
    cases h1
    unfold str2oxm str2oxmL at h2
    obtain ⟨⟨msg, rest⟩, hgo, h2⟩ := bind_ok h2
    simp only [Except.ok.injEq, Prod.mk.injEq] at h2
    rw [h2.1] at hgo
    exact reads_lossless ts hv hs [] (Or.inl rfl) _ rest hgo
  · intro hl
    exact ⟨_, oxm_list ts fun t ht => ⟨hv t ht, hl t ht⟩⟩

/-- An input port, a register and a port number. -/
def regTlvs : List Tlv := [⟨⟨t!"in_port", 0x8000, 0, .port 4, false⟩, [0, 0, 0, 1], none⟩,
  ⟨⟨t!"nxm_reg0", 1, 0, .uint 4, true⟩, [0, 0, 0, 7], none⟩]

/-- A register among other fields: the whole match is lost. -/
example : ¬ ∃ text, oxm2str (wireAll regTlvs) = .ok text ∧ str2oxm text = .ok (wireAll regTlvs, text.length) := by
  rw [C12_roundtrip_iff_partial]
  · intro h
    exact (h ⟨⟨t!"nxm_reg0", 1, 0, .uint 4, true⟩, [0, 0, 0, 7], none⟩ (by simp [regTlvs])).name (by decide)
  · intro t ht
    simp only [regTlvs, List.mem_cons, List.not_mem_nil, or_false] at ht
    rcases ht with rfl | rfl
    · exact ⟨by decide +kernel, by intro n hn; simpa [Kind.size] using hn, by simp, by decide⟩
    · exact ⟨by decide +kernel, by intro n hn; simpa [Kind.size] using hn, by simp, by decide⟩
  · intro t ht hk
    simp only [regTlvs, List.mem_cons, List.not_mem_nil, or_false] at ht
    rcases ht with rfl | rfl <;> cases hk

/-- C59: every well-formed match prints, unless it has a masked SSID of zero bytes only. -/
theorem C59_prints (ts : List Tlv) (hv : ∀ t ∈ ts, t.Valid)
    (hs : ∀ t ∈ ts, t.field.kind = .ssid → t.mask ≠ none → ∃ x ∈ t.value, x ≠ 0) :
    ∃ text, oxm2str (wireAll ts) = .ok text := ⟨_, oxm2str_print ts hv hs⟩

/-- C59: with such an SSID, printing raises `IndexError`. -/
theorem C59_ssid_refuted (ts : List Tlv) (hv : ∀ t ∈ ts, t.Valid)
    (hs : ∃ t ∈ ts, t.field.kind = .ssid ∧ t.mask ≠ none ∧ ∀ x ∈ t.value, x = 0) :
    oxm2str (wireAll ts) = .error .indexError := by
  unfold oxm2str
  rw [oxm2strGo_zero ts hv hs _ (by simp)]
  rfl

/-- Values that do not come back still print. -/
example : oxm2str (wireAll [⟨⟨t!"nxm_reg0", 1, 0, .uint 4, true⟩, [0, 0, 0, 7], none⟩,
    ⟨⟨t!"dot11_ssid", 0xffff, 8, .ssid, true⟩, [97, 32, 98], none⟩]) = .ok t!"nxm_reg0,dot11_ssid=a b" := by
  decide +kernel

example : oxm2str (wireAll [⟨⟨t!"in_port", 0x8000, 0, .port 4, false⟩, [0, 0, 0, 1], none⟩,
    ⟨⟨t!"dot11_ssid", 0xffff, 8, .ssid, true⟩, [0, 0], some [255, 255]⟩]) = .error .indexError := by
  decide +kernel

end Ofpstr
