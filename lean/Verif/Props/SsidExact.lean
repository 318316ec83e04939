import Verif.Lemmas.SsidList

/-!
# Exactly which matches come back (C64)
-/

namespace Ofpstr
open Spec

/-- C64: a well-formed match comes back from its text exactly if each of its TLVs survives; the last one may
have an SSID with open brackets. -/
theorem C64_roundtrip_iff (ts : List Tlv) (hv : ∀ t ∈ ts, t.Valid) :
    (∃ text, oxm2str (wireAll ts) = .ok text ∧ str2oxm text = .ok (wireAll ts, text.length)) ↔
      ∀ a t b, ts = a ++ t :: b → t.Survives (b = []) := by
  constructor
  · rintro ⟨text, h1, h2⟩
    have hz : ∀ t ∈ ts, t.field.kind = .ssid → t.mask ≠ none → ∃ x ∈ t.value, x ≠ 0 := by
      by_contra hc
      push Not at hc
      have := oxm2strGo_zero ts hv hc ((wireAll ts).length + 1) (Nat.lt_succ_self _)
      unfold oxm2str at h1
      rw [this] at h1
      cases h1
    rw [oxm2str_print ts hv hz] at h1
    cases h1
    unfold str2oxm str2oxmL at h2
    obtain ⟨⟨msg, rest⟩, hgo, h2⟩ := bind_ok h2
    simp only [Except.ok.injEq, Prod.mk.injEq] at h2
    rw [h2.1] at hgo
    exact (reads_back ts hv hz [] (Or.inl rfl) (fun _ => rfl) _ (by simp)).1 ⟨rest, hgo⟩
  · intro hs
    have hz : ∀ t ∈ ts, t.field.kind = .ssid → t.mask ≠ none → ∃ x ∈ t.value, x ≠ 0 := by
      intro t ht hk hm
      obtain ⟨a, b, hab⟩ := List.append_of_mem ht
      obtain ⟨p, k, hp, hpl, hval⟩ := (hs a t b hab).ssidMask hk hm
      rw [List.getLast?_eq_some_getLast hp.1] at hpl
      exact ⟨p.getLast hp.1, by rw [hval]; simp, by simpa using hpl⟩
    refine ⟨_, oxm2str_print ts hv hz, ?_⟩
    have := reads_fwd ts hv hs [] (Or.inl rfl) (fun _ => rfl) _ (Nat.lt_succ_self _)
    simp only [List.nil_append] at this
    unfold str2oxm str2oxmL
    rw [this]
    simp [ok_bind]

/-- An SSID, and the input port 1. -/
def ssidTlv (s : Bytes) : Tlv := ⟨⟨t!"dot11_ssid", 0xffff, 8, .ssid, true⟩, s, none⟩
def portTlv : Tlv := ⟨⟨t!"in_port", 0x8000, 0, .port 4, false⟩, [0, 0, 0, 1], none⟩

theorem ssidTlv_valid (s : Bytes) (h : s.length < 252) : (ssidTlv s).Valid := by
  have hm : (⟨t!"dot11_ssid", 0xffff, 8, .ssid, true⟩ : Field) ∈ fields := by decide +kernel
  refine ⟨hm, by intro n hn; simp [ssidTlv, Kind.size] at hn, by simp [ssidTlv], ?_⟩
  have : (ssidTlv s).body = s := by simp [ssidTlv, Tlv.body]
  rw [this]
  split <;> omega

theorem portTlv_valid : portTlv.Valid :=
  ⟨by decide +kernel, by intro n hn; simpa [portTlv, Kind.size] using hn, by simp [portTlv], by decide⟩

/-- The SSID `(a b,c)` is one token: it comes back, also before another item. -/
example : ∃ text, oxm2str (wireAll [ssidTlv [40, 97, 32, 98, 44, 99, 41], portTlv]) = .ok text ∧
    str2oxm text = .ok (wireAll [ssidTlv [40, 97, 32, 98, 44, 99, 41], portTlv], text.length) :=
  ⟨t!"dot11_ssid=(a b,c),in_port=1", by decide +kernel, by decide +kernel⟩

/-- The SSID `(ab` comes back at the end only. -/
example : (∃ text, oxm2str (wireAll [portTlv, ssidTlv [40, 97, 98]]) = .ok text ∧
    str2oxm text = .ok (wireAll [portTlv, ssidTlv [40, 97, 98]], text.length)) ∧
    ¬ (ssidTlv [40, 97, 98]).Survives False := by
  refine ⟨⟨t!"in_port=1,dot11_ssid=(ab", by decide +kernel, by decide +kernel⟩, ?_⟩
  intro hs
  have hq : b2aQp [40, 97, 98] = t!"(ab" := by decide
  obtain ⟨-, -, -, h | h⟩ := hs.ssid rfl rfl
  · rw [show (ssidTlv [40, 97, 98]).value = [40, 97, 98] from rfl, hq] at h
    have h1 : getToken t!"=(ab,in_port=1" = (t!"=", t!"(ab", t!",in_port=1") :=
      (getToken_iff _ _ _ _).2 ⟨rfl, HeadOf.eq [] [] _ (by simp) (by simp) (by intro c s hc; cases hc; decide),
        Or.inl ⟨h, by intro c s hc; cases hc; decide⟩⟩
    exact absurd h1 (by decide)
  · exact h.1

/-- Two styles of newlines in one SSID: lost. -/
example : ¬ (ssidTlv [97, 13, 10, 10]).Survives True := by
  intro hs
  obtain ⟨-, h | h, -⟩ := hs.ssid rfl rfl
  · exact h [97] [10] rfl
  · obtain ⟨q, hq⟩ := h [97, 13, 10] [] rfl
    have := congrArg List.getLast? hq
    simp at this

end Ofpstr
