import Verif.Lemmas.StatExact
import Verif.Props.FlowExact
import Verif.Props.Multipart

/-!
# C73: exactly which flow statistics come back from their text
-/

set_option linter.unusedSimpArgs false

namespace Ofpstr
open Spec

/-! ## C73 -/

/-- C73: a reply of flow statistics with well-formed entries is printed as a text that is read as exactly the
same message if and only if it has an entry and every entry survives. -/
theorem C73_flow_stats_exact (es : List FlowStat) (x : Nat) (hv : ∀ e ∈ es, e.Valid) (hx : x < 256 ^ 4)
    (hsize : (mpReply x 1 (es.flatMap FlowStat.wire)).length < 65536) :
    (∃ text, mpflow2text (mpReply x 1 (es.flatMap FlowStat.wire)) = .ok text ∧
      text2mpflow text 19 x = .ok (mpReply x 1 (es.flatMap FlowStat.wire))) ↔ es ≠ [] ∧ ∀ e ∈ es, e.Survives := by
  rw [mpReply, mpWire_length] at hsize
  exact flowStats_exact es x hv hx hsize

/-- The replies of C44 are among them. -/
theorem C73_lossless (es : List FlowStat) (x : Nat) (hv : ∀ e ∈ es, e.Valid) (hl : ∀ e ∈ es, e.Lossless)
    (hne : es ≠ []) (hx : x < 256 ^ 4) (hsize : (mpReply x 1 (es.flatMap FlowStat.wire)).length < 65536) : ∀ e ∈ es, e.Survives :=
  ((C73_flow_stats_exact es x hv hx hsize).1 (C44_roundtrip_partial es x hv hl hne hx hsize)).2

/-- Priority 7 and an SSID. -/
def ssidStat (b : Bytes) : FlowStat := ⟨0, 0, 0, 7, 0, 0, 0, 0, 5, 0, [ssidTlv b], []⟩

theorem ssidStat_valid (b : Bytes) (hb : b.length = 3) : (ssidStat b).Valid := by
  have ht : ∀ t ∈ (ssidStat b).mtch, t.Valid := by
    intro t ht
    simp only [ssidStat, List.mem_cons, List.not_mem_nil, or_false] at ht
    subst ht
    exact ssidTlv_valid _ (by omega)
  refine ⟨by show 0 < _; decide, by show 0 < _; decide, by show 0 < _; decide, by show 7 < _; decide, by show 0 < _; decide,
    by show 0 < _; decide, by show 0 < _; decide, by show 0 < _; decide, by show 5 < _; decide, by show 0 < _; decide, ht, by simp [ssidStat], ?_⟩
  have hl := (tlv_length (ssidTlv b) (ssidTlv_valid _ (by omega))).2
  have e : (ssidStat b).mtch.flatMap Tlv.wire = (ssidTlv b).wire := by simp [ssidStat]
  have e2 : ((ssidStat b).insts.flatMap fun i => i.inst.wire) = [] := rfl
  have ha := align8_facts (4 + (ssidTlv b).wire.length)
  rw [flowStat_length, tail_length, e, e2, List.length_nil]
  omega

/-- The entries meet the hypotheses. -/
example : (∀ e ∈ [ssidStat [40, 97, 98], ssidStat [97, 98, 99]], e.Valid) ∧
    (mpReply 9 1 ([ssidStat [40, 97, 98], ssidStat [97, 98, 99]].flatMap FlowStat.wire)).length < 65536 := by
  refine ⟨?_, by decide +kernel⟩
  intro e he
  simp only [List.mem_cons, List.not_mem_nil, or_false] at he
  rcases he with rfl | rfl <;> exact ssidStat_valid _ rfl

/-- An open bracket at the end of a line comes back. -/
example : mpflow2text (mpReply 9 1 ([ssidStat [40, 97, 98], ssidStat [97, 98, 99]].flatMap FlowStat.wire)) =
      .ok t!"packet_count=5 priority=7,dot11_ssid=(ab\npacket_count=5 priority=7,dot11_ssid=abc" ∧
    text2mpflow t!"packet_count=5 priority=7,dot11_ssid=(ab\npacket_count=5 priority=7,dot11_ssid=abc" 19 9 =
      .ok (mpReply 9 1 ([ssidStat [40, 97, 98], ssidStat [97, 98, 99]].flatMap FlowStat.wire)) := by decide +kernel

/-- A line feed in an SSID does not come back in statistics. -/
example : mpflow2text (mpReply 9 1 (ssidStat [97, 10, 98]).wire) = .ok t!"packet_count=5 priority=7,dot11_ssid=a\nb" ∧
    text2mpflow t!"packet_count=5 priority=7,dot11_ssid=a\nb" 19 9 ≠ .ok (mpReply 9 1 (ssidStat [97, 10, 98]).wire) ∧
    ¬ (ssidStat [97, 10, 98]).Survives := by
  refine ⟨by decide +kernel, by decide +kernel, ?_⟩
  rintro ⟨-, -, -, h, -⟩
  refine h (ssidTlv [97, 10, 98]) (by simp [ssidStat]) rfl [97, 10, 98] 0 rfl (fun _ => rfl) (fun h => absurd rfl h) ?_
  decide +kernel

end Ofpstr
