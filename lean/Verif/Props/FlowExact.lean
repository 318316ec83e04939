import Verif.Lemmas.FlowExact
import Verif.Props.SsidExact
import Verif.Props.Flow

/-!
# C72: exactly which flow-mods come back from their text
-/

set_option linter.unusedSimpArgs false

namespace Ofpstr
open Spec

/-! ## C72 -/

/-- C72: a well-formed flow-mod is printed as a text that, parsed with the extra arguments, is exactly the
same message if and only if it has only the five printed flags and every match item and every action
survives where it stands. -/
theorem C72_flow_exact (m : FlowMod) (hv : m.Valid) :
    (∃ text e, mod2str m.wire = .ok text ∧ mod2extra m.wire = .ok e ∧ str2modX text e = .ok m.wire) ↔ m.Survives := by
  obtain ⟨e, he, hx⟩ := flow_extra m hv
  constructor
  · rintro ⟨text, e', h1, h2, h3⟩
    rw [he] at h2
    cases h2
    rw [hx] at h3
    exact flow_back_survive m hv h1 h3
  · rintro ⟨h1, h2⟩
    obtain ⟨text, h3, h4⟩ := flow_survive_reads m hv h2
    refine ⟨text, e, h3, he, ?_⟩
    rw [hx, h4, knownFlags_same m hv h1]

/-- C72: if the parts survive, only the flags that are not printed are lost. -/
theorem C72_flags (m : FlowMod) (hv : m.Valid) (hs : PartsSurvive m.mtch m.insts) :
    ∃ text e, mod2str m.wire = .ok text ∧ mod2extra m.wire = .ok e ∧ str2modX text e = .ok m.knownFlags.wire := by
  obtain ⟨e, he, hx⟩ := flow_extra m hv
  obtain ⟨text, h3, h4⟩ := flow_survive_reads m hv hs
  exact ⟨text, e, h3, he, by rw [hx, h4]⟩

/-- The flow-mods of C34 are among them. -/
theorem C72_lossless (m : FlowMod) (hv : m.Valid) (hl : m.Lossless) : m.Survives :=
  (C72_flow_exact m hv).1 (C34_roundtrip_partial m hv hl)

/-- The input port 1 and the SSID `(ab`, then these instructions. -/
def openFlow (is : List FInst) : FlowMod := ⟨defaults 0 0, [portTlv, ssidTlv [40, 97, 98]], is⟩

theorem openFlow_head (is : List FInst) : (openFlow is).head.Fits := by
  show (defaults 0 0).Fits
  unfold FlowHead.Fits
  decide

theorem openFlow_mtch (is : List FInst) : ∀ t ∈ (openFlow is).mtch, t.Valid := by
  intro t ht
  simp only [openFlow, List.mem_cons, List.not_mem_nil, or_false] at ht
  rcases ht with rfl | rfl
  · exact portTlv_valid
  · exact ssidTlv_valid _ (by decide)

/-- Such flow-mods are well-formed. -/
example : (openFlow []).Valid ∧ (openFlow [.goto 1]).Valid := by
  refine ⟨⟨openFlow_head _, openFlow_mtch _, by simp [openFlow], by decide +kernel⟩,
    ⟨openFlow_head _, openFlow_mtch _, ?_, by decide +kernel⟩⟩
  intro i hi
  simp only [openFlow, List.mem_cons, List.not_mem_nil, or_false] at hi
  subst hi
  exact ⟨by decide, by simp [FInst.actions], by decide⟩

/-- The open bracket comes back at the end of the rule and swallows an instruction after it. -/
example : mod2str (openFlow []).wire = .ok t!"in_port=1,dot11_ssid=(ab" ∧
    str2mod t!"in_port=1,dot11_ssid=(ab" 0 0 = .ok (openFlow []).wire ∧
    mod2str (openFlow [.goto 1]).wire = .ok t!"in_port=1,dot11_ssid=(ab,@goto=1" ∧
    str2mod t!"in_port=1,dot11_ssid=(ab,@goto=1" 0 0 ≠ .ok (openFlow [.goto 1]).wire := by decide +kernel

/-- The sample of C34 survives; with another flag it does not. -/
example : sampleFlow.Survives ∧ ¬ (FlowMod.mk { sampleFlow.head with flags := 37 } sampleFlow.mtch sampleFlow.insts).Survives :=
  ⟨C72_lossless _ sampleFlow_ok.1 sampleFlow_ok.2, fun h => absurd h.1 (by decide)⟩

end Ofpstr
