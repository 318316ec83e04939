import Verif.Lemmas.ActQpList
import Verif.Props.ActExact

/-!
# C67: exactly which actions come back from their text, with any byte strings
-/

set_option linter.unusedSimpArgs false

namespace Ofpstr
open Spec

/-! ## C67 -/

/-- C67: a well-formed action, whatever bytes its note or SSID holds, is printed as a text that parses to
exactly its bytes if and only if it is one of those that `Act.Survives` names. -/
theorem C67_action_exact (a : Act) (hv : a.Valid) :
    (∃ text, act2str a.wire = .ok text ∧ str2act text = .ok (a.wire, text.length)) ↔ a.Survives True := by
  have key := act2str_any [a] (by simpa using hv)
  simp only [List.flatMap_cons, List.flatMap_nil, List.append_nil] at key
  rcases (act_back a hv).back with ⟨e, -, he, hn⟩ | ⟨text, hpt, -, -, hrd⟩
  · constructor
    · rintro ⟨text, h1, -⟩
      obtain ⟨ts, hts, -⟩ := (key text).1 h1
      cases hts with
      | cons h1 _ =>
        have := h1 []
        rw [he] at this
        cases this
    · intro h
      exact absurd h (hn _)
  · obtain ⟨h1, h2⟩ := hrd [] [] (Or.inl rfl) (Or.inl rfl)
    simp only [List.nil_append, List.append_nil, List.length_nil, Nat.zero_add] at h1 h2
    have htx : act2str a.wire = .ok text := (key text).2 ⟨[text], .cons hpt .nil, by simp [commaList]⟩
    constructor
    · rintro ⟨text', h3, h4⟩
      rw [htx] at h3
      cases h3
      exact h2 _ h4
    · intro h
      exact ⟨text, htx, h1 h⟩

/-- C67 for lists: what an apply or write instruction holds after printing and parsing is what it held
before if and only if every action survives; only the last one may have brackets that stay open. -/
theorem C67_list_exact (as : List Act) (hv : ∀ a ∈ as, a.Valid) (hne : as ≠ [])
    (hfit : 8 + (as.flatMap Act.wire).length < 65536) :
    ((∃ text, act2str (as.flatMap Act.wire) = .ok text ∧
      str2dict (t!"@apply," ++ text) = .ok { inst := (Inst.apply (as.flatMap Act.wire)).wire }) ↔
      ∀ a x b, as = a ++ x :: b → x.Survives (b = [])) ∧
    ((∃ text, act2str (as.flatMap Act.wire) = .ok text ∧
      str2dict (t!"@write," ++ text) = .ok { inst := (Inst.write (as.flatMap Act.wire)).wire }) ↔
      ∀ a x b, as = a ++ x :: b → x.Survives (b = [])) := by
  have step : ∀ (name : Str) (f : Nat) (i : Info), f < 65536 → name ≠ [] →
      (∀ s, dictStep {} (name ++ (',' :: s)) = .ok ({ func := some f, phase := .action }, [','] ++ s)) →
      i = { inst := u16 f ++ (u16 (8 + (as.flatMap Act.wire).length) ++ (zeros 4 ++ as.flatMap Act.wire)) } →
      ((∃ text, act2str (as.flatMap Act.wire) = .ok text ∧ str2dict (name ++ (',' :: text)) = .ok i) ↔
        ActsSurvive as) := by
    intro name f i hf hnn hst hi
    constructor
    · rintro ⟨text, h1, h2⟩
      obtain ⟨ts, hts, rfl⟩ := (act2str_any as hv text).1 h1
      unfold str2dict at h2
      rw [dictGo, if_neg (by simp), hst, ok_bind] at h2
      refine dict_back as hv ts hts [','] (Or.inr rfl) _ hf rfl rfl h2
        (n := 8 + (as.flatMap Act.wire).length) (x := []) ?_
      rw [hi]
      simp
    · intro hs
      obtain ⟨ts, hts⟩ := texts_of as hv hs
      refine ⟨_, (act2str_any as hv _).2 ⟨ts, hts, rfl⟩, ?_⟩
      unfold str2dict
      rw [dictGo, if_neg (by simp), hst, ok_bind]
      dsimp only
      rw [dict_fwd as hv hs ts hts [','] (Or.inr rfl) (fun h => absurd h hne) _ ?_ rfl]
      · rw [runFunc_fit hf rfl (by simpa using hfit), hi]
        simp
      · have : 0 < name.length := List.length_pos_iff.2 hnn
        simp only [List.length_append, List.length_cons, List.length_nil]
        omega
  refine ⟨?_, ?_⟩
  · refine step t!"@apply" 4 _ (by decide) (by decide) (fun s => ?_) rfl
    have hg : getToken (t!"@apply" ++ ',' :: s) = ([], t!"@apply", ',' :: s) :=
      getToken_clean (by decide) (by decide) (atEnd_comma _)
    unfold dictStep
    rw [hg]
    rfl
  · refine step t!"@write" 3 _ (by decide) (by decide) (fun s => ?_) rfl
    have hg : getToken (t!"@write" ++ ',' :: s) = ([], t!"@write", ',' :: s) :=
      getToken_clean (by decide) (by decide) (atEnd_comma _)
    unfold dictStep
    rw [hg]
    rfl

/-- For actions with plain byte strings the condition is that of C61. -/
theorem C67_plain (a : Act) (hv : a.Valid) (hp : a.Plain) : a.Survives True ↔ a.Lossless :=
  (C67_action_exact a hv).symm.trans (C61_action_exact a hv hp)

/-- An SSID without mask. -/
def C67_ssid (v : Bytes) : Tlv := ⟨⟨t!"dot11_ssid", 0xffff, 8, .ssid, true⟩, v, none⟩

theorem C67_ssid_valid (v : Bytes) (h : v.length < 252) : (C67_ssid v).Valid := by
  have hf : (⟨t!"dot11_ssid", 0xffff, 8, .ssid, true⟩ : Field) ∈ fields ∧
      (⟨t!"dot11_ssid", 0xffff, 8, .ssid, true⟩ : Field).experimenter = true := by decide +kernel
  refine ⟨hf.1, fun n h => by simp [C67_ssid, Kind.size] at h, fun m h => by simp [C67_ssid] at h, ?_⟩
  simp only [C67_ssid, Tlv.body, Option.getD_none, List.append_nil, hf.2, if_true]
  omega

/-- The hypotheses are met by notes and SSIDs that are not plain: with a newline and a comma in brackets,
with a bracket that stays open, with a byte that must be escaped. -/
example : (∀ a ∈ [Act.note [91, 10, 44, 93], .note [97, 255], .setField (C67_ssid [97, 40])], a.Valid ∧ ¬ a.Lossless) := by
  intro a ha
  simp only [List.mem_cons, List.not_mem_nil, or_false] at ha
  rcases ha with rfl | rfl | rfl
  · exact ⟨by unfold Act.Valid; dsimp only; decide, fun h => absurd h.1 (by decide)⟩
  · exact ⟨by unfold Act.Valid; dsimp only; decide, fun h => absurd h.1 (by decide)⟩
  · exact ⟨C67_ssid_valid _ (by decide), fun h => absurd (h.ssid rfl rfl) (by decide)⟩

/-- The first is read back, the second is not, the third is read back in the last place only. -/
example : act2str (Act.note [91, 10, 44, 93]).wire = .ok t!"note([\n,])" ∧
    str2act t!"note([\n,])" = .ok ((Act.note [91, 10, 44, 93]).wire, 10) ∧
    act2str (Act.note [97, 255]).wire = .ok t!"note(a=FF)" ∧
    (str2act t!"note(a=FF)").toOption.map (·.1) ≠ some (Act.note [97, 255]).wire ∧
    (str2dict t!"@apply,output=1,set_dot11_ssid=a(").map (·.inst) =
      .ok (Inst.apply ([Act.output 1 0xffff, .setField (C67_ssid [97, 40])].flatMap Act.wire)).wire ∧
    (str2dict t!"@apply,set_dot11_ssid=a(,output=1").toOption.map (·.inst) ≠
      some (Inst.apply ([Act.setField (C67_ssid [97, 40]), .output 1 0xffff].flatMap Act.wire)).wire := by
  decide +kernel

example : (Act.note [91, 10, 44, 93]).Survives True ∧ ¬ (Act.note [97, 255]).Survives True := by
  constructor
  · rw [← C67_action_exact _ (by unfold Act.Valid; dsimp only; decide)]
    exact ⟨t!"note([\n,])", by decide +kernel⟩
  · rw [← C67_action_exact _ (by unfold Act.Valid; dsimp only; decide)]
    rintro ⟨text, h1, h2⟩
    have : act2str (Act.note [97, 255]).wire = .ok t!"note(a=FF)" := by decide +kernel
    rw [this] at h1
    cases h1
    revert h2
    decide +kernel

end Ofpstr
