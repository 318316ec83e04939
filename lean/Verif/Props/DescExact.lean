import Verif.Lemmas.DescExact
import Verif.Props.GroupExact
import Verif.Props.Multipart

/-!
# C75: exactly which group descriptions come back from their text
-/

set_option linter.unusedSimpArgs false

namespace Ofpstr
open Spec

/-! ## C75 -/

/-- C75: a reply of well-formed group descriptions is printed as a text that is read as exactly the same message
if and only if it has an entry and every entry survives. -/
theorem C75_group_desc_exact (es : List GroupDesc) (x : Nat) (hv : ∀ e ∈ es, e.Valid) (hx : x < 256 ^ 4)
    (hsize : (mpReply x 7 (es.flatMap GroupDesc.wire)).length < 65536) :
    (∃ text, mpgroupdesc2text (mpReply x 7 (es.flatMap GroupDesc.wire)) = .ok text ∧
      text2mpgroupdesc text 19 x = .ok (mpReply x 7 (es.flatMap GroupDesc.wire))) ↔ es ≠ [] ∧ ∀ e ∈ es, e.Survives := by
  rw [mpReply, mpWire_length] at hsize
  exact descs_exact es x hv hx hsize

/-- The replies of C42 are among them. -/
theorem C75_lossless (es : List GroupDesc) (x : Nat) (hv : ∀ e ∈ es, e.Valid) (hl : ∀ e ∈ es, e.Lossless)
    (hne : es ≠ []) (hx : x < 256 ^ 4) (hsize : (mpReply x 7 (es.flatMap GroupDesc.wire)).length < 65536) : ∀ e ∈ es, e.Survives :=
  ((C75_group_desc_exact es x hv hx hsize).1 (C42_roundtrip_partial es x hv hl hne hx hsize)).2

/-- The group-mods that survive, as descriptions, unless something breaks the line. -/
theorem C75_of_group (m : GroupMod) (hs : m.Survives) (hl : ∀ b ∈ m.buckets, ∀ x ∈ b.acts, x.OneLine) :
    (GroupDesc.mk m.type m.gid m.buckets).Survives :=
  ⟨fun a b c h => ⟨fun hb => absurd hb (hs.1 a b c h).1, (hs.1 a b c h).2⟩, hl⟩

/-- The descriptions of two groups with an SSID in their last bucket; the second one ends with a blank bucket. -/
def ssidDescs (a b : Bytes) : List GroupDesc :=
  [⟨0, 5, (ssidGroup [97, 98, 99] a).buckets⟩, ⟨0, 6, (ssidGroup [97, 98, 99] b).buckets ++ [⟨0, 0xffffffff, 0xffffffff, []⟩]⟩]

theorem ssidDescs_valid (a b : Bytes) (ha : a.length = 3) (hb : b.length = 3)
    (h1 : 8 ∣ (Act.setField (ssidTlv a)).wire.length ∧ 8 ∣ (Act.setField (ssidTlv b)).wire.length)
    (h2 : (ssidGroup [97, 98, 99] a).wire.length < 65536 ∧ ∀ x ∈ (ssidGroup [97, 98, 99] a).buckets, x.wire.length < 65536)
    (h3 : (ssidGroup [97, 98, 99] b).wire.length < 65536 ∧ ∀ x ∈ (ssidGroup [97, 98, 99] b).buckets, x.wire.length < 65536)
    (h4 : ∀ e ∈ ssidDescs a b, e.wire.length < 65536) : ∀ e ∈ ssidDescs a b, e.Valid := by
  have v1 := ssidGroup_valid [97, 98, 99] a rfl ha ⟨by decide +kernel, h1.1⟩ h2
  have v2 := ssidGroup_valid [97, 98, 99] b rfl hb ⟨by decide +kernel, h1.2⟩ h3
  intro e he
  refine ⟨?_, ?_, ?_, h4 e he⟩ <;> simp only [ssidDescs, List.mem_cons, List.not_mem_nil, or_false] at he
  · rcases he with rfl | rfl <;> (show 0 < 4; decide)
  · rcases he with rfl | rfl
    · show 5 < _; decide
    · show 6 < _; decide
  · rcases he with rfl | rfl
    · exact v1.2.2.2.2.1
    · intro x hx
      rcases List.mem_append.1 hx with hx | hx
      · exact v2.2.2.2.2.1 x hx
      · rw [List.mem_singleton] at hx
        subst hx
        exact ⟨by show 0 < _; decide, by show 0xffffffff < _; decide, by show 0xffffffff < _; decide, by simp, by simp, by decide +kernel⟩

theorem openDescs_valid : ∀ e ∈ ssidDescs [40, 97, 98] [120, 121, 122], e.Valid :=
  ssidDescs_valid _ _ rfl rfl (by decide +kernel) (by decide +kernel) (by decide +kernel) (by decide +kernel)

/-- An open bracket at the end of a line and a blank bucket at the end of a line come back. -/
example : mpgroupdesc2text (mpReply 9 7 ((ssidDescs [40, 97, 98] [120, 121, 122]).flatMap GroupDesc.wire)) =
      .ok t!"group=5,all,@bucket,set_dot11_ssid=abc,@bucket,set_dot11_ssid=(ab\ngroup=6,all,@bucket,set_dot11_ssid=abc,@bucket,set_dot11_ssid=xyz,@bucket," ∧
    ∀ e ∈ ssidDescs [40, 97, 98] [120, 121, 122], e.Survives := by
  refine ⟨by decide +kernel, ?_⟩
  refine ((C75_group_desc_exact _ 9 openDescs_valid (by decide) (by decide +kernel)).1 ((descBack_iff _ _).1 ?_)).2
  decide +kernel

/-- An open bracket before another bucket does not. -/
example : ¬ ∀ e ∈ ssidDescs [120, 121, 122] [40, 97, 98], e.Survives := by
  intro h
  have := (descBack_iff _ _).2 ((C75_group_desc_exact (ssidDescs [120, 121, 122] [40, 97, 98]) 9
    (ssidDescs_valid _ _ rfl rfl (by decide +kernel) (by decide +kernel) (by decide +kernel) (by decide +kernel))
    (by decide) (by decide +kernel)).2 ⟨by simp [ssidDescs], h⟩)
  revert this
  decide +kernel

end Ofpstr
