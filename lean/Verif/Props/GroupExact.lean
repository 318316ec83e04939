import Verif.Lemmas.GroupExact
import Verif.Props.FlowExact
import Verif.Props.Group

/-!
# C74: exactly which group-mods come back from their text
-/

set_option linter.unusedSimpArgs false

namespace Ofpstr
open Spec

/-! ## C74 -/

/-- C74: a well-formed group-mod is printed as a text that is read as exactly the same message if and only if
it survives. -/
theorem C74_group_exact (m : GroupMod) (hv : m.Valid) :
    (∃ text, group2str m.wire = .ok text ∧ str2group text m.command m.xid = .ok m.wire) ↔ m.Survives :=
  group_exact m hv

/-- The group-mods of C40 are among them. -/
theorem C74_lossless (m : GroupMod) (hv : m.Valid) (hb : ∀ b ∈ m.buckets, b.Lossless m.type)
    (hlast : ∀ b, m.buckets.getLast? = some b → b.acts ≠ []) : m.Survives :=
  (C74_group_exact m hv).1 (C40_roundtrip_partial m hv hb hlast)

/-- C74 with the keywords of `group2extra`, without its group id: they recreate exactly the group-mods that survive. -/
theorem C74_recreate_exact (m : GroupMod) (hv : m.Valid) :
    (∃ text e, group2str m.wire = .ok text ∧ group2extra m.wire = .ok e ∧
      str2groupX text { e with groupId := none } = .ok m.wire) ↔ m.Survives := by
  rw [← C74_group_exact m hv]
  obtain ⟨v1, v2, v3, v4, v5, v6⟩ := hv
  obtain ⟨n1, n2, n3, n4, n5, n6⟩ := groupWire_nums m.xid m.command m.type m.gid (m.buckets.flatMap Bucket.wire) v1 v2
    (by omega) v4
  have hlen := groupWire_length m.xid m.command m.type m.gid (m.buckets.flatMap Bucket.wire)
  have he : group2extra m.wire = .ok
      { xid := m.xid, groupId := some m.gid, command := if m.command != 0 then some m.command else none } := by
    unfold group2extra GroupMod.wire
    rw [needBytes_ok _ _ _ (by omega), ok_bind]
    rw [n1, n2, n3, n5]
    rfl
  have hx : ∀ text, str2groupX text { xid := m.xid, groupId := none, command := if m.command != 0 then some m.command else none } =
      str2group text m.command m.xid := by
    intro text
    unfold str2groupX
    dsimp only
    by_cases hc : m.command = 0
    · simp [hc]
    · simp [hc]
  constructor
  · rintro ⟨text, e, h1, h2, h3⟩
    rw [he] at h2
    have := Except.ok.inj h2
    subst this
    exact ⟨text, h1, by rw [← hx text]; exact h3⟩
  · rintro ⟨text, h1, h2⟩
    exact ⟨text, _, h1, he, by rw [← h2]; exact hx text⟩

/-- A group of type all that sets an SSID in each of two buckets. -/
def ssidGroup (a b : Bytes) : GroupMod :=
  ⟨9, 0, 0, 5, [⟨0, 0xffffffff, 0xffffffff, [.setField (ssidTlv a)]⟩, ⟨0, 0xffffffff, 0xffffffff, [.setField (ssidTlv b)]⟩]⟩

theorem ssidGroup_valid (a b : Bytes) (ha : a.length = 3) (hb : b.length = 3)
    (h1 : 8 ∣ (Act.setField (ssidTlv a)).wire.length ∧ 8 ∣ (Act.setField (ssidTlv b)).wire.length)
    (h2 : (ssidGroup a b).wire.length < 65536 ∧ ∀ x ∈ (ssidGroup a b).buckets, x.wire.length < 65536) : (ssidGroup a b).Valid := by
  have ht : ∀ s : Bytes, s.length = 3 → (Act.setField (ssidTlv s)).Valid := fun s hs => ssidTlv_valid s (by omega)
  refine ⟨by show 9 < _; decide, by show 0 < _; decide, by show 0 < _; decide, by show 5 < _; decide, ?_, ?_⟩
  · intro x hx
    simp only [ssidGroup, List.mem_cons, List.not_mem_nil, or_false] at hx
    rcases hx with rfl | rfl
    · refine ⟨by show 0 < _; decide, by show 0xffffffff < _; decide, by show 0xffffffff < _; decide, ?_, ?_, ?_⟩
      · intro x hx
        simp only [List.mem_cons, List.not_mem_nil, or_false] at hx
        subst hx
        exact ht _ ha
      · simpa using h1.1
      · exact h2.2 _ (.head _)
    · refine ⟨by show 0 < _; decide, by show 0xffffffff < _; decide, by show 0xffffffff < _; decide, ?_, ?_, ?_⟩
      · intro x hx
        simp only [List.mem_cons, List.not_mem_nil, or_false] at hx
        subst hx
        exact ht _ hb
      · simpa using h1.2
      · exact h2.2 _ (.tail _ (.head _))
  · exact h2.1

/-- An open bracket at the end of the text comes back, an open bracket before another bucket does not. -/
example : group2str (ssidGroup [97, 98, 99] [40, 97, 98]).wire = .ok t!"group=5,all,@bucket,set_dot11_ssid=abc,@bucket,set_dot11_ssid=(ab" ∧
    (ssidGroup [97, 98, 99] [40, 97, 98]).Survives ∧ ¬ (ssidGroup [40, 97, 98] [97, 98, 99]).Survives := by
  refine ⟨by decide +kernel, ?_, ?_⟩
  · refine (C74_group_exact _ (ssidGroup_valid _ _ rfl rfl (by decide +kernel) (by decide +kernel))).1 ((groupBack_iff _ _ _).1 ?_)
    decide +kernel
  · intro h
    have := (groupBack_iff _ _ _).2 ((C74_group_exact _ (ssidGroup_valid _ _ rfl rfl (by decide +kernel) (by decide +kernel))).2 h)
    revert this
    decide +kernel

end Ofpstr
