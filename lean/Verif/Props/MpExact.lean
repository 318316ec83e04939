import Verif.Lemmas.MpGroupExact
import Verif.Props.MpReq

/-!
# Exactly which replies of group statistics come back (C43)
-/

set_option linter.unusedSimpArgs false

namespace Ofpstr
open Spec

/-- A reply of group statistics is printed line by line. -/
theorem gstat_print (es : List GroupStat) (x : Nat) (hv : ∀ e ∈ es, e.Valid) (hx : x < 256 ^ 4)
    (hsize : 16 + (es.flatMap GroupStat.wire).length < 65536) :
    mpgroup2text (mpReply x 6 (es.flatMap GroupStat.wire)) = .ok (joinStr t!"\n" (es.map anyRow)) := by
  obtain ⟨n1, n2, n3, n4⟩ := mpWire_nums 19 x 6 0 (es.flatMap GroupStat.wire) [] (by decide) hx (by decide) hsize
  rw [List.append_nil] at n1 n2 n3
  have hlen := mpWire_length 19 x 6 0 (es.flatMap GroupStat.wire)
  have hcount : es.length ≤ (es.flatMap GroupStat.wire).length := by
    clear hsize n1 n2 n3 n4 hlen hv
    induction es with
    | nil => simp
    | cons e es ih => rw [List.flatMap_cons, List.length_append, List.length_cons]; have := groupStat_length e; omega
  have hone : mpgroup2textOne (mpReply x 6 (es.flatMap GroupStat.wire)) = .ok (es.map anyRow) := by
    unfold mpgroup2textOne
    rw [needBytes_ok _ _ _ (by rw [mpReply]; omega), ok_bind]
    rw [mpReply, n1, n2, n3, show pyAssert (6 == OFPMP_GROUP) = .ok () from rfl, ok_bind, if_neg (by decide)]
    dsimp only
    rw [← mpReply, mpReply_slice, mpReply, n4]
    exact groupStatsText_any es hv _ (by omega)
  unfold mpgroup2text
  rw [reply_text _ x 6 _ _ hx (by decide) hsize hone, ok_bind]

/-- C43, exactly: a reply of group statistics comes back from its text if and only if it has an entry, and
every entry names one group and has something else to tell about it. -/
theorem C43_roundtrip_iff (es : List GroupStat) (x : Nat) (hv : ∀ e ∈ es, e.Valid)
    (hx : x < 256 ^ 4) (hsize : (mpReply x 6 (es.flatMap GroupStat.wire)).length < 65536) :
    (∃ text, mpgroup2text (mpReply x 6 (es.flatMap GroupStat.wire)) = .ok text ∧
      text2mpgroup text 19 x = .ok (mpReply x 6 (es.flatMap GroupStat.wire))) ↔
    es ≠ [] ∧ ∀ e ∈ es, e.Lossless := by
  refine ⟨?_, fun ⟨hne, hl⟩ => C43_roundtrip_partial es x hv hl hne hx hsize⟩
  rintro ⟨text, h1, h2⟩
  rw [mpReply, mpWire_length] at hsize
  rw [gstat_print es x hv hx hsize] at h1
  cases h1
  unfold text2mpgroup at h2
  obtain ⟨cap, hc, h2⟩ := bind_ok h2
  have hcap : cap = es.flatMap GroupStat.wire := by
    rw [← (mpMessage_inv h2).1]
    have h4 := (mpWire_nums 19 x 6 0 (es.flatMap GroupStat.wire) [] (by decide) hx (by decide) hsize).2.2.2
    rw [mpReply]
    exact h4
  subst hcap
  by_cases hne : es = []
  · subst hne
    exfalso
    have h4 : mpgroupGo 19 [] (splitAll '\n' (joinStr t!"\n" (([] : List GroupStat).map anyRow))) ≠ .ok [] := by decide +kernel
    exact h4 hc
  · refine ⟨hne, mpgroupGo_any es hv [] ?_⟩
    rw [rows_split _ (by simpa using hne) (by
      intro t ht
      obtain ⟨e, he, rfl⟩ := List.mem_map.1 ht
      exact anyRow_line e)] at hc
    simpa using hc

/-- Three groups, of the last one there is nothing to tell. -/
def exStats3 : List GroupStat := exStats ++ [⟨9, 0, 0, 0, 0, 0, []⟩]

example : (∀ e ∈ exStats3, e.Valid) ∧ ¬ (∀ e ∈ exStats3, e.Lossless) ∧
    (mpReply 9 6 (exStats3.flatMap GroupStat.wire)).length < 65536 := by
  refine ⟨?_, ?_, by decide +kernel⟩
  · simp [exStats3, exStats, GroupStat.Valid, GroupStat.wire, BucketStat.wire, u16, u32, u64, pad, be]
  · simp [exStats3, exStats, GroupStat.Lossless, GroupStat.Counts]

end Ofpstr
