import Verif.Lemmas.SsidSet

/-!
# Actions with any byte strings: exactly which come back
-/

set_option linter.unusedSimpArgs false

namespace Ofpstr
open Spec

/-- How an action is printed, and when it is read back.  `S` says when, in the last place or not. -/
structure ActBack (b : Bytes) (S : Prop → Prop) : Prop where
  long : 4 < b.length
  short : b.length < 65536
  lenf : ∀ rest, uAt (b ++ rest) 2 2 = b.length
  back : (∃ e, e ≠ Err.loops ∧ (∀ rest, act2strOne (b ++ rest) = .error e) ∧ ∀ l, ¬ S l) ∨
    ∃ text, (∀ rest, act2strOne (b ++ rest) = .ok text) ∧ text ≠ [] ∧ ActStart text ∧
      ∀ h r : Str, (h = [] ∨ h = [',']) → (r = [] ∨ ∃ r', r = ',' :: r') →
        (S (r = []) → str2act (h ++ (text ++ r)) = .ok (b, h.length + text.length)) ∧
        ∀ n, str2act (h ++ (text ++ r)) = .ok (b, n) → S (r = [])

theorem actBack_plain (a : Act) (hv : a.Valid) (hp : a.Plain) (hs : ∀ l, a.Survives l ↔ a.Lossless) :
    ActBack a.wire (fun l => a.Survives l) := by
  by_cases hl : a.Lossless
  · obtain ⟨text, ht⟩ := act_trip a hv hl
    refine ⟨ht.long, ht.short, ht.lenf, Or.inr ⟨text, ht.prints, ht.ne, ⟨ht.start, ht.noat⟩, ?_⟩⟩
    intro h r hh hr
    exact ⟨fun _ => ht.reads h r (head_of hh) (atEnd_of hr), fun _ _ => (hs _).2 hl⟩
  · have hlost := act_lost a hv hp hl
    refine ⟨hlost.long, hlost.short, hlost.lenf, ?_⟩
    rcases hlost.lost with ⟨e, he, h⟩ | ⟨text, h1, h2, h3, h4⟩
    · exact Or.inl ⟨e, he, h, fun l h => hl ((hs l).1 h)⟩
    · refine Or.inr ⟨text, h1, h2, h3, fun h r hh hr => ⟨fun h => absurd ((hs _).1 h) hl, fun n hn => ?_⟩⟩
      exact absurd rfl (h4 h r _ n hh hr hn)

/-- A masked SSID of zeros is not printed. -/
theorem oxm2str1_zero (t : Tlv) (hv : t.Valid) (hk : t.field.kind = .ssid) (hm : t.mask ≠ none) (hz : ∀ x ∈ t.value, x = 0)
    (rest : Bytes) : oxm2str1 (t.wire ++ rest) = .error .indexError := by
  obtain ⟨w1, w2, w3⟩ := tlv_wire t hv t.value.length rfl
  have hkn : (fieldKey t.field).num < 128 := (field_name _ hv.mem).2.2
  have := (oxm2strOne_tlv (fieldKey t.field) t.value.length t.mask.isSome .ssid t.body rest hkn (ssid_dec _ hv.mem hk) w2 w3).1
  unfold oxm2str1
  rw [w1, List.append_assoc, if_neg, this]
  · cases hmm : t.mask with
    | none => exact absurd hmm hm
    | some m =>
      have hml := (hv.mask m hmm).2
      have hb : t.body = t.value ++ m := by simp [Tlv.body, hmm]
      have hsl : (t.value ++ m).length / 2 = t.value.length := by simp [hml]; omega
      have hst : stripZeros t.value = .error .indexError := by
        unfold stripZeros
        dsimp only
        rw [if_pos]
        rw [List.isEmpty_reverse, List.isEmpty_iff, dropWhile_zero]
        intro x hx
        exact hz x (by simpa using hx)
      rw [hb]
      simp only [decText, ssidBin2str, Option.isSome_some, if_true, hsl, List.take_left, hst, bind, Except.bind]
  · simp only [List.length_append, header_length]
    omega

theorem survives_nonzero {t : Tlv} (hk : t.field.kind = .ssid) (hm : t.mask ≠ none) (hz : ∀ x ∈ t.value, x = 0)
    (l : Prop) : ¬ t.Survives l := by
  intro hs
  obtain ⟨x, hx, hx0⟩ := ssid_nonzero hk hs hm
  exact hx0 (hz x hx)

theorem ssid_prints (t : Tlv) (hv : t.Valid) (hk : t.field.kind = .ssid) (hz : t.mask ≠ none → ∃ x ∈ t.value, x ≠ 0)
    (rest : Bytes) : oxm2str1 (t.wire ++ rest) = .ok (tlvPrint t) := by
  obtain ⟨d, s, h1, h2, -⟩ := tlv_prints t hv (fun _ => hz)
  rw [oxm2str1_dec t hv h1 h2, tlvPrint_eq t h1 h2]

theorem actBack_set (t : Tlv) (hv : t.Valid) (hk : t.field.kind = .ssid) :
    ActBack (setFieldWire t.wire) (fun l => t.Survives l) := by
  obtain ⟨l1, l2⟩ := tlv_length t hv
  obtain ⟨m1, m2⟩ := setFieldWire_length t.wire
  have hlen : (setFieldWire t.wire).length < 65536 := by
    have := align8_facts (4 + t.wire.length)
    rw [m1, fill_length]; omega
  have hp := fun rest => setField_prints t.wire rest hlen
  refine ⟨by omega, hlen, fun rest => (hp rest).2, ?_⟩
  by_cases hz : t.mask ≠ none ∧ ∀ x ∈ t.value, x = 0
  · refine Or.inl ⟨.indexError, by simp, fun rest => ?_, survives_nonzero hk hz.1 hz.2⟩
    rw [(hp rest).1, oxm2str1_zero t hv hk hz.1 hz.2]
    rfl
  · have hz' : t.mask ≠ none → ∃ x ∈ t.value, x ≠ 0 := by
      intro hm
      by_contra hc
      push Not at hc
      exact hz ⟨hm, hc⟩
    refine Or.inr ⟨t!"set_" ++ tlvPrint t, fun rest => ?_, by simp, actStart_append (by decide) (by decide) (by decide), ?_⟩
    · rw [(hp rest).1, ssid_prints t hv hk hz']; rfl
    · intro h r hh hr
      exact ⟨fun hs => set_fwd t hv hk hh hr hs, fun n hn => set_back t hv hk hz' hh hr hn⟩

theorem actBack_load (t : Tlv) (hv : t.Valid) (hk : t.field.kind = .ssid) :
    ActBack (nxWire 33 t.wire) (fun _ => t.Survives False ∧ t.Boxed) := by
  obtain ⟨l1, l2⟩ := tlv_length t hv
  have hfit := nxWire_fits 33 t.wire (by omega)
  have hlen : (nxWire 33 t.wire).length = 10 + (t.wire ++ fill (10 + t.wire.length)).length := by
    unfold nxWire; rw [nxRaw_length]
  have hp := fun rest => nx_prints 33 (t.wire ++ fill (10 + t.wire.length)) rest .regLoad2 (by decide) (by decide)
    (by omega) (by decide)
  refine ⟨by omega, hfit, fun rest => by rw [hlen]; exact (hp rest).2, ?_⟩
  by_cases hz : t.mask ≠ none ∧ ∀ x ∈ t.value, x = 0
  · refine Or.inl ⟨.indexError, by simp, fun rest => ?_, fun l h => survives_nonzero hk hz.1 hz.2 _ h.1⟩
    refine (hp rest).1.trans ?_
    simp only [runActDec, regLoad2Act2str]
    rw [oxm2str1_zero t hv hk hz.1 hz.2, error_bind]
  · have hz' : t.mask ≠ none → ∃ x ∈ t.value, x ≠ 0 := by
      intro hm
      by_contra hc
      push Not at hc
      exact hz ⟨hm, hc⟩
    refine Or.inr ⟨t!"reg_load2" ++ '(' :: tlvPrint t ++ [')'], fun rest => ?_, by simp,
      by rw [List.append_assoc]; exact actStart_append (by decide) (by decide) (by decide), ?_⟩
    · refine (hp rest).1.trans ?_
      simp only [runActDec, regLoad2Act2str]
      rw [ssid_prints t hv hk hz', ok_bind]
      simp
    · intro h r hh hr
      exact ⟨fun hs => load_fwd t hv hk hs.1 hs.2 hh (atEnd_of hr), fun n hn => load_back t hv hk hz' hh hn⟩

theorem actBack_note (b : Bytes) (hlen : b.length < 60000) : ActBack (nxRaw 8 b) (fun _ => NoteText b) := by
  have hp := fun rest => nx_prints 8 b rest .note (by decide) (by decide) (by omega) (by decide)
  have hl : (nxRaw 8 b).length = 10 + b.length := nxRaw_length _ _
  refine ⟨by omega, by omega, fun rest => by rw [hl]; exact (hp rest).2,
    Or.inr ⟨t!"note" ++ '(' :: b2aQp b ++ [')'], fun rest => ?_, by simp,
      by rw [List.append_assoc]; exact actStart_append (by decide) (by decide) (by decide), ?_⟩⟩
  · refine (hp rest).1.trans ?_
    simp only [runActDec]
    rfl
  · intro h r hh hr
    exact ⟨fun hs => note_fwd b hlen hs.1 hs.2.1 hs.2.2.1 hs.2.2.2 (head_of hh) (atEnd_of hr),
      fun n hn => note_back b (head_of hh) hn⟩

theorem act_back (a : Act) (hv : a.Valid) : ActBack a.wire (fun l => a.Survives l) := by
  cases a with
  | setField t =>
    by_cases hk : t.field.kind = .ssid
    · exact actBack_set t hv hk
    · exact actBack_plain _ hv (fun h => absurd h hk) (fun l => survives_plain hk)
  | regLoad2 t =>
    by_cases hk : t.field.kind = .ssid
    · exact actBack_load t hv hk
    · refine actBack_plain _ hv (fun h => absurd h hk) (fun l => ?_)
      exact ⟨fun h => ⟨(survives_plain hk).1 h.1, fun h' => absurd h' hk⟩,
        fun h => ⟨(survives_plain hk).2 h.1, fun h' => absurd h' hk⟩⟩
  | note b => exact actBack_note b hv
  | _ => exact actBack_plain _ hv trivial (fun l => Iff.rfl)

end Ofpstr
