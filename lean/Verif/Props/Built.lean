import Verif.Lemmas.Built

/-!
# Printing what a text builds (C60)
-/

namespace Ofpstr
open Spec

/-- C60: an accepted match text builds a list of matches on fields of the list, value and mask having the
size of the field (four bytes for the connection-tracking label). -/
theorem C60_accepted (u : Str) (b : Bytes) (n : Nat) (h : str2oxm u = .ok (b, n)) :
    ∃ ts : List Tlv, (∀ t ∈ ts, t.Built) ∧ b = ts.flatMap Tlv.cut := by
  unfold str2oxm str2oxmL at h
  obtain ⟨⟨msg, rest⟩, hgo, h⟩ := bind_ok h
  simp only [Except.ok.injEq, Prod.mk.injEq] at h
  obtain ⟨ts, h1, h2⟩ := str2oxmGo_built _ _ _ _ hgo
  exact ⟨ts, h1, by rw [← h.1]; exact h2⟩

/-- C60: if the values are short and survive printing, the match prints as a text that means the same match
again, except that masks of fields that have none are gone (see `C60_mask_refuted`). -/
theorem C60_reprint_partial (u : Str) (b : Bytes) (n : Nat) (h : str2oxm u = .ok (b, n)) :
    ∃ ts : List Tlv, (∀ t ∈ ts, t.Built) ∧ b = ts.flatMap Tlv.cut ∧
      ((∀ t ∈ ts, t.Short ∧ t.shown.Lossless) →
        ∃ text, oxm2str b = .ok text ∧ str2oxm text = .ok (wireAll (ts.map Tlv.shown), text.length)) := by
  obtain ⟨ts, h1, h2⟩ := C60_accepted u b n h
  refine ⟨ts, h1, h2, fun hs => ?_⟩
  have hw : b = wireAll ts := by
    rw [h2, wireAll]
    have key : ∀ l : List Tlv, (∀ t ∈ l, t.Short) → l.flatMap Tlv.cut = l.flatMap Tlv.wire := by
      intro l
      induction l with
      | nil => intro _; rfl
      | cons t l ih =>
        intro hl
        rw [List.flatMap_cons, List.flatMap_cons, cut_short t (hl t (by simp)), ih (fun x hx => hl x (by simp [hx]))]
    exact key ts fun t ht => (hs t ht).1
  rw [hw]
  exact built_reprint ts (fun t ht => ⟨h1 t ht, (hs t ht).1⟩) (fun t ht => (hs t ht).2)

/-- Other spellings, one normal form. -/
example : str2oxm t!"eth_type=2048 , eth_dst = 01-00-00-00-00-00/FFFF.0000.0000" =
    .ok ([128, 0, 10, 2, 8, 0, 128, 0, 7, 12, 1, 0, 0, 0, 0, 0, 255, 255, 0, 0, 0, 0], 58) := by decide +kernel

example : oxm2str [128, 0, 10, 2, 8, 0, 128, 0, 7, 12, 1, 0, 0, 0, 0, 0, 255, 255, 0, 0, 0, 0] =
    .ok t!"eth_type=0x800,eth_dst=01:00:00:00:00:00/ff:ff:00:00:00:00" := by decide +kernel

/-- C60 is false for masks of fields that have none: they are accepted and sent, but not printed. -/
theorem C60_mask_refuted : ∃ u b text b', str2oxm u = .ok (b, u.length) ∧ oxm2str b = .ok text ∧
    str2oxm text = .ok (b', text.length) ∧ b' ≠ b :=
  ⟨t!"eth_type=0x0800/0xff00", [128, 0, 11, 4, 8, 0, 255, 0], t!"eth_type=0x800", [128, 0, 10, 2, 8, 0],
    by decide +kernel, by decide +kernel, by decide +kernel, by decide⟩

/-- C60 is false for long values: the length byte is cut to 255, and the rest of the value is taken for the
next match. -/
theorem C60_long_refuted : ∃ u b, str2oxm u = .ok (b, u.length) ∧ oxm2str b = .error .keyError :=
  ⟨t!"nxm_tun_metadata0=" ++ (List.replicate 510 '1' ++ t!"80007f00"),
    [0, 1, 80, 255] ++ (List.replicate 255 17 ++ [128, 0, 127, 0]), by decide +kernel, by decide +kernel⟩

end Ofpstr
