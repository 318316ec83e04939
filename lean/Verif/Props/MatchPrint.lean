import Verif.Lemmas.MatchShown

/-!
# What matches are printed as (C76)
-/

namespace Ofpstr
open Spec

/-- C76: `oxm2str` returns a text exactly if every entry of the match has one, and then it returns those
texts, with commas between. -/
theorem C76_match (b : Bytes) (s : Str) :
    oxm2str b = .ok s ↔ ∃ ss, MatchShown b ss ∧ s = joinStr t!"," ss := (outcome_match b).ok s

/-- C76: `oxm2str` raises an exception exactly if some entry is refused with it, and the ones before have
texts. -/
theorem C76_match_error (b : Bytes) (e : Err) : oxm2str b = .error e ↔ MatchFails b e := (outcome_match b).error e

/-- C76: the same for one entry, `loop=False`. -/
theorem C76_entry (b : Bytes) (s : Str) :
    oxm2str1 b = .ok s ↔ (b.length < 4 ∧ s = []) ∨ EntryText b s := (outcome_match1 b).ok s

/-- C76: the same for one entry, `loop=False`. -/
theorem C76_entry_error (b : Bytes) (e : Err) : oxm2str1 b = .error e ↔ EntryFails b e := (outcome_match1 b).error e

/-- C76: the text of one field, for every body. -/
theorem C76_field (f : Field) (hf : f ∈ fields) (hm : Bool) (b : Bytes) :
    (∃ d, lookupDec (fieldKey f) = some d ∧ (∀ s, decText d b hm = .ok s ↔ f.Shows hm b s) ∧
      ∀ e, decText d b hm = .error e ↔ f.kind.Refuses hm b e) :=
  ⟨decOf f, lookup_decOf f hf, (outcome_field f hf hm b).ok, (outcome_field f hf hm b).error⟩

/-- C76: so every entry has one text or one exception. -/
theorem C76_entry_one (b : Bytes) (h : 4 ≤ b.length) :
    ((∃! s, EntryText b s) ∧ ¬ ∃ e, EntryFails b e) ∨ ((∃! e, EntryFails b e) ∧ ¬ ∃ s, EntryText b s) := by
  have h1 := C76_entry b
  have h2 := C76_entry_error b
  cases ho : oxm2str1 b with
  | ok s =>
    refine Or.inl ⟨⟨s, ?_, ?_⟩, ?_⟩
    · rcases (h1 s).1 ho with h | h
      · omega
      · exact h
    · intro t ht
      have := (h1 t).2 (Or.inr ht)
      rw [ho] at this
      exact (Except.ok.inj this).symm
    · rintro ⟨e, he⟩
      have := (h2 e).2 he
      rw [ho] at this
      cases this
  | error e =>
    refine Or.inr ⟨⟨e, (h2 e).1 ho, ?_⟩, ?_⟩
    · intro e' he
      have := (h2 e').2 he
      rw [ho] at this
      exact (Except.error.inj this).symm
    · rintro ⟨t, ht⟩
      have := (h1 t).2 (Or.inr ht)
      rw [ho] at this
      cases this

/-- C76: `oxmid2str` returns the names of the headers. -/
theorem C76_ids (b : Bytes) (s : Str) :
    oxmid2str b = .ok s ↔ ∃ ss, HeadsShown b ss ∧ s = joinStr t!"," ss := (outcome_ids b).ok s

/-- C76: `oxmid2str` raises exactly if a header is refused. -/
theorem C76_ids_error (b : Bytes) (e : Err) : oxmid2str b = .error e ↔ HeadsFail b e := (outcome_ids b).error e

/-- C76: the same for one header, `loop=False`. -/
theorem C76_id (b : Bytes) (s : Str) :
    oxmid2str1 b = .ok s ↔ (b.length < 4 ∧ s = []) ∨ ∃ r, HeadShown b s r := (outcome_id1 b).ok s

/-- C76: the same for one header, `loop=False`. -/
theorem C76_id_error (b : Bytes) (e : Err) : oxmid2str1 b = .error e ↔ HeadFails b e := (outcome_id1 b).error e

/-! ## Cases -/

/-- A port, a masked VLAN whose body has the wrong length, an entry of an unknown class, and two bytes more. -/
def oddMatch : Bytes := [0x80, 0, 0, 4, 0xff, 0xff, 0xff, 0xfd, 0x80, 0, 13, 3, 0x10, 0x01, 0x02, 0x12, 0x34, 0, 1, 9, 7, 7]

example : ∃ ss, MatchShown oddMatch ss ∧ t!"in_port=controller,vlan_vid=0x10/0x102,?" = joinStr t!"," ss :=
  (C76_match oddMatch _).1 (by decide +kernel)

/-- The body of an address is too short: the exception is that of `inet_ntoa`; of one too long, `AssertionError`. -/
example : MatchFails [0x80, 0, 0, 4, 0, 0, 0, 1, 0x80, 0, 22, 3, 10, 0, 0] .osError ∧
    MatchFails [0x80, 0, 22, 5, 10, 0, 0, 1, 2] .assertionError ∧
    MatchFails [0x80, 0, 52, 4, 10, 0, 0, 1] .valueError ∧ MatchFails [0x80, 0, 6, 4, 10, 0, 0, 1] .structError ∧
    MatchFails [0x80, 0, 0xfe, 0] .keyError ∧ MatchFails [0xff, 0xff, 0, 4, 0, 0, 0] .structError :=
  ⟨(C76_match_error _ _).1 (by decide +kernel), (C76_match_error _ _).1 (by decide +kernel),
    (C76_match_error _ _).1 (by decide +kernel), (C76_match_error _ _).1 (by decide +kernel),
    (C76_match_error _ _).1 (by decide +kernel), (C76_match_error _ _).1 (by decide +kernel)⟩

/-- Not by running the model: the rules for a port that has a name. -/
example : EntryText [0x80, 0, 0, 4, 0xff, 0xff, 0xff, 0xfd] t!"in_port=controller" := by
  have h := EntryText.field ⟨t!"in_port", 0x8000, 0, .port 4, false⟩ false 4 [0xff, 0xff, 0xff, 0xfd] t!"in_port=controller"
    (by decide) (by decide) (by decide) (by
      unfold Field.Shows
      rw [if_neg (by decide)]
      exact ⟨t!"controller", ⟨rfl, (portShown_iff 4 (Or.inr rfl) _ _).2 ⟨rfl, by decide +kernel⟩⟩, by decide⟩)
  exact h

/-- Headers only: the lengths say 4, but there are no bodies. -/
example : ∃ ss, HeadsShown [0x80, 0, 0, 4, 0, 1, 0, 4, 0xff, 0xff, 4, 5, 0xff, 0, 0xe0, 0x4d] ss ∧
    t!"in_port,nxm_reg0,dot11" = joinStr t!"," ss := by
  refine (C76_ids _ _).1 ?_
  decide +kernel

end Ofpstr
