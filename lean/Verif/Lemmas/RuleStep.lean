import Verif.Lemmas.RuleArgs

/-!
# Which exceptions one word of a rule raises
-/

set_option linter.unusedSimpArgs false
set_option linter.unusedVariables false

namespace Ofpstr
open Spec

theorem matchItem_shorter {u v r : Str} {t : Tlv} (h : MatchItem u v t r) : r.length < u.length := by
  obtain ⟨hd, op, r1, h1, h2, _, h4, _⟩ := h
  have e1 := h1.1
  have e2 := h2.1
  have : 0 < op.length := List.length_pos_of_mem h4
  rw [e1, e2]
  simp only [List.length_append]
  omega

theorem oxm1_zero {u : Str} {b : Bytes} (h : str2oxm1 u = .ok (b, 0)) : u = [] := by
  rcases (str2oxm1_matchItem _ _ _).1 h with ⟨h, _⟩ | ⟨t, r, h, _, hl⟩ | ⟨v, t, r, h, _, _, hl⟩
  · exact h
  · have := matchItem_shorter h; omega
  · have := matchItem_shorter h; omega

/-! ## The names -/

theorem mem_apart {n : Str} {l l' : List Str} (h : n ∈ l) (hl : ∀ x ∈ l, x ∉ l') : n ∉ l' := hl n h
theorem mem_sub {n : Str} {l l' : List Str} (h : n ∈ l) (hl : ∀ x ∈ l, x ∈ l') : n ∈ l' := hl n h

theorem fkey_inj {k k' : FKey} (h : k.name = k'.name) : k = k' := by revert h; cases k <;> cases k' <;> decide

theorem keyRejects_key (k : FKey) (t : Str) (e : Err) : KeyRejects k.name t e ↔ EqRejects k.parts t e := by
  constructor
  · intro h
    generalize hn : k.name = n at h
    cases h with
    | key k' _ _ h => rw [fkey_inj hn]; exact h
    | cookie => exact absurd hn (names_apart.1 k).2.1
    | item _ _ _ h1 => rw [← hn] at h1; exact absurd (names_apart.1 k).1 h1
    | nothing => exact absurd hn (by cases k <;> decide)
  · exact .key k t e

theorem keyRejects_cookie (t : Str) (e : Err) : KeyRejects t!"cookie" t e ↔ EqRejects cookieParts t e := by
  constructor
  · intro h
    generalize hn : t!"cookie" = n at h
    cases h with
    | key k' _ _ h => exact absurd hn.symm (names_apart.1 k').2.1
    | cookie _ _ h => exact h
    | item _ _ _ h1 => rw [← hn] at h1; exact absurd (by decide) h1
    | nothing => cases hn
  · exact .cookie t e

theorem keyRejects_flag {n t : Str} {b : Nat} (hb : (n, b) ∈ flagWords) (e : Err) : ¬ KeyRejects n t e := by
  intro h
  cases h with
  | key k' _ _ h => exact (names_apart.1 k').2.2 b hb
  | cookie =>
    have key : ∀ e ∈ flagWords, e.1 ≠ t!"cookie" := by decide
    exact key _ hb rfl
  | item _ _ _ h1 => exact h1 (flagName_mem hb)
  | nothing => exact absurd (flagName_mem hb) (by decide)

theorem keyRejects_other {n t : Str} (hn : n ∉ matchKeys) (e : Err) :
    KeyRejects n t e ↔ (n ++ t ≠ [] ∧ ItemRejects (n ++ t) e) ∨ (n ++ t = [] ∧ e = .valueError) := by
  constructor
  · intro h
    cases h with
    | key k' _ _ h => exact absurd (names_apart.1 k').1 hn
    | cookie => exact absurd (by decide) hn
    | item _ _ _ h1 h2 h3 => exact Or.inl ⟨h2, h3⟩
    | nothing => exact Or.inr ⟨rfl, rfl⟩
  · rintro (⟨h1, h2⟩ | ⟨h1, rfl⟩)
    · exact .item n t e hn h1 h2
    · obtain ⟨rfl, rfl⟩ := List.append_eq_nil_iff.1 h1
      exact .nothing

theorem dictMatch_fails (n : Str) (i : Info) (t : Str) : Fails (dictMatch n i t) (KeyRejects n t) := by
  by_cases hn : n ∈ matchKeys
  · rcases matchKeys_cases n hn with ⟨k, rfl⟩ | rfl | ⟨b, hb⟩
    · refine fails_congr ?_ fun e => (keyRejects_key k t e).symm
      have num : ∀ (f : Int → Info), Fails ((do let (n, s) ← procArg t; Except.ok (f n, s)) : Py (Info × Str)) (EqRejects unmaskedParts t) :=
        fun f => fails_then (f := fun x : Int × Str => (.ok (f x.1, x.2) : Py (Info × Str))) (procArg_fails t) (fun a => ⟨_, rfl⟩)
      cases k
      · exact num (fun n => setKey .table n i)
      · exact num (fun n => setKey .priority n i)
      · exact num (fun n => setKey .idle n i)
      · exact num (fun n => setKey .hard n i)
      · exact num (fun n => setKey .buffer n i)
      · exact fails_then (f := fun x : Int × Str => (.ok (setKey .outPort x.1 i, x.2) : Py (Info × Str)))
          (nameArg_fails fails_nameOrPort t) (fun a => ⟨_, rfl⟩)
      · exact fails_then (f := fun x : Int × Str => (.ok (setKey .outGroup x.1 i, x.2) : Py (Info × Str)))
          (nameArg_fails fails_groupName t) (fun a => ⟨_, rfl⟩)
    · exact fails_congr (cookie_fails i t) fun e => (keyRejects_cookie t e).symm
    · exact fails_none (dictMatch_flag n b hb i t) fun e => keyRejects_flag hb e
  · intro e
    rw [dictMatch_oxm n hn, keyRejects_other hn, bindErr]
    constructor
    · rintro (h | ⟨⟨b, l⟩, h1, h2⟩)
      · exact Or.inl ((str2oxm1_rejects _ _).1 h)
      · dsimp only at h2
        split at h2
        · rename_i hl
          have hl : l = 0 := by simpa using hl
          subst hl
          cases h2
          exact Or.inr ⟨oxm1_zero h1, rfl⟩
        · cases h2
    · rintro (h | ⟨h, rfl⟩)
      · exact Or.inl ((str2oxm1_rejects _ _).2 h)
      · rw [h]
        exact Or.inr ⟨([], 0), by decide +kernel, rfl⟩

/-! ## Instructions -/

theorem instNames_cases {n : Str} (h : n ∈ instNames) : n ∈ [t!"@goto", t!"@goto_table"] ∨ n ∈ [t!"@metadata", t!"@write_metadata"] ∨
    n ∈ [t!"@apply", t!"@apply_actions"] ∨ n ∈ [t!"@write", t!"@write_actions"] ∨ n ∈ [t!"@clear", t!"@clear_actions"] ∨ n = t!"@meter" := by
  simp only [instNames, List.mem_cons, List.not_mem_nil, or_false] at h ⊢
  tauto

/-- The instruction of a word that has no actions. -/
def instOf : Word → Option Inst
  | .goto n => some (.goto n)
  | .metadata n m => some (.metadata n m)
  | .clear => some .clear
  | .meter n => some (.meter n)
  | _ => none

/-- An instruction word that reads well and does not fit. -/
def TooLarge (n t : Str) : Prop := ∃ w u i, Body oxmP actP n t w u ∧ instOf w = some i ∧ ¬ i.Fits

theorem instRejects_goto {n t : Str} (hn : n ∈ [t!"@goto", t!"@goto_table"]) (e : Err) :
    InstRejects n t e ↔ EqRejects numberParts t e := by
  constructor
  · intro h
    cases h with
    | unknown _ _ h => exact absurd (mem_sub hn (by decide)) h
    | goto _ _ _ _ h => exact h
    | metadata _ _ _ h => exact absurd h (mem_apart hn (by decide))
    | meter => exact absurd hn (by decide)
  · exact .goto n t e hn

theorem instRejects_metadata {n t : Str} (hn : n ∈ [t!"@metadata", t!"@write_metadata"]) (e : Err) :
    InstRejects n t e ↔ EqRejects maskedParts t e := by
  constructor
  · intro h
    cases h with
    | unknown _ _ h => exact absurd (mem_sub hn (by decide)) h
    | goto _ _ _ h => exact absurd h (mem_apart hn (by decide))
    | metadata _ _ _ _ h => exact h
    | meter => exact absurd hn (by decide)
  · exact .metadata n t e hn

theorem instRejects_meter {t : Str} (e : Err) : InstRejects t!"@meter" t e ↔ EqRejects unmaskedParts t e := by
  constructor
  · intro h
    generalize hn : t!"@meter" = n at h
    cases h with
    | unknown _ _ h => rw [← hn] at h; exact absurd (by decide) h
    | goto _ _ _ h => rw [← hn] at h; exact absurd h (by decide)
    | metadata _ _ _ h => rw [← hn] at h; exact absurd h (by decide)
    | meter _ _ h => exact h
  · exact .meter t e

theorem instRejects_acts {n t : Str} (hn : n ∈ [t!"@apply", t!"@apply_actions"] ∨ n ∈ [t!"@write", t!"@write_actions"] ∨
    n ∈ [t!"@clear", t!"@clear_actions"]) (e : Err) : ¬ InstRejects n t e := by
  have hn : n ∈ [t!"@apply", t!"@apply_actions", t!"@write", t!"@write_actions", t!"@clear", t!"@clear_actions"] := by
    simp only [List.mem_cons, List.not_mem_nil, or_false] at hn ⊢
    tauto
  intro h
  cases h with
  | unknown _ _ h => exact absurd (mem_sub hn (by decide)) h
  | goto _ _ _ h => exact absurd h (mem_apart hn (by decide))
  | metadata _ _ _ h => exact absurd h (mem_apart hn (by decide))
  | meter => exact absurd hn (by decide)

theorem body_onlyActs {n t u : Str} {w : Word} {i : Inst} (hb : Body oxmP actP n t w u) (hi : instOf w = some i) :
    (n ∈ [t!"@goto", t!"@goto_table"] ∧ ∃ k, i = .goto k ∧ intArg t = .ok (k, u)) ∨
    (n ∈ [t!"@metadata", t!"@write_metadata"] ∧ ∃ k m, i = .metadata k m ∧ metaArg t = .ok (k, m, u)) ∨
    (n ∈ [t!"@clear", t!"@clear_actions"] ∧ i = .clear) ∨ (n = t!"@meter" ∧ ∃ k, i = .meter k ∧ procArg t = .ok (k, u)) := by
  cases hb with
  | goto _ _ op pl k _ h1 h2 h3 h4 =>
    cases hi
    exact Or.inl ⟨h1, k, rfl, (intArg_iff _ _ _).2 ⟨op, pl, h2, h3, h4⟩⟩
  | metadata _ _ op pl k _ h1 h2 h3 h4 =>
    cases hi
    exact Or.inr (Or.inl ⟨h1, k, 0, rfl, (metaArg_iff _ _ _ _).2 (Or.inl ⟨op, pl, h2, h3, h4, rfl⟩)⟩)
  | metadataMask _ _ op v m k w _ h1 h2 h3 h4 h5 =>
    cases hi
    exact Or.inr (Or.inl ⟨h1, k, w, rfl, (metaArg_iff _ _ _ _).2 (Or.inr ⟨op, v, m, h2, h3, h4, h5⟩)⟩)
  | clear _ _ h1 => cases hi; exact Or.inr (Or.inr (Or.inl ⟨h1, rfl⟩))
  | meter _ op pl k _ h2 h3 h4 =>
    cases hi
    exact Or.inr (Or.inr (Or.inr ⟨rfl, k, rfl, (procArg_iff _ _ _).2 ⟨op, pl, h2, h3, h4⟩⟩))
  | _ => cases hi

theorem dictInst_err (n : Str) (i : Info) (a : Bytes) (t : Str) (e : Err) :
    dictInst n i a t = .error e ↔ InstRejects n t e ∨ (e = .structError ∧ TooLarge n t) := by
  by_cases hn : n ∈ instNames
  · rcases instNames_cases hn with h | h | h | h | h | rfl
    · rw [dictInst_goto n h, bindErr, instRejects_goto h, intArg_fails t e]
      refine or_congr Iff.rfl ?_
      constructor
      · rintro ⟨⟨k, u⟩, h1, h2⟩
        dsimp only at h2
        split at h2
        · cases h2
        · rename_i hf
          cases h2
          obtain ⟨op, pl, h3, h4, h5⟩ := (intArg_iff _ _ _).1 h1
          exact ⟨rfl, _, _, _, .goto n t op pl k u h h3 h4 h5, rfl, hf⟩
      · rintro ⟨rfl, w, u, j, hb, hj, hf⟩
        rcases body_onlyActs hb hj with ⟨_, k, rfl, h1⟩ | ⟨h', _⟩ | ⟨h', _⟩ | ⟨rfl, _⟩
        · exact ⟨_, h1, if_neg hf⟩
        · exact absurd h' (mem_apart h (by decide))
        · exact absurd h' (mem_apart h (by decide))
        · exact absurd h (by decide)
    · rw [dictInst_metadata n h, bindErr, instRejects_metadata h, metaArg_fails t e]
      refine or_congr Iff.rfl ?_
      constructor
      · rintro ⟨⟨k, m, u⟩, h1, h2⟩
        dsimp only at h2
        split at h2
        · cases h2
        · rename_i hf
          cases h2
          rcases (metaArg_iff _ _ _ _).1 h1 with ⟨op, pl, h3, h4, h5, rfl⟩ | ⟨op, v, m', h3, h4, h5, h6⟩
          · exact ⟨rfl, _, _, _, .metadata n t op pl k u h h3 h4 h5, rfl, hf⟩
          · exact ⟨rfl, _, _, _, .metadataMask n t op v m' k m u h h3 h4 h5 h6, rfl, hf⟩
      · rintro ⟨rfl, w, u, j, hb, hj, hf⟩
        rcases body_onlyActs hb hj with ⟨h', _⟩ | ⟨_, k, m, rfl, h1⟩ | ⟨h', _⟩ | ⟨rfl, _⟩
        · exact absurd h' (mem_apart h (by decide))
        · exact ⟨_, h1, if_neg hf⟩
        · exact absurd h' (mem_apart h (by decide))
        · exact absurd h (by decide)
    · rw [(dictInst_acts n i a t).1 h]
      refine ⟨fun h => by (cases h), ?_⟩
      rintro (h1 | ⟨rfl, w, u, j, hb, hj, hf⟩)
      · exact absurd h1 (instRejects_acts (Or.inl h) e)
      · rcases body_onlyActs hb hj with ⟨h', _⟩ | ⟨h', _⟩ | ⟨h', _⟩ | ⟨rfl, _⟩
        · exact absurd h' (mem_apart h (by decide))
        · exact absurd h' (mem_apart h (by decide))
        · exact absurd h' (mem_apart h (by decide))
        · exact absurd h (by decide)
    · rw [(dictInst_acts n i a t).2.1 h]
      refine ⟨fun h => by (cases h), ?_⟩
      rintro (h1 | ⟨rfl, w, u, j, hb, hj, hf⟩)
      · exact absurd h1 (instRejects_acts (Or.inr (Or.inl h)) e)
      · rcases body_onlyActs hb hj with ⟨h', _⟩ | ⟨h', _⟩ | ⟨h', _⟩ | ⟨rfl, _⟩
        · exact absurd h' (mem_apart h (by decide))
        · exact absurd h' (mem_apart h (by decide))
        · exact absurd h' (mem_apart h (by decide))
        · exact absurd h (by decide)
    · rw [(dictInst_acts n i a t).2.2 h]
      refine ⟨fun h => by (cases h), ?_⟩
      rintro (h1 | ⟨rfl, w, u, j, hb, hj, hf⟩)
      · exact absurd h1 (instRejects_acts (Or.inr (Or.inr h)) e)
      · rcases body_onlyActs hb hj with ⟨h', _⟩ | ⟨h', _⟩ | ⟨_, rfl⟩ | ⟨rfl, _⟩
        · exact absurd h' (mem_apart h (by decide))
        · exact absurd h' (mem_apart h (by decide))
        · exact absurd trivial hf
        · exact absurd h (by decide)
    · rw [dictInst_meter, bindErr, instRejects_meter, procArg_fails t e]
      refine or_congr Iff.rfl ?_
      constructor
      · rintro ⟨⟨k, u⟩, h1, h2⟩
        dsimp only at h2
        split at h2
        · cases h2
        · rename_i hf
          cases h2
          obtain ⟨op, pl, h3, h4, h5⟩ := (procArg_iff _ _ _).1 h1
          exact ⟨rfl, _, _, _, .meter t op pl k u h3 h4 h5, rfl, hf⟩
      · rintro ⟨rfl, w, u, j, hb, hj, hf⟩
        rcases body_onlyActs hb hj with ⟨h', _⟩ | ⟨h', _⟩ | ⟨h', _⟩ | ⟨_, k, rfl, h1⟩
        · exact absurd h' (by decide)
        · exact absurd h' (by decide)
        · exact absurd h' (by decide)
        · exact ⟨_, h1, if_neg hf⟩
  · rw [dictInst_unknown n hn]
    constructor
    · intro h; cases h; exact Or.inl (.unknown n t hn)
    · rintro (h | ⟨rfl, w, u, j, hb, hj, hf⟩)
      · cases h with
        | unknown => rfl
        | goto _ _ _ h => exact absurd (mem_sub h (by decide)) hn
        | metadata _ _ _ h => exact absurd (mem_sub h (by decide)) hn
        | meter => exact absurd (by decide) hn
      · rcases body_onlyActs hb hj with ⟨h', _⟩ | ⟨h', _⟩ | ⟨h', _⟩ | ⟨rfl, _⟩
        · exact absurd (mem_sub h' (by decide)) hn
        · exact absurd (mem_sub h' (by decide)) hn
        · exact absurd (mem_sub h' (by decide)) hn
        · exact absurd (by decide) hn

end Ofpstr
