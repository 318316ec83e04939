import Verif.Lemmas.MpRejects
import Verif.Props.MatchReject

/-!
# Which kinds of exceptions texts raise
-/

set_option linter.unusedSimpArgs false
set_option linter.unusedVariables false

namespace Ofpstr
open Spec

/-- Neither a `NameError` nor an endless loop. -/
def Mild (e : Err) : Prop := e ≠ .nameError ∧ e ≠ .loops

def AllMild (p : Refuses) : Prop := ∀ e, p e → Mild e

theorem mild_first {ps : List Refuses} (h : ∀ p ∈ ps, AllMild p) : AllMild (FirstWrong ps) := by
  intro e he
  induction ps with
  | nil => cases he
  | cons p ps ih =>
    rcases he with he | ⟨_, he⟩
    · exact h p (by simp) e he
    · exact ih (fun q hq => h q (by simp [hq])) he

theorem mild_stops {ps : List Refuses} {good : Prop} (h : ∀ p ∈ ps, AllMild p) : AllMild (Stops ps good) := by
  rintro e (he | ⟨_, _, rfl⟩)
  · exact mild_first h e he
  · exact ⟨by simp, by simp⟩

theorem mild_needs {p : Prop} {k : Err} (h : Mild k) : AllMild (Needs p k) := by
  rintro e ⟨_, rfl⟩; exact h

theorem mild_loose (s : Str) : AllMild (LooseRejects s) := by
  rintro e ⟨_, rfl⟩; simp [Mild]

theorem mild_whole (s : Str) : AllMild (WholeRejects s) := by
  intro e h; cases h <;> simp [Mild]

theorem mild_looseAll (ts : List Str) : AllMild (LooseAll ts) := by
  rintro e ⟨_, rfl⟩; simp [Mild]

theorem mild_func (s : Str) : AllMild (FuncRejects s) := mild_needs (by simp [Mild])

theorem mild_port (s : Str) : AllMild (PortNameRejects s) := fun e h => mild_whole s e h.2

theorem mild_resubmitPort (s : Str) : AllMild (ResubmitPortRejects s) := by
  intro e h
  cases h with
  | word _ _ h => exact mild_whole s e h
  | big => simp [Mild]

theorem mild_bits (s : Str) : AllMild (BitsRejects s) := by
  intro e h
  cases h with
  | func _ h => exact mild_func s e h
  | field => simp [Mild]
  | range => simp [Mild]

theorem mild_start (x : Bool) (s : Str) : AllMild (StartRejects x s) := by
  intro e h
  cases h with
  | func _ h => exact mild_func s e h
  | field => simp [Mild]
  | range => simp [Mild]

theorem mild_end (s : Str) : AllMild (EndMissing s) := by
  rintro e ⟨_, rfl⟩; simp [Mild]

theorem mild_bounds (s : Str) : AllMild (BoundsRejects s) := by
  intro e h; cases h <;> simp [Mild]

theorem mild_slaves (s : Str) : AllMild (SlavesRejects s) := by
  intro e h
  cases h with
  | func _ h => exact mild_func s e h
  | name => simp [Mild]
  | number => simp [Mild]

theorem mild_learnSource (s : Str) : AllMild (LearnSourceRejects s) := by
  intro e h
  cases h with
  | func _ h => exact mild_func s e h
  | number => simp [Mild]
  | exper => simp [Mild]
  | range _ _ _ _ _ _ _ h => exact mild_bounds _ e h
  | offset => simp [Mild]

theorem mild_learnDest (s : Str) : AllMild (LearnDestRejects s) := by
  intro e h
  cases h with
  | func _ h => exact mild_func s e h
  | field => simp [Mild]
  | range _ _ _ _ _ _ _ h => exact mild_bounds _ e h

theorem mild_learnSpec (s : Str) (dst mode : Option Str) : AllMild (LearnSpecRejects s dst mode) := by
  refine mild_stops ?_
  unfold specParts
  simp only [List.forall_mem_cons]
  refine ⟨mild_learnSource s, ?_⟩
  split
  · simp
  · cases dst with
    | none =>
      simp only [List.forall_mem_cons, List.not_mem_nil, false_implies, implies_true, and_true]
      rintro e rfl; simp [Mild]
    | some d =>
      simp only [List.forall_mem_cons, List.not_mem_nil, false_implies, implies_true, and_true]
      exact ⟨mild_learnDest d, mild_needs (by simp [Mild])⟩

theorem mild_learnWord (s : Str) : AllMild (LearnWordRejects s) := by
  intro e h
  cases h with
  | func _ _ h => exact mild_func s e h
  | bare => simp [Mild]
  | equals => simp [Mild]
  | spec _ _ _ _ _ _ _ _ _ _ _ _ _ _ h => exact mild_learnSpec _ _ _ e h

theorem mild_learn (s : Str) : AllMild (LearnRejects s) := by
  intro e h
  induction h with
  | noDest _ _ _ _ _ _ _ h => exact mild_learnSpec _ _ _ _ h
  | set => simp [Mild]
  | spec _ _ _ _ _ _ _ _ _ _ _ _ _ h => exact mild_learnSpec _ _ _ _ h
  | word _ _ _ _ _ _ _ _ _ h => exact mild_learnWord _ _ h
  | afterSet _ _ _ _ _ _ _ _ _ _ _ _ _ _ _ _ _ _ ih => exact ih
  | afterSpec _ _ _ _ _ _ _ _ _ _ _ _ _ _ _ _ ih => exact ih
  | afterWord _ _ _ _ _ _ _ _ _ _ _ _ ih => exact ih

theorem mild_item (s : Str) : AllMild (ItemRejects s) := by
  intro e h
  cases h with
  | equals => simp [Mild]
  | name => simp [Mild]
  | value _ _ _ _ _ _ _ _ _ _ _ _ h => exact ⟨(rejects_no_key h).2.1, (rejects_no_key h).2.2⟩

theorem mild_regItem (s : Str) : AllMild (RegItem s) := by
  rintro e (⟨_, rfl⟩ | ⟨_, h⟩)
  · simp [Mild]
  · exact mild_item s e h

theorem mild_args {eq : Bool} {n u : Str} {ps : List Refuses} (h : ArgParts eq n u ps) : ∀ p ∈ ps, AllMild p := by
  have n1 : ∀ p : Prop, AllMild (Needs p .assertionError) := fun p => mild_needs (by simp [Mild])
  have n2 : ∀ p : Prop, AllMild (Needs p .valueError) := fun p => mild_needs (by simp [Mild])
  have n3 : ∀ p : Prop, AllMild (Needs p .typeError) := fun p => mild_needs (by simp [Mild])
  have n4 : ∀ p : Prop, AllMild (Needs p .structError) := fun p => mild_needs (by simp [Mild])
  have n5 : ∀ ws s, AllMild (OneOf ws s) := fun ws s => n2 _
  cases h with
  | std a h v r =>
    split <;> simp [mild_loose, mild_whole]
  | brackets =>
    unfold Brackets
    simp only [List.forall_mem_cons, List.not_mem_nil, false_implies, implies_true, and_true]
    rintro e rfl; simp [Mild]
  | resubmitTable =>
    simp only [List.forall_mem_cons, List.not_mem_nil, false_implies, implies_true, and_true]
    exact ⟨mild_resubmitPort _, fun e h => mild_whole _ e h.2.2⟩
  | outputReg =>
    simp only [List.forall_mem_cons, List.not_mem_nil, false_implies, implies_true, and_true]
    exact ⟨mild_start _ _, fun e h => mild_loose _ e h.2, mild_end _⟩
  | _ => simp [n1, n2, n3, n4, n5, mild_loose, mild_whole, mild_looseAll, mild_port, mild_resubmitPort, mild_bits, mild_start, mild_end,
      mild_slaves, mild_learn, mild_regItem]

theorem mild_arg (eq : Bool) (n u : Str) : AllMild (ArgRejects eq n u) := by
  rintro e ⟨ps, h, hs⟩
  exact mild_stops (mild_args h) e hs

theorem mild_set (u : Str) : AllMild (SetRejects u) := by
  rintro e (⟨_, h⟩ | ⟨_, _, _, _, _, _, rfl⟩)
  · exact mild_item u e h
  · simp [Mild]

/-- Actions raise neither. -/
theorem mild_act (s : Str) : AllMild (ActRejects s) := by
  intro e h
  cases h with
  | func _ _ _ _ _ h => exact mild_func _ e h
  | call _ _ _ _ _ _ _ _ _ _ h => exact mild_arg _ _ _ e h
  | plain _ _ _ _ _ _ h => exact mild_arg _ _ _ e h
  | setCall _ _ _ _ _ _ _ _ _ _ _ _ _ _ h => exact mild_set _ e h
  | setPlain _ _ _ _ _ _ _ _ _ _ _ _ _ _ h => exact mild_set _ e h

/-! ## Rules -/

theorem mild_eq {parts : Str → List Refuses} (h : ∀ s, ∀ p ∈ parts s, AllMild p) (t : Str) : AllMild (EqRejects parts t) := by
  rintro e ⟨op, p, r, _, he⟩
  refine mild_first ?_ e he
  simp only [List.forall_mem_cons]
  exact ⟨mild_needs (by simp [Mild]), h p⟩

theorem mild_number (t : Str) : AllMild (EqRejects numberParts t) := mild_eq (fun s => by simp [numberParts, mild_whole]) t

theorem mild_unmasked (t : Str) : AllMild (EqRejects unmaskedParts t) :=
  mild_eq (fun s => by
    unfold unmaskedParts
    simp only [List.forall_mem_cons, List.not_mem_nil, false_implies, implies_true, and_true]
    exact ⟨mild_needs (by simp [Mild]), mild_whole s⟩) t

theorem mild_masked (t : Str) : AllMild (EqRejects maskedParts t) :=
  mild_eq (fun s => by
    unfold maskedParts
    simp only [List.forall_mem_cons, List.not_mem_nil, false_implies, implies_true, and_true]
    exact ⟨fun e ⟨v, _, h⟩ => mild_whole v e h, fun e ⟨v, _, h⟩ => mild_whole v e h⟩) t

theorem mild_cookie (t : Str) : AllMild (EqRejects cookieParts t) :=
  mild_eq (fun s => by
    unfold cookieParts
    simp only [List.forall_mem_cons, List.not_mem_nil, false_implies, implies_true, and_true]
    exact ⟨fun e ⟨v, _, h⟩ => mild_whole v e h, fun e ⟨v, _, h⟩ => mild_loose v e h⟩) t

theorem mild_key (k : FKey) (t : Str) : AllMild (EqRejects k.parts t) :=
  mild_eq (fun s => by
    unfold FKey.parts
    simp only [List.forall_mem_cons, List.not_mem_nil, false_implies, implies_true, and_true]
    refine ⟨mild_needs (by simp [Mild]), ?_⟩
    split
    · exact mild_port s
    · exact fun e h => mild_whole s e h.2
    · exact mild_whole s) t

theorem mild_word (p : Place) (s : Str) : AllMild (WordRejects p s) := by
  intro e h
  cases h with
  | equals => simp [Mild]
  | inst =>
    rename_i h
    cases h with
    | unknown => simp [Mild]
    | goto _ _ _ _ h => exact mild_number _ e h
    | metadata _ _ _ _ h => exact mild_masked _ e h
    | meter _ _ h => exact mild_unmasked _ e h
  | key =>
    rename_i h
    cases h with
    | key k _ _ h => exact mild_key k _ e h
    | cookie _ _ h => exact mild_cookie _ e h
    | item _ _ _ _ _ h => exact mild_item _ e h
    | nothing => simp [Mild]
  | act =>
    rename_i h
    cases h with
    | action _ h => exact mild_act _ e h
    | nothing => simp [Mild]
  | late => simp [Mild]

theorem mild_rule (s : Str) : AllMild (RuleRejects s) := by
  intro e h
  cases h with
  | word _ _ _ _ _ _ _ _ h => exact mild_word _ _ e h
  | size => simp [Mild]
  | close => simp [Mild]

theorem mild_flow (c x : Int) (s : Str) : AllMild (FlowRejects c x s) := by
  rintro e (h | ⟨rfl, _⟩)
  · exact mild_rule s e h
  · simp [Mild]

/-! ## Groups -/

theorem mild_bucket (s : Str) : AllMild (BucketRejects s) := by
  intro e h
  induction h with
  | word s e _ h =>
    cases h with
    | equals => simp [Mild]
    | number _ _ _ _ _ _ _ h => exact mild_number _ e h
    | action _ _ _ _ _ _ _ _ h => exact mild_act _ e h
  | later _ _ _ _ _ _ _ ih => exact ih

theorem mild_group (c x : Int) (s : Str) : AllMild (GroupRejects c x s) := by
  intro e h
  cases h with
  | head _ h =>
    induction h with
    | id _ _ _ _ _ _ _ _ _ _ h => exact mild_whole _ _ h
    | later _ _ _ _ _ _ _ ih => exact ih
  | buckets gs u _ hh h =>
    clear hh
    induction h with
    | bucket _ _ _ h => exact mild_bucket _ _ h
    | size => simp [Mild]
    | other => simp [Mild]
    | skip _ _ _ _ _ _ _ _ _ _ ih => exact ih
    | later _ _ _ _ _ _ _ _ ih => exact ih
  | size => simp [Mild]

/-! ## Lines -/

theorem mild_stat (s : Str) : AllMild (StatRejects s) := by
  rintro e (h | ⟨_, _, _, h⟩)
  · induction h with
    | number _ _ _ _ _ _ _ _ h => exact mild_unmasked _ _ h
    | later _ _ _ _ _ _ _ _ _ _ _ _ ih => exact ih
  · exact mild_rule _ e h

theorem mild_flowSize (type : Int) (s : Str) : AllMild (FlowSize type s) := by
  rintro e ⟨rfl, _⟩; simp [Mild]

theorem mild_desc (s : Str) : AllMild (DescRejects s) := by
  intro e h
  cases h with
  | head _ h =>
    induction h with
    | id _ _ _ _ _ h => exact mild_unmasked _ _ h
    | later _ _ _ _ _ _ _ ih => exact ih
  | buckets gs u _ hh h =>
    clear hh
    induction h with
    | bucket _ _ _ _ _ _ _ _ h => exact mild_bucket _ _ h
    | size => simp [Mild]
    | mark _ _ _ _ _ _ _ ih => exact ih
    | later _ _ _ _ _ _ _ _ ih => exact ih
  | size => simp [Mild]

theorem mild_headS (s : Str) : AllMild (HeadSRejects s) := by
  intro e h
  induction h with
  | id _ _ _ _ _ h => exact mild_unmasked _ _ h
  | later _ _ _ _ _ _ _ _ _ _ ih => exact ih

theorem mild_gstat (s : Str) : AllMild (GStatRejects s) := by
  intro e h
  cases h with
  | head _ h => exact mild_headS s e h
  | parts ids u _ hh h =>
    clear hh
    generalize groupCounters = names at h
    induction h with
    | number _ _ _ _ _ _ _ _ _ h => exact mild_unmasked _ _ h
    | mark _ _ _ _ _ _ _ _ ih => exact ih
    | count _ _ _ _ _ _ _ _ _ _ _ _ _ ih => exact ih
  | size => simp [Mild]

/-- Lines that are put together raise a `NameError` exactly if some of them, from the first on, are right and
too long together. -/
theorem join_name {Entry : Str → Bytes → Prop} {R : Str → Refuses} (hR : ∀ s, AllMild (R s)) (n : Nat) (hn : 16 + n < 65536) (ls : List Str) :
    JoinRejects Entry R n ls .nameError ↔ ∃ pre post bs, ls = pre ++ post ∧ List.Forall₂ Entry pre bs ∧ 65536 ≤ 16 + (n + bs.flatten.length) := by
  constructor
  · intro h
    generalize he : Err.nameError = e at h
    induction h with
    | line n s ss e h => subst he; exact absurd rfl (hR s _ h).1
    | full n s b ss h1 h2 => exact ⟨[s], ss, [b], rfl, .cons h1 .nil, by simpa using h2⟩
    | later n s b ss e h1 h2 _ ih =>
      obtain ⟨pre, post, bs, rfl, h3, h4⟩ := ih h2 he
      exact ⟨s :: pre, post, b :: bs, rfl, .cons h1 h3, by rw [List.flatten_cons, List.length_append]; omega⟩
  · rintro ⟨pre, post, bs, rfl, h1, h2⟩
    induction h1 generalizing n with
    | nil => simp at h2; omega
    | cons h1 _ ih =>
      rename_i s b ss bs _
      rw [List.flatten_cons, List.length_append] at h2
      by_cases hl : 16 + (n + b.length) < 65536
      · exact .later _ _ _ _ _ h1 hl (ih _ hl (by omega))
      · exact .full _ _ _ _ h1 (by omega)

theorem mp_name {Entry : Str → Bytes → Prop} {R : Str → Refuses} (hR : ∀ s, AllMild (R s)) (type xid : Int) (ls : List Str) :
    MpRejects Entry R type xid ls .nameError ↔ ∃ pre post bs, ls = pre ++ post ∧ List.Forall₂ Entry pre bs ∧ 65536 ≤ 16 + bs.flatten.length := by
  have := join_name (Entry := Entry) hR 0 (by decide) ls
  simp only [Nat.zero_add] at this
  rw [← this]
  exact ⟨fun h => by cases h with | lines _ h => exact h, fun h => .lines _ _ h⟩

/-- What stands behind the first wrong line does not matter. -/
theorem join_behind {Entry : Str → Bytes → Prop} {R : Str → Refuses} (n : Nat) {pre : List Str} {bs : List Bytes} (h : List.Forall₂ Entry pre bs)
    (hl : 16 + (n + bs.flatten.length) < 65536) {s : Str} {e : Err} (hs : R s e) (post : List Str) : JoinRejects Entry R n (pre ++ s :: post) e := by
  induction h generalizing n with
  | nil => exact .line _ _ _ _ hs
  | cons h1 _ ih =>
    rw [List.flatten_cons, List.length_append] at hl
    exact .later _ _ _ _ _ h1 (by omega) (ih _ (by omega))

end Ofpstr
