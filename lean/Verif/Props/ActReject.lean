import Verif.Lemmas.ActRejects
import Verif.Props.ActText
import Verif.Props.MatchReject

/-!
# C80: exactly which exception every text raises that is no action
-/

set_option linter.unusedSimpArgs false
set_option linter.unusedVariables false

namespace Ofpstr
open Spec

/-- C80: `str2act` raises an exception exactly if the text starts with an action that is wrong in a way that
raises it: text behind a closing bracket, arguments of an action of which the first wrong one raises it, or a
field of `set_` that is no match. -/
theorem C80_action_error (s : Str) (e : Err) : str2act s = .error e ↔ ActRejects s e := act_rejects s e

/-- C80: every text is an action or raises one exception. -/
theorem C80_one_way (s : Str) :
    ((∃ b r, ActText s b r) ∧ ¬ ∃ e, ActRejects s e) ∨ ((∃! e, ActRejects s e) ∧ ¬ ∃ b r, ActText s b r) := by
  cases ho : str2act s with
  | ok x =>
    obtain ⟨b, n⟩ := x
    obtain ⟨r, h, _⟩ := (C69_action s b n).1 ho
    refine Or.inl ⟨⟨b, r, h⟩, ?_⟩
    rintro ⟨e, he⟩
    rw [(C80_action_error s e).2 he] at ho
    cases ho
  | error e =>
    refine Or.inr ⟨⟨e, (C80_action_error s e).1 ho, ?_⟩, ?_⟩
    · intro e' he
      rw [(C80_action_error s e').2 he] at ho
      cases ho
      rfl
    · rintro ⟨b, r, h⟩
      rw [(C69_action s b _).2 ⟨r, h, rfl⟩] at ho
      cases ho

/-- C80 for the form with brackets. -/
theorem C80_call (name a rest : Str) (hn : name ∈ actNames) (ha : a ≠ []) (hi : Inside ')' a) (hr : Boundary rest) (e : Err) :
    str2act (name ++ '(' :: a ++ [')'] ++ rest) = .error e ↔ ArgRejects false name a e := by
  obtain ⟨k, hk⟩ := (lookupAct_isSome name).1 hn
  obtain ⟨c, cs, rfl⟩ : ∃ c cs, a = c :: cs := by cases a with | nil => exact absurd rfl ha | cons c cs => exact ⟨c, cs, rfl⟩
  have hno : ∀ n ∈ actNames, ∀ c ∈ n, NotOpen c := by decide +kernel
  have hne : ∀ n ∈ actNames, n ≠ [] := by decide +kernel
  have hcl : ∀ n ∈ actNames, Clean n := by decide +kernel
  have ht : Tok (name ++ '(' :: (c :: cs) ++ [')'] ++ rest) [] (name ++ '(' :: ((c :: cs) ++ [')'])) rest := by
    have := getToken_call [] name (c :: cs) rest head_nil (hcl _ hn) (hne _ hn) hi hr
    have e := eq_tok this
    simpa using e
  have hf : Func (name ++ '(' :: ((c :: cs) ++ [')'])) name (some (c :: cs)) := .call name '(' ')' _ (hno _ hn) .round hi
  rw [act_call ht hf hk]
  exact fails_then (f := fun x : Bytes × Nat => (.ok (x.1, List.length [] + _) : Py (Bytes × Nat)))
    (runAct_rejects hk false (c :: cs)) (fun a => ⟨_, rfl⟩) e

/-- C80 for the form without brackets. -/
theorem C80_plain (name u : Str) (hn : name ∈ actNames) (hu : Boundary u) (e : Err) :
    str2act (name ++ u) = .error e ↔ ArgRejects true name u e := by
  obtain ⟨k, hk⟩ := (lookupAct_isSome name).1 hn
  have hne : ∀ n ∈ actNames, n ≠ [] := by decide +kernel
  have hcl : ∀ n ∈ actNames, Clean n := by decide +kernel
  have ht : Tok (name ++ u) [] name u := by
    have := tok_spaces (sp := []) (x := name) (y := u) (by simp) (hne _ hn)
      (by intro c t e; exact (hcl _ hn c (by rw [e]; simp)).1)
      (Or.inl ⟨token_of_chars (fun c hc => (hcl _ hn c hc).2.2.2) (fun c hc => ⟨(hcl _ hn c hc).notSep, (hcl _ hn c hc).2.2.1⟩), hu⟩)
    simpa using this
  rw [act_plain ht (actNames_bare hn) (Or.inl (Or.inl rfl)) hk]
  exact fails_then (f := fun x : Bytes × Nat => (.ok (x.1, List.length [] + name.length + x.2) : Py (Bytes × Nat)))
    (runAct_rejects hk true u) (fun a => ⟨_, rfl⟩) e

/-- C80: seven actions raise `ValueError` if their arguments are not in brackets, whatever follows. -/
theorem C80_brackets (name u : Str)
    (hn : name ∈ [t!"reg_load", t!"reg_load2", t!"reg_move", t!"multipath", t!"bundle", t!"bundle_load", t!"learn"]) (hu : Boundary u) :
    str2act (name ++ u) = .error .valueError := by
  have key : ∀ n ∈ [t!"reg_load", t!"reg_load2", t!"reg_move", t!"multipath", t!"bundle", t!"bundle_load", t!"learn"], n ∈ actNames := by
    decide +kernel
  exact (C80_plain name u (key _ hn) hu _).2 ⟨_, .brackets name u hn, Or.inl (Or.inl rfl)⟩

/-- C80: a name that is no hash function raises `ValueError`, whatever the other arguments are. -/
theorem C80_hash (name a rest : Str) (hn : name ∈ [t!"multipath", t!"bundle", t!"bundle_load"]) (ha : a ≠ []) (hi : Inside ')' a)
    (hr : Boundary rest) {h w u : Str} (hw : Tok a h w u) (hh : w ∉ hashWords) :
    str2act (name ++ '(' :: a ++ [')'] ++ rest) = .error .valueError := by
  have key : ∀ n ∈ [t!"multipath", t!"bundle", t!"bundle_load"], n ∈ actNames := by decide +kernel
  rw [C80_call name a rest (key _ hn) ha hi hr]
  obtain ⟨ws4, r4, l4, w4⟩ := words_total 4 u
  obtain ⟨ws5, r5, l5, w5⟩ := words_total 5 u
  match ws4, l4, ws5, l5, w4, w5 with
  | [p, q, x, y], _, [p', q', x', y', z'], _, w4, w5 =>
    have hf : ∀ ps, FirstWrong (OneOf hashWords w :: ps) .valueError := fun ps => Or.inl ⟨hh, rfl⟩
    simp only [List.mem_cons, List.not_mem_nil, or_false] at hn
    rcases hn with rfl | rfl | rfl
    · exact ⟨_, .multipath a _ _ _ _ _ _ r5 (.cons a h w u _ _ hw w5), Or.inl (hf _)⟩
    · exact ⟨_, .bundle a _ _ _ _ _ r4 (.cons a h w u _ _ hw w4), Or.inl (hf _)⟩
    · exact ⟨_, .bundleLoad a _ _ _ _ _ _ r5 (.cons a h w u _ _ hw w5), Or.inl (hf _)⟩

/-- The exceptions that arguments raise which are not matches. -/
def ArgErr (e : Err) : Prop := e = .valueError ∨ e = .assertionError ∨ e = .structError ∨ e = .indexError ∨ e = .typeError

theorem firstWrong_mem {ps : List Refuses} {e : Err} (h : FirstWrong ps e) : ∃ p ∈ ps, p e := by
  induction ps with
  | nil => exact h.elim
  | cons p ps ih =>
    rcases h with h | ⟨_, h⟩
    · exact ⟨p, by simp, h⟩
    · obtain ⟨q, hq, h⟩ := ih h
      exact ⟨q, by simp [hq], h⟩

theorem stops_argErr {ps : List Refuses} {g : Prop} {e : Err} (h : Stops ps g e) (hp : ∀ p ∈ ps, ∀ e, p e → ArgErr e) : ArgErr e := by
  rcases h with h | ⟨_, _, rfl⟩
  · obtain ⟨p, h1, h2⟩ := firstWrong_mem h
    exact hp p h1 e h2
  · simp [ArgErr]

theorem whole_argErr {s : Str} {e : Err} (h : WholeRejects s e) : ArgErr e := by cases h <;> simp [ArgErr]

theorem func_argErr {s : Str} {e : Err} (h : FuncRejects s e) : ArgErr e := by rw [h.2]; simp [ArgErr]

theorem loose_argErr {s : Str} {e : Err} (h : LooseRejects s e) : ArgErr e := by rw [h.2]; simp [ArgErr]

theorem bounds_argErr {s : Str} {e : Err} (h : BoundsRejects s e) : ArgErr e := by cases h <;> simp [ArgErr]

theorem bits_argErr {s : Str} {e : Err} (h : BitsRejects s e) : ArgErr e := by
  cases h with
  | func _ h => exact func_argErr h
  | field => simp [ArgErr]
  | range => simp [ArgErr]

theorem start_argErr {x : Bool} {s : Str} {e : Err} (h : StartRejects x s e) : ArgErr e := by
  cases h with
  | func _ h => exact func_argErr h
  | field => simp [ArgErr]
  | range => simp [ArgErr]

theorem slaves_argErr {s : Str} {e : Err} (h : SlavesRejects s e) : ArgErr e := by
  cases h with
  | func _ h => exact func_argErr h
  | name => simp [ArgErr]
  | number => simp [ArgErr]

theorem spec_argErr {s : Str} {d m : Option Str} {e : Err} (h : LearnSpecRejects s d m e) : ArgErr e := by
  refine stops_argErr h ?_
  intro p hp e he
  unfold specParts at hp
  rcases List.mem_cons.1 hp with rfl | hp
  · cases he with
    | func _ h => exact func_argErr h
    | range _ _ _ _ _ _ _ h => exact bounds_argErr h
    | _ => simp [ArgErr]
  · split at hp
    · cases hp
    · split at hp
      · rw [List.mem_singleton] at hp
        subst hp
        have : e = .typeError := he
        simp [ArgErr, this]
      · simp only [List.mem_cons, List.not_mem_nil, or_false] at hp
        rcases hp with rfl | rfl
        · cases he with
          | func _ h => exact func_argErr h
          | field => simp [ArgErr]
          | range _ _ _ _ _ _ _ h => exact bounds_argErr h
        · rw [he.2]; simp [ArgErr]

theorem word_argErr {w : Str} {e : Err} (h : LearnWordRejects w e) : ArgErr e := by
  cases h with
  | func _ _ h => exact func_argErr h
  | bare => simp [ArgErr]
  | equals => simp [ArgErr]
  | spec _ _ _ _ _ _ _ _ _ _ _ _ _ _ h => exact spec_argErr h

theorem learn_argErr {u : Str} {e : Err} (h : LearnRejects u e) : ArgErr e := by
  induction h with
  | noDest _ _ _ _ _ _ _ h => exact spec_argErr h
  | set => simp [ArgErr]
  | spec _ _ _ _ _ _ _ _ _ _ _ _ _ h => exact spec_argErr h
  | word _ _ _ _ _ _ _ _ _ h => exact word_argErr h
  | afterSet _ _ _ _ _ _ _ _ _ _ _ _ _ _ _ _ _ _ ih => exact ih
  | afterSpec _ _ _ _ _ _ _ _ _ _ _ _ _ _ _ _ ih => exact ih
  | afterWord _ _ _ _ _ _ _ _ _ _ _ _ ih => exact ih

theorem args_argErr {eq : Bool} {name u : Str} {e : Err} (hn : name ≠ t!"reg_load" ∧ name ≠ t!"reg_load2") (h : ArgRejects eq name u e) :
    ArgErr e := by
  obtain ⟨ps, hp, h⟩ := h
  refine stops_argErr h ?_
  intro p hm e he
  have needs : ∀ {q k}, (k = .valueError ∨ k = .assertionError ∨ k = .structError ∨ k = .indexError ∨ k = .typeError) → Needs q k e → ArgErr e := by
    intro q k hk h
    rw [h.2]
    exact hk
  cases hp with
  | std _ a _ _ v _ =>
    split at hm
    · cases hm
    · rw [List.mem_singleton] at hm; subst hm; exact loose_argErr he
    · rw [List.mem_singleton] at hm; subst hm; exact whole_argErr he
  | output =>
    simp only [List.mem_cons, List.not_mem_nil, or_false] at hm
    rcases hm with rfl | rfl
    · exact needs (by simp) he
    · exact whole_argErr he.2
  | outputMax =>
    simp only [List.mem_cons, List.not_mem_nil, or_false] at hm
    rcases hm with rfl | rfl | rfl
    · exact needs (by simp) he
    · exact whole_argErr he.2
    · exact whole_argErr he
  | outputJunk =>
    simp only [List.mem_cons, List.not_mem_nil, or_false] at hm
    rcases hm with rfl | rfl | rfl
    · exact needs (by simp) he
    · exact whole_argErr he.2
    · exact whole_argErr he
  | note =>
    simp only [List.mem_cons, List.not_mem_nil, or_false] at hm
    rcases hm with rfl | rfl
    · exact needs (by simp) he
    · exact needs (by simp) he
  | popQueue => cases hm
  | exit => cases hm
  | tunnel =>
    simp only [List.mem_cons, List.not_mem_nil, or_false] at hm
    rcases hm with rfl | rfl
    · exact needs (by simp) he
    · exact whole_argErr he
  | resubmit =>
    simp only [List.mem_cons, List.not_mem_nil, or_false] at hm
    rcases hm with rfl | rfl
    · cases he with
      | word _ _ h => exact whole_argErr h
      | big => simp [ArgErr]
    · exact needs (by simp) he
  | resubmitEq =>
    simp only [List.mem_cons, List.not_mem_nil, or_false] at hm
    rcases hm with rfl | rfl
    · cases he with
      | word _ _ h => exact whole_argErr h
      | big => simp [ArgErr]
    · exact needs (by simp) he
  | resubmitTable =>
    simp only [List.mem_cons, List.not_mem_nil, or_false] at hm
    rcases hm with rfl | rfl
    · cases he with
      | word _ _ h => exact whole_argErr h
      | big => simp [ArgErr]
    · exact whole_argErr he.2.2
  | cntIdsEq =>
    simp only [List.mem_cons, List.not_mem_nil, or_false] at hm
    rcases hm with rfl | rfl
    · exact needs (by simp) he
    · rw [he.2]; simp [ArgErr]
  | cntIds =>
    rw [List.mem_singleton] at hm
    subst hm
    rw [he.2]; simp [ArgErr]
  | brackets =>
    unfold Brackets at hm
    rw [List.mem_singleton] at hm
    subst hm
    exact Or.inl he
  | regLoad => exact absurd rfl hn.1
  | regLoad2 => exact absurd rfl hn.2
  | regMove =>
    simp only [List.mem_cons, List.not_mem_nil, or_false] at hm
    rcases hm with rfl | rfl | rfl
    · exact bits_argErr he
    · exact bits_argErr he
    · exact needs (by simp) he
  | multipath =>
    simp only [List.mem_cons, List.not_mem_nil, or_false] at hm
    rcases hm with rfl | rfl | rfl | rfl | rfl | rfl
    · exact needs (by simp) he
    · exact whole_argErr he
    · exact needs (by simp) he
    · exact whole_argErr he
    · exact loose_argErr he
    · exact bits_argErr he
  | bundle =>
    simp only [List.mem_cons, List.not_mem_nil, or_false] at hm
    rcases hm with rfl | rfl | rfl | rfl
    · exact needs (by simp) he
    · exact loose_argErr he
    · exact needs (by simp) he
    · exact slaves_argErr he
  | bundleLoad =>
    simp only [List.mem_cons, List.not_mem_nil, or_false] at hm
    rcases hm with rfl | rfl | rfl | rfl | rfl | rfl | rfl
    · exact needs (by simp) he
    · exact loose_argErr he
    · exact needs (by simp) he
    · exact start_argErr he
    · exact slaves_argErr he
    · exact needs (by simp) he
    · rw [he.2]; simp [ArgErr]
  | outputReg =>
    simp only [List.mem_cons, List.not_mem_nil, or_false] at hm
    rcases hm with rfl | rfl | rfl
    · exact start_argErr he
    · exact loose_argErr he.2
    · rw [he.2]; simp [ArgErr]
  | learn =>
    rw [List.mem_singleton] at hm
    subst hm
    exact learn_argErr he

/-- C80: arguments in brackets raise `ValueError`, `AssertionError`, `struct.error`, `IndexError` or `TypeError`,
and no `KeyError`, but for the actions whose argument is a field with a value. -/
theorem C80_call_kinds (name a rest : Str) (hn : name ∈ actNames) (hx : name ≠ t!"reg_load" ∧ name ≠ t!"reg_load2") (ha : a ≠ [])
    (hi : Inside ')' a) (hr : Boundary rest) (e : Err) (h : str2act (name ++ '(' :: a ++ [')'] ++ rest) = .error e) :
    e = .valueError ∨ e = .assertionError ∨ e = .structError ∨ e = .indexError ∨ e = .typeError :=
  args_argErr hx ((C80_call name a rest hn ha hi hr e).1 h)

/-- The same without brackets. -/
theorem C80_plain_kinds (name u : Str) (hn : name ∈ actNames) (hx : name ≠ t!"reg_load" ∧ name ≠ t!"reg_load2") (hu : Boundary u) (e : Err)
    (h : str2act (name ++ u) = .error e) : e = .valueError ∨ e = .assertionError ∨ e = .structError ∨ e = .indexError ∨ e = .typeError :=
  args_argErr hx ((C80_plain name u hn hu e).1 h)

/-! ## Concrete cases: the exceptions, and the order in which the arguments are looked at -/

example : ActRejects t!"output(1)x" .assertionError := (C80_action_error _ _).1 (by decide +kernel)
example : ActRejects t!"output=1/2" .assertionError := (C80_action_error _ _).1 (by decide +kernel)
example : ActRejects t!"output=none" .valueError := (C80_action_error _ _).1 (by decide +kernel)
example : ActRejects t!"output=controller:x" .valueError := (C80_action_error _ _).1 (by decide +kernel)
example : ActRejects t!"output=controller:1x" .assertionError := (C80_action_error _ _).1 (by decide +kernel)
example : ActRejects t!"output=1:65536" .structError := (C80_action_error _ _).1 (by decide +kernel)
example : ActRejects t!"set_queue=1x" .assertionError := (C80_action_error _ _).1 (by decide +kernel)
example : ActRejects t!"push_vlan=x" .valueError := (C80_action_error _ _).1 (by decide +kernel)
example : ActRejects t!"set_mpls_ttl=256" .structError := (C80_action_error _ _).1 (by decide +kernel)
example : ActRejects t!"set_nothing=1" .keyError := (C80_action_error _ _).1 (by decide +kernel)
example : ActRejects t!"set_eth_type 1" .assertionError := (C80_action_error _ _).1 (by decide +kernel)
example : ActRejects t!"note 1" .assertionError := (C80_action_error _ _).1 (by decide +kernel)
example : ActRejects t!"resubmit=0xff00" .assertionError := (C80_action_error _ _).1 (by decide +kernel)
example : ActRejects t!"resubmit_table(1,none)" .valueError := (C80_action_error _ _).1 (by decide +kernel)
example : ActRejects t!"cnt_ids(1,,x)" .valueError := (C80_action_error _ _).1 (by decide +kernel)
example : ActRejects t!"reg_load(eth_type=0/0)" .typeError := (C80_action_error _ _).1 (by decide +kernel)
example : ActRejects t!"reg_load(nothing=0)" .keyError := (C80_action_error _ _).1 (by decide +kernel)
example : ActRejects t!"reg_load(eth_type=)" .valueError := (C80_action_error _ _).1 (by decide +kernel)
example : ActRejects t!"reg_move(nothing,eth_type)" .structError := (C80_action_error _ _).1 (by decide +kernel)
example : ActRejects t!"reg_move(nxm_reg0,eth_type)" .assertionError := (C80_action_error _ _).1 (by decide +kernel)
example : ActRejects t!"reg_move(nxm_reg0[1],eth_type)" .valueError := (C80_action_error _ _).1 (by decide +kernel)
example : ActRejects t!"multipath(nothing)" .valueError := (C80_action_error _ _).1 (by decide +kernel)
example : ActRejects t!"multipath(eth_src,5x)" .assertionError := (C80_action_error _ _).1 (by decide +kernel)
example : ActRejects t!"bundle(eth_src,5x,hrw,in_port,x)" .assertionError := (C80_action_error _ _).1 (by decide +kernel)
example : ActRejects t!"bundle_load(eth_src,0,hrw,in_port,nxm_reg0[1],slaves(1))" .indexError :=
  (C80_action_error _ _).1 (by decide +kernel)
example : ActRejects t!"bundle_load(eth_src,65536,hrw,in_port,nxm_reg0[1],slaves(1))" .structError :=
  (C80_action_error _ _).1 (by decide +kernel)
example : ActRejects t!"output_reg(nxm_reg0[1],x)" .valueError := (C80_action_error _ _).1 (by decide +kernel)
example : ActRejects t!"output_reg(nxm_reg0[1],1)" .indexError := (C80_action_error _ _).1 (by decide +kernel)
example : ActRejects t!"learn(eth_src=eth_dst[x])" .valueError := (C80_action_error _ _).1 (by decide +kernel)
example : ActRejects t!"learn(eth_src[1]=eth_dst)" .indexError := (C80_action_error _ _).1 (by decide +kernel)
example : ActRejects t!"learn(priority=x)" .valueError := (C80_action_error _ _).1 (by decide +kernel)
example : ActRejects t!"learn(priority=1,eth_type=eth_src)" .assertionError := (C80_action_error _ _).1 (by decide +kernel)
example : ActRejects t!"learn(output)" .assertionError := (C80_action_error _ _).1 (by decide +kernel)
example : ActRejects t!"learn(priority=65536)" .structError := (C80_action_error _ _).1 (by decide +kernel)

/-- Arguments that are refused, from the specification alone: the second part of two, and then none. -/
example : ArgRejects true t!"note" t!" =é" .valueError :=
  ⟨_, .note true _ t!" =" t!"é" [] (eq_tok (by decide +kernel)), Or.inl (Or.inr ⟨fun e h => h.1 (by decide), Or.inl ⟨by decide, rfl⟩⟩)⟩

/-- The hypotheses of `C80_hash` hold of a text. -/
example : Inside ')' t!"md5,0" ∧ Boundary t!",x" ∧ Tok t!"md5,0" [] t!"md5" t!",0" ∧ t!"md5" ∉ hashWords :=
  ⟨inside_chars (by decide), (by rintro c t ⟨⟩; decide), eq_tok (by decide +kernel), by decide⟩

end Ofpstr
