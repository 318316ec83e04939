import Verif.Lemmas.TextAct

/-!
# C69: exactly which texts are actions, and which bytes they mean
-/

namespace Ofpstr
open Spec

/-- C69: the parser of actions returns the bytes `b` and the length `n` for a text if and only if the
grammar of `Spec/ActText.lean` says that the text starts with an action of these bytes and of that length.
Every other text raises an exception (C79). -/
theorem C69_action (s : Str) (b : Bytes) (n : Nat) : str2act s = .ok (b, n) ↔ ∃ r, ActText s b r ∧ n = s.length - r.length := by
  constructor
  · exact actText_sound
  · rintro ⟨r, h, rfl⟩
    exact actText_complete h

/-- C69: what is left over is the end of the text. -/
theorem C69_rest {s : Str} {b : Bytes} {r : Str} (h : ActText s b r) : r <:+ s := by
  cases h with
  | call hd w _ n a _ r' ht => exact tok_suffix ht
  | plain hd w u _ _ ht h1 => exact (actArgs_suffix h1).trans (tok_suffix ht)
  | setCall hd w _ x a h' v r' t ht => exact tok_suffix ht
  | setPlain hd x u op v _ t ht hv => exact (tok_suffix hv).trans (tok_suffix ht)
  | setNothing hd ht => exact List.nil_suffix
  | other hd w u n arg ht => exact ⟨hd, ht.1.symm⟩

/-- C69: the grammar is not ambiguous. -/
theorem C69_unique {s : Str} {b b' : Bytes} {r r' : Str} (h : ActText s b r) (h' : ActText s b' r') : b = b' ∧ r = r' := by
  have e := (actText_complete h).symm.trans (actText_complete h')
  simp only [Except.ok.injEq, Prod.mk.injEq] at e
  have h1 := (C69_rest h).length_le
  have h2 := (C69_rest h').length_le
  refine ⟨e.1, ?_⟩
  have hl : r.length = r'.length := by omega
  exact (List.suffix_of_suffix_length_le (C69_rest h) (C69_rest h') (Nat.le_of_eq hl)).eq_of_length hl

/-- Concrete cases. -/
theorem actText_case {s : Str} {b : Bytes} {r : Str} (h : str2act s = .ok (b, s.length - r.length)) (hr : r <:+ s) : ActText s b r := by
  obtain ⟨r', h1, h2⟩ := actText_sound h
  have h3 := (C69_rest h1).length_le
  have h4 := hr.length_le
  have hl : r.length = r'.length := by omega
  rwa [(List.suffix_of_suffix_length_le hr (C69_rest h1) (Nat.le_of_eq hl)).eq_of_length hl]

/-- C69: a text is refused if it is no action for the grammar. -/
theorem C69_refused (s : Str) : (∀ b r, ¬ ActText s b r) ↔ ∀ x, str2act s ≠ .ok x := by
  constructor
  · rintro h ⟨b, n⟩ hx
    obtain ⟨r, hr, _⟩ := actText_sound hx
    exact h b r hr
  · intro h b r hr
    exact h _ (actText_complete hr)

/-- C69 for the form with brackets: the grammar of the arguments decides, and the text is read up to
the closing bracket, also where the arguments end before it. -/
theorem C69_call (name a rest : Str) (hn : name ∈ actNames) (ha : a ≠ []) (hi : Inside ')' a) (hr : Boundary rest) (b : Bytes) (n : Nat) :
    str2act (name ++ '(' :: a ++ [')'] ++ rest) = .ok (b, n) ↔ (∃ r, ActArgs false name a b r) ∧ n = name.length + a.length + 2 := by
  obtain ⟨k, hk⟩ := (lookupAct_isSome name).1 hn
  obtain ⟨c, cs, rfl⟩ : ∃ c cs, a = c :: cs := by cases a with | nil => exact absurd rfl ha | cons c cs => exact ⟨c, cs, rfl⟩
  have hno : ∀ n ∈ actNames, ∀ c ∈ n, NotOpen c := by decide +kernel
  have hne : ∀ n ∈ actNames, n ≠ [] := by decide +kernel
  have hcl : ∀ n ∈ actNames, Clean n := by decide +kernel
  have ht : Tok (name ++ '(' :: (c :: cs) ++ [')'] ++ rest) [] (name ++ '(' :: ((c :: cs) ++ [')'])) rest := by
    have := getToken_call [] name (c :: cs) rest head_nil (hcl _ hn) (hne _ hn) hi hr
    have e := eq_tok this
    simpa using e
  have hf : Func (name ++ '(' :: ((c :: cs) ++ [')'])) name (some (c :: cs)) := .call name '(' ')' _ (hno _ hn) .round hi
  rw [act_call ht hf hk]
  constructor
  · intro h
    obtain ⟨⟨b', p⟩, h1, h2⟩ := bind_iff.1 h
    cases h2
    obtain ⟨r, h3, _⟩ := (runAct_iff hk _ _ _ _).1 h1
    exact ⟨⟨r, h3⟩, by simp; omega⟩
  · rintro ⟨⟨r, h⟩, rfl⟩
    rw [(runAct_iff hk false (c :: cs) b _).2 ⟨r, h, rfl⟩, ok_bind]
    dsimp only
    congr 2
    simp; omega

/-- C69 for the form without brackets. -/
theorem C69_plain (name u : Str) (hn : name ∈ actNames) (hu : Boundary u) (b : Bytes) (n : Nat) :
    str2act (name ++ u) = .ok (b, n) ↔ ∃ r, ActArgs true name u b r ∧ n = name.length + (u.length - r.length) := by
  obtain ⟨k, hk⟩ := (lookupAct_isSome name).1 hn
  have hne : ∀ n ∈ actNames, n ≠ [] := by decide +kernel
  have hcl : ∀ n ∈ actNames, Clean n := by decide +kernel
  have ht : Tok (name ++ u) [] name u := by
    have := tok_spaces (sp := []) (x := name) (y := u) (by simp) (hne _ hn)
      (by intro c t e; exact (hcl _ hn c (by rw [e]; simp)).1)
      (Or.inl ⟨token_of_chars (fun c hc => (hcl _ hn c hc).2.2.2) (fun c hc => ⟨(hcl _ hn c hc).notSep, (hcl _ hn c hc).2.2.1⟩), hu⟩)
    simpa using this
  rw [act_plain ht (actNames_bare hn) (Or.inl (Or.inl rfl)) hk]
  constructor
  · intro h
    obtain ⟨⟨b', p⟩, h1, h2⟩ := bind_iff.1 h
    cases h2
    obtain ⟨r, h3, rfl⟩ := (runAct_iff hk _ _ _ _).1 h1
    exact ⟨r, h3, by simp⟩
  · rintro ⟨r, h, rfl⟩
    rw [(runAct_iff hk true u b _).2 ⟨r, h, rfl⟩, ok_bind]
    simp

/-! ## Cases -/

/-- The settings of `learn`: the last one of a name counts. -/
example : ActText t!"learn(idle_timeout=10, idle_timeout=3,eth_dst=eth_src,reg_load(nxm_reg0[0:16]=5),output(x=nxm_reg0[0:16]))"
    [255,255,0,64,0,0,35,32,0,16,0,3,0,0,0,0,0,0,0,0,0,0,0,0,0,0,0,0,0,0,0,0,0,48,128,0,8,6,0,0,128,0,6,6,0,0,20,16,0,5,0,1,0,4,0,0,8,16,0,1,0,4,0,0]
    [] := actText_case (by decide +kernel) (by decide +kernel)

/-- Setting a field, with what follows left over. -/
example : ActText t!"  set_vlan_vid=5,x" [0,25,0,16,128,0,12,2,0,5,0,0,0,0,0,0] t!",x" :=
  actText_case (by decide +kernel) (by decide +kernel)

/-- A run of mask bits is a load of these bits: a mask of the field, unlike in `set_`. -/
example : ActText t!"reg_load(eth_src=00:11:22:33:44:55/00:00:00:00:0f:f0)"
    [255,255,0,24,0,0,35,32,0,7,1,7,128,0,8,6,0,0,0,1,18,35,52,69] [] :=
  actText_case (by decide +kernel) (by decide +kernel)

/-- A bracket is lost at the start of a port of a bundle, and what follows a number is ignored. -/
example : ActText t!"bundle(eth_src,0,hrw,in_port,slaves[1x,(2),3])"
    [255,255,0,40,0,0,35,32,0,12,0,1,0,0,0,0,128,0,0,4,0,3,0,0,0,0,0,0,0,0,0,0,0,1,0,2,0,3,0,0] [] :=
  actText_case (by decide +kernel) (by decide +kernel)

/-- An ethertype may have text behind it; so may the number of bytes for the controller. -/
example : ActText t!"push_vlan 0x8100zz,x" [0,17,0,8,129,0,0,0] t!",x" :=
  actText_case (by decide +kernel) (by decide +kernel)

example : ActText t!"output=controller:12:junk x" [0,0,0,16,255,255,255,253,0,12,0,0,0,0,0,0] t!" x" :=
  actText_case (by decide +kernel) (by decide +kernel)

/-- C69 is not what one hopes for: an action that sets no field is written for a lone `set_`. -/
theorem C69_set_nothing : str2act t!"set_" = .ok ([0,25,0,8,0,0,0,0], 4) := by decide +kernel

/-- C69 is not what one hopes for: a field of a bundle that does not exist is left out, and the fields
that follow it move. -/
theorem C69_bundle_no_field : str2act t!"bundle_load(eth_src,0,hrw,foo,nxm_reg0,slaves[1,2])" =
    .ok ([255,255,0,32,0,0,35,32,0,13,0,1,0,0,0,0,0,2,0,63,0,1,1,8,0,0,0,0,0,1,0,2], 51) := by decide +kernel

/-- A refused text. -/
example : ∀ b r, ¬ ActText t!"set_ eth_type=5" b r :=
  (C69_refused _).2 (fun x h => by
    have e : str2act t!"set_ eth_type=5" = .error .assertionError := by decide +kernel
    rw [e] at h
    cases h)

/-- A word that is no action is left over. -/
example : ActText t!"foo=3" [] t!"foo=3" := actText_case (by decide +kernel) (by decide +kernel)

end Ofpstr
