import Verif.Lemmas.Act

/-!
# The standard actions: encoders
-/

namespace Ofpstr
open Spec

/-- The encoder of a standard action. -/
def stdEnc (a : StdAct) : ActEnc :=
  match a.arg with
  | .none => .generic a.type
  | .ttl => .uint a.type 1 (if a.name = t!"set_nw_ttl" then 0 else 3)
  | .word => .uint a.type 4 0
  | .ether => .push a.type

theorem std_lookup : ∀ a ∈ stdActs, lookupAct a.name = some (stdEnc a) ∧ Clean a.name ∧ a.name ≠ [] ∧
    a.type < 65536 := by decide +kernel

theorem pyAssert_true : pyAssert true = .ok () := rfl
theorem pyAssert_false : pyAssert false = .error .assertionError := rfl

theorem uintStr2act_int (t size pd : Nat) (u h s r : Str) (v : Int) (hg : getToken u = (h, s, r))
    (hs : IntSyntax s v s.length) :
    uintStr2act t size pd u = if 0 ≤ v ∧ v < (256 ^ size : Nat) then
      .ok (u16 t ++ (u16 (4 + (size + pd)) ++ (be size v.toNat ++ pad pd)), h.length + s.length)
      else .error .structError := by
  unfold uintStr2act
  rw [hg]
  dsimp only
  rw [(parseInt_iff _ _ _).2 hs]
  simp only [bind, Except.bind, beq_self_eq_true, pyAssert_true, packU_int]
  by_cases hv : 0 ≤ v ∧ v < (256 ^ size : Nat)
  · rw [if_pos hv, if_pos hv]
    simp [spec_u16, spec_pad, be_length, zeros_length]
  · rw [if_neg hv, if_neg hv]

theorem uintStr2act_junk (t size pd : Nat) (u h s r : Str) (v : Int) (l : Nat)
    (hg : getToken u = (h, s, r)) (hs : IntSyntax s v l) (hl : l ≠ s.length) :
    uintStr2act t size pd u = .error .assertionError := by
  unfold uintStr2act
  rw [hg]
  dsimp only
  rw [(parseInt_iff _ _ _).2 hs]
  simp [bind, Except.bind, pyAssert, hl]

theorem pushStr2act_int (t : Nat) (u h s r : Str) (v : Int) (l : Nat) (hg : getToken u = (h, s, r))
    (hs : IntSyntax s v l) :
    pushStr2act t u = if 0 ≤ v ∧ v < 65536 then
      .ok (u16 t ++ (u16 8 ++ (u16 v.toNat ++ pad 2)), h.length + s.length)
      else .error .structError := by
  unfold pushStr2act
  rw [hg]
  dsimp only
  rw [(parseInt_iff _ _ _).2 hs]
  simp only [bind, Except.bind, packU_int]
  have : ((256 ^ 2 : Nat) : Int) = 65536 := by decide
  rw [this]
  by_cases hv : 0 ≤ v ∧ v < 65536
  · rw [if_pos hv, if_pos hv]
    simp [spec_u16, spec_pad, spec_be]
  · rw [if_neg hv, if_neg hv]

/-- The encoder of a standard action on an integer argument. -/
theorem runStd_int (a : StdAct) (ha : a ∈ stdActs) (harg : a.arg ≠ .none)
    (hne : a.name ≠ t!"set_nw_ttl") (u h s r : Str) (v : Int) (hg : getToken u = (h, s, r))
    (hs : IntSyntax s v s.length) (b : Bool) :
    runActEnc (stdEnc a) u b = if 0 ≤ v ∧ v < (256 ^ a.arg.size : Nat) then
      .ok (a.wire v.toNat, h.length + s.length) else .error .structError := by
  unfold stdEnc StdAct.wire
  cases hk : a.arg with
  | none => exact absurd hk harg
  | ttl =>
    simp only [if_neg hne, runActEnc, ActArg.size, ActArg.body]
    rw [uintStr2act_int a.type 1 3 u h s r v hg hs]
    rfl
  | word =>
    simp only [runActEnc, ActArg.size, ActArg.body]
    rw [uintStr2act_int a.type 4 0 u h s r v hg hs]
    simp only [pad, List.replicate_zero, List.append_nil]
    rfl
  | ether =>
    simp only [runActEnc, ActArg.size, ActArg.body]
    rw [pushStr2act_int a.type u h s r v _ hg hs]
    rfl

theorem getToken_int_eq {s r : Str} {v : Int} (hs : IntSyntax s v s.length) (hr : AtEnd r) :
    getToken ('=' :: (s ++ r)) = (['='], s, r) := by
  obtain ⟨h1, h2, _⟩ := intSyntax_clean hs
  exact getToken_eq h1.token hr h1.plainStart h2

theorem getToken_int {s : Str} {v : Int} (hs : IntSyntax s v s.length) :
    getToken s = ([], s, []) := getToken_clean_all (intSyntax_clean hs).1

/-- A number is not one of the names. -/
theorem nameOrInt_int (names : List (Nat × Str)) (s : Str) (v : Int) (hs : IntSyntax s v s.length)
    (hnm : ∀ e ∈ names, ∀ c t, e.2 = c :: t → c ≠ '-' ∧ isDec c = false) (hne : ∀ e ∈ names, e.2 ≠ []) :
    nameOrInt names s = .ok v := by
  obtain ⟨c, t, hst, hc⟩ := intSyntax_start hs
  have hf : names.find? (fun e => e.2 == s) = none := by
    rw [List.find?_eq_none]
    intro e he hes
    simp only [beq_iff_eq] at hes
    cases hn : e.2 with
    | nil => exact hne e he hn
    | cons d u =>
      have := hnm e he d u hn
      rw [hes, hst] at hn
      simp only [List.cons.injEq] at hn
      rw [← hn.1] at this
      rcases hc with hc | hc
      · exact this.1 hc
      · rw [this.2] at hc; cases hc
  unfold nameOrInt
  rw [hf]
  dsimp only
  rw [(parseInt_iff _ _ _).2 hs]
  simp [bind, Except.bind, pyAssert]

theorem ofpp_start : ∀ e ∈ ofpp, e.2 ≠ [] ∧ ∀ c, e.2.head? = some c → c ≠ '-' ∧ isDec c = false := by
  intro e he
  have h : ∀ e ∈ ofpp, e.2 ≠ [] ∧ e.2.head? ≠ some '-' ∧ e.2.head?.any isDec = false := by decide
  obtain ⟨h1, h2, h3⟩ := h e he
  refine ⟨h1, fun c hc => ?_⟩
  rw [hc] at h2 h3
  exact ⟨fun h => h2 (by rw [h]), h3⟩

theorem ofpg_start : ∀ e ∈ ofpg, e.2 ≠ [] ∧ ∀ c, e.2.head? = some c → c ≠ '-' ∧ isDec c = false := by
  intro e he
  have h : ∀ e ∈ ofpg, e.2 ≠ [] ∧ e.2.head? ≠ some '-' ∧ e.2.head?.any isDec = false := by decide
  obtain ⟨h1, h2, h3⟩ := h e he
  refine ⟨h1, fun c hc => ?_⟩
  rw [hc] at h2 h3
  exact ⟨fun h => h2 (by rw [h]), h3⟩

theorem nameOrInt_ofpp (s : Str) (v : Int) (h : PortText s v) : nameOrInt ofpp s = .ok v := by
  cases h with
  | name n s h =>
    have key : ∀ e ∈ reservedPorts, nameOrInt ofpp e.2 = .ok (e.1 : Int) := by decide +kernel
    exact key (n, s) h
  | num s v h =>
    apply nameOrInt_int ofpp s v h
    · intro e he c t hc
      exact (ofpp_start e he).2 c (by rw [hc]; rfl)
    · intro e he
      exact (ofpp_start e he).1

theorem portText_clean {s : Str} {v : Int} (h : PortText s v) :
    Clean s ∧ s ≠ [] ∧ (∀ c ∈ s, c ≠ '/' ∧ c ≠ ':' ∧ c ≠ ')') := by
  cases h with
  | name n s h =>
    have key : ∀ e ∈ reservedPorts, Clean e.2 ∧ e.2 ≠ [] ∧ (∀ c ∈ e.2, c ≠ '/' ∧ c ≠ ':' ∧ c ≠ ')') := by
      decide +kernel
    exact key (n, s) h
  | num s v h =>
    obtain ⟨h1, h2, h3⟩ := intSyntax_clean h
    refine ⟨h1, h2, fun c hc => ⟨(h3 c hc).1, (h3 c hc).2, ?_⟩⟩
    rcases intSyntax_ne h c hc with h | rfl | rfl | rfl
    · exact (isHex_close h).1
    all_goals decide

theorem packAll_int (k : Nat) (v : Int) (l : List (Nat × Int)) : packAll ((k, v) :: l) =
    if 0 ≤ v ∧ v < (256 ^ k : Nat) then (packAll l).bind fun x => .ok (be k v.toNat ++ x)
    else .error .structError := by
  rw [packAll, packU_int]
  by_cases hv : 0 ≤ v ∧ v < (256 ^ k : Nat)
  · rw [if_pos hv, if_pos hv]; rfl
  · rw [if_neg hv, if_neg hv]; rfl

theorem packAll_nil : packAll [] = .ok [] := rfl

theorem hasChar_false {s : Str} {c : Char} (h : ∀ x ∈ s, x ≠ c) : hasChar s c = false := by
  unfold hasChar
  simp only [List.contains_eq_mem, decide_eq_false_iff_not]
  intro hc
  exact h c hc rfl

theorem outputStr2act_port (u h p r : Str) (v : Int) (hg : getToken u = (h, p, r))
    (hp : PortText p v) :
    outputStr2act u = if 0 ≤ v ∧ v < (256 ^ 4 : Nat) then
      .ok (outputWire v.toNat 0xffff, h.length + p.length) else .error .structError := by
  obtain ⟨h1, h2, h3⟩ := portText_clean hp
  unfold outputStr2act
  rw [hg]
  dsimp only
  rw [hasChar_false (fun x hx => (h3 x hx).1), split1_none ':' p (fun x hx => (h3 x hx).2.1)]
  simp only [Bool.not_false, pyAssert_true, bind, Except.bind, nameOrInt_ofpp p v hp, packAll_int]
  by_cases hv : 0 ≤ v ∧ v < (256 ^ 4 : Nat)
  · rw [if_pos hv, if_pos hv]
    have : (0 : Int) ≤ (OFPCML_NO_BUFFER : Nat) ∧ ((OFPCML_NO_BUFFER : Nat) : Int) < (256 ^ 2 : Nat) := by
      decide
    rw [if_pos this]
    simp only [packAll_nil, Except.bind, List.append_nil]
    rw [outputWire]
    simp only [spec_u16, spec_pad, u32, List.append_assoc]
    rfl
  · rw [if_neg hv, if_neg hv]

theorem outputStr2act_max (u h p m r : Str) (v w : Int) (hg : getToken u = (h, p ++ ':' :: m, r))
    (hp : PortText p v) (hm : IntSyntax m w m.length) :
    outputStr2act u = if (0 ≤ v ∧ v < (256 ^ 4 : Nat)) ∧ 0 ≤ w ∧ w < (256 ^ 2 : Nat) then
      .ok (outputWire v.toNat w.toNat, h.length + (p ++ ':' :: m).length)
      else .error .structError := by
  obtain ⟨h1, h2, h3⟩ := portText_clean hp
  obtain ⟨h4, h5, h6⟩ := intSyntax_clean hm
  unfold outputStr2act
  rw [hg]
  dsimp only
  have hs : ∀ x ∈ p ++ ':' :: m, x ≠ '/' := by
    intro x hx
    simp only [List.mem_append, List.mem_cons] at hx
    rcases hx with hx | rfl | hx
    · exact (h3 x hx).1
    · decide
    · exact (h6 x hx).1
  rw [hasChar_false hs, split1_some ':' p m (fun x hx => (h3 x hx).2.1)]
  simp only [split1_none ':' m (fun x hx => (h6 x hx).2), (parseInt_iff _ _ _).2 hm,
    Bool.not_false, pyAssert_true, bind, Except.bind, nameOrInt_ofpp p v hp, packAll_int,
    beq_self_eq_true]
  by_cases hv : 0 ≤ v ∧ v < (256 ^ 4 : Nat)
  · rw [if_pos hv]
    by_cases hw : 0 ≤ w ∧ w < (256 ^ 2 : Nat)
    · rw [if_pos hw, if_pos ⟨hv, hw⟩]
      simp only [packAll_nil, Except.bind, List.append_nil]
      rw [outputWire]
      simp only [spec_u16, spec_pad, u32, List.append_assoc, spec_be]
    · rw [if_neg hw, if_neg (fun h => hw h.2)]
  · rw [if_neg hv, if_neg (fun h => hv h.1)]

end Ofpstr
