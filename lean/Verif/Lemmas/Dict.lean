import Verif.Lemmas.Tok

/-!
# One round of `str2dict`
-/

namespace Ofpstr
open Spec

/-- What `str2oxm` and `str2act` read. -/
def oxmP (u : Str) (b : Bytes) (l : Nat) : Prop := str2oxm1 u = .ok (b, l)
def actP (u : Str) (b : Bytes) (l : Nat) : Prop := str2act u = .ok (b, l)

instance (i : Inst) : Decidable i.Fits := by
  cases i <;> unfold Inst.Fits <;> infer_instance

def setKey (k : FKey) (n : Int) (i : Info) : Info :=
  match k with
  | .table => { i with table := some n }
  | .priority => { i with priority := some n }
  | .idle => { i with idleTimeout := some n }
  | .hard => { i with hardTimeout := some n }
  | .buffer => { i with buffer := some n }
  | .outPort => { i with outPort := some n }
  | .outGroup => { i with outGroup := some n }

/-- An instruction without actions. -/
def stepInst (st : DictSt) (i : Inst) : Py DictSt := do
  let info ← runFunc st
  if i.Fits then .ok { info := info.addInst i.wire, actions := st.actions, func := none, phase := .noarg }
  else .error .structError

def stepActs (st : DictSt) (t : Nat) : Py DictSt := do
  let info ← runFunc st
  .ok { info := info, actions := [], func := some t, phase := .action }

def applyWord (st : DictSt) : Word → Py DictSt
  | .key k n => .ok { st with info := setKey k n st.info }
  | .cookie n m => .ok { st with info := { st.info with cookie := some n, cookieMask := m <|> st.info.cookieMask } }
  | .flag b => .ok { st with info := { st.info with flags := some (st.info.flags.getD 0 ||| 2 ^ b) } }
  | .oxm b => .ok { st with info := { st.info with mtch := st.info.mtch ++ b } }
  | .goto n => stepInst st (.goto n)
  | .metadata n m => stepInst st (.metadata n m)
  | .apply => stepActs st 4
  | .write => stepActs st 3
  | .clear => stepInst st .clear
  | .meter n => stepInst st (.meter n)
  | .act b => .ok { st with actions := st.actions ++ b }

def phaseOf : Place → Phase
  | .start => .mtch
  | .acts => .action
  | .done => .noarg

theorem startsWith_at (n : Str) : startsWith n t!"@" = true ↔ n.head? = some '@' := by
  cases n with
  | nil => simp [startsWith]
  | cons c n =>
    have : startsWith (c :: n) t!"@" = ('@' == c) := by
      show (('@' == c) && true) = _
      rw [Bool.and_true]
    rw [this, beq_iff_eq, List.head?_cons, Option.some.injEq]
    exact eq_comm

theorem fkey_arg_noslash {k : FKey} {p : Str} {n : Int} (h : k.Arg p n) : ∀ c ∈ p, c ≠ '/' := by
  cases k <;> first
    | exact intSyntax_noslash h
    | exact fun c hc => ((portText_clean h).2.2 c hc).1
    | exact (groupText_clean h).2.2

theorem keyArg_int {k : FKey} (hk : k ≠ .outPort) (hk' : k ≠ .outGroup) (p : Str) (n : Int) :
    k.Arg p n ↔ IntSyntax p n p.length := by
  cases k <;> first | exact Iff.rfl | exact absurd rfl hk | exact absurd rfl hk'

theorem dictMatch_key (k : FKey) (i : Info) (s : Str) (x : Info × Str) :
    dictMatch k.name i s = .ok x ↔ ∃ op p n r, Tok s op p r ∧ '=' ∈ op ∧ k.Arg p n ∧
      x = (setKey k n i, r) := by
  have num : ∀ (f : Int → Info), ((do let (n, s) ← procArg s; Except.ok (f n, s)) : Py (Info × Str)) = .ok x ↔
      ∃ op p n r, Tok s op p r ∧ '=' ∈ op ∧ IntSyntax p n p.length ∧ x = (f n, r) := by
    intro f
    constructor
    · intro h
      obtain ⟨⟨n, r⟩, h1, h⟩ := bind_ok h
      cases h
      obtain ⟨op, p, h2, h3, h4⟩ := (procArg_iff _ _ _).1 h1
      exact ⟨op, p, n, r, h2, h3, h4, rfl⟩
    · rintro ⟨op, p, n, r, h2, h3, h4, rfl⟩
      rw [(procArg_iff _ _ _).2 ⟨op, p, h2, h3, h4⟩, ok_bind]
  have nm : ∀ (names : List (Nat × Str)) (T : Str → Int → Prop)
      (_ : ∀ p n, nameOrInt names p = .ok n ↔ T p n) (_ : ∀ p n, T p n → ∀ c ∈ p, c ≠ '/')
      (f : Int → Info), ((do let (n, s) ← nameArg names s; Except.ok (f n, s)) : Py (Info × Str)) = .ok x ↔
      ∃ op p n r, Tok s op p r ∧ '=' ∈ op ∧ T p n ∧ x = (f n, r) := by
    intro names T h1 h2 f
    constructor
    · intro h
      obtain ⟨⟨n, r⟩, h3, h⟩ := bind_ok h
      cases h
      obtain ⟨op, p, h4, h5, h6⟩ := (nameArg_iff names T h1 h2 _ _ _).1 h3
      exact ⟨op, p, n, r, h4, h5, h6, rfl⟩
    · rintro ⟨op, p, n, r, h4, h5, h6, rfl⟩
      rw [(nameArg_iff names T h1 h2 _ _ _).2 ⟨op, p, h4, h5, h6⟩, ok_bind]
  cases k
  · exact num (fun n => setKey .table n i)
  · exact num (fun n => setKey .priority n i)
  · exact num (fun n => setKey .idle n i)
  · exact num (fun n => setKey .hard n i)
  · exact num (fun n => setKey .buffer n i)
  · exact nm ofpp PortText nameOrInt_port_iff (fun p n h c hc => ((portText_clean h).2.2 c hc).1)
      (fun n => setKey .outPort n i)
  · exact nm ofpg GroupText nameOrInt_group_iff (fun p n h => (groupText_clean h).2.2)
      (fun n => setKey .outGroup n i)

theorem split1_noslash {v : Str} {n : Int} (h : IntSyntax v n v.length) :
    split1 '/' v = (v, none) := split1_none _ _ (intSyntax_noslash h)

theorem split1_slash {v : Str} {n : Int} (h : IntSyntax v n v.length) (m : Str) :
    split1 '/' (v ++ '/' :: m) = (v, some m) := split1_some _ _ _ (intSyntax_noslash h)

theorem dictMatch_cookie (i : Info) (s : Str) (x : Info × Str) :
    dictMatch t!"cookie" i s = .ok x ↔
      (∃ op p n r, Tok s op p r ∧ '=' ∈ op ∧ IntSyntax p n p.length ∧ x = ({ i with cookie := some n }, r)) ∨
      (∃ op v m n w l r, Tok s op (v ++ '/' :: m) r ∧ '=' ∈ op ∧ IntSyntax v n v.length ∧ IntSyntax m w l ∧
        x = ({ i with cookie := some n, cookieMask := some w }, r)) := by
  rcases hg : getToken s with ⟨op, p, t⟩
  have ht := (getToken_iff _ _ _ _).1 hg
  rcases hp : split1 '/' p with ⟨v, m⟩
  have hs := split1_inv hp
  have e : dictMatch t!"cookie" i s = (do
      pyAssert (hasChar op '=')
      let (num, l) ← parseInt v
      pyAssert (v.length == l)
      match m with
      | none => .ok ({ i with cookie := some num }, t)
      | some m => do
        let (mask, _) ← parseInt m
        .ok ({ i with cookie := some num, cookieMask := some mask }, t)) := by
    have : dictMatch t!"cookie" i s = (do
      let (op, payload, s) := getToken s
      pyAssert (hasChar op '=')
      let (v, m) := split1 '/' payload
      let (num, l) ← parseInt v
      pyAssert (v.length == l)
      let info := { i with cookie := some num }
      match m with
      | none => .ok (info, s)
      | some m =>
        let (mask, _) ← parseInt m
        .ok ({ info with cookieMask := some mask }, s)) := rfl
    rw [this, hg]; dsimp only; rw [hp]
  rw [e]
  constructor
  · intro h
    obtain ⟨u, h1, h⟩ := bind_ok h
    obtain ⟨⟨n, l⟩, h2, h⟩ := bind_ok h
    obtain ⟨u', h3, h⟩ := bind_ok h
    have h4 := pyAssert_inv h3
    simp only [beq_iff_eq] at h4
    have h5 : IntSyntax v n v.length := by rw [h4]; exact (parseInt_iff _ _ _).1 h2
    have h6 := (hasChar_iff _ _).1 (pyAssert_inv h1)
    cases m with
    | none =>
      cases h
      obtain ⟨-, hs⟩ := hs
      dsimp only at hs
      subst hs
      exact Or.inl ⟨op, p, n, t, ht, h6, h5, rfl⟩
    | some m =>
      obtain ⟨⟨w, l'⟩, h7, h⟩ := bind_ok h
      cases h
      obtain ⟨-, hs⟩ := hs
      dsimp only at hs
      subst hs
      exact Or.inr ⟨op, v, m, n, w, l', t, ht, h6, h5, (parseInt_iff _ _ _).1 h7, rfl⟩
  · rintro (⟨op', p', n, r, h1, h2, h3, rfl⟩ | ⟨op', v', m', n, w, l, r, h1, h2, h3, h4, rfl⟩)
    · rw [← getToken_iff, hg] at h1
      cases h1
      rw [split1_noslash h3] at hp
      cases hp
      rw [(hasChar_iff _ _).2 h2, pyAssert_ok, ok_bind, (parseInt_iff _ _ _).2 h3, ok_bind]
      simp only [beq_self_eq_true, pyAssert_ok, ok_bind]
    · rw [← getToken_iff, hg] at h1
      cases h1
      rw [split1_slash h3] at hp
      cases hp
      rw [(hasChar_iff _ _).2 h2, pyAssert_ok, ok_bind, (parseInt_iff _ _ _).2 h3, ok_bind]
      simp only [beq_self_eq_true, pyAssert_ok, ok_bind]
      rw [(parseInt_iff _ _ _).2 h4, ok_bind]

theorem dictMatch_flag (name : Str) (b : Nat) (h : (name, b) ∈ flagWords) (i : Info) (s : Str) :
    dictMatch name i s = .ok ({ i with flags := some (i.flags.getD 0 ||| 2 ^ b) }, s) := by
  simp only [flagWords, List.mem_cons, List.not_mem_nil, or_false, Prod.mk.injEq] at h
  rcases h with ⟨rfl, rfl⟩ | ⟨rfl, rfl⟩ | ⟨rfl, rfl⟩ | ⟨rfl, rfl⟩ | ⟨rfl, rfl⟩ <;> rfl

theorem dictMatch_oxm (name : Str) (h : name ∉ matchKeys) (i : Info) (s : Str) :
    dictMatch name i s = (do
      let (oxm, l) ← str2oxm1 (name ++ s)
      if l == 0 then .error .valueError
      else .ok ({ i with mtch := i.mtch ++ oxm }, (name ++ s).drop l)) := by
  simp only [matchKeys, List.mem_cons, List.not_mem_nil, or_false, not_or] at h
  obtain ⟨a1, a2, a3, a4, a5, a6, a7, a8, a9, a10, a11, a12, a13⟩ := h
  have hf : ofpff.find? (fun e => e.1 == name) = none := by
    simp only [ofpff, List.find?_cons, List.find?_nil]
    rw [beq_false_of_ne (Ne.symm a6), beq_false_of_ne (Ne.symm a7), beq_false_of_ne (Ne.symm a8),
      beq_false_of_ne (Ne.symm a9), beq_false_of_ne (Ne.symm a10)]
  unfold dictMatch
  rw [if_neg (by simpa using a1), if_neg (by simpa using a2), if_neg (by simpa using a3),
    if_neg (by simpa using a4), if_neg (by simpa using a5), hf]
  dsimp only
  rw [if_neg (by simpa using a11), if_neg (by simpa using a12), if_neg (by simpa using a13)]

theorem matchKeys_cases (name : Str) (h : name ∈ matchKeys) :
    (∃ k : FKey, name = k.name) ∨ name = t!"cookie" ∨ ∃ b, (name, b) ∈ flagWords := by
  simp only [matchKeys, List.mem_cons, List.not_mem_nil, or_false] at h
  rcases h with rfl | rfl | rfl | rfl | rfl | rfl | rfl | rfl | rfl | rfl | rfl | rfl | rfl
  · exact Or.inl ⟨.table, rfl⟩
  · exact Or.inl ⟨.priority, rfl⟩
  · exact Or.inl ⟨.idle, rfl⟩
  · exact Or.inl ⟨.hard, rfl⟩
  · exact Or.inl ⟨.buffer, rfl⟩
  · exact Or.inr (Or.inr ⟨0, by decide⟩)
  · exact Or.inr (Or.inr ⟨1, by decide⟩)
  · exact Or.inr (Or.inr ⟨2, by decide⟩)
  · exact Or.inr (Or.inr ⟨3, by decide⟩)
  · exact Or.inr (Or.inr ⟨4, by decide⟩)
  · exact Or.inr (Or.inl rfl)
  · exact Or.inl ⟨.outPort, rfl⟩
  · exact Or.inl ⟨.outGroup, rfl⟩

theorem packU_wire (k : Nat) (n : Int) : packU k n = if FitsIn k n then .ok (be k n.toNat) else .error .structError :=
  packU_int k n

theorem packAll_eq (l : List (Nat × Int)) : packAll l =
    if ∀ e ∈ l, FitsIn e.1 e.2 then .ok (l.flatMap fun e => be e.1 e.2.toNat) else .error .structError := by
  induction l with
  | nil => rfl
  | cons e l ih =>
    obtain ⟨k, v⟩ := e
    rw [packAll, packU_wire, ih]
    by_cases h1 : FitsIn k v
    · rw [if_pos h1, ok_bind]
      by_cases h2 : ∀ e ∈ l, FitsIn e.1 e.2
      · rw [if_pos h2, ok_bind, if_pos (by
          intro e he
          rcases List.mem_cons.1 he with rfl | he
          · exact h1
          · exact h2 e he)]
        rfl
      · rw [if_neg h2, error_bind, if_neg (fun h => h2 fun e he => h e (List.mem_cons_of_mem _ he))]
    · rw [if_neg h1, error_bind, if_neg (fun h => h1 (h _ List.mem_cons_self))]

theorem dictInst_goto (name : Str) (h : name ∈ [t!"@goto", t!"@goto_table"]) (i : Info) (a : Bytes) (s : Str) :
    dictInst name i a s = (do
      let (n, s) ← intArg s
      if (Inst.goto n).Fits then
        .ok ({ info := i.addInst (Inst.goto n).wire, actions := a, func := none, phase := .noarg }, s)
      else .error .structError) := by
  have e : dictInst name i a s = (do
      let (num, s) ← intArg s
      let v ← packU 1 num
      let info := i.addInst (beBytes 2 OFPIT_GOTO_TABLE ++ (beBytes 2 8 ++ (v ++ zeros 3)))
      .ok ({ info := info, actions := a, func := none, phase := .noarg }, s)) := by
    simp only [List.mem_cons, List.not_mem_nil, or_false] at h
    rcases h with rfl | rfl <;> rfl
  rw [e]
  congr 1
  funext ⟨n, s⟩
  dsimp only
  rw [packU_wire]
  by_cases hf : FitsIn 1 n
  · have hf' : (Inst.goto n).Fits := hf
    rw [if_pos hf, if_pos hf', ok_bind]; simp only [← spec_be]; rfl
  · have hf' : ¬ (Inst.goto n).Fits := hf
    rw [if_neg hf, if_neg hf']; rfl

theorem dictInst_meter (i : Info) (a : Bytes) (s : Str) :
    dictInst t!"@meter" i a s = (do
      let (n, s) ← procArg s
      if (Inst.meter n).Fits then
        .ok ({ info := i.addInst (Inst.meter n).wire, actions := a, func := none, phase := .noarg }, s)
      else .error .structError) := by
  have e : dictInst t!"@meter" i a s = (do
      let (num, s) ← procArg s
      let v ← packU 4 num
      let info := i.addInst (beBytes 2 OFPIT_METER ++ (beBytes 2 8 ++ v))
      .ok ({ info := info, actions := a, func := none, phase := .noarg }, s)) := rfl
  rw [e]
  congr 1
  funext ⟨n, s⟩
  dsimp only
  rw [packU_wire]
  by_cases hf : FitsIn 4 n
  · have hf' : (Inst.meter n).Fits := hf
    rw [if_pos hf, if_pos hf', ok_bind]; simp only [← spec_be]; rfl
  · have hf' : ¬ (Inst.meter n).Fits := hf
    rw [if_neg hf, if_neg hf']; rfl

/-- The argument of `@metadata`. -/
def metaArg (s : Str) : Py (Int × Int × Str) := do
  let (op, payload, s) := getToken s
  pyAssert (hasChar op '=')
  let (v, m) := split1 '/' payload
  let (num, l) ← parseInt v
  pyAssert (v.length == l)
  let mask ← (
    match m with
    | none => .ok 0
    | some m => do
      let (mask, l) ← parseInt m
      pyAssert (m.length == l)
      .ok mask : Py Int)
  .ok (num, mask, s)

theorem metaArg_iff (s r : Str) (n w : Int) : metaArg s = .ok (n, w, r) ↔
    (∃ op p, Tok s op p r ∧ '=' ∈ op ∧ IntSyntax p n p.length ∧ w = 0) ∨
    (∃ op v m, Tok s op (v ++ '/' :: m) r ∧ '=' ∈ op ∧ IntSyntax v n v.length ∧ IntSyntax m w m.length) := by
  unfold metaArg
  rcases hg : getToken s with ⟨op, p, t⟩
  have ht := (getToken_iff _ _ _ _).1 hg
  rcases hp : split1 '/' p with ⟨v, m⟩
  have hs := split1_inv hp
  dsimp only
  rw [hp]
  dsimp only
  constructor
  · intro h
    obtain ⟨u, h1, h⟩ := bind_ok h
    obtain ⟨⟨n', l⟩, h2, h⟩ := bind_ok h
    obtain ⟨u', h3, h⟩ := bind_ok h
    obtain ⟨w', h7, h⟩ := bind_ok h
    cases h
    have h4 := pyAssert_inv h3
    simp only [beq_iff_eq] at h4
    have h5 : IntSyntax v n' v.length := by rw [h4]; exact (parseInt_iff _ _ _).1 h2
    have h6 := (hasChar_iff _ _).1 (pyAssert_inv h1)
    obtain ⟨-, hs⟩ := hs
    cases m with
    | none =>
      cases h7
      dsimp only at hs
      subst hs
      exact Or.inl ⟨op, p, ht, h6, h5, rfl⟩
    | some m =>
      dsimp only at hs h7
      obtain ⟨⟨w', l'⟩, h8, h7⟩ := bind_ok h7
      obtain ⟨_, h9, h7⟩ := bind_ok h7
      cases h7
      have h9 := pyAssert_inv h9
      simp only [beq_iff_eq] at h9
      subst hs
      exact Or.inr ⟨op, v, m, ht, h6, h5, by rw [h9]; exact (parseInt_iff _ _ _).1 h8⟩
  · rintro (⟨op', p', h1, h2, h3, rfl⟩ | ⟨op', v', m', h1, h2, h3, h4⟩)
    · rw [← getToken_iff, hg] at h1
      cases h1
      rw [split1_noslash h3] at hp
      cases hp
      rw [(hasChar_iff _ _).2 h2, pyAssert_ok, ok_bind, (parseInt_iff _ _ _).2 h3, ok_bind]
      simp only [beq_self_eq_true, pyAssert_ok, ok_bind]
    · rw [← getToken_iff, hg] at h1
      cases h1
      rw [split1_slash h3] at hp
      cases hp
      rw [(hasChar_iff _ _).2 h2, pyAssert_ok, ok_bind, (parseInt_iff _ _ _).2 h3, ok_bind]
      simp only [beq_self_eq_true, pyAssert_ok, ok_bind]
      rw [(parseInt_iff _ _ _).2 h4, ok_bind]
      simp only [beq_self_eq_true, pyAssert_ok, ok_bind]

theorem bind_assoc' {α β γ : Type} (x : Py α) (f : α → Py β) (g : β → Py γ) :
    (x >>= f) >>= g = x >>= fun a => f a >>= g := by
  cases x <;> rfl

theorem dictInst_metadata (name : Str) (h : name ∈ [t!"@metadata", t!"@write_metadata"]) (i : Info) (a : Bytes)
    (s : Str) : dictInst name i a s = (do
      let (n, m, s) ← metaArg s
      if (Inst.metadata n m).Fits then
        .ok ({ info := i.addInst (Inst.metadata n m).wire, actions := a, func := none, phase := .noarg }, s)
      else .error .structError) := by
  have e : dictInst name i a s = (do
      let (op, payload, s) := getToken s
      pyAssert (hasChar op '=')
      let (v, m) := split1 '/' payload
      let (num, l) ← parseInt v
      pyAssert (v.length == l)
      let mask ← (
        match m with
        | none => .ok 0
        | some m => do
          let (mask, l) ← parseInt m
          pyAssert (m.length == l)
          .ok mask : Py Int)
      let b ← packAll [(8, num), (8, mask)]
      let info := i.addInst (beBytes 2 OFPIT_WRITE_METADATA ++ (beBytes 2 24 ++ (zeros 4 ++ b)))
      .ok ({ info := info, actions := a, func := none, phase := .noarg }, s)) := by
    simp only [List.mem_cons, List.not_mem_nil, or_false] at h
    rcases h with rfl | rfl <;> rfl
  have fin : ∀ (n m : Int) (s : Str), ((do
      let b ← packAll [(8, n), (8, m)]
      let info := i.addInst (beBytes 2 OFPIT_WRITE_METADATA ++ (beBytes 2 24 ++ (zeros 4 ++ b)))
      .ok ({ info := info, actions := a, func := none, phase := .noarg }, s)) : Py (DictSt × Str)) =
      (if (Inst.metadata n m).Fits then
        .ok ({ info := i.addInst (Inst.metadata n m).wire, actions := a, func := none, phase := .noarg }, s)
      else .error .structError) := by
    intro n m s
    rw [packAll_eq]
    by_cases hf : (Inst.metadata n m).Fits
    · rw [if_pos (by simpa [Inst.Fits] using hf), ok_bind, if_pos hf]
      simp only [← spec_be, List.flatMap_cons, List.flatMap_nil, List.append_nil]
      rfl
    · rw [if_neg (by simpa [Inst.Fits] using hf), error_bind, if_neg hf]
  rw [e]
  unfold metaArg
  rcases hg : getToken s with ⟨op, p, t⟩
  rcases hp : split1 '/' p with ⟨v, m⟩
  dsimp only
  rw [hp]
  dsimp only
  simp only [bind_assoc', ok_bind]
  congr 1; funext _
  congr 1; funext ⟨n, l⟩
  dsimp only
  congr 1; funext _
  congr 1; funext w
  exact fin n w t

theorem dictInst_acts (name : Str) (i : Info) (a : Bytes) (s : Str) :
    (name ∈ [t!"@apply", t!"@apply_actions"] → dictInst name i a s =
      .ok ({ info := i, actions := [], func := some 4, phase := .action }, s)) ∧
    (name ∈ [t!"@write", t!"@write_actions"] → dictInst name i a s =
      .ok ({ info := i, actions := [], func := some 3, phase := .action }, s)) ∧
    (name ∈ [t!"@clear", t!"@clear_actions"] → dictInst name i a s =
      .ok ({ info := i.addInst Inst.clear.wire, actions := a, func := none, phase := .noarg }, s)) := by
  refine ⟨?_, ?_, ?_⟩ <;> intro h <;> simp only [List.mem_cons, List.not_mem_nil, or_false] at h <;>
    rcases h with rfl | rfl <;> rfl

theorem dictInst_unknown (name : Str) (h : name ∉ instNames) (i : Info) (a : Bytes) (s : Str) :
    dictInst name i a s = .error .valueError := by
  simp only [instNames, List.mem_cons, List.not_mem_nil, or_false, not_or] at h
  obtain ⟨a1, a2, a3, a4, a5, a6, a7, a8, a9, a10, a11⟩ := h
  unfold dictInst
  rw [if_neg (by simp [a1, a2]), if_neg (by simp [a3, a4]), if_neg (by simp [a5, a6]),
    if_neg (by simp [a7, a8]), if_neg (by simp [a9, a10]), if_neg (by simp [a11])]

theorem at_inst {name : Str} (h : name ∈ instNames) : startsWith name t!"@" = true := by
  have key : ∀ n ∈ instNames, startsWith n t!"@" = true := by decide
  exact key name h

theorem at_key {name : Str} (h : name ∈ matchKeys) : startsWith name t!"@" = false := by
  have key : ∀ n ∈ matchKeys, startsWith n t!"@" = false := by decide
  exact key name h

theorem at_none {name : Str} (h : name.head? ≠ some '@') : startsWith name t!"@" = false := by
  rw [← Bool.not_eq_true, startsWith_at]; exact h

theorem dictStep_at {s h name t : Str} (ht : Tok s h name t) (he : '=' ∉ h)
    (ha : startsWith name t!"@" = true) (st : DictSt) :
    dictStep st s = (runFunc st >>= fun info => dictInst name info st.actions t) := by
  rw [← getToken_iff] at ht
  unfold dictStep
  rw [ht]
  dsimp only
  rw [hasChar_false (fun c hc => fun hx : c = '=' => he (hx ▸ hc)), Bool.not_false, pyAssert_ok, ok_bind, if_pos ha]

theorem dictStep_noat {s h name t : Str} (ht : Tok s h name t) (he : '=' ∉ h)
    (ha : startsWith name t!"@" = false) (st : DictSt) :
    dictStep st s = (match st.phase with
    | .mtch => do
      let (info, s) ← dictMatch name st.info t
      .ok ({ st with info := info }, s)
    | .action => do
      let (act, l) ← str2act (name ++ t)
      if l == 0 then .error .valueError
      else .ok ({ st with actions := st.actions ++ act }, (name ++ t).drop l)
    | .noarg => .error .valueError) := by
  rw [← getToken_iff] at ht
  unfold dictStep
  rw [ht]
  dsimp only
  rw [hasChar_false (fun c hc => fun hx : c = '=' => he (hx ▸ hc)), Bool.not_false, pyAssert_ok, ok_bind,
    if_neg (by rw [ha]; decide)]
  obtain ⟨i0, a0, f0, ph⟩ := st
  cases ph <;> rfl

theorem keyName_mem (k : FKey) : k.name ∈ matchKeys := by cases k <;> decide

theorem flagName_mem {name : Str} {b : Nat} (h : (name, b) ∈ flagWords) : name ∈ matchKeys := by
  have key : ∀ e ∈ flagWords, e.1 ∈ matchKeys := by decide
  exact key _ h

theorem instName_mem {name : Str} {l : List Str} (h : name ∈ l) (hl : ∀ n ∈ l, n ∈ instNames) :
    startsWith name t!"@" = true := at_inst (hl name h)

theorem ite_bind {α β : Type} (c : Prop) [Decidable c] (x y : Py α) (f : α → Py β) :
    ((if c then x else y) >>= f) = if c then x >>= f else y >>= f := by
  split <;> rfl

theorem stepInst_bind {β : Type} (st : DictSt) (i : Inst) (f : DictSt → Py β) :
    (stepInst st i >>= f) = (runFunc st >>= fun info => if i.Fits then
      f { info := info.addInst i.wire, actions := st.actions, func := none, phase := .noarg }
      else .error .structError) := by
  unfold stepInst
  rw [bind_assoc']
  congr 1
  funext info
  rw [ite_bind, ok_bind, error_bind]

theorem stepActs_bind {β : Type} (st : DictSt) (t : Nat) (f : DictSt → Py β) :
    (stepActs st t >>= f) = (runFunc st >>= fun info =>
      f { info := info, actions := [], func := some t, phase := .action }) := by
  unfold stepActs
  rw [bind_assoc']
  congr 1

theorem next_start {w : Word} {p q : Place} (hn : w.next p = some q)
    (hw : match w with | .key .. => True | .cookie .. => True | .flag .. => True | .oxm .. => True | _ => False) :
    p = .start ∧ q = .start := by
  cases w <;> cases p <;> first | exact absurd hw id | (cases hn; exact ⟨rfl, rfl⟩) | cases hn

/-- One round of the loop on a word that stands in the right place. -/
theorem dictStep_word {s h name t u : Str} {w : Word} {p q : Place} {st : DictSt}
    (hp : st.phase = phaseOf p) (hn : w.next p = some q) (ht : Tok s h name t) (he : '=' ∉ h)
    (hb : Body oxmP actP name t w u) : dictStep st s = (applyWord st w >>= fun st' => .ok (st', u)) := by
  obtain ⟨i0, a0, f0, ph⟩ := st
  dsimp only at hp
  subst hp
  cases hb with
  | key k _ op pl n _ h1 h2 h3 =>
    obtain ⟨rfl, rfl⟩ := next_start hn trivial
    rw [dictStep_noat ht he (at_key (keyName_mem k))]
    simp only [phaseOf]
    rw [(dictMatch_key k _ _ _).2 ⟨op, pl, n, u, h1, h2, h3, rfl⟩]
    rfl
  | cookie _ op pl n _ h1 h2 h3 =>
    obtain ⟨rfl, rfl⟩ := next_start hn trivial
    rw [dictStep_noat ht he (at_key (by decide))]
    simp only [phaseOf]
    rw [(dictMatch_cookie _ _ _).2 (Or.inl ⟨op, pl, n, u, h1, h2, h3, rfl⟩)]
    rfl
  | cookieMask _ op v m n w l _ h1 h2 h3 h4 =>
    obtain ⟨rfl, rfl⟩ := next_start hn trivial
    rw [dictStep_noat ht he (at_key (by decide))]
    simp only [phaseOf]
    rw [(dictMatch_cookie _ _ _).2 (Or.inr ⟨op, v, m, n, w, l, u, h1, h2, h3, h4, rfl⟩)]
    rfl
  | flag _ bit _ h1 =>
    obtain ⟨rfl, rfl⟩ := next_start hn trivial
    rw [dictStep_noat ht he (at_key (flagName_mem h1))]
    simp only [phaseOf]
    rw [dictMatch_flag _ _ h1]
    rfl
  | oxm _ _ b l h1 h2 h3 h4 =>
    obtain ⟨rfl, rfl⟩ := next_start hn trivial
    rw [dictStep_noat ht he (at_none h2)]
    simp only [phaseOf]
    rw [dictMatch_oxm _ h1, show str2oxm1 (name ++ t) = .ok (b, l) from h3, ok_bind]
    dsimp only
    rw [if_neg (by simpa using h4)]
    rfl
  | goto _ _ op pl n _ h1 h2 h3 h4 =>
    rw [dictStep_at ht he (instName_mem h1 (by decide)), applyWord, stepInst_bind]
    congr 1
    funext info
    rw [dictInst_goto _ h1, (intArg_iff _ _ _).2 ⟨op, pl, h2, h3, h4⟩, ok_bind]
  | metadata _ _ op pl n _ h1 h2 h3 h4 =>
    rw [dictStep_at ht he (instName_mem h1 (by decide)), applyWord, stepInst_bind]
    congr 1
    funext info
    rw [dictInst_metadata _ h1, (metaArg_iff _ _ _ _).2 (Or.inl ⟨op, pl, h2, h3, h4, rfl⟩), ok_bind]
  | metadataMask _ _ op v m n w _ h1 h2 h3 h4 h5 =>
    rw [dictStep_at ht he (instName_mem h1 (by decide)), applyWord, stepInst_bind]
    congr 1
    funext info
    rw [dictInst_metadata _ h1, (metaArg_iff _ _ _ _).2 (Or.inr ⟨op, v, m, h2, h3, h4, h5⟩), ok_bind]
  | apply _ _ h1 =>
    rw [dictStep_at ht he (instName_mem h1 (by decide)), applyWord, stepActs_bind]
    congr 1
    funext info
    rw [(dictInst_acts _ _ _ _).1 h1]
  | write _ _ h1 =>
    rw [dictStep_at ht he (instName_mem h1 (by decide)), applyWord, stepActs_bind]
    congr 1
    funext info
    rw [(dictInst_acts _ _ _ _).2.1 h1]
  | clear _ _ h1 =>
    rw [dictStep_at ht he (instName_mem h1 (by decide)), applyWord, stepInst_bind]
    congr 1
    funext info
    rw [(dictInst_acts _ _ _ _).2.2 h1]
    exact (if_pos trivial).symm
  | meter _ op pl n _ h2 h3 h4 =>
    rw [dictStep_at ht he (by decide), applyWord, stepInst_bind]
    congr 1
    funext info
    rw [dictInst_meter, (procArg_iff _ _ _).2 ⟨op, pl, h2, h3, h4⟩, ok_bind]
  | act _ _ b l h1 h2 h3 =>
    have : p = .acts := by cases p <;> first | rfl | cases hn
    subst this
    rw [dictStep_noat ht he (at_none h1)]
    simp only [phaseOf]
    rw [show str2act (name ++ t) = .ok (b, l) from h2, ok_bind]
    dsimp only
    rw [if_neg (by simpa using h3)]
    rfl

theorem ite_ok {α : Type} {c : Prop} [Decidable c] {x y : α} {e : Err}
    (h : (if c then (.ok x : Py α) else .error e) = .ok y) : c ∧ x = y := by
  by_cases hc : c
  · rw [if_pos hc] at h; cases h; exact ⟨hc, rfl⟩
  · rw [if_neg hc] at h; cases h

/-- Every round that does not raise reads a word in the right place. -/
theorem dictStep_inv {s u : Str} {p : Place} {st st' : DictSt} (hp : st.phase = phaseOf p)
    (hs : dictStep st s = .ok (st', u)) : ∃ h name t w q, Tok s h name t ∧ '=' ∉ h ∧
      Body oxmP actP name t w u ∧ w.next p = some q ∧ applyWord st w = .ok st' := by
  rcases hg : getToken s with ⟨h, name, t⟩
  have ht := (getToken_iff _ _ _ _).1 hg
  have he : '=' ∉ h := by
    unfold dictStep at hs
    rw [hg] at hs
    obtain ⟨_, h1, -⟩ := bind_ok hs
    have := pyAssert_inv h1
    intro hm
    rw [(hasChar_iff _ _).2 hm] at this
    cases this
  refine ⟨h, name, t, ?_⟩
  by_cases ha : startsWith name t!"@" = true
  · rw [dictStep_at ht he ha] at hs
    obtain ⟨info, hr, hs⟩ := bind_ok hs
    have hi : ∀ i : Inst, i.Fits → stepInst st i =
        .ok { info := info.addInst i.wire, actions := st.actions, func := none, phase := .noarg } := by
      intro i hf
      unfold stepInst
      rw [hr, ok_bind, if_pos hf]
    have hc : ∀ t, stepActs st t = .ok { info := info, actions := [], func := some t, phase := .action } := by
      intro t
      unfold stepActs
      rw [hr, ok_bind]
    by_cases hm : name ∈ instNames
    · by_cases h1 : name ∈ [t!"@goto", t!"@goto_table"]
      · rw [dictInst_goto _ h1] at hs
        obtain ⟨⟨n, r⟩, h2, hs⟩ := bind_ok hs
        obtain ⟨hf, hx⟩ := ite_ok hs
        cases hx
        obtain ⟨op, pl, h3, h4, h5⟩ := (intArg_iff _ _ _).1 h2
        exact ⟨.goto n, .done, ht, he, .goto _ _ op pl n _ h1 h3 h4 h5, rfl, hi _ hf⟩
      by_cases h2 : name ∈ [t!"@metadata", t!"@write_metadata"]
      · rw [dictInst_metadata _ h2] at hs
        obtain ⟨⟨n, m, r⟩, h3, hs⟩ := bind_ok hs
        obtain ⟨hf, hx⟩ := ite_ok hs
        cases hx
        rcases (metaArg_iff _ _ _ _).1 h3 with ⟨op, pl, h7, h4, h5, rfl⟩ | ⟨op, v, m', h7, h4, h5, h6⟩
        · exact ⟨.metadata n 0, .done, ht, he, .metadata _ _ op pl n _ h2 h7 h4 h5, rfl, hi _ hf⟩
        · exact ⟨.metadata n m, .done, ht, he, .metadataMask _ _ op v m' n m _ h2 h7 h4 h5 h6, rfl, hi _ hf⟩
      by_cases h3 : name ∈ [t!"@apply", t!"@apply_actions"]
      · rw [(dictInst_acts _ _ _ _).1 h3] at hs
        cases hs
        exact ⟨.apply, .acts, ht, he, .apply _ _ h3, rfl, hc _⟩
      by_cases h4 : name ∈ [t!"@write", t!"@write_actions"]
      · rw [(dictInst_acts _ _ _ _).2.1 h4] at hs
        cases hs
        exact ⟨.write, .acts, ht, he, .write _ _ h4, rfl, hc _⟩
      by_cases h5 : name ∈ [t!"@clear", t!"@clear_actions"]
      · rw [(dictInst_acts _ _ _ _).2.2 h5] at hs
        cases hs
        exact ⟨.clear, .done, ht, he, .clear _ _ h5, rfl, hi _ trivial⟩
      have hm' : name = t!"@meter" := by
        simp only [instNames, List.mem_cons, List.not_mem_nil, or_false] at hm h1 h2 h3 h4 h5
        tauto
      subst hm'
      rw [dictInst_meter] at hs
      obtain ⟨⟨n, r⟩, h2, hs⟩ := bind_ok hs
      obtain ⟨hf, hx⟩ := ite_ok hs
      cases hx
      obtain ⟨op, pl, h3, h4, h5⟩ := (procArg_iff _ _ _).1 h2
      exact ⟨.meter n, .done, ht, he, .meter _ op pl n _ h3 h4 h5, rfl, hi _ hf⟩
    · rw [dictInst_unknown _ hm] at hs
      cases hs
  · have ha' : name.head? ≠ some '@' := fun hx => ha ((startsWith_at _).2 hx)
    obtain ⟨i0, a0, f0, ph⟩ := st
    dsimp only at hp
    subst hp
    rw [dictStep_noat ht he (by simpa using ha)] at hs
    cases p with
    | start =>
      simp only [phaseOf] at hs
      obtain ⟨⟨info, r⟩, h1, hs⟩ := bind_ok hs
      cases hs
      by_cases hm : name ∈ matchKeys
      · rcases matchKeys_cases _ hm with ⟨k, rfl⟩ | rfl | ⟨b, hb⟩
        · obtain ⟨op, pl, n, r, h2, h3, h4, h5⟩ := (dictMatch_key _ _ _ _).1 h1
          cases h5
          exact ⟨.key k n, .start, ht, he, .key k _ op pl n _ h2 h3 h4, rfl, rfl⟩
        · rcases (dictMatch_cookie _ _ _).1 h1 with ⟨op, pl, n, r, h2, h3, h4, h5⟩ |
            ⟨op, v, m, n, w, l, r, h2, h3, h4, h5, h6⟩
          · cases h5
            exact ⟨.cookie n none, .start, ht, he, .cookie _ op pl n _ h2 h3 h4, rfl, rfl⟩
          · cases h6
            exact ⟨.cookie n (some w), .start, ht, he, .cookieMask _ op v m n w l _ h2 h3 h4 h5, rfl, rfl⟩
        · rw [dictMatch_flag _ _ hb] at h1
          cases h1
          exact ⟨.flag b, .start, ht, he, .flag _ b _ hb, rfl, rfl⟩
      · rw [dictMatch_oxm _ hm] at h1
        obtain ⟨⟨b, l⟩, h2, h1⟩ := bind_ok h1
        dsimp only at h1
        by_cases hl : l = 0
        · rw [if_pos (by simpa using hl)] at h1
          cases h1
        · rw [if_neg (by simpa using hl)] at h1
          cases h1
          exact ⟨.oxm b, .start, ht, he, .oxm _ _ b l hm ha' h2 hl, rfl, rfl⟩
    | acts =>
      simp only [phaseOf] at hs
      obtain ⟨⟨b, l⟩, h2, h1⟩ := bind_ok hs
      dsimp only at h1
      by_cases hl : l = 0
      · rw [if_pos (by simpa using hl)] at h1
        cases h1
      · rw [if_neg (by simpa using hl)] at h1
        cases h1
        exact ⟨.act b, .acts, ht, he, .act _ _ b l ha' h2 hl, rfl, rfl⟩
    | done =>
      simp only [phaseOf] at hs
      cases hs

theorem applyWord_phase {st st' : DictSt} {w : Word} {p q : Place} (hp : st.phase = phaseOf p)
    (hn : w.next p = some q) (h : applyWord st w = .ok st') : st'.phase = phaseOf q := by
  have hi : ∀ i, stepInst st i = .ok st' → st'.phase = .noarg := by
    intro i h
    unfold stepInst at h
    obtain ⟨_, _, h⟩ := bind_ok h
    obtain ⟨_, rfl⟩ := ite_ok h
    rfl
  have ha : ∀ t, stepActs st t = .ok st' → st'.phase = .action := by
    intro i h
    unfold stepActs at h
    obtain ⟨_, _, h⟩ := bind_ok h
    cases h
    rfl
  cases w <;> cases p <;> cases hn <;> first | (cases h; exact hp) | exact hi _ h | exact ha _ h

end Ofpstr
