import Verif.Lemmas.Dict

/-!
# The loop of `str2dict`
-/

namespace Ofpstr
open Spec

def foldWords (st : DictSt) : List Word → Py DictSt
  | [] => .ok st
  | w :: ws => applyWord st w >>= fun st => foldWords st ws

/-- The instruction that is still open. -/
def pend : Option Nat → Bytes → List Inst
  | none, _ => []
  | some t, a => if t = 4 then [.apply a] else [.write a]

/-- The value, if all instructions fit. -/
def guardFits {α : Type} (l : List Inst) (x : α) : Py α :=
  if ∀ i ∈ l, i.Fits then .ok x else .error .structError

theorem guard_pos {α : Type} {l : List Inst} {x : α} (h : ∀ i ∈ l, i.Fits) : guardFits l x = .ok x := if_pos h
theorem guard_neg {α : Type} {l : List Inst} {x : α} (h : ¬ ∀ i ∈ l, i.Fits) :
    guardFits l x = .error .structError := if_neg h

structure GoodSt (st : DictSt) (p : Place) : Prop where
  phase : st.phase = phaseOf p
  acts : p = .acts → st.func = some 4 ∨ st.func = some 3
  other : p ≠ .acts → st.func = none

def flagFold (o : Option Nat) : List Word → Option Nat
  | [] => o
  | .flag b :: ws => flagFold (some (o.getD 0 ||| 2 ^ b)) ws
  | _ :: ws => flagFold o ws

def infoAfter (i : Info) (ws : List Word) (insts : List Inst) : Info where
  table := (lastOf (Word.keyArg .table) ws).or i.table
  priority := (lastOf (Word.keyArg .priority) ws).or i.priority
  idleTimeout := (lastOf (Word.keyArg .idle) ws).or i.idleTimeout
  hardTimeout := (lastOf (Word.keyArg .hard) ws).or i.hardTimeout
  buffer := (lastOf (Word.keyArg .buffer) ws).or i.buffer
  flags := flagFold i.flags ws
  cookie := (lastOf Word.cookieArg ws).or i.cookie
  cookieMask := (lastOf Word.maskArg ws).or i.cookieMask
  outPort := (lastOf (Word.keyArg .outPort) ws).or i.outPort
  outGroup := (lastOf (Word.keyArg .outGroup) ws).or i.outGroup
  mtch := i.mtch ++ oxmOf ws
  inst := i.inst ++ insts.flatMap Inst.wire

theorem lastOf_cons (f : Word → Option Int) (w : Word) (ws : List Word) (o : Option Int) :
    (lastOf f (w :: ws)).or o = (lastOf f ws).or ((f w).or o) := by
  unfold lastOf
  rw [List.filterMap_cons]
  cases hw : f w with
  | none => simp
  | some x =>
    simp only [List.getLast?_cons]
    cases (ws.filterMap f).getLast? <;> simp

theorem lastOf_cons_none (f : Word → Option Int) (w : Word) (ws : List Word) (h : f w = none) :
    lastOf f (w :: ws) = lastOf f ws := by
  unfold lastOf
  rw [List.filterMap_cons, h]

theorem infoAfter_key (i : Info) (k : FKey) (n : Int) (ws : List Word) (l : List Inst) :
    infoAfter (setKey k n i) ws l = infoAfter i (.key k n :: ws) l := by
  unfold infoAfter
  simp only [lastOf_cons, oxmOf, List.flatMap_cons, Word.oxmBytes, List.nil_append, flagFold]
  cases k <;> simp [setKey, Word.keyArg, Word.cookieArg, Word.maskArg]

theorem infoAfter_cookie (i : Info) (n : Int) (m : Option Int) (ws : List Word) (l : List Inst) :
    infoAfter { i with cookie := some n, cookieMask := m <|> i.cookieMask } ws l =
      infoAfter i (.cookie n m :: ws) l := by
  unfold infoAfter
  simp only [lastOf_cons, oxmOf, List.flatMap_cons, Word.oxmBytes, List.nil_append, flagFold]
  cases m <;> simp [Word.keyArg, Word.cookieArg, Word.maskArg]

theorem infoAfter_flag (i : Info) (b : Nat) (ws : List Word) (l : List Inst) :
    infoAfter { i with flags := some (i.flags.getD 0 ||| 2 ^ b) } ws l = infoAfter i (.flag b :: ws) l := by
  unfold infoAfter
  simp [lastOf_cons, oxmOf, Word.oxmBytes, flagFold, Word.keyArg, Word.cookieArg, Word.maskArg]

theorem infoAfter_oxm (i : Info) (b : Bytes) (ws : List Word) (l : List Inst) :
    infoAfter { i with mtch := i.mtch ++ b } ws l = infoAfter i (.oxm b :: ws) l := by
  unfold infoAfter
  simp [lastOf_cons, oxmOf, Word.oxmBytes, flagFold, Word.keyArg, Word.cookieArg, Word.maskArg]

theorem infoAfter_addInst (i : Info) (x : List Inst) (ws : List Word) (l : List Inst) :
    infoAfter (i.addInst (x.flatMap Inst.wire)) ws l = infoAfter i ws (x ++ l) := by
  unfold infoAfter
  simp [Info.addInst]

/-- The word does not touch the numbers and the match. -/
def Word.isInst : Word → Prop
  | .key .. => False
  | .cookie .. => False
  | .flag .. => False
  | .oxm .. => False
  | _ => True

theorem infoAfter_inst (i : Info) (w : Word) (hw : Word.isInst w) (ws : List Word) (l : List Inst) :
    infoAfter i (w :: ws) l = infoAfter i ws l := by
  unfold infoAfter
  cases w <;> first
    | exact absurd hw id
    | simp [lastOf_cons, oxmOf, Word.oxmBytes, flagFold, Word.keyArg, Word.cookieArg, Word.maskArg]

theorem runFunc_eq {st : DictSt} {p : Place} (h : GoodSt st p) : runFunc st =
    guardFits (pend st.func st.actions) (st.info.addInst ((pend st.func st.actions).flatMap Inst.wire)) := by
  have hf : st.func = none ∨ st.func = some 4 ∨ st.func = some 3 := by
    by_cases hp : p = .acts
    · exact Or.inr (h.acts hp)
    · exact Or.inl (h.other hp)
  obtain ⟨info, a, f, ph⟩ := st
  dsimp only at hf
  have key : ∀ t : Nat, t < 65536 → ((do
      let h ← packAll [(2, ((t : Nat) : Int)), (2, ((8 + a.length : Nat) : Int))]
      Except.ok ({ info with inst := info.inst ++ ((h ++ zeros 4) ++ a) } : Info)) : Py Info) =
      if 8 + a.length < 65536 then
        .ok (info.addInst (be 2 t ++ (be 2 (8 + a.length) ++ (pad 4 ++ a)))) else .error .structError := by
    intro t ht
    rw [packAll_eq]
    have h1 : FitsIn 2 (t : Int) := ⟨by omega, by
      show (t : Int) < ((256 ^ 2 : Nat) : Int); omega⟩
    by_cases hl : 8 + a.length < 65536
    · have h2 : FitsIn 2 ((8 + a.length : Nat) : Int) := ⟨by omega, by
        show ((8 + a.length : Nat) : Int) < ((256 ^ 2 : Nat) : Int); omega⟩
      rw [if_pos (by simpa using ⟨h1, h2⟩), ok_bind, if_pos hl]
      simp only [List.flatMap_cons, List.flatMap_nil, List.append_nil, List.append_assoc]
      rfl
    · have h2 : ¬ FitsIn 2 ((8 + a.length : Nat) : Int) := fun h => hl (by
        have : ((8 + a.length : Nat) : Int) < ((256 ^ 2 : Nat) : Int) := h.2
        omega)
      rw [if_neg (fun h => h2 (h (2, ((8 + a.length : Nat) : Int)) (by simp))), error_bind, if_neg hl]
  rcases hf with rfl | rfl | rfl
  · rw [guard_pos (by intro i hi; cases hi)]
    simp [runFunc, pend, Info.addInst]
  · have e : runFunc { info := info, actions := a, func := some 4, phase := ph } = _ := key 4 (by omega)
    rw [e]
    have hp : pend (some 4) a = [.apply a] := rfl
    rw [hp]
    by_cases hl : 8 + a.length < 65536
    · rw [if_pos hl, guard_pos (by intro i hi; cases List.mem_singleton.1 hi; exact hl)]
      simp [Inst.wire, u16]
    · rw [if_neg hl, guard_neg (fun h => hl (h (.apply a) (List.mem_singleton.2 rfl)))]
  · have e : runFunc { info := info, actions := a, func := some 3, phase := ph } = _ := key 3 (by omega)
    rw [e]
    have hp : pend (some 3) a = [.write a] := rfl
    rw [hp]
    by_cases hl : 8 + a.length < 65536
    · rw [if_pos hl, guard_pos (by intro i hi; cases List.mem_singleton.1 hi; exact hl)]
      simp [Inst.wire, u16]
    · rw [if_neg hl, guard_neg (fun h => hl (h (.write a) (List.mem_singleton.2 rfl)))]

theorem good_init : GoodSt {} .start := ⟨rfl, fun h => (by cases h), fun _ => rfl⟩

theorem applyWord_good {st st' : DictSt} {w : Word} {p q : Place} (hg : GoodSt st p)
    (hn : w.next p = some q) (h : applyWord st w = .ok st') : GoodSt st' q := by
  have hi : ∀ i, stepInst st i = .ok st' → GoodSt st' .done := by
    intro i h
    unfold stepInst at h
    obtain ⟨_, _, h⟩ := bind_ok h
    obtain ⟨_, rfl⟩ := ite_ok h
    exact ⟨rfl, fun h => (by cases h), fun _ => rfl⟩
  have ha : ∀ t, t = 4 ∨ t = 3 → stepActs st t = .ok st' → GoodSt st' .acts := by
    intro t ht h
    unfold stepActs at h
    obtain ⟨_, _, h⟩ := bind_ok h
    cases h
    exact ⟨rfl, fun _ => by rcases ht with rfl | rfl <;> simp, fun h => absurd rfl h⟩
  cases w <;> cases p <;> cases hn <;> first
    | (cases h; exact ⟨hg.phase, hg.acts, hg.other⟩)
    | exact hi _ h
    | exact ha _ (by decide) h

/-- The meaning of the words. -/
theorem foldWords_eq {st : DictSt} {p : Place} (hg : GoodSt st p) (ws : List Word)
    (hp : placeAfter p ws ≠ none) : (foldWords st ws >>= runFunc) =
    guardFits (pend st.func (st.actions ++ leading ws) ++ instsOf ws)
      (infoAfter st.info ws (pend st.func (st.actions ++ leading ws) ++ instsOf ws)) := by
  induction ws generalizing st p with
  | nil =>
    rw [foldWords, ok_bind, runFunc_eq hg]
    simp only [leading, instsOf, List.append_nil]
    congr 2
    simp [infoAfter, lastOf, oxmOf, flagFold, Info.addInst]
  | cons w ws ih =>
    rw [placeAfter] at hp
    cases hn : w.next p with
    | none => rw [hn] at hp; exact absurd rfl hp
    | some q =>
      rw [hn] at hp
      dsimp only at hp
      rw [foldWords, bind_assoc']
      have plain : ∀ st', applyWord st w = .ok st' → p = .start → st'.func = st.func →
          (∀ l, infoAfter st'.info ws l = infoAfter st.info (w :: ws) l) → instsOf (w :: ws) = instsOf ws →
          (applyWord st w >>= fun a => foldWords a ws >>= runFunc) =
            guardFits (pend st.func (st.actions ++ leading (w :: ws)) ++ instsOf (w :: ws))
              (infoAfter st.info (w :: ws) (pend st.func (st.actions ++ leading (w :: ws)) ++ instsOf (w :: ws))) := by
        intro st' h1 h2 h3 h4 h5
        have hfn : st.func = none := hg.other (by rw [h2]; decide)
        rw [h1, ok_bind, ih (applyWord_good hg hn h1) hp, h3, hfn, h5, h4]
        rfl
      have inst : ∀ i, applyWord st w = stepInst st i → Word.isInst w → leading (w :: ws) = [] →
          instsOf (w :: ws) = i :: instsOf ws → q = .done →
          (applyWord st w >>= fun a => foldWords a ws >>= runFunc) =
            guardFits (pend st.func (st.actions ++ leading (w :: ws)) ++ instsOf (w :: ws))
              (infoAfter st.info (w :: ws) (pend st.func (st.actions ++ leading (w :: ws)) ++ instsOf (w :: ws))) := by
        intro i h1 h2 h3 h4 h5
        subst h5
        rw [h1, stepInst_bind, runFunc_eq hg, h3, h4, List.append_nil, infoAfter_inst _ _ h2]
        by_cases ha : ∀ i ∈ pend st.func st.actions, i.Fits
        · rw [guard_pos ha, ok_bind]
          by_cases hb : i.Fits
          · rw [if_pos hb, ih (p := .done) ⟨rfl, fun h => (by cases h), fun _ => rfl⟩ hp]
            rw [show ∀ x, pend none x = [] from fun _ => rfl, List.nil_append]
            by_cases hc : ∀ i ∈ instsOf ws, i.Fits
            · rw [guard_pos hc, guard_pos (by
                intro j hj
                rcases List.mem_append.1 hj with hj | hj
                · exact ha j hj
                · rcases List.mem_cons.1 hj with rfl | hj
                  · exact hb
                  · exact hc j hj)]
              have : i.wire = [i].flatMap Inst.wire := by simp
              rw [this, infoAfter_addInst, infoAfter_addInst]
              rfl
            · rw [guard_neg hc, guard_neg (fun h => hc fun j hj => h j (by simp [hj]))]
          · rw [if_neg hb, guard_neg (fun h => hb (h i (by simp)))]
        · rw [guard_neg ha, error_bind, guard_neg (fun h => ha fun j hj => h j (by simp [hj]))]
      have acts : ∀ t i, (t = 4 ∨ t = 3) → applyWord st w = stepActs st t → Word.isInst w →
          leading (w :: ws) = [] → pend (some t) (leading ws) = [i] →
          instsOf (w :: ws) = i :: instsOf ws → q = .acts →
          (applyWord st w >>= fun a => foldWords a ws >>= runFunc) =
            guardFits (pend st.func (st.actions ++ leading (w :: ws)) ++ instsOf (w :: ws))
              (infoAfter st.info (w :: ws) (pend st.func (st.actions ++ leading (w :: ws)) ++ instsOf (w :: ws))) := by
        intro t i ht h1 h2 h3 h6 h4 h5
        subst h5
        rw [h1, stepActs_bind, runFunc_eq hg, h3, h4, List.append_nil, infoAfter_inst _ _ h2]
        by_cases ha : ∀ i ∈ pend st.func st.actions, i.Fits
        · rw [guard_pos ha, ok_bind, ih (p := .acts) ⟨rfl, fun _ => by rcases ht with rfl | rfl <;> simp, fun h => absurd rfl h⟩ hp]
          simp only [List.nil_append, h6, List.cons_append]
          by_cases hc : ∀ j ∈ i :: instsOf ws, j.Fits
          · rw [guard_pos hc, guard_pos (by
              intro j hj
              rcases List.mem_append.1 hj with hj | hj
              · exact ha j hj
              · exact hc j hj), infoAfter_addInst]
          · rw [guard_neg hc, guard_neg (fun h => hc fun j hj => h j (List.mem_append_right _ hj))]
        · rw [guard_neg ha, error_bind, guard_neg (fun h => ha fun j hj => h j (by simp [hj]))]
      cases w with
      | key k n => exact plain _ rfl (next_start hn trivial).1 rfl (fun l => infoAfter_key _ _ _ _ _) rfl
      | cookie n m => exact plain _ rfl (next_start hn trivial).1 rfl (fun l => infoAfter_cookie _ _ _ _ _) rfl
      | flag b => exact plain _ rfl (next_start hn trivial).1 rfl (fun l => infoAfter_flag _ _ _ _) rfl
      | oxm b => exact plain _ rfl (next_start hn trivial).1 rfl (fun l => infoAfter_oxm _ _ _ _) rfl
      | goto n => exact inst (.goto n) rfl trivial rfl rfl (by cases p <;> cases hn <;> rfl)
      | metadata n m => exact inst (.metadata n m) rfl trivial rfl rfl (by cases p <;> cases hn <;> rfl)
      | clear => exact inst .clear rfl trivial rfl rfl (by cases p <;> cases hn <;> rfl)
      | meter n => exact inst (.meter n) rfl trivial rfl rfl (by cases p <;> cases hn <;> rfl)
      | apply => exact acts 4 (.apply (leading ws)) (Or.inl rfl) rfl trivial rfl rfl rfl (by cases p <;> cases hn <;> rfl)
      | write => exact acts 3 (.write (leading ws)) (Or.inr rfl) rfl trivial rfl rfl rfl (by cases p <;> cases hn <;> rfl)
      | act b =>
        rw [applyWord, ok_bind, ih (applyWord_good hg hn rfl) hp]
        simp only [leading, List.append_assoc, infoAfter_inst _ (.act b) trivial, instsOf]

end Ofpstr
