import Verif.Lemmas.ActQp

/-!
# Lists of actions with any byte strings
-/

set_option linter.unusedSimpArgs false

namespace Ofpstr
open Spec

theorem act_shape_any (a : Act) (hv : a.Valid) : ActShape a.wire := by
  obtain ⟨h1, h2, h3, h4⟩ := act_back a hv
  refine ⟨h1, h2, h3, ?_⟩
  rcases h4 with ⟨e, he, h, -⟩ | ⟨t, h, -⟩
  · exact ⟨_, by simpa using he, h⟩
  · exact ⟨_, by simp, h⟩

/-- The texts of a list, one by one. -/
def ActTexts (as : List Act) (ts : List Str) : Prop :=
  List.Forall₂ (fun a t => ∀ rest, act2strOne (Act.wire a ++ rest) = .ok t) as ts

theorem act2strGo_any (as : List Act) (h : ∀ a ∈ as, a.Valid) (fuel : Nat) (hf : (as.flatMap Act.wire).length < fuel)
    (l : List Str) : act2strGo fuel (as.flatMap Act.wire) = .ok l ↔ ActTexts as l := by
  induction as generalizing fuel l with
  | nil =>
    cases fuel with
    | zero => cases hf
    | succ f =>
      simp only [List.flatMap_nil, act2strGo]
      constructor
      · intro hg
        simp at hg
        subst hg
        exact .nil
      · intro hg
        cases hg
        rfl
  | cons a as ih =>
    obtain ⟨h4, h5, h6, x, -, hx⟩ := act_shape_any a (h a (by simp))
    cases fuel with
    | zero => cases hf
    | succ f =>
      rw [List.flatMap_cons, List.length_append] at hf
      have ih' := fun l => ih (fun y hy => h y (by simp [hy])) f (by omega) l
      simp only [List.flatMap_cons]
      rw [act2strGo, if_neg (by simp only [List.length_append]; omega), hx, h6, List.drop_left]
      constructor
      · intro hg
        obtain ⟨t, ht, hg⟩ := bind_ok hg
        rw [ht] at hx
        obtain ⟨l', hl', hg⟩ := bind_ok hg
        cases hg
        exact .cons hx ((ih' l').1 hl')
      · intro hg
        cases hg with
        | @cons _ t _ l' h1 h2 =>
          have : x = .ok t := by rw [← hx [], h1]
          rw [this, ok_bind, (ih' l').2 h2, ok_bind]

theorem act2str_any (as : List Act) (h : ∀ a ∈ as, a.Valid) (text : Str) :
    act2str (as.flatMap Act.wire) = .ok text ↔ ∃ ts, ActTexts as ts ∧ text = commaList ts := by
  unfold act2str
  constructor
  · intro hg
    obtain ⟨l, hl, hg⟩ := bind_ok hg
    simp only [Except.ok.injEq] at hg
    rw [joinStr_commaList] at hg
    exact ⟨l, (act2strGo_any as h _ (by omega) l).1 hl, hg.symm⟩
  · rintro ⟨ts, hts, rfl⟩
    rw [(act2strGo_any as h _ (by omega) ts).2 hts, ok_bind, joinStr_commaList]

/-- One action of an instruction. -/
theorem dictStep_act {st : DictSt} {h t r : Str} (hh : h = [] ∨ h = [',']) (ne : t ≠ []) (hst : ActStart t)
    (hp : st.phase = .action) : dictStep st (h ++ (t ++ r)) = (str2act (t ++ r)).bind fun x =>
      if x.2 == 0 then .error .valueError else .ok ({ st with actions := st.actions ++ x.1 }, (t ++ r).drop x.2) := by
  rcases hgt : getToken (h ++ (t ++ r)) with ⟨h', name, u⟩
  have ht := (getToken_iff _ _ _ _).1 hgt
  have hps : PlainStart (t ++ r) := plainStart_append hst.1 ne
  have hh' : h' = h := by
    have := getToken_fst (h ++ (t ++ r))
    rw [hgt, tokenHead_of_head (head_of hh) hps] at this
    exact this
  subst hh'
  have hnu : t ++ r = name ++ u := List.append_cancel_left ht.1
  have hat : startsWith name t!"@" = false := by
    cases name with
    | nil => rfl
    | cons d nm =>
      cases t with
      | nil => exact absurd rfl ne
      | cons e t =>
        simp only [List.cons_append, List.cons.injEq] at hnu
        have := hst.2
        rw [hnu.1] at this
        simp only [List.head?_cons, ne_eq, Option.some.injEq] at this
        simpa [startsWith, List.isPrefixOf] using Ne.symm this
  have hne : hasChar h' '=' = false := by rcases hh with rfl | rfl <;> decide
  unfold dictStep
  rw [hgt]
  dsimp only
  rw [hne, hat, hp, ← hnu]
  rfl

theorem act_good_of {t r : Str} (ne : t ≠ []) (hst : ActStart t) {act : Bytes} {l : Nat}
    (hr1 : str2act (t ++ r) = .ok (act, l)) (hl0 : l ≠ 0) : ActGood act := by
  obtain ⟨h1, tok, r1, fname, farg, hgt, hpf, hcs⟩ := str2act_cases _ _ _ hr1
  rcases str2act_good _ _ _ hr1 with h0 | h0
  · exfalso
    subst h0
    rcases hcs with ⟨kk, uu, ra, p, hk, hc⟩ | ⟨uu, oxm, p, h3, h4, _⟩ | ⟨_, h3, _⟩
    · have hm : ∃ name, lookupAct name = some kk := by
        rcases hc with ⟨a, _, _, _, _, hl, _⟩ | ⟨_, _, hl, _⟩
        exacts [⟨_, hl⟩, ⟨_, hl⟩]
      obtain ⟨nm, hlk⟩ := hm
      exact (actGood_lenf (runActEnc_good kk (table_params _ (lookupAct_mem hlk)) uu ra _ hk) []).2 rfl
    · obtain ⟨h5, h6⟩ := setFieldAct_wire oxm [] h4
      unfold setFieldWire at h5
      have := congrArg List.length h5
      simp [u16_length] at this
      omega
    · have hps : PlainStart (t ++ r) := plainStart_append hst.1 ne
      have := getToken_fst (t ++ r)
      rw [hgt, tokenHead_plain hps] at this
      dsimp only at this
      rw [this] at h3
      exact hl0 h3
  · exact h0

/-- Every action of a list survives: the last one may have open brackets. -/
def ActsSurvive (as : List Act) : Prop := ∀ a x b, as = a ++ x :: b → x.Survives (b = [])

theorem actsSurvive_cons {t : Act} {ts : List Act} : ActsSurvive (t :: ts) ↔ t.Survives (ts = []) ∧ ActsSurvive ts := by
  constructor
  · intro h
    refine ⟨h [] t ts rfl, ?_⟩
    rintro a t' b rfl
    exact h (t :: a) t' b rfl
  · rintro ⟨h1, h2⟩ a t' b hab
    cases a with
    | nil =>
      simp only [List.nil_append, List.cons.injEq] at hab
      obtain ⟨rfl, rfl⟩ := hab
      exact h1
    | cons x a =>
      simp only [List.cons_append, List.cons.injEq] at hab
      exact h2 a t' b hab.2

theorem acts_split (h t : Str) (as : List Act) (ts : List Str) (hts : ActTexts as ts) :
    ∃ r, h ++ commaList (t :: ts) = h ++ (t ++ r) ∧ (r = [] ∨ ∃ q, r = ',' :: q) ∧ (r = [] ↔ as = []) ∧
      (as ≠ [] → r = [','] ++ commaList ts) := by
  cases hts with
  | nil => exact ⟨[], by simp [commaList], Or.inl rfl, by simp, by simp⟩
  | @cons _ u _ us _ _ => exact ⟨',' :: commaList (u :: us), by simp [commaList], Or.inr ⟨_, rfl⟩, by simp, by simp⟩

theorem dict_back (as : List Act) (hv : ∀ a ∈ as, a.Valid) (ts : List Str) (hts : ActTexts as ts)
    (h : Str) (hh : h = [] ∨ h = [',']) (fuel : Nat) {st : DictSt} {i : Info} {f : Nat}
    (hf : f < 65536) (hs : st.func = some f) (hp : st.phase = .action)
    (hg : dictGo fuel st (h ++ commaList ts) = .ok i) {n : Nat} {x : Bytes}
    (hi : i.inst = st.info.inst ++ (u16 f ++ (u16 n ++ (zeros 4 ++ (st.actions ++ (as.flatMap Act.wire ++ x)))))) :
    ActsSurvive as := by
  induction hts generalizing h fuel st with
  | nil => intro a t b hab; simp at hab
  | @cons a t as ts hpr hrest ih =>
    have hb := act_back a (hv a (by simp))
    rcases hb.back with ⟨e, -, he, -⟩ | ⟨text, hpt, hne, hst, hrd⟩
    · have := hpr []
      rw [he] at this
      cases this
    have ht : text = t := by
      have := hpt []
      rw [hpr] at this
      exact (Except.ok.inj this).symm
    subst ht
    obtain ⟨r, hsp, hr, hrn, hr2⟩ := acts_split h text as ts hrest
    rw [hsp] at hg
    rw [List.flatMap_cons, List.append_assoc] at hi
    rw [actsSurvive_cons, show a.Survives (as = []) = a.Survives (r = []) by rw [propext hrn]]
    cases fuel with
    | zero => cases hg
    | succ k =>
      rw [dictGo, if_neg (by simp [hne]), dictStep_act hh hne hst hp] at hg
      cases hr1 : str2act (text ++ r) with
      | error e => rw [hr1] at hg; cases hg
      | ok y =>
        obtain ⟨act, l⟩ := y
        rw [hr1] at hg
        dsimp only [Except.bind] at hg
        by_cases hl0 : l = 0
        · rw [hl0] at hg; cases hg
        · rw [if_neg (by simpa using hl0), ok_bind] at hg
          dsimp only at hg
          obtain ⟨n', t', hn'⟩ := dictGo_actions k hf (by exact hs) (by exact hp) hg
          have hi' := hi
          rw [hn'] at hi'
          have e1 := List.append_cancel_left hi'
          have e2 := List.append_cancel_left e1
          have e3 := (List.append_inj e2 (by simp [u16_length])).2
          have e4 := List.append_cancel_left e3
          dsimp only at e4
          rw [List.append_assoc] at e4
          have e5 := List.append_cancel_left e4
          have he := act_same (actGood_lenf (act_good_of hne hst hr1 hl0) _).1 (hb.lenf _) e5
          subst he
          have hsv := (hrd [] r (Or.inl rfl) hr).2 l (by simpa using hr1)
          refine ⟨hsv, ?_⟩
          have hr3 := (hrd [] r (Or.inl rfl) hr).1 hsv
          simp only [List.nil_append, List.length_nil, Nat.zero_add] at hr3
          rw [hr1] at hr3
          cases hr3
          rw [List.drop_left] at hg
          by_cases has : as = []
          · subst has
            intro a t b hab
            simp at hab
          · rw [hr2 has] at hg
            exact ih (fun y hy => hv y (by simp [hy])) [','] (Or.inr rfl) k (by exact hs) (by exact hp) hg
              (by rw [hi]; simp)

theorem dict_fwd (as : List Act) (hv : ∀ a ∈ as, a.Valid) (hsv : ActsSurvive as) (ts : List Str) (hts : ActTexts as ts)
    (h : Str) (hh : h = [] ∨ h = [',']) (hn : as = [] → h = []) (fuel : Nat) (hfu : (h ++ commaList ts).length < fuel)
    {st : DictSt} (hp : st.phase = .action) :
    dictGo fuel st (h ++ commaList ts) = runFunc { st with actions := st.actions ++ as.flatMap Act.wire } := by
  induction hts generalizing h fuel st with
  | nil =>
    rw [hn rfl]
    cases fuel with
    | zero => cases hfu
    | succ k => simp [dictGo, commaList]
  | @cons a t as ts hpr hrest ih =>
    have hb := act_back a (hv a (by simp))
    rcases hb.back with ⟨e, -, he, -⟩ | ⟨text, hpt, hne, hst, hrd⟩
    · have := hpr []
      rw [he] at this
      cases this
    have ht : text = t := by
      have := hpt []
      rw [hpr] at this
      exact (Except.ok.inj this).symm
    subst ht
    obtain ⟨r, hsp, hr, hrn, hr2⟩ := acts_split h text as ts hrest
    rw [hsp] at hfu ⊢
    rw [actsSurvive_cons, show a.Survives (as = []) = a.Survives (r = []) by rw [propext hrn]] at hsv
    have hr3 := (hrd [] r (Or.inl rfl) hr).1 hsv.1
    simp only [List.nil_append, List.length_nil, Nat.zero_add] at hr3
    have hlt : 0 < text.length := List.length_pos_iff.2 hne
    cases fuel with
    | zero => cases hfu
    | succ k =>
      rw [dictGo, if_neg (by simp [hne]), dictStep_act hh hne hst hp, hr3]
      dsimp only [Except.bind]
      rw [if_neg (by simp; omega), ok_bind, List.drop_left]
      simp only [List.length_append] at hfu
      by_cases has : as = []
      · subst has
        cases hrest
        have := ih (fun y hy => hv y (by simp [hy])) hsv.2 [] (Or.inl rfl) (fun _ => rfl) k
          (by simp [commaList]; omega) (st := { st with actions := st.actions ++ a.wire }) hp
        rw [hrn.2 rfl]
        simpa [commaList] using this
      · have hr4 := hr2 has
        have := ih (fun y hy => hv y (by simp [hy])) hsv.2 [','] (Or.inr rfl) (fun h => absurd h has) k
          (by rw [← hr4]; omega) (st := { st with actions := st.actions ++ a.wire }) hp
        rw [← hr4] at this
        rw [this]
        simp

theorem runFunc_fit {st : DictSt} {f : Nat} (hf : f < 65536) (hs : st.func = some f) (hl : 8 + st.actions.length < 65536) :
    runFunc st = .ok { st.info with
      inst := st.info.inst ++ (u16 f ++ (u16 (8 + st.actions.length) ++ (zeros 4 ++ st.actions))) } := by
  unfold runFunc
  rw [hs]
  dsimp only
  rw [packAll_eq, if_pos (by
    intro p hp
    simp only [List.mem_cons, List.not_mem_nil, or_false] at hp
    rcases hp with rfl | rfl
    · exact ⟨by simp, by simpa using by exact_mod_cast hf⟩
    · exact ⟨by simp; omega, by simp; omega⟩), ok_bind]
  simp only [List.flatMap_cons, List.flatMap_nil, List.append_nil, List.append_assoc]
  rfl

/-- Survivors are printed. -/
theorem texts_of (as : List Act) (hv : ∀ a ∈ as, a.Valid) (hsv : ActsSurvive as) : ∃ ts, ActTexts as ts := by
  induction as with
  | nil => exact ⟨[], .nil⟩
  | cons a as ih =>
    rw [actsSurvive_cons] at hsv
    obtain ⟨ts, hts⟩ := ih (fun y hy => hv y (by simp [hy])) hsv.2
    rcases (act_back a (hv a (by simp))).back with ⟨e, -, -, hn⟩ | ⟨text, hpt, -⟩
    · exact absurd hsv.1 (hn _)
    · exact ⟨text :: ts, .cons hpt hts⟩

end Ofpstr
