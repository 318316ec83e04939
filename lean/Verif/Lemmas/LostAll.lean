import Verif.Lemmas.LostField
import Verif.Lemmas.LostLoad
import Verif.Lemmas.LostLearn
import Verif.Lemmas.ActAll

/-!
# Lists of actions that do not survive printing
-/

set_option linter.unusedSimpArgs false

namespace Ofpstr
open Spec

theorem act_lost (a : Act) (hv : a.Valid) (hp : a.Plain) (hl : ¬ a.Lossless) : ActLost a.wire := by
  cases a with
  | output port maxLen => exact lost_output port maxLen hv.1 hv.2 hl
  | std a n => exact lost_nwTtl a n hv.1 hv.2 (by simpa [Act.Lossless] using hl)
  | setField t => exact lost_setField t hv hl (fun h => hl (hp h))
  | resubmit port => exact lost_resubmit port hv hl
  | resubmitTable port table => exact lost_resubmitTable port table hv.1 hv.2 hl
  | setTunnel id => exact absurd trivial hl
  | setTunnel64 id => exact lost_tunnel64 id (by simpa [Act.Lossless] using hl)
  | popQueue => exact absurd trivial hl
  | exit => exact absurd trivial hl
  | note b =>
    refine lost_note b hp ?_
    by_contra h
    exact hl ⟨hp, h⟩
  | cntIds ids =>
    have : ids = [] := by
      by_contra h
      exact hl h
    subst this
    exact lost_cntIds
  | regLoad f ofs nbits value => exact lost_regLoad f ofs nbits value hv.1 hv.2.1 hv.2.2.1 hv.2.2.2 hl
  | regLoad2 t => exact lost_regLoad2 t hv hp hl
  | regMove src srcOfs dst dstOfs nbits => exact lost_regMove src dst srcOfs dstOfs nbits hv.1 hv.2 hl
  | multipath hash basis alg maxLink arg dst ofs nbits =>
    obtain ⟨h1, h2, h3, h4, h5, h6, h7⟩ := hv
    exact lost_multipath hash basis alg maxLink arg dst ofs nbits h1 h2 h3 h4 h5 h6 h7 hl
  | bundle hash basis alg st slaves =>
    obtain ⟨h1, h2, h3, h4, h5, h6, h7, h8⟩ := hv
    exact lost_bundle hash basis alg st slaves h1 h2 h3 h4 h5 h6 h7 h8 hl
  | bundleLoad hash basis alg st dst ofs nbits slaves =>
    obtain ⟨h1, h2, h3, h4, h5, h6, h7, h8, h9, h10, h11⟩ := hv
    exact lost_bundleLoad hash basis alg st dst ofs nbits slaves h1 h2 h3 h4 h5 h6 h7 h8 h9 h10 h11 hl
  | outputReg src ofs nbits maxLen =>
    exact lost_outputReg src ofs nbits maxLen hv.1 hv.2.1 hv.2.2.1 hv.2.2.2 hl
  | outputReg2 src ofs nbits maxLen => exact lost_outputReg2 src ofs nbits maxLen hv.1 hv.2.1 hv.2.2 hl
  | learn fixed specs => exact lost_learn fixed specs hv.1 hv.2.1 hv.2.2 hl

/-- What is used of any plain action. -/
structure ActShape (b : Bytes) : Prop where
  long : 4 < b.length
  short : b.length < 65536
  lenf : ∀ rest, uAt (b ++ rest) 2 2 = b.length
  prints : ∃ x, x ≠ .error .loops ∧ ∀ rest, act2strOne (b ++ rest) = x

theorem act_shape (a : Act) (hv : a.Valid) (hp : a.Plain) : ActShape a.wire := by
  by_cases hl : a.Lossless
  · obtain ⟨text, ht⟩ := act_trip a hv hl
    exact ⟨ht.long, ht.short, ht.lenf, _, by simp, ht.prints⟩
  · have := act_lost a hv hp hl
    refine ⟨this.long, this.short, this.lenf, ?_⟩
    rcases this.lost with ⟨e, he, h⟩ | ⟨t, h, _⟩
    · exact ⟨_, by simpa using he, h⟩
    · exact ⟨_, by simp, h⟩

/-- The printed texts of a list. -/
theorem act2strGo_inv (as : List Act) (h : ∀ a ∈ as, a.Valid ∧ a.Plain) (fuel : Nat) (l : List Str)
    (hg : act2strGo fuel (as.flatMap Act.wire) = .ok l) :
    List.Forall₂ (fun a t => ∀ rest, act2strOne (Act.wire a ++ rest) = .ok t) as l := by
  induction as generalizing fuel l with
  | nil =>
    cases fuel with
    | zero => cases hg
    | succ f =>
      simp [act2strGo] at hg
      subst hg
      exact .nil
  | cons a as ih =>
    obtain ⟨h4, h5, h6, x, -, hx⟩ := act_shape a (h a (by simp)).1 (h a (by simp)).2
    cases fuel with
    | zero => cases hg
    | succ f =>
      simp only [List.flatMap_cons] at hg
      rw [act2strGo, if_neg (by simp only [List.length_append]; omega), hx, h6, List.drop_left] at hg
      obtain ⟨t, ht, hg⟩ := bind_ok hg
      rw [ht] at hx
      obtain ⟨l', hl', hg⟩ := bind_ok hg
      cases hg
      exact .cons hx (ih (fun y hy => h y (by simp [hy])) f l' hl')

/-- One action: it comes back exactly when it is lossless. -/
theorem act2str_inv (as : List Act) (h : ∀ a ∈ as, a.Valid ∧ a.Plain) (text : Str)
    (hg : act2str (as.flatMap Act.wire) = .ok text) :
    ∃ ts, List.Forall₂ (fun a t => ∀ rest, act2strOne (Act.wire a ++ rest) = .ok t) as ts ∧ text = commaList ts := by
  unfold act2str at hg
  obtain ⟨l, hl, hg⟩ := bind_ok hg
  simp only [Except.ok.injEq] at hg
  rw [joinStr_commaList] at hg
  exact ⟨l, act2strGo_inv as h _ l hl, hg.symm⟩

/-! ## Instructions only grow -/

theorem dictInst_grow {name : Str} {info : Info} {actions : Bytes} {s s' : Str} {st : DictSt}
    (h : dictInst name info actions s = .ok (st, s')) : ∃ t, st.info.inst = info.inst ++ t := by
  unfold dictInst at h
  split at h
  · obtain ⟨⟨n, s1⟩, _, h⟩ := bind_ok h
    obtain ⟨v, _, h⟩ := bind_ok h
    simp only [Except.ok.injEq, Prod.mk.injEq] at h
    obtain ⟨rfl, rfl⟩ := h
    exact ⟨_, rfl⟩
  · split at h
    · dsimp only at h
      obtain ⟨_, _, h⟩ := bind_ok h
      obtain ⟨⟨n, l⟩, _, h⟩ := bind_ok h
      obtain ⟨_, _, h⟩ := bind_ok h
      obtain ⟨_, _, h⟩ := bind_ok h
      obtain ⟨_, _, h⟩ := bind_ok h
      simp only [Except.ok.injEq, Prod.mk.injEq] at h
      obtain ⟨rfl, rfl⟩ := h
      exact ⟨_, rfl⟩
    · split at h
      · simp only [Except.ok.injEq, Prod.mk.injEq] at h
        obtain ⟨rfl, rfl⟩ := h
        exact ⟨[], by simp⟩
      · split at h
        · simp only [Except.ok.injEq, Prod.mk.injEq] at h
          obtain ⟨rfl, rfl⟩ := h
          exact ⟨[], by simp⟩
        · split at h
          · simp only [Except.ok.injEq, Prod.mk.injEq] at h
            obtain ⟨rfl, rfl⟩ := h
            exact ⟨_, rfl⟩
          · split at h
            · obtain ⟨⟨n, s1⟩, _, h⟩ := bind_ok h
              obtain ⟨v, _, h⟩ := bind_ok h
              simp only [Except.ok.injEq, Prod.mk.injEq] at h
              obtain ⟨rfl, rfl⟩ := h
              exact ⟨_, rfl⟩
            · cases h

theorem runFunc_grow {st : DictSt} {i : Info} (h : runFunc st = .ok i) : ∃ t, i.inst = st.info.inst ++ t := by
  unfold runFunc at h
  split at h
  · simp only [Except.ok.injEq] at h; subst h; exact ⟨[], by simp⟩
  · obtain ⟨b, _, h⟩ := bind_ok h
    simp only [Except.ok.injEq] at h; subst h
    exact ⟨_, rfl⟩

theorem runFunc_some {st : DictSt} {i : Info} {f : Nat} (hf : f < 65536) (hs : st.func = some f) (h : runFunc st = .ok i) :
    ∃ n, i.inst = st.info.inst ++ (u16 f ++ (u16 n ++ (zeros 4 ++ st.actions))) := by
  unfold runFunc at h
  rw [hs] at h
  dsimp only at h
  obtain ⟨b, hb, h⟩ := bind_ok h
  simp only [Except.ok.injEq] at h; subst h
  rw [packAll_eq] at hb
  split at hb
  · simp only [Except.ok.injEq, List.flatMap_cons, List.flatMap_nil, List.append_nil] at hb
    subst hb
    exact ⟨((8 : Int) + st.actions.length).toNat, by simp only [List.append_assoc]; rfl⟩
  · cases hb

theorem dictMatch_inst {name : Str} {info info' : Info} {s s' : Str} (h : dictMatch name info s = .ok (info', s')) :
    info'.inst = info.inst := by
  unfold dictMatch at h
  repeat' split at h
  all_goals first
    | (obtain ⟨⟨n, s1⟩, _, h⟩ := bind_ok h
       simp only [Except.ok.injEq, Prod.mk.injEq] at h
       obtain ⟨rfl, rfl⟩ := h
       rfl)
    | (simp only [Except.ok.injEq, Prod.mk.injEq] at h
       obtain ⟨rfl, rfl⟩ := h
       rfl)
    | skip
  · obtain ⟨_, _, h⟩ := bind_ok h
    obtain ⟨⟨n, l⟩, _, h⟩ := bind_ok h
    obtain ⟨_, _, h⟩ := bind_ok h
    simp only [Except.ok.injEq, Prod.mk.injEq] at h
    obtain ⟨rfl, rfl⟩ := h
    rfl
  · obtain ⟨_, _, h⟩ := bind_ok h
    obtain ⟨⟨n, l⟩, _, h⟩ := bind_ok h
    obtain ⟨_, _, h⟩ := bind_ok h
    obtain ⟨⟨n, l⟩, _, h⟩ := bind_ok h
    simp only [Except.ok.injEq, Prod.mk.injEq] at h
    obtain ⟨rfl, rfl⟩ := h
    rfl
  · obtain ⟨⟨n, l⟩, _, h⟩ := bind_ok h
    dsimp only at h
    split at h
    · cases h
    · simp only [Except.ok.injEq, Prod.mk.injEq] at h
      obtain ⟨rfl, rfl⟩ := h
      rfl

theorem dictStep_grow {st st' : DictSt} {s s' : Str} (h : dictStep st s = .ok (st', s')) :
    ∃ t, st'.info.inst = st.info.inst ++ t := by
  unfold dictStep at h
  dsimp only at h
  obtain ⟨_, _, h⟩ := bind_ok h
  split at h
  · obtain ⟨i, hi, h⟩ := bind_ok h
    obtain ⟨t, ht⟩ := runFunc_grow hi
    obtain ⟨t', ht'⟩ := dictInst_grow h
    exact ⟨t ++ t', by rw [ht', ht, List.append_assoc]⟩
  · split at h
    · obtain ⟨⟨i, s1⟩, hi, h⟩ := bind_ok h
      simp only [Except.ok.injEq, Prod.mk.injEq] at h
      obtain ⟨rfl, rfl⟩ := h
      exact ⟨[], by simp [dictMatch_inst hi]⟩
    · obtain ⟨⟨a, l⟩, _, h⟩ := bind_ok h
      dsimp only at h
      split at h
      · cases h
      · simp only [Except.ok.injEq, Prod.mk.injEq] at h
        obtain ⟨rfl, rfl⟩ := h
        exact ⟨[], by simp⟩
    · cases h

theorem dictGo_grow (fuel : Nat) {st : DictSt} {s : Str} {i : Info} (h : dictGo fuel st s = .ok i) :
    ∃ t, i.inst = st.info.inst ++ t := by
  induction fuel generalizing st s with
  | zero => cases h
  | succ f ih =>
    rw [dictGo] at h
    split at h
    · exact runFunc_grow h
    · obtain ⟨⟨st', s'⟩, h1, h⟩ := bind_ok h
      obtain ⟨t, ht⟩ := dictStep_grow h1
      obtain ⟨t', ht'⟩ := ih h
      exact ⟨t ++ t', by rw [ht', ht, List.append_assoc]⟩

/-- The actions read so far stay at their place. -/
theorem dictGo_actions (fuel : Nat) {st : DictSt} {s : Str} {i : Info} {f : Nat} (hf : f < 65536)
    (hs : st.func = some f) (hp : st.phase = .action) (h : dictGo fuel st s = .ok i) :
    ∃ n t, i.inst = st.info.inst ++ (u16 f ++ (u16 n ++ (zeros 4 ++ (st.actions ++ t)))) := by
  induction fuel generalizing st s with
  | zero => cases h
  | succ k ih =>
    rw [dictGo] at h
    split at h
    · obtain ⟨n, hn⟩ := runFunc_some hf hs h
      exact ⟨n, [], by rw [hn]; simp⟩
    · obtain ⟨⟨st', s'⟩, h1, h⟩ := bind_ok h
      unfold dictStep at h1
      dsimp only at h1
      obtain ⟨_, _, h1⟩ := bind_ok h1
      split at h1
      · obtain ⟨i', hi, h1⟩ := bind_ok h1
        obtain ⟨n, hn⟩ := runFunc_some hf hs hi
        obtain ⟨t', ht'⟩ := dictInst_grow h1
        obtain ⟨t2, ht2⟩ := dictGo_grow k h
        exact ⟨n, t' ++ t2, by rw [ht2, ht', hn]; simp⟩
      · rw [hp] at h1
        dsimp only at h1
        obtain ⟨⟨a, l⟩, _, h1⟩ := bind_ok h1
        dsimp only at h1
        split at h1
        · cases h1
        · simp only [Except.ok.injEq, Prod.mk.injEq] at h1
          obtain ⟨rfl, rfl⟩ := h1
          obtain ⟨n, t, ht⟩ := ih (by exact hs) rfl h
          exact ⟨n, a ++ t, by rw [ht]; simp⟩

/-- Two actions with their true lengths that begin the same bytes are the same. -/
theorem act_same {b c x y : Bytes} (hb : uAt (b ++ x) 2 2 = b.length) (hc : uAt (c ++ y) 2 2 = c.length)
    (h : b ++ x = c ++ y) : b = c := by
  rw [h, hc] at hb
  exact (List.append_inj h hb.symm).1

theorem actGood_lenf {c : Bytes} (h : ActGood c) (y : Bytes) : uAt (c ++ y) 2 2 = c.length ∧ c ≠ [] := by
  obtain ⟨t, ⟨h1, h2, body, h3⟩, _⟩ := h
  constructor
  · generalize hn : c.length = n at h2 h3 ⊢
    rw [h3, List.append_assoc, List.append_assoc, uAt_right _ _ _ _ (by rw [u16_length])]
    exact uAt_here 2 n _ (by omega)
  · intro h0
    rw [h0] at h3
    have := congrArg List.length h3
    simp [u16_length] at this
    omega

/-- The texts of actions, read in an instruction: the bytes are those of the actions only when all of
them are lossless. -/
theorem dictGo_lost (as : List Act) (hv : ∀ a ∈ as, a.Valid ∧ a.Plain) (ts : List Str)
    (hts : List.Forall₂ (fun a t => ∀ rest, act2strOne (Act.wire a ++ rest) = .ok t) as ts)
    (h r : Str) (hh : h = [] ∨ h = [',']) (hr : r = [] ∨ ∃ r', r = ',' :: r') (fuel : Nat) {st : DictSt} {i : Info} {f : Nat}
    (hf : f < 65536) (hs : st.func = some f) (hp : st.phase = .action)
    (hg : dictGo fuel st (h ++ (commaList ts ++ r)) = .ok i) {n : Nat} {x : Bytes}
    (hi : i.inst = st.info.inst ++ (u16 f ++ (u16 n ++ (zeros 4 ++ (st.actions ++ (as.flatMap Act.wire ++ x)))))) :
    ∀ a ∈ as, a.Lossless := by
  induction hts generalizing h fuel st with
  | nil => simp
  | @cons a t as ts hpr hrest ih =>
    obtain ⟨va, pa⟩ := hv a (by simp)
    have hsplit : ∃ r', h ++ (commaList (t :: ts) ++ r) = h ++ (t ++ r') ∧ (r' = [] ∨ ∃ q, r' = ',' :: q) ∧
        (ts ≠ [] → r' = [','] ++ (commaList ts ++ r)) := by
      cases ts with
      | nil => exact ⟨r, rfl, hr, by simp⟩
      | cons u ts => exact ⟨',' :: (commaList (u :: ts) ++ r), by simp [commaList], Or.inr ⟨_, rfl⟩, by simp⟩
    obtain ⟨r', hsp, hr', hr2⟩ := hsplit
    rw [hsp] at hg
    rw [List.flatMap_cons, List.append_assoc] at hi
    have hstart : ∀ (ne : t ≠ []) (_ : ActStart t), ∃ name u k, name ++ u = t ++ r' ∧ fuel = k + 1 ∧
        ∃ act l st', str2act (t ++ r') = .ok (act, l) ∧ l ≠ 0 ∧
        st' = { st with actions := st.actions ++ act } ∧ dictGo k st' ((t ++ r').drop l) = .ok i := by
      intro ne hst
      cases fuel with
      | zero => cases hg
      | succ k =>
        rw [dictGo, if_neg (by cases t; exact absurd rfl ne; simp)] at hg
        obtain ⟨⟨st', s'⟩, h1, hg⟩ := bind_ok hg
        rcases hgt : getToken (h ++ (t ++ r')) with ⟨h', name, u⟩
        have ht := (getToken_iff _ _ _ _).1 hgt
        have hps : PlainStart (t ++ r') := plainStart_append hst.1 ne
        have hh' : h' = h := by
          have := getToken_fst (h ++ (t ++ r'))
          rw [hgt, tokenHead_of_head (head_of hh) hps] at this
          exact this
        subst hh'
        have hnu : t ++ r' = name ++ u := List.append_cancel_left ht.1
        unfold dictStep at h1
        rw [hgt] at h1
        dsimp only at h1
        obtain ⟨_, _, h1⟩ := bind_ok h1
        have hat : startsWith name t!"@" = false := by
          cases name with
          | nil => rfl
          | cons d nm =>
            cases t with
            | nil => exact absurd rfl ne
            | cons e t =>
              simp only [List.cons_append, List.cons.injEq] at hnu
              have := hst.2
              rw [hnu.1] at this
              simp only [List.head?_cons, ne_eq, Option.some.injEq] at this
              simpa [startsWith, List.isPrefixOf] using Ne.symm this
        rw [hat, if_neg (by simp), hp] at h1
        dsimp only at h1
        obtain ⟨⟨act, l⟩, ha, h1⟩ := bind_ok h1
        dsimp only at h1
        split at h1
        · cases h1
        · rename_i hl0
          simp only [Except.ok.injEq, Prod.mk.injEq] at h1
          obtain ⟨rfl, rfl⟩ := h1
          rw [← hnu] at ha hg
          refine ⟨name, u, k, hnu.symm, rfl, act, l, _, ha, by simpa using hl0, rfl, ?_⟩
          rw [hp]
          exact hg
    by_cases hl : a.Lossless
    · obtain ⟨text, htr⟩ := act_trip a va hl
      have ht : text = t := by
        have := htr.prints []
        rw [hpr] at this
        exact (Except.ok.inj this).symm
      subst ht
      obtain ⟨name, u, k, -, rfl, act, l, st', hr1, -, rfl, hg'⟩ := hstart htr.ne ⟨htr.start, htr.noat⟩
      have hrd := htr.reads [] r' head_nil (atEnd_of hr')
      simp only [List.nil_append, List.length_nil, Nat.zero_add] at hrd
      rw [hr1] at hrd
      cases hrd
      rw [List.drop_left] at hg'
      intro b hb
      rcases List.mem_cons.1 hb with rfl | hb
      · exact hl
      · have hne : ts ≠ [] := by
          rintro rfl
          cases hrest
          cases hb
        rw [hr2 hne] at hg'
        exact ih (fun y hy => hv y (by simp [hy])) [','] (Or.inr rfl) k (by exact hs) (by exact hp) hg'
          (by rw [hi]; simp) b hb
    · exfalso
      have hlost := act_lost a va pa hl
      rcases hlost.lost with ⟨e, _, he⟩ | ⟨text, hpt, hne, hst, hmis⟩
      · have := hpr []
        rw [he] at this
        cases this
      · have ht : text = t := by
          have := hpt []
          rw [hpr] at this
          exact (Except.ok.inj this).symm
        subst ht
        obtain ⟨name, u, k, -, rfl, act, l, st', hr1, hl0, rfl, hg'⟩ := hstart hne hst
        have hc := hmis [] r' act l (Or.inl rfl) hr' hr1
        have hgood : ActGood act := by
          obtain ⟨h1, tok, r1, fname, farg, hgt, hpf, hcs⟩ := str2act_cases _ _ _ hr1
          rcases str2act_good _ _ _ hr1 with h0 | h0
          · exfalso
            subst h0
            rcases hcs with ⟨kk, uu, ra, p, hk, hc⟩ | ⟨uu, oxm, p, h3, h4, _⟩ | ⟨_, h3, _⟩
            · have hm : ∃ name, lookupAct name = some kk := by
                rcases hc with ⟨a, _, _, _, _, hl, _⟩ | ⟨_, _, hl, _⟩
                exacts [⟨_, hl⟩, ⟨_, hl⟩]
              obtain ⟨nm, hlk⟩ := hm
              exact (actGood_lenf (runActEnc_good kk (table_params _ (lookupAct_mem hlk)) uu ra _ hk) []).2 rfl
            · obtain ⟨h5, h6⟩ := setFieldAct_wire oxm [] h4
              unfold setFieldWire at h5
              have := congrArg List.length h5
              simp [u16_length] at this
              omega
            · have hps : PlainStart (text ++ r') := plainStart_append hst.1 hne
              have := getToken_fst (text ++ r')
              rw [hgt, tokenHead_plain hps] at this
              dsimp only at this
              rw [this] at h3
              exact hl0 h3
          · exact h0
        obtain ⟨n', t', hn'⟩ := dictGo_actions k hf (by exact hs) (by exact hp) hg'
        rw [hi] at hn'
        have e1 := List.append_cancel_left hn'
        have e2 := List.append_cancel_left e1
        have e3 := (List.append_inj e2 (by simp [u16_length])).2
        have e4 := List.append_cancel_left e3
        dsimp only at e4
        rw [List.append_assoc] at e4
        have e5 := List.append_cancel_left e4
        exact hc (act_same (hlost.lenf _) (actGood_lenf hgood _).1 e5).symm

end Ofpstr
