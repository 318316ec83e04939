import Verif.Lemmas.LostRange
import Verif.Lemmas.TripLearn

/-!
# `learn` actions that do not survive printing
-/

set_option linter.unusedSimpArgs false

namespace Ofpstr
open Spec

theorem packU_inj {k : Nat} {a b : Int} {x : Bytes} (ha : packU k a = .ok x) (hb : packU k b = .ok x) : a = b := by
  obtain ⟨n, rfl, h1, h2⟩ := (packU_iff k a x).1 ha
  obtain ⟨m, rfl, h3, h4⟩ := (packU_iff k b x).1 hb
  rw [be_inj h1 h3 (by rw [spec_be, spec_be, ← h2, ← h4])]

theorem learnDest_inv {f : Field} {n : Nat} (h : IdShape f n) (ofs nbits : Nat) {x : Bytes} {s k : Int}
    (hd : learnDest (some (learnBits f ofs nbits)) = .ok (x, s, k)) :
    x.length = f.id.length ∧ (x = f.id → f.name ∉ badIds) := by
  obtain ⟨y, h1, h2, h3⟩ := h.made false
  have key : x = y := by
    unfold learnDest learnBits bitText at hd
    dsimp only at hd
    by_cases hw : (ofs == 0 && nbits == f.bits) = true
    · rw [if_pos hw, parseFunc_bare _ h.clean.1.notOpen, ok_bind] at hd
      dsimp only at hd
      rw [h1, ok_bind] at hd
      obtain ⟨_, _, hd⟩ := bind_ok hd
      simp only [Except.ok.injEq, Prod.mk.injEq] at hd
      exact hd.1.symm
    · rw [if_neg hw, fmtRange_parse _ _ _ h.clean.1, ok_bind] at hd
      dsimp only at hd
      rw [h1, ok_bind] at hd
      obtain ⟨_, _, hd⟩ := bind_ok hd
      obtain ⟨c, t, hcs⟩ := range_cons ofs (ofs + nbits)
      rw [hcs] at hd
      dsimp only at hd
      rw [← hcs, optPair_range, ok_bind] at hd
      simp only [Except.ok.injEq, Prod.mk.injEq] at hd
      exact hd.1.symm
  subst key
  exact ⟨h2, fun e => (h3.1 e).1⟩

theorem learnSource_inv {f : Field} {n : Nat} (h : IdShape f n) (hx : f.experimenter = false) (ofs nbits : Nat)
    {o : LearnSrc} {k : Option Int} (hs : learnSource (learnBits f ofs nbits) = .ok (o, k)) :
    ∃ x s, o = .fld (x ++ s) ∧ x.length = 4 ∧ s.length = 2 ∧ (x = f.id → f.name ∉ badIds) := by
  obtain ⟨y, h1, h2, h3⟩ := h.made false
  rw [id_four h hx] at h2
  have hne : y.isEmpty = false := by
    cases y with
    | nil => simp at h2
    | cons c s => rfl
  unfold learnSource learnBits bitText at hs
  by_cases hw : (ofs == 0 && nbits == f.bits) = true
  · rw [if_pos hw, parseFunc_bare _ h.clean.1.notOpen, ok_bind] at hs
    dsimp only at hs
    rw [h1, ok_bind, hne, if_neg (by simp)] at hs
    obtain ⟨_, _, hs⟩ := bind_ok hs
    rw [ok_bind] at hs
    obtain ⟨s, hp, hs⟩ := bind_ok hs
    simp only [Except.ok.injEq, Prod.mk.injEq] at hs
    exact ⟨y, s, hs.1.symm, h2, packU_length hp, fun e => (h3.1 e).1⟩
  · rw [if_neg hw, fmtRange_parse _ _ _ h.clean.1, ok_bind] at hs
    dsimp only at hs
    rw [h1, ok_bind, hne, if_neg (by simp)] at hs
    obtain ⟨_, _, hs⟩ := bind_ok hs
    obtain ⟨c, t, hcs⟩ := range_cons ofs (ofs + nbits)
    rw [hcs] at hs
    dsimp only at hs
    rw [← hcs, optPair_range, ok_bind] at hs
    rw [ok_bind] at hs
    obtain ⟨s, hp, hs⟩ := bind_ok hs
    simp only [Except.ok.injEq, Prod.mk.injEq] at hs
    exact ⟨y, s, hs.1.symm, h2, packU_length hp, fun e => (h3.1 e).1⟩

/-- The specification that is made of the text of an item: when it begins like the item, the names are good. -/
theorem flowModSpec_inv {i : LearnItem} (h : ShapeItem i) {b : Bytes}
    (hb : flowModSpec (learnFromText i.nbits i.src) (some (learnBits i.dst i.dstOfs i.nbits))
      (if i.load then some t!"reg_load" else none) = .ok b) (p q : Bytes) (he : b ++ p = i.wire ++ q) :
    GoodItem i ∧ p = q := by
  obtain ⟨n, id⟩ := h.dst
  obtain ⟨w1, _, w3, _⟩ := itemWord_facts h
  have hdl := id_four id h.dstExp
  have hm : ((if i.load then some t!"reg_load" else none) == some t!"output") = false := by
    cases i.load <;> decide
  have hwire : i.wire ++ q = u16 (itemWord i) ++ (i.src.wire i.nbits ++ (i.dst.id ++ (u16 i.dstOfs ++ q))) := by
    unfold LearnItem.wire itemWord
    simp only [List.append_assoc]
  rw [hwire] at he
  cases hs : i.src with
  | imm v =>
    rw [hs] at hb he
    unfold flowModSpec learnFromText at hb
    dsimp only at hb
    rw [learnSource_imm, ok_bind] at hb
    dsimp only at hb
    rw [hm, if_neg (by simp)] at hb
    obtain ⟨⟨x, s, k⟩, hd, hb⟩ := bind_ok hb
    obtain ⟨x1, x2⟩ := learnDest_inv id _ _ hd
    dsimp only at hb
    rw [ok_bind] at hb
    obtain ⟨d, hp, hb⟩ := bind_ok hb
    obtain ⟨w, hw, hb⟩ := bind_ok hb
    simp only [Except.ok.injEq] at hb
    subst hb
    simp only [List.append_assoc] at he
    obtain ⟨e1, e2⟩ := List.append_inj he (by rw [packU_length hw, u16_length])
    have hk : k = (i.nbits : Int) := by
      rw [e1] at hw
      have := packU_nat 2 (itemWord i) (by omega)
      have h5 := packU_inj hw this
      have h6 : ((itemWord i : Nat) : Int) = 4096 + (if i.load then 1024 else 0) + i.nbits := by
        unfold itemWord; rw [hs]; cases i.load <;> simp [LearnFrom.flag]
      rw [h6] at h5
      cases hl : i.load <;> simp [hl] at h5 <;> omega
    have hz : (((k + 15) / 16 * 2).toNat) = (i.nbits + 15) / 16 * 2 := by rw [hk]; omega
    rw [hz] at e2
    simp only [LearnFrom.wire] at e2
    obtain ⟨_, e3⟩ := List.append_inj e2 (by rw [intBE_length, be_length])
    obtain ⟨e4, e5⟩ := List.append_inj e3 x1
    obtain ⟨_, e6⟩ := List.append_inj e5 (by rw [packU_length hp, u16_length])
    exact ⟨⟨h, x2 e4, by intro f o hf; rw [hs] at hf; cases hf⟩, e6⟩
  | field f ofs =>
    obtain ⟨⟨m, is⟩, hx, hend⟩ := h.srcField f ofs hs
    rw [hs] at hb he
    unfold flowModSpec learnFromText at hb
    dsimp only at hb
    obtain ⟨⟨o, ko⟩, hso, hb⟩ := bind_ok hb
    obtain ⟨y, t, rfl, y1, t1, y2⟩ := learnSource_inv is hx _ _ hso
    dsimp only at hb
    rw [hm, if_neg (by simp)] at hb
    obtain ⟨⟨x, s, k⟩, hd, hb⟩ := bind_ok hb
    obtain ⟨x1, x2⟩ := learnDest_inv id _ _ hd
    dsimp only at hb
    obtain ⟨nb, _, hb⟩ := bind_ok hb
    obtain ⟨d, hp, hb⟩ := bind_ok hb
    obtain ⟨w, hw, hb⟩ := bind_ok hb
    simp only [Except.ok.injEq] at hb
    subst hb
    simp only [LearnFrom.wire, List.append_assoc] at he
    obtain ⟨_, e2⟩ := List.append_inj he (by rw [packU_length hw, u16_length])
    obtain ⟨e3, e4⟩ := List.append_inj e2 (by rw [y1, id_four is hx])
    obtain ⟨_, e5⟩ := List.append_inj e4 (by rw [t1, u16_length])
    obtain ⟨e6, e7⟩ := List.append_inj e5 x1
    obtain ⟨_, e8⟩ := List.append_inj e7 (by rw [packU_length hp, u16_length])
    refine ⟨⟨h, x2 e6, ?_⟩, e8⟩
    intro f' o' hf
    rw [hs] at hf
    cases hf
    exact y2 e3

theorem learnSingle_text {i : LearnItem} (h : ShapeItem i) (hl : i.load = true) :
    learnSingle (learnItemText i) = flowModSpec (learnFromText i.nbits i.src)
      (some (learnBits i.dst i.dstOfs i.nbits)) (if i.load then some t!"reg_load" else none) := by
  have hp := parseFunc_call t!"reg_load" (learnPair i) [] '(' ')' (by decide) .round (learnPair_inside h).ins
  rw [if_pos rfl] at hp
  obtain ⟨g1, g2⟩ := learnPair_tokens h [] [] head_nil atEnd_nil
  rw [List.nil_append, List.append_nil] at g1
  rw [List.append_nil] at g1 g2
  unfold learnSingle learnItemText
  rw [if_pos hl, if_pos hl, hp, ok_bind]
  have : ∃ c s, learnPair i = c :: s := by
    cases hc : learnPair i with
    | nil => unfold learnPair at hc; simp at hc
    | cons c s => exact ⟨c, s, rfl⟩
  obtain ⟨c, s, hcs⟩ := this
  rw [hcs]
  dsimp only
  rw [← hcs, g1]
  dsimp only
  rw [g2]
  dsimp only
  rfl

/-- Whatever is read from the text of the items: when it begins like the items, their names are good. -/
theorem learnGo_inv (is : List LearnItem) (h : Str) (hh : h = [] ∨ h = [','])
    (hi : ∀ i ∈ is, ShapeItem i) (hne : is = [] → h = []) (left : Option Str) (fuel : Nat)
    {info : List (Str × Int)} {b : Bytes}
    (hg : learnGo fuel [] left (h ++ joinStr t!"," (is.map learnItemText)) = .ok (info, b)) :
    info = [] ∧ ∃ l c, learnPending left = .ok l ∧ b = l ++ c ∧
      ∀ p q, c ++ p = is.flatMap LearnItem.wire ++ q → ∀ i ∈ is, GoodItem i := by
  induction is generalizing h left fuel info b with
  | nil =>
    cases fuel with
    | zero => cases hg
    | succ f =>
      simp only [hne rfl, joinStr, List.map_nil, learnGo, List.isEmpty_nil, if_true, List.append_nil] at hg
      obtain ⟨l, hl, hg⟩ := bind_ok hg
      simp only [Except.ok.injEq, Prod.mk.injEq] at hg
      exact ⟨hg.1.symm, l, [], hl, by simp [hg.2], by simp⟩
  | cons i is ih =>
    cases fuel with
    | zero => cases hg
    | succ f =>
      have gi := hi i (by simp)
      have hhd : Head h := head_of hh
      have hhe : hasChar h '=' = false := by rcases hh with rfl | rfl <;> decide
      have hsplit : ∃ r, h ++ joinStr t!"," ((i :: is).map learnItemText) = h ++ (learnItemText i ++ r) ∧ AtEnd r ∧
          r = (if is = [] then [] else t!",") ++ joinStr t!"," (is.map learnItemText) := by
        cases is with
        | nil => exact ⟨[], by simp [joinStr], atEnd_nil, by simp [joinStr]⟩
        | cons y is =>
          exact ⟨',' :: joinStr t!"," ((y :: is).map learnItemText), by simp [joinStr], atEnd_comma _, by simp⟩
      obtain ⟨r, hs, hr, hre⟩ := hsplit
      obtain ⟨c, s, hcs⟩ := learnItemText_cons i
      have hemp : (h ++ (learnItemText i ++ r)).isEmpty = false := by
        rw [hcs]; cases h <;> simp
      rw [hs] at hg
      rw [learnGo.eq_def] at hg
      dsimp only at hg
      rw [hemp, if_neg (by simp)] at hg
      cases hl : i.load with
      | true =>
        have ht : learnItemText i = t!"reg_load" ++ '(' :: learnPair i ++ [')'] := by
          unfold learnItemText; rw [if_pos hl]
        have hgt := getToken_call h t!"reg_load" (learnPair i) r hhd (by decide) (by decide) (learnPair_inside gi).ins hr
        rw [← ht] at hgt
        rw [hgt] at hg
        dsimp only at hg
        rw [hhe, if_neg (by simp)] at hg
        obtain ⟨l, hpl, hg⟩ := bind_ok hg
        obtain ⟨⟨info', b'⟩, hrec, hg⟩ := bind_ok hg
        simp only [Except.ok.injEq, Prod.mk.injEq] at hg
        obtain ⟨rfl, rfl⟩ := hg
        rw [hre] at hrec
        obtain ⟨h1, l', c', h2, rfl, h3⟩ := ih (if is = [] then [] else t!",") (by split <;> simp)
          (fun y hy => hi y (by simp [hy])) (by intro h; simp [h]) (some (learnItemText i)) f hrec
        refine ⟨h1, l, l' ++ c', hpl, rfl, ?_⟩
        intro p q he
        have hps : learnPending (some (learnItemText i)) = learnSingle (learnItemText i) := by
          rw [hcs]; rfl
        rw [hps, learnSingle_text gi hl] at h2
        rw [List.flatMap_cons, List.append_assoc, List.append_assoc] at he
        obtain ⟨g1, e1⟩ := flowModSpec_inv gi h2 _ _ he
        intro j hj
        rcases List.mem_cons.1 hj with rfl | hj
        · exact g1
        · exact h3 _ _ e1 j hj
      | false =>
        have ht : learnItemText i = learnPair i := by
          unfold learnItemText; rw [if_neg (by simp [hl])]
        obtain ⟨g1, g2⟩ := learnPair_tokens gi h r hhd hr
        obtain ⟨n, id⟩ := gi.dst
        have hkey := learnBits_key id i.dstOfs i.nbits
        rw [ht, g1] at hg
        dsimp only at hg
        rw [hhe, if_neg (by simp)] at hg
        obtain ⟨l, hpl, hg⟩ := bind_ok hg
        obtain ⟨⟨info', b'⟩, hin, hg⟩ := bind_ok hg
        simp only [Except.ok.injEq, Prod.mk.injEq] at hg
        obtain ⟨rfl, rfl⟩ := hg
        cases f with
        | zero => cases hin
        | succ f =>
          rw [learnGo.eq_def] at hin
          dsimp only at hin
          rw [if_neg (by simp), g2] at hin
          dsimp only at hin
          rw [if_pos (by decide), if_neg (fun h => Bool.noConfusion (hkey.symm.trans h))] at hin
          obtain ⟨fb, hfm, hin⟩ := bind_ok hin
          obtain ⟨⟨info2, b2⟩, hrec, hin⟩ := bind_ok hin
          simp only [Except.ok.injEq, Prod.mk.injEq] at hin
          obtain ⟨rfl, rfl⟩ := hin
          rw [hre] at hrec
          obtain ⟨h1, l', c', h2, rfl, h3⟩ := ih (if is = [] then [] else t!",") (by split <;> simp)
            (fun y hy => hi y (by simp [hy])) (by intro h; simp [h]) none f hrec
          cases h2
          refine ⟨h1, l, fb ++ c', hpl, rfl, ?_⟩
          intro p q he
          have hfm' : flowModSpec (learnFromText i.nbits i.src) (some (learnBits i.dst i.dstOfs i.nbits))
              (if i.load then some t!"reg_load" else none) = .ok fb := by rw [hl]; exact hfm
          rw [List.flatMap_cons, List.append_assoc, List.append_assoc] at he
          obtain ⟨g1, e1⟩ := flowModSpec_inv gi hfm' _ _ he
          intro j hj
          rcases List.mem_cons.1 hj with rfl | hj
          · exact g1
          · exact h3 _ _ e1 j hj

theorem learnFixed_at (l : LearnFixed) (h : l.idle < 256 ^ 2 ∧ l.hard < 256 ^ 2 ∧ l.priority < 256 ^ 2 ∧ l.cookie < 256 ^ 8 ∧
      l.flags < 256 ^ 2 ∧ l.table < 256 ∧ l.finIdle < 256 ^ 2 ∧ l.finHard < 256 ^ 2) (r : Bytes) :
    uAt (l.wire ++ r) 0 2 = l.idle ∧ uAt (l.wire ++ r) 2 2 = l.hard ∧ uAt (l.wire ++ r) 4 2 = l.priority ∧
    uAt (l.wire ++ r) 6 8 = l.cookie ∧ uAt (l.wire ++ r) 14 2 = l.flags ∧ uAt (l.wire ++ r) 16 1 = l.table ∧
    uAt (l.wire ++ r) 18 2 = l.finIdle ∧ uAt (l.wire ++ r) 20 2 = l.finHard := by
  obtain ⟨h1, h2, h3, h4, h5, h6, h7, h8⟩ := h
  unfold LearnFixed.wire
  simp only [List.append_assoc]
  have skip : ∀ (k n : Nat) (r : Bytes) (o s : Nat), uAt (be k n ++ r) (k + o) s = uAt r o s := by
    intro k n r o s
    rw [uAt_right _ _ _ _ (by rw [be_length]; omega), be_length]
    congr 1; omega
  have skipPad : ∀ (k : Nat) (r : Bytes) (o s : Nat), uAt (pad k ++ r) (k + o) s = uAt r o s := by
    intro k r o s
    rw [uAt_right _ _ _ _ (by rw [pad_length]; omega), pad_length]
    congr 1; omega
  refine ⟨uAt_here 2 _ _ h1, (skip 2 _ _ 0 2).trans (uAt_here 2 _ _ h2),
    (skip 2 _ _ 2 2).trans <| (skip 2 _ _ 0 2).trans (uAt_here 2 _ _ h3),
    (skip 2 _ _ 4 8).trans <| (skip 2 _ _ 2 8).trans <| (skip 2 _ _ 0 8).trans (uAt_here 8 _ _ h4),
    (skip 2 _ _ 12 2).trans <| (skip 2 _ _ 10 2).trans <| (skip 2 _ _ 8 2).trans <| (skip 8 _ _ 0 2).trans
      (uAt_here 2 _ _ h5),
    (skip 2 _ _ 14 1).trans <| (skip 2 _ _ 12 1).trans <| (skip 2 _ _ 10 1).trans <| (skip 8 _ _ 2 1).trans <|
      (skip 2 _ _ 0 1).trans (uAt_here 1 _ _ h6),
    (skip 2 _ _ 16 2).trans <| (skip 2 _ _ 14 2).trans <| (skip 2 _ _ 12 2).trans <| (skip 8 _ _ 4 2).trans <|
      (skip 2 _ _ 2 2).trans <| (skip 1 _ _ 1 2).trans <| (skipPad 1 _ 0 2).trans (uAt_here 2 _ _ h7),
    (skip 2 _ _ 18 2).trans <| (skip 2 _ _ 16 2).trans <| (skip 2 _ _ 14 2).trans <| (skip 8 _ _ 6 2).trans <|
      (skip 2 _ _ 4 2).trans <| (skip 1 _ _ 3 2).trans <| (skipPad 1 _ 2 2).trans <| (skip 2 _ _ 0 2).trans
      (uAt_here 2 _ _ h8)⟩

theorem lost_learn_empty : ActLost (nxWire 16 (({} : LearnFixed).wire ++ [])) := by
  have hd := fun rest => nx_prints 16 ((({} : LearnFixed).wire ++ []) ++ fill (10 + 22)) rest .learn (by decide)
    (by decide) (by decide) (by decide)
  refine ⟨by decide, by decide, fun rest => (hd rest).2, Or.inr ⟨t!"learn()", fun rest => ?_, by simp,
    actStart_append (s := t!"learn") (by decide) (by decide) (by decide), ?_⟩⟩
  · exact (hd rest).1.trans (by decide)
  · intro h r c n hh hr hs
    have := str2act_empty_call h t!"learn" r (head_of hh) (by decide) (by decide) (atEnd_of hr) (by decide) (by decide)
    rw [show t!"learn" ++ t!"()" = t!"learn()" from rfl] at this
    rw [this] at hs
    cases hs
    decide

theorem lost_learn (l : LearnFixed) (is : List LearnItem) (hf : l.idle < 256 ^ 2 ∧ l.hard < 256 ^ 2 ∧
      l.priority < 256 ^ 2 ∧ l.cookie < 256 ^ 8 ∧ l.flags < 256 ^ 2 ∧ l.table < 256 ∧ l.finIdle < 256 ^ 2 ∧
      l.finHard < 256 ^ 2) (hi : ∀ i ∈ is, i.Valid) (hlen : (is.flatMap LearnItem.wire).length < 60000)
    (hl : ¬ (l = {} ∧ is ≠ [] ∧ ∀ i ∈ is, i.dst.name ∉ badIds ∧
      match i.src with
      | .field f _ => f.name ∉ badIds
      | .imm _ => True)) : ActLost (nxWire 16 (l.wire ++ is.flatMap LearnItem.wire)) := by
  have hwl : l.wire.length = 22 := by
    unfold LearnFixed.wire
    simp [u16_length, u64_length, u8_length, pad_length]
  have hfit := nxWire_fits 16 (l.wire ++ is.flatMap LearnItem.wire) (by rw [List.length_append, hwl]; omega)
  by_cases h0 : l = {}
  swap
  · refine nx_silent 16 _ .learn .typeError (by decide) (by decide) hfit (by decide) (by decide) ?_
    simp only [runActDec, learnAct2str, List.append_assoc]
    obtain ⟨a1, a2, a3, a4, a5, a6, a7, a8⟩ := learnFixed_at l hf
      (is.flatMap LearnItem.wire ++ fill (10 + (l.wire ++ is.flatMap LearnItem.wire).length))
    rw [needBytes_ok _ 0 22 (by rw [List.length_append, hwl]; omega), ok_bind, a1, a2, a3, a4, a5, a6, a7, a8, if_pos]
    by_contra hc
    apply h0
    simp at hc
    obtain ⟨⟨⟨⟨⟨⟨⟨b1, b2⟩, b3⟩, b4⟩, b5⟩, b6⟩, b7⟩, b8⟩ := hc
    cases l
    simp_all
  subst h0
  by_cases hne : is = []
  · subst hne; exact lost_learn_empty
  have hsh : ∀ i ∈ is, ShapeItem i := fun i h => shapeItem i (hi i h)
  have hgood : ¬ ∀ i ∈ is, GoodItem i := by
    intro hg
    refine hl ⟨rfl, hne, fun i h => ⟨(hg i h).dstName, ?_⟩⟩
    cases hs : i.src with
    | field f o => exact (hg i h).srcName f o hs
    | imm v => trivial
  generalize hbody : ({} : LearnFixed).wire ++ is.flatMap LearnItem.wire = body at hfit ⊢
  have hfix : ({} : LearnFixed).wire = pad 22 := by decide
  have htn : joinStr t!"," (is.map learnItemText) ≠ [] := by
    apply join_ne (by simpa using hne)
    intro x hx
    obtain ⟨i, _, rfl⟩ := List.mem_map.1 hx
    obtain ⟨c, s, h⟩ := learnItemText_cons i
    rw [h]; simp
  have hti : InLine ')' (joinStr t!"," (is.map learnItemText)) := by
    apply inside_join
    intro x hx
    obtain ⟨i, hm, rfl⟩ := List.mem_map.1 hx
    exact learnItemText_inside (hsh i hm)
  refine nx_lost 16 body t!"learn" (joinStr t!"," (is.map learnItemText)) .learn .learn (by decide)
    (by decide) hfit (by decide) (by decide) (by decide) (by decide) hti htn ?_ ?_
  · rw [← hbody, hfix] at *
    exact learn_dec is hsh _ (by unfold fill; rw [pad_length])
  · intro c n hc he
    simp only [runActEnc, learnStr2act] at hc
    obtain ⟨bin, h1, h2⟩ := nxWrap_inv hc
    rw [if_neg (by simp)] at h1
    obtain ⟨⟨info, sp⟩, hg, h1⟩ := bind_ok h1
    obtain ⟨a, ha, h1⟩ := bind_ok h1
    obtain ⟨b, hb, h1⟩ := bind_ok h1
    simp only [Except.ok.injEq, Prod.mk.injEq] at h1
    obtain ⟨rfl, rfl⟩ := h1
    have h3 := nxWrap_hdr_inv (t := 16) h2
    rw [he, ← hbody] at h3
    have h4 := nxWire_eq h3
    simp only [List.append_assoc] at h4
    have l1 := packAll_length ha
    have l2 := packAll_length hb
    rw [show a ++ (zeros 1 ++ (b ++ (sp ++ fill (10 + (a ++ (zeros 1 ++ (b ++ sp))).length)))) =
      (a ++ (zeros 1 ++ b)) ++ (sp ++ fill (10 + (a ++ (zeros 1 ++ (b ++ sp))).length)) by
        simp only [List.append_assoc]] at h4
    obtain ⟨_, h5⟩ := List.append_inj h4 (by
      rw [hwl]; simp only [List.length_append, l1, l2]; rfl)
    have hg' : learnGo ((joinStr t!"," (is.map learnItemText)).length + 1) [] none
        ([] ++ joinStr t!"," (is.map learnItemText)) = .ok (info, sp) := hg
    obtain ⟨_, l, c', q1, rfl, q2⟩ := learnGo_inv is [] (Or.inl rfl) hsh (fun _ => rfl) none _ hg'
    cases q1
    exact hgood (q2 _ _ h5.symm)

end Ofpstr
