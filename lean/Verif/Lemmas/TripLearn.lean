import Verif.Lemmas.TripField

/-!
# Printing and parsing `learn`
-/

namespace Ofpstr
open Spec

/-! ## The texts -/

/-- A range of bits of a field, as `learn` writes it. -/
def learnBits (f : Field) (ofs nbits : Nat) : Str :=
  bitText f (ofs == 0 && nbits == f.bits) ofs (ofs + nbits)

def learnFromText (nbits : Nat) : LearnFrom → Str
  | .field f ofs => learnBits f ofs nbits
  | .imm v => fmtX 0 v

def learnPair (i : LearnItem) : Str :=
  learnBits i.dst i.dstOfs i.nbits ++ '=' :: learnFromText i.nbits i.src

def learnItemText (i : LearnItem) : Str :=
  if i.load then t!"reg_load" ++ '(' :: learnPair i ++ [')'] else learnPair i

/-- What is used of a valid item. -/
structure ShapeItem (i : LearnItem) : Prop where
  pos : 0 < i.nbits
  small : i.nbits < 1024
  dst : ∃ n, IdShape i.dst n
  dstExp : i.dst.experimenter = false
  dstEnd : i.dstOfs + i.nbits ≤ i.dst.bits
  srcField : ∀ f ofs, i.src = .field f ofs →
    (∃ n, IdShape f n) ∧ f.experimenter = false ∧ ofs + i.nbits ≤ f.bits
  srcImm : ∀ v, i.src = .imm v → v < 2 ^ i.nbits

/-- The same of an item without the lossy fields. -/
structure GoodItem (i : LearnItem) : Prop extends ShapeItem i where
  dstName : i.dst.name ∉ badIds
  srcName : ∀ f ofs, i.src = .field f ofs → f.name ∉ badIds

theorem GoodItem.dstId {i : LearnItem} (h : GoodItem i) : ∃ n, IdField i.dst n := by
  obtain ⟨n, id⟩ := h.dst
  exact ⟨n, id, h.dstName⟩

theorem GoodItem.srcId {i : LearnItem} (h : GoodItem i) (f : Field) (ofs : Nat) (hs : i.src = .field f ofs) :
    (∃ n, IdField f n) ∧ f.experimenter = false ∧ ofs + i.nbits ≤ f.bits := by
  obtain ⟨⟨n, id⟩, h1, h2⟩ := h.srcField f ofs hs
  exact ⟨⟨n, id, h.srcName f ofs hs⟩, h1, h2⟩

theorem idField_bits_lt {f : Field} {n : Nat} (h : IdShape f n) : f.bits < 1024 := by
  have := h.small
  rw [h.bits]; omega

theorem shapeItem (i : LearnItem) (hv : i.Valid) : ShapeItem i := by
  obtain ⟨h1, h2, h3⟩ := hv
  have h1' := h1
  obtain ⟨_, _, hpos, hend⟩ := h1'
  obtain ⟨n, id⟩ := range_shape h1
  refine ⟨hpos, ?_, ⟨n, id⟩, h2, hend, ?_, ?_⟩
  · have := idField_bits_lt id; omega
  · intro f ofs he
    rw [he] at h3
    obtain ⟨h4, h5⟩ := h3
    exact ⟨range_shape h4, h5, h4.2.2.2⟩
  · intro v he
    rw [he] at h3
    exact h3

theorem goodItem (i : LearnItem) (hv : i.Valid) (hd : i.dst.name ∉ badIds)
    (hs : ∀ f ofs, i.src = .field f ofs → f.name ∉ badIds) : GoodItem i := ⟨shapeItem i hv, hd, hs⟩

theorem id_four {f : Field} {n : Nat} (h : IdShape f n) (hx : f.experimenter = false) : f.id.length = 4 := by
  rw [h.length, hx]; rfl

theorem lenByte_four {f : Field} {n : Nat} (h : IdShape f n) (hx : f.experimenter = false) (r : Bytes) :
    uAt (f.id ++ r) 3 1 = n := by
  rw [h.lenByte, hx]; rfl

theorem learnBits_facts {f : Field} {n : Nat} (h : IdShape f n) (ofs nbits : Nat) :
    Token (learnBits f ofs nbits) ∧ PlainStart (learnBits f ofs nbits) ∧ learnBits f ofs nbits ≠ [] ∧
    InLine ')' (learnBits f ofs nbits) := bitText_facts h _ _ _

theorem learnFromText_facts {i : LearnItem} (h : ShapeItem i) :
    Token (learnFromText i.nbits i.src) ∧ PlainStart (learnFromText i.nbits i.src) ∧
    learnFromText i.nbits i.src ≠ [] ∧ InLine ')' (learnFromText i.nbits i.src) := by
  cases hs : i.src with
  | field f ofs =>
    obtain ⟨⟨n, id⟩, _⟩ := h.srcField f ofs hs
    exact learnBits_facts id ofs i.nbits
  | imm v =>
    exact ⟨(fmtX_clean 0 v).token, (fmtX_clean 0 v).plainStart, fmtX_ne_nil 0 v,
      inside_clean (fmtX_clean 0 v) (np_fmtX 0 v)⟩

theorem learnPair_inside {i : LearnItem} (h : ShapeItem i) : InLine ')' (learnPair i) := by
  obtain ⟨n, id⟩ := h.dst
  exact inside_append (learnBits_facts id _ _).2.2.2
    (inside_cons (by decide) (by decide) (learnFromText_facts h).2.2.2)

theorem learnItemText_inside {i : LearnItem} (h : ShapeItem i) : InLine ')' (learnItemText i) := by
  unfold learnItemText
  split
  · rw [List.append_assoc]
    apply inside_append (inside_clean (by decide) (by decide))
    exact ⟨Inside.nest ')' '(' ')' _ [] (by decide) .round (learnPair_inside h).ins (.nil _), line_cons (by decide)
      (line_append (learnPair_inside h).line (by decide))⟩
  · exact learnPair_inside h

/-! ## Printing -/

theorem learnField_prints {f : Field} {n : Nat} (h : IdShape f n) (hx : f.experimenter = false)
    (ofs nbits : Nat) (ho : ofs < 65536) (r : Bytes) :
    learnField (f.id ++ (u16 ofs ++ r)) nbits = .ok (learnBits f ofs nbits) ∧
    (f.id ++ (u16 ofs ++ r)).drop 6 = r := by
  have hl := id_four h hx
  constructor
  · unfold learnField
    rw [h.decode, ok_bind, needBytes_ok _ 0 6 (by simp only [List.length_append, hl, u16_length]; omega), ok_bind,
      lenByte_four h hx, uAt_right _ _ _ _ (by omega), hl, uAt_u16_here _ _ ho, rangeText_bitText]
    unfold learnBits
    rw [h.bits, Nat.mul_comm n 8]
  · rw [← List.append_assoc]
    exact drop_app (by simp [hl, u16_length])

theorem ofs_lt {i : LearnItem} (h : ShapeItem i) : i.dstOfs < 65536 := by
  obtain ⟨n, id⟩ := h.dst
  have := idField_bits_lt id
  have := h.dstEnd
  omega

theorem imm_fits (nbits v : Nat) (h : v < 2 ^ nbits) : v < 256 ^ ((nbits + 15) / 16 * 2) := by
  rw [pow_bytes]
  exact Nat.lt_of_lt_of_le h (Nat.pow_le_pow_right (by decide) (by omega))

/-- The word before an item. -/
def itemWord (i : LearnItem) : Nat := i.src.flag * 4096 + (if i.load then 1024 else 0) + i.nbits

theorem itemWord_facts {i : LearnItem} (h : ShapeItem i) :
    itemWord i < 65536 ∧ itemWord i ≠ 0 ∧ itemWord i % 1024 = i.nbits ∧
    itemWord i / 1024 % 4 = (if i.load then 1 else 0) ∧ itemWord i / 4096 % 2 = i.src.flag ∧
    itemWord i / 8192 = 0 := by
  have h1 := h.pos
  have h2 := h.small
  have h3 : i.src.flag = 0 ∨ i.src.flag = 1 := by cases i.src <;> simp [LearnFrom.flag]
  unfold itemWord
  split <;> omega

theorem learnSpecs_item {i : LearnItem} (h : ShapeItem i) (fuel : Nat) (spec : Option Str) (r : Bytes) :
    learnSpecs (fuel + 1) spec (i.wire ++ r) =
      (learnSpecs fuel (some (learnItemText i)) r).bind fun l => .ok (learnItemText i :: l) := by
  obtain ⟨w1, w2, w3, w4, w5, w6⟩ := itemWord_facts h
  obtain ⟨n, id⟩ := h.dst
  have hwire : i.wire ++ r = u16 (itemWord i) ++ (i.src.wire i.nbits ++ (i.dst.id ++ (u16 i.dstOfs ++ r))) := by
    unfold LearnItem.wire itemWord
    simp only [List.append_assoc]
  rw [hwire]
  have hw : uAt (u16 (itemWord i) ++ (i.src.wire i.nbits ++ (i.dst.id ++ (u16 i.dstOfs ++ r)))) 0 2 = itemWord i :=
    uAt_u16_here _ _ w1
  have hd : (u16 (itemWord i) ++ (i.src.wire i.nbits ++ (i.dst.id ++ (u16 i.dstOfs ++ r)))).drop 2 =
      i.src.wire i.nbits ++ (i.dst.id ++ (u16 i.dstOfs ++ r)) := drop_app (u16_length _)
  have hidl := id_four id h.dstExp
  rw [learnSpecs, if_neg (by simp only [List.length_append, u16_length, hidl]; omega), hw, hd]
  dsimp only
  rw [if_neg (by simpa using w2), w3, w6]
  simp only [beq_self_eq_true, pyAssert_ok, ok_bind]
  obtain ⟨hp1, hp2⟩ := learnField_prints id h.dstExp i.dstOfs i.nbits (ofs_lt h) r
  have ht1 : i.load = true → t!"reg_load(" ++ (learnBits i.dst i.dstOfs i.nbits ++
      '=' :: (learnFromText i.nbits i.src ++ t!")")) = learnItemText i := by
    intro hl
    unfold learnItemText learnPair
    rw [if_pos hl]
    simp
  have ht2 : i.load = false → learnBits i.dst i.dstOfs i.nbits ++ '=' :: learnFromText i.nbits i.src =
      learnItemText i := by
    intro hl
    unfold learnItemText learnPair
    rw [if_neg (by simp [hl])]
  cases hs : i.src with
  | imm v =>
    have hv := h.srcImm v hs
    have e1 : (be ((i.nbits + 15) / 16 * 2) v ++ (i.dst.id ++ (u16 i.dstOfs ++ r))).take ((i.nbits + 15) / 16 * 2) =
        be ((i.nbits + 15) / 16 * 2) v := List.take_left' (be_length _ _)
    have e2 : (be ((i.nbits + 15) / 16 * 2) v ++ (i.dst.id ++ (u16 i.dstOfs ++ r))).drop ((i.nbits + 15) / 16 * 2) =
        i.dst.id ++ (u16 i.dstOfs ++ r) := drop_app (be_length _ _)
    have w5' : itemWord i / 4096 % 2 = 1 := by rw [w5, hs]; rfl
    rw [hs] at ht1 ht2
    rw [w5', if_pos (by decide), ok_bind]
    simp only [LearnFrom.wire]
    rw [e1, e2, beVal_be _ _ (imm_fits _ _ hv)]
    cases hl : i.load with
    | true =>
      have w4' : itemWord i / 1024 % 4 = 1 := by rw [w4, hl]; rfl
      rw [w4', if_neg (by decide), hp1, ok_bind, if_neg (by decide), if_pos (by decide), hp2, ← ht1 hl]
      rfl
    | false =>
      have w4' : itemWord i / 1024 % 4 = 0 := by rw [w4, hl]; rfl
      rw [w4', if_neg (by decide), hp1, ok_bind, if_pos (by decide), hp2, ← ht2 hl]
      rfl
  | field f ofs =>
    obtain ⟨⟨m, is⟩, hx, hend⟩ := h.srcField f ofs hs
    have hofs : ofs < 65536 := by have := idField_bits_lt is; omega
    obtain ⟨q1, q2⟩ := learnField_prints is hx ofs i.nbits hofs (i.dst.id ++ (u16 i.dstOfs ++ r))
    have w5' : itemWord i / 4096 % 2 = 0 := by rw [w5, hs]; rfl
    rw [hs] at ht1 ht2
    rw [w5', if_neg (by decide)]
    simp only [LearnFrom.wire, List.append_assoc]
    rw [q1, ok_bind, ok_bind, q2]
    cases hl : i.load with
    | true =>
      have w4' : itemWord i / 1024 % 4 = 1 := by rw [w4, hl]; rfl
      rw [w4', if_neg (by decide), hp1, ok_bind, if_neg (by decide), if_pos (by decide), hp2, ← ht1 hl]
      rfl
    | false =>
      have w4' : itemWord i / 1024 % 4 = 0 := by rw [w4, hl]; rfl
      rw [w4', if_neg (by decide), hp1, ok_bind, if_pos (by decide), hp2, ← ht2 hl]
      rfl

theorem learnSpecs_end (z : Bytes) (hz : z = pad z.length) (fuel : Nat) (spec : Option Str) :
    learnSpecs (fuel + 1) spec z = .ok [] := by
  rw [learnSpecs]
  by_cases h : z.length ≤ 2
  · rw [if_pos h]
  · rw [if_neg h]
    have : uAt z 0 2 = 0 := by
      have e : z = u16 0 ++ pad (z.length - 2) := by
        rw [hz, pad_length]
        have : z.length = z.length - 2 + 2 := by omega
        rw [this]
        rfl
      rw [e]; exact uAt_u16_here _ _ (by decide)
    rw [this]
    rfl

theorem learnSpecs_items (is : List LearnItem) (h : ∀ i ∈ is, ShapeItem i) (z : Bytes) (hz : z = pad z.length)
    (fuel : Nat) (hf : is.length < fuel) (spec : Option Str) :
    learnSpecs fuel spec (is.flatMap LearnItem.wire ++ z) = .ok (is.map learnItemText) := by
  induction is generalizing fuel spec with
  | nil =>
    cases fuel with
    | zero => omega
    | succ f => exact learnSpecs_end z hz f spec
  | cons i is ih =>
    cases fuel with
    | zero => omega
    | succ f =>
      rw [List.flatMap_cons, List.append_assoc, learnSpecs_item (h i (by simp)),
        ih (fun x hx => h x (by simp [hx])) f (by simp at hf; omega)]
      rfl

/-! ## Parsing -/

theorem no_zero_names : ∀ f ∈ fields, f.name.head? ≠ some '0' := by decide +kernel

theorem lookupEnc_zero (s : Str) : lookupEnc ('0' :: s) = none := by
  cases h : lookupEnc ('0' :: s) with
  | none => rfl
  | some x =>
    obtain ⟨f, hf, hn, _⟩ := lookupEnc_field (key := x.1) (k := x.2) h
    exact absurd (by rw [hn]; rfl) (no_zero_names f hf)

theorem str2oxmid_hex (v : Nat) : str2oxmid false (fmtX 0 v) = .ok [] := by
  have hg := getToken_clean_all (fmtX_clean 0 v)
  have hl : lookupEnc (fmtX 0 v) = none := by unfold fmtX; exact lookupEnc_zero _
  have hlen : (fmtX 0 v).length + 1 = ((fmtX 0 v).length - 1) + 1 + 1 := by
    unfold fmtX; simp
  unfold str2oxmid
  rw [hlen, str2oxmidGo, if_neg (by simpa using fmtX_ne_nil 0 v), hg]
  dsimp only
  rw [hl, str2oxmidGo, if_pos (by decide), ok_bind]
  split <;> rfl

theorem optPair_range (a b : Nat) : optPair (fmtD a ++ ':' :: fmtD b) = .ok (some (a : Int), some (b : Int)) := by
  unfold optPair
  rw [range_split]
  dsimp only
  rw [optInt_fmtD, ok_bind, optInt_fmtD, ok_bind]

theorem learnDest_text {f : Field} {n : Nat} (h : IdField f n) (hx : f.experimenter = false) (ofs nbits : Nat) :
    learnDest (some (learnBits f ofs nbits)) = .ok (f.id, (ofs : Int), (nbits : Int)) := by
  have hl := id_four h.toIdShape hx
  have hb := lenByte_four h.toIdShape hx []
  rw [List.append_nil] at hb
  unfold learnDest learnBits bitText
  dsimp only
  by_cases hw : (ofs == 0 && nbits == f.bits) = true
  · rw [if_pos hw, parseFunc_bare _ h.clean.1.notOpen, ok_bind]
    dsimp only
    rw [h.encode, ok_bind, hl, hb]
    simp only [beq_self_eq_true, pyAssert_ok, ok_bind]
    simp only [Bool.and_eq_true, beq_iff_eq] at hw
    rw [hw.1, hw.2, h.bits]
    push_cast
    rw [Int.mul_comm]
  · rw [if_neg hw, fmtRange_parse _ _ _ h.clean.1, ok_bind]
    dsimp only
    rw [h.encode, ok_bind, hl, hb]
    simp only [beq_self_eq_true, pyAssert_ok, ok_bind]
    obtain ⟨c, s, hcs⟩ := range_cons ofs (ofs + nbits)
    rw [hcs]
    dsimp only
    rw [← hcs, optPair_range, ok_bind]
    simp

theorem learnSource_field {f : Field} {n : Nat} (h : IdField f n) (hx : f.experimenter = false) (ofs nbits : Nat)
    (ho : ofs < 65536) :
    learnSource (learnBits f ofs nbits) = .ok (.fld (f.id ++ u16 ofs), some (nbits : Int)) := by
  have hl := id_four h.toIdShape hx
  have hb := lenByte_four h.toIdShape hx []
  rw [List.append_nil] at hb
  have hne : f.id.isEmpty = false := by
    cases hf : f.id with
    | nil => rw [hf] at hl; simp at hl
    | cons c s => rfl
  have hp : packU 2 ((ofs : Nat) : Int) = .ok (u16 ofs) := packU_nat 2 ofs (by omega)
  unfold learnSource learnBits bitText
  by_cases hw : (ofs == 0 && nbits == f.bits) = true
  · rw [if_pos hw, parseFunc_bare _ h.clean.1.notOpen, ok_bind]
    dsimp only
    rw [h.encode, ok_bind, hl, hb, hne, if_neg (by simp)]
    simp only [beq_self_eq_true, pyAssert_ok, ok_bind]
    simp only [Bool.and_eq_true, beq_iff_eq] at hw
    rw [hw.1] at hp ⊢
    have hp' : packU 2 (0 : Int) = .ok (u16 0) := hp
    rw [hp', ok_bind, hw.2, h.bits]
    push_cast
    rw [Int.mul_comm]
  · rw [if_neg hw, fmtRange_parse _ _ _ h.clean.1, ok_bind]
    dsimp only
    rw [h.encode, ok_bind, hl, hb, hne, if_neg (by simp)]
    simp only [beq_self_eq_true, pyAssert_ok, ok_bind]
    obtain ⟨c, s, hcs⟩ := range_cons ofs (ofs + nbits)
    rw [hcs]
    dsimp only
    rw [← hcs, optPair_range, ok_bind]
    simp only [Option.getD_some, ok_bind]
    rw [hp, ok_bind]
    simp

theorem learnSource_imm (v : Nat) : learnSource (fmtX 0 v) = .ok (.imm (v : Int), none) := by
  unfold learnSource
  rw [parseFunc_bare _ (fmtX_clean 0 v).notOpen, ok_bind]
  dsimp only
  have hp := parseInt_fmtX 0 v [] (by intro c t h; simp at h)
  rw [List.append_nil] at hp
  rw [str2oxmid_hex, ok_bind, if_pos (by decide), hp, ok_bind]

theorem packU2 (n : Nat) (h : n < 65536) (x : Int) (hx : x = (n : Int)) : packU 2 x = .ok (u16 n) := by
  rw [hx]; exact packU_nat 2 n (by omega)

theorem flowModSpec_item {i : LearnItem} (h : GoodItem i) :
    flowModSpec (learnFromText i.nbits i.src) (some (learnBits i.dst i.dstOfs i.nbits))
      (if i.load then some t!"reg_load" else none) = .ok i.wire := by
  obtain ⟨n, id⟩ := h.dstId
  obtain ⟨w1, _, _⟩ := itemWord_facts h.toShapeItem
  have hd := learnDest_text id h.dstExp i.dstOfs i.nbits
  have ho := packU2 i.dstOfs (ofs_lt h.toShapeItem) _ rfl
  have hm : ((if i.load then some t!"reg_load" else none) == some t!"output") = false := by
    cases i.load <;> decide
  unfold LearnItem.wire
  have hpos := h.pos
  cases hs : i.src with
  | imm v =>
    unfold flowModSpec learnFromText
    dsimp only
    rw [learnSource_imm, ok_bind]
    dsimp only
    rw [hm, if_neg (by simp), hd, ok_bind]
    dsimp only
    rw [ok_bind, ho, ok_bind]
    have hw : packU 2 ((if ((if i.load then some t!"reg_load" else none) == some t!"reg_load") = true then
        (4096 : Int) + 1024 else 4096) + (i.nbits : Int)) = .ok (u16 (itemWord i)) := by
      apply packU2 _ w1
      unfold itemWord
      rw [hs]
      cases i.load <;> simp [LearnFrom.flag]
    rw [hw, ok_bind]
    have hz : ((((i.nbits : Int) + 15) / 16 * 2).toNat) = (i.nbits + 15) / 16 * 2 := by omega
    rw [hz, intBE_nat, ← spec_be]
    unfold itemWord LearnFrom.wire
    rw [hs]
  | field f ofs =>
    obtain ⟨⟨m, is⟩, hx, hend⟩ := h.srcId f ofs hs
    have hofs : ofs < 65536 := by have := idField_bits_lt is.toIdShape; omega
    unfold flowModSpec learnFromText
    dsimp only
    rw [learnSource_field is hx ofs i.nbits hofs, ok_bind]
    dsimp only
    rw [hm, if_neg (by simp), hd, ok_bind]
    dsimp only
    have hz : ((i.nbits : Int) == 0) = false := by
      rw [beq_eq_false_iff_ne]; omega
    rw [hz, if_neg (by simp)]
    simp only [beq_self_eq_true, pyAssert_ok, ok_bind]
    rw [ho, ok_bind]
    have hw : packU 2 ((if ((if i.load then some t!"reg_load" else none) == some t!"reg_load") = true then
        (0 : Int) + 1024 else 0) + (i.nbits : Int)) = .ok (u16 (itemWord i)) := by
      apply packU2 _ w1
      unfold itemWord
      rw [hs]
      cases i.load <;> simp [LearnFrom.flag]
    rw [hw, ok_bind]
    unfold itemWord LearnFrom.wire
    rw [hs]

theorem learnKeys_fields : ∀ f ∈ fields, learnKeys.contains (shownName f) = false := by decide +kernel

theorem learnKeys_bracket : ∀ k ∈ learnKeys, '[' ∉ k := by decide

theorem learnBits_key {f : Field} {n : Nat} (h : IdShape f n) (ofs nbits : Nat) :
    learnKeys.contains (learnBits f ofs nbits) = false := by
  unfold learnBits bitText
  split
  · exact learnKeys_fields f h.mem
  · rw [fmtRange_eq]
    rw [Bool.eq_false_iff]
    intro hc
    rw [List.contains_iff_mem] at hc
    exact learnKeys_bracket _ hc (by simp)

theorem learnPair_tokens {i : LearnItem} (h : ShapeItem i) (hd r : Str) (hh : Head hd) (hr : AtEnd r) :
    getToken (hd ++ (learnPair i ++ r)) =
      (hd, learnBits i.dst i.dstOfs i.nbits, '=' :: (learnFromText i.nbits i.src ++ r)) ∧
    getToken ('=' :: (learnFromText i.nbits i.src ++ r)) = (['='], learnFromText i.nbits i.src, r) := by
  obtain ⟨n, id⟩ := h.dst
  obtain ⟨t1, t2, t3, _⟩ := learnFromText_facts h
  refine ⟨?_, getToken_eq t1 hr t2 t3⟩
  have := bitText_token id (i.dstOfs == 0 && i.nbits == i.dst.bits) i.dstOfs (i.dstOfs + i.nbits) hd
    ('=' :: (learnFromText i.nbits i.src ++ r)) hh (atEnd_eq _)
  unfold learnPair learnBits
  rw [List.append_assoc, List.cons_append]
  exact this

theorem learnSingle_item {i : LearnItem} (h : GoodItem i) (hl : i.load = true) :
    learnSingle (learnItemText i) = .ok i.wire := by
  have hp := parseFunc_call t!"reg_load" (learnPair i) [] '(' ')' (by decide) .round (learnPair_inside h.toShapeItem).ins
  rw [if_pos rfl] at hp
  have hf := flowModSpec_item h
  rw [if_pos hl] at hf
  obtain ⟨g1, g2⟩ := learnPair_tokens h.toShapeItem [] [] head_nil atEnd_nil
  rw [List.nil_append, List.append_nil] at g1
  rw [List.append_nil] at g1 g2
  unfold learnSingle learnItemText
  rw [if_pos hl, hp, ok_bind]
  have : ∃ c s, learnPair i = c :: s := by
    cases hc : learnPair i with
    | nil => unfold learnPair at hc; simp at hc
    | cons c s => exact ⟨c, s, rfl⟩
  obtain ⟨c, s, hcs⟩ := this
  rw [hcs]
  dsimp only
  rw [← hcs, g1]
  dsimp only
  rw [g2]
  dsimp only
  rw [hf]
  rfl

theorem learnItemText_cons (i : LearnItem) : ∃ c s, learnItemText i = c :: s := by
  cases hc : learnItemText i with
  | nil =>
    exfalso
    unfold learnItemText learnPair at hc
    split at hc <;> simp at hc
  | cons c s => exact ⟨c, s, rfl⟩

theorem learnGo_items (is : List LearnItem) (h : Str) (hh : h = [] ∨ h = [','])
    (hi : ∀ i ∈ is, GoodItem i) (hne : is = [] → h = []) (left : Option Str) (fuel : Nat)
    (hf : (h ++ joinStr t!"," (is.map learnItemText)).length < fuel) :
    learnGo fuel [] left (h ++ joinStr t!"," (is.map learnItemText)) =
      (learnPending left).bind fun b => .ok ([], b ++ is.flatMap LearnItem.wire) := by
  induction is generalizing h left fuel with
  | nil =>
    cases fuel with
    | zero => simp at hf
    | succ f =>
      simp only [hne rfl, joinStr, List.map_nil, learnGo, List.isEmpty_nil, if_true,
        List.flatMap_nil, List.append_nil]
      rfl
  | cons i is ih =>
    cases fuel with
    | zero => simp at hf
    | succ f =>
      have gi := hi i (by simp)
      have hhd : Head h := by rcases hh with rfl | rfl; exacts [head_nil, head_comma]
      have hhe : hasChar h '=' = false := by rcases hh with rfl | rfl <;> decide
      have hsplit : ∃ r, h ++ joinStr t!"," ((i :: is).map learnItemText) = h ++ (learnItemText i ++ r) ∧ AtEnd r ∧
          r = (if is = [] then [] else t!",") ++ joinStr t!"," (is.map learnItemText) := by
        cases is with
        | nil => exact ⟨[], by simp [joinStr], atEnd_nil, by simp [joinStr]⟩
        | cons y is =>
          exact ⟨',' :: joinStr t!"," ((y :: is).map learnItemText), by simp [joinStr], atEnd_comma _, by simp⟩
      obtain ⟨r, hs, hr, hre⟩ := hsplit
      obtain ⟨c, s, hcs⟩ := learnItemText_cons i
      have hemp : (h ++ (learnItemText i ++ r)).isEmpty = false := by
        rw [hcs]; cases h <;> simp
      rw [hs] at hf ⊢
      rw [learnGo.eq_def]
      dsimp only
      rw [hemp, if_neg (by simp)]
      cases hl : i.load with
      | true =>
        have ht : learnItemText i = t!"reg_load" ++ '(' :: learnPair i ++ [')'] := by
          unfold learnItemText; rw [if_pos hl]
        have hg := getToken_call h t!"reg_load" (learnPair i) r hhd (by decide) (by decide) (learnPair_inside gi.toShapeItem).ins hr
        rw [← ht] at hg
        have hrec := ih (if is = [] then [] else t!",") (by split <;> simp)
          (fun y hy => hi y (by simp [hy])) (by intro h; simp [h]) (some (learnItemText i)) f
          (by rw [← hre]; rw [hcs] at hf; simp at hf; omega)
        rw [← hre] at hrec
        have hpend : learnPending (some (learnItemText i)) = .ok i.wire := by
          rw [hcs]
          unfold learnPending
          dsimp only
          rw [← hcs]
          exact learnSingle_item gi hl
        rw [hg]
        dsimp only
        rw [hhe, if_neg (by simp), hrec, hpend]
        cases learnPending left <;> rfl
      | false =>
        have ht : learnItemText i = learnPair i := by
          unfold learnItemText; rw [if_neg (by simp [hl])]
        obtain ⟨g1, g2⟩ := learnPair_tokens gi.toShapeItem h r hhd hr
        obtain ⟨n, id⟩ := gi.dst
        have hfm := flowModSpec_item gi
        rw [if_neg (by simp [hl])] at hfm
        have hkey := learnBits_key id i.dstOfs i.nbits
        have hlen : r.length + 2 ≤ f := by
          rw [ht] at hf
          unfold learnPair at hf
          simp at hf
          have := List.length_pos_iff.2 (learnBits_facts id i.dstOfs i.nbits).2.2.1
          omega
        obtain ⟨f', rfl⟩ : ∃ f', f = f' + 1 := ⟨f - 1, by omega⟩
        have hrec := ih (if is = [] then [] else t!",") (by split <;> simp)
          (fun y hy => hi y (by simp [hy])) (by intro h; simp [h]) none f' (by rw [← hre]; omega)
        rw [← hre] at hrec
        rw [ht, g1]
        dsimp only
        rw [hhe, if_neg (by simp)]
        have hin : learnGo (f' + 1) [] (some (learnBits i.dst i.dstOfs i.nbits))
            ('=' :: (learnFromText i.nbits i.src ++ r)) = .ok ([], i.wire ++ is.flatMap LearnItem.wire) := by
          rw [learnGo.eq_def]
          dsimp only
          rw [if_neg (by simp), g2]
          dsimp only
          rw [if_pos (by decide), if_neg (fun h => Bool.noConfusion (hkey.symm.trans h)), hfm, ok_bind, hrec]
          rfl
        rw [hin]
        cases learnPending left <;> rfl

/-! ## The action -/

theorem learnPair_ne (i : LearnItem) : learnPair i ≠ [] := by unfold learnPair; simp

theorem join_ne {l : List Str} (h : l ≠ []) (hl : ∀ x ∈ l, x ≠ []) : joinStr t!"," l ≠ [] := by
  cases l with
  | nil => exact absurd rfl h
  | cons x l =>
    have := hl x (by simp)
    cases l with
    | nil => simpa [joinStr] using this
    | cons y l => simp [joinStr, this]

theorem items_le (is : List LearnItem) : is.length ≤ (is.flatMap LearnItem.wire).length := by
  induction is with
  | nil => simp
  | cons i is ih =>
    have : 0 < i.wire.length := by
      unfold LearnItem.wire
      simp only [List.length_append, u16_length]; omega
    rw [List.flatMap_cons, List.length_append, List.length_cons]; omega

theorem uAt_pad (n o k : Nat) : uAt (pad n) o k = 0 := by
  have : ∀ m, beVal (List.replicate m 0) = 0 := by
    intro m
    induction m with
    | zero => rfl
    | succ m ih => rw [List.replicate_succ']; simp [beVal, List.foldl_append] at *; exact ih
  unfold uAt slice pad
  rw [List.take_replicate, List.drop_replicate]
  exact this _

theorem learn_dec (is : List LearnItem) (hi : ∀ i ∈ is, ShapeItem i) (z : Bytes) (hzp : z = pad z.length) :
    runActDec .learn ((pad 22 ++ is.flatMap LearnItem.wire) ++ z) =
      .ok (t!"learn" ++ '(' :: joinStr t!"," (is.map learnItemText) ++ [')']) := by
  simp only [runActDec, learnAct2str]
  generalize hp : (pad 22 ++ is.flatMap LearnItem.wire) ++ z = body
  rw [List.append_assoc] at hp
  have hu : ∀ o k, o + k ≤ 22 → uAt body o k = 0 := by
    intro o k hk
    rw [← hp, uAt_left _ _ _ _ (by rw [pad_length]; exact hk)]
    exact uAt_pad 22 o k
  rw [needBytes_ok _ 0 22 (by rw [← hp, List.length_append, pad_length]; omega), ok_bind,
    hu 0 2 (by decide), hu 2 2 (by decide), hu 4 2 (by decide), hu 6 8 (by decide), hu 14 2 (by decide),
    hu 16 1 (by decide), hu 18 2 (by decide), hu 20 2 (by decide), if_neg (by decide)]
  have hd : body.drop 22 = is.flatMap LearnItem.wire ++ z := by
    rw [← hp]; exact drop_app (pad_length _)
  have hle := items_le is
  rw [hd, learnSpecs_items is hi z hzp _ (by rw [← hp]; simp only [List.length_append]; omega), ok_bind]
  simp

theorem trip_learn (is : List LearnItem) (hi : ∀ i ∈ is, GoodItem i) (hne : is ≠ [])
    (hl : (nxWire 16 (({} : LearnFixed).wire ++ is.flatMap LearnItem.wire)).length < 65536) :
    ∃ text, ActTrip (nxWire 16 (({} : LearnFixed).wire ++ is.flatMap LearnItem.wire)) text := by
  generalize hbody : ({} : LearnFixed).wire ++ is.flatMap LearnItem.wire = body at hl ⊢
  have hfix : ({} : LearnFixed).wire = pad 22 := by decide
  have htn : joinStr t!"," (is.map learnItemText) ≠ [] := by
    apply join_ne (by simpa using hne)
    intro x hx
    obtain ⟨i, _, rfl⟩ := List.mem_map.1 hx
    obtain ⟨c, s, h⟩ := learnItemText_cons i
    rw [h]; simp
  have hti : InLine ')' (joinStr t!"," (is.map learnItemText)) := by
    apply inside_join
    intro x hx
    obtain ⟨i, hm, rfl⟩ := List.mem_map.1 hx
    exact learnItemText_inside (hi i hm).toShapeItem
  refine ⟨_, nx_call 16 body t!"learn" (joinStr t!"," (is.map learnItemText)) .learn .learn (by decide)
    (by decide) hl (by decide) (by decide) (by decide) (by decide) (by decide) hti htn ?_
    ⟨(joinStr t!"," (is.map learnItemText)).length, ?_⟩⟩
  · rw [← hbody, hfix]
    exact learn_dec is (fun i h => (hi i h).toShapeItem) _ (by unfold fill; rw [pad_length])
  · simp only [runActEnc, learnStr2act]
    have hg := learnGo_items is [] (Or.inl rfl) hi (fun _ => rfl) none
      ((joinStr t!"," (is.map learnItemText)).length + 1) (by simp)
    rw [List.nil_append] at hg
    rw [if_neg (by simp), hg]
    have h1 : packAll [(2, learnInfo [] t!"idle_timeout"), (2, learnInfo [] t!"hard_timeout"),
      (2, learnInfo [] t!"priority"), (8, learnInfo [] t!"cookie"),
      (2, learnInfo [] t!"flags"), (1, learnInfo [] t!"table")] = .ok (pad 17) := by decide
    have h2 : packAll [(2, learnInfo [] t!"fin_idle_timeout"), (2, learnInfo [] t!"fin_hard_timeout")] =
      .ok (pad 4) := by decide
    have h3 : (learnPending none).bind (fun b => (.ok ([], b ++ is.flatMap LearnItem.wire) :
      Py (List (Str × Int) × Bytes))) = .ok ([], is.flatMap LearnItem.wire) := rfl
    rw [h3, ok_bind]
    dsimp only
    rw [h1, ok_bind, h2, ok_bind]
    refine nxWrap_fit hl ?_
    rw [← hbody, hfix]
    rfl

end Ofpstr
