import Verif.Lemmas.TripNx
import Verif.Lemmas.Early

/-!
# Printing and parsing the Nicira actions on fields
-/

namespace Ofpstr
open Spec

/-! ## Field ids -/

/-- A field of `n` bytes. -/
structure IdShape (f : Field) (n : Nat) : Prop where
  mem : f ∈ fields
  size : f.kind.size = some n

/-- A field whose name stands for its own id, of `n` bytes. -/
structure IdField (f : Field) (n : Nat) : Prop extends IdShape f n where
  name : f.name ∉ badIds

/-- The name printed for the id of a field. -/
def shownName (f : Field) : Str := if f.name = t!"nxm_ip_frag" then t!"nxm_icmp_type" else f.name

theorem IdField.shown {f : Field} {n : Nat} (h : IdField f n) : shownName f = f.name := by
  have := h.name
  simp only [badIds, List.mem_cons, List.not_mem_nil, or_false, not_or] at this
  exact if_neg this.1

theorem encId_kind (key : Key) (k : Kind) (n : Nat) (hs : k.size = some n) :
    encId key (kindEnc k) false = header key n false := by
  cases k <;> simp [Kind.size] at hs <;> subst hs <;> rfl

theorem encId_noMask (key : Key) (k : Kind) (n : Nat) (hs : k.size = some n) (hm : k.noMaskId = true) :
    encId key (kindEnc k) true = header key n false := by
  cases k <;> simp [Kind.size] at hs <;> simp [Kind.noMaskId] at hm <;> subst hs <;> rfl

theorem IdShape.small {f : Field} {n : Nat} (h : IdShape f n) : 2 * n + (if f.experimenter then 4 else 0) < 256 :=
  kind_sizes f h.mem n h.size

theorem IdShape.id {f : Field} {n : Nat} (h : IdShape f n) : f.id = header (fieldKey f) n false := by
  unfold Field.id
  rw [h.size, Option.getD_some]
  have := field_header f h.mem n false (by have := h.small; simp; omega)
  rw [this]; simp

theorem IdShape.bits {f : Field} {n : Nat} (h : IdShape f n) : f.bits = 8 * n := by
  unfold Field.bits; rw [h.size]; rfl

theorem field_cls (f : Field) (h : f ∈ fields) : (fieldKey f).cls.code = f.cls := by
  have key : ∀ f ∈ fields, (fieldKey f).cls.code = f.cls := by decide +kernel
  exact key f h

theorem IdShape.length {f : Field} {n : Nat} (h : IdShape f n) :
    f.id.length = 4 + (if f.experimenter then 4 else 0) := by
  rw [h.id, header_length, fieldKey_extra f (field_cls f h.mem)]

theorem IdShape.cls {f : Field} {n : Nat} (h : IdShape f n) (rest : Bytes) :
    uAt (f.id ++ rest) 0 2 = f.cls := by
  rw [h.id, (header_nums (fieldKey f) n false rest (field_name f h.mem).2.2).1, field_cls f h.mem]

theorem IdShape.num {f : Field} {n : Nat} (h : IdShape f n) (rest : Bytes) :
    uAt (f.id ++ rest) 2 1 = 2 * f.num := by
  rw [h.id, (header_nums (fieldKey f) n false rest (field_name f h.mem).2.2).2.1]
  rfl

theorem IdShape.lenByte {f : Field} {n : Nat} (h : IdShape f n) (rest : Bytes) :
    uAt (f.id ++ rest) 3 1 = n + (if f.experimenter then 4 else 0) := by
  rw [h.id, (header_nums (fieldKey f) n false rest (field_name f h.mem).2.2).2.2,
    fieldKey_extra f (field_cls f h.mem)]
  have := h.small
  simp only [Bool.false_eq_true, if_false]
  omega

theorem IdShape.isExp {f : Field} {n : Nat} (h : IdShape f n) (rest : Bytes) :
    (uAt (f.id ++ rest) 0 2 == 0xffff) = f.experimenter := by
  rw [h.cls]; rfl

theorem IdField.lookup {f : Field} {n : Nat} (h : IdField f n) :
    lookupEnc f.name = some (fieldKey f, kindEnc f.kind) := by
  obtain ⟨k, h1, h2⟩ := lookupEnc_of_field f h.mem
  have := h.name
  simp only [badIds, List.mem_cons, List.not_mem_nil, or_false, not_or] at this
  rw [h1, h2 this.2]

theorem table_shown : ∀ f ∈ fields, (lookupDec (fieldKey f)).map decId = some (shownName f) ∧
    Clean (shownName f) ∧ shownName f ≠ [] ∧ NP (shownName f) := by decide +kernel

theorem IdShape.lookupDec {f : Field} {n : Nat} (h : IdShape f n) :
    ∃ d, Ofpstr.lookupDec (fieldKey f) = some d ∧ decId d = shownName f := by
  have := (table_shown f h.mem).1
  simpa using this

theorem IdField.encode {f : Field} {n : Nat} (h : IdField f n) : str2oxmid false (shownName f) = .ok f.id := by
  rw [h.shown]
  have := str2oxmidGo_names false [f] [] (Or.inl rfl) (by simpa using h.mem) (by simp) (f.name.length + 1)
    (by simp [joinStr])
  simp only [List.nil_append, List.map_cons, List.map_nil, joinStr, List.flatMap_cons, List.flatMap_nil,
    List.append_nil, h.lookup] at this
  unfold str2oxmid
  rw [this, encId_kind _ _ n h.size, h.id]

theorem IdField.encodeMask {f : Field} {n : Nat} (h : IdField f n) (hm : f.kind.noMaskId = true) :
    str2oxmid true (shownName f) = .ok f.id := by
  rw [h.shown]
  have := str2oxmidGo_names true [f] [] (Or.inl rfl) (by simpa using h.mem) (by simp) (f.name.length + 1)
    (by simp [joinStr])
  simp only [List.nil_append, List.map_cons, List.map_nil, joinStr, List.flatMap_cons, List.flatMap_nil,
    List.append_nil, h.lookup] at this
  unfold str2oxmid
  rw [this, encId_noMask _ _ n h.size hm, h.id]

theorem IdShape.decode {f : Field} {n : Nat} (h : IdShape f n) (rest : Bytes) :
    oxmid2str1 (f.id ++ rest) = .ok (shownName f) := by
  obtain ⟨d, h1, h2⟩ := h.lookupDec
  have := oxmid2strOne_header (fieldKey f) n false d rest (field_name f h.mem).2.2 h1
  unfold oxmid2str1
  rw [if_neg (by rw [List.length_append, h.length]; omega), h.id, this, ok_bind, h2]

theorem IdShape.decodeAll {f : Field} {n : Nat} (h : IdShape f n) : oxmid2str f.id = .ok (shownName f) := by
  obtain ⟨d, h1, h2⟩ := h.lookupDec
  have := oxmid2strOne_header (fieldKey f) n false d [] (field_name f h.mem).2.2 h1
  rw [List.append_nil] at this
  have hl := h.length
  have hx := fieldKey_extra f (field_cls f h.mem)
  unfold oxmid2str
  rw [oxmid2strGo, if_neg (by omega), h.id, this, ok_bind]
  dsimp only
  rw [List.drop_of_length_le (by rw [header_length]), header_length]
  rw [show 4 + extra (fieldKey f).cls = (3 + extra (fieldKey f).cls) + 1 by omega, oxmid2strGo]
  simp [joinStr, h2, ok_bind]

theorem IdShape.clean {f : Field} {n : Nat} (h : IdShape f n) : Clean (shownName f) ∧ shownName f ≠ [] :=
  ⟨(table_shown f h.mem).2.1, (table_shown f h.mem).2.2.1⟩

theorem fields_np : ∀ f ∈ fields, NP f.name := by decide +kernel

theorem IdShape.np {f : Field} {n : Nat} (h : IdShape f n) : NP (shownName f) := (table_shown f h.mem).2.2.2

theorem IdShape.inside {f : Field} {n : Nat} (h : IdShape f n) : InLine ')' (shownName f) :=
  inside_clean h.clean.1 h.np

theorem IdField.nameClean {f : Field} {n : Nat} (h : IdField f n) : Clean f.name ∧ f.name ≠ [] :=
  h.shown ▸ h.clean

theorem IdField.nameInside {f : Field} {n : Nat} (h : IdField f n) : InLine ')' f.name :=
  h.shown ▸ h.inside

theorem IdField.encodeMaskName {f : Field} {n : Nat} (h : IdField f n) (hm : f.kind.noMaskId = true) :
    str2oxmid true f.name = .ok f.id := h.shown ▸ h.encodeMask hm

theorem IdField.encodeName {f : Field} {n : Nat} (h : IdField f n) : str2oxmid false f.name = .ok f.id :=
  h.shown ▸ h.encode

/-! ## Bit ranges -/

theorem inside_range (a b : Nat) : Inside ']' (fmtD a ++ ':' :: fmtD b) := by
  apply inside_chars
  intro c hc
  simp only [List.mem_append, List.mem_cons] at hc
  rcases hc with hc | rfl | hc
  · exact ⟨(isHex_close (isDec_isHex (fmtD_isDec a c hc))).2.1, (fmtD_clean a c hc).2.2.2⟩
  · decide
  · exact ⟨(isHex_close (isDec_isHex (fmtD_isDec b c hc))).2.1, (fmtD_clean b c hc).2.2.2⟩

theorem fmtRange_eq (name : Str) (a b : Nat) :
    fmtRange name a b = name ++ '[' :: (fmtD a ++ ':' :: fmtD b) ++ [']'] := by
  simp [fmtRange]

theorem token_append_plain {s t : Str} (hs : Clean s) (ht : Token t) : Token (s ++ t) := by
  induction s with
  | nil => exact ht
  | cons c s ih =>
    have hc := hs c (by simp)
    exact .char c _ hc.notSep hc.2.2.1 hc.2.2.2 (ih fun x hx => hs x (by simp [hx]))

theorem fmtRange_token (name : Str) (a b : Nat) (h : Clean name) : Token (fmtRange name a b) := by
  rw [fmtRange_eq, List.append_assoc]
  apply token_append_plain h
  exact Token.group '[' ']' _ [] .square (inside_range a b) .nil

theorem fmtRange_inside (name : Str) (a b : Nat) (h : InLine ')' name) : InLine ')' (fmtRange name a b) := by
  rw [fmtRange_eq, List.append_assoc]
  apply inside_append h
  exact ⟨Inside.nest ')' '[' ']' _ [] (by decide) .square (inside_range a b) (.nil _), line_cons (by decide)
    (line_append (line_append (line_clean (fmtD_clean a)) (line_cons (by decide) (line_clean (fmtD_clean b)))) (by decide))⟩

theorem fmtRange_parse (name : Str) (a b : Nat) (h : Clean name) :
    parseFunc (fmtRange name a b) = .ok (name, some (fmtD a ++ ':' :: fmtD b)) := by
  have := parseFunc_call name (fmtD a ++ ':' :: fmtD b) [] '[' ']' h.notOpen .square (inside_range a b)
  rw [fmtRange_eq]
  simpa using this

theorem range_split (a b : Nat) : split1 ':' (fmtD a ++ ':' :: fmtD b) = (fmtD a, some (fmtD b)) := by
  apply split1_some
  intro c hc
  exact (isHex_ne (isDec_isHex (fmtD_isDec a c hc))).2.1

/-- A field, whole or a range of its bits. -/
def bitText (f : Field) (whole : Bool) (a b : Nat) : Str := if whole then shownName f else fmtRange (shownName f) a b

theorem bitText_facts {f : Field} {n : Nat} (h : IdShape f n) (whole : Bool) (a b : Nat) :
    Token (bitText f whole a b) ∧ PlainStart (bitText f whole a b) ∧ bitText f whole a b ≠ [] ∧
    InLine ')' (bitText f whole a b) := by
  cases whole with
  | true => exact ⟨h.clean.1.token, h.clean.1.plainStart, h.clean.2, h.inside⟩
  | false =>
    refine ⟨fmtRange_token _ a b h.clean.1, plainStart_append h.clean.1.plainStart h.clean.2, ?_,
      fmtRange_inside _ a b h.inside⟩
    simp [bitText, fmtRange]

theorem bitText_token {f : Field} {n : Nat} (h : IdShape f n) (whole : Bool) (a b : Nat) (hd r : Str)
    (hh : Head hd) (hr : AtEnd r) :
    getToken (hd ++ (bitText f whole a b ++ r)) = (hd, bitText f whole a b, r) := by
  obtain ⟨h1, h2, h3, _⟩ := bitText_facts h whole a b
  exact getToken_head hh h1 hr h2 h3

theorem optInt_fmtD (a : Nat) : optInt (fmtD a) = .ok (some (a : Int)) := by
  unfold optInt
  have : (fmtD a).isEmpty = false := by
    cases h : fmtD a with
    | nil => exact absurd h (fmtD_ne_nil a)
    | cons c s => rfl
  rw [this, if_neg (by simp), pyInt_fmtD]
  rfl

theorem getBits_text {f : Field} {n : Nat} (h : IdField f n) (whole : Bool) (a b : Nat) (hd r : Str)
    (hh : Head hd) (hr : AtEnd r) (hw : whole = true → a = 0 ∧ b = f.bits) (hab : a ≤ b) :
    getBits (hd ++ (bitText f whole a b ++ r)) = .ok (f.id, (a : Int), ((b - a : Nat) : Int), r) := by
  unfold getBits
  rw [bitText_token h.toIdShape whole a b hd r hh hr]
  dsimp only
  have hsz : (if (uAt f.id 0 2 == 0xffff) = true then (uAt f.id 3 1 : Int) - 4 else (uAt f.id 3 1 : Int)) = n := by
    have h1 := h.isExp []
    have h2 := h.lenByte []
    rw [List.append_nil] at h1 h2
    rw [h1, h2]
    cases f.experimenter <;> simp
  have hnb : needBytes f.id 0 4 = .ok () := needBytes_ok _ _ _ (by rw [h.length]; omega)
  cases whole with
  | true =>
    obtain ⟨rfl, rfl⟩ := hw rfl
    simp only [bitText, if_true]
    rw [parseFunc_bare _ h.clean.1.notOpen]
    simp only [ok_bind]
    rw [h.encode]
    simp only [ok_bind]
    rw [hnb]
    simp only [ok_bind]
    rw [hsz, h.bits]
    simp only [Nat.sub_zero]
    congr 3
    push_cast
    ring_nf
  | false =>
    simp only [bitText, Bool.false_eq_true, if_false]
    rw [fmtRange_parse _ a b h.clean.1]
    simp only [ok_bind]
    rw [h.encode]
    simp only [ok_bind]
    rw [hnb]
    simp only [ok_bind]
    have hne : ∃ c s, fmtD a ++ ':' :: fmtD b = c :: s := by
      cases hf : fmtD a with
      | nil => exact absurd hf (fmtD_ne_nil a)
      | cons c s => exact ⟨c, _, rfl⟩
    obtain ⟨c, s, hcs⟩ := hne
    rw [hcs]
    dsimp only
    rw [← hcs, range_split]
    dsimp only
    rw [optInt_fmtD]
    simp only [ok_bind]
    rw [optInt_fmtD]
    simp only [ok_bind, Option.getD_some]
    congr 3
    push_cast [hab]
    ring_nf

/-! ## Actions on bit ranges -/

theorem range_shape {f : Field} {ofs nbits : Nat} (h : Range f ofs nbits) : ∃ n, IdShape f n := by
  obtain ⟨h1, h2, _⟩ := h
  cases hs : f.kind.size with
  | none => exact absurd hs h2
  | some n => exact ⟨n, h1, hs⟩

theorem range_idField {f : Field} {ofs nbits : Nat} (h : Range f ofs nbits) (hb : f.name ∉ badIds) :
    ∃ n, IdField f n := by
  obtain ⟨h1, h2, _⟩ := h
  cases hs : f.kind.size with
  | none => exact absurd hs h2
  | some n => exact ⟨n, ⟨h1, hs⟩, hb⟩

theorem uAt_u16 (m : Nat) (r : Bytes) (off size : Nat) (h : 2 ≤ off) :
    uAt (u16 m ++ r) off size = uAt r (off - 2) size := uAt_skip 2 m r off size h

theorem uAt_u32 (m : Nat) (r : Bytes) (off size : Nat) (h : 4 ≤ off) :
    uAt (u32 m ++ r) off size = uAt r (off - 4) size := uAt_skip 4 m r off size h

theorem uAt_u16_here (n : Nat) (r : Bytes) (h : n < 65536) : uAt (u16 n ++ r) 0 2 = n := uAt_here 2 n r h

theorem drop_app {a r : Bytes} {k : Nat} (h : a.length = k) : (a ++ r).drop k = r := by
  rw [← h, List.drop_left]

theorem drop_u16 (m : Nat) (r : Bytes) (k : Nat) (h : 2 ≤ k) : (u16 m ++ r).drop k = r.drop (k - 2) := by
  rw [List.drop_append, u16_length, List.drop_of_length_le (by rw [u16_length]; exact h)]; simp

theorem drop_id {f : Field} {n : Nat} (hf : IdShape f n) (r : Bytes) (k : Nat) (h : f.id.length ≤ k) :
    (f.id ++ r).drop k = r.drop (k - f.id.length) := by
  rw [List.drop_append, List.drop_of_length_le h]; simp

theorem fmtI_dec (n : Nat) : parseInt (fmtD n) = .ok ((n : Int), (fmtD n).length) := parseInt_fmtI_all .dec n
theorem fmtI_hex (n : Nat) : parseInt (fmtX 0 n) = .ok ((n : Int), (fmtX 0 n).length) :=
  parseInt_fmtI_all (.hex 0) n

theorem head_eq : Head ['='] := Or.inr ⟨[], [], rfl, by simp, by simp⟩

/-- How `reg_move` is printed. -/
theorem regMove_dec {src dst : Field} {ns nd : Nat} (is : IdShape src ns) (id : IdShape dst nd)
    (srcOfs dstOfs nbits : Nat) (hse : srcOfs + nbits ≤ src.bits) (hde : dstOfs + nbits ≤ dst.bits) (z : Bytes) :
    runActDec .regMove (u16 nbits ++ (u16 srcOfs ++ (u16 dstOfs ++ (src.id ++ dst.id))) ++ z) =
      .ok (t!"reg_move" ++ '(' :: (bitText dst (dstOfs == 0 && nbits == (ns + (if src.experimenter then 4 else 0)) * 8)
        dstOfs (dstOfs + nbits) ++ '=' :: bitText src
        (srcOfs == 0 && nbits == (ns + (if src.experimenter then 4 else 0)) * 8) srcOfs (srcOfs + nbits)) ++ [')']) := by
  have hsm := is.small
  have hdm := id.small
  have hsbits := is.bits
  have hdbits := id.bits
  have hsl := is.length
  have hdl := id.length
  generalize hbody : u16 nbits ++ (u16 srcOfs ++ (u16 dstOfs ++ (src.id ++ dst.id))) = body
  have hlen : body.length = 6 + (src.id.length + dst.id.length) := by
    rw [← hbody]; simp only [List.length_append, u16_length]; omega
  let ws : Bool := srcOfs == 0 && nbits == (ns + (if src.experimenter then 4 else 0)) * 8
  let wd : Bool := dstOfs == 0 && nbits == (ns + (if src.experimenter then 4 else 0)) * 8
  show _ = Except.ok (t!"reg_move" ++ '(' :: (bitText dst wd dstOfs (dstOfs + nbits) ++ '=' ::
    bitText src ws srcOfs (srcOfs + nbits)) ++ [')'])
  simp only [runActDec, regMoveAct2str]
  rw [needBytes_ok _ 0 6 (by rw [List.length_append]; omega),
    needBytes_ok _ 6 4 (by rw [List.length_append]; omega)]
  have hp : body ++ z = u16 nbits ++ (u16 srcOfs ++ (u16 dstOfs ++ (src.id ++ (dst.id ++ z)))) := by
    rw [← hbody]; simp only [List.append_assoc]
  rw [needBytes_ok _ _ 4 (by
    rw [List.length_append, hp, uAt_u16 _ _ _ _ (by omega), uAt_u16 _ _ _ _ (by omega),
      uAt_u16 _ _ _ _ (by omega), is.isExp]
    cases hx : src.experimenter <;> rw [hx] at hsl <;> simp at hsl ⊢ <;> omega)]
  rw [hp]
  have e0 : uAt (u16 nbits ++ (u16 srcOfs ++ (u16 dstOfs ++ (src.id ++ (dst.id ++ z))))) 0 2 = nbits :=
    uAt_u16_here _ _ (by omega)
  have e1 : uAt (u16 nbits ++ (u16 srcOfs ++ (u16 dstOfs ++ (src.id ++ (dst.id ++ z))))) 2 2 = srcOfs := by
    rw [uAt_u16 _ _ _ _ (by omega)]; exact uAt_u16_here _ _ (by omega)
  have e2 : uAt (u16 nbits ++ (u16 srcOfs ++ (u16 dstOfs ++ (src.id ++ (dst.id ++ z))))) 4 2 = dstOfs := by
    rw [uAt_u16 _ _ _ _ (by omega), uAt_u16 _ _ _ _ (by omega)]; exact uAt_u16_here _ _ (by omega)
  have e3 : uAt (u16 nbits ++ (u16 srcOfs ++ (u16 dstOfs ++ (src.id ++ (dst.id ++ z))))) 9 1 =
      ns + (if src.experimenter then 4 else 0) := by
    rw [uAt_u16 _ _ _ _ (by omega), uAt_u16 _ _ _ _ (by omega), uAt_u16 _ _ _ _ (by omega)]
    exact is.lenByte _
  have e4 : (uAt (u16 nbits ++ (u16 srcOfs ++ (u16 dstOfs ++ (src.id ++ (dst.id ++ z))))) 6 2 == 0xffff) =
      src.experimenter := by
    rw [uAt_u16 _ _ _ _ (by omega), uAt_u16 _ _ _ _ (by omega), uAt_u16 _ _ _ _ (by omega)]
    exact is.isExp _
  have e5 : (u16 nbits ++ (u16 srcOfs ++ (u16 dstOfs ++ (src.id ++ (dst.id ++ z))))).drop 6 =
      src.id ++ (dst.id ++ z) := by
    rw [drop_u16 _ _ _ (by omega), drop_u16 _ _ _ (by omega), drop_u16 _ _ _ (by omega)]; rfl
  have e6 : (u16 nbits ++ (u16 srcOfs ++ (u16 dstOfs ++ (src.id ++ (dst.id ++ z))))).drop
      (if src.experimenter = true then 14 else 10) = dst.id ++ z := by
    rw [drop_u16 _ _ _ (by split <;> omega), drop_u16 _ _ _ (by split <;> omega),
      drop_u16 _ _ _ (by split <;> omega)]
    apply drop_app
    rw [hsl]; split <;> rfl
  rw [e0, e1, e2, e3, e4, e5, e6, is.decode, id.decode]
  simp only [ok_bind]
  have hs' : (if (srcOfs == 0 && nbits == (ns + if src.experimenter = true then 4 else 0) * 8) = true then
      shownName src else fmtRange (shownName src) srcOfs (srcOfs + nbits)) = bitText src ws srcOfs (srcOfs + nbits) := rfl
  rw [hs']
  cases hx : wd with
  | true =>
    rw [if_pos hx]; simp [bitText]
  | false =>
    rw [if_neg (fun h => Bool.noConfusion (hx.symm.trans h))]; simp [bitText]

theorem trip_regMove (src dst : Field) (srcOfs dstOfs nbits : Nat) (hs : Range src srcOfs nbits)
    (hd : Range dst dstOfs nbits) (hsb : src.name ∉ badIds) (hdb : dst.name ∉ badIds)
    (hw : src.experimenter = false → dstOfs = 0 → nbits = src.bits → nbits = dst.bits) :
    ∃ text, ActTrip (nxWire 6 (u16 nbits ++ (u16 srcOfs ++ (u16 dstOfs ++ (src.id ++ dst.id))))) text := by
  obtain ⟨ns, is⟩ := range_idField hs hsb
  obtain ⟨nd, id⟩ := range_idField hd hdb
  obtain ⟨_, _, hpos, hse⟩ := hs
  obtain ⟨_, _, _, hde⟩ := hd
  have hsm := is.small
  have hdm := id.small
  have hsbits := is.bits
  have hdbits := id.bits
  have hsl := is.length
  have hdl := id.length
  generalize hbody : u16 nbits ++ (u16 srcOfs ++ (u16 dstOfs ++ (src.id ++ dst.id))) = body
  have hlen : body.length = 6 + (src.id.length + dst.id.length) := by
    rw [← hbody]; simp only [List.length_append, u16_length]; omega
  have hfit := nxWire_fits 6 body (by split at hsl <;> split at hdl <;> omega)
  let ws : Bool := srcOfs == 0 && nbits == (ns + (if src.experimenter then 4 else 0)) * 8
  let wd : Bool := dstOfs == 0 && nbits == (ns + (if src.experimenter then 4 else 0)) * 8
  have hws : ws = true → srcOfs = 0 ∧ srcOfs + nbits = src.bits := by
    intro h
    simp only [ws, Bool.and_eq_true, beq_iff_eq] at h
    obtain ⟨h1, h2⟩ := h
    refine ⟨h1, ?_⟩
    split at h2 <;> omega
  have hwd : wd = true → dstOfs = 0 ∧ dstOfs + nbits = dst.bits := by
    intro h
    simp only [wd, Bool.and_eq_true, beq_iff_eq] at h
    obtain ⟨h1, h2⟩ := h
    refine ⟨h1, ?_⟩
    cases he : src.experimenter with
    | true => rw [he] at h2; simp only [if_true] at h2; omega
    | false =>
      rw [he] at h2
      simp only [Bool.false_eq_true, if_false] at h2
      have := hw he h1 (by omega)
      omega
  have ts := bitText_facts is.toIdShape ws srcOfs (srcOfs + nbits)
  have td := bitText_facts id.toIdShape wd dstOfs (dstOfs + nbits)
  refine ⟨_, nx_call 6 body t!"reg_move"
    (bitText dst wd dstOfs (dstOfs + nbits) ++ '=' :: bitText src ws srcOfs (srcOfs + nbits))
    .regMove .regMove (by decide) (by decide) hfit (by decide) (by decide) (by decide) (by decide)
    (by decide) (inside_append td.2.2.2 (inside_cons (by decide) (by decide) ts.2.2.2)) (by simp) ?_
    ⟨(bitText dst wd dstOfs (dstOfs + nbits) ++ '=' :: bitText src ws srcOfs (srcOfs + nbits)).length, ?_⟩⟩
  · rw [← hbody]; exact regMove_dec is.toIdShape id.toIdShape srcOfs dstOfs nbits hse hde _
  · simp only [runActEnc, regMoveStr2act]
    rw [if_neg (by simp)]
    have g1 := getBits_text id wd dstOfs (dstOfs + nbits) []
      ('=' :: bitText src ws srcOfs (srcOfs + nbits)) head_nil (atEnd_eq _) hwd (by omega)
    have g2 := getBits_text is ws srcOfs (srcOfs + nbits) ['='] [] head_eq atEnd_nil hws (by omega)
    rw [List.append_nil] at g2
    rw [List.nil_append] at g1
    rw [List.singleton_append] at g2
    rw [g1]
    simp only [ok_bind]
    rw [g2]
    simp only [ok_bind, Nat.add_sub_cancel_left, beq_self_eq_true, pyAssert_ok]
    rw [packAll_nat 2 nbits (by omega) _ _ (packAll_nat 2 srcOfs (by omega) _ _
      (packAll_nat 2 dstOfs (by omega) [] [] rfl)), ok_bind]
    refine nxWrap_fit hfit ?_
    rw [← hbody]
    simp only [List.append_assoc, List.append_nil]
    rfl

/-- The name of a number in a list. -/
structure Named (l : List Str) (i : Nat) (s : Str) : Prop where
  get : tupleGet l i = .ok s
  index : tupleIndex l s = .ok (i : Int)
  clean : Clean s
  np : NP s
  ne : s ≠ []

theorem named_hash (i : Nat) (h : i < 2) : ∃ s, Named nxHashNames i s := by
  have : i = 0 ∨ i = 1 := by omega
  rcases this with rfl | rfl
  · exact ⟨t!"eth_src", by decide, by decide, by decide, by decide, by decide⟩
  · exact ⟨t!"symmetric_l4", by decide, by decide, by decide, by decide, by decide⟩

theorem named_mpAlg (i : Nat) (h : i < 4) : ∃ s, Named nxMpAlgNames i s := by
  have : i = 0 ∨ i = 1 ∨ i = 2 ∨ i = 3 := by omega
  rcases this with rfl | rfl | rfl | rfl
  · exact ⟨t!"modulo_n", by decide, by decide, by decide, by decide, by decide⟩
  · exact ⟨t!"hash_threshold", by decide, by decide, by decide, by decide, by decide⟩
  · exact ⟨t!"hrw", by decide, by decide, by decide, by decide, by decide⟩
  · exact ⟨t!"iter_hash", by decide, by decide, by decide, by decide, by decide⟩

theorem named_bdAlg (i : Nat) (h : i < 2) : ∃ s, Named nxBdAlgNames i s := by
  have : i = 0 ∨ i = 1 := by omega
  rcases this with rfl | rfl
  · exact ⟨t!"active_backup", by decide, by decide, by decide, by decide, by decide⟩
  · exact ⟨t!"hrw", by decide, by decide, by decide, by decide, by decide⟩

theorem ofsNbits_facts (ofs nbits : Nat) (h0 : 0 < nbits) (h1 : nbits ≤ 64) :
    ofsNbits ofs nbits / 64 = ofs ∧ ofsNbits ofs nbits % 64 + 1 = nbits := by
  unfold ofsNbits; omega

theorem range_fits {f : Field} {n ofs nbits : Nat} (h : IdShape f n) (h0 : 0 < nbits)
    (he : ofs + nbits ≤ f.bits) (h1 : nbits ≤ 64) : ofsNbits ofs nbits < 65536 := by
  have h2 := h.small
  rw [h.bits] at he
  unfold ofsNbits
  omega

theorem fmtRange_bitText (f : Field) (a b : Nat) : fmtRange (shownName f) a b = bitText f false a b := rfl

/-- How `multipath` is printed. -/
theorem multipath_dec {dst : Field} {nd : Nat} (id : IdShape dst nd) (hash basis alg maxLink arg ofs nbits : Nat)
    (hs as : Str) (hh : hash < 2) (hb : basis < 256 ^ 2) (ha : alg < 4) (hm : maxLink < 256 ^ 2) (hg : arg < 256 ^ 4)
    (hpos : 0 < nbits) (hde : ofs + nbits ≤ dst.bits) (h64 : nbits ≤ 64) (Hh : Named nxHashNames hash hs)
    (Ha : Named nxMpAlgNames alg as) (z : Bytes) :
    runActDec .multipath (u16 hash ++ (u16 basis ++ (pad 2 ++ (u16 alg ++ (u16 maxLink ++ (u32 arg ++
      (pad 2 ++ (u16 (ofsNbits ofs nbits) ++ dst.id))))))) ++ z) =
      .ok (t!"multipath" ++ '(' :: (hs ++ ',' :: (fmtD basis ++ ',' :: (as ++ ',' ::
    (fmtD maxLink ++ ',' :: (fmtX 0 arg ++ ',' :: bitText dst false ofs (ofs + nbits)))))) ++ [')']) := by
  have hon := range_fits id hpos hde h64
  obtain ⟨hof, hnb⟩ := ofsNbits_facts ofs nbits hpos h64
  have hdl := id.length
  generalize hbody : u16 hash ++ (u16 basis ++ (pad 2 ++ (u16 alg ++ (u16 maxLink ++ (u32 arg ++
      (pad 2 ++ (u16 (ofsNbits ofs nbits) ++ dst.id))))))) = body
  have hlen : body.length = 18 + dst.id.length := by
    rw [← hbody]; simp only [List.length_append, u16_length, u32_length, pad_length]; omega
  simp only [runActDec, multipathAct2str]
  rw [needBytes_ok _ 0 18 (by rw [List.length_append]; omega)]
  have hp : body ++ z = u16 hash ++ (u16 basis ++ (pad 2 ++ (u16 alg ++ (u16 maxLink ++ (u32 arg ++
    (pad 2 ++ (u16 (ofsNbits ofs nbits) ++ (dst.id ++ z)))))))) := by
    rw [← hbody]; simp only [List.append_assoc]
  have e0 : uAt (body ++ z) 0 2 = hash := by rw [hp]; exact uAt_u16_here _ _ (by omega)
  have e1 : uAt (body ++ z) 2 2 = basis := by
    rw [hp, uAt_u16 _ _ _ _ (by omega)]; exact uAt_u16_here _ _ (by omega)
  have e2 : uAt (body ++ z) 6 2 = alg := by
    rw [hp, uAt_u16 _ _ _ _ (by omega), uAt_u16 _ _ _ _ (by omega), uAt_skip_pad _ _ _ _ (by omega)]
    exact uAt_u16_here _ _ (by omega)
  have e3 : uAt (body ++ z) 8 2 = maxLink := by
    rw [hp, uAt_u16 _ _ _ _ (by omega), uAt_u16 _ _ _ _ (by omega), uAt_skip_pad _ _ _ _ (by omega),
      uAt_u16 _ _ _ _ (by omega)]
    exact uAt_u16_here _ _ (by omega)
  have e4 : uAt (body ++ z) 10 4 = arg := by
    rw [hp, uAt_u16 _ _ _ _ (by omega), uAt_u16 _ _ _ _ (by omega), uAt_skip_pad _ _ _ _ (by omega),
      uAt_u16 _ _ _ _ (by omega), uAt_u16 _ _ _ _ (by omega)]
    exact uAt_here 4 _ _ hg
  have e5 : uAt (body ++ z) 16 2 = ofsNbits ofs nbits := by
    rw [hp, uAt_u16 _ _ _ _ (by omega), uAt_u16 _ _ _ _ (by omega), uAt_skip_pad _ _ _ _ (by omega),
      uAt_u16 _ _ _ _ (by omega), uAt_u16 _ _ _ _ (by omega), uAt_u32 _ _ _ _ (by omega),
      uAt_skip_pad _ _ _ _ (by omega)]
    exact uAt_u16_here _ _ hon
  have e6 : (body ++ z).drop 18 = dst.id ++ z := by
    have : body ++ z = (u16 hash ++ (u16 basis ++ (pad 2 ++ (u16 alg ++ (u16 maxLink ++ (u32 arg ++
      (pad 2 ++ u16 (ofsNbits ofs nbits)))))))) ++ (dst.id ++ z) := by
      rw [hp]; simp only [List.append_assoc]
    rw [this]
    exact drop_app (by simp [u16_length, u32_length, pad_length])
  rw [e0, e1, e2, e3, e4, e5, e6, hof, hnb, id.decode, Hh.get, Ha.get]
  simp only [ok_bind, fmtRange_bitText, List.append_assoc, List.cons_append, List.nil_append]

theorem trip_multipath (hash basis alg maxLink arg : Nat) (dst : Field) (ofs nbits : Nat) (hh : hash < 2)
    (hb : basis < 256 ^ 2) (ha : alg < 4) (hm : maxLink < 256 ^ 2) (hg : arg < 256 ^ 4)
    (hd : Range dst ofs nbits) (h64 : nbits ≤ 64) (hdb : dst.name ∉ badIds) :
    ∃ text, ActTrip (nxWire 10 (u16 hash ++ (u16 basis ++ (pad 2 ++ (u16 alg ++ (u16 maxLink ++ (u32 arg ++
      (pad 2 ++ (u16 (ofsNbits ofs nbits) ++ dst.id))))))))) text := by
  obtain ⟨nd, id⟩ := range_idField hd hdb
  obtain ⟨_, _, hpos, hde⟩ := hd
  have hon := range_fits id.toIdShape hpos hde h64
  obtain ⟨hof, hnb⟩ := ofsNbits_facts ofs nbits hpos h64
  obtain ⟨hs, Hh⟩ := named_hash hash hh
  obtain ⟨as, Ha⟩ := named_mpAlg alg ha
  have hdl := id.length
  generalize hbody : u16 hash ++ (u16 basis ++ (pad 2 ++ (u16 alg ++ (u16 maxLink ++ (u32 arg ++
      (pad 2 ++ (u16 (ofsNbits ofs nbits) ++ dst.id))))))) = body
  have hlen : body.length = 18 + dst.id.length := by
    rw [← hbody]; simp only [List.length_append, u16_length, u32_length, pad_length]; omega
  have hfit := nxWire_fits 10 body (by split at hdl <;> omega)
  have td := bitText_facts id.toIdShape false ofs (ofs + nbits)
  refine ⟨_, nx_call 10 body t!"multipath" (hs ++ ',' :: (fmtD basis ++ ',' :: (as ++ ',' ::
    (fmtD maxLink ++ ',' :: (fmtX 0 arg ++ ',' :: bitText dst false ofs (ofs + nbits))))))
    .multipath .multipath (by decide) (by decide) hfit (by decide) (by decide) (by decide) (by decide)
    (by decide) (inside_comma (inside_clean Hh.clean Hh.np) <|
      inside_comma (inside_clean (fmtD_clean _) (np_fmtD _)) <|
      inside_comma (inside_clean Ha.clean Ha.np) <|
      inside_comma (inside_clean (fmtD_clean _) (np_fmtD _)) <|
      inside_comma (inside_clean (fmtX_clean 0 _) (np_fmtX 0 _)) td.2.2.2) (by simp) ?_
    ⟨(hs ++ ',' :: (fmtD basis ++ ',' :: (as ++ ',' ::
    (fmtD maxLink ++ ',' :: (fmtX 0 arg ++ ',' :: bitText dst false ofs (ofs + nbits)))))).length, ?_⟩⟩
  · rw [← hbody]
    exact multipath_dec id.toIdShape hash basis alg maxLink arg ofs nbits hs as hh hb ha hm hg hpos hde h64 Hh Ha _
  · simp only [runActEnc, multipathStr2act]
    rw [if_neg (by simp), getToken_clean Hh.clean Hh.ne (atEnd_comma _)]
    dsimp only
    rw [Hh.index, ok_bind, getToken_comma_clean (fmtD_clean basis) (fmtD_ne_nil _) (atEnd_comma _)]
    dsimp only
    rw [fmtI_dec, ok_bind]
    simp only [beq_self_eq_true, pyAssert_ok]
    rw [ok_bind, getToken_comma_clean Ha.clean Ha.ne (atEnd_comma _)]
    dsimp only
    rw [Ha.index, ok_bind, getToken_comma_clean (fmtD_clean maxLink) (fmtD_ne_nil _) (atEnd_comma _)]
    dsimp only
    rw [fmtI_dec, ok_bind]
    simp only [beq_self_eq_true]
    rw [pyAssert_ok, ok_bind, getToken_comma_clean (fmtX_clean 0 arg) (fmtX_ne_nil 0 _) (atEnd_comma _)]
    dsimp only
    rw [fmtI_hex, ok_bind]
    have g0 := bitText_token id.toIdShape false ofs (ofs + nbits) [','] [] head_comma atEnd_nil
    rw [List.append_nil, List.singleton_append] at g0
    rw [g0]
    dsimp only
    have g1 := getBits_text id false ofs (ofs + nbits) [] [] head_nil atEnd_nil (by simp) (by omega)
    rw [List.append_nil, List.nil_append] at g1
    rw [g1]
    simp only [ok_bind, Nat.add_sub_cancel_left, List.isEmpty_nil]
    rw [pyAssert_ok, ok_bind]
    rw [packAll_nat 2 hash (by omega) _ _ (packAll_nat 2 basis hb [] [] rfl), ok_bind,
      packAll_nat 2 alg (by omega) _ _ (packAll_nat 2 maxLink hm _ _ (packAll_nat 4 arg hg [] [] rfl)), ok_bind]
    have hi : ((ofs : Int) * 64 + ((nbits : Int) - 1)) = ((ofsNbits ofs nbits : Nat) : Int) := by
      unfold ofsNbits; push_cast [hpos]; omega
    rw [hi, packU_nat 2 _ (by omega), ok_bind]
    refine nxWrap_fit hfit ?_
    rw [← hbody]
    simp only [List.append_assoc, List.append_nil]
    rfl

theorem intPair_range (a b : Nat) : intPair (fmtD a ++ ':' :: fmtD b) = .ok ((a : Int), (b : Int)) := by
  unfold intPair
  rw [range_split]
  dsimp only
  rw [pyInt_fmtD, ok_bind]
  rw [pyInt_fmtD, ok_bind]

theorem range_cons (a b : Nat) : ∃ c s, fmtD a ++ ':' :: fmtD b = c :: s := by
  cases hf : fmtD a with
  | nil => exact absurd hf (fmtD_ne_nil a)
  | cons c s => exact ⟨c, _, rfl⟩

theorem rangeText_bitText (f : Field) (size a nbits : Nat) :
    rangeText (shownName f) size a nbits = bitText f (a == 0 && nbits == size * 8) a (a + nbits) := by
  unfold rangeText bitText; rfl

/-- What `output_reg` and `output_reg2` do with their argument. -/
theorem outputReg_enc {f : Field} {n : Nat} (h : IdField f n) (reg2 : Bool) (ofs nbits : Nat) (ho : ofs % 64 = 0) (h0 : 0 < nbits)
    (h1 : nbits < 64) (he : ofs + nbits ≤ f.bits) (hx : reg2 = false → f.experimenter = false)
    (t : Nat) (ht : t = if reg2 then 32 else 15) (body : Bytes)
    (hb : body = if reg2 then u16 (ofsNbits ofs nbits) ++ (u16 0xffff ++ f.id)
      else u16 (ofsNbits ofs nbits) ++ (f.id ++ (u16 0xffff ++ pad 6)))
    (hfit : (nxWire t body).length < 65536) (w : Bool)
    (hw : w = (ofs == 0 && nbits == (n + (if f.experimenter then 4 else 0)) * 8)) :
    outputRegStr2act reg2 (bitText f w ofs (ofs + nbits)) false =
      .ok (nxWire t body, (bitText f w ofs (ofs + nbits)).length) := by
  rw [outputReg_early]
  unfold outputRegEarly
  have g0 := bitText_token h.toIdShape w ofs (ofs + nbits) [] [] head_nil atEnd_nil
  rw [List.append_nil, List.nil_append] at g0
  have hnil : getToken [] = ([], [], []) := by decide
  have hbits := h.bits
  have hlen := h.length
  have hlb := h.lenByte []
  rw [List.append_nil] at hlb
  rw [g0]
  dsimp only
  rw [hnil]
  simp only [List.isEmpty_nil, if_true]
  have hbnd : ofs < 1024 := by have := h.small; omega
  have hr : ∀ (x : Bytes), x = nxastHdr t ++ body →
      nxWrap (.ok (x, (bitText f w ofs (ofs + nbits)).length - ([] : Str).length)) =
      .ok (nxWire t body, (bitText f w ofs (ofs + nbits)).length) := fun x hx' => nxWrap_fit hfit hx'
  have fin : nxWrap ((if (reg2 || decide (f.id.length > 4)) = true then do
        let b ← packAll [(2, (ofs : Int) * 64 + (((ofs + nbits : Nat) : Int) % 64 - 1)), (2, 0xffff)]
        .ok (nxastHdr NXAST_OUTPUT_REG2 ++ (b ++ f.id), (bitText f w ofs (ofs + nbits)).length - ([] : Str).length)
      else do
        let a ← packU 2 ((ofs : Int) * 64 + (((ofs + nbits : Nat) : Int) % 64 - 1))
        let b ← packU 2 0xffff
        .ok (nxastHdr NXAST_OUTPUT_REG ++ (a ++ (f.id ++ (b ++ zeros 6))),
          (bitText f w ofs (ofs + nbits)).length - ([] : Str).length))) =
      .ok (nxWire t body, (bitText f w ofs (ofs + nbits)).length) := by
    have hi : ((ofs : Int) * 64 + (((ofs + nbits : Nat) : Int) % 64 - 1)) = ((ofsNbits ofs nbits : Nat) : Int) := by unfold ofsNbits; omega
    have hlt : ofsNbits ofs nbits < 256 ^ 2 := by unfold ofsNbits; omega
    have hff : (0xffff : Int) = ((0xffff : Nat) : Int) := rfl
    rw [hi, hff]
    cases reg2 with
    | true =>
      rw [if_pos (by simp), packAll_nat 2 _ hlt _ _ (packAll_nat 2 0xffff (by decide) [] [] rfl), ok_bind]
      refine hr _ ?_
      rw [hb, ht]
      simp only [if_true, List.append_assoc, List.append_nil]
      rfl
    | false =>
      rw [if_neg (by rw [hx rfl] at hlen; simp at hlen ⊢; omega), packU_nat 2 _ hlt, ok_bind,
        packU_nat 2 _ (by decide), ok_bind]
      refine hr _ ?_
      rw [hb, ht]
      simp only [Bool.false_eq_true, if_false]
      rfl
  cases w with
  | true =>
    simp only [bitText, if_true] at fin ⊢
    rw [parseFunc_bare _ h.clean.1.notOpen, ok_bind]
    dsimp only
    rw [h.encode, ok_bind, needBytes_ok _ 0 4 (by omega), ok_bind]
    rw [ok_bind]
    dsimp only
    rw [ok_bind, hlb]
    have h2 := hw.symm
    simp only [Bool.and_eq_true, beq_iff_eq] at h2
    obtain ⟨rfl, h2⟩ := h2
    have hn : ((n + (if f.experimenter = true then 4 else 0) : Nat) : Int) * 8 = ((0 + nbits : Nat) : Int) := by
      omega
    rw [hn]
    exact fin
  | false =>
    simp only [bitText, Bool.false_eq_true, if_false] at fin ⊢
    rw [fmtRange_parse _ ofs (ofs + nbits) h.clean.1, ok_bind]
    dsimp only
    rw [h.encode, ok_bind]
    obtain ⟨c, s, hcs⟩ := range_cons ofs (ofs + nbits)
    rw [hcs]
    dsimp only
    rw [← hcs, intPair_range, ok_bind]
    dsimp only
    rw [ok_bind]
    exact fin

/-- How `output_reg` is printed. -/
theorem outputReg_dec {src : Field} {n : Nat} (is : IdShape src n) (ofs nbits maxLen : Nat)
    (hx : src.experimenter = false) (hpos : 0 < nbits) (he : ofs + nbits ≤ src.bits) (h64 : nbits ≤ 64) (z : Bytes) :
    runActDec .outputReg (u16 (ofsNbits ofs nbits) ++ (src.id ++ (u16 maxLen ++ pad 6)) ++ z) =
      .ok (t!"output_reg" ++ '(' :: bitText src (ofs == 0 && nbits == (n + (if src.experimenter then 4 else 0)) * 8)
        ofs (ofs + nbits) ++ [')']) := by
  have hl := is.length
  rw [hx] at hl
  have hon := range_fits is hpos he h64
  obtain ⟨hof, hnb⟩ := ofsNbits_facts ofs nbits hpos h64
  generalize hbody : u16 (ofsNbits ofs nbits) ++ (src.id ++ (u16 maxLen ++ pad 6)) = body
  have hlen : body.length = 14 := by
    rw [← hbody]; simp only [List.length_append, u16_length, pad_length, hl]; rfl
  simp only [runActDec, outputRegAct2str]
  have hp : body ++ z = u16 (ofsNbits ofs nbits) ++ (src.id ++ (u16 maxLen ++ (pad 6 ++ z))) := by
    rw [← hbody]; simp only [List.append_assoc]
  rw [needBytes_ok _ 0 14 (by rw [List.length_append]; omega)]
  have e0 : uAt (body ++ z) 0 2 = ofsNbits ofs nbits := by rw [hp]; exact uAt_u16_here _ _ hon
  have e1 : uAt (body ++ z) 5 1 = n + (if src.experimenter then 4 else 0) := by
    rw [hp, uAt_u16 _ _ _ _ (by omega)]; exact is.lenByte _
  have e2 : slice (body ++ z) 2 6 = src.id := by
    rw [hp]; exact slice_append_left _ _ _ _ _ (by rw [u16_length]) (by rw [u16_length, hl]; rfl)
  have e3 := is.decode []
  rw [List.append_nil] at e3
  rw [e0, e1, e2, e3, ok_bind, ok_bind, rangeText_bitText, hof, hnb]
  simp

/-- How `output_reg2` is printed. -/
theorem outputReg2_dec {src : Field} {n : Nat} (is : IdShape src n) (ofs nbits maxLen : Nat)
    (hpos : 0 < nbits) (he : ofs + nbits ≤ src.bits) (h64 : nbits ≤ 64) (z : Bytes) :
    runActDec .outputReg2 (u16 (ofsNbits ofs nbits) ++ (u16 maxLen ++ src.id) ++ z) =
      .ok (t!"output_reg2" ++ '(' :: bitText src (ofs == 0 && nbits == (n + (if src.experimenter then 4 else 0)) * 8)
        ofs (ofs + nbits) ++ [')']) := by
  have hl := is.length
  have hon := range_fits is hpos he h64
  obtain ⟨hof, hnb⟩ := ofsNbits_facts ofs nbits hpos h64
  generalize hbody : u16 (ofsNbits ofs nbits) ++ (u16 maxLen ++ src.id) = body
  have hlen : body.length = 4 + src.id.length := by
    rw [← hbody]; simp only [List.length_append, u16_length]; omega
  simp only [runActDec, outputReg2Act2str]
  have hp : body ++ z = u16 (ofsNbits ofs nbits) ++ (u16 maxLen ++ (src.id ++ z)) := by
    rw [← hbody]; simp only [List.append_assoc]
  rw [needBytes_ok _ 0 8 (by rw [List.length_append]; omega)]
  have e0 : uAt (body ++ z) 0 2 = ofsNbits ofs nbits := by rw [hp]; exact uAt_u16_here _ _ hon
  have e1 : uAt (body ++ z) 7 1 = n + (if src.experimenter then 4 else 0) := by
    rw [hp, uAt_u16 _ _ _ _ (by omega), uAt_u16 _ _ _ _ (by omega)]; exact is.lenByte _
  have e2 : (body ++ z).drop 4 = src.id ++ z := by
    rw [hp, drop_u16 _ _ _ (by omega), drop_u16 _ _ _ (by omega)]; rfl
  rw [e0, e1, e2, is.decode, ok_bind, ok_bind, rangeText_bitText, hof, hnb]
  simp

theorem trip_outputReg (src : Field) (ofs nbits : Nat) (hs : Range src ofs nbits) (ho : ofs % 64 = 0) (h64 : nbits < 64)
    (hx : src.experimenter = false) (hb : src.name ∉ badIds) :
    ∃ text, ActTrip (nxWire 15 (u16 (ofsNbits ofs nbits) ++ (src.id ++ (u16 0xffff ++ pad 6)))) text := by
  obtain ⟨n, is⟩ := range_idField hs hb
  obtain ⟨_, _, hpos, he⟩ := hs
  have hl := is.length
  rw [hx] at hl
  generalize hbody : u16 (ofsNbits ofs nbits) ++ (src.id ++ (u16 0xffff ++ pad 6)) = body
  have hlen : body.length = 14 := by
    rw [← hbody]; simp only [List.length_append, u16_length, pad_length, hl]; rfl
  have hfit := nxWire_fits 15 body (by omega)
  generalize hw : (ofs == 0 && nbits == (n + (if src.experimenter then 4 else 0)) * 8) = w
  have tf := bitText_facts is.toIdShape w ofs (ofs + nbits)
  refine ⟨_, nx_call 15 body t!"output_reg" (bitText src w ofs (ofs + nbits)) .outputReg .outputReg (by decide)
    (by decide) hfit (by decide) (by decide) (by decide) (by decide) (by decide) tf.2.2.2 tf.2.2.1 ?_
    ⟨_, outputReg_enc is false ofs nbits ho hpos h64 he (fun _ => hx) 15 rfl body hbody.symm hfit w hw.symm⟩⟩
  have := outputReg_dec is.toIdShape ofs nbits 0xffff hx hpos he (by omega) (fill (10 + body.length))
  rw [hbody] at this
  rw [this, hw]

theorem trip_outputReg2 (src : Field) (ofs nbits : Nat) (hs : Range src ofs nbits) (ho : ofs % 64 = 0) (h64 : nbits < 64)
    (hb : src.name ∉ badIds) :
    ∃ text, ActTrip (nxWire 32 (u16 (ofsNbits ofs nbits) ++ (u16 0xffff ++ src.id))) text := by
  obtain ⟨n, is⟩ := range_idField hs hb
  obtain ⟨_, _, hpos, he⟩ := hs
  have hl := is.length
  generalize hbody : u16 (ofsNbits ofs nbits) ++ (u16 0xffff ++ src.id) = body
  have hlen : body.length = 4 + src.id.length := by
    rw [← hbody]; simp only [List.length_append, u16_length]; omega
  have hfit := nxWire_fits 32 body (by split at hl <;> omega)
  generalize hw : (ofs == 0 && nbits == (n + (if src.experimenter then 4 else 0)) * 8) = w
  have tf := bitText_facts is.toIdShape w ofs (ofs + nbits)
  refine ⟨_, nx_call 32 body t!"output_reg2" (bitText src w ofs (ofs + nbits)) .outputReg2 .outputReg2 (by decide)
    (by decide) hfit (by decide) (by decide) (by decide) (by decide) (by decide) tf.2.2.2 tf.2.2.1 ?_
    ⟨_, outputReg_enc is true ofs nbits ho hpos h64 he (by simp) 32 rfl body hbody.symm hfit w hw.symm⟩⟩
  have := outputReg2_dec is.toIdShape ofs nbits 0xffff hpos he (by omega) (fill (10 + body.length))
  rw [hbody] at this
  rw [this, hw]

/-! ## Bundles -/

theorem bundlePortText_num (p : Nat) (h : p ∉ reservedLow) : bundlePortText p = fmtD p := by
  unfold bundlePortText
  have : ofpp.find? (fun e => e.1 % 65536 == p) = none := by
    rw [List.find?_eq_none]
    intro e he hp
    apply h
    unfold reservedLow
    exact List.mem_map.2 ⟨e, he, by simpa using hp⟩
  rw [this]

theorem bundlePort_num (p : Nat) : bundlePort (fmtD p) = .ok (p : Int) := by
  unfold bundlePort
  have : ofpp.find? (fun e => e.2 == fmtD p) = none := by
    rw [List.find?_eq_none]
    intro e he hp
    have hp : e.2 = fmtD p := by simpa using hp
    have key : ∀ e ∈ ofpp, ∃ c ∈ e.2, isDec c = false := by decide
    obtain ⟨c, hc, hd⟩ := key e he
    rw [hp] at hc
    rw [fmtD_isDec p c hc] at hd
    cases hd
  rw [this]
  dsimp only
  rw [fmtI_dec, ok_bind]

theorem bundlePorts_num (ps : List Nat) :
    bundlePorts (ps.map fmtD) = .ok (ps.map fun p : Nat => (p : Int)) := by
  induction ps with
  | nil => rfl
  | cons p ps ih => rw [List.map_cons, bundlePorts, bundlePort_num, ok_bind, ih, ok_bind]; rfl

def slavesText (ps : List Nat) : Str := t!"slaves" ++ '(' :: joinStr t!"," (ps.map fmtD) ++ [')']

theorem fmtDs_inside (ps : List Nat) : InLine ')' (joinStr t!"," (ps.map fmtD)) := by
  apply inside_join
  intro s hs
  obtain ⟨i, _, rfl⟩ := List.mem_map.1 hs
  exact inside_clean (fmtD_clean i) (np_fmtD i)

theorem slavesText_facts (ps : List Nat) : Token (slavesText ps) ∧ PlainStart (slavesText ps) ∧
    slavesText ps ≠ [] ∧ InLine ')' (slavesText ps) := by
  refine ⟨call_token t!"slaves" _ (by decide) (fmtDs_inside ps).ins, plainStart_cons (by decide) _,
    by simp [slavesText], ?_⟩
  unfold slavesText
  rw [List.append_assoc]
  apply inside_append (inside_clean (by decide) (by decide))
  exact ⟨Inside.nest ')' '(' ')' _ [] (by decide) .round (fmtDs_inside ps).ins (.nil _), line_cons (by decide)
    (line_append (fmtDs_inside ps).line (by decide))⟩

theorem bundleSlaves_tokens (ts : List Str) (ht : ∀ t ∈ ts, Clean t ∧ t ≠ [] ∧ NP t) :
    bundleSlaves (t!"slaves" ++ '(' :: joinStr t!"," ts ++ [')']) = bundlePorts ts := by
  have hin : InLine ')' (joinStr t!"," ts) := inside_join fun t h => inside_clean (ht t h).1 (ht t h).2.2
  unfold bundleSlaves
  have := parseFunc_call t!"slaves" (joinStr t!"," ts) [] '(' ')' (by decide) .round hin.ins
  rw [List.append_assoc] at this ⊢
  rw [show (t!"slaves" ++ ('(' :: joinStr t!"," ts ++ [')'])) =
    t!"slaves" ++ '(' :: (joinStr t!"," ts ++ ')' :: []) from rfl] at *
  rw [List.cons_append] at *
  simp only [if_true] at this
  rw [this, ok_bind]
  dsimp only
  rw [show ((t!"slaves" : Str) == t!"slaves") = true by decide, pyAssert_ok, ok_bind]
  cases ts with
  | nil => rfl
  | cons p ps =>
    have hne : ∃ c s, joinStr t!"," (p :: ps) = c :: s := by
      cases hj : joinStr t!"," (p :: ps) with
      | cons c s => exact ⟨c, s, rfl⟩
      | nil =>
        cases ps with
        | nil => exact absurd hj (ht p (by simp)).2.1
        | cons q ps => simp [joinStr] at hj
    obtain ⟨c, s, hcs⟩ := hne
    rw [hcs]
    dsimp only
    rw [← hcs, splitTokens_join _ fun t h => ⟨(ht t h).1, (ht t h).2.1⟩]

theorem bundleSlaves_text (ps : List Nat) :
    bundleSlaves (slavesText ps) = .ok (ps.map fun p : Nat => (p : Int)) := by
  unfold slavesText
  rw [bundleSlaves_tokens, bundlePorts_num]
  intro t ht
  obtain ⟨i, _, rfl⟩ := List.mem_map.1 ht
  exact ⟨fmtD_clean i, fmtD_ne_nil i, np_fmtD i⟩

theorem map_portText (ps : List Nat) (h : ∀ p ∈ ps, p ∉ reservedLow) :
    ps.map bundlePortText = ps.map fmtD := by
  apply List.map_congr_left
  intro p hp
  exact bundlePortText_num p (h p hp)

/-- How `bundle` is printed. -/
theorem bundle_dec {st : Field} {n : Nat} (is : IdShape st n)
    (hash basis alg : Nat) (hs as : Str) (slaves : List Nat) (hh : hash < 2)
    (hb : basis < 256 ^ 2) (ha : alg < 2) (hx : st.experimenter = false)
    (hp : ∀ p ∈ slaves, p < 256 ^ 2) (hl : slaves.length < 30000)
    (Hh : Named nxHashNames hash hs) (Ha : Named nxBdAlgNames alg as) (z : Bytes) :
    runActDec .bundle (u16 alg ++ (u16 hash ++ (u16 basis ++ (st.id ++ (u16 slaves.length ++ (pad 10 ++
      slaves.flatMap u16))))) ++ z) =
      .ok (t!"bundle" ++ '(' :: (hs ++ ',' :: (fmtD basis ++ ',' :: (as ++ ',' ::
    (shownName st ++ ',' :: (t!"slaves" ++ '(' :: joinStr t!"," (slaves.map bundlePortText) ++ [')']))))) ++
      [')']) := by
  have hil := is.length
  rw [hx] at hil
  generalize hbody : u16 alg ++ (u16 hash ++ (u16 basis ++ (st.id ++ (u16 slaves.length ++ (pad 10 ++
      slaves.flatMap u16))))) = body
  have hlen : body.length = 22 + 2 * slaves.length := by
    rw [← hbody]; simp only [List.length_append, u16_length, pad_length, flatMap_u16_length, hil]; simp; omega
  simp only [runActDec, bundleAct2str]
  have hpl : body ++ z = u16 alg ++ (u16 hash ++ (u16 basis ++ (st.id ++ (u16 slaves.length ++ (pad 10 ++
    (slaves.flatMap u16 ++ z)))))) := by
    rw [← hbody]; simp only [List.append_assoc]
  have e0 : uAt (body ++ z) 0 2 = alg := by rw [hpl]; exact uAt_u16_here _ _ (by omega)
  have e1 : uAt (body ++ z) 2 2 = hash := by
    rw [hpl, uAt_u16 _ _ _ _ (by omega)]; exact uAt_u16_here _ _ (by omega)
  have e2 : uAt (body ++ z) 4 2 = basis := by
    rw [hpl, uAt_u16 _ _ _ _ (by omega), uAt_u16 _ _ _ _ (by omega)]; exact uAt_u16_here _ _ (by omega)
  have e3 : uAt (body ++ z) 10 2 = slaves.length := by
    rw [hpl, uAt_u16 _ _ _ _ (by omega), uAt_u16 _ _ _ _ (by omega), uAt_u16 _ _ _ _ (by omega),
      uAt_right _ _ _ _ (by rw [hil]; simp), hil]
    exact uAt_u16_here _ _ (by omega)
  have e4 : slice (body ++ z) 6 10 = st.id := by
    have : body ++ z = (u16 alg ++ (u16 hash ++ u16 basis)) ++ (st.id ++ (u16 slaves.length ++ (pad 10 ++
      (slaves.flatMap u16 ++ z)))) := by rw [hpl]; simp only [List.append_assoc]
    rw [this]
    exact slice_append_left _ _ _ _ _ (by simp [u16_length]) (by simp [u16_length, hil])
  have e5 : hsAt (body ++ z) 22 slaves.length = slaves := by
    have : body ++ z = (u16 alg ++ (u16 hash ++ (u16 basis ++ (st.id ++ (u16 slaves.length ++ pad 10))))) ++
      (slaves.flatMap u16 ++ z) := by rw [hpl]; simp only [List.append_assoc]
    rw [this]
    exact hsAt_flat slaves hp _ _ _ (by simp [u16_length, pad_length, hil])
  have e6 := is.decode []
  rw [List.append_nil] at e6
  rw [needBytes_ok _ 0 22 (by rw [List.length_append]; omega), e0, e1, e2, e3, e4, e5, e6,
    needBytes_ok _ 22 _ (by rw [List.length_append]; omega), Hh.get, Ha.get]
  simp only [ok_bind, List.append_assoc, List.cons_append, List.nil_append]

theorem trip_bundle (hash basis alg : Nat) (st : Field) (slaves : List Nat) (hh : hash < 2)
    (hb : basis < 256 ^ 2) (ha : alg < 2) (hst : st ∈ fields) (hsz : st.kind.size ≠ none)
    (hx : st.experimenter = false) (hp : ∀ p ∈ slaves, p < 256 ^ 2) (hl : slaves.length < 30000)
    (hbad : st.name ∉ badIds) (hnm : st.kind.noMaskId = true) (hr : ∀ p ∈ slaves, p ∉ reservedLow) :
    ∃ text, ActTrip (nxWire 12 (u16 alg ++ (u16 hash ++ (u16 basis ++ (st.id ++ (u16 slaves.length ++ (pad 10 ++
      slaves.flatMap u16))))))) text := by
  obtain ⟨n, is⟩ : ∃ n, IdField st n := by
    cases hs : st.kind.size with
    | none => exact absurd hs hsz
    | some n => exact ⟨n, ⟨hst, hs⟩, hbad⟩
  obtain ⟨hs, Hh⟩ := named_hash hash hh
  obtain ⟨as, Ha⟩ := named_bdAlg alg ha
  have hil := is.length
  rw [hx] at hil
  generalize hbody : u16 alg ++ (u16 hash ++ (u16 basis ++ (st.id ++ (u16 slaves.length ++ (pad 10 ++
      slaves.flatMap u16))))) = body
  have hlen : body.length = 22 + 2 * slaves.length := by
    rw [← hbody]; simp only [List.length_append, u16_length, pad_length, flatMap_u16_length, hil]; simp; omega
  have hfit := nxWire_fits 12 body (by omega)
  obtain ⟨tk1, tk2, tk3, tk4⟩ := slavesText_facts slaves
  refine ⟨_, nx_call 12 body t!"bundle" (hs ++ ',' :: (fmtD basis ++ ',' :: (as ++ ',' ::
    (shownName st ++ ',' :: slavesText slaves))))
    .bundle .bundle (by decide) (by decide) hfit (by decide) (by decide) (by decide) (by decide)
    (by decide) (inside_comma (inside_clean Hh.clean Hh.np) <|
      inside_comma (inside_clean (fmtD_clean _) (np_fmtD _)) <|
      inside_comma (inside_clean Ha.clean Ha.np) <|
      inside_comma is.inside tk4) (by simp) ?_
    ⟨(hs ++ ',' :: (fmtD basis ++ ',' :: (as ++ ',' :: (shownName st ++ ',' :: slavesText slaves)))).length, ?_⟩⟩
  · have := bundle_dec is.toIdShape hash basis alg hs as slaves hh hb ha hx hp hl Hh Ha (fill (10 + body.length))
    rw [hbody, map_portText _ hr] at this
    exact this
  · simp only [runActEnc, bundleStr2act]
    have g0 : getToken (',' :: slavesText slaves) = ([','], slavesText slaves, []) := by
      have := getToken_comma tk1 atEnd_nil tk2 tk3
      rwa [List.append_nil] at this
    rw [if_neg (by simp), getToken_clean Hh.clean Hh.ne (atEnd_comma _)]
    dsimp only
    rw [getToken_comma_clean (fmtD_clean basis) (fmtD_ne_nil _) (atEnd_comma _)]
    dsimp only
    rw [getToken_comma_clean Ha.clean Ha.ne (atEnd_comma _)]
    dsimp only
    rw [getToken_comma_clean is.clean.1 is.clean.2 (atEnd_comma _)]
    dsimp only
    rw [g0]
    dsimp only
    rw [Hh.index, ok_bind, fmtI_dec, ok_bind]
    dsimp only
    rw [Ha.index, ok_bind, is.encodeMask hnm, ok_bind, bundleSlaves_text, ok_bind]
    rw [packAll_nat 2 alg (by omega) _ _ (packAll_nat 2 hash (by omega) _ _ (packAll_nat 2 basis hb [] [] rfl)),
      ok_bind, List.length_map, packU_nat 2 _ (by omega), ok_bind, packHs_nat _ hp, ok_bind]
    refine nxWrap_fit hfit ?_
    rw [← hbody]
    simp only [List.append_assoc, List.append_nil]
    rfl

/-- How `bundle_load` is printed. -/
theorem bundleLoad_dec {st dst : Field} {n m : Nat} (is : IdShape st n) (id : IdShape dst m)
    (hash basis alg ofs nbits : Nat) (hs as : Str) (slaves : List Nat) (hh : hash < 2)
    (hb : basis < 256 ^ 2) (ha : alg < 2) (hx : st.experimenter = false) (hpos : 0 < nbits)
    (he : ofs + nbits ≤ dst.bits) (h64 : nbits ≤ 64) (hdx : dst.experimenter = false)
    (hp : ∀ p ∈ slaves, p < 256 ^ 2) (hl : slaves.length < 30000)
    (Hh : Named nxHashNames hash hs) (Ha : Named nxBdAlgNames alg as) (z : Bytes) :
    runActDec .bundleLoad (u16 alg ++ (u16 hash ++ (u16 basis ++ (st.id ++ (u16 slaves.length ++
      (u16 (ofsNbits ofs nbits) ++ (dst.id ++ (pad 4 ++ slaves.flatMap u16))))))) ++ z) =
      .ok (t!"bundle_load" ++ '(' :: (hs ++ ',' :: (fmtD basis ++ ',' :: (as ++ ',' ::
    (shownName st ++ ',' :: (bitText dst false ofs (ofs + nbits) ++ ',' :: (t!"slaves" ++ '(' ::
      joinStr t!"," (slaves.map bundlePortText) ++ [')'])))))) ++ [')']) := by
  have hil := is.length
  rw [hx] at hil
  have hdl := id.length
  rw [hdx] at hdl
  have hon := range_fits id hpos he h64
  obtain ⟨hof, hnb⟩ := ofsNbits_facts ofs nbits hpos h64
  generalize hv : ofsNbits ofs nbits = v at *
  generalize hbody : u16 alg ++ (u16 hash ++ (u16 basis ++ (st.id ++ (u16 slaves.length ++
      (u16 v ++ (dst.id ++ (pad 4 ++ slaves.flatMap u16))))))) = body
  have hlen : body.length = 22 + 2 * slaves.length := by
    rw [← hbody]; simp only [List.length_append, u16_length, pad_length, flatMap_u16_length, hil, hdl]; simp; omega
  simp only [runActDec, bundleLoadAct2str]
  have hpl : body ++ z = u16 alg ++ (u16 hash ++ (u16 basis ++ (st.id ++ (u16 slaves.length ++
    (u16 v ++ (dst.id ++ (pad 4 ++ (slaves.flatMap u16 ++ z)))))))) := by
    rw [← hbody]; simp only [List.append_assoc]
  have e0 : uAt (body ++ z) 0 2 = alg := by rw [hpl]; exact uAt_u16_here _ _ (by omega)
  have e1 : uAt (body ++ z) 2 2 = hash := by
    rw [hpl, uAt_u16 _ _ _ _ (by omega)]; exact uAt_u16_here _ _ (by omega)
  have e2 : uAt (body ++ z) 4 2 = basis := by
    rw [hpl, uAt_u16 _ _ _ _ (by omega), uAt_u16 _ _ _ _ (by omega)]; exact uAt_u16_here _ _ (by omega)
  have e3 : uAt (body ++ z) 10 2 = slaves.length := by
    rw [hpl, uAt_u16 _ _ _ _ (by omega), uAt_u16 _ _ _ _ (by omega), uAt_u16 _ _ _ _ (by omega),
      uAt_right _ _ _ _ (by rw [hil]; simp), hil]
    exact uAt_u16_here _ _ (by omega)
  have e3' : uAt (body ++ z) 12 2 = v := by
    rw [hpl, uAt_u16 _ _ _ _ (by omega), uAt_u16 _ _ _ _ (by omega), uAt_u16 _ _ _ _ (by omega),
      uAt_right _ _ _ _ (by rw [hil]; simp), hil, uAt_u16 _ _ _ _ (by simp)]
    exact uAt_u16_here _ _ (by omega)
  have e4 : slice (body ++ z) 6 10 = st.id := by
    have : body ++ z = (u16 alg ++ (u16 hash ++ u16 basis)) ++ (st.id ++ (u16 slaves.length ++
      (u16 v ++ (dst.id ++ (pad 4 ++ (slaves.flatMap u16 ++ z)))))) := by
      rw [hpl]; simp only [List.append_assoc]
    rw [this]
    exact slice_append_left _ _ _ _ _ (by simp [u16_length]) (by simp [u16_length, hil])
  have e4' : slice (body ++ z) 14 18 = dst.id := by
    have : body ++ z = (u16 alg ++ (u16 hash ++ (u16 basis ++ (st.id ++ (u16 slaves.length ++
      u16 v))))) ++ (dst.id ++ (pad 4 ++ (slaves.flatMap u16 ++ z))) := by
      rw [hpl]; simp only [List.append_assoc]
    rw [this]
    exact slice_append_left _ _ _ _ _ (by simp [u16_length, hil]) (by simp [u16_length, hil, hdl])
  have e5 : hsAt (body ++ z) 22 slaves.length = slaves := by
    have : body ++ z = (u16 alg ++ (u16 hash ++ (u16 basis ++ (st.id ++ (u16 slaves.length ++
      (u16 v ++ (dst.id ++ pad 4))))))) ++ (slaves.flatMap u16 ++ z) := by
      rw [hpl]; simp only [List.append_assoc]
    rw [this]
    exact hsAt_flat slaves hp _ _ _ (by simp [u16_length, pad_length, hil, hdl])
  have e6 := is.decode []
  rw [List.append_nil] at e6
  have e7 := id.decode []
  rw [List.append_nil] at e7
  rw [needBytes_ok _ 0 22 (by rw [List.length_append]; omega), e0, e1, e2, e3, e3', e4, e4', e5, e6, e7,
    needBytes_ok _ 22 _ (by rw [List.length_append]; omega), Hh.get, Ha.get, hof, hnb]
  simp only [ok_bind, fmtRange_bitText, List.append_assoc, List.cons_append, List.nil_append]

theorem trip_bundleLoad (hash basis alg : Nat) (st dst : Field) (nbits : Nat) (slaves : List Nat) (hh : hash < 2)
    (hb : basis < 256 ^ 2) (ha : alg < 2) (hst : st ∈ fields) (hsz : st.kind.size ≠ none)
    (hx : st.experimenter = false) (hd : Range dst 0 nbits) (h64 : nbits ≤ 64) (hdx : dst.experimenter = false)
    (hp : ∀ p ∈ slaves, p < 256 ^ 2) (hl : slaves.length < 30000)
    (hbad : st.name ∉ badIds) (hnm : st.kind.noMaskId = true) (hdb : dst.name ∉ badIds)
    (hdn : dst.kind.noMaskId = true) (hr : ∀ p ∈ slaves, p ∉ reservedLow) :
    ∃ text, ActTrip (nxWire 13 (u16 alg ++ (u16 hash ++ (u16 basis ++ (st.id ++ (u16 slaves.length ++
      (u16 (ofsNbits 0 nbits) ++ (dst.id ++ (pad 4 ++ slaves.flatMap u16))))))))) text := by
  obtain ⟨n, is⟩ : ∃ n, IdField st n := by
    cases hs : st.kind.size with
    | none => exact absurd hs hsz
    | some n => exact ⟨n, ⟨hst, hs⟩, hbad⟩
  obtain ⟨m, id⟩ := range_idField hd hdb
  obtain ⟨_, _, hpos, he⟩ := hd
  obtain ⟨hs, Hh⟩ := named_hash hash hh
  obtain ⟨as, Ha⟩ := named_bdAlg alg ha
  have hil := is.length
  rw [hx] at hil
  have hdl := id.length
  rw [hdx] at hdl
  rw [show ofsNbits 0 nbits = nbits - 1 by unfold ofsNbits; omega]
  generalize hbody : u16 alg ++ (u16 hash ++ (u16 basis ++ (st.id ++ (u16 slaves.length ++
      (u16 (nbits - 1) ++ (dst.id ++ (pad 4 ++ slaves.flatMap u16))))))) = body
  have hlen : body.length = 22 + 2 * slaves.length := by
    rw [← hbody]; simp only [List.length_append, u16_length, pad_length, flatMap_u16_length, hil, hdl]; simp; omega
  have hfit := nxWire_fits 13 body (by omega)
  obtain ⟨tk1, tk2, tk3, tk4⟩ := slavesText_facts slaves
  have td := bitText_facts id.toIdShape false 0 nbits
  refine ⟨_, nx_call 13 body t!"bundle_load" (hs ++ ',' :: (fmtD basis ++ ',' :: (as ++ ',' ::
    (shownName st ++ ',' :: (bitText dst false 0 nbits ++ ',' :: slavesText slaves)))))
    .bundleLoad .bundleLoad (by decide) (by decide) hfit (by decide) (by decide) (by decide) (by decide)
    (by decide) (inside_comma (inside_clean Hh.clean Hh.np) <|
      inside_comma (inside_clean (fmtD_clean _) (np_fmtD _)) <|
      inside_comma (inside_clean Ha.clean Ha.np) <|
      inside_comma is.inside <| inside_comma td.2.2.2 tk4) (by simp) ?_
    ⟨(hs ++ ',' :: (fmtD basis ++ ',' :: (as ++ ',' :: (shownName st ++ ',' :: (bitText dst false 0 nbits ++
      ',' :: slavesText slaves))))).length, ?_⟩⟩
  · have := bundleLoad_dec is.toIdShape id.toIdShape hash basis alg 0 nbits hs as slaves hh hb ha hx hpos he h64 hdx hp hl Hh Ha
      (fill (10 + body.length))
    rw [show ofsNbits 0 nbits = nbits - 1 by unfold ofsNbits; omega, hbody, map_portText _ hr, Nat.zero_add] at this
    exact this
  · rw [show runActEnc .bundleLoad = bundleLoadStr2act from rfl, bundleLoad_early]
    simp only [bundleLoadEarly]
    have g0 : getToken (',' :: slavesText slaves) = ([','], slavesText slaves, []) := by
      have := getToken_comma tk1 atEnd_nil tk2 tk3
      rwa [List.append_nil] at this
    have g1 := bitText_token id.toIdShape false 0 nbits [','] (',' :: slavesText slaves) head_comma (atEnd_comma _)
    rw [List.singleton_append] at g1
    rw [if_neg (by simp), getToken_clean Hh.clean Hh.ne (atEnd_comma _)]
    dsimp only
    rw [getToken_comma_clean (fmtD_clean basis) (fmtD_ne_nil _) (atEnd_comma _)]
    dsimp only
    rw [getToken_comma_clean Ha.clean Ha.ne (atEnd_comma _)]
    dsimp only
    rw [getToken_comma_clean is.clean.1 is.clean.2 (atEnd_comma _)]
    dsimp only
    rw [g1]
    dsimp only
    rw [g0]
    dsimp only
    rw [Hh.index, ok_bind, fmtI_dec, ok_bind]
    dsimp only
    rw [Ha.index, ok_bind, show bitText dst false 0 nbits = fmtRange (shownName dst) 0 nbits from rfl,
      fmtRange_parse _ 0 nbits id.clean.1, ok_bind]
    dsimp only
    rw [id.encodeMask hdn, ok_bind]
    obtain ⟨c, s, hcs⟩ := range_cons 0 nbits
    rw [hcs]
    dsimp only
    rw [← hcs, intPair_range, ok_bind]
    dsimp only
    rw [bundleSlaves_text, ok_bind]
    rw [packAll_nat 2 alg (by omega) _ _ (packAll_nat 2 hash (by omega) _ _ (packAll_nat 2 basis hb [] [] rfl)),
      ok_bind, is.encodeMask hnm, ok_bind, List.length_map]
    have hi : (((0 : Nat) : Int) * 64 + ((nbits : Int) - 1)) = ((nbits - 1 : Nat) : Int) := by omega
    rw [hi, packAll_nat 2 _ (by omega) _ _ (packAll_nat 2 _ (by omega) [] [] rfl), ok_bind,
      packHs_nat _ hp, ok_bind]
    refine nxWrap_fit hfit ?_
    rw [← hbody]
    simp only [List.append_assoc, List.append_nil]
    rfl

/-! ## Loading a value -/

theorem tlv_np (t : Tlv) (hv : t.Valid) (hl : t.Lossless) (hs : t.field.kind = .ssid → (41 : UInt8) ∉ t.value) :
    NP (tlvText t) := by
  obtain ⟨d, hd, _, hdec, _, _, _⟩ := tlvText_spec t hv hl
  have hne : t.field.name ≠ t!"nxm_ip_frag" := by
    intro h; apply hl.name; rw [h]; decide
  have hid := table_id_names t.field hv.mem hne
  have hlk := table_dec t.field hv.mem hl.name
  unfold idNameOk at hid
  rw [hd] at hid
  have hid : decId d = t.field.name := by simpa using hid
  by_cases hds : d = .ssid
  · subst hds
    have hk : t.field.kind = .ssid := by
      unfold linkedDec at hlk
      rw [hd] at hlk
      simp only [decFits, Bool.and_eq_true, beq_iff_eq] at hlk
      exact hlk.1
    have hch : ∀ p : Bytes, PlainSsid p → (41 : UInt8) ∉ p → NP (b2aQp p) := by
      intro p ⟨p1, p2, p3, p4⟩ hp
      rw [b2aQp_plain p p1 p2 p3]
      rintro c hc' rfl
      obtain ⟨x, hx, he⟩ := List.mem_map.1 hc'
      have h1 := (ssidByte_facts x (p1 x hx)).2.2.2.1
      rw [he] at h1
      have h2 : x = 41 := UInt8.toNat_inj.1 (by rw [← h1]; rfl)
      exact hp (h2 ▸ hx)
    cases hm : t.mask with
    | none =>
      rw [hm] at hdec
      simp only [decText, ssidBin2str, Option.isSome_none, Bool.false_eq_true, if_false] at hdec
      injection hdec with hdec
      rw [← hdec]
      apply np_append (by decide)
      simp only [Tlv.body, hm, Option.getD_none, List.append_nil]
      exact hch _ (hl.ssid hk hm) (hs hk)
    | some m =>
      obtain ⟨p, k, hp, hpk⟩ := hl.ssidMask hk (by simp [hm])
      rw [hm] at hdec
      simp only [decText, ssidBin2str, Option.isSome_some, if_true] at hdec
      have hb : t.body = (p ++ zeros k) ++ m := by simp only [Tlv.body, hm, Option.getD_some, hpk]; rfl
      have hml := (hv.mask m hm).2
      rw [hpk] at hml
      have hml' : m.length = p.length + k := by
        rw [hml]; simp [pad_length]
      have hs' : ((p ++ zeros k) ++ m).length / 2 = (p ++ zeros k).length := by
        simp [hml']; omega
      have hnz : ∀ x ∈ p, x ≠ 0 := by
        intro x hx h
        subst h
        exact absurd (hp.1 0 hx) (by decide)
      rw [hb, hs', List.take_left, List.drop_left, stripZeros_pad p k hnz hp.2.2.2] at hdec
      simp only [bind, Except.bind] at hdec
      injection hdec with hdec
      rw [← hdec]
      refine np_append (by decide) (np_append (hch p hp ?_) (np_cons (by decide) (np_b2aHex m)))
      intro h41
      exact hs hk (by rw [hpk]; simp [h41])
  · exact decText_np hdec hds (by rw [hid]; exact fields_np _ hv.mem)

theorem str2oxm1_tlv (t : Tlv) (hv : t.Valid) (hl : t.Lossless) :
    str2oxm1 (tlvText t) = .ok (t.wire, (tlvText t).length) := by
  obtain ⟨d, hd, hk, hdec, c1, c2, henc⟩ := tlvText_spec t hv hl
  obtain ⟨n1, n2, _⟩ := field_name _ hv.mem
  have hone := str2oxmOne_item [] t.field.name (tlvValue t) [] _ _ _ head_nil (by decide) n1 n2 c1 c2 atEnd_nil hk henc
  simp only [List.append_nil, List.nil_append] at hone
  unfold str2oxm1 str2oxmL
  rw [str2oxmGo, if_neg (by simp [tlvText]), show tlvText t = t.field.name ++ '=' :: tlvValue t from rfl, hone]
  rw [ok_bind]
  dsimp only
  rw [if_neg (by simpa using c2), show ((tlvValue t).length == (tlvValue t).length) = true by simp, pyAssert_ok,
    ok_bind]
  simp only [Bool.false_eq_true, if_false, ok_bind]
  rfl

theorem tlvText_inside (t : Tlv) (hv : t.Valid) (hl : t.Lossless)
    (hs : t.field.kind = .ssid → (41 : UInt8) ∉ t.value) : InLine ')' (tlvText t) := by
  obtain ⟨d, hd, hk, hdec, c1, c2, henc⟩ := tlvText_spec t hv hl
  obtain ⟨n1, n2, _⟩ := field_name _ hv.mem
  have hnp := tlv_np t hv hl hs
  have hv' : NP (tlvValue t) := fun c hc => hnp c (by simp [tlvText, hc])
  exact inside_append (inside_clean n1 (fields_np _ hv.mem))
    (inside_cons (by decide) (by decide) (inside_clean c1 hv'))

theorem trip_regLoad2 (t : Tlv) (hv : t.Valid) (hl : t.Lossless)
    (hs : t.field.kind = .ssid → (41 : UInt8) ∉ t.value) : ∃ text, ActTrip (nxWire 33 t.wire) text := by
  obtain ⟨l1, l2⟩ := tlv_length t hv
  have hfit := nxWire_fits 33 t.wire (by omega)
  have hne : tlvText t ≠ [] := by simp [tlvText]
  refine ⟨_, nx_call 33 t.wire t!"reg_load2" (tlvText t) .regLoad2 .regLoad2 (by decide) (by decide) hfit
    (by decide) (by decide) (by decide) (by decide) (by decide) (tlvText_inside t hv hl hs) hne ?_
    ⟨(tlvText t).length, ?_⟩⟩
  · simp only [runActDec, regLoad2Act2str]
    rw [oxm2str1_tlv t hv hl, ok_bind]
    simp
  · simp only [runActEnc, regLoad2Str2act]
    rw [if_neg (by simp), str2oxm1_tlv t hv hl, ok_bind]
    dsimp only
    rw [if_neg (by simpa using hne), needBytes_ok _ 0 4 (by omega), ok_bind]
    exact nxWrap_fit hfit rfl

/-- The state of the mask loop after `p` bits of the mask with bits `ofs .. ofs + nbits`. -/
def scanState (ofs nbits p : Nat) : Nat × Option Nat :=
  (min ofs p, if p ≤ ofs then none else some (min nbits (p - ofs)))

theorem maskByte_scan (ofs nbits : Nat) (h0 : 0 < nbits) : ∀ (m p : Nat),
    maskByte ((List.range' p m).map fun j => decide (ofs ≤ j ∧ j < ofs + nbits)) (scanState ofs nbits p) =
      scanState ofs nbits (p + m)
  | 0, p => rfl
  | m + 1, p => by
    rw [List.range'_succ, List.map_cons]
    have ih := maskByte_scan ofs nbits h0 m (p + 1)
    have e : p + (m + 1) = p + 1 + m := by omega
    by_cases h1 : ofs ≤ p
    · by_cases h2 : p < ofs + nbits
      · rw [decide_eq_true ⟨h1, h2⟩]
        have hs : (min ofs p, some ((if p ≤ ofs then none else some (min nbits (p - ofs))).getD 0 + 1)) =
            scanState ofs nbits (p + 1) := by
          unfold scanState
          rw [if_neg (show ¬ p + 1 ≤ ofs by omega)]
          congr 1
          · omega
          · split
            · simp; omega
            · simp; omega
        rw [scanState, maskByte, hs, ih, e]
      · rw [decide_eq_false (by omega)]
        have hs : ∀ q, ofs + nbits ≤ q → scanState ofs nbits q = (ofs, some nbits) := by
          intro q hq
          unfold scanState
          rw [if_neg (by omega)]
          congr 1
          · omega
          · congr 1; omega
        rw [hs p (by omega), hs (p + (m + 1)) (by omega), maskByte]
    · rw [decide_eq_false (by omega)]
      have hs : scanState ofs nbits p = (p, none) := by
        unfold scanState; rw [if_pos (by omega)]; congr 1; omega
      have hs' : scanState ofs nbits (p + 1) = (p + 1, none) := by
        unfold scanState; rw [if_pos (by omega)]; congr 1; omega
      rw [hs, maskByte, ← hs', ih, e]

theorem mask_bit (ofs nbits j : Nat) :
    ((((2 ^ nbits - 1) * 2 ^ ofs / 2 ^ j) % 2 == 1)) = decide (ofs ≤ j ∧ j < ofs + nbits) := by
  have h : (((2 ^ nbits - 1) * 2 ^ ofs / 2 ^ j) % 2 == 1) = ((2 ^ nbits - 1) * 2 ^ ofs).testBit j := by
    rw [Nat.testBit_eq_decide_div_mod_eq]; rfl
  simp only [h, Nat.testBit_mul_two_pow, Nat.testBit_two_pow_sub_one]
  simp only [ge_iff_le, Bool.decide_and, Bool.and_eq_true, decide_eq_true_eq]
  by_cases h1 : ofs ≤ j <;> simp [h1]
  omega

theorem maskScan_mask (k ofs nbits : Nat) (h0 : 0 < nbits) (hk : ofs + nbits ≤ 8 * k) :
    maskScan (be k ((2 ^ nbits - 1) * 2 ^ ofs)) = (ofs, some nbits) := by
  generalize hM : (2 ^ nbits - 1) * 2 ^ ofs = M
  have key : ∀ k, ((List.range k).map fun i => UInt8.ofNat (M / 256 ^ i % 256)).foldl
      (fun st v => maskByte (bitsLsb v) st) (0, none) = scanState ofs nbits (8 * k) := by
    intro k
    induction k with
    | zero => simp [scanState]
    | succ k ih =>
      rw [List.range_succ, List.map_append, List.foldl_append, ih]
      simp only [List.map_cons, List.map_nil, List.foldl_cons, List.foldl_nil]
      rw [show 8 * (k + 1) = 8 * k + 8 by omega, ← maskByte_scan ofs nbits h0 8 (8 * k)]
      congr 1
      unfold bitsLsb
      rw [List.range_eq_range', List.range'_eq_map_range (s := 8 * k), List.map_map, List.range_eq_range']
      apply List.map_congr_left
      intro d hd
      have hd : d < 8 := by simpa using hd
      simp only [Function.comp_apply]
      rw [← mask_bit, hM]
      have e1 : (UInt8.ofNat (M / 256 ^ k % 256)).toNat = M / 256 ^ k % 256 := by
        simp
      rw [e1, show (256 : Nat) = 2 ^ 8 by rfl, ← Nat.pow_mul]
      rw [Nat.pow_add, ← Nat.div_div_eq_div_mul]
      generalize M / 2 ^ (8 * k) = X
      have : X % 2 ^ 8 / 2 ^ d % 2 = X / 2 ^ d % 2 := by
        have hd' : d = 0 ∨ d = 1 ∨ d = 2 ∨ d = 3 ∨ d = 4 ∨ d = 5 ∨ d = 6 ∨ d = 7 := by omega
        rcases hd' with rfl | rfl | rfl | rfl | rfl | rfl | rfl | rfl <;> omega
      rw [this]
  unfold maskScan be
  rw [List.reverse_reverse, key]
  unfold scanState
  rw [if_neg (by omega)]
  congr 1
  · omega
  · congr 1; omega

theorem fields_vht : ∀ f ∈ fields, f.kind = .vht → f.experimenter = true := by decide +kernel

theorem oxm2str_tlv (t : Tlv) (hv : t.Valid) (hl : t.Lossless) : oxm2str t.wire = .ok (tlvText t) := by
  have key := (oxm_list [t] (by simpa using ⟨hv, hl⟩)).1
  simpa [wireAll, joinStr] using key

/-- A value of a field, perhaps with mask, that survives printing. -/
theorem loadTlv {f : Field} {n : Nat} (h : IdField f n) (hl : f.name ∉ lossyNames) (hx : f.experimenter = false)
    (v : Bytes) (m : Option Bytes) (hv : v.length = n)
    (hm : ∀ x, m = some x → f.maskable = true ∧ x.length = n) :
    (Tlv.mk f v m).Valid ∧ (Tlv.mk f v m).Lossless ∧ (f.kind = .ssid → (41 : UInt8) ∉ v) ∧
    (Tlv.mk f v m).wire = header (fieldKey f) n m.isSome ++ (v ++ m.getD []) := by
  have hs := h.small
  rw [hx] at hs
  have hk : f.kind ≠ .bytes ∧ f.kind ≠ .ssid ∧ f.kind ≠ .vht := by
    refine ⟨?_, ?_, ?_⟩
    · intro he; have := h.size; rw [he] at this; cases this
    · intro he; have := h.size; rw [he] at this; cases this
    · intro he; rw [fields_vht f h.mem he] at hx; cases hx
  have hval : (Tlv.mk f v m).Valid := by
    refine ⟨h.mem, ?_, ?_, ?_⟩
    · intro k hk'; have := h.size; rw [hk'] at this; cases this; exact hv
    · intro x hx'; obtain ⟨h1, h2⟩ := hm x hx'; exact ⟨h1, by rw [h2]; exact hv.symm⟩
    · simp only [Tlv.body, hx, List.length_append, hv]
      cases m with
      | none => simp at hs ⊢; omega
      | some x => have := (hm x rfl).2; simp at hs ⊢; omega
  refine ⟨hval, ⟨hl, ?_, ?_, ?_, ?_, ?_⟩, ?_, (tlv_wire _ hval n hv).1⟩
  · intro he; exact absurd he hk.1
  · intro he; exact absurd he hk.2.1
  · intro he; exact absurd he hk.2.1
  · intro he; exact absurd he hk.2.2
  · intro he; exact absurd he hk.2.2
  · intro he; exact absurd he hk.2.1

theorem header_four {f : Field} {n : Nat} (h : IdShape f n) (hx : f.experimenter = false) (hm : Bool) :
    header (fieldKey f) n hm = be 2 f.cls ++ (be 1 (2 * f.num + (if hm then 1 else 0)) ++
      be 1 (if hm then 2 * n else n)) := by
  have hs := h.small
  rw [hx] at hs
  simp only [Bool.false_eq_true, if_false] at hs
  rw [field_header f h.mem n hm (by rw [hx]; simp only [Bool.false_eq_true, if_false]; split <;> omega)]
  unfold Field.header
  rw [hx]
  simp only [Bool.false_eq_true, if_false, List.append_nil, List.append_assoc, Nat.add_zero]
  rfl

theorem beVal_be (k n : Nat) (h : n < 256 ^ k) : beVal (be k n) = n := by
  rw [spec_be, beVal_beBytes_of_lt k n h]

theorem pow_bytes (n : Nat) : 256 ^ n = 2 ^ (8 * n) := by
  rw [show (256 : Nat) = 2 ^ 8 by rfl, ← Nat.pow_mul]

theorem trip_regLoad (f : Field) (ofs nbits value : Nat) (hr : Range f ofs nbits) (h64 : nbits ≤ 64)
    (hx : f.experimenter = false) (hval : value < 2 ^ nbits) (hl : f.name ∉ lossyNames)
    (hw : (ofs = 0 ∧ nbits = f.bits) ∨ f.maskable = true) :
    ∃ text, ActTrip (nxWire 7 (u16 (ofsNbits ofs nbits) ++ (f.id ++ u64 value))) text := by
  have hb : f.name ∉ badIds := by
    intro h; apply hl
    have key : ∀ s ∈ badIds, s ∈ lossyNames := by decide
    exact key _ h
  obtain ⟨n, id⟩ := range_idField hr hb
  obtain ⟨hmem, _, hpos, he⟩ := hr
  have hbits := id.bits
  have hon := range_fits id.toIdShape hpos he h64
  obtain ⟨hof, hnb⟩ := ofsNbits_facts ofs nbits hpos h64
  have hlen0 := id.length
  have hsm := id.small
  rw [hx] at hlen0 hsm
  simp only [Bool.false_eq_true, if_false, Nat.add_zero] at hlen0 hsm
  have hnum : f.num < 128 := (field_name f hmem).2.2
  have hcls : f.cls < 256 ^ 2 := by rw [← field_cls f hmem]; exact cls_code_lt _
  have hclsx : (f.cls == 0xffff) = false := hx
  have hidw : f.id = be 2 f.cls ++ (be 1 (2 * f.num) ++ be 1 n) := by
    rw [id.id, header_four id.toIdShape hx false]; simp
  have hv64 : value < 256 ^ 8 := by
    have : 2 ^ nbits ≤ 2 ^ 64 := Nat.pow_le_pow_right (by decide) h64
    have h2 : (2 : Nat) ^ 64 = 256 ^ 8 := by decide
    omega
  have hshift : value * 2 ^ ofs < 256 ^ n := by
    rw [pow_bytes]
    calc value * 2 ^ ofs < 2 ^ nbits * 2 ^ ofs := Nat.mul_lt_mul_of_pos_right hval (Nat.two_pow_pos ofs)
      _ = 2 ^ (nbits + ofs) := (Nat.pow_add _ _ _).symm
      _ ≤ 2 ^ (8 * n) := Nat.pow_le_pow_right (by decide) (by omega)
  have hmask : (2 ^ nbits - 1) * 2 ^ ofs < 256 ^ n := by
    rw [pow_bytes]
    calc (2 ^ nbits - 1) * 2 ^ ofs < 2 ^ nbits * 2 ^ ofs :=
          Nat.mul_lt_mul_of_pos_right (by have := Nat.two_pow_pos nbits; omega) (Nat.two_pow_pos ofs)
      _ = 2 ^ (nbits + ofs) := (Nat.pow_add _ _ _).symm
      _ ≤ 2 ^ (8 * n) := Nat.pow_le_pow_right (by decide) (by omega)
  generalize hbody : u16 (ofsNbits ofs nbits) ++ (f.id ++ u64 value) = body
  have hlen : body.length = 14 := by
    rw [← hbody]; simp only [List.length_append, u16_length, hlen0]; rfl
  have hfit := nxWire_fits 7 body (by omega)
  -- what the decoder does up to the text of the field
  have hdec : ∀ z, runActDec .regLoad (body ++ z) =
      (if (ofs == 0 && nbits == n * 8) = true then do
        let arg ← oxm2str (f.id ++ intBE n value)
        .ok (t!"reg_load(" ++ (arg ++ t!")"))
      else do
        let h ← packAll [(2, f.cls), (1, if 2 * f.num % 2 == 1 then ((2 * f.num : Nat) : Int) else
          ((2 * f.num : Nat) : Int) + 1), (1, (n : Int) * 2)]
        let arg ← oxm2str (h ++ (intBE n (value * 2 ^ ofs) ++ intBE n ((2 ^ nbits - 1) * 2 ^ ofs)))
        .ok (t!"reg_load(" ++ (arg ++ t!")")) : Py Str) := by
    intro z
    simp only [runActDec, regLoadAct2str]
    have hp : body ++ z = u16 (ofsNbits ofs nbits) ++ (f.id ++ (u64 value ++ z)) := by
      rw [← hbody]; simp only [List.append_assoc]
    have e0 : uAt (body ++ z) 0 2 = ofsNbits ofs nbits := by rw [hp]; exact uAt_u16_here _ _ hon
    have e1 : uAt (body ++ z) 2 2 = f.cls := by rw [hp, uAt_u16 _ _ _ _ (by omega)]; exact id.cls _
    have e2 : uAt (body ++ z) 4 1 = 2 * f.num := by rw [hp, uAt_u16 _ _ _ _ (by omega)]; exact id.num _
    have e3 : uAt (body ++ z) 6 8 = value := by
      rw [hp, uAt_u16 _ _ _ _ (by omega), uAt_right _ _ _ _ (by omega), hlen0]
      exact uAt_here 8 _ _ hv64
    have e4 : slice (body ++ z) 2 6 = f.id := by
      rw [hp]; exact slice_append_left _ _ _ _ _ (by rw [u16_length]) (by rw [u16_length, hlen0])
    have e5 := id.lenByte []
    rw [List.append_nil, hx] at e5
    simp only [Bool.false_eq_true, if_false, Nat.add_zero] at e5
    rw [needBytes_ok _ 0 14 (by rw [List.length_append]; omega), ok_bind, e0, e1, e2, e3, e4, id.decodeAll,
      ok_bind, id.encode, ok_bind, needBytes_ok _ 0 4 (by omega), ok_bind, e5, hof, hnb]
  by_cases hwhole : ofs = 0 ∧ nbits = f.bits
  · obtain ⟨rfl, hnb8⟩ := hwhole
    rw [Nat.pow_zero, Nat.mul_one] at hshift
    obtain ⟨tv, tl, ts, tw⟩ := loadTlv id hl hx (be n value) none (be_length n value) (by simp)
    generalize hT : Tlv.mk f (be n value) none = T at tv tl tw
    have tw' : T.wire = f.id ++ be n value := by
      rw [tw, id.id]; simp
    have hne : tlvText T ≠ [] := by simp [tlvText]
    refine ⟨_, nx_call 7 body t!"reg_load" (tlvText T) .regLoad .regLoad (by decide) (by decide) hfit
      (by decide) (by decide) (by decide) (by decide) (by decide)
      (tlvText_inside T tv tl (by rw [← hT]; exact ts)) hne ?_ ⟨(tlvText T).length, ?_⟩⟩
    · rw [hdec, if_pos (by simp; omega), intBE_nat, ← spec_be, ← tw', oxm2str_tlv T tv tl, ok_bind]
      simp
    · simp only [runActEnc, regLoadStr2act]
      rw [if_neg (by simp), str2oxm1_tlv T tv tl, ok_bind]
      dsimp only
      have e0 : uAt T.wire 0 2 = f.cls := by rw [tw']; exact id.cls _
      have e1 : uAt T.wire 2 1 = 2 * f.num := by rw [tw']; exact id.num _
      have e2 : T.wire.drop 4 = be n value := by rw [tw']; exact drop_app hlen0
      rw [if_neg (by simpa using hne), needBytes_ok _ 0 4 (by rw [tw', List.length_append]; omega), ok_bind,
        e0, e1, hclsx]
      simp only [Bool.false_eq_true, if_false]
      rw [if_neg (by simp), e2, be_length, beVal_be n value hshift,
        show ((2 * f.num : Nat) : Int) / 2 * 2 = ((2 * f.num : Nat) : Int) by omega,
        show ((n : Int) * 8 - 1) = ((ofsNbits 0 nbits : Nat) : Int) by unfold ofsNbits; omega]
      rw [packAll_nat 2 _ (by omega) _ _ (packAll_nat 2 f.cls hcls _ _ (packAll_nat 1 (2 * f.num) (by omega) _ _
        (packAll_nat 1 n (by omega) _ _ (packAll_nat 8 value hv64 [] [] rfl)))), ok_bind]
      refine nxWrap_fit hfit ?_
      rw [← hbody, hidw]
      simp only [List.append_assoc, List.append_nil]
      rfl
  · have hmk : f.maskable = true := by
      rcases hw with h | h
      · exact absurd h hwhole
      · exact h
    obtain ⟨tv, tl, ts, tw⟩ := loadTlv id hl hx (be n (value * 2 ^ ofs)) (some (be n ((2 ^ nbits - 1) * 2 ^ ofs)))
      (be_length n _) (by intro x hx'; cases hx'; exact ⟨hmk, be_length n _⟩)
    generalize hT : Tlv.mk f (be n (value * 2 ^ ofs)) (some (be n ((2 ^ nbits - 1) * 2 ^ ofs))) = T at tv tl tw
    rw [header_four id.toIdShape hx] at tw
    simp only [Option.isSome_some, if_true, Option.getD_some] at tw
    have hne : tlvText T ≠ [] := by simp [tlvText]
    refine ⟨_, nx_call 7 body t!"reg_load" (tlvText T) .regLoad .regLoad (by decide) (by decide) hfit
      (by decide) (by decide) (by decide) (by decide) (by decide)
      (tlvText_inside T tv tl (by rw [← hT]; exact ts)) hne ?_ ⟨(tlvText T).length, ?_⟩⟩
    · have hcond : ¬ ((ofs == 0 && nbits == n * 8) = true) := by
        intro h
        simp only [Bool.and_eq_true, beq_iff_eq] at h
        exact hwhole ⟨h.1, by omega⟩
      rw [hdec, if_neg hcond, if_neg (by simp)]
      have h1 : ((2 * f.num : Nat) : Int) + 1 = ((2 * f.num + 1 : Nat) : Int) := by push_cast; rfl
      have h2 : (n : Int) * 2 = ((2 * n : Nat) : Int) := by push_cast; omega
      have h3 : ((value : Int) * 2 ^ ofs) = ((value * 2 ^ ofs : Nat) : Int) := by push_cast; rfl
      have h4 : (((2 : Int) ^ nbits - 1) * 2 ^ ofs) = (((2 ^ nbits - 1) * 2 ^ ofs : Nat) : Int) := by
        have := Nat.two_pow_pos nbits
        push_cast [this]
        rfl
      rw [h1, h2, h3, h4, packAll_nat 2 f.cls hcls _ _ (packAll_nat 1 _ (by omega) _ _
        (packAll_nat 1 _ (by omega) [] [] rfl)), ok_bind, intBE_nat, intBE_nat, ← spec_be, ← spec_be]
      rw [List.append_nil, ← tw, oxm2str_tlv T tv tl, ok_bind]
      simp
    · simp only [runActEnc, regLoadStr2act]
      rw [if_neg (by simp), str2oxm1_tlv T tv tl, ok_bind]
      dsimp only
      simp only [List.append_assoc] at tw
      have e0 : uAt T.wire 0 2 = f.cls := by rw [tw]; exact uAt_here 2 _ _ hcls
      have e1 : uAt T.wire 2 1 = 2 * f.num + 1 := by
        rw [tw, uAt_skip _ _ _ _ _ (by omega)]; exact uAt_here 1 _ _ (by omega)
      have e2 : T.wire.drop 4 = be n (value * 2 ^ ofs) ++ be n ((2 ^ nbits - 1) * 2 ^ ofs) := by
        rw [tw, ← List.append_assoc, ← List.append_assoc]
        exact drop_app (by simp [be_length])
      have e3 : (be n (value * 2 ^ ofs) ++ be n ((2 ^ nbits - 1) * 2 ^ ofs)).length / 2 = n := by
        simp only [List.length_append, be_length]; omega
      rw [if_neg (by simpa using hne), needBytes_ok _ 0 4 (by
        rw [tw]; simp only [List.length_append, be_length]; omega), ok_bind, e0, e1, hclsx]
      simp only [Bool.false_eq_true, if_false]
      rw [if_pos (by simp), e2, e3, drop_app (be_length n _), maskScan_mask n ofs nbits hpos (by omega)]
      dsimp only
      rw [show (be n (value * 2 ^ ofs) ++ be n ((2 ^ nbits - 1) * 2 ^ ofs)).take n = be n (value * 2 ^ ofs) by
        rw [List.take_left' (be_length n _)], beVal_be n _ hshift, Nat.mul_div_cancel _ (Nat.two_pow_pos ofs),
        show ((2 * f.num + 1 : Nat) : Int) / 2 * 2 = ((2 * f.num : Nat) : Int) by omega,
        show ((ofs * 64 : Int) + ((nbits : Int) - 1)) = ((ofsNbits ofs nbits : Nat) : Int) by
          unfold ofsNbits; push_cast [hpos]; omega]
      rw [packAll_nat 2 _ (by omega) _ _ (packAll_nat 2 f.cls hcls _ _ (packAll_nat 1 (2 * f.num) (by omega) _ _
        (packAll_nat 1 n (by omega) _ _ (packAll_nat 8 value hv64 [] [] rfl)))), ok_bind]
      refine nxWrap_fit hfit ?_
      rw [← hbody, hidw]
      simp only [List.append_assoc, List.append_nil]
      rfl

end Ofpstr
