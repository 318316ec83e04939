import Verif.Lemmas.SetField
import Verif.Lemmas.NoParen

/-!
# Printing one action and parsing it back
-/

namespace Ofpstr
open Spec

/-! ## Reading numbers -/

theorem uAt_skip (k m : Nat) (r : Bytes) (off size : Nat) (h : k ≤ off) :
    uAt (be k m ++ r) off size = uAt r (off - k) size := by
  rw [uAt_right _ _ _ _ (by rw [be_length]; exact h), be_length]

theorem uAt_skip_pad (k : Nat) (r : Bytes) (off size : Nat) (h : k ≤ off) :
    uAt (pad k ++ r) off size = uAt r (off - k) size := by
  rw [uAt_right _ _ _ _ (by rw [pad_length]; exact h), pad_length]

theorem uAt_here (k n : Nat) (r : Bytes) (h : n < 256 ^ k) : uAt (be k n ++ r) 0 k = n := by
  rw [spec_be, uAt_front k n r h]

theorem uAt_here' (k n : Nat) (h : n < 256 ^ k) : uAt (be k n) 0 k = n := by
  have := uAt_here k n [] h
  rwa [List.append_nil] at this

/-- Unfolding `bind` instead (or the use as a definitional equality) would make the kernel evaluate the
bound computation. -/
theorem ok_bind {α β : Type} (a : α) (f : α → Py β) : ((Except.ok a : Py α) >>= f) = f a :=
  (Eq.refl (f a)).trans rfl

theorem error_bind {α β : Type} (e : Err) (f : α → Py β) :
    ((Except.error e : Py α) >>= f) = .error e := rfl

theorem pyAssert_ok : pyAssert true = .ok () := rfl

theorem needBytes_ok (b : Bytes) (off size : Nat) (h : off + size ≤ b.length) :
    needBytes b off size = .ok () := by unfold needBytes; rw [if_pos h]

/-! ## What is to be proved of one action -/

/-- A text that can stand in brackets and on one line. -/
structure InLine (e : Char) (s : Str) : Prop where
  ins : Inside e s
  line : '\n' ∉ s

theorem line_clean {s : Str} (h : Clean s) : '\n' ∉ s := fun hm => (h _ hm).1 (by decide)

theorem line_append {s t : Str} (hs : '\n' ∉ s) (ht : '\n' ∉ t) : '\n' ∉ s ++ t := by
  rw [List.mem_append]; exact fun h => h.elim hs ht

theorem line_cons {c : Char} {s : Str} (hc : c ≠ '\n') (hs : '\n' ∉ s) : '\n' ∉ c :: s := by
  rw [List.mem_cons]; exact fun h => h.elim (fun e => hc e.symm) hs

/-- The bytes `b` print as `text` and `text` is read as `b`, whatever stands around them. -/
structure ActTrip (b : Bytes) (text : Str) : Prop where
  long : 4 < b.length
  short : b.length < 65536
  lenf : ∀ rest, uAt (b ++ rest) 2 2 = b.length
  prints : ∀ rest, act2strOne (b ++ rest) = .ok text
  ne : text ≠ []
  start : PlainStart text
  noat : text.head? ≠ some '@'
  line : '\n' ∉ text
  reads : ∀ h r, Head h → AtEnd r → str2act (h ++ (text ++ r)) = .ok (b, h.length + text.length)

/-! ## Decoders -/

theorem std_prints (t : Nat) (body rest : Bytes) (d : ActDec) (ht : t < 65536) (h1 : t ≠ 25)
    (h2 : t ≠ 0xffff) (hl : 4 + body.length < 65536) (hd : lookupActDec (.std t) = some d) :
    act2strOne (u16 t ++ (u16 (4 + body.length) ++ body) ++ rest) = runActDec d body ∧
    uAt (u16 t ++ (u16 (4 + body.length) ++ body) ++ rest) 2 2 = 4 + body.length := by
  simp only [List.append_assoc]
  have e1 : uAt (u16 t ++ (u16 (4 + body.length) ++ (body ++ rest))) 0 2 = t := uAt_here 2 t _ ht
  have e2 : uAt (u16 t ++ (u16 (4 + body.length) ++ (body ++ rest))) 2 2 = 4 + body.length := by
    unfold u16
    rw [uAt_skip _ _ _ _ _ (by omega)]
    exact uAt_here 2 _ _ hl
  have e3 : slice (u16 t ++ (u16 (4 + body.length) ++ (body ++ rest))) 4 (4 + body.length) = body := by
    rw [← List.append_assoc]
    apply slice_middle
    · simp [u16_length]
    · simp [u16_length]
  refine ⟨?_, e2⟩
  have hk : actKey (u16 t ++ (u16 (4 + body.length) ++ (body ++ rest))) = .ok (.std t, 4) := by
    unfold actKey
    simp only [e1]
    rw [if_neg (by simpa [OFPAT_EXPERIMENTER] using h2)]
  unfold act2strOne
  simp only [hk, e2, bind, Except.bind, ActKey.num]
  rw [if_neg (by simpa [OFPAT_SET_FIELD] using h1), hd]
  dsimp only
  rw [e3]

theorem nx_prints (t : Nat) (body rest : Bytes) (d : ActDec) (ht : t < 65536) (h1 : t ≠ 25)
    (hl : 10 + body.length < 65536) (hd : lookupActDec (.nx t) = some d) :
    act2strOne (nxRaw t body ++ rest) = runActDec d body ∧
    uAt (nxRaw t body ++ rest) 2 2 = 10 + body.length := by
  unfold nxRaw
  simp only [List.append_assoc]
  generalize hm : u16 0xffff ++ (u16 (10 + body.length) ++ (u32 0x2320 ++ (u16 t ++ (body ++ rest)))) = m
  have e1 : uAt m 0 2 = 0xffff := by
    rw [← hm]; exact uAt_here 2 _ _ (by decide)
  have e2 : uAt m 2 2 = 10 + body.length := by
    rw [← hm]
    unfold u16
    rw [uAt_skip _ _ _ _ _ (by omega)]
    exact uAt_here 2 _ _ hl
  have e3 : uAt m 4 4 = 0x2320 := by
    rw [← hm]
    unfold u16 u32
    rw [uAt_skip _ _ _ _ _ (by omega), uAt_skip _ _ _ _ _ (by omega)]
    exact uAt_here 4 _ _ (by decide)
  have e4 : uAt m 8 2 = t := by
    rw [← hm]
    unfold u16 u32
    rw [uAt_skip _ _ _ _ _ (by omega), uAt_skip _ _ _ _ _ (by omega), uAt_skip _ _ _ _ _ (by omega)]
    exact uAt_here 2 _ _ ht
  have hlen : m.length = 10 + body.length + rest.length := by
    rw [← hm]; simp [u16_length, u32_length]; omega
  have e5 : slice m 10 (10 + body.length) = body := by
    rw [← hm, ← List.append_assoc, ← List.append_assoc, ← List.append_assoc]
    apply slice_middle
    · simp [u16_length, u32_length]
    · simp [u16_length, u32_length]
  refine ⟨?_, e2⟩
  have hk : actKey m = .ok (.nx t, 10) := by
    unfold actKey
    simp only [e1, e3, e4]
    rw [if_pos (by decide), needBytes_ok _ _ _ (by omega), needBytes_ok _ _ _ (by omega)]
    simp [NX_VENDOR_ID, bind, Except.bind]
  unfold act2strOne
  simp only [hk, e2, bind, Except.bind, ActKey.num]
  rw [if_neg (by simpa [OFPAT_SET_FIELD] using h1), hd]
  dsimp only
  rw [e5]

/-- A Nicira action: what its encoder and decoder have to do. -/
theorem nx_call (t : Nat) (body : Bytes) (name a : Str) (d : ActDec) (k : ActEnc) (ht : t < 65536)
    (h1 : t ≠ 25) (hl : (nxWire t body).length < 65536) (hd : lookupActDec (.nx t) = some d)
    (hk : lookupAct name = some k) (hc : Clean name) (hn : name ≠ []) (hat : name.head? ≠ some '@')
    (ha : InLine ')' a) (han : a ≠ [])
    (hp : runActDec d (body ++ fill (10 + body.length)) = .ok (name ++ '(' :: a ++ [')']))
    (he : ∃ l, runActEnc k a false = .ok (nxWire t body, l)) :
    ActTrip (nxWire t body) (name ++ '(' :: a ++ [')']) := by
  have hlen : (nxWire t body).length = 10 + (body ++ fill (10 + body.length)).length := by
    unfold nxWire; rw [nxRaw_length]
  have hd' := fun rest => nx_prints t (body ++ fill (10 + body.length)) rest d ht h1 (by omega) hd
  refine ⟨by omega, hl, fun rest => ?_, fun rest => ?_, by simp, ?_, ?_,
    line_append (line_append (line_clean hc) (line_cons (by decide) ha.line)) (by decide), ?_⟩
  · rw [hlen]; exact (hd' rest).2
  · rw [← hp]; exact (hd' rest).1
  · cases name with
    | nil => exact absurd rfl hn
    | cons c s =>
      have := hc c (by simp)
      exact plainStart_cons ⟨this.1, this.2.1, this.2.2.1⟩ _
  · cases name with
    | nil => exact absurd rfl hn
    | cons c s => simpa using hat
  · intro h r hh hr
    obtain ⟨l, he⟩ := he
    rw [str2act_call h name a r k hh hc hn ha.ins han hr hk, he]
    rfl

/-- A Nicira action that is one word. -/
theorem nx_word (t : Nat) (name : Str) (k : ActEnc) (ht : t < 65536) (h1 : t ≠ 25)
    (hd : lookupActDec (.nx t) = some (.null name)) (hk : lookupAct name = some (.null t))
    (hc : Clean name) (hn : name ≠ []) (hat : name.head? ≠ some '@') :
    ActTrip (nxWire t []) name := by
  have hlen : (nxWire t []).length = 10 + ([] ++ fill (10 + ([] : Bytes).length)).length := by
    unfold nxWire; rw [nxRaw_length]
  have hlen' : (nxWire t []).length = 16 := by
    rw [hlen]; decide
  have hd' := fun rest => nx_prints t ([] ++ fill (10 + ([] : Bytes).length)) rest _ ht h1 (by decide) hd
  refine ⟨by omega, by omega, fun rest => ?_, fun rest => ?_, hn, hc.plainStart, hat, line_clean hc, ?_⟩
  · rw [hlen]; exact (hd' rest).2
  · exact (hd' rest).1
  · intro h r hh hr
    rw [str2act_word h name r _ hh hc hn hr hk, runActEnc, nullStr2act]
    have := nxWrap_hdr t [] 0
    rw [List.append_nil] at this
    rw [this, if_pos (by omega)]
    rfl

end Ofpstr
