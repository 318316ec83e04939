import Verif.Lemmas.Decimal

/-!
# Helpers for the properties of whole matches
-/

namespace Ofpstr
open Spec

/-! ## headers -/

/-- A header whose length byte is at its limit. -/
theorem field_header_max (f : Field) (hf : f ∈ fields) (n : Nat) (hm : Bool)
    (h : 255 ≤ (if hm then 2 * n else n) + f.extra) :
    header (fieldKey f) n hm = f.header hm (255 - f.extra) := by
  have hok := table_fields _ hf
  simp only [fieldOk, Bool.and_eq_true, decide_eq_true_eq] at hok
  obtain ⟨⟨⟨h1, h2⟩, h3⟩, h4⟩ := hok
  have hx := fieldKey_extra f h2
  unfold Field.extra at h ⊢
  unfold Field.header u16 u8 u32
  have hl : (255 - if f.experimenter = true then 4 else 0) + (if f.experimenter = true then 4 else 0) = 255 := by
    split <;> omega
  rw [header_eq, h2, hx, hl, Nat.min_eq_left h]
  simp only [spec_be, List.append_assoc]
  have he : expId (fieldKey f).cls = if f.experimenter then beBytes 4 4278247501 else [] := by
    unfold expId Field.experimenter
    rw [← h2]
    cases (fieldKey f).cls <;> simp [Cls.code, STRATOS_EXPERIMENTER_ID]
  have hnum : (fieldKey f).num = f.num := rfl
  rw [hnum, he]

/-- The integer fields in the table of the library. -/
theorem lookupEnc_uint (f : Field) (hf : f ∈ fields) (m : Nat) (hk : f.kind = .uint m) :
    ∃ n, lookupEnc f.name = some (fieldKey f, .uint n) ∧ 2 * n + f.extra < 256 ∧
      (f.name ≠ t!"nxm_ct_label" → n = m) := by
  obtain ⟨k, hl, hk'⟩ := lookupEnc_of_field f hf
  by_cases hc : f.name = t!"nxm_ct_label"
  · refine ⟨4, ?_, by unfold Field.extra; split <;> omega, fun h => absurd hc h⟩
    have : lookupEnc t!"nxm_ct_label" = some (⟨.nxm1, 108⟩, .uint 4) := by decide +kernel
    rw [hc, this] at hl ⊢
    simp only [Option.some.injEq, Prod.mk.injEq] at hl
    rw [hl.1]
  · have := hk' hc
    rw [hk] at this
    refine ⟨m, by rw [hl, this]; rfl, ?_, fun _ => rfl⟩
    exact kind_sizes f hf m (by rw [hk]; rfl)

theorem header_plain (f : Field) (hf : f ∈ fields) (n : Nat) (h : 2 * n + f.extra < 256) :
    header (fieldKey f) n false = f.header false n := by
  unfold Field.extra at h
  exact (field_header f hf n false (by simp only [Bool.false_eq_true, if_false]; omega)).trans rfl

theorem header_masked (f : Field) (hf : f ∈ fields) (n : Nat) (h : 2 * n + f.extra < 256) :
    header (fieldKey f) n true = f.header true (2 * n) := by
  unfold Field.extra at h
  exact (field_header f hf n true (by simp only [if_true]; omega)).trans rfl

theorem str2oxmid_one (hm : Bool) (f : Field) (hf : f ∈ fields) (k : Enc)
    (hl : lookupEnc f.name = some (fieldKey f, k)) :
    str2oxmid hm f.name = .ok (encId (fieldKey f) k hm) := by
  have h := str2oxmidGo_names hm [f] [] (Or.inl rfl) (by simp [hf]) (by simp) (f.name.length + 1)
    (by simp [joinStr])
  simp only [List.map_cons, List.map_nil, joinStr, List.nil_append, List.flatMap_cons, List.flatMap_nil,
    List.append_nil, hl] at h
  exact h

/-! ## integer values -/

theorem uintStr2bin_plain (key : Key) (n : Nat) (s : Str) (v : Int) (h : IntSyntax s v s.length) :
    uintStr2bin key n s = .ok (header key n false ++ be n (v % (256 ^ n : Nat)).toNat, s.length) := by
  unfold uintStr2bin
  rw [(parseInt_iff _ _ _).2 h]
  simp [bind, Except.bind, startsWith_nil_slash, intBE_eq, spec_be]

theorem uintStr2bin_mask (key : Key) (n : Nat) (s t : Str) (v w : Int) (h : IntSyntax s v s.length)
    (h' : IntSyntax t w t.length) :
    uintStr2bin key n (s ++ '/' :: t) = .ok (header key n true ++
      (be n (v % (256 ^ n : Nat)).toNat ++ be n (w % (256 ^ n : Nat)).toNat), (s ++ '/' :: t).length) := by
  unfold uintStr2bin
  rw [(parseInt_iff _ _ _).2 (intSyntax_more h '/' t (by decide) (by decide))]
  simp only [bind, Except.bind, List.drop_left, startsWith_slash, if_true, drop_sep,
    (parseInt_iff _ _ _).2 h', intBE_eq, spec_be]
  congr 2
  simp
  omega

/-! ## TLV sequences -/

theorem encSize_kindEnc (k : Kind) : encSize (kindEnc k) = k.size := by cases k <;> rfl

theorem str2oxmOne_tlv {u : Str} {bin : Bytes} {l : Nat} {p r : Str}
    (h : str2oxmOne u = .ok (bin, l, p, r)) (rest : Bytes) (hr : TlvSeq rest) : TlvSeq (bin ++ rest) := by
  obtain ⟨hd, name, w1, w2, key, k, r1, _, _, _, _, _, _, hlk, he⟩ := str2oxmOne_parts h
  obtain ⟨f, hf, rfl, hkey, hk⟩ := lookupEnc_field hlk
  subst hkey
  obtain ⟨n, hm, body, rfl, hb, hsz⟩ := encText_shape _ _ _ _ _ he
  by_cases hfit : body.length + f.extra ≤ 255
  · rw [field_header f hf n hm (by rw [← hb]; unfold Field.extra at hfit; omega), ← hb]
    exact TlvSeq.exact f hm body rest hf hfit hr
  · rw [field_header_max f hf n hm (by rw [← hb]; omega)]
    refine TlvSeq.tooLong f hm body rest hf ?_ (by omega) hr
    cases hkd : f.kind.size with
    | none =>
      revert hkd
      cases f.kind <;> simp [Kind.size]
    | some m =>
      exfalso
      apply hfit
      have hlim := kind_sizes f hf m hkd
      have hn : n = m ∨ n = 4 := by
        rcases hk with hk | hk
        · left; apply hsz; rw [← hk, encSize_kindEnc, hkd]
        · right; apply hsz; rw [hk.2]; rfl
      rw [hb]
      unfold Field.extra
      rcases hn with rfl | rfl
      · cases hm <;> simp only [Bool.false_eq_true, if_false, if_true] <;> omega
      · cases hm <;> simp <;> split <;> omega

theorem str2oxmGo_tlvs (fuel : Nat) (u : Str) (b : Bytes) (rest : Str)
    (h : str2oxmGo true fuel u = .ok (b, rest)) : TlvSeq b := by
  induction fuel generalizing u b rest with
  | zero => cases h
  | succ fuel ih =>
    rw [str2oxmGo] at h
    split at h
    · cases h; exact TlvSeq.nil
    · obtain ⟨⟨bin, l, p, r⟩, hone, h⟩ := bind_ok h
      dsimp only at h
      split at h
      · simp only [Except.ok.injEq, Prod.mk.injEq] at h
        rw [← h.1]; exact TlvSeq.nil
      · obtain ⟨_, ha, h⟩ := bind_ok h
        rw [if_pos rfl] at h
        obtain ⟨⟨msg, rest'⟩, hrec, h⟩ := bind_ok h
        simp only [Except.ok.injEq, Prod.mk.injEq] at h
        rw [← h.1]
        exact str2oxmOne_tlv hone msg (ih _ _ _ hrec)

theorem header_walk (f : Field) (hm : Bool) (n : Nat) (h : n + f.extra ≤ 255) :
    ∃ a b c l e, f.header hm n = a :: b :: c :: l :: e ∧ e.length = f.extra ∧ l.toNat = n + f.extra := by
  unfold Field.header u16 u8 u32
  unfold Field.extra at *
  simp only [spec_be]
  refine ⟨_, _, _, _, _, by simp [beBytes]; exact ⟨rfl, rfl, rfl, rfl, rfl⟩, ?_, ?_⟩
  · split <;> simp [beBytes]
  · simp
    omega

theorem tlvSeq_walk (b : Bytes) (h : TlvSeq b) (hl : b.length < 260) : Walk b := by
  induction h with
  | nil => exact Walk.nil
  | exact f hm body rest hf hfit _ ih =>
    obtain ⟨a, b, c, l, e, he, hel, hl'⟩ := header_walk f hm body.length hfit
    rw [he]
    have := Walk.cons a b c l (e ++ body) rest (by simp [hel, hl']; omega) (ih (by
      rw [List.length_append] at hl; omega))
    simpa using this
  | tooLong f hm body rest hf hk hfit _ ih =>
    exfalso
    have hx : f.extra = 0 ∨ f.extra = 4 := by unfold Field.extra; split <;> simp
    obtain ⟨a, b, c, l, e, he, hel, hl'⟩ := header_walk f hm (255 - f.extra) (by omega)
    rw [he] at hl
    simp at hl
    omega

theorem walk_cons {a b c l : UInt8} {x : Bytes} (h : Walk (a :: b :: c :: l :: x)) :
    Walk (x.drop l.toNat) := by
  generalize hy : a :: b :: c :: l :: x = y at h
  cases h with
  | nil => cases hy
  | cons a' b' c' l' body rest h1 h2 =>
    simp only [List.cons.injEq] at hy
    obtain ⟨_, _, _, rfl, rfl⟩ := hy
    rw [← h1, List.drop_left]
    exact h2

/-! ## rejected texts -/

theorem getToken_chars (s : Str) (c : Char) (h : c ∈ (getToken s).1 ∨ c ∈ (getToken s).2.2) : c ∈ s := by
  rw [← getToken_append s]
  rcases h with h | h <;> simp [h]

theorem str2oxm_no_eq (u : Str) (hu : u ≠ []) (h : '=' ∉ u) : str2oxm u = .error .assertionError := by
  unfold str2oxm str2oxmL
  rw [str2oxmGo, if_neg (by simpa using hu)]
  unfold str2oxmOne
  rcases hg : getToken u with ⟨hd, name, r1⟩
  rcases hg2 : getToken r1 with ⟨op, p, r⟩
  have h1 : '=' ∉ op := by
    intro hc
    have := getToken_chars r1 '=' (by rw [hg2]; exact Or.inl hc)
    exact h (getToken_chars u '=' (by rw [hg]; exact Or.inr this))
  have h2 : hasChar op '=' = false := by
    rw [← Bool.not_eq_true, hasChar, List.contains_iff_mem]; exact h1
  dsimp only
  simp only [hg2, h2]
  simp [pyAssert, bind, Except.bind]

theorem getToken_eq_head (r : Str) : hasChar (getToken ('=' :: r)).1 '=' = true := by
  have hho := tokenHead_headOf ('=' :: r)
  rw [← getToken_fst] at hho
  generalize hs : ('=' :: r) = s at hho
  rcases hg : getToken s with ⟨h, b, t⟩
  rw [hg] at hho
  dsimp only at hho
  cases hho with
  | eq w1 w2 r h1 h2 h3 => simp [hasChar]
  | run h r' h1 h2 h3 =>
    obtain ⟨c, hc, _⟩ := h1 [] r (by rw [← hs]; rfl)
    cases hc

theorem str2oxm_unknown (name r : Str) (hc : PlainText name) (hn : name ≠ [])
    (h : ∀ f ∈ fields, f.name ≠ name) : str2oxm (name ++ '=' :: r) = .error .keyError := by
  have hcl : Clean name := hc
  have g1 := getToken_plain hcl.token (atEnd_eq r) hcl.plainStart hn
  have g2 := getToken_eq_head r
  have hl : lookupEnc name = none := by
    cases hl : lookupEnc name with
    | none => rfl
    | some x =>
      obtain ⟨f, hf, he, _⟩ := lookupEnc_field (key := x.1) (k := x.2) hl
      exact absurd he (h f hf)
  unfold str2oxm str2oxmL
  rw [str2oxmGo, if_neg (by simp)]
  unfold str2oxmOne
  rcases hg : getToken ('=' :: r) with ⟨op, p, r2⟩
  rw [hg] at g2
  dsimp only at g2
  simp only [g1, hg, hl, g2, bind, Except.bind]
  simp [pyAssert, hasChar]

/-! ## unknown classes -/

theorem oxm2strGo_fuel (f1 f2 : Nat) (b : Bytes) (h1 : b.length < f1) (h2 : b.length < f2) :
    oxm2strGo f1 b = oxm2strGo f2 b := by
  induction f1 generalizing f2 b with
  | zero => omega
  | succ f1 ih =>
    cases f2 with
    | zero => omega
    | succ f2 =>
      rw [oxm2strGo, oxm2strGo]
      split
      · rfl
      · rw [ih f2 _ (by simp; omega) (by simp; omega)]

theorem oxm2str_question (a b c l : UInt8) (body rest : Bytes) (hl : body.length = l.toNat)
    (hq : oxm2strOne (a :: b :: c :: l :: (body ++ rest)) = .ok t!"?") :
    oxm2str (a :: b :: c :: l :: (body ++ rest)) =
      if rest.length < 4 then .ok t!"?" else (oxm2str rest).map (t!"?," ++ ·) := by
  have h3 : uAt (a :: b :: c :: l :: (body ++ rest)) 3 1 = l.toNat := by
    simp [uAt, slice, beVal]
  have hd : (a :: b :: c :: l :: (body ++ rest)).drop (4 + l.toNat) = rest := by
    rw [Nat.add_comm, ← hl]; simp
  unfold oxm2str
  rw [oxm2strGo, if_neg (by simp)]
  rw [hq, h3, hd]
  rw [oxm2strGo_fuel _ (rest.length + 1) rest (by simp; omega) (by omega)]
  simp only [bind, Except.bind]
  by_cases hr : rest.length < 4
  · rw [if_pos hr]
    simp [oxm2strGo, hr, joinStr]
  · rw [if_neg hr]
    have hne : ∀ toks, oxm2strGo (rest.length + 1) rest = .ok toks → toks ≠ [] := by
      intro toks ht
      rw [oxm2strGo, if_neg hr] at ht
      obtain ⟨tok, _, ht⟩ := bind_ok ht
      obtain ⟨r, _, ht⟩ := bind_ok ht
      cases ht; simp
    cases hg : oxm2strGo (rest.length + 1) rest with
    | error e => rfl
    | ok toks =>
      cases toks with
      | nil => exact absurd rfl (hne _ hg)
      | cons x xs => simp [joinStr, Except.map]

theorem oxm2strOne_unknown_class (a b c l : UInt8) (x : Bytes)
    (h : a.toNat * 256 + b.toNat ∉ [0, 1, 0x8000, 0xffff]) :
    oxm2strOne (a :: b :: c :: l :: x) = .ok t!"?" := by
  have h0 : uAt (a :: b :: c :: l :: x) 0 2 = a.toNat * 256 + b.toNat := by
    simp [uAt, slice, beVal]
  generalize a.toNat * 256 + b.toNat = k at h0 h
  simp at h
  unfold oxm2strOne
  simp [h0, OFPXMC_EXPERIMENTER, OFPXMC_OPENFLOW_BASIC, OFPXMC_NXM_0, OFPXMC_NXM_1, h]

theorem oxm2strOne_unknown_exp (c l e1 e2 e3 e4 : UInt8) (x : Bytes)
    (h : [e1, e2, e3, e4] ≠ u32 0xff00e04d) :
    oxm2strOne (255 :: 255 :: c :: l :: e1 :: e2 :: e3 :: e4 :: x) = .ok t!"?" := by
  have h0 : uAt (255 :: 255 :: c :: l :: e1 :: e2 :: e3 :: e4 :: x) 0 2 = 0xffff := by
    simp [uAt, slice, beVal]
  have h4 : uAt (255 :: 255 :: c :: l :: e1 :: e2 :: e3 :: e4 :: x) 4 4 = beVal [e1, e2, e3, e4] := by
    simp [uAt, slice]
  have hne : beVal [e1, e2, e3, e4] ≠ 0xff00e04d := by
    intro he
    apply h
    rw [u32, spec_be, ← he]
    exact (beBytes_beVal [e1, e2, e3, e4]).symm
  unfold oxm2strOne
  simp [h0, h4, OFPXMC_EXPERIMENTER, STRATOS_EXPERIMENTER_ID, needBytes, hne, bind, Except.bind]

end Ofpstr

namespace Ofpstr

theorem str2oxmOne_rest_le {u : Str} {bin : Bytes} {l : Nat} {p r : Str}
    (h : str2oxmOne u = .ok (bin, l, p, r)) : r.length ≤ u.length := by
  obtain ⟨hd, name, w1, w2, key, k, r1, _, _, hu, _⟩ := str2oxmOne_parts h
  rw [hu]; simp; omega

theorem str2oxmGo_rest (fuel : Nat) (u : Str) (b : Bytes) (rest : Str)
    (h : str2oxmGo true fuel u = .ok (b, rest)) : rest.length ≤ u.length := by
  induction fuel generalizing u b rest with
  | zero => cases h
  | succ fuel ih =>
    rw [str2oxmGo] at h
    split at h
    · cases h; simp
    · obtain ⟨⟨bin, l, p, r⟩, hone, h⟩ := bind_ok h
      have h1 := str2oxmOne_rest_le hone
      dsimp only at h
      split at h
      · simp only [Except.ok.injEq, Prod.mk.injEq] at h
        rw [← h.2]; exact h1
      · obtain ⟨_, ha, h⟩ := bind_ok h
        rw [if_pos rfl] at h
        obtain ⟨⟨msg, rest'⟩, hrec, h⟩ := bind_ok h
        simp only [Except.ok.injEq, Prod.mk.injEq] at h
        have := ih _ _ _ hrec
        rw [← h.2]; omega

end Ofpstr
