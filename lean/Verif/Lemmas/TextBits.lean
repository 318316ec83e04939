import Verif.Lemmas.TextFunc

/-!
# Bit ranges, words from a list, ports: the parts of the texts of Nicira actions
-/

set_option linter.unusedSimpArgs false

namespace Ofpstr
open Spec

theorem tok_get {u h v r : Str} (t : Tok u h v r) : getToken u = (h, v, r) := (getToken_iff _ _ _ _).2 t

theorem eq_tok {u h v r : Str} (t : getToken u = (h, v, r)) : Tok u h v r := (getToken_iff _ _ _ _).1 t

theorem tok_len {u h v r : Str} (t : Tok u h v r) : h.length + v.length = u.length - r.length := by
  rw [t.1]; simp; omega

theorem tok_le {u h v r : Str} (t : Tok u h v r) : r.length ≤ u.length := by
  rw [t.1]; simp; omega

/-! ## The frame -/

theorem nxWrap_iff {r : Py (Bytes × Nat)} {P : Nat → Bytes → Nat → Prop} {b : Bytes} {n : Nat}
    (h : ∀ bin n, r = .ok (bin, n) ↔ ∃ t body, P t body n ∧ bin = nxastHdr t ++ body) :
    nxWrap r = .ok (b, n) ↔ ∃ t body, P t body n ∧ (nxWire t body).length < 65536 ∧ b = nxWire t body := by
  constructor
  · intro h1
    obtain ⟨bin, h2, h3⟩ := nxWrap_inv h1
    obtain ⟨t, body, h4, rfl⟩ := (h _ _).1 h2
    rw [nxWrap_hdr] at h3
    split at h3
    · rename_i hl; cases h3; exact ⟨t, body, h4, hl, rfl⟩
    · cases h3
  · rintro ⟨t, body, h1, h2, rfl⟩
    rw [(h _ _).2 ⟨t, body, h1, rfl⟩, nxWrap_hdr, if_pos h2]

/-! ## Words from a list -/

theorem tupleIndex_iff {names : List Str} (hn : names.Nodup) (s : Str) (v : Int) :
    tupleIndex names s = .ok v ↔ ∃ i : Nat, names[i]? = some s ∧ v = i := by
  unfold tupleIndex
  dsimp only
  constructor
  · intro h
    split at h
    · rename_i hi
      cases h
      refine ⟨_, ?_, rfl⟩
      rw [List.getElem?_eq_getElem hi, List.getElem_idxOf hi]
    · cases h
  · rintro ⟨i, hi, rfl⟩
    obtain ⟨h1, h2⟩ := List.getElem?_eq_some_iff.1 hi
    have hlt : names.idxOf s < names.length := List.idxOf_lt_length_iff.2 (h2 ▸ List.getElem_mem h1)
    have : names.idxOf s = i := by
      have e : names[names.idxOf s] = names[i] := by rw [List.getElem_idxOf hlt, h2]
      rw [List.nodup_iff_pairwise_ne, List.pairwise_iff_getElem] at hn
      rcases Nat.lt_trichotomy (names.idxOf s) i with h | h | h
      · exact absurd e (hn _ _ hlt h1 h)
      · exact h
      · exact absurd e.symm (hn _ _ h1 hlt h)
    rw [this, if_pos h1]

theorem hash_iff (s : Str) (v : Int) : tupleIndex nxHashNames s = .ok v ↔ ∃ i : Nat, hashWords[i]? = some s ∧ v = i :=
  tupleIndex_iff (by decide) s v

theorem mpAlg_iff (s : Str) (v : Int) : tupleIndex nxMpAlgNames s = .ok v ↔ ∃ i : Nat, mpAlgWords[i]? = some s ∧ v = i :=
  tupleIndex_iff (by decide) s v

theorem bdAlg_iff (s : Str) (v : Int) : tupleIndex nxBdAlgNames s = .ok v ↔ ∃ i : Nat, bdAlgWords[i]? = some s ∧ v = i :=
  tupleIndex_iff (by decide) s v

/-! ## Ports and tables of `resubmit` -/

theorem char_le (a b : Char) : a ≤ b ↔ a.toNat ≤ b.toNat := by
  rw [Char.le_def, UInt32.le_iff_toNat_le]; rfl

theorem ofNat_toNat (n : Nat) (h : n < 128) : (Char.ofNat n).toNat = n := by
  have key : ∀ i : Fin 128, (Char.ofNat i.1).toNat = i.1 := by decide +kernel
  exact key ⟨n, h⟩

theorem char_ext {a b : Char} (h : a.toNat = b.toNat) : a = b := by
  apply Char.ext
  exact UInt32.toNat_inj.1 h

theorem toNat_A : 'A'.toNat = 65 := rfl
theorem toNat_Z : 'Z'.toNat = 90 := rfl
theorem toNat_a : 'a'.toNat = 97 := rfl
theorem toNat_z : 'z'.toNat = 122 := rfl

theorem upperChar_iff (c d : Char) (hd : d.toNat < 97) : upperChar c = d ↔
    c = d ∨ ('A' ≤ d ∧ d ≤ 'Z' ∧ c.toNat = d.toNat + 32) := by
  unfold upperChar
  simp only [char_le, toNat_A, toNat_Z, toNat_a, toNat_z]
  split
  · rename_i h
    have e := ofNat_toNat (c.toNat - 32) (by omega)
    constructor
    · intro hc
      subst hc
      right
      omega
    · rintro (rfl | h')
      · omega
      · apply char_ext
        omega
  · rename_i h
    constructor
    · exact Or.inl
    · rintro (rfl | h')
      · rfl
      · omega

theorem anyCase_iff (s w : Str) (hw : ∀ c ∈ w, c.toNat < 97) : upperStr s = w ↔ AnyCase s w := by
  unfold upperStr
  induction w generalizing s with
  | nil =>
    constructor
    · intro h
      rw [List.map_eq_nil_iff] at h
      subst h
      exact .nil
    · intro h; cases h; rfl
  | cons d w ih =>
    have ih := fun s => ih s (fun c hc => hw c (by simp [hc]))
    have hd := hw d (by simp)
    constructor
    · intro h
      cases s with
      | nil => cases h
      | cons c s =>
        simp only [List.map_cons, List.cons.injEq] at h
        have h2 := (ih s).1 h.2
        rcases (upperChar_iff c d hd).1 h.1 with rfl | ⟨h3, h4, h5⟩
        · exact .same c s w h2
        · exact .lower c d s w h3 h4 h5 h2
    · intro h
      cases h with
      | same _ s _ h => rw [List.map_cons, (ih s).2 h, (upperChar_iff d d hd).2 (Or.inl rfl)]
      | lower c _ s _ h1 h2 h3 h => rw [List.map_cons, (ih s).2 h, (upperChar_iff c d hd).2 (Or.inr ⟨h1, h2, h3⟩)]

/-- Numbers start with a digit or a sign; the names do not. -/
theorem intSyntax_head {s : Str} {v : Int} {l : Nat} (h : IntSyntax s v l) : ∃ c t, s = c :: t ∧ c.toNat < 58 := by
  have h := (parseInt_iff _ _ _).2 h
  cases s with
  | nil => cases h
  | cons c s =>
    refine ⟨c, s, rfl, ?_⟩
    by_contra hc
    have h1 : c ≠ '-' := by rintro rfl; exact hc (by decide)
    have h2 : c ≠ '0' := by rintro rfl; exact hc (by decide)
    have h3 : isDec c = false := by
      by_contra hd
      obtain ⟨d, hd⟩ := (isDec_iff c).1 (by simpa using hd)
      have := (digit_iff 10 (by omega) c d).1 hd
      unfold digitVal at this
      have h4 := this.1
      have h5 := this.2
      dsimp only at h4
      split at h4
      · omega
      · split at h4
        · cases h4; omega
        · split at h4
          · cases h4; omega
          · cases h4
    revert h
    simp [error_bind, parseInt, longest, startsWith, h1, h2, h3, Ne.symm h1, Ne.symm h2, List.isPrefixOf, intOfDigits]

theorem anyCase_noInt {s w : Str} {v : Int} {l : Nat} (h : AnyCase s w) (hw : ∀ c ∈ w, 65 ≤ c.toNat) (hi : IntSyntax s v l) :
    False := by
  obtain ⟨c, t, rfl, hc⟩ := intSyntax_head hi
  cases h with
  | same _ _ _ h => have := hw c (by simp); omega
  | lower _ d _ _ h1 h2 h3 h =>
    have := hw d (by simp)
    omega

theorem resubmitPort_iff (p : Str) (v : Int) : resubmitPort p = .ok v ↔ ResubmitPort p v := by
  unfold resubmitPort
  have hu := anyCase_iff p t!"IN_PORT" (by decide)
  constructor
  · intro h
    split at h
    · rename_i hc
      cases h
      exact .inPort p (hu.1 (by simpa using hc))
    · simp only [bind_iff, Prod.exists, parseInt_iff, pyAssert_iff, beq_iff_eq, decide_eq_true_eq] at h
      obtain ⟨n, l, h1, _, h2, _, h3, h4⟩ := h
      cases h4
      subst h2
      exact .num p _ h1 h3
  · intro h
    cases h with
    | inPort h => rw [if_pos (by simpa using hu.2 h)]
    | num _ h1 h2 =>
      rw [if_neg (by
        intro h
        exact anyCase_noInt (hu.1 (by simpa using h)) (by decide) h1)]
      rw [(parseInt_iff _ _ _).2 h1, ok_bind]
      dsimp only
      rw [show pyAssert (p.length == p.length) = .ok () by simp [pyAssert], ok_bind,
        show pyAssert (decide (v < 0xff00)) = .ok () by simp [pyAssert, h2], ok_bind]

theorem resubmitTbl_iff (p : Str) (v : Int) : resubmitTbl p = .ok v ↔ ResubmitTable p v := by
  unfold resubmitTbl
  have hu := anyCase_iff p t!"ALL" (by decide)
  constructor
  · intro h
    split at h
    · rename_i hc
      cases h
      rw [Bool.or_eq_true] at hc
      rcases hc with hc | hc
      · cases p with
        | nil => exact .absent
        | cons c p => cases hc
      · exact .all p (hu.1 (by simpa using hc))
    · simp only [bind_iff, Prod.exists, parseInt_iff, pyAssert_iff, beq_iff_eq, decide_eq_true_eq] at h
      obtain ⟨n, l, h1, _, h2, h4⟩ := h
      cases h4
      subst h2
      exact .num p _ h1
  · intro h
    cases h with
    | absent => rfl
    | all _ h => rw [if_pos (by simp [hu.2 h])]
    | num _ _ h1 =>
      rw [if_neg (by
        intro h
        rw [Bool.or_eq_true] at h
        rcases h with h | h
        · obtain ⟨c, t, rfl, _⟩ := intSyntax_head h1
          cases h
        · exact anyCase_noInt (hu.1 (by simpa using h)) (by decide) h1)]
      rw [(parseInt_iff _ _ _).2 h1, ok_bind]
      dsimp only
      rw [show pyAssert (p.length == p.length) = .ok () by simp [pyAssert], ok_bind]

/-! ## Bit ranges -/

theorem pyInt_nonempty {s : Str} {v : Int} (h : PyInt s v) : s ≠ [] := by
  rintro rfl
  have := (pyInt_iff _ _).2 h
  cases this

theorem optInt_iff (x : Str) (o : Option Int) : optInt x = .ok o ↔
    (x = [] ∧ o = none) ∨ ∃ v, PyInt x v ∧ o = some v := by
  unfold optInt
  cases x with
  | nil =>
    simp
    constructor
    · rintro rfl; exact Or.inl rfl
    · rintro (h | ⟨v, h, _⟩)
      · exact h.symm
      · exact absurd rfl (pyInt_nonempty h)
  | cons c x =>
    simp only [List.isEmpty_cons, Bool.false_eq_true, if_false, bind_iff, pyInt_iff]
    simp
    constructor
    · rintro ⟨v, h, rfl⟩; exact ⟨v, h, rfl⟩
    · rintro ⟨v, h, rfl⟩; exact ⟨v, h, rfl⟩

theorem intBound_iff (d : Int) (x : Str) (v : Int) : IntBound d x v ↔ ∃ o, optInt x = .ok o ∧ v = o.getD d := by
  constructor
  · intro h
    cases h with
    | absent => exact ⟨none, rfl, rfl⟩
    | num _ _ h => exact ⟨some v, (optInt_iff _ _).2 (Or.inr ⟨v, h, rfl⟩), rfl⟩
  · rintro ⟨o, h, rfl⟩
    rcases (optInt_iff _ _).1 h with ⟨rfl, rfl⟩ | ⟨v, h', rfl⟩
    · exact .absent
    · exact .num x v h'

theorem optInt_nocolon {x : Str} {o : Option Int} (h : optInt x = .ok o) : ∀ c ∈ x, c ≠ ':' := by
  rcases (optInt_iff _ _).1 h with ⟨rfl, _⟩ | ⟨v, h, _⟩
  · simp
  · rintro c hc rfl; exact pyInt_nocolon h hc

/-- Two numbers with a colon between them, as `optPair` reads them. -/
theorem optPair_iff (a : Str) (o o' : Option Int) : optPair a = .ok (o, o') ↔
    ∃ x y, a = x ++ ':' :: y ∧ optInt x = .ok o ∧ optInt y = .ok o' := by
  unfold optPair
  constructor
  · intro h
    rcases hs : split1 ':' a with ⟨x, y⟩
    rw [hs] at h
    dsimp only at h
    obtain ⟨_, hi⟩ := split1_inv hs
    obtain ⟨p, h1, h⟩ := bind_ok h
    cases y with
    | none => cases h
    | some y =>
      obtain ⟨q, h2, h⟩ := bind_ok h
      cases h
      exact ⟨x, y, hi, h1, h2⟩
  · rintro ⟨x, y, rfl, h1, h2⟩
    rw [split1_some _ _ _ (optInt_nocolon h1)]
    dsimp only
    rw [h1, ok_bind, h2, ok_bind]

theorem intPair_iff (a : Str) (v w : Int) : intPair a = .ok (v, w) ↔
    ∃ x y, a = x ++ ':' :: y ∧ PyInt x v ∧ PyInt y w := by
  unfold intPair
  constructor
  · intro h
    rcases hs : split1 ':' a with ⟨x, y⟩
    rw [hs] at h
    dsimp only at h
    obtain ⟨_, hi⟩ := split1_inv hs
    obtain ⟨p, h1, h⟩ := bind_ok h
    cases y with
    | none => cases h
    | some y =>
      obtain ⟨q, h2, h⟩ := bind_ok h
      cases h
      exact ⟨x, y, hi, (pyInt_iff _ _).1 h1, (pyInt_iff _ _).1 h2⟩
  · rintro ⟨x, y, rfl, h1, h2⟩
    rw [split1_some _ _ _ (by rintro c hc rfl; exact pyInt_nocolon h1 hc)]
    dsimp only
    rw [(pyInt_iff _ _).2 h1, ok_bind, (pyInt_iff _ _).2 h2, ok_bind]

/-- An argument is missing or empty, or not empty. -/
theorem noArg_cases (a : Option Str) : NoArg a ∨ ∃ c cs, a = some (c :: cs) := by
  rcases a with _ | _ | ⟨c, cs⟩
  · exact Or.inl (Or.inl rfl)
  · exact Or.inl (Or.inr rfl)
  · exact Or.inr ⟨c, cs, rfl⟩

theorem append_cons_ne (x y : Str) (d : Char) : ∃ c cs, x ++ d :: y = c :: cs := by
  cases x with
  | nil => exact ⟨_, _, rfl⟩
  | cons c x => exact ⟨_, _, rfl⟩

theorem nameId_size (f : Field) (hf : f ∈ fields) : (if uAt (f.nameId false) 0 2 == 0xffff then (uAt (f.nameId false) 3 1 : Int) - 4
    else uAt (f.nameId false) 3 1) = (f.nameLen false : Int) := by
  obtain ⟨_, h1, h2, _, _⟩ := nameId_parts f hf false
  rw [h1]
  cases he : f.experimenter <;> rw [he] at h2
  · rw [if_neg (by rw [h2]; decide)]
    simp [Field.extra, he]
  · rw [if_pos h2]
    simp [Field.extra, he]

theorem nameId_nonempty (f : Field) (hf : f ∈ fields) (m : Bool) : f.nameId m ≠ [] := by
  obtain ⟨_, _, _, h, _⟩ := nameId_parts f hf m
  intro e
  rw [e, List.length_nil] at h
  omega

theorem needBytes_nil : needBytes [] 0 4 ≠ .ok () := by decide

/-- `get_bits` with a known field. -/
theorem getBits_known {u h t r : Str} {f : Field} {arg : Option Str} (hu : Tok u h t r) (ht : Func t f.name arg)
    (hf : f ∈ fields) : getBits u = (match (generalizing := false) arg with
      | none => .ok (f.nameId false, 0, (f.nameLen false : Int) * 8, r)
      | some [] => .ok (f.nameId false, 0, (f.nameLen false : Int) * 8, r)
      | some (c :: cs) => do
        let (x, y) := split1 ':' (c :: cs)
        let shift ← optInt x
        match y with
        | none => .error .valueError
        | some y =>
          let limit ← optInt y
          .ok (f.nameId false, shift.getD 0, limit.getD ((f.nameLen false : Int) * 8) - shift.getD 0, r)) := by
  unfold getBits
  rw [tok_get hu]
  dsimp only
  rw [(func_iff _ _ _).2 ht, ok_bind]
  dsimp only
  rw [(oxmid_iff false f.name (name_self (tok_get hu) ht) _).2 (.known f hf), ok_bind, (nameId_parts f hf false).1, ok_bind,
    nameId_size f hf]
  rcases arg with _ | _ | ⟨c, cs⟩ <;> rfl

theorem getBits_iff (u : Str) (id : Bytes) (s n : Int) (r : Str) : getBits u = .ok (id, s, n, r) ↔
    ∃ f b, Bits u f s b r ∧ id = f.nameId false ∧ n = b - s := by
  constructor
  · intro h
    rcases hg : getToken u with ⟨hd, t, r'⟩
    have hu := eq_tok hg
    have h' := h
    unfold getBits at h'
    rw [hg] at h'
    dsimp only at h'
    obtain ⟨⟨nm, arg⟩, h1, h'⟩ := bind_ok h'
    have hf := (func_iff _ _ _).1 h1
    dsimp only at h'
    obtain ⟨id', h2, h'⟩ := bind_ok h'
    have hid := (oxmid_iff false nm (name_self hg hf) _).1 h2
    obtain ⟨⟨⟩, h3, _⟩ := bind_ok h'
    clear h'
    cases hid with
    | unknown _ _ => exact absurd h3 needBytes_nil
    | known f hm =>
      rw [getBits_known hu hf hm] at h
      rcases arg with _ | _ | ⟨c, cs⟩
      · cases h
        exact ⟨f, (8 * f.nameLen false : Nat), .whole u hd t f none _ hu hf (Or.inl rfl) hm, rfl, by omega⟩
      · cases h
        exact ⟨f, (8 * f.nameLen false : Nat), .whole u hd t f (some []) _ hu hf (Or.inr rfl) hm, rfl, by omega⟩
      · dsimp only at h
        rcases hs : split1 ':' (c :: cs) with ⟨x, y⟩
        rw [hs] at h
        dsimp only at h
        obtain ⟨_, hi⟩ := split1_inv hs
        obtain ⟨o, h4, h⟩ := bind_ok h
        cases y with
        | none => cases h
        | some y =>
          obtain ⟨o', h5, h⟩ := bind_ok h
          cases h
          dsimp only at hi
          rw [hi] at hf
          refine ⟨f, o'.getD (8 * f.nameLen false : Nat), .range u hd t f x y _ _ _ hu hf hm ((intBound_iff _ _ _).2 ⟨o, h4, rfl⟩)
            ((intBound_iff _ _ _).2 ⟨o', h5, rfl⟩), rfl, ?_⟩
          have : (f.nameLen false : Int) * 8 = (8 * f.nameLen false : Nat) := by omega
          rw [this]
  · rintro ⟨f, b, h, rfl, rfl⟩
    cases h with
    | whole hd t _ arg _ hu hf ha hm =>
      rw [getBits_known hu hf hm]
      have : (f.nameLen false : Int) * 8 = (8 * f.nameLen false : Nat) - 0 := by omega
      rcases ha with rfl | rfl <;> dsimp only <;> rw [this]
    | range hd t _ x y _ _ _ hu hf hm h1 h2 =>
      rw [getBits_known hu hf hm]
      obtain ⟨c, cs, e⟩ := append_cons_ne x y ':'
      obtain ⟨o, k1, rfl⟩ := (intBound_iff _ _ _).1 h1
      obtain ⟨o', k2, rfl⟩ := (intBound_iff _ _ _).1 h2
      rw [e]
      dsimp only
      rw [← e, split1_some _ _ _ (optInt_nocolon k1)]
      dsimp only
      rw [k1, ok_bind, k2, ok_bind]
      have : (f.nameLen false : Int) * 8 = (8 * f.nameLen false : Nat) := by omega
      rw [this]

/-- The bounds of a range where both must be there. -/
def endPair (doxmid : Bytes) (len : Py Unit) (dargs : Option Str) : Py (Int × Int) :=
  match dargs with
  | some (c :: cs) => intPair (c :: cs)
  | _ => do
    len
    .ok (0, (uAt doxmid 3 1 : Int) * 8)

theorem endBits_iff (mask exper : Bool) (len : Bytes → Py Unit)
    (hlen : ∀ b, len b = .ok () ↔ if exper then 4 ≤ b.length else b.length = 4) {u h s r : Str}
    (hs : getToken u = (h, s, r)) (id : Bytes) (a b : Int) : EndBits mask exper s id a b ↔
    ∃ n arg, parseFunc s = .ok (n, arg) ∧ str2oxmid mask n = .ok id ∧ endPair id (len id) arg = .ok (a, b) := by
  constructor
  · intro h
    cases h with
    | whole f arg hf ha hm hx =>
      refine ⟨_, _, (func_iff _ _ _).2 hf, (oxmid_iff _ _ (name_self hs hf) _).2 (.known f hm), ?_⟩
      obtain ⟨_, h1, _, h2, _⟩ := nameId_parts f hm mask
      have hl : len (f.nameId mask) = .ok () := by
        rw [hlen, h2]
        cases hxx : exper
        · cases he : f.experimenter
          · simp [Field.extra, he]
          · exact absurd (hx he) (by simp [hxx])
        · simp
      have e : endPair (f.nameId mask) (len (f.nameId mask)) arg = .ok (0, (uAt (f.nameId mask) 3 1 : Int) * 8) := by
        unfold endPair
        rw [hl]
        rcases ha with rfl | rfl <;> rfl
      rw [e, h1]
      congr 2
      omega
    | range n x y _ _ _ hf hid h1 h2 =>
      refine ⟨_, _, (func_iff _ _ _).2 hf, (oxmid_iff _ _ (name_self hs hf) _).2 hid, ?_⟩
      obtain ⟨c, cs, e⟩ := append_cons_ne x y ':'
      rw [e]
      unfold endPair
      dsimp only
      rw [← e, intPair_iff]
      exact ⟨x, y, rfl, h1, h2⟩
  · rintro ⟨n, arg, h1, h2, h3⟩
    have hf := (func_iff _ _ _).1 h1
    have hid := (oxmid_iff _ _ (name_self hs hf) _).1 h2
    rcases noArg_cases arg with ha | ⟨c, cs, rfl⟩
    · have e : endPair id (len id) arg = (do len id; .ok (0, (uAt id 3 1 : Int) * 8)) := by
        rcases ha with rfl | rfl <;> rfl
      rw [e] at h3
      obtain ⟨⟨⟩, hl, h3⟩ := bind_ok h3
      have hl := (hlen id).1 hl
      cases hid with
      | unknown _ _ => cases exper <;> simp at hl
      | known f hm =>
        obtain ⟨_, h4, _, h5, _⟩ := nameId_parts f hm mask
        rw [h4] at h3
        cases h3
        have e8 : ((f.nameLen mask + f.extra : Nat) : Int) * 8 = (8 * (f.nameLen mask + f.extra) : Nat) := by omega
        rw [e8]
        refine .whole s f arg hf ha hm ?_
        intro he
        rw [h5] at hl
        cases hxx : exper
        · rw [hxx] at hl
          simp [Field.extra, he] at hl
        · rfl
    · unfold endPair at h3
      dsimp only at h3
      obtain ⟨x, y, e, h4, h5⟩ := (intPair_iff _ _ _).1 h3
      rw [e] at hf
      exact .range s n x y id a b hf hid h4 h5

end Ofpstr
