import Verif.Spec.Group
import Verif.Lemmas.ActAll
import Verif.Lemmas.EncEnds

/-!
# `str2bucket` and `str2group` on words
-/

namespace Ofpstr
open Spec

/-! ## Buckets -/

def stepB (st : BucketSt) : BWord → BucketSt
  | .weight n => { st with weight := n }
  | .port n => { st with watchPort := n }
  | .group n => { st with watchGroup := n }
  | .act b => { st with actions := st.actions ++ b }

theorem tok_det {s h b r h' b' r' : Str} (h1 : Tok s h b r) (h2 : Tok s h' b' r') :
    h = h' ∧ b = b' ∧ r = r' := by
  rw [← getToken_iff] at h1 h2
  rw [h1] at h2
  simpa using h2

theorem noEq_hasChar {h : Str} (he : '=' ∉ h) : hasChar h '=' = false := by
  rw [Bool.eq_false_iff]
  exact fun hc => he ((hasChar_iff _ _).1 hc)

theorem tok_progress {s h b r : Str} (hs : s ≠ []) (ht : Tok s h b r) : r.length < s.length := by
  have := getToken_progress s hs
  rw [(getToken_iff _ _ _ _).2 ht] at this
  exact this

/-- One round of the loop, with the token known. -/
theorem bucketGo_tok {s h name t : Str} (hs : s ≠ []) (ht : Tok s h name t) (fuel : Nat) (st : BucketSt) :
    bucketGo (fuel + 1) st s = (do
      pyAssert (!hasChar h '=')
      if startsWith name t!"@" then .ok (st, s)
      else if name == t!"weight" then
        let (n, u) ← intArg t
        bucketGo fuel { st with weight := n } u
      else if name == t!"watch_port" then
        let (n, u) ← intArg t
        bucketGo fuel { st with watchPort := n } u
      else if name == t!"watch_group" then
        let (n, u) ← intArg t
        bucketGo fuel { st with watchGroup := n } u
      else
        let (b, l) ← str2act s
        if l > 0 then bucketGo fuel { st with actions := st.actions ++ b } (s.drop l)
        else .ok (st, s)) := by
  rw [bucketGo, if_neg (by simpa using hs), (getToken_iff _ _ _ _).2 ht]

theorem bucketKeys_not {name : Str} (h : name ∉ bucketKeys) :
    (name == t!"weight") = false ∧ (name == t!"watch_port") = false ∧ (name == t!"watch_group") = false := by
  simp only [bucketKeys, List.mem_cons, List.not_mem_nil, or_false, not_or] at h
  exact ⟨beq_false_of_ne h.1, beq_false_of_ne h.2.1, beq_false_of_ne h.2.2⟩

theorem readsB_shorter {s u : Str} {w : BWord} (hs : s ≠ []) (h : ReadsB actP s w u) : u.length < s.length := by
  have := List.length_pos_of_ne_nil hs
  cases h with
  | weight h t op p n _ h1 _ h3 => have := tok_progress hs h1; have := tok_length h3; omega
  | port h t op p n _ h1 _ h3 => have := tok_progress hs h1; have := tok_length h3; omega
  | group h t op p n _ h1 _ h3 => have := tok_progress hs h1; have := tok_length h3; omega
  | act h name t b l => rw [List.length_drop]; omega

theorem bucketGo_word {s u : Str} {w : BWord} (hs : s ≠ []) (h : ReadsB actP s w u) (fuel : Nat) (st : BucketSt) :
    bucketGo (fuel + 1) st s = bucketGo fuel (stepB st w) u := by
  cases h with
  | weight h t op p n _ h1 h2 h3 h4 h5 =>
    rw [bucketGo_tok hs h1, noEq_hasChar h2, Bool.not_false, pyAssert_ok, ok_bind, if_neg (by decide), if_pos (by decide),
      (intArg_iff _ _ _).2 ⟨op, p, h3, h4, h5⟩, ok_bind]
    rfl
  | port h t op p n _ h1 h2 h3 h4 h5 =>
    rw [bucketGo_tok hs h1, noEq_hasChar h2, Bool.not_false, pyAssert_ok, ok_bind, if_neg (by decide), if_neg (by decide),
      if_pos (by decide), (intArg_iff _ _ _).2 ⟨op, p, h3, h4, h5⟩, ok_bind]
    rfl
  | group h t op p n _ h1 h2 h3 h4 h5 =>
    rw [bucketGo_tok hs h1, noEq_hasChar h2, Bool.not_false, pyAssert_ok, ok_bind, if_neg (by decide), if_neg (by decide),
      if_neg (by decide), if_pos (by decide), (intArg_iff _ _ _).2 ⟨op, p, h3, h4, h5⟩, ok_bind]
    rfl
  | act h name t b l h1 h2 h3 h4 h5 h6 =>
    obtain ⟨k1, k2, k3⟩ := bucketKeys_not h4
    have h5' : str2act s = .ok (b, l) := h5
    have hat : ¬ startsWith name t!"@" = true := fun hc => h3 ((startsWith_at _).1 hc)
    rw [bucketGo_tok hs h1, noEq_hasChar h2, Bool.not_false, pyAssert_ok, ok_bind, if_neg hat, k1, k2, k3]
    simp only [Bool.false_eq_true, if_false]
    rw [h5', ok_bind]
    simp only
    rw [if_pos (by omega)]
    rfl

theorem bucketGo_noB {s : Str} (h : NoB actP s) (fuel : Nat) (st : BucketSt) :
    bucketGo (fuel + 1) st s = .ok (st, s) := by
  rcases h with rfl | ⟨h, name, t, h1, h2, h3⟩
  · rw [bucketGo, if_pos (by decide)]
  · by_cases hs : s = []
    · subst hs
      rw [bucketGo, if_pos (by decide)]
    · rw [bucketGo_tok hs h1, noEq_hasChar h2, Bool.not_false, pyAssert_ok, ok_bind]
      rcases h3 with h3 | ⟨h3, b, h4⟩
      · rw [if_pos ((startsWith_at _).2 h3)]
      · have h4' : str2act s = .ok (b, 0) := h4
        obtain ⟨k1, k2, k3⟩ := bucketKeys_not h3
        split
        · rfl
        · rw [k1, k2, k3]
          simp only [Bool.false_eq_true, if_false]
          rw [h4', ok_bind]
          rfl

theorem bucketGo_text {ws : List BWord} {s r : Str} (h : BucketText actP ws s r) (fuel : Nat) (hf : s.length < fuel)
    (st : BucketSt) : bucketGo fuel st s = .ok (ws.foldl stepB st, r) := by
  induction h generalizing fuel st with
  | nil s h =>
    cases fuel with
    | zero => omega
    | succ f => rw [bucketGo_noB h]; rfl
  | cons s w u ws r hs hw _ ih =>
    cases fuel with
    | zero => omega
    | succ f =>
      have := readsB_shorter hs hw
      rw [bucketGo_word hs hw, ih f (by omega)]
      rfl

theorem bucketGo_inv {fuel : Nat} {s r : Str} {st st' : BucketSt} (h : bucketGo fuel st s = .ok (st', r)) :
    ∃ ws, BucketText actP ws s r ∧ st' = ws.foldl stepB st := by
  induction fuel generalizing s st with
  | zero => cases h
  | succ fuel ih =>
    by_cases hs : s = []
    · subst hs
      rw [bucketGo, if_pos (by decide)] at h
      cases h
      exact ⟨[], .nil _ (Or.inl rfl), rfl⟩
    · rcases hg : getToken s with ⟨hd, name, t⟩
      have ht := (getToken_iff _ _ _ _).1 hg
      rw [bucketGo_tok hs ht] at h
      obtain ⟨u, h1, h⟩ := bind_ok h
      have he : '=' ∉ hd := by
        intro hc
        have := pyAssert_inv h1
        rw [(hasChar_iff _ _).2 hc] at this
        cases this
      have next : ∀ (w : BWord) (u : Str), ReadsB actP s w u → bucketGo fuel (stepB st w) u = .ok (st', r) →
          ∃ ws, BucketText actP ws s r ∧ st' = ws.foldl stepB st := by
        intro w u hw hb
        obtain ⟨ws, h2, h3⟩ := ih hb
        exact ⟨w :: ws, .cons s w u ws r hs hw h2, h3⟩
      split at h
      · rename_i hat
        cases h
        exact ⟨[], .nil _ (Or.inr ⟨hd, name, t, ht, he, Or.inl ((startsWith_at _).1 hat)⟩), rfl⟩
      rename_i hat
      split at h
      · rename_i hk
        obtain ⟨⟨n, u⟩, h2, h'⟩ := bind_ok h
        obtain ⟨op, p, h3, h4, h5⟩ := (intArg_iff _ _ _).1 h2
        simp only [beq_iff_eq] at hk
        subst hk
        exact next (.weight n) u (.weight s hd t op p n u ht he h3 h4 h5) h'
      rename_i hk1
      split at h
      · rename_i hk
        obtain ⟨⟨n, u⟩, h2, h'⟩ := bind_ok h
        obtain ⟨op, p, h3, h4, h5⟩ := (intArg_iff _ _ _).1 h2
        simp only [beq_iff_eq] at hk
        subst hk
        exact next (.port n) u (.port s hd t op p n u ht he h3 h4 h5) h'
      rename_i hk2
      split at h
      · rename_i hk
        obtain ⟨⟨n, u⟩, h2, h'⟩ := bind_ok h
        obtain ⟨op, p, h3, h4, h5⟩ := (intArg_iff _ _ _).1 h2
        simp only [beq_iff_eq] at hk
        subst hk
        exact next (.group n) u (.group s hd t op p n u ht he h3 h4 h5) h'
      rename_i hk3
      have hkeys : name ∉ bucketKeys := by
        simp only [bucketKeys, List.mem_cons, List.not_mem_nil, or_false, not_or]
        simp only [beq_iff_eq] at hk1 hk2 hk3
        exact ⟨hk1, hk2, hk3⟩
      obtain ⟨⟨b, l⟩, h2, h⟩ := bind_ok h
      dsimp only at h
      split at h
      · rename_i hl
        exact next (.act b) _ (.act s hd name t b l ht he (fun hc => hat ((startsWith_at _).2 hc)) hkeys h2 (by omega)) h
      · rename_i hl
        have : l = 0 := by omega
        subst this
        cases h
        exact ⟨[], .nil _ (Or.inr ⟨hd, name, t, ht, he, Or.inr ⟨hkeys, b, h2⟩⟩), rfl⟩

/-! ## The numbers of a bucket -/

theorem stepB_weight (ws : List BWord) (st : BucketSt) :
    (ws.foldl stepB st).weight = (lastB BWord.weightArg ws).getD st.weight := by
  induction ws generalizing st with
  | nil => rfl
  | cons w ws ih =>
    rw [List.foldl_cons, ih]
    unfold lastB
    cases w <;> simp only [List.filterMap_cons, BWord.weightArg, stepB]
    rename_i n
    cases h : (ws.filterMap BWord.weightArg).getLast? with
    | none => rw [List.getLast?_eq_none_iff] at h; rw [h]; rfl
    | some v => rw [List.getLast?_cons, h]; rfl

theorem stepB_port (ws : List BWord) (st : BucketSt) :
    (ws.foldl stepB st).watchPort = (lastB BWord.portArg ws).getD st.watchPort := by
  induction ws generalizing st with
  | nil => rfl
  | cons w ws ih =>
    rw [List.foldl_cons, ih]
    unfold lastB
    cases w <;> simp only [List.filterMap_cons, BWord.portArg, stepB]
    rename_i n
    cases h : (ws.filterMap BWord.portArg).getLast? with
    | none => rw [List.getLast?_eq_none_iff] at h; rw [h]; rfl
    | some v => rw [List.getLast?_cons, h]; rfl

theorem stepB_group (ws : List BWord) (st : BucketSt) :
    (ws.foldl stepB st).watchGroup = (lastB BWord.groupArg ws).getD st.watchGroup := by
  induction ws generalizing st with
  | nil => rfl
  | cons w ws ih =>
    rw [List.foldl_cons, ih]
    unfold lastB
    cases w <;> simp only [List.filterMap_cons, BWord.groupArg, stepB]
    rename_i n
    cases h : (ws.filterMap BWord.groupArg).getLast? with
    | none => rw [List.getLast?_eq_none_iff] at h; rw [h]; rfl
    | some v => rw [List.getLast?_cons, h]; rfl

theorem stepB_actions (ws : List BWord) (st : BucketSt) :
    (ws.foldl stepB st).actions = st.actions ++ actsOf ws := by
  induction ws generalizing st with
  | nil => simp [actsOf]
  | cons w ws ih =>
    rw [List.foldl_cons, ih]
    cases w <;> simp [stepB, actsOf, BWord.actBytes]

instance (type : Nat) (ws : List BWord) : Decidable (BucketFits type ws) := by
  unfold BucketFits; infer_instance

/-- The bytes of a bucket if the numbers fit. -/
theorem bucket_pack (type : Nat) (ws : List BWord) (l : Nat) :
    (do let b ← packAll [(2, ((16 + (actsOf ws).length : Nat) : Int)), (2, weightOf type ws), (4, portOf ws),
          (4, groupOf ws)]
        Except.ok ((b ++ zeros 4) ++ actsOf ws, l) : Py (Bytes × Nat)) =
    if BucketFits type ws then .ok (bucketOf type ws, l) else .error .structError := by
  rw [packAll_eq]
  have e : (∀ e ∈ [(2, ((16 + (actsOf ws).length : Nat) : Int)), (2, weightOf type ws), (4, portOf ws),
      (4, groupOf ws)], FitsIn e.1 e.2) ↔ BucketFits type ws := by
    simp only [List.forall_mem_cons, List.not_mem_nil, false_implies, implies_true, and_true, BucketFits]
    have : FitsIn 2 ((16 + (actsOf ws).length : Nat) : Int) ↔ 16 + (actsOf ws).length < 65536 := by
      unfold FitsIn
      have : ((256 ^ 2 : Nat) : Int) = 65536 := by decide
      rw [this]
      omega
    rw [this]
  by_cases h : BucketFits type ws
  · rw [if_pos (e.2 h), if_pos h, ok_bind]
    have e2 : ((16 + (actsOf ws).length : Nat) : Int).toNat = 16 + (actsOf ws).length := Int.toNat_natCast _
    simp only [List.flatMap_cons, List.flatMap_nil, e2]
    simp [bucketOf, bucketWire, u16, u32, pad, zeros]
  · rw [if_neg (fun hc => h (e.1 hc)), if_neg h, error_bind]

theorem bucketText_shorter {ws : List BWord} {s r : Str} (h : BucketText actP ws s r) :
    (ws = [] → r = s) ∧ (ws ≠ [] → r.length < s.length) := by
  induction h with
  | nil s h => exact ⟨fun _ => rfl, fun h => absurd rfl h⟩
  | cons s w u ws r hs hw _ ih =>
    refine ⟨fun h => absurd h (by simp), fun _ => ?_⟩
    have := readsB_shorter hs hw
    by_cases hws : ws = []
    · rw [ih.1 hws]; exact this
    · have := ih.2 hws; omega

theorem tok_drop {s hd b r : Str} (h : Tok s hd b r) : ∃ n, r = s.drop n ∧ n ≤ s.length := by
  refine ⟨(hd ++ b).length, ?_, ?_⟩
  · have := h.1
    rw [this, ← List.append_assoc, List.drop_left]
  · rw [h.1]; simp only [List.length_append]; omega

theorem drop_self_of {s r : Str} (h : ∃ n, r = s.drop n ∧ n ≤ s.length) : r = s.drop (s.length - r.length) := by
  obtain ⟨n, rfl, hn⟩ := h
  rw [List.length_drop, Nat.sub_sub_self hn]

theorem drop_trans {s u r : Str} (h1 : ∃ n, u = s.drop n ∧ n ≤ s.length) (h2 : ∃ n, r = u.drop n ∧ n ≤ u.length) :
    ∃ n, r = s.drop n ∧ n ≤ s.length := by
  obtain ⟨n, rfl, hn⟩ := h1
  obtain ⟨m, rfl, hm⟩ := h2
  rw [List.length_drop] at hm
  exact ⟨n + m, by rw [List.drop_drop], by omega⟩

theorem readsB_drop {s u : Str} {w : BWord} (h : ReadsB actP s w u) : ∃ n, u = s.drop n ∧ n ≤ s.length := by
  cases h with
  | weight h t op p n _ h1 _ h3 => exact drop_trans (tok_drop h1) (tok_drop h3)
  | port h t op p n _ h1 _ h3 => exact drop_trans (tok_drop h1) (tok_drop h3)
  | group h t op p n _ h1 _ h3 => exact drop_trans (tok_drop h1) (tok_drop h3)
  | act h name t b l =>
    by_cases hl : l ≤ s.length
    · exact ⟨l, rfl, hl⟩
    · exact ⟨s.length, by rw [List.drop_eq_nil_of_le (by omega), List.drop_length], le_refl _⟩

theorem bucketText_drop' {ws : List BWord} {s r : Str} (h : BucketText actP ws s r) :
    ∃ n, r = s.drop n ∧ n ≤ s.length := by
  induction h with
  | nil s h => exact ⟨0, rfl, by omega⟩
  | cons s w u ws r hs hw _ ih => exact drop_trans (readsB_drop hw) ih

theorem bucketText_drop {ws : List BWord} {s r : Str} (h : BucketText actP ws s r) :
    r = s.drop (s.length - r.length) := drop_self_of (bucketText_drop' h)

theorem str2bucket_text {ws : List BWord} {s r : Str} (h : BucketText actP ws s r) (type : Nat) :
    str2bucket type s = if ws = [] then .ok ([], 0)
      else if BucketFits type ws then .ok (bucketOf type ws, s.length - r.length) else .error .structError := by
  obtain ⟨h1, h2⟩ := bucketText_shorter h
  unfold str2bucket
  rw [bucketGo_text h _ (by omega), ok_bind]
  dsimp only
  by_cases hws : ws = []
  · rw [if_pos hws, h1 hws]
    simp
  · have := h2 hws
    rw [if_neg hws, if_neg (by simp; omega), stepB_weight, stepB_port, stepB_group, stepB_actions]
    have e : (if type == OFPGT_SELECT then (1 : Int) else 0) = defaultWeight type := by
      unfold defaultWeight OFPGT_SELECT
      simp
    simp only [e]
    exact bucket_pack type ws _

theorem str2bucket_inv {s : Str} {type l : Nat} {b : Bytes} (h : str2bucket type s = .ok (b, l)) :
    ∃ ws r, BucketText actP ws s r ∧ ((ws = [] ∧ l = 0) ∨ (ws ≠ [] ∧ BucketFits type ws ∧ b = bucketOf type ws ∧
      r = s.drop l ∧ l ≠ 0)) := by
  have h0 := h
  unfold str2bucket at h
  obtain ⟨⟨st, r⟩, h1, -⟩ := bind_ok h
  obtain ⟨ws, h2, -⟩ := bucketGo_inv h1
  refine ⟨ws, r, h2, ?_⟩
  rw [str2bucket_text h2] at h0
  by_cases hws : ws = []
  · rw [if_pos hws] at h0
    cases h0
    exact Or.inl ⟨hws, rfl⟩
  · rw [if_neg hws] at h0
    split at h0
    · rename_i hf
      cases h0
      refine Or.inr ⟨hws, hf, rfl, ?_, ?_⟩
      · exact bucketText_drop h2
      · have := (bucketText_shorter h2).2 hws; omega
    · cases h0

/-! ## The head of a group -/

def stepG (st : Int × Nat) : GWord → Int × Nat
  | .id n => (n, st.2)
  | .type t => (st.1, t)

theorem groupHead_tok {s h name t : Str} (hs : s ≠ []) (ht : Tok s h name t) (fuel : Nat) (g : Int) (ty : Nat) :
    groupHead (fuel + 1) g ty s = (
      if name == t!"group" then
        let (_, payload, r) := getToken t
        if lowerStr payload == t!"all" then groupHead fuel OFPG_ALL ty r
        else do
          let (num, l) ← parseInt payload
          pyAssert (payload.length == l)
          groupHead fuel num ty r
      else if ofpgt.contains name then groupHead fuel g (ofpgt.idxOf name) t
      else .ok (g, ty, s)) := by
  rw [groupHead, if_neg (by simpa using hs), (getToken_iff _ _ _ _).2 ht]

theorem toLower_l {c : Char} (h : c.toLower = 'l') : c = 'l' ∨ c = 'L' := by
  unfold Char.toLower at h
  split at h
  · right
    rename_i hc
    have h2 := congrArg (fun c : Char => c.val.toNat) h
    have h3 : c.val.toNat ≤ 90 := UInt32.le_iff_toNat_le.1 hc.2
    apply Char.ext
    apply UInt32.toNat_inj.1
    have e : ('a'.val - 'A'.val).toNat = 32 := by decide
    have e2 : 'l'.val.toNat = 108 := by decide
    dsimp only at h2
    rw [UInt32.toNat_add, e, e2] at h2
    show c.val.toNat = 76
    omega
  · exact Or.inl h

theorem toLower_a {c : Char} (h : c.toLower = 'a') : c = 'a' ∨ c = 'A' := by
  unfold Char.toLower at h
  split at h
  · right
    rename_i hc
    have h2 := congrArg (fun c : Char => c.val.toNat) h
    have h3 : c.val.toNat ≤ 90 := UInt32.le_iff_toNat_le.1 hc.2
    apply Char.ext
    apply UInt32.toNat_inj.1
    have e : ('a'.val - 'A'.val).toNat = 32 := by decide
    have e2 : 'a'.val.toNat = 97 := by decide
    dsimp only at h2
    rw [UInt32.toNat_add, e, e2] at h2
    show c.val.toNat = 65
    omega
  · exact Or.inl h

theorem lowerChar_eq (c : Char) : lowerChar c = c.toLower := by
  unfold lowerChar Char.toLower
  have e1 : ('A' ≤ c ∧ c ≤ 'Z') ↔ (c.val ≥ 'A'.val ∧ c.val ≤ 'Z'.val) := Iff.rfl
  by_cases h : 'A' ≤ c ∧ c ≤ 'Z'
  · rw [if_pos h, dif_pos (e1.1 h)]
    have h3 : c.val.toNat ≤ 90 := UInt32.le_iff_toNat_le.1 h.2
    have h4 : 65 ≤ c.val.toNat := UInt32.le_iff_toNat_le.1 h.1
    have h5 : c.toNat = c.val.toNat := rfl
    apply Char.ext
    apply UInt32.toNat_inj.1
    have e : ('a'.val - 'A'.val).toNat = 32 := by decide
    dsimp only
    rw [UInt32.toNat_add, e]
    unfold Char.ofNat
    rw [dif_pos (by left; omega)]
    show c.toNat + 32 = _
    omega
  · rw [if_neg h, dif_neg (fun hc => h (e1.2 hc))]
theorem lowerStr_eq (s : Str) : lowerStr s = s.map Char.toLower := by
  unfold lowerStr
  exact List.map_congr_left fun c _ => lowerChar_eq c

theorem readsG_shorter {s u : Str} {w : GWord} (hs : s ≠ []) (h : ReadsG s w u) : u.length < s.length := by
  cases h with
  | all h t op p _ h1 h2 => have := tok_progress hs h1; have := tok_length h2; omega
  | id h t op p n _ h1 h2 => have := tok_progress hs h1; have := tok_length h2; omega
  | type h name k _ h1 => exact tok_progress hs h1

theorem intSyntax_not_all {p : Str} {n : Int} (h : IntSyntax p n p.length) : p.map Char.toLower ≠ t!"all" := by
  intro e
  have hm : 'l' ∈ p.map Char.toLower := by rw [e]; decide
  obtain ⟨c, hc, hl⟩ := List.mem_map.1 hm
  rcases toLower_l hl with rfl | rfl <;> rcases intSyntax_ne h _ hc with h | h | h | h <;> revert h <;> decide

theorem ofpgt_idx (k : Nat) (name : Str) (h : groupTypes[k]? = some name) :
    ofpgt.contains name = true ∧ ofpgt.idxOf name = k ∧ name ≠ t!"group" := by
  have hk : k < 4 := by
    rw [List.getElem?_eq_some_iff] at h
    exact h.1
  have key : ∀ k : Nat, k < 4 → ofpgt.contains (groupTypes[k]?.getD []) = true ∧ ofpgt.idxOf (groupTypes[k]?.getD []) = k ∧
    groupTypes[k]?.getD [] ≠ t!"group" := by
    intro k hk
    match k, hk with
    | 0, _ => decide
    | 1, _ => decide
    | 2, _ => decide
    | 3, _ => decide
  have := key k hk
  rw [h] at this
  exact this

theorem groupHead_word {s u : Str} {w : GWord} (hs : s ≠ []) (h : ReadsG s w u) (fuel : Nat) (g : Int) (ty : Nat) :
    groupHead (fuel + 1) g ty s = groupHead fuel (stepG (g, ty) w).1 (stepG (g, ty) w).2 u := by
  cases h with
  | all h t op p _ h1 h2 h3 =>
    rw [groupHead_tok hs h1, if_pos (by decide), (getToken_iff _ _ _ _).2 h2]
    dsimp only
    rw [lowerStr_eq, h3, if_pos (by decide)]
    rfl
  | id h t op p n _ h1 h2 h3 =>
    rw [groupHead_tok hs h1, if_pos (by decide), (getToken_iff _ _ _ _).2 h2]
    dsimp only
    rw [lowerStr_eq, if_neg (by simpa using intSyntax_not_all h3), (parseInt_iff _ _ _).2 h3, ok_bind]
    simp only [beq_self_eq_true, pyAssert_ok, ok_bind]
    rfl
  | type h name k _ h1 h2 =>
    obtain ⟨k1, k2, k3⟩ := ofpgt_idx k name h2
    rw [groupHead_tok hs h1, if_neg (by simpa using k3), if_pos k1, k2]
    rfl

theorem groupTypes_mem {name : Str} (h : ofpgt.contains name = true) : ∃ k : Nat, groupTypes[k]? = some name := by
  have : name ∈ groupTypes := List.contains_iff_mem.1 h
  obtain ⟨k, hk, h⟩ := List.getElem_of_mem this
  exact ⟨k, by rw [List.getElem?_eq_getElem hk, h]⟩

theorem groupHead_text {gs : List GWord} {s r : Str} (h : HeadText gs s r) (fuel : Nat) (hf : s.length < fuel)
    (g : Int) (ty : Nat) : groupHead fuel g ty s = .ok ((gs.foldl stepG (g, ty)).1, (gs.foldl stepG (g, ty)).2, r) := by
  induction h generalizing fuel g ty with
  | nil =>
    cases fuel with
    | zero => cases hf
    | succ f => rw [groupHead, if_pos (by decide)]; rfl
  | stop s h name t h1 h2 =>
    cases fuel with
    | zero => omega
    | succ f =>
      by_cases hs : s = []
      · subst hs; rw [groupHead, if_pos (by decide)]; rfl
      · simp only [List.mem_cons, not_or] at h2
        have : ¬ ofpgt.contains name = true := by
          intro hc
          exact h2.2 (List.contains_iff_mem.1 hc)
        rw [groupHead_tok hs h1, if_neg (by simpa using h2.1), if_neg this]
        rfl
  | cons s w u gs r hs hw _ ih =>
    cases fuel with
    | zero => omega
    | succ f =>
      have := readsG_shorter hs hw
      rw [groupHead_word hs hw, ih f (by omega)]
      rfl

theorem groupHead_inv {fuel : Nat} {s r : Str} {g g' : Int} {ty ty' : Nat}
    (h : groupHead fuel g ty s = .ok (g', ty', r)) :
    ∃ gs, HeadText gs s r ∧ (g', ty') = gs.foldl stepG (g, ty) := by
  induction fuel generalizing s g ty with
  | zero => cases h
  | succ fuel ih =>
    by_cases hs : s = []
    · subst hs
      rw [groupHead, if_pos (by decide)] at h
      cases h
      exact ⟨[], .nil, rfl⟩
    · rcases hg : getToken s with ⟨hd, name, t⟩
      have ht := (getToken_iff _ _ _ _).1 hg
      rw [groupHead_tok hs ht] at h
      split at h
      · rename_i hk
        simp only [beq_iff_eq] at hk
        rcases hg2 : getToken t with ⟨op, p, u⟩
        have ht2 := (getToken_iff _ _ _ _).1 hg2
        rw [hg2] at h
        dsimp only at h
        split at h
        · rename_i ha
          rw [beq_iff_eq, lowerStr_eq] at ha
          obtain ⟨gs, h1, h2⟩ := ih h
          refine ⟨.id 0xfffffffc :: gs, .cons s _ u gs r hs (.all s hd t op p u (hk ▸ ht) ht2 ha) h1, h2⟩
        · obtain ⟨⟨n, l⟩, h3, h⟩ := bind_ok h
          obtain ⟨_, h4, h⟩ := bind_ok h
          have h5 := pyAssert_inv h4
          simp only [beq_iff_eq] at h5
          obtain ⟨gs, h1, h2⟩ := ih h
          refine ⟨.id n :: gs, .cons s _ u gs r hs (.id s hd t op p n u (hk ▸ ht) ht2 ?_) h1, h2⟩
          rw [h5]; exact (parseInt_iff _ _ _).1 h3
      · rename_i hk
        split at h
        · rename_i hc
          obtain ⟨k, hkk⟩ := groupTypes_mem hc
          rw [(ofpgt_idx k name hkk).2.1] at h
          obtain ⟨gs, h1, h2⟩ := ih h
          exact ⟨.type k :: gs, .cons s _ t gs r hs (.type s hd name k t ht hkk) h1, h2⟩
        · rename_i hc
          cases h
          refine ⟨[], .stop _ hd name t ht ?_, rfl⟩
          simp only [List.mem_cons, not_or]
          refine ⟨by simpa using hk, fun hm => hc (List.contains_iff_mem.2 hm)⟩

theorem stepG_id (gs : List GWord) (st : Int × Nat) :
    (gs.foldl stepG st).1 = ((gs.filterMap GWord.idArg).getLast?).getD st.1 := by
  induction gs generalizing st with
  | nil => rfl
  | cons w gs ih =>
    rw [List.foldl_cons, ih]
    cases w <;> simp only [List.filterMap_cons, GWord.idArg, stepG]
    rename_i n
    cases h : (gs.filterMap GWord.idArg).getLast? with
    | none => rw [List.getLast?_eq_none_iff] at h; rw [h]; rfl
    | some v => rw [List.getLast?_cons, h]; rfl

theorem stepG_type (gs : List GWord) (st : Int × Nat) :
    (gs.foldl stepG st).2 = ((gs.filterMap GWord.typeArg).getLast?).getD st.2 := by
  induction gs generalizing st with
  | nil => rfl
  | cons w gs ih =>
    rw [List.foldl_cons, ih]
    cases w <;> simp only [List.filterMap_cons, GWord.typeArg, stepG]
    rename_i n
    cases h : (gs.filterMap GWord.typeArg).getLast? with
    | none => rw [List.getLast?_eq_none_iff] at h; rw [h]; rfl
    | some v => rw [List.getLast?_cons, h]; rfl

/-! ## Lists of buckets -/

instance (type : Nat) (bs : List (List BWord)) : Decidable (∀ ws ∈ bs, BucketFits type ws) :=
  List.decidableBAll _ _

theorem groupBuckets_text {bs : List (List BWord)} {s : Str} (h : Buckets actP bs s) (type fuel : Nat)
    (hf : s.length < fuel) : groupBuckets type fuel s =
      if ∀ ws ∈ bs, BucketFits type ws then .ok (bs.flatMap (bucketOf type), []) else .error .structError := by
  induction h generalizing fuel with
  | nil =>
    cases fuel with
    | zero => cases hf
    | succ f => rw [groupBuckets, if_pos (by decide), if_pos (by simp)]; rfl
  | skip s h name r bs hs h1 h2 h3 _ ih =>
    cases fuel with
    | zero => omega
    | succ f =>
      have := tok_progress hs h2
      rw [groupBuckets, if_neg (by simpa using hs), str2bucket_text h1, if_pos rfl, ok_bind]
      simp only [gt_iff_lt, lt_self_iff_false, if_false]
      rw [(getToken_iff _ _ _ _).2 h2]
      simp only [List.mem_cons, List.not_mem_nil, or_false] at h3
      dsimp only
      rw [if_pos (by rcases h3 with rfl | rfl <;> decide), ih f (by omega)]
  | bucket s ws u bs hws h1 _ ih =>
    cases fuel with
    | zero => omega
    | succ f =>
      have hl := (bucketText_shorter h1).2 hws
      have hs : s ≠ [] := by rintro rfl; cases hl
      rw [groupBuckets, if_neg (by simpa using hs), str2bucket_text h1, if_neg hws]
      by_cases hb : BucketFits type ws
      · rw [if_pos hb, ok_bind]
        dsimp only
        rw [if_pos (by omega), ← bucketText_drop h1, ih f (by omega)]
        by_cases hbs : ∀ ws ∈ bs, BucketFits type ws
        · rw [if_pos hbs, if_pos (by simpa using ⟨hb, hbs⟩), ok_bind]
          rfl
        · rw [if_neg hbs, if_neg (by intro hc; exact hbs fun x hx => hc x (List.mem_cons_of_mem _ hx)), error_bind]
      · rw [if_neg hb, if_neg (by intro hc; exact hb (hc ws (by simp))), error_bind]

theorem groupBuckets_inv {type fuel : Nat} {s : Str} {b : Bytes} (h : groupBuckets type fuel s = .ok (b, [])) :
    ∃ bs, Buckets actP bs s := by
  induction fuel generalizing s b with
  | zero => cases h
  | succ fuel ih =>
    by_cases hs : s = []
    · subst hs; exact ⟨[], .nil⟩
    · rw [groupBuckets, if_neg (by simpa using hs)] at h
      obtain ⟨⟨x, l⟩, h1, h⟩ := bind_ok h
      obtain ⟨ws, r, h2, h3⟩ := str2bucket_inv h1
      dsimp only at h
      rcases h3 with ⟨rfl, rfl⟩ | ⟨h3, -, -, rfl, h4⟩
      · rw [if_neg (by omega)] at h
        have hr := (bucketText_shorter h2).1 rfl
        rw [hr] at h2
        rcases hg : getToken s with ⟨hd, name, t⟩
        rw [hg] at h
        dsimp only at h
        split at h
        · rename_i hn
          obtain ⟨bs, hb⟩ := ih h
          refine ⟨bs, .skip s hd name t bs hs h2 ((getToken_iff _ _ _ _).1 hg) ?_ hb⟩
          simpa using hn
        · cases h; exact absurd rfl hs
      · rw [if_pos (by omega)] at h
        obtain ⟨⟨y, u⟩, h5, h⟩ := bind_ok h
        cases h
        obtain ⟨bs, hb⟩ := ih h5
        exact ⟨ws :: bs, .bucket s ws _ bs h3 h2 hb⟩

/-! ## The message -/

instance (c x : Int) (gs : List GWord) (bs : List (List BWord)) : Decidable (GroupFits c x gs bs) := by
  unfold GroupFits; infer_instance

theorem headText_type {gs : List GWord} {s r : Str} (h : HeadText gs s r) : ∀ t, .type t ∈ gs → t < 4 := by
  induction h with
  | nil => intro t ht; cases ht
  | stop => intro t ht; cases ht
  | cons s w u gs r hs hw _ ih =>
    intro t ht
    rcases List.mem_cons.1 ht with rfl | ht
    · cases hw with
      | type h name k _ h1 h2 =>
        rw [List.getElem?_eq_some_iff] at h2
        exact h2.1
    · exact ih t ht

theorem groupType_lt {gs : List GWord} (h : ∀ t, .type t ∈ gs → t < 4) : groupType gs < 4 := by
  unfold groupType
  cases hl : (gs.filterMap GWord.typeArg).getLast? with
  | none => decide
  | some t =>
    have := List.mem_of_getLast? hl
    obtain ⟨w, hw, hw2⟩ := List.mem_filterMap.1 this
    cases w with
    | id => cases hw2
    | type t' => cases hw2; exact h _ hw

theorem packU_fits {k : Nat} {n : Int} (h : FitsIn k n) : packU k n = .ok (be k n.toNat) := by
  rw [packU_int]; exact if_pos h

theorem packU_nofit {k : Nat} {n : Int} (h : ¬ FitsIn k n) : packU k n = .error .structError := by
  rw [packU_int]; exact if_neg h

theorem group_pack (c x : Int) (gs : List GWord) (bs : List (List BWord)) (ht : groupType gs < 4)
    (hb : ∀ ws ∈ bs, BucketFits (groupType gs) ws) :
    (do let a ← packAll [(1, 4), (1, (OFPT_GROUP_MOD : Int)), (2, (16 + (bs.flatMap (bucketOf (groupType gs))).length : Int)),
          (4, x), (2, c), (1, ((groupType gs : Nat) : Int))]
        let b ← packU 4 (groupId gs)
        Except.ok ((a ++ (zeros 1 ++ b)) ++ bs.flatMap (bucketOf (groupType gs))) : Py Bytes) =
    if GroupFits c x gs bs then .ok (groupMod c x gs bs) else .error .structError := by
  have hlen : (groupMod c x gs bs).length = 16 + (bs.flatMap (bucketOf (groupType gs))).length := by
    simp only [groupMod, groupWire, message, List.length_append, u8_length, u16_length, u32_length, pad_length]
    omega
  have hmod : groupMod c x gs bs = be 1 4 ++ (be 1 15 ++ (be 2 (16 + (bs.flatMap (bucketOf (groupType gs))).length) ++
      (be 4 x.toNat ++ (be 2 c.toNat ++ (be 1 (groupType gs) ++ (zeros 1 ++ (be 4 (groupId gs).toNat ++
      bs.flatMap (bucketOf (groupType gs))))))))) := by
    have hl : 8 + (u16 c.toNat ++ (u8 (groupType gs) ++ (pad 1 ++ (u32 (groupId gs).toNat ++
        bs.flatMap (bucketOf (groupType gs)))))).length = 16 + (bs.flatMap (bucketOf (groupType gs))).length := by
      simp only [List.length_append, u8_length, u16_length, u32_length, pad_length]
      omega
    unfold groupMod groupWire message
    rw [hl]
    rfl
  have ht : FitsIn 1 (groupType gs : Int) := by
    unfold FitsIn
    have : ((256 ^ 1 : Nat) : Int) = 256 := by decide
    rw [this]
    omega
  have hz : ((16 : Int) + ((bs.flatMap (bucketOf (groupType gs))).length : Nat)) =
    ((16 + (bs.flatMap (bucketOf (groupType gs))).length : Nat) : Int) := by push_cast; rfl
  rw [packAll_eq, hz, hmod]
  have hG : GroupFits c x gs bs ↔ (FitsIn 4 x ∧ FitsIn 2 c ∧ FitsIn 4 (groupId gs) ∧
      (∀ ws ∈ bs, BucketFits (groupType gs) ws) ∧ 16 + (bs.flatMap (bucketOf (groupType gs))).length < 65536) := by
    unfold GroupFits
    rw [hlen]
  generalize bs.flatMap (bucketOf (groupType gs)) = B at hG
  have e : ((∀ e ∈ [(1, 4), (1, (OFPT_GROUP_MOD : Int)), (2, ((16 + B.length : Nat) : Int)), (4, x), (2, c),
      (1, ((groupType gs : Nat) : Int))], FitsIn e.1 e.2) ∧ FitsIn 4 (groupId gs)) ↔ GroupFits c x gs bs := by
    rw [hG]
    simp only [List.forall_mem_cons, List.not_mem_nil, false_implies, implies_true, and_true]
    have h2 : FitsIn 2 ((16 + B.length : Nat) : Int) ↔ 16 + B.length < 65536 := by
      unfold FitsIn
      have : ((256 ^ 2 : Nat) : Int) = 65536 := by decide
      rw [this]
      omega
    rw [h2]
    have h3 : FitsIn 1 4 := by decide
    have h4 : FitsIn 1 (OFPT_GROUP_MOD : Int) := by decide
    tauto
  by_cases h : GroupFits c x gs bs
  · obtain ⟨h1, h2⟩ := e.2 h
    rw [if_pos h1, if_pos h, ok_bind, packU_fits h2, ok_bind]
    simp only [List.flatMap_cons, List.flatMap_nil, Int.toNat_natCast, List.append_nil, List.append_assoc]
    rfl
  · rw [if_neg h]
    split
    · rename_i h1
      rw [ok_bind, packU_nofit (fun h2 => h (e.1 ⟨h1, h2⟩)), error_bind]
    · rw [error_bind]

theorem str2group_text {gs : List GWord} {bs : List (List BWord)} {s u : Str} (h1 : HeadText gs s u)
    (h2 : Buckets actP bs u) (c x : Int) :
    str2group s c x = if GroupFits c x gs bs then .ok (groupMod c x gs bs) else .error .structError := by
  unfold str2group
  rw [groupHead_text h1 _ (by omega), ok_bind]
  dsimp only
  have e1 : (gs.foldl stepG (((OFPG_ANY : Nat) : Int), 0)).1 = groupId gs := stepG_id _ _
  have e2 : (gs.foldl stepG (((OFPG_ANY : Nat) : Int), 0)).2 = groupType gs := stepG_type _ _
  rw [e1, e2, groupBuckets_text h2 _ _ (by omega)]
  by_cases hb : ∀ ws ∈ bs, BucketFits (groupType gs) ws
  · rw [if_pos hb, ok_bind]
    dsimp only
    rw [List.isEmpty_nil, pyAssert_ok, ok_bind]
    exact group_pack c x gs bs (groupType_lt (headText_type h1)) hb
  · rw [if_neg hb, error_bind, if_neg (fun hc => hb hc.2.2.2.1)]

theorem str2group_inv {s : Str} {c x : Int} {b : Bytes} (h : str2group s c x = .ok b) :
    ∃ gs bs u, HeadText gs s u ∧ Buckets actP bs u := by
  unfold str2group at h
  obtain ⟨⟨g, ty, u⟩, h1, h⟩ := bind_ok h
  obtain ⟨gs, h2, -⟩ := groupHead_inv h1
  dsimp only at h
  obtain ⟨⟨B, r⟩, h3, h⟩ := bind_ok h
  dsimp only at h
  obtain ⟨_, h4, -⟩ := bind_ok h
  have : r = [] := by simpa using pyAssert_inv h4
  subst this
  obtain ⟨bs, h5⟩ := groupBuckets_inv h3
  exact ⟨gs, bs, u, h2, h5⟩

theorem str2group_iff (s : Str) (c x : Int) (b : Bytes) : str2group s c x = .ok b ↔
    ∃ gs bs u, HeadText gs s u ∧ Buckets actP bs u ∧ GroupFits c x gs bs ∧ b = groupMod c x gs bs := by
  constructor
  · intro h
    obtain ⟨gs, bs, u, h1, h2⟩ := str2group_inv h
    rw [str2group_text h1 h2] at h
    split at h
    · rename_i hf
      cases h
      exact ⟨gs, bs, u, h1, h2, hf, rfl⟩
    · cases h
  · rintro ⟨gs, bs, u, h1, h2, h3, rfl⟩
    rw [str2group_text h1 h2, if_pos h3]

end Ofpstr
