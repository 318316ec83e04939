import Verif.Lemmas.RejectRest

/-!
# Which exceptions refused values raise: lists of numbers, byte strings, and all kinds together
-/

set_option linter.unusedSimpArgs false

namespace Ofpstr
open Spec

theorem cut_split (s : Str) : Cut s (splitAll ':' s) := by
  obtain ⟨h1, h2⟩ := splitAll_eq ':' s _ rfl
  exact ⟨splitAll_ne_nil _ _, fun t ht h => h1 t ht h, h2⟩

theorem split_cut {s : Str} {ts : List Str} (h : Cut s ts) : splitAll ':' s = ts := by
  obtain ⟨h1, h2, rfl⟩ := h
  exact splitAll_join ':' ts h1 (fun t ht c hc he => h2 t ht (he ▸ hc))

theorem packLE_err {n : Nat} {v : Int} {e : Err} (h : packLE n v = .error e) : e = .structError := by
  unfold packLE at h
  split at h <;> cases h
  rfl

theorem packSizesLE_err {sizes : List Nat} {vs : List Int} {e : Err} (h : packSizesLE sizes vs = .error e) :
    e = .structError := by
  induction sizes generalizing vs with
  | nil => cases vs <;> cases h; rfl
  | cons n ns ih =>
    cases vs with
    | nil => cases h; rfl
    | cons v vs =>
      rw [packSizesLE] at h
      cases h1 : packLE n v with
      | error e1 => rw [h1, raise_bind] at h; cases h; exact packLE_err h1
      | ok a =>
        rw [h1, ok_bind] at h
        cases h2 : packSizesLE ns vs with
        | error e2 => rw [h2, raise_bind] at h; cases h; exact ih h2
        | ok b => rw [h2, ok_bind] at h; cases h

theorem packSizesLE_error (sizes : List Nat) (vs : List Int) (e : Err) :
    packSizesLE sizes vs = .error e ↔ (∀ p, ¬ LeBytes sizes vs p) ∧ e = .structError := by
  constructor
  · intro h
    refine ⟨fun p hp => ?_, packSizesLE_err h⟩
    rw [(packSizesLE_iff _ _ _).2 hp] at h; cases h
  · rintro ⟨h, rfl⟩
    cases h' : packSizesLE sizes vs with
    | ok p => exact absurd ((packSizesLE_iff _ _ _).1 h') (h p)
    | error e => rw [packSizesLE_err h']

/-- The parts up to the first that is no number. -/
inductive BadPart : List Str → Err → Prop
  | number (t us) : t ≠ [] → NoInt t → BadPart (t :: us) .valueError
  | junk (t us v c r) : IntThen t v (c :: r) → BadPart (t :: us) .assertionError
  | later (t v us e) : Part t v → BadPart us e → BadPart (t :: us) e

theorem badPart_split {ts : List Str} {e : Err} (h : BadPart ts e) : ∃ as t bs vs, ts = as ++ t :: bs ∧ WholeParts as vs ∧
    ((t ≠ [] ∧ NoInt t ∧ e = .valueError) ∨ ∃ v c r, IntThen t v (c :: r) ∧ e = .assertionError) := by
  induction h with
  | number t us h1 h2 => exact ⟨[], t, us, [], rfl, .nil, Or.inl ⟨h1, h2, rfl⟩⟩
  | junk t us v c r h => exact ⟨[], t, us, [], rfl, .nil, Or.inr ⟨v, c, r, h, rfl⟩⟩
  | later t v us e h1 _ ih =>
    obtain ⟨as, t', bs, vs, rfl, h3, h4⟩ := ih
    exact ⟨t :: as, t', bs, v :: vs, rfl, .cons t v as vs h1 h3, h4⟩

theorem split_badPart {as : List Str} {vs : List Int} (h : WholeParts as vs) {us : List Str} {e : Err} (hb : BadPart us e) :
    BadPart (as ++ us) e := by
  induction h with
  | nil => exact hb
  | cons s v ss vs h1 _ ih => exact .later s v _ e h1 ih

theorem compNums_whole (ts : List Str) (vs : List Int) : compNums ts = .ok vs ↔ WholeParts ts vs := by
  constructor
  · intro h
    induction ts generalizing vs with
    | nil => cases h; exact .nil
    | cons t ts ih =>
      obtain ⟨v, ws, h1, h2, rfl⟩ := (compNums_cons _ _ _).1 h
      exact .cons t v ts ws h1 (ih _ h2)
  · intro h
    induction h with
    | nil => rfl
    | cons s v ss vs h1 _ ih => exact (compNums_cons _ _ _).2 ⟨v, vs, h1, ih, rfl⟩

theorem compNums_error (ts : List Str) (e : Err) : compNums ts = .error e ↔ BadPart ts e := by
  constructor
  · intro h
    induction ts with
    | nil => cases h
    | cons t ts ih =>
      rw [compNums] at h
      cases t with
      | nil =>
        rw [if_pos (by rfl)] at h
        cases h2 : compNums ts with
        | ok r => rw [h2, ok_bind] at h; cases h
        | error e2 =>
          rw [h2, raise_bind] at h
          cases h
          exact .later [] 0 ts _ (Or.inl ⟨rfl, rfl⟩) (ih h2)
      | cons c t =>
        rw [if_neg (by simp)] at h
        cases h1 : parseInt (c :: t) with
        | error e1 =>
          rw [h1, raise_bind] at h
          cases h
          rw [parseInt_err _ _ h1]
          exact .number _ _ (by simp) (fun v r ⟨l, hv, _⟩ => by rw [(parseInt_iff _ _ _).2 hv] at h1; cases h1)
        | ok x =>
          obtain ⟨v, l⟩ := x
          rw [h1, ok_bind] at h
          dsimp only at h
          have hs := (parseInt_iff _ _ _).1 h1
          by_cases hl : (c :: t).length = l
          · rw [hl, beq_self_eq_true, pyAssert_ok, ok_bind] at h
            cases h2 : compNums ts with
            | ok r => rw [h2, ok_bind] at h; cases h
            | error e2 =>
              rw [h2, raise_bind] at h
              cases h
              refine .later _ v ts _ (Or.inr ?_) (ih h2)
              rw [← hl] at hs
              exact hs
          · have : ((c :: t).length == l) = false := by simpa using hl
            rw [this] at h
            change (Except.error Err.assertionError : Py (List Int)) = _ at h
            cases h
            obtain ⟨a, r, ha, hal, _⟩ := intSyntax_take hs
            cases r with
            | nil => exfalso; apply hl; rw [ha, ← hal]; simp
            | cons c' r =>
              refine .junk _ _ v c' r ⟨l, hs, ?_⟩
              rw [ha, ← hal]; simp
  · intro h
    induction h with
    | number t us h1 h2 =>
      rw [compNums, if_neg (by simpa using h1)]
      cases h3 : parseInt t with
      | ok x => exact absurd ⟨x.2, (parseInt_iff _ x.1 x.2).1 h3, rfl⟩ (h2 _ _)
      | error e1 => rw [raise_bind, parseInt_err _ _ h3]
    | junk t us v c r h =>
      obtain ⟨l, hs, hr⟩ := h
      have hne : t ≠ [] := by rintro rfl; simp at hr
      rw [compNums, if_neg (by simpa using hne), (parseInt_iff _ _ _).2 hs, ok_bind]
      dsimp only
      have : (t.length == l) = false := by
        simp only [beq_eq_false_iff_ne]
        rintro rfl
        simp at hr
      rw [this]
      rfl
    | later t v us e h1 _ ih =>
      rw [compNums]
      rcases h1 with ⟨rfl, rfl⟩ | h1
      · rw [if_pos (by rfl), ih, raise_bind]
      · have hne := (intSyntax_clean h1).2.1
        rw [if_neg (by simpa using hne), wholeInt_parse h1, ok_bind]
        dsimp only
        rw [beq_self_eq_true, pyAssert_ok, ok_bind, ih, raise_bind]

theorem compCollect_error (sizes : List Nat) (s : Str) (e : Err) :
    PartsRejects sizes s e ↔ compCollect sizes s = .error e := by
  unfold compCollect
  constructor
  · intro h
    cases h with
    | number ts t us vs hc hw h1 h2 =>
      rw [split_cut hc, (compNums_error _ _).2 (split_badPart hw (.number t us h1 h2)), raise_bind]
    | junk ts t us vs v c r hc hw h1 =>
      rw [split_cut hc, (compNums_error _ _).2 (split_badPart hw (.junk t us v c r h1)), raise_bind]
    | pack ts vs hc hw h =>
      rw [split_cut hc, (compNums_whole _ _).2 hw, ok_bind]
      exact (packSizesLE_error _ _ _).2 ⟨h, rfl⟩
  · intro h
    cases h1 : compNums (splitAll ':' s) with
    | error e1 =>
      rw [h1, raise_bind] at h
      cases h
      obtain ⟨as, t, bs, vs, he, hw, hb⟩ := badPart_split ((compNums_error _ _).1 h1)
      have hc := cut_split s
      rw [he] at hc
      rcases hb with ⟨g1, g2, rfl⟩ | ⟨v, c, r, g1, rfl⟩
      · exact .number s as t bs vs hc hw g1 g2
      · exact .junk s as t bs vs v c r hc hw g1
    | ok vs =>
      rw [h1, ok_bind] at h
      obtain ⟨h2, rfl⟩ := (packSizesLE_error _ _ _).1 h
      exact .pack s _ vs (cut_split s) ((compNums_whole _ _).1 h1) h2

theorem refused_parts (key : Key) (sizes : List Nat) (v : Str) (hg : getToken v = ([], v, [])) (e : Err) :
    Refusal (encText key (.comp sizes) v) v e ↔ (Kind.parts sizes).Rejects v e := by
  show Refusal (compStr2bin key sizes v) v e ↔ SplitRejects _ _ _ v e
  unfold compStr2bin
  rw [hg]
  exact refused_split (F := fun p q => (header key sizes.sum true ++ (p ++ q), 0 + v.length))
    (G := fun p => (header key sizes.sum false ++ p, 0 + v.length)) v (fun _ _ => by simp) (fun _ => by simp)
    (fun a _ _ _ => exists_congr fun b => (compCollect_iff sizes a b).symm) (fun a _ _ _ e => compCollect_error sizes a e)
    (fun _ b _ _ _ e => compCollect_error sizes b e) e

theorem vhtNums_iff (i : Nat) (ts : List Str) (vs : List Int) : vhtNums i ts = .ok vs ↔ VhtNumbers i ts vs := by
  constructor
  · intro h
    induction ts generalizing i vs with
    | nil => cases h; exact .nil i
    | cons t ts ih =>
      by_cases hi : i = 3
      · subst hi
        obtain ⟨b, ws, h1, h2, rfl⟩ := (vhtNums_three _ _ _).1 h
        exact .hex t b ts ws h1 (ih _ _ h2)
      · obtain ⟨v, ws, h1, h2, rfl⟩ := (vhtNums_cons i hi _ _ _).1 h
        exact .num i t v ts ws hi h1 (ih _ _ h2)
  · intro h
    induction h with
    | nil i => rfl
    | hex t b ts vs h1 _ ih => exact (vhtNums_three _ _ _).2 ⟨b, vs, h1, ih, rfl⟩
    | num i t v ts vs hi h1 _ ih => exact (vhtNums_cons i hi _ _ _).2 ⟨v, vs, h1, ih, rfl⟩

theorem a2bHex_err {s : Str} {e : Err} (h : a2bHex s = .error e) : e = .valueError := by
  fun_induction a2bHex s generalizing e <;> simp_all [bind, Except.bind]
  all_goals (split at h <;> simp_all)

theorem vhtNums_err {i : Nat} {ts : List Str} {e : Err} (h : vhtNums i ts = .error e) : e = .valueError := by
  induction ts generalizing i with
  | nil => cases h
  | cons t ts ih =>
    rw [vhtNums] at h
    split at h
    · cases h1 : a2bHex t with
      | error e1 => rw [h1, raise_bind] at h; cases h; exact a2bHex_err h1
      | ok b =>
        rw [h1, ok_bind] at h
        cases h2 : vhtNums (i + 1) ts with
        | error e2 => rw [h2, raise_bind] at h; cases h; exact ih h2
        | ok r => rw [h2, ok_bind] at h; cases h
    · split at h
      · cases h2 : vhtNums (i + 1) ts with
        | error e2 => rw [h2, raise_bind] at h; cases h; exact ih h2
        | ok r => rw [h2, ok_bind] at h; cases h
      · cases h1 : parseInt t with
        | error e1 => rw [h1, raise_bind] at h; cases h; exact parseInt_err _ _ h1
        | ok x =>
          rw [h1, ok_bind] at h
          dsimp only at h
          cases h2 : vhtNums (i + 1) ts with
          | error e2 => rw [h2, raise_bind] at h; cases h; exact ih h2
          | ok r => rw [h2, ok_bind] at h; cases h

theorem vhtCollect_error (s : Str) (e : Err) : VhtRejects s e ↔ vhtCollect s = .error e := by
  unfold vhtCollect
  constructor
  · intro h
    cases h with
    | number ts hc h =>
      rw [split_cut hc]
      cases h1 : vhtNums 0 ts with
      | ok vs => exact absurd ((vhtNums_iff _ _ _).1 h1) (h vs)
      | error e1 => rw [raise_bind, vhtNums_err h1]
    | pack ts vs hc hw h =>
      rw [split_cut hc, (vhtNums_iff _ _ _).2 hw, ok_bind]
      exact (packSizesLE_error _ _ _).2 ⟨h, rfl⟩
  · intro h
    cases h1 : vhtNums 0 (splitAll ':' s) with
    | error e1 =>
      rw [h1, raise_bind] at h
      cases h
      rw [vhtNums_err h1]
      refine .number s _ (cut_split s) fun vs hv => ?_
      rw [(vhtNums_iff _ _ _).2 hv] at h1; cases h1
    | ok vs =>
      rw [h1, ok_bind] at h
      obtain ⟨h2, rfl⟩ := (packSizesLE_error _ _ _).1 h
      exact .pack s _ vs (cut_split s) ((vhtNums_iff _ _ _).1 h1) h2

theorem refused_vht (key : Key) (v : Str) (hg : getToken v = ([], v, [])) (e : Err) :
    Refusal (encText key .vht v) v e ↔ Kind.vht.Rejects v e := by
  show Refusal (vhtStr2bin key v) v e ↔ SplitRejects _ _ _ v e
  unfold vhtStr2bin
  rw [hg]
  exact refused_split (F := fun p q => (header key vhtSizes.sum true ++ (p ++ q), 0 + v.length))
    (G := fun p => (header key vhtSizes.sum false ++ p, 0 + v.length)) v (fun _ _ => by simp) (fun _ => by simp)
    (fun a _ _ _ => exists_congr fun b => (vhtCollect_iff a b).symm) (fun a _ _ _ e => vhtCollect_error a e)
    (fun _ b _ _ _ e => vhtCollect_error b e) e

/-! ## Byte strings -/

/-- For coders that take whole tokens or raise `ValueError`. -/
theorem refused_whole {key : Key} {k : Enc} {kind : Kind} {v : Str} (hx : ExactOn key k kind v)
    (hw : (∃ bin, encText key k v = .ok (bin, v.length)) ∨ encText key k v = .error .valueError) (e : Err) :
    Refusal (encText key k v) v e ↔ (∀ p m, ¬ ValueText kind v p m) ∧ e = .valueError := by
  rcases hw with ⟨bin, hw⟩ | hw
  · rw [hw, refusal_ok]
    obtain ⟨p, m, h, _⟩ := (hx bin v.length).1 ⟨hw, rfl⟩
    constructor
    · rintro ⟨h, _⟩; exact absurd rfl h
    · rintro ⟨h', _⟩; exact absurd h (h' p m)
  · rw [hw, refusal_error]
    constructor
    · rintro rfl
      refine ⟨fun p m h => ?_, rfl⟩
      have := (hx _ v.length).2 ⟨p, m, h, rfl, rfl⟩
      rw [hw] at this
      cases this.1
    · rintro ⟨_, rfl⟩; rfl

theorem a2bQp_err {s : Str} {e : Err} (h : a2bQp s = .error e) : e = .valueError := by
  unfold a2bQp at h
  repeat' split at h
  all_goals cases h
  all_goals rfl

theorem hex_whole (key : Key) (v : Str) (hg : getToken v = ([], v, [])) :
    (∃ bin, encText key .hex v = .ok (bin, v.length)) ∨ encText key .hex v = .error .valueError := by
  show (∃ bin, hexStr2bin key v = _) ∨ hexStr2bin key v = _
  unfold hexStr2bin
  rw [hg]
  dsimp only
  rcases split1 '/' v with ⟨a, m⟩
  dsimp only
  cases h1 : a2bHex a with
  | error e => right; rw [raise_bind, a2bHex_err h1]
  | ok p =>
    rw [ok_bind]
    cases m with
    | none => exact Or.inl ⟨_, by simp; rfl⟩
    | some m =>
      dsimp only
      cases h2 : a2bHex m with
      | error e => right; rw [raise_bind, a2bHex_err h2]
      | ok q => rw [ok_bind]; exact Or.inl ⟨_, by simp; rfl⟩

theorem ssid_whole (key : Key) (v : Str) (hg : getToken v = ([], v, [])) :
    (∃ bin, encText key .ssid v = .ok (bin, v.length)) ∨ encText key .ssid v = .error .valueError := by
  show (∃ bin, ssidStr2bin key v = _) ∨ ssidStr2bin key v = _
  unfold ssidStr2bin
  rw [hg]
  dsimp only
  rcases hs : splitAll '/' v with _ | ⟨a, ms⟩
  · exact absurd hs (splitAll_ne_nil _ _)
  · dsimp only
    cases h1 : a2bQp a with
    | error e => right; rw [raise_bind, a2bQp_err h1]
    | ok p =>
      rw [ok_bind]
      cases ms with
      | nil => exact Or.inl ⟨_, by simp; rfl⟩
      | cons m _ =>
        dsimp only
        cases h2 : a2bHex m with
        | error e => right; rw [raise_bind, a2bHex_err h2]
        | ok q => rw [ok_bind]; exact Or.inl ⟨_, by simp; rfl⟩

/-! ## All kinds -/

theorem refused_kind (key : Key) (k : Kind) (hk : ∀ n, k = .port n → n = 2 ∨ n = 4) (v : Str)
    (hg : getToken v = ([], v, [])) (e : Err) : Refusal (encText key (kindEnc k) v) v e ↔ k.Rejects v e := by
  cases k with
  | uint n => exact refused_uint key n v e
  | port n => exact refused_port key n (hk n rfl) v e
  | mac => exact refused_mac key v e
  | ipv4 => exact refused_ipv4 key v hg e
  | ipv6 => exact refused_ipv6 key v hg e
  | packetType => exact refused_packetType key v e
  | bytes => exact refused_whole (kind_exact key .bytes hk v hg) (hex_whole key v hg) e
  | ssid => exact refused_whole (kind_exact key .ssid hk v hg) (ssid_whole key v hg) e
  | le n => exact refused_le key n v e
  | rate => exact refused_rate key v e
  | channel => exact refused_channel key v e
  | parts sizes => exact refused_parts key sizes v hg e
  | vht => exact refused_vht key v hg e
  | signed => exact refused_signed key v e

end Ofpstr
