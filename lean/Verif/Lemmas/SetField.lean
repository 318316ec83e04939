import Verif.Lemmas.NxHdr

/-!
# `set_<field>` actions
-/

namespace Ofpstr
open Spec

theorem set_names : ∀ f ∈ fields, lookupAct (t!"set_" ++ f.name) = none := by decide +kernel

/-- One item: with and without the loop. -/
theorem str2oxm1_single (name v : Str) (hc : Clean name) (hn : name ≠ []) (hv : Token v)
    (hp : PlainStart v) (hvn : v ≠ []) :
    str2oxm1 (name ++ '=' :: v) = str2oxm (name ++ '=' :: v) ∧
    ∀ b l, str2oxm (name ++ '=' :: v) = .ok (b, l) → l = (name ++ '=' :: v).length := by
  have h1 := getToken_clean hc hn (atEnd_eq v)
  have h2 : getToken ('=' :: v) = (['='], v, []) := by
    have := getToken_eq hv atEnd_nil hp hvn
    simpa using this
  have hone : str2oxmOne (name ++ '=' :: v) = (match lookupEnc name with
      | none => .error .keyError
      | some (key, k) => do
        let (bin, length) ← encText key k v
        .ok (bin, length, v, [])) := by
    unfold str2oxmOne
    rw [h1]
    dsimp only
    rw [h2]
    rfl
  have hne : (name ++ '=' :: v).isEmpty = false := by cases name <;> rfl
  have hrest : ∀ w, str2oxmOne (name ++ '=' :: v) = .ok w → w.2.2.2 = [] := by
    intro w hw
    rw [hone] at hw
    split at hw
    · cases hw
    · obtain ⟨_, _, hw⟩ := bind_ok hw
      cases hw; rfl
  have hgo : ∀ fuel, str2oxmGo true (fuel + 2) (name ++ '=' :: v) =
        str2oxmGo false (fuel + 2) (name ++ '=' :: v) ∧
      ∀ m rest, str2oxmGo true (fuel + 2) (name ++ '=' :: v) = .ok (m, rest) → rest = [] := by
    intro fuel
    rw [str2oxmGo, str2oxmGo, hne]
    simp only [Bool.false_eq_true, if_false, if_true]
    cases hw : str2oxmOne (name ++ '=' :: v) with
    | error e => exact ⟨rfl, fun m rest h => by cases h⟩
    | ok w =>
      obtain ⟨bin, length, payload, rest⟩ := w
      have := hrest _ hw
      dsimp only at this
      subst this
      simp only [bind, Except.bind]
      by_cases hl : (length == 0) = true
      · rw [if_pos hl, if_pos hl]
        exact ⟨rfl, fun m rest h => by cases h; rfl⟩
      · rw [if_neg hl, if_neg hl]
        cases pyAssert (length == payload.length) with
        | error e => exact ⟨rfl, fun m rest h => by cases h⟩
        | ok _ =>
          simp [str2oxmGo]
  have hlen : ∃ n, (name ++ '=' :: v).length + 1 = n + 2 := ⟨(name ++ '=' :: v).length - 1, by simp; omega⟩
  obtain ⟨n, hn⟩ := hlen
  obtain ⟨g1, g2⟩ := hgo n
  unfold str2oxm1 str2oxm str2oxmL
  rw [hn, g1]
  refine ⟨rfl, ?_⟩
  intro b l h
  obtain ⟨⟨m, rest⟩, h3, h4⟩ := bind_ok h
  rw [← g1] at h3
  have := g2 m rest h3
  subst this
  cases h4
  simp

theorem setFieldAct_eq (oxm : Bytes) : setFieldAct oxm =
    if (setFieldWire oxm).length < 65536 then .ok (setFieldWire oxm) else .error .structError := by
  cases h : setFieldAct oxm with
  | ok b =>
    obtain ⟨h1, h2⟩ := setFieldAct_wire oxm b h
    rw [h1] at h2 ⊢
    rw [if_pos h2]
  | error e =>
    unfold setFieldAct at h
    dsimp only at h
    rw [packAll_int, packAll_int] at h
    have e1 : (0 : Int) ≤ (OFPAT_SET_FIELD : Nat) ∧ ((OFPAT_SET_FIELD : Nat) : Int) < (256 ^ 2 : Nat) := by
      decide
    rw [if_pos e1] at h
    by_cases hb : (0 : Int) ≤ (align8 (oxm.length + 4) : Nat) ∧
        ((align8 (oxm.length + 4) : Nat) : Int) < (256 ^ 2 : Nat)
    · rw [if_pos hb] at h
      simp [packAll_nil, Except.bind, bind] at h
    · rw [if_neg hb] at h
      have : e = .structError := by cases h; rfl
      subst this
      have hl : (setFieldWire oxm).length = align8 (oxm.length + 4) := by
        rw [(setFieldWire_length oxm).1, fill_length, Nat.add_comm 4]
        have := align8_facts (oxm.length + 4)
        omega
      have e3 : ((256 ^ 2 : Nat) : Int) = 65536 := by decide
      rw [e3] at hb
      rw [if_neg (by rw [hl]; omega)]

theorem startsWith_append (a b : Str) : startsWith (a ++ b) a = true := by
  unfold startsWith
  rw [List.isPrefixOf_iff_prefix]
  exact ⟨b, rfl⟩

/-- `str2act` with the last step of a `set_` action as a parameter. -/
def str2actG (ox : Str → Py (Bytes × Nat)) (run : ActEnc → Str → Bool → Py (Bytes × Nat))
    (g : Bytes → Py Bytes) (s : Str) : Py (Bytes × Nat) := do
  let (h, name, arg) := getToken s
  let (fname, farg) ← parseFunc name
  let farg := match farg with | some (c :: cs) => some (c :: cs) | _ => none
  match farg, lookupAct fname with
  | some a, some k =>
    let (b, _) ← run k a false
    .ok (b, h.length + name.length)
  | _, _ =>
    match lookupAct name with
    | some k =>
      let (b, p) ← run k arg true
      .ok (b, h.length + name.length + p)
    | none =>
      if startsWith name t!"set_" then
        match farg with
        | some a =>
          let (_, payload, _) := getToken a
          let (oxm, _) ← ox (fname.drop 4 ++ '=' :: payload)
          let b ← g oxm
          .ok (b, h.length + name.length)
        | none =>
          let (op, payload, _) := getToken arg
          let (oxm, p) ← ox (name.drop 4 ++ (op ++ payload))
          let b ← g oxm
          .ok (b, h.length + 4 + p)
      else .ok ([], h.length)

theorem str2act_G (s : Str) : str2act s = str2actG str2oxm1 runActEnc setFieldAct s := rfl

theorem str2actG_set_eq (ox : Str → Py (Bytes × Nat))
    (run : ActEnc → Str → Bool → Py (Bytes × Nat)) (g : Bytes → Py Bytes)
    (h n fn v r : Str) (hh : Head h) (hv : Token v) (hp : PlainStart v)
    (hvn : v ≠ []) (hr : AtEnd r) (hc : Clean n) (hne : n ≠ []) (hlk : lookupAct n = none)
    (hst : startsWith n t!"set_" = true) (hd : n.drop 4 = fn) :
    str2actG ox run g (h ++ (n ++ '=' :: (v ++ r))) = (ox (fn ++ '=' :: v)).bind fun x =>
      (g x.1).bind fun b => .ok (b, h.length + 4 + x.2) := by
  unfold str2actG
  rw [getToken_head hh hc.token (atEnd_eq _) hc.plainStart hne]
  dsimp only
  rw [parseFunc_bare _ hc.notOpen]
  have hg := getToken_eq hv hr hp hvn
  generalize v ++ r = w at hg
  cases ho : ox (fn ++ '=' :: v) with
  | error e =>
    simp only [bind, Except.bind, hlk, hst, if_true, hg, hd, List.cons_append,
      List.nil_append, ho]
  | ok x =>
    cases ha : g x.1 with
    | error e =>
      simp only [bind, Except.bind, hlk, hst, if_true, hg, hd, List.cons_append,
        List.nil_append, ho, ha]
    | ok b =>
      simp only [bind, Except.bind, hlk, hst, if_true, hg, hd, List.cons_append,
        List.nil_append, ho, ha]

theorem str2actG_set_call (ox : Str → Py (Bytes × Nat))
    (run : ActEnc → Str → Bool → Py (Bytes × Nat)) (g : Bytes → Py Bytes)
    (h n fn v r : Str) (hh : Head h) (hv : Token v) (hp : PlainStart v)
    (hvn : v ≠ []) (hr : AtEnd r) (hc : Clean n) (hne : n ≠ []) (hlk : lookupAct n = none)
    (hst : startsWith n t!"set_" = true) (hd : n.drop 4 = fn) (hi : Inside ')' v) :
    str2actG ox run g (h ++ (n ++ '(' :: v ++ [')'] ++ r)) = (ox (fn ++ '=' :: v)).bind fun x =>
      (g x.1).bind fun b => .ok (b, h.length + (n ++ '(' :: v ++ [')']).length) := by
  have hg := getToken_call h n v r hh hc hne hi hr
  have hgv : getToken v = ([], v, []) := by
    have := getToken_plain hv atEnd_nil hp hvn
    simpa using this
  have hlt : lookupAct (n ++ '(' :: v ++ [')']) = none := by
    rw [List.append_assoc, List.cons_append]
    exact lookupAct_bracket _ _ _ (by decide)
  have hst' : startsWith (n ++ '(' :: v ++ [')']) t!"set_" = true := by
    unfold startsWith at hst ⊢
    rw [List.isPrefixOf_iff_prefix] at hst ⊢
    rw [List.append_assoc]
    exact hst.trans (List.prefix_append _ _)
  unfold str2actG
  rw [hg]
  dsimp only
  rw [parseFunc_paren _ v hc hi]
  generalize hw : n ++ '(' :: v ++ [')'] = w at hlt hst'
  cases v with
  | nil => exact absurd rfl hvn
  | cons c cs =>
    cases ho : ox (fn ++ '=' :: (c :: cs)) with
    | error e => simp only [bind, Except.bind, hlk, hlt, hst', if_true, hgv, hd, ho]
    | ok x =>
      cases ha : g x.1 with
      | error e => simp only [bind, Except.bind, hlk, hlt, hst', if_true, hgv, hd, ho, ha]
      | ok b => simp only [bind, Except.bind, hlk, hlt, hst', if_true, hgv, hd, ho, ha]

theorem str2act_set_eq (h n fn v r : Str) (hh : Head h) (hv : Token v) (hp : PlainStart v)
    (hvn : v ≠ []) (hr : AtEnd r) (hc : Clean n) (hne : n ≠ []) (hlk : lookupAct n = none)
    (hst : startsWith n t!"set_" = true) (hd : n.drop 4 = fn) :
    str2act (h ++ (n ++ '=' :: (v ++ r))) = (str2oxm1 (fn ++ '=' :: v)).bind fun x =>
      (setFieldAct x.1).bind fun b => .ok (b, h.length + 4 + x.2) :=
  (str2act_G _).trans (str2actG_set_eq str2oxm1 runActEnc setFieldAct h n fn v r hh hv hp hvn hr hc
    hne hlk hst hd)

theorem str2act_set_call (h n fn v r : Str) (hh : Head h) (hv : Token v) (hp : PlainStart v)
    (hvn : v ≠ []) (hr : AtEnd r) (hc : Clean n) (hne : n ≠ []) (hlk : lookupAct n = none)
    (hst : startsWith n t!"set_" = true) (hd : n.drop 4 = fn) (hi : Inside ')' v) :
    str2act (h ++ (n ++ '(' :: v ++ [')'] ++ r)) = (str2oxm1 (fn ++ '=' :: v)).bind fun x =>
      (setFieldAct x.1).bind fun b => .ok (b, h.length + (n ++ '(' :: v ++ [')']).length) :=
  (str2act_G _).trans (str2actG_set_call str2oxm1 runActEnc setFieldAct h n fn v r hh hv hp hvn hr
    hc hne hlk hst hd hi)

theorem bind_shift (o : Py (Bytes × Nat)) (g : Bytes → Py Bytes) (k m : Nat)
    (h : ∀ b l, o = .ok (b, l) → k + l = m) :
    (o.bind fun x => (g x.1).bind fun b => .ok (b, k + x.2)) =
      o.bind fun x => (g x.1).bind fun b => (.ok (b, m) : Py (Bytes × Nat)) := by
  cases o with
  | error e => rfl
  | ok x => simp only [Except.bind, h x.1 x.2 rfl]

theorem bind_fit (o : Py (Bytes × Nat)) (g : Bytes → Py Bytes) (wire : Bytes → Bytes)
    (fit : Bytes → Prop) [∀ b, Decidable (fit b)] (m : Nat) (e : Err)
    (h : ∀ b, g b = if fit b then .ok (wire b) else .error e) :
    (o.bind fun x => (g x.1).bind fun b => .ok (b, m)) =
      o.bind fun x => if fit x.1 then .ok (wire x.1, m) else (.error e : Py (Bytes × Nat)) := by
  cases o with
  | error e => rfl
  | ok x =>
    simp only [Except.bind, h]
    by_cases hb : fit x.1
    · rw [if_pos hb, if_pos hb]
    · rw [if_neg hb, if_neg hb]

/-- Both styles of a `set_` action. -/
theorem str2act_set (f : Field) (hf : f ∈ fields) (h v r t : Str) (hh : Head h) (hv : Token v)
    (hp : PlainStart v) (hvn : v ≠ []) (hr : Boundary r)
    (ht : t = t!"set_" ++ f.name ++ '=' :: v ∨
      (t = t!"set_" ++ f.name ++ '(' :: v ++ [')'] ∧ Inside ')' v)) :
    str2act (h ++ (t ++ r)) = (str2oxm (f.name ++ '=' :: v)).bind fun x =>
      if (setFieldWire x.1).length < 65536 then .ok (setFieldWire x.1, h.length + t.length)
      else .error .structError := by
  obtain ⟨n1, n2, _⟩ := field_name f hf
  obtain ⟨n, hn⟩ : ∃ n, n = t!"set_" ++ f.name := ⟨_, rfl⟩
  have hc : Clean n := by rw [hn]; exact clean_append (by decide) n1
  have hne : n ≠ [] := by rw [hn]; simp
  have hlk : lookupAct n = none := by rw [hn]; exact set_names f hf
  have hst : startsWith n t!"set_" = true := by rw [hn]; exact startsWith_append _ _
  have hd : n.drop 4 = f.name := by rw [hn]; rfl
  have hlen : n.length = 4 + f.name.length := by rw [hn]; simp; omega
  obtain ⟨s1, s2⟩ := str2oxm1_single f.name v n1 n2 hv hp hvn
  have key : str2act (h ++ (t ++ r)) = (str2oxm (f.name ++ '=' :: v)).bind fun x =>
      (setFieldAct x.1).bind fun b => .ok (b, h.length + t.length) := by
    rcases ht with ht | ⟨ht, hi⟩
    · rw [← hn] at ht
      subst ht
      have e : h ++ (n ++ '=' :: v ++ r) = h ++ (n ++ '=' :: (v ++ r)) := by simp
      rw [e, str2act_set_eq h n f.name v r hh hv hp hvn hr hc hne hlk hst hd, s1]
      have : ∀ oxm l, str2oxm (f.name ++ '=' :: v) = .ok (oxm, l) →
          h.length + 4 + l = h.length + (n ++ '=' :: v).length := by
        intro oxm l ho
        rw [s2 oxm l ho, List.length_append, List.length_append, hlen]; omega
      exact bind_shift _ setFieldAct _ _ this
    · rw [← hn] at ht
      subst ht
      rw [str2act_set_call h n f.name v r hh hv hp hvn hr hc hne hlk hst hd hi, s1]
  rw [key]
  exact bind_fit _ setFieldAct setFieldWire (fun b => (setFieldWire b).length < 65536) _ _
    setFieldAct_eq

end Ofpstr
