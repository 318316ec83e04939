import Verif.Lemmas.ActStd

/-!
# What the action encoders return, on any text
-/

namespace Ofpstr
open Spec

/-- Every result has the property. -/
def Holds {α : Type} (P : α → Prop) (r : Py α) : Prop := ∀ x, r = .ok x → P x

theorem holds_ok {α : Type} {P : α → Prop} {a : α} (h : P a) : Holds P (.ok a) := by
  intro x hx; cases hx; exact h
theorem holds_error {α : Type} {P : α → Prop} (e : Err) : Holds P (.error e) := by
  intro x hx; cases hx
theorem holds_bind {α β : Type} {P : β → Prop} {x : Py α} {f : α → Py β} (hf : ∀ a, Holds P (f a)) :
    Holds P (x >>= f) := by
  intro b hb
  obtain ⟨a, _, h⟩ := bind_ok hb
  exact hf a b h

/-- The bytes before padding and length correction. -/
def NxBin (subs : List Nat) (x : Bytes × Nat) : Prop := ∃ t ∈ subs, ∃ body, x.1 = nxastHdr t ++ body

/-- A complete Nicira action. -/
def NxAct (subs : List Nat) (x : Bytes × Nat) : Prop :=
  ∃ t ∈ subs, ∃ body, x.1 = nxWire t body ∧ x.1.length < 65536

theorem nxastHdr_length (t : Nat) : (nxastHdr t).length = 10 := by
  simp [nxastHdr, beBytes_length]

theorem fixActLen_hdr (t : Nat) (body : Bytes) : fixActLen (nxastHdr t ++ body) =
    if 10 + body.length < 65536 then .ok (nxRaw t body) else .error .structError := by
  unfold fixActLen
  rw [packU_int]
  have hl : (nxastHdr t ++ body).length = 10 + body.length := by
    rw [List.length_append, nxastHdr_length]
  rw [hl]
  have e1 : (nxastHdr t ++ body).take 2 = u16 0xffff := by
    rw [spec_u16]; rfl
  have e2 : (nxastHdr t ++ body).drop 4 = u32 0x2320 ++ (u16 t ++ body) := by
    rw [spec_u32, spec_u16]
    unfold nxastHdr
    simp only [List.append_assoc]
    rw [← List.append_assoc (beBytes 2 _)]
    exact List.drop_left' (by simp [beBytes_length])
  have e3 : ((256 ^ 2 : Nat) : Int) = 65536 := by decide
  rw [e3]
  by_cases h : 10 + body.length < 65536
  · rw [if_pos (by constructor <;> omega), if_pos h]
    simp only [bind, Except.bind]
    rw [e1, e2]
    rfl
  · rw [if_neg (by omega), if_neg h]
    rfl

theorem pad8_hdr (t : Nat) (body : Bytes) :
    pad8 (nxastHdr t ++ body) = nxastHdr t ++ (body ++ fill (10 + body.length)) := by
  unfold pad8
  rw [fill_align, List.append_assoc, List.length_append, nxastHdr_length]

theorem nxWrap_ok (bin : Bytes) (l : Nat) :
    nxWrap (.ok (bin, l)) = (fixActLen (pad8 bin)).bind fun b => .ok (b, l) := by
  have key : ∀ f : Bytes → Py Bytes, ((do
      let (bin, rlen) ← (.ok (bin, l) : Py (Bytes × Nat))
      let b ← f (pad8 bin)
      .ok (b, rlen)) : Py (Bytes × Nat)) = (f (pad8 bin)).bind fun b => .ok (b, l) := fun f => rfl
  exact key fixActLen

/-- Padding and length of a Nicira action. -/
theorem nxWrap_hdr (t : Nat) (body : Bytes) (l : Nat) : nxWrap (.ok (nxastHdr t ++ body, l)) =
    if (nxWire t body).length < 65536 then .ok (nxWire t body, l) else .error .structError := by
  have : (nxWire t body).length = 10 + (body ++ fill (10 + body.length)).length := by
    rw [nxWire]
    generalize body ++ fill (10 + body.length) = x
    rw [nxRaw]
    simp only [List.length_append, u16_length, u32_length]
    omega
  rw [this, nxWrap_ok, pad8_hdr, fixActLen_hdr, nxWire]
  generalize body ++ fill (10 + body.length) = x
  by_cases h : 10 + x.length < 65536
  · rw [if_pos h, if_pos h, Except.bind]
  · rw [if_neg h, if_neg h, Except.bind]

theorem nxWrap_holds {subs : List Nat} {r : Py (Bytes × Nat)} (h : Holds (NxBin subs) r) :
    Holds (NxAct subs) (nxWrap r) := by
  intro x hx
  cases r with
  | error e => simp [nxWrap, bind, Except.bind] at hx
  | ok y =>
    obtain ⟨t, ht, body, hb⟩ := h y rfl
    obtain ⟨y1, y2⟩ := y
    dsimp only at hb
    subst hb
    rw [nxWrap_hdr] at hx
    split at hx
    · cases hx
      exact ⟨t, ht, body, rfl, by assumption⟩
    · cases hx

theorem nxBin_mk {subs : List Nat} {t : Nat} (ht : t ∈ subs) (body : Bytes) (l : Nat) :
    Holds (NxBin subs) (.ok (nxastHdr t ++ body, l)) := holds_ok ⟨t, ht, body, rfl⟩

theorem nxBin_mk' {subs : List Nat} {t : Nat} (ht : t ∈ subs) (l : Nat) :
    Holds (NxBin subs) (.ok (nxastHdr t, l)) := holds_ok ⟨t, ht, [], by simp⟩

/-- Walks through a `do` block. -/
syntax "nx_walk" : tactic
macro_rules
  | `(tactic| nx_walk) => `(tactic| repeat' (first
      | with_reducible exact holds_error _
      | with_reducible exact nxBin_mk (by decide) _ _
      | with_reducible exact nxBin_mk' (by decide) _
      | (with_reducible apply holds_bind; intro _)
      | split
      | dsimp only))

theorem cntIds_nx (u : Str) (ra : Bool) : Holds (NxAct [21]) (cntIdsStr2act u ra) := by
  apply nxWrap_holds
  nx_walk

theorem regLoad_nx (u : Str) (ra : Bool) : Holds (NxAct [7]) (regLoadStr2act u ra) := by
  apply nxWrap_holds
  nx_walk

theorem regLoad2_nx (u : Str) (ra : Bool) : Holds (NxAct [33]) (regLoad2Str2act u ra) := by
  apply nxWrap_holds
  nx_walk

theorem regMove_nx (u : Str) (ra : Bool) : Holds (NxAct [6]) (regMoveStr2act u ra) := by
  apply nxWrap_holds
  nx_walk

theorem resubmit_nx (u : Str) (ra : Bool) : Holds (NxAct [1]) (resubmitStr2act false u ra) := by
  apply nxWrap_holds
  nx_walk

theorem resubmitTable_nx (u : Str) (ra : Bool) : Holds (NxAct [14]) (resubmitStr2act true u ra) := by
  apply nxWrap_holds
  nx_walk

theorem setTunnel_nx (u : Str) (ra : Bool) : Holds (NxAct [2, 9]) (setTunnelStr2act 2 u ra) := by
  apply nxWrap_holds
  nx_walk

theorem setTunnel64_nx (u : Str) (ra : Bool) : Holds (NxAct [9]) (setTunnelStr2act 9 u ra) := by
  apply nxWrap_holds
  nx_walk

theorem null_nx (t : Nat) (u : Str) (ra : Bool) : Holds (NxAct [t]) (nullStr2act t u ra) := by
  apply nxWrap_holds
  exact nxBin_mk' (by simp) _

theorem multipath_nx (u : Str) (ra : Bool) : Holds (NxAct [10]) (multipathStr2act u ra) := by
  apply nxWrap_holds
  nx_walk

theorem bundle_nx (u : Str) (ra : Bool) : Holds (NxAct [12]) (bundleStr2act u ra) := by
  apply nxWrap_holds
  nx_walk

theorem bundleLoad_nx (u : Str) (ra : Bool) : Holds (NxAct [13]) (bundleLoadStr2act u ra) := by
  apply nxWrap_holds
  nx_walk

theorem outputReg_nx (u : Str) (ra : Bool) : Holds (NxAct [15, 32]) (outputRegStr2act false u ra) := by
  apply nxWrap_holds
  nx_walk

theorem outputReg2_nx (u : Str) (ra : Bool) : Holds (NxAct [32]) (outputRegStr2act true u ra) := by
  apply nxWrap_holds
  simp only [Bool.true_or, if_true]
  nx_walk

theorem learn_nx (u : Str) (ra : Bool) : Holds (NxAct [16]) (learnStr2act u ra) := by
  apply nxWrap_holds
  nx_walk

theorem qp_nx (t : Nat) (u : Str) (ra : Bool) : Holds (fun x => ∃ body, x.1 = nxRaw t body ∧
    x.1.length < 65536) (qpStr2act t u ra) := by
  intro x hx
  unfold qpStr2act at hx
  obtain ⟨_, _, hx⟩ := bind_ok hx
  obtain ⟨q, _, hx⟩ := bind_ok hx
  obtain ⟨bin, hb, hx⟩ := bind_ok hx
  rw [fixActLen_hdr] at hb
  by_cases h : 10 + q.length < 65536
  · rw [if_pos h] at hb
    cases hb
    cases hx
    refine ⟨q, rfl, ?_⟩
    simp only [nxRaw, List.length_append, u16_length, u32_length]
    omega
  · rw [if_neg h] at hb
    cases hb

/-- What `str2act` does with a text, by cases. -/
theorem str2act_cases (s : Str) (b : Bytes) (l : Nat) (hs : str2act s = .ok (b, l)) :
    ∃ h tok r fname farg, getToken s = (h, tok, r) ∧ parseFunc tok = .ok (fname, farg) ∧
    ((∃ k u ra p, runActEnc k u ra = .ok (b, p) ∧
      ((∃ a, farg = some a ∧ a ≠ [] ∧ u = a ∧ ra = false ∧ lookupAct fname = some k ∧
          l = h.length + tok.length) ∨
        (u = r ∧ ra = true ∧ lookupAct tok = some k ∧ l = h.length + tok.length + p))) ∨
    (∃ u oxm p, str2oxm1 u = .ok (oxm, p) ∧ setFieldAct oxm = .ok b ∧ startsWith tok t!"set_" = true ∧
      lookupAct tok = none ∧
      ((∃ a, farg = some a ∧ a ≠ [] ∧ lookupAct fname = none ∧
          u = fname.drop 4 ++ '=' :: (getToken a).2.1 ∧ l = h.length + tok.length) ∨
        ((farg = none ∨ farg = some []) ∧ u = tok.drop 4 ++ ((getToken r).1 ++ (getToken r).2.1) ∧
          l = h.length + 4 + p))) ∨
    (b = [] ∧ l = h.length ∧ startsWith tok t!"set_" = false ∧ lookupAct tok = none)) := by
  unfold str2act at hs
  rcases hg : getToken s with ⟨h, tok, r⟩
  rw [hg] at hs
  dsimp only at hs
  obtain ⟨⟨fname, farg⟩, hp, hs⟩ := bind_ok hs
  refine ⟨h, tok, r, fname, farg, rfl, hp, ?_⟩
  have word : (∀ k, lookupAct tok = some k → (do
      let (b, p) ← runActEnc k r true
      .ok (b, h.length + tok.length + p) : Py (Bytes × Nat)) = .ok (b, l) →
      ∃ k u ra p, runActEnc k u ra = .ok (b, p) ∧
      ((∃ a, farg = some a ∧ a ≠ [] ∧ u = a ∧ ra = false ∧ lookupAct fname = some k ∧
          l = h.length + tok.length) ∨
        (u = r ∧ ra = true ∧ lookupAct tok = some k ∧ l = h.length + tok.length + p))) := by
    intro k hk he
    obtain ⟨⟨b', p⟩, h1, h2⟩ := bind_ok he
    cases h2
    exact ⟨k, r, true, p, h1, Or.inr ⟨rfl, rfl, hk, rfl⟩⟩
  dsimp only at hs
  split at hs
  · rename_i a k hfa hk
    obtain ⟨⟨b', p⟩, h1, h2⟩ := bind_ok hs
    cases h2
    split at hfa
    · cases hfa
      exact Or.inl ⟨k, _, false, p, h1, Or.inl ⟨_, rfl, by simp, rfl, rfl, hk, rfl⟩⟩
    · cases hfa
  · rename_i hno
    split at hs
    · rename_i k hk
      exact Or.inl (word k hk hs)
    · rename_i hk
      split at hs
      · rename_i hst
        split at hs
        · rename_i a hfa
          obtain ⟨⟨oxm, p⟩, h1, h2⟩ := bind_ok hs
          obtain ⟨b', h3, h4⟩ := bind_ok h2
          cases h4
          have hln : lookupAct fname = none := by
            cases hlf : lookupAct fname with
            | none => rfl
            | some k => exact absurd hlf (hno a k hfa)
          split at hfa
          · cases hfa
            exact Or.inr (Or.inl ⟨_, oxm, p, h1, h3, hst, hk,
              Or.inl ⟨_, rfl, by simp, hln, rfl, rfl⟩⟩)
          · cases hfa
        · rename_i hfa
          obtain ⟨⟨oxm, p⟩, h1, h2⟩ := bind_ok hs
          obtain ⟨b', h3, h4⟩ := bind_ok h2
          cases h4
          refine Or.inr (Or.inl ⟨_, oxm, p, h1, h3, hst, hk, Or.inr ⟨?_, rfl, rfl⟩⟩)
          split at hfa
          · cases hfa
          · rename_i hx
            cases farg with
            | none => exact Or.inl rfl
            | some a =>
              cases a with
              | nil => exact Or.inr rfl
              | cons c cs => exact absurd rfl (hx c cs)
      · rename_i hst
        cases hs
        exact Or.inr (Or.inr ⟨rfl, rfl, by simpa using hst, hk⟩)

/-- The claim of C27 about one action. -/
def ActGood (b : Bytes) : Prop :=
  ∃ t, ActHead t b ∧ (8 ∣ b.length ∨ (t = 23 ∧ b.length = 5) ∨ NxHead 8 b)

theorem nxRaw_length (t : Nat) (body : Bytes) : (nxRaw t body).length = 10 + body.length := by
  simp only [nxRaw, List.length_append, u16_length, u32_length]
  omega

theorem nxWire_length (t : Nat) (body : Bytes) : 8 ∣ (nxWire t body).length ∧
    (nxWire t body).length = align8 (10 + body.length) := by
  rw [nxWire, nxRaw_length, List.length_append, fill_length]
  obtain ⟨h1, h2, h3⟩ := align8_facts (10 + body.length)
  rw [show 10 + (body.length + (align8 (10 + body.length) - (10 + body.length))) =
    align8 (10 + body.length) by omega]
  exact ⟨h3, rfl⟩

theorem nxRaw_head (t : Nat) (body : Bytes) (h : (nxRaw t body).length < 65536) :
    NxHead t (nxRaw t body) := by
  refine ⟨h, body, ?_⟩
  rw [nxRaw_length, nxRaw]

theorem nxHead_act {t : Nat} {b : Bytes} (h : NxHead t b) : ActHead 0xffff b := by
  obtain ⟨h1, body, h2⟩ := h
  exact ⟨by decide, h1, _, h2⟩

theorem NxAct.good {subs : List Nat} {x : Bytes × Nat} (h : NxAct subs x) : ActGood x.1 := by
  obtain ⟨t, ht, body, h1, h2⟩ := h
  rw [h1] at h2 ⊢
  exact ⟨0xffff, nxHead_act (nxRaw_head t _ h2), Or.inl (nxWire_length t body).1⟩

theorem holds_imp {α : Type} {P Q : α → Prop} {r : Py α} (h : Holds P r) (hpq : ∀ x, P x → Q x) :
    Holds Q r := fun x hx => hpq x (h x hx)

theorem packAll_two_ok (a b : Int) (x : Bytes) (h : packAll [(2, a), (2, b)] = .ok x) :
    0 ≤ a ∧ a < 65536 ∧ 0 ≤ b ∧ b < 65536 ∧ x = u16 a.toNat ++ u16 b.toNat := by
  rw [packAll_int, packAll_int] at h
  have e3 : ((256 ^ 2 : Nat) : Int) = 65536 := by decide
  rw [e3] at h
  by_cases ha : 0 ≤ a ∧ a < 65536
  · rw [if_pos ha] at h
    by_cases hb : 0 ≤ b ∧ b < 65536
    · rw [if_pos hb] at h
      simp only [packAll_nil, Except.bind, List.append_nil] at h
      injection h with h
      exact ⟨ha.1, ha.2, hb.1, hb.2, h.symm⟩
    · rw [if_neg hb] at h; cases h
  · rw [if_neg ha] at h; cases h

theorem setFieldAct_wire (oxm b : Bytes) (h : setFieldAct oxm = .ok b) :
    b = setFieldWire oxm ∧ b.length < 65536 := by
  unfold setFieldAct at h
  dsimp only at h
  obtain ⟨x, hx, h⟩ := bind_ok h
  obtain ⟨_, _, _, h4, h5⟩ := packAll_two_ok _ _ _ hx
  cases h
  subst h5
  obtain ⟨a1, a2, a3⟩ := align8_facts (oxm.length + 4)
  have hl : 4 + oxm.length + (fill (4 + oxm.length)).length = align8 (oxm.length + 4) := by
    rw [fill_length, Nat.add_comm 4]
    omega
  constructor
  · rw [setFieldWire, hl, fill_align, Nat.add_comm 4]
    rw [show align8 (oxm.length + 4) - 4 - oxm.length = align8 (oxm.length + 4) - (oxm.length + 4) by
      omega]
    simp only [List.append_assoc, Int.toNat_natCast]
    rfl
  · simp only [List.length_append, u16_length, zeros_length]
    omega

theorem setFieldWire_length (oxm : Bytes) :
    (setFieldWire oxm).length = 4 + oxm.length + (fill (4 + oxm.length)).length ∧
    8 ∣ (setFieldWire oxm).length := by
  have : (setFieldWire oxm).length = 4 + oxm.length + (fill (4 + oxm.length)).length := by
    rw [setFieldWire]
    generalize fill (4 + oxm.length) = f
    simp only [List.length_append, u16_length]
    omega
  refine ⟨this, ?_⟩
  obtain ⟨a1, a2, a3⟩ := align8_facts (4 + oxm.length)
  rw [this, fill_length, show 4 + oxm.length + (align8 (4 + oxm.length) - (4 + oxm.length)) =
    align8 (4 + oxm.length) by omega]
  exact a3

theorem setField_good (oxm : Bytes) (h : (setFieldWire oxm).length < 65536) :
    ActGood (setFieldWire oxm) := by
  obtain ⟨h1, h2⟩ := setFieldWire_length oxm
  refine ⟨25, ⟨by decide, h, oxm ++ fill (4 + oxm.length), ?_⟩, Or.inl h2⟩
  rw [h1, setFieldWire]

theorem generic_good (t : Nat) (ht : t < 65536) : Holds (fun x => ActGood x.1) (genericStr2act t) := by
  apply holds_ok
  refine ⟨t, ⟨ht, by simp [beBytes_length, zeros_length], zeros 4, ?_⟩, Or.inl ?_⟩
  · simp [beBytes_length, zeros_length, spec_u16]
  · simp [beBytes_length, zeros_length]

theorem packU_be {k : Nat} {v : Int} {x : Bytes} (h : packU k v = .ok x) :
    0 ≤ v ∧ v < (256 ^ k : Nat) ∧ x = be k v.toNat := by
  rw [packU_int] at h
  by_cases hv : 0 ≤ v ∧ v < (256 ^ k : Nat)
  · rw [if_pos hv] at h; injection h with h; exact ⟨hv.1, hv.2, h.symm⟩
  · rw [if_neg hv] at h; cases h

theorem uint_good (t size pd : Nat) (ht : t < 65536)
    (hs : 4 + size + pd = 8 ∨ (t = 23 ∧ size = 1 ∧ pd = 0)) (u : Str) :
    Holds (fun x => ActGood x.1) (uintStr2act t size pd u) := by
  intro x hx
  unfold uintStr2act at hx
  dsimp only at hx
  obtain ⟨⟨num, l⟩, _, hx⟩ := bind_ok hx
  obtain ⟨_, _, hx⟩ := bind_ok hx
  obtain ⟨v, hv, hx⟩ := bind_ok hx
  have hvl : v.length = size := by rw [(packU_be hv).2.2, be_length]
  cases hx
  have hl : (beBytes 2 t ++ (beBytes 2 (4 + (v ++ zeros pd).length) ++ (v ++ zeros pd))).length =
      4 + size + pd := by
    simp only [List.length_append, beBytes_length, zeros_length, hvl]; omega
  refine ⟨t, ⟨ht, ?_, v ++ zeros pd, ?_⟩, ?_⟩
  · rw [hl]; rcases hs with h | ⟨_, h1, h2⟩ <;> omega
  · rw [hl]
    simp only [List.length_append, zeros_length, hvl, spec_u16, Nat.add_assoc]
  · rw [hl]
    rcases hs with h | ⟨h0, h1, h2⟩
    · left; rw [h]
    · right; left; exact ⟨h0, by omega⟩

theorem push_good (t : Nat) (ht : t < 65536) (u : Str) :
    Holds (fun x => ActGood x.1) (pushStr2act t u) := by
  intro x hx
  unfold pushStr2act at hx
  dsimp only at hx
  obtain ⟨⟨num, l⟩, _, hx⟩ := bind_ok hx
  obtain ⟨v, hv, hx⟩ := bind_ok hx
  have hvl : v.length = 2 := by rw [(packU_be hv).2.2, be_length]
  cases hx
  have hl : (beBytes 2 t ++ (beBytes 2 8 ++ (v ++ zeros 2))).length = 8 := by
    simp only [List.length_append, beBytes_length, zeros_length, hvl]
  refine ⟨t, ⟨ht, ?_, v ++ zeros 2, ?_⟩, Or.inl ?_⟩ <;> rw [hl]
  · decide
  · simp only [spec_u16]

theorem output_good (u : Str) : Holds (fun x => ActGood x.1) (outputStr2act u) := by
  intro x hx
  unfold outputStr2act at hx
  dsimp only at hx
  obtain ⟨_, _, hx⟩ := bind_ok hx
  obtain ⟨port, _, hx⟩ := bind_ok hx
  obtain ⟨m, _, hx⟩ := bind_ok hx
  obtain ⟨v, hv, hx⟩ := bind_ok hx
  have hvl : v.length = 6 := by
    have := packAll_length hv
    simpa using this
  cases hx
  have hl : (beBytes 2 0 ++ (beBytes 2 16 ++ (v ++ zeros 6))).length = 16 := by
    simp only [List.length_append, beBytes_length, zeros_length, hvl]
  refine ⟨0, ⟨by decide, ?_, v ++ zeros 6, ?_⟩, Or.inl ?_⟩ <;> rw [hl]
  · decide
  · simp only [spec_u16]
  · decide

/-- The encoders of the table have sensible parameters. -/
def encParams : ActEnc → Bool
  | .generic t => t < 65536
  | .uint t size pd => t < 65536 && (4 + size + pd == 8 || (t == 23 && size == 1 && pd == 0))
  | .push t => t < 65536
  | _ => true

theorem table_params : ∀ e ∈ str2actTable, encParams e.2 = true := by decide

theorem lookupAct_mem {name : Str} {k : ActEnc} (h : lookupAct name = some k) :
    (name, k) ∈ str2actTable := by
  unfold lookupAct at h
  rw [Option.map_eq_some_iff] at h
  obtain ⟨e, he, rfl⟩ := h
  have h1 := List.mem_of_find?_eq_some he
  have h2 := List.find?_some he
  simp only [beq_iff_eq] at h2
  subst h2
  exact h1

theorem runActEnc_good (k : ActEnc) (hk : encParams k = true) (u : Str) (ra : Bool) :
    Holds (fun x => ActGood x.1) (runActEnc k u ra) := by
  cases k with
  | generic t => exact generic_good t (by simpa [encParams] using hk)
  | uint t size pd =>
    simp only [encParams, Bool.and_eq_true, Bool.or_eq_true, decide_eq_true_eq, beq_iff_eq] at hk
    exact uint_good t size pd hk.1 (by rcases hk.2 with h | ⟨⟨h1, h2⟩, h3⟩; exacts [.inl h, .inr ⟨h1, h2, h3⟩]) u
  | output => exact output_good u
  | push t => exact push_good t (by simpa [encParams] using hk) u
  | cntIds => exact holds_imp (cntIds_nx u ra) fun _ h => h.good
  | regLoad => exact holds_imp (regLoad_nx u ra) fun _ h => h.good
  | regLoad2 => exact holds_imp (regLoad2_nx u ra) fun _ h => h.good
  | regMove => exact holds_imp (regMove_nx u ra) fun _ h => h.good
  | resubmit => exact holds_imp (resubmit_nx u ra) fun _ h => h.good
  | resubmitTable => exact holds_imp (resubmitTable_nx u ra) fun _ h => h.good
  | setTunnel => exact holds_imp (setTunnel_nx u ra) fun _ h => h.good
  | setTunnel64 => exact holds_imp (setTunnel64_nx u ra) fun _ h => h.good
  | null t => exact holds_imp (null_nx t u ra) fun _ h => h.good
  | note =>
    refine holds_imp (qp_nx 8 u ra) ?_
    rintro x ⟨body, h1, h2⟩
    rw [h1] at h2 ⊢
    have := nxRaw_head 8 body h2
    exact ⟨_, nxHead_act this, Or.inr (Or.inr this)⟩
  | multipath => exact holds_imp (multipath_nx u ra) fun _ h => h.good
  | bundle => exact holds_imp (bundle_nx u ra) fun _ h => h.good
  | bundleLoad => exact holds_imp (bundleLoad_nx u ra) fun _ h => h.good
  | outputReg => exact holds_imp (outputReg_nx u ra) fun _ h => h.good
  | outputReg2 => exact holds_imp (outputReg2_nx u ra) fun _ h => h.good
  | learn => exact holds_imp (learn_nx u ra) fun _ h => h.good

/-- Everything `str2act` returns. -/
theorem str2act_good (s : Str) (b : Bytes) (l : Nat) (hs : str2act s = .ok (b, l)) :
    b = [] ∨ ActGood b := by
  obtain ⟨h, tok, r, fname, farg, hg, hp, hc⟩ := str2act_cases s b l hs
  rcases hc with ⟨k, u, ra, p, hk, hc⟩ | ⟨u, oxm, p, h1, h2, _⟩ | ⟨h1, _⟩
  · right
    have hm : ∃ name, lookupAct name = some k := by
      rcases hc with ⟨a, _, _, _, _, hl, _⟩ | ⟨_, _, hl, _⟩
      exacts [⟨_, hl⟩, ⟨_, hl⟩]
    obtain ⟨name, hl⟩ := hm
    exact runActEnc_good k (table_params _ (lookupAct_mem hl)) u ra _ hk
  · right
    obtain ⟨h3, h4⟩ := setFieldAct_wire oxm b h2
    rw [h3] at h4 ⊢
    exact setField_good oxm h4
  · exact Or.inl h1

/-! ## The word in front -/

theorem token_after_clean {n : Str} (hn : Clean n) {c : Char} {t : Str} (hc : NotOpen c)
    (h : Token (n ++ c :: t) ∨ OpenToken (n ++ c :: t)) : ¬ SepChar c ∧ c ≠ '=' := by
  have pr : ∀ o e, Pair o e → ¬ NotOpen o := by
    intro o e h; cases h <;> decide
  induction n with
  | nil =>
    rcases h with h | h
    · generalize hx : [] ++ c :: t = x at h
      cases h with
      | nil => cases hx
      | char c s h1 h2 _ _ => cases hx; exact ⟨h1, h2⟩
      | group o e p s h1 _ _ => cases hx; exact absurd hc (pr _ _ h1)
    · generalize hx : [] ++ c :: t = x at h
      cases h with
      | start o e s h1 _ => cases hx; exact absurd hc (pr _ _ h1)
      | char c s h1 h2 _ _ => cases hx; exact ⟨h1, h2⟩
      | group o e p s h1 _ _ => cases hx; exact absurd hc (pr _ _ h1)
  | cons d n ih =>
    have hd := (hn d (by simp)).2.2.2
    apply ih (fun x hx => hn x (by simp [hx]))
    rcases h with h | h
    · generalize hx : (d :: n) ++ c :: t = x at h
      cases h with
      | nil => cases hx
      | char c s h1 h2 _ h3 => cases hx; exact Or.inl h3
      | group o e p s h1 _ _ =>
        simp only [List.cons_append, List.cons.injEq] at hx
        rw [hx.1] at hd
        exact absurd hd (pr _ _ h1)
    · generalize hx : (d :: n) ++ c :: t = x at h
      cases h with
      | start o e s h1 _ => cases hx; exact absurd hd (pr _ _ h1)
      | char c s h1 h2 _ h3 => cases hx; exact Or.inr h3
      | group o e p s h1 _ _ =>
        simp only [List.cons_append, List.cons.injEq] at hx
        rw [hx.1] at hd
        exact absurd hd (pr _ _ h1)

/-- A word followed by a boundary or an opening bracket. -/
theorem getToken_prefix (h name rest : Str) (hh : Head h) (hc : Clean name) (hn : name ≠ [])
    (hr : ∀ c t, rest = c :: t → SepChar c ∨ c = '=' ∨ ¬ NotOpen c) :
    ∃ x r, getToken (h ++ (name ++ rest)) = (h, name ++ x, r) ∧ rest = x ++ r ∧
      (∀ c t, x = c :: t → ¬ NotOpen c) := by
  rcases hg : getToken (h ++ (name ++ rest)) with ⟨h', tok, r⟩
  have hps : PlainStart (name ++ rest) := by
    cases name with
    | nil => exact absurd rfl hn
    | cons c s => exact plainStart_cons (hc.plainStart c s rfl) _
  have h1 := tokenHead_of_head hh hps
  rw [← getToken_fst, hg] at h1
  dsimp only at h1
  subst h1
  have h2 := getToken_append (h' ++ (name ++ rest))
  have h3 := getToken_cases (h' ++ (name ++ rest))
  rw [hg] at h2 h3
  dsimp only at h2 h3
  rw [List.append_assoc] at h2
  have h4 := List.append_cancel_left h2
  rcases List.append_eq_append_iff.1 h4 with ⟨a, ha1, ha2⟩ | ⟨a, ha1, ha2⟩
  · cases a with
    | nil =>
      refine ⟨[], r, ?_, ?_, by intro c t h; cases h⟩
      · rw [ha1]; simp
      · simpa using ha2.symm
    | cons c a =>
      exfalso
      have hcc : CleanChar c := hc c (by rw [ha1]; simp)
      rcases h3 with ⟨_, h3⟩ | ⟨_, h3⟩
      · rcases h3 c _ (by rw [ha2]; rfl) with h | h
        · exact hcc.notSep h
        · exact hcc.2.2.1 h
      · rw [h3] at ha2; cases ha2
  · refine ⟨a, r, by rw [ha1], ha2, ?_⟩
    intro c t hx
    have htok : Token (name ++ c :: t) ∨ OpenToken (name ++ c :: t) := by
      rw [← hx, ← ha1]
      rcases h3 with ⟨h3, _⟩ | ⟨h3, _⟩
      exacts [.inl h3, .inr h3]
    intro hno
    have := token_after_clean hc hno htok
    rcases hr c (t ++ r) (by rw [ha2, hx]; rfl) with h | h | h
    · exact this.1 h
    · exact this.2 h
    · exact h hno

theorem parseFunc_prefix (name x fname : Str) (farg : Option Str) (hc : Clean name)
    (hx : ∀ c t, x = c :: t → ¬ NotOpen c) (hp : parseFunc (name ++ x) = .ok (fname, farg)) :
    fname = name := by
  unfold parseFunc at hp
  rw [parseFuncGo_name _ name hc.notOpen] at hp
  cases x with
  | nil =>
    simp only [List.nil_append, parseFuncGo] at hp
    cases hp; rfl
  | cons c t =>
    have := hx c t rfl
    rw [parseFuncGo] at hp
    cases hpc : pars c with
    | none => exact absurd ((pars_none_iff c).1 hpc) this
    | some e =>
      simp only [hpc, List.nil_append] at hp
      split at hp
      · cases hp; rfl
      · cases hp

theorem actTable_clean : ∀ e ∈ str2actTable, Clean e.1 := by decide +kernel
theorem fields_clean : ∀ f ∈ fields, Clean f.name := fun f hf => (field_name f hf).1

theorem lookupAct_bracket (name x : Str) (c : Char) (hc : ¬ NotOpen c) :
    lookupAct (name ++ c :: x) = none := by
  cases h : lookupAct (name ++ c :: x) with
  | none => rfl
  | some k => exact absurd (actTable_clean _ (lookupAct_mem h) c (by simp)).2.2.2 hc

theorem lookupEnc_bracket (name x : Str) (c : Char) (hc : ¬ NotOpen c) :
    lookupEnc (name ++ c :: x) = none := by
  cases h : lookupEnc (name ++ c :: x) with
  | none => rfl
  | some k =>
    obtain ⟨f, hf, hn, _⟩ := lookupEnc_field (key := k.1) (k := k.2) h
    exact absurd (fields_clean f hf c (by rw [hn]; simp)).2.2.2 hc

theorem getToken_bracket (name x u : Str) (c : Char) (hc : Clean name) (hn : name ≠ [])
    (ho : ¬ NotOpen c) : ∃ y r, getToken (name ++ (c :: x ++ u)) = ([], name ++ c :: y, r) := by
  have hsc : ¬ (SepChar c ∨ c = '=') := by
    intro h
    apply ho
    rcases h with h | rfl
    · unfold SepChar at h
      rcases h with h | h | h | h | h | h | h <;> rw [h] <;> decide
    · decide
  obtain ⟨y, r, h1, h2, h3⟩ := getToken_prefix [] name (c :: x ++ u) head_nil hc hn (by
    intro d t h
    cases h
    exact Or.inr (Or.inr ho))
  rw [List.nil_append] at h1
  cases y with
  | nil =>
    exfalso
    have := getToken_cases (name ++ (c :: x ++ u))
    rw [h1] at this
    simp only [List.nil_append] at h2
    rw [← h2] at this
    dsimp only at this
    rcases this with ⟨_, h⟩ | ⟨_, h⟩
    · exact hsc (h c (x ++ u) rfl)
    · cases h
  | cons d y =>
    simp only [List.cons_append, List.cons.injEq] at h2
    obtain ⟨rfl, _⟩ := h2
    exact ⟨y, r, h1⟩

/-- `tunnel()=…` and the like is no match. -/
theorem str2oxm1_bracket (name x u : Str) (c : Char) (hc : Clean name) (hn : name ≠ [])
    (ho : ¬ NotOpen c) (y : Bytes × Nat) : str2oxm1 (name ++ (c :: x ++ u)) ≠ .ok y := by
  obtain ⟨z, r, hg⟩ := getToken_bracket name x u c hc hn ho
  intro h
  unfold str2oxm1 str2oxmL at h
  obtain ⟨⟨m, rest⟩, h1, _⟩ := bind_ok h
  have hne : (name ++ (c :: x ++ u)).isEmpty = false := by
    cases name with
    | nil => exact absurd rfl hn
    | cons d n => rfl
  rw [str2oxmGo, hne] at h1
  obtain ⟨w, h2, _⟩ := bind_ok h1
  unfold str2oxmOne at h2
  rw [hg] at h2
  dsimp only at h2
  obtain ⟨_, _, h2⟩ := bind_ok h2
  rw [lookupEnc_bracket name z c ho] at h2
  cases h2

/-- An action word followed by a boundary or an opening bracket: its encoder, or nothing. -/
theorem str2act_prefix (h name rest : Str) (k : ActEnc) (b : Bytes) (l : Nat) (hh : Head h)
    (hc : Clean name) (hn : 4 < name.length ∨ startsWith name t!"set_" = false) (hn0 : name ≠ [])
    (hl : lookupAct name = some k)
    (hr : ∀ c t, rest = c :: t → SepChar c ∨ c = '=' ∨ ¬ NotOpen c)
    (hs : str2act (h ++ (name ++ rest)) = .ok (b, l)) :
    (∃ u ra p, runActEnc k u ra = .ok (b, p)) ∨ (b = [] ∧ l = h.length ∧ ¬ Boundary rest) := by
  obtain ⟨x, r, hg, hx1, hx2⟩ := getToken_prefix h name rest hh hc hn0 hr
  obtain ⟨h', tok, r', fname, farg, hg', hp, hcs⟩ := str2act_cases _ b l hs
  rw [hg] at hg'
  cases hg'
  have hf := parseFunc_prefix name x fname farg hc hx2 hp
  subst hf
  have hxn : lookupAct (fname ++ x) = none → ∃ c t, x = c :: t := by
    intro hno
    cases x with
    | nil => rw [List.append_nil, hl] at hno; cases hno
    | cons c t => exact ⟨c, t, rfl⟩
  rcases hcs with ⟨k', u, ra, p, hk, hcs⟩ | ⟨u, oxm, p, h1, h2, h3, h4, h5⟩ | ⟨h1, h2, h3, h4⟩
  · left
    have : k' = k := by
      rcases hcs with ⟨a, _, _, _, _, hlf, _⟩ | ⟨_, _, hlf, _⟩
      · rw [hl] at hlf; cases hlf; rfl
      · cases x with
        | nil => rw [List.append_nil, hl] at hlf; cases hlf; rfl
        | cons c t => rw [lookupAct_bracket _ _ _ (hx2 c t rfl)] at hlf; cases hlf
    subst this
    exact ⟨u, ra, p, hk⟩
  · exfalso
    rcases h5 with ⟨a, _, _, hln, _⟩ | ⟨_, hu, _⟩
    · rw [hl] at hln; cases hln
    · obtain ⟨c, t, rfl⟩ := hxn h4
      have h4n : 4 < fname.length := by
        rcases hn with hn | hn
        · exact hn
        · -- a word of at most four letters cannot start with `set_` and have a bracket in it
          exfalso
          have hfull : startsWith fname t!"set_" = true := by
            unfold startsWith at h3 ⊢
            have ho := hx2 c t rfl
            match fname, h3 with
            | [], h3 =>
              simp only [List.nil_append] at h3
              have : c = 's' := by
                rw [List.isPrefixOf_iff_prefix] at h3
                obtain ⟨w, hw⟩ := h3
                simp only [List.cons_append, List.cons.injEq] at hw
                exact hw.1.symm
              rw [this] at ho; exact absurd (by decide) ho
            | [a], h3 =>
              rw [List.isPrefixOf_iff_prefix] at h3
              obtain ⟨w, hw⟩ := h3
              simp only [List.cons_append, List.cons.injEq, List.nil_append] at hw
              rw [← hw.2.1] at ho; exact absurd (by decide) ho
            | [a, b], h3 =>
              rw [List.isPrefixOf_iff_prefix] at h3
              obtain ⟨w, hw⟩ := h3
              simp only [List.cons_append, List.cons.injEq, List.nil_append] at hw
              rw [← hw.2.2.1] at ho; exact absurd (by decide) ho
            | [a, b, d], h3 =>
              rw [List.isPrefixOf_iff_prefix] at h3
              obtain ⟨w, hw⟩ := h3
              simp only [List.cons_append, List.cons.injEq, List.nil_append] at hw
              rw [← hw.2.2.2.1] at ho; exact absurd (by decide) ho
            | a :: b :: d :: e :: f, h3 =>
              rw [List.isPrefixOf_iff_prefix] at h3 ⊢
              obtain ⟨w, hw⟩ := h3
              simp only [List.cons_append, List.cons.injEq, List.nil_append] at hw
              exact ⟨f, by rw [← hw.1, ← hw.2.1, ← hw.2.2.1, ← hw.2.2.2.1]; rfl⟩
          rw [hfull] at hn; cases hn
      have hd : (fname ++ c :: t).drop 4 = fname.drop 4 ++ c :: t := by
        rw [List.drop_append_of_le_length (by omega)]
      rw [hd, List.append_assoc] at hu
      rw [hu] at h1
      refine str2oxm1_bracket (fname.drop 4) t _ c ?_ ?_ (hx2 c t rfl) _ h1
      · intro d hd; exact hc d (List.mem_of_mem_drop hd)
      · intro he
        have := congrArg List.length he
        simp at this
        omega
  · right
    obtain ⟨c, t, rfl⟩ := hxn h4
    refine ⟨h1, h2, ?_⟩
    intro hb
    have ho := hx2 c t rfl
    apply ho
    rcases hb c (t ++ r) (by rw [hx1]; rfl) with h | rfl
    · unfold SepChar at h
      rcases h with h | h | h | h | h | h | h <;> rw [h] <;> decide
    · decide

/-- The sub-types that an encoder of a Nicira action uses. -/
def encSubs : ActEnc → List Nat
  | .cntIds => [21] | .regLoad => [7] | .regLoad2 => [33] | .regMove => [6] | .resubmit => [1]
  | .resubmitTable => [14] | .setTunnel => [2, 9] | .setTunnel64 => [9] | .null t => [t] | .note => [8]
  | .multipath => [10] | .bundle => [12] | .bundleLoad => [13] | .outputReg => [15, 32]
  | .outputReg2 => [32] | .learn => [16] | _ => []

theorem nx_lookup : ∀ e ∈ nxActs, Clean e.1 ∧ e.1 ≠ [] ∧
    (4 < e.1.length ∨ startsWith e.1 t!"set_" = false) ∧
    (lookupAct e.1).any (fun k => (encSubs k).head? == some e.2 && (k == .note) == (e.1 == t!"note") &&
      (encSubs k).all fun t => t == e.2 || (e.1 == t!"set_tunnel" && t == 9) ||
        (e.1 == t!"output_reg" && t == 32)) = true := by decide +kernel

theorem runActEnc_nx (k : ActEnc) (hk : encSubs k ≠ []) (hn : k ≠ .note) (u : Str) (ra : Bool) :
    Holds (NxAct (encSubs k)) (runActEnc k u ra) := by
  cases k with
  | generic | uint | output | push => simp [encSubs] at hk
  | cntIds => exact cntIds_nx u ra
  | regLoad => exact regLoad_nx u ra
  | regLoad2 => exact regLoad2_nx u ra
  | regMove => exact regMove_nx u ra
  | resubmit => exact resubmit_nx u ra
  | resubmitTable => exact resubmitTable_nx u ra
  | setTunnel => exact setTunnel_nx u ra
  | setTunnel64 => exact setTunnel64_nx u ra
  | null t => exact null_nx t u ra
  | note => exact absurd rfl hn
  | multipath => exact multipath_nx u ra
  | bundle => exact bundle_nx u ra
  | bundleLoad => exact bundleLoad_nx u ra
  | outputReg => exact outputReg_nx u ra
  | outputReg2 => exact outputReg2_nx u ra
  | learn => exact learn_nx u ra

end Ofpstr
