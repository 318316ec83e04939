import Verif.Lemmas.TripField
import Verif.Lemmas.OxmExact

/-!
# Actions that do not survive printing

For an action that is not `Lossless`: it cannot be printed, or its text is not read as its bytes, whatever
stands before and after.
-/

set_option linter.unusedSimpArgs false

namespace Ofpstr
open Spec

/-- The text is not read as the bytes `b`, between commas or at the ends. -/
def Misreads (b : Bytes) (text : Str) : Prop :=
  ∀ (h r : Str) (c : Bytes) (n : Nat), (h = [] ∨ h = [',']) → (r = [] ∨ ∃ r', r = ',' :: r') →
    str2act (h ++ (text ++ r)) = .ok (c, n) → c ≠ b

/-- The text of an action starts with neither a separator nor `@`. -/
def ActStart (s : Str) : Prop := PlainStart s ∧ s.head? ≠ some '@'

theorem actStart_append {s t : Str} (hc : Clean s) (hn : s ≠ []) (ha : s.head? ≠ some '@') : ActStart (s ++ t) := by
  refine ⟨plainStart_append hc.plainStart hn, ?_⟩
  cases s with
  | nil => exact absurd rfl hn
  | cons c s => exact ha

theorem lookupAct_noat {name : Str} {k : ActEnc} (h : lookupAct name = some k) : name.head? ≠ some '@' :=
  (by decide : ∀ e ∈ str2actTable, e.1.head? ≠ some '@') _ (lookupAct_mem h)

/-- The bytes `b` are an action that cannot be printed or whose text is not read as `b`. -/
structure ActLost (b : Bytes) : Prop where
  long : 4 < b.length
  short : b.length < 65536
  lenf : ∀ rest, uAt (b ++ rest) 2 2 = b.length
  lost : (∃ e, e ≠ Err.loops ∧ ∀ rest, act2strOne (b ++ rest) = .error e) ∨
    ∃ text, (∀ rest, act2strOne (b ++ rest) = .ok text) ∧ text ≠ [] ∧ ActStart text ∧ Misreads b text

theorem head_of {h : Str} (hh : h = [] ∨ h = [',']) : Head h := by
  rcases hh with rfl | rfl; exacts [head_nil, head_comma]

theorem nxWrap_inv {r : Py (Bytes × Nat)} {c : Bytes} {l : Nat} (h : nxWrap r = .ok (c, l)) :
    ∃ bin, r = .ok (bin, l) ∧ nxWrap (.ok (bin, l)) = .ok (c, l) := by
  cases r with
  | error e => cases h
  | ok x =>
    obtain ⟨bin, l'⟩ := x
    have h' := h
    unfold nxWrap at h'
    rw [ok_bind] at h'
    obtain ⟨b, _, h'⟩ := bind_ok h'
    simp only [Except.ok.injEq, Prod.mk.injEq] at h'
    obtain ⟨_, rfl⟩ := h'
    exact ⟨bin, rfl, h⟩

theorem nxWrap_hdr_inv {t : Nat} {body c : Bytes} {l l' : Nat}
    (h : nxWrap (.ok (nxastHdr t ++ body, l)) = .ok (c, l')) : c = nxWire t body := by
  rw [nxWrap_hdr] at h
  split at h
  · cases h; rfl
  · cases h

/-- The body without the fill bytes is a prefix of the other body with its fill bytes, and so on. -/
theorem nxWire_eq {t t' : Nat} {a b : Bytes} (h : nxWire t a = nxWire t' b) :
    a ++ fill (10 + a.length) = b ++ fill (10 + b.length) := by
  unfold nxWire nxRaw at h
  have h1 := (List.append_inj h rfl).2
  have h2 := (List.append_inj h1 (by simp [u16_length])).2
  have h3 := (List.append_inj h2 rfl).2
  exact (List.append_inj h3 (by simp [u16_length])).2

/-- Bodies that differ in a part at the same place. -/
theorem nxWire_part {t t' : Nat} {a x r a' x' r' : Bytes} (h : nxWire t (a ++ (x ++ r)) = nxWire t' (a' ++ (x' ++ r')))
    (ha : a.length = a'.length) (hx : x.length = x'.length) : a = a' ∧ x = x' := by
  have h1 := nxWire_eq h
  simp only [List.append_assoc] at h1
  obtain ⟨h2, h3⟩ := List.append_inj h1 ha
  exact ⟨h2, (List.append_inj h3 hx).1⟩

/-- A Nicira action that its encoder does not give back. -/
theorem nx_lost (t : Nat) (body : Bytes) (name a : Str) (d : ActDec) (k : ActEnc) (ht : t < 65536)
    (h1 : t ≠ 25) (hl : (nxWire t body).length < 65536) (hd : lookupActDec (.nx t) = some d)
    (hk : lookupAct name = some k) (hc : Clean name) (hn : name ≠ [])
    (ha : InLine ')' a) (han : a ≠ [])
    (hp : runActDec d (body ++ fill (10 + body.length)) = .ok (name ++ '(' :: a ++ [')']))
    (he : ∀ c l, runActEnc k a false = .ok (c, l) → c ≠ nxWire t body) :
    ActLost (nxWire t body) := by
  have hlen : (nxWire t body).length = 10 + (body ++ fill (10 + body.length)).length := by
    unfold nxWire; rw [nxRaw_length]
  have hd' := fun rest => nx_prints t (body ++ fill (10 + body.length)) rest d ht h1 (by omega) hd
  refine ⟨by omega, hl, fun rest => ?_, Or.inr ⟨name ++ '(' :: a ++ [')'], fun rest => ?_, by simp,
    by rw [List.append_assoc]; exact actStart_append hc hn (lookupAct_noat hk), ?_⟩⟩
  · rw [hlen]; exact (hd' rest).2
  · rw [← hp]; exact (hd' rest).1
  · intro h r c n hh hr hs
    rw [str2act_call h name a r k (head_of hh) hc hn ha.ins han (atEnd_of hr) hk] at hs
    cases hx : runActEnc k a false with
    | error e => rw [hx] at hs; cases hs
    | ok x =>
      rw [hx] at hs
      simp only [Except.bind, Except.ok.injEq, Prod.mk.injEq] at hs
      obtain ⟨rfl, rfl⟩ := hs
      exact he _ _ hx

/-- A Nicira action that cannot be printed. -/
theorem nx_silent (t : Nat) (body : Bytes) (d : ActDec) (e : Err) (ht : t < 65536)
    (h1 : t ≠ 25) (hl : (nxWire t body).length < 65536) (hd : lookupActDec (.nx t) = some d)
    (he : e ≠ .loops) (hp : runActDec d (body ++ fill (10 + body.length)) = .error e) :
    ActLost (nxWire t body) := by
  have hlen : (nxWire t body).length = 10 + (body ++ fill (10 + body.length)).length := by
    unfold nxWire; rw [nxRaw_length]
  have hd' := fun rest => nx_prints t (body ++ fill (10 + body.length)) rest d ht h1 (by omega) hd
  refine ⟨by omega, hl, fun rest => ?_, Or.inl ⟨e, he, fun rest => ?_⟩⟩
  · rw [hlen]; exact (hd' rest).2
  · rw [← hp]; exact (hd' rest).1

/-- A closing bracket in the argument ends the call early. -/
theorem misreads_paren (b : Bytes) (name p q : Str) (hc : Clean name) (hn : name ≠ []) (hp : Inside ')' p)
    (hq : Clean q) : Misreads b (name ++ '(' :: (p ++ ')' :: q) ++ [')']) := by
  intro h r c n hh hr hs
  exfalso
  have htok : Token (name ++ '(' :: (p ++ ')' :: q) ++ [')']) := by
    rw [List.append_assoc]
    apply token_append_plain hc
    have h1 : Token (q ++ [')']) := token_append_plain hq (Clean.token (by decide))
    have := Token.group '(' ')' p (q ++ [')']) .round hp h1
    simpa using this
  have hst : PlainStart (name ++ '(' :: (p ++ ')' :: q) ++ [')']) := by
    rw [List.append_assoc]; exact plainStart_append hc.plainStart hn
  have hg := getToken_head (head_of hh) htok (atEnd_of hr) hst (by simp)
  have hf := parseFunc_call name p (q ++ [')']) '(' ')' hc.notOpen .round hp
  rw [if_neg (by simp)] at hf
  have e1 : name ++ '(' :: (p ++ ')' :: q) ++ [')'] = name ++ '(' :: p ++ ')' :: (q ++ [')']) := by simp
  unfold str2act at hs
  rw [hg] at hs
  dsimp only at hs
  rw [e1, hf] at hs
  cases hs

/-! ## The simple actions -/

theorem u16_ne {a b : Nat} (ha : a < 65536) (hb : b < 65536) (h : a ≠ b) : u16 a ≠ u16 b := by
  intro he
  have h1 := uAt_here' 2 a ha
  have h2 := uAt_here' 2 b hb
  rw [show be 2 a = be 2 b from he, h2] at h1
  exact h h1.symm

theorem lost_output (port maxLen : Nat) (hp : port < 256 ^ 4) (hm : maxLen < 256 ^ 2)
    (hl : ¬ (port = 0xfffffffd ∨ maxLen = 0xffff)) : ActLost (outputWire port maxLen) := by
  push Not at hl
  obtain ⟨text, ht⟩ := trip_output port 0xffff hp (by decide) (Or.inr rfl)
  have hlen : ∀ m, (outputWire port m).length = 16 := by
    intro m; simp [outputWire, u16_length, u32_length, pad_length]
  have hd : lookupActDec (.std 0) = some .output := by decide
  have hw : ∀ m, outputWire port m = u16 0 ++ (u16 (4 + (u32 port ++ (u16 m ++ pad 6)).length) ++
      (u32 port ++ (u16 m ++ pad 6))) := by
    intro m; simp [outputWire, u32_length, u16_length, pad_length]
  have hb : ∀ m, (u32 port ++ (u16 m ++ pad 6)).length = 12 := by
    intro m; simp [u32_length, u16_length, pad_length]
  have e1 : ∀ m, uAt (u32 port ++ (u16 m ++ pad 6)) 0 4 = port := fun m => uAt_here 4 port _ hp
  have hpr := fun m rest => std_prints 0 (u32 port ++ (u16 m ++ pad 6)) rest .output (by omega) (by omega)
    (by omega) (by rw [hb]; omega) hd
  have hsame : ∀ m, runActDec .output (u32 port ++ (u16 m ++ pad 6)) = .ok (t!"output=" ++ nameOrD ofpp port) := by
    intro m
    simp only [runActDec, outputAct2str]
    rw [if_neg (by simp [hb]), e1, if_neg (by simp [OFPP_CONTROLLER, hl.1])]
  refine ⟨by rw [hlen]; omega, by rw [hlen]; omega, fun rest => ?_, Or.inr ⟨text, fun rest => ?_, ht.ne, ⟨ht.start, ht.noat⟩, ?_⟩⟩
  · rw [hw, (hpr maxLen rest).2, hb]; simp [u16_length, hb]
  · rw [hw, (hpr maxLen rest).1, hsame, ← hsame 0xffff, ← (hpr 0xffff rest).1, ← hw]
    exact ht.prints rest
  · intro h r c n hh hr hs
    rw [ht.reads h r (head_of hh) (atEnd_of hr)] at hs
    simp only [Except.ok.injEq, Prod.mk.injEq] at hs
    rw [← hs.1]
    intro he
    unfold outputWire at he
    have h1 := (List.append_inj (List.append_inj (List.append_inj (List.append_inj he rfl).2 rfl).2 rfl).2
      (by simp [u16_length])).1
    exact u16_ne (by omega) (by omega) (fun h => hl.2 h.symm) h1

theorem lost_nwTtl (a : StdAct) (n : Nat) (ha : a ∈ stdActs) (hn : n < 256 ^ a.arg.size)
    (hne : a.name = t!"set_nw_ttl") : ActLost (a.wire n) := by
  have key : ∀ a ∈ stdActs, a.name = t!"set_nw_ttl" → a = ⟨t!"set_nw_ttl", 23, .ttl⟩ := by decide +kernel
  have := key a ha hne
  subst this
  have hn' : n < 256 := by simpa [ActArg.size] using hn
  have hw : StdAct.wire ⟨t!"set_nw_ttl", 23, .ttl⟩ n =
      u16 23 ++ (u16 (4 + (u8 n ++ pad 3).length) ++ (u8 n ++ pad 3)) := by
    simp [StdAct.wire, ActArg.body, u8_length, pad_length]
  have hb : (u8 n ++ pad 3).length = 4 := by simp [u8_length, pad_length]
  have hpr := fun rest => std_prints 23 (u8 n ++ pad 3) rest (.uint t!"set_nw_ttl" 1 0) (by omega) (by omega)
    (by omega) (by rw [hb]; omega) (by decide)
  rw [hw]
  refine ⟨by simp [u16_length, hb], by simp [u16_length, hb], fun rest => ?_, Or.inr
    ⟨t!"set_nw_ttl" ++ '=' :: fmtD n, fun rest => ?_, by simp, actStart_append (by decide) (by decide) (by decide), ?_⟩⟩
  · rw [(hpr rest).2, hb]; simp [u16_length, hb]
  · rw [(hpr rest).1]
    simp only [runActDec, uintAct2str]
    rw [needBytes_ok _ _ _ (by rw [hb]; omega), show u8 n ++ pad 3 = be 1 n ++ pad 3 from rfl,
      uAt_here 1 n _ (by simpa using hn')]
    rfl
  · intro h r c l hh hr hs
    have := (C26_set_nw_ttl_refuted h r (fmtD n) (t!"set_nw_ttl" ++ '=' :: fmtD n) n (head_of hh) (atEnd_of hr)
      (intSyntax_fmtD n) ⟨by omega, by exact_mod_cast hn'⟩ .eq).1
    rw [this] at hs
    simp only [Except.ok.injEq, Prod.mk.injEq] at hs
    rw [← hs.1]
    intro he
    have := congrArg List.length he
    simp [u16_length, u8_length, hb] at this

theorem resubmitPort_high (p : Nat) (h : ¬ (p < 0xff00 ∨ p = 0xfff8)) :
    (∃ e, resubmitPort (resubmitPortText p) = .error e) ∧ Clean (resubmitPortText p) ∧
    NP (resubmitPortText p) ∧ resubmitPortText p ≠ [] := by
  push Not at h
  unfold resubmitPortText
  rw [if_neg (by simpa using h.2)]
  refine ⟨?_, fmtD_clean p, np_fmtD p, fmtD_ne_nil p⟩
  unfold resubmitPort
  cases hu : upperStr (fmtD p) == t!"IN_PORT" with
  | true =>
    exfalso
    have he : upperStr (fmtD p) = t!"IN_PORT" := by simpa using hu
    exact fmtD_upper p he
  | false =>
    rw [if_neg (by simp), fmtI_dec]
    simp only [ok_bind, pyAssert_ok, beq_self_eq_true]
    rw [show decide ((p : Int) < 0xff00) = false by simp; omega]
    exact ⟨_, rfl⟩

theorem lost_resubmit (port : Nat) (hp : port < 256 ^ 2) (h : ¬ (port < 0xff00 ∨ port = 0xfff8)) :
    ActLost (nxWire 1 (u16 port ++ u8 0xff)) := by
  obtain ⟨⟨e, p1⟩, p2, p3, p4⟩ := resubmitPort_high port h
  have hlen : (u16 port ++ u8 0xff).length = 3 := by simp [u16_length, u8_length]
  have hfit := nxWire_fits 1 (u16 port ++ u8 0xff) (by omega)
  refine nx_lost 1 (u16 port ++ u8 0xff) t!"resubmit" (resubmitPortText port) .resubmit .resubmit
    (by decide) (by decide) hfit (by decide) (by decide) (by decide) (by decide)
    (inside_clean p2 p3) p4 ?_ ?_
  · simp only [runActDec, resubmitAct2str]
    rw [needBytes_ok _ 0 2 (by simp [u16_length]), List.append_assoc,
      show uAt (u16 port ++ _) 0 2 = port from uAt_here 2 port _ (by omega)]
    rfl
  · intro c l hc
    simp only [runActEnc, resubmitStr2act] at hc
    rw [getToken_clean_all p2] at hc
    dsimp only at hc
    rw [p1] at hc
    cases hc

theorem lost_resubmitTable (port table : Nat) (hp : port < 256 ^ 2) (ht : table < 256)
    (h : ¬ (port < 0xff00 ∨ port = 0xfff8)) : ActLost (nxWire 14 (u16 port ++ u8 table)) := by
  obtain ⟨⟨e, p1⟩, p2, p3, p4⟩ := resubmitPort_high port h
  obtain ⟨t1, t2, t3, t4⟩ := resubmitTbl_text table ht
  have hlen : (u16 port ++ u8 table).length = 3 := by simp [u16_length, u8_length]
  have hfit := nxWire_fits 14 (u16 port ++ u8 table) (by omega)
  refine nx_lost 14 (u16 port ++ u8 table) t!"resubmit_table"
    (resubmitPortText port ++ ',' :: (if table == 0xff then t!"all" else fmtD table)) .resubmitTable
    .resubmitTable
    (by decide) (by decide) hfit (by decide) (by decide) (by decide) (by decide)
    (inside_comma (inside_clean p2 p3) (inside_clean t2 t3)) (by simp) ?_ ?_
  · exact resubmitTable_dec port table hp ht _
  · intro c l hc
    simp only [runActEnc, resubmitStr2act] at hc
    rw [getToken_clean p2 p4 (atEnd_comma _)] at hc
    dsimp only at hc
    rw [p1] at hc
    cases hc

theorem lost_tunnel64 (id : Nat) (h : id < 256 ^ 4) : ActLost (nxWire 9 (u64 id)) := by
  have hlen : (u64 id).length = 8 := be_length 8 id
  have hfit := nxWire_fits 9 (u64 id) (by omega)
  refine nx_lost 9 (u64 id) t!"set_tunnel64" (fmtX 0 id) (.setTunnel t!"set_tunnel64" 8) .setTunnel64
    (by decide) (by decide) hfit (by decide) (by decide) (by decide) (by decide)
    (inside_clean (fmtX_clean 0 id) (np_fmtX 0 id)) (fmtX_ne_nil 0 id) ?_ ?_
  · simp only [runActDec, setTunnelAct2str]
    rw [needBytes_ok _ 0 8 (by rw [List.length_append, hlen]; omega), show uAt (u64 id ++ _) 0 8 = id from
      uAt_here 8 id _ (by omega)]
    simp only [bind, Except.bind, List.append_assoc, List.cons_append]
  · intro c l hc
    simp only [runActEnc, setTunnelStr2act] at hc
    rw [getToken_clean_all (fmtX_clean 0 id)] at hc
    dsimp only at hc
    rw [fmtI_hex] at hc
    simp only [ok_bind, pyAssert_ok, Bool.not_false, Bool.true_or, beq_self_eq_true, List.length_nil,
      Nat.zero_add] at hc
    rw [if_neg (by simp at h; omega), packU_nat 4 id h, ok_bind] at hc
    have := nxWrap_hdr_inv (t := 9) hc
    subst this
    intro he
    have := congrArg List.length he
    rw [(nxWire_length _ _).2, (nxWire_length _ _).2, hlen, be_length] at this
    revert this; decide

theorem lost_note (b : Bytes) (hp : PlainSsid b) (hc : (41 : UInt8) ∈ b) : ActLost (nxRaw 8 b) := by
  obtain ⟨p1, p2, p3, p4⟩ := hp
  have hlen : (nxRaw 8 b).length = 10 + b.length := nxRaw_length 8 b
  have hd := fun rest => nx_prints 8 b rest .note (by decide) (by decide) (by omega) (by decide)
  have hcl : Clean (b.map chr) := fun c hc => (ssidMap_clean b p1 c hc).2
  have hm : ')' ∈ b.map chr := List.mem_map.2 ⟨41, hc, by decide⟩
  obtain ⟨p, q, hpq, hnp⟩ := List.eq_append_cons_of_mem hm
  refine ⟨by omega, by omega, fun rest => ?_, Or.inr ⟨t!"note" ++ '(' :: b.map chr ++ [')'], fun rest => ?_, by simp,
    by rw [List.append_assoc]; exact actStart_append (by decide) (by decide) (by decide), ?_⟩⟩
  · rw [hlen]; exact (hd rest).2
  · rw [(hd rest).1]
    simp only [runActDec, qpAct2str]
    rw [b2aQp_plain b p1 p2 p3]
    simp
  · rw [hpq] at hcl ⊢
    exact misreads_paren _ _ p q (by decide) (by decide)
      (clean_inside _ (fun c hc => hcl c (by simp [hc])) (fun c hc he => hnp (he ▸ hc))) (fun c hc => hcl c (by simp [hc]))

theorem lost_cntIds : ActLost (nxWire 21 (u16 0 ++ (pad 4 ++ []))) := by
  have hd := fun rest => nx_prints 21 ((u16 0 ++ (pad 4 ++ [])) ++ fill (10 + 6)) rest .cntIds (by decide) (by decide)
    (by decide) (by decide)
  refine ⟨by decide, by decide, fun rest => (hd rest).2, Or.inr ⟨t!"cnt_ids()", fun rest => ?_, by simp,
    actStart_append (s := t!"cnt_ids") (by decide) (by decide) (by decide), ?_⟩⟩
  · exact (hd rest).1.trans (by decide)
  · intro h r c n hh hr hs
    have := str2act_empty_call h t!"cnt_ids" r (head_of hh) (by decide) (by decide) (atEnd_of hr) (by decide) (by decide)
    rw [show t!"cnt_ids" ++ t!"()" = t!"cnt_ids()" from rfl] at this
    rw [this] at hs
    cases hs
    decide

end Ofpstr
