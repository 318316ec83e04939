import Verif.Lemmas.TextBits

/-!
# Exactly which arguments the Nicira actions take
-/

set_option linter.unusedSimpArgs false

namespace Ofpstr
open Spec

/-- The arguments of an action, and how much of the text they are. -/
def NxOk (eq : Bool) (name u : Str) (t : Nat) (body : Bytes) (n : Nat) : Prop :=
  ∃ r, NxArg eq name u t body r ∧ n = u.length - r.length

/-- What the encoder of a Nicira action must do. -/
def NxExact (name : Str) (enc : Str → Bool → Py (Bytes × Nat)) : Prop := ∀ u eq b n, enc u eq = .ok (b, n) ↔
  ∃ t body, NxOk eq name u t body n ∧ (nxWire t body).length < 65536 ∧ b = nxWire t body

/-! ## What the decorated functions make -/

def nullRaw (t : Nat) (u : Str) (ra : Bool) : Py (Bytes × Nat) := rawArg (show nullStr2act t u ra = nxWrap _ from rfl)
def setTunnelRaw (t : Nat) (u : Str) (ra : Bool) : Py (Bytes × Nat) := rawArg (show setTunnelStr2act t u ra = nxWrap _ from rfl)
def cntIdsRaw (u : Str) (ra : Bool) : Py (Bytes × Nat) := rawArg (show cntIdsStr2act u ra = nxWrap _ from rfl)
def regMoveRaw (u : Str) (ra : Bool) : Py (Bytes × Nat) := rawArg (show regMoveStr2act u ra = nxWrap _ from rfl)
def resubmitRaw (tb : Bool) (u : Str) (ra : Bool) : Py (Bytes × Nat) := rawArg (show resubmitStr2act tb u ra = nxWrap _ from rfl)
def multipathRaw (u : Str) (ra : Bool) : Py (Bytes × Nat) := rawArg (show multipathStr2act u ra = nxWrap _ from rfl)
def bundleRaw (u : Str) (ra : Bool) : Py (Bytes × Nat) := rawArg (show bundleStr2act u ra = nxWrap _ from rfl)
def regLoadRaw (u : Str) (ra : Bool) : Py (Bytes × Nat) := rawArg (show regLoadStr2act u ra = nxWrap _ from rfl)
def regLoad2Raw (u : Str) (ra : Bool) : Py (Bytes × Nat) := rawArg (show regLoad2Str2act u ra = nxWrap _ from rfl)
def learnRaw (u : Str) (ra : Bool) : Py (Bytes × Nat) := rawArg (show learnStr2act u ra = nxWrap _ from rfl)

/-- What the encoder of a Nicira action must make before the length is written. -/
def NxMade (name : Str) (raw : Str → Bool → Py (Bytes × Nat)) : Prop := ∀ u eq bin n, raw u eq = .ok (bin, n) ↔
  ∃ t body, NxOk eq name u t body n ∧ bin = nxastHdr t ++ body

theorem NxMade.exact {name : Str} {raw : Str → Bool → Py (Bytes × Nat)} (h : NxMade name raw) :
    NxExact name fun u eq => nxWrap (raw u eq) := by
  intro u eq b n
  exact nxWrap_iff (fun bin n => h u eq bin n)

theorem tunnelNe {e : Str × Nat} {n : Str} (he : e ∈ tunnelActs) (h : n ≠ t!"set_tunnel" ∧ n ≠ t!"set_tunnel64") : n ≠ e.1 := by
  simp only [tunnelActs, List.mem_cons, List.not_mem_nil, or_false] at he
  rcases he with rfl | rfl
  · exact h.1
  · exact h.2

/-- The constructors of another name are impossible. -/
macro "nx_other" hn:ident : tactic =>
  `(tactic| first | exact absurd $hn (by decide) | exact absurd $hn (tunnelNe ‹_ ∈ tunnelActs› (by decide)) | skip)

/-! ## Actions without arguments -/

theorem popQueue_made : NxMade t!"pop_queue" (nullRaw NXAST_POP_QUEUE) := by
  intro u eq bin n
  unfold nullRaw rawArg
  constructor
  · intro h
    cases h
    exact ⟨5, [], ⟨u, .popQueue eq u, by omega⟩, by simp [NXAST_POP_QUEUE]⟩
  · rintro ⟨t, body, ⟨r, h, rfl⟩, rfl⟩
    generalize hn : t!"pop_queue" = name at h
    cases h <;> nx_other hn
    simp [NXAST_POP_QUEUE]

theorem popQueue_exact : NxExact t!"pop_queue" (nullStr2act NXAST_POP_QUEUE) := popQueue_made.exact

theorem exit_made : NxMade t!"exit" (nullRaw NXAST_EXIT) := by
  intro u eq bin n
  unfold nullRaw rawArg
  constructor
  · intro h
    cases h
    exact ⟨17, [], ⟨u, .exit eq u, by omega⟩, by simp [NXAST_EXIT]⟩
  · rintro ⟨t, body, ⟨r, h, rfl⟩, rfl⟩
    generalize hn : t!"exit" = name at h
    cases h <;> nx_other hn
    simp [NXAST_EXIT]

theorem exit_exact : NxExact t!"exit" (nullStr2act NXAST_EXIT) := exit_made.exact

/-! ## Tunnels -/

theorem readarg_iff (ra : Bool) (h : Str) : (!ra || hasChar h '=') = true ↔ (ra = true → '=' ∈ h) := by
  rw [← hasChar_iff]
  cases ra <;> simp

theorem tunnel_made {e : Str × Nat} (he : e ∈ tunnelActs) : NxMade e.1 (setTunnelRaw e.2) := by
  have hne : ∀ n ∈ [t!"pop_queue", t!"exit", t!"resubmit", t!"resubmit_table", t!"cnt_ids", t!"reg_load", t!"reg_load2",
      t!"reg_move", t!"multipath", t!"bundle", t!"bundle_load", t!"output_reg", t!"output_reg2", t!"learn"], e.1 ≠ n := by
    simp only [tunnelActs, List.mem_cons, List.not_mem_nil, or_false] at he
    rcases he with rfl | rfl <;> decide
  intro u eq bin n
  unfold setTunnelRaw rawArg
  rcases hg : getToken u with ⟨hd, v, r⟩
  have hu := eq_tok hg
  dsimp only
  constructor
  · intro h
    simp only [bind_iff, Prod.exists, parseInt_iff, pyAssert_iff, beq_iff_eq, readarg_iff] at h
    obtain ⟨_, h1, m, l, h2, _, h3, h⟩ := h
    subst h3
    split at h
    · rename_i hm
      obtain ⟨x, hx, h⟩ := bind_iff.1 h
      cases h
      exact ⟨9, x, ⟨r, .tunnelLong eq u hd v r m x e he hu h1 h2 hm ((packU_packed _ _ _).1 hx), tok_len hu⟩, rfl⟩
    · rename_i hm
      obtain ⟨x, hx, h⟩ := bind_iff.1 h
      cases h
      exact ⟨e.2, x, ⟨r, .tunnel eq u hd v r m x e he hu h1 h2 (by omega) ((packU_packed _ _ _).1 hx), tok_len hu⟩, rfl⟩
  · rintro ⟨t, body, ⟨r', h, rfl⟩, rfl⟩
    generalize hn : e.1 = name at h
    cases h with
    | tunnel _ _ h v' _ m _ e' he' h1 h2 h3 h4 h5 =>
      have e2 : e' = e := by
        simp only [tunnelActs, List.mem_cons, List.not_mem_nil, or_false] at he he'
        rcases he with rfl | rfl <;> rcases he' with rfl | rfl <;> first | rfl | exact absurd hn (by decide)
      subst e2
      have := hg.symm.trans (tok_get h1)
      cases this
      rw [show pyAssert (!eq || hasChar hd '=') = .ok () from pyAssert_iff.2 ((readarg_iff _ _).2 h2), ok_bind,
        (parseInt_iff _ _ _).2 h3, ok_bind]
      dsimp only
      rw [show pyAssert (v.length == v.length) = .ok () by simp [pyAssert], ok_bind, if_neg (by omega),
        (packU_packed _ _ _).2 h5, ok_bind, tok_len hu]
    | tunnelLong _ _ h v' _ m _ e' he' h1 h2 h3 h4 h5 =>
      have := hg.symm.trans (tok_get h1)
      cases this
      rw [show pyAssert (!eq || hasChar hd '=') = .ok () from pyAssert_iff.2 ((readarg_iff _ _).2 h2), ok_bind,
        (parseInt_iff _ _ _).2 h3, ok_bind]
      dsimp only
      rw [show pyAssert (v.length == v.length) = .ok () by simp [pyAssert], ok_bind, if_pos (by omega),
        (packU_packed _ _ _).2 h5, ok_bind, tok_len hu]
      rfl
    | _ => exact absurd hn (hne _ (by decide))

theorem tunnel_exact {e : Str × Nat} (he : e ∈ tunnelActs) : NxExact e.1 (setTunnelStr2act e.2) := (tunnel_made he).exact

/-! ## `cnt_ids` -/

theorem cntIds_made : NxMade t!"cnt_ids" cntIdsRaw := by
  intro u eq bin n
  unfold cntIdsRaw rawArg
  cases eq with
  | true =>
    rw [if_pos rfl]
    rcases hg : getToken u with ⟨hd, v, r⟩
    have hu := eq_tok hg
    dsimp only
    simp only [bind_iff, pyAssert_iff, hasChar_iff, looseNums_split, packU_packed, packHs_packed]
    constructor
    · rintro ⟨_, h1, ids, ⟨ts, h2, h3, h4, h5⟩, x, hx, y, hy, h⟩
      cases h
      exact ⟨21, _, ⟨r, .cntIdsEq u hd v r ts ids x y hu h1 h2 h3 h4 h5 hx hy, tok_len hu⟩, rfl⟩
    · rintro ⟨t, body, ⟨r', h, rfl⟩, rfl⟩
      generalize hn : t!"cnt_ids" = name at h
      generalize ht : true = eq at h
      cases h with
      | cntIdsEq _ hd' v' _ ts ids x y hu' h1 h2 h3 h4 h5 hx hy =>
        have := hg.symm.trans (tok_get hu')
        cases this
        exact ⟨(), h1, ids, ⟨ts, h2, h3, h4, h5⟩, x, hx, y, hy, by rw [tok_len hu]; rfl⟩
      | cntIds => cases ht
      | _ => nx_other hn
  | false =>
    rw [if_neg (by decide)]
    simp only [bind_iff, parseInts_iff, packU_packed, packHs_packed]
    constructor
    · rintro ⟨ids, h1, x, hx, y, hy, h⟩
      cases h
      exact ⟨21, _, ⟨u, .cntIds u _ ids x y ((pieces_iff _ _).2 rfl) h1 hx hy, by omega⟩, rfl⟩
    · rintro ⟨t, body, ⟨r', h, rfl⟩, rfl⟩
      generalize hn : t!"cnt_ids" = name at h
      generalize ht : false = eq at h
      cases h with
      | cntIdsEq => cases ht
      | cntIds _ ts ids x y h1 h2 h3 h4 =>
        rw [(pieces_iff _ _).1 h1]
        exact ⟨ids, h2, x, h3, y, h4, by simp [NXAST_CNT_IDS]; rfl⟩
      | _ => nx_other hn

theorem cntIds_exact : NxExact t!"cnt_ids" cntIdsStr2act := cntIds_made.exact

/-! ## `reg_move` -/

theorem bits_le {u : Str} {f : Field} {a b : Int} {r : Str} (h : Bits u f a b r) : r.length ≤ u.length := by
  cases h with
  | whole _ _ _ _ _ h => exact tok_le h
  | range _ _ _ _ _ _ _ _ h => exact tok_le h

theorem regMove_made : NxMade t!"reg_move" regMoveRaw := by
  intro u eq bin n
  unfold regMoveRaw rawArg
  cases eq with
  | true =>
    rw [if_pos rfl]
    constructor
    · intro h; cases h
    · rintro ⟨t, body, ⟨r', h, rfl⟩, rfl⟩
      generalize hn : t!"reg_move" = name at h
      generalize ht : true = eq at h
      cases h <;> nx_other hn
      cases ht
  | false =>
    rw [if_neg (by decide)]
    constructor
    · intro h
      obtain ⟨⟨li, ls, ln, u1⟩, h1, h⟩ := bind_iff.1 h
      obtain ⟨⟨ri, rs, rn, u2⟩, h2, h⟩ := bind_iff.1 h
      obtain ⟨⟨⟩, h3, h⟩ := bind_iff.1 h
      obtain ⟨x, h4, h⟩ := bind_iff.1 h
      cases h
      obtain ⟨f, lb, k1, rfl, rfl⟩ := (getBits_iff _ _ _ _ _).1 h1
      obtain ⟨g, rb, k2, rfl, rfl⟩ := (getBits_iff _ _ _ _ _).1 h2
      have h3 := pyAssert_inv h3
      exact ⟨6, _, ⟨u2, .regMove u f ls lb u1 g rs rb u2 x k1 k2 (by simpa using h3) ((packed_iff _ _).1 h4), rfl⟩, rfl⟩
    · rintro ⟨t, body, ⟨r', h, rfl⟩, rfl⟩
      generalize hn : t!"reg_move" = name at h
      generalize ht : false = eq at h
      cases h with
      | regMove _ f a b u' g c d _ x h1 h2 h3 h4 =>
        rw [(getBits_iff _ _ _ _ _).2 ⟨f, _, h1, rfl, rfl⟩, ok_bind]
        dsimp only
        rw [(getBits_iff _ _ _ _ _).2 ⟨g, _, h2, rfl, rfl⟩, ok_bind]
        dsimp only
        rw [show pyAssert (b - a == d - c) = .ok () by simp [pyAssert, h3], ok_bind, (packed_iff _ _).2 h4, ok_bind]
        rfl
      | _ => nx_other hn

theorem regMove_exact : NxExact t!"reg_move" regMoveStr2act := regMove_made.exact

/-! ## `resubmit` -/

theorem resubmit_made : NxMade t!"resubmit" (resubmitRaw false) := by
  intro u eq bin n
  unfold resubmitRaw rawArg
  rcases hg : getToken u with ⟨hd, p, r⟩
  have hu := eq_tok hg
  dsimp only
  simp only [Bool.false_and, Bool.false_eq_true, if_false]
  constructor
  · intro h
    obtain ⟨port, h1, h⟩ := bind_iff.1 h
    have key : ∃ v, (eq = true → '=' ∈ hd) ∧ v = (([], r) : Str × Str) ∧ (do
        let table ← resubmitTbl v.1
        let b ← packAll [(2, port), (1, table)]
        .ok (nxastHdr NXAST_RESUBMIT ++ b, u.length - v.2.length) : Py (Bytes × Nat)) = .ok (bin, n) := by
      cases eq with
      | true =>
        rw [if_pos rfl] at h
        obtain ⟨v, h2, h⟩ := bind_iff.1 h
        obtain ⟨⟨⟩, h3, h2⟩ := bind_iff.1 h2
        cases h2
        exact ⟨_, fun _ => (hasChar_iff _ _).1 (pyAssert_inv h3), rfl, h⟩
      | false =>
        rw [if_neg (by decide), ok_bind] at h
        exact ⟨_, by simp, rfl, h⟩
    obtain ⟨v, h2, rfl, h⟩ := key
    dsimp only at h
    rw [show resubmitTbl [] = .ok 0xff from rfl, ok_bind] at h
    obtain ⟨x, h3, h⟩ := bind_iff.1 h
    cases h
    exact ⟨1, x, ⟨r, .resubmit eq u hd p r port x hu h2 ((resubmitPort_iff _ _).1 h1) ((packed_iff _ _).1 h3), rfl⟩, rfl⟩
  · rintro ⟨t, body, ⟨r', h, rfl⟩, rfl⟩
    generalize hn : t!"resubmit" = name at h
    cases h with
    | resubmit _ _ hd' p' _ port _ h1 h2 h3 h4 =>
      have := hg.symm.trans (tok_get h1)
      cases this
      rw [(resubmitPort_iff _ _).2 h3, ok_bind]
      have key : (if eq = true then (do pyAssert (hasChar hd '='); .ok ([], r)) else .ok ([], r) : Py (Str × Str)) = .ok ([], r) := by
        cases eq with
        | true => rw [if_pos rfl, pyAssert_iff (u := ()).2 ((hasChar_iff _ _).2 (h2 rfl)), ok_bind]
        | false => rw [if_neg (by decide)]
      rw [key, ok_bind]
      dsimp only
      rw [show resubmitTbl [] = .ok 0xff from rfl, ok_bind, (packed_iff _ _).2 h4, ok_bind]
      rfl
    | _ => nx_other hn

theorem resubmit_exact : NxExact t!"resubmit" (resubmitStr2act false) := resubmit_made.exact

/-- A token never ends before a colon. -/
theorem tok_nocolon {u h v r : Str} (t : Tok u h v r) : startsWith r t!":" = false := by
  rw [Bool.eq_false_iff]
  intro hs
  obtain ⟨_, _, h⟩ := t
  cases r with
  | nil => cases hs
  | cons c r =>
    have hc : c = ':' := by
      simp [startsWith, List.isPrefixOf] at hs
      exact hs.symm
    subst hc
    rcases h with ⟨_, h⟩ | ⟨_, h⟩
    · rcases h _ _ rfl with h | h
      · revert h; unfold SepChar; decide
      · exact absurd h (by decide)
    · cases h

theorem resubmitTable_made : NxMade t!"resubmit_table" (resubmitRaw true) := by
  intro u eq bin n
  unfold resubmitRaw rawArg
  rcases hg : getToken u with ⟨hd, p, r⟩
  have hu := eq_tok hg
  dsimp only
  simp only [Bool.true_and, if_true]
  cases eq with
  | true =>
    rw [if_pos rfl, tok_nocolon hu, if_neg (by decide)]
    constructor
    · intro h
      obtain ⟨port, h1, h⟩ := bind_iff.1 h
      obtain ⟨v, h2, h⟩ := bind_iff.1 h
      obtain ⟨⟨⟩, h3, h2⟩ := bind_iff.1 h2
      cases h2
      dsimp only at h
      rw [show resubmitTbl [] = .ok 0xff from rfl, ok_bind] at h
      obtain ⟨x, h4, h⟩ := bind_iff.1 h
      cases h
      exact ⟨14, x, ⟨r, .resubmitEq u hd p r port x hu ((hasChar_iff _ _).1 (pyAssert_inv h3)) ((resubmitPort_iff _ _).1 h1)
        ((packed_iff _ _).1 h4), rfl⟩, rfl⟩
    · rintro ⟨t, body, ⟨r', h, rfl⟩, rfl⟩
      generalize hn : t!"resubmit_table" = name at h
      generalize ht : true = eq at h
      cases h with
      | resubmitEq _ hd' p' _ port _ h1 h2 h3 h4 =>
        have := hg.symm.trans (tok_get h1)
        cases this
        rw [(resubmitPort_iff _ _).2 h3, ok_bind, pyAssert_iff (u := ()).2 ((hasChar_iff _ _).2 h2), ok_bind, ok_bind]
        dsimp only
        rw [show resubmitTbl [] = .ok 0xff from rfl, ok_bind, (packed_iff _ _).2 h4, ok_bind]
        rfl
      | resubmitTable => cases ht
      | _ => nx_other hn
  | false =>
    rw [if_neg (by decide)]
    rcases hg2 : getToken r with ⟨hd2, tb, r2⟩
    have hu2 := eq_tok hg2
    dsimp only
    simp only [ok_bind]
    constructor
    · intro h
      obtain ⟨port, h1, h⟩ := bind_iff.1 h
      obtain ⟨table, h2, h⟩ := bind_iff.1 h
      obtain ⟨x, h3, h⟩ := bind_iff.1 h
      cases h
      exact ⟨14, x, ⟨r2, .resubmitTable u p tb r2 port table x (.cons u hd p r [tb] r2 hu (.cons r hd2 tb r2 [] r2 hu2 (.nil _)))
        ((resubmitPort_iff _ _).1 h1) ((resubmitTbl_iff _ _).1 h2) ((packed_iff _ _).1 h3), rfl⟩, rfl⟩
    · rintro ⟨t, body, ⟨r', h, rfl⟩, rfl⟩
      generalize hn : t!"resubmit_table" = name at h
      generalize ht : false = eq at h
      cases h with
      | resubmitEq => cases ht
      | resubmitTable _ p' t' _ n' k' _ h1 h2 h3 h4 =>
        cases h1 with
        | cons _ _ _ _ _ _ w1 w =>
          have := hg.symm.trans (tok_get w1)
          cases this
          cases w with
          | cons _ _ _ _ _ _ w2 w =>
            have := hg2.symm.trans (tok_get w2)
            cases this
            cases w
            rw [(resubmitPort_iff _ _).2 h2, ok_bind, (resubmitTbl_iff _ _).2 h3, ok_bind, (packed_iff _ _).2 h4, ok_bind]
            rfl
      | _ => nx_other hn

theorem resubmitTable_exact : NxExact t!"resubmit_table" (resubmitStr2act true) := resubmitTable_made.exact

end Ofpstr
