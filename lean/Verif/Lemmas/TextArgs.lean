import Verif.Lemmas.TextLearn
import Verif.Lemmas.TextLoad

/-!
# Exactly which arguments the actions take
-/

set_option linter.unusedSimpArgs false

namespace Ofpstr
open Spec

theorem nxArg_name {eq : Bool} {name u : Str} {t : Nat} {b : Bytes} {r : Str} (h : NxArg eq name u t b r) :
    name ∈ nxActs.map (·.1) ∧ name ≠ t!"note" := by
  have key : ∀ e ∈ tunnelActs, e.1 ∈ nxActs.map (·.1) ∧ e.1 ≠ t!"note" := by decide
  cases h <;> first | decide | exact key _ ‹_ ∈ tunnelActs›

theorem std_not_nx : ∀ a ∈ stdActs, a.name ∉ nxActs.map (·.1) ∧ a.name ≠ t!"output" := by decide +kernel

theorem std_unique : ∀ a ∈ stdActs, ∀ b ∈ stdActs, a.name = b.name → a = b := by decide +kernel

/-- How much of the text the arguments are. -/
def ArgOk (eq : Bool) (name u : Str) (b : Bytes) (n : Nat) : Prop := ∃ r, ActArgs eq name u b r ∧ n = u.length - r.length

theorem nx_args {name : Str} {enc : Str → Bool → Py (Bytes × Nat)} (h : NxExact name enc) (hn : name ∈ nxActs.map (·.1))
    (hq : name ≠ t!"note") (eq : Bool) (u : Str) (b : Bytes) (n : Nat) : enc u eq = .ok (b, n) ↔ ArgOk eq name u b n := by
  rw [h u eq b n]
  constructor
  · rintro ⟨t, body, ⟨r, h1, h2⟩, h3, rfl⟩
    exact ⟨r, .nx eq name u t body r h1 h3, h2⟩
  · rintro ⟨r, h1, h2⟩
    cases h1 with
    | std a _ _ _ ha _ => exact absurd hn (std_not_nx a ha).1
    | output => exact absurd hn (by decide)
    | note => exact absurd rfl hq
    | nx _ _ t body _ h3 h4 => exact ⟨t, body, ⟨r, h3, h2⟩, h4, rfl⟩

theorem std_args {a : StdAct} (ha : a ∈ stdActs) (eq : Bool) (u : Str) (b : Bytes) (r : Str) :
    ActArgs eq a.name u b r ↔ StdArg a u b r := by
  constructor
  · intro h
    generalize hn : a.name = name at h
    cases h with
    | std a' _ _ _ ha' h =>
      have := std_unique a ha a' ha' hn
      subst this
      exact h
    | output => exact absurd hn (std_not_nx a ha).2
    | note =>
      have := (std_not_nx a ha).1
      rw [hn] at this
      exact absurd (by decide) this
    | nx _ _ t body _ h3 h4 =>
      have := (std_not_nx a ha).1
      rw [hn] at this
      exact absurd (nxArg_name h3).1 this
  · exact fun h => .std eq a u b r ha h

/-! ## Standard actions -/

theorem generic_args {a : StdAct} (ha : a ∈ stdActs) (hk : a.arg = .none) (eq : Bool) (u : Str) (b : Bytes) (n : Nat) :
    genericStr2act a.type = .ok (b, n) ↔ ArgOk eq a.name u b n := by
  unfold ArgOk
  simp only [std_args ha]
  have hw : a.wire 0 = beBytes 2 a.type ++ (beBytes 2 8 ++ zeros 4) := by
    unfold StdAct.wire
    rw [hk, spec_u16, spec_u16]
    rfl
  have hne : a.name ≠ t!"set_nw_ttl" := by
    have key : ∀ a ∈ stdActs, a.arg = .none → a.name ≠ t!"set_nw_ttl" := by decide +kernel
    exact key a ha hk
  constructor
  · intro h
    cases h
    refine ⟨u, ?_, by omega⟩
    rw [← hw]
    exact .none a u hk
  · rintro ⟨r, h, rfl⟩
    cases h with
    | none _ => rw [hw, Nat.sub_self]; rfl
    | ether h' v n l _ h1 => rw [hk] at h1; cases h1
    | number h' v n _ h1 => rw [hk] at h1; rcases h1 with h1 | h1 <;> cases h1
    | nwTtl h' v n _ h1 => exact absurd h1 hne

theorem push_args {a : StdAct} (ha : a ∈ stdActs) (hk : a.arg = .ether) (eq : Bool) (u : Str) (b : Bytes) (n : Nat) :
    pushStr2act a.type u = .ok (b, n) ↔ ArgOk eq a.name u b n := by
  unfold ArgOk
  simp only [std_args ha]
  have hw : ∀ v : Nat, a.wire v = beBytes 2 a.type ++ (beBytes 2 8 ++ (be 2 v ++ zeros 2)) := by
    intro v
    unfold StdAct.wire
    rw [hk, spec_u16, spec_u16]
    rfl
  have hne : a.name ≠ t!"set_nw_ttl" := by
    have key : ∀ a ∈ stdActs, a.arg = .ether → a.name ≠ t!"set_nw_ttl" := by decide +kernel
    exact key a ha hk
  unfold pushStr2act
  rcases hg : getToken u with ⟨hd, v, r⟩
  have hu := eq_tok hg
  dsimp only
  constructor
  · intro h
    obtain ⟨⟨m, l⟩, h1, h2⟩ := bind_iff.1 h
    obtain ⟨x, h3, h4⟩ := bind_iff.1 h2
    cases h4
    obtain ⟨h5, rfl⟩ := (packU_packed _ _ _).1 h3
    refine ⟨r, ?_, tok_len hu⟩
    have := hw m.toNat
    simp only [List.flatMap_cons, List.flatMap_nil, List.append_nil]
    rw [← this]
    exact .ether a u hd v m l r hk hu ((parseInt_iff _ _ _).1 h1) (h5 (2, m) (by simp))
  · rintro ⟨r', h, rfl⟩
    cases h with
    | none h1 => rw [hk] at h1; cases h1
    | ether h' v' m l _ h1 h2 h3 h4 =>
      have := hg.symm.trans (tok_get h2)
      cases this
      rw [(parseInt_iff _ _ _).2 h3, ok_bind]
      dsimp only
      rw [(packU_packed 2 m (be 2 m.toNat)).2 ⟨by simpa using h4, by simp⟩, ok_bind, hw, tok_len hu]
    | number h' v n _ h1 => rw [hk] at h1; rcases h1 with h1 | h1 <;> cases h1
    | nwTtl h' v n _ h1 => exact absurd h1 hne

theorem uint_args {a : StdAct} (ha : a ∈ stdActs) (size pd : Nat) (W : Nat → Bytes)
    (hW : ∀ v, W v = beBytes 2 a.type ++ (beBytes 2 (4 + (size + pd)) ++ (be size v ++ zeros pd)))
    (hs : ∀ u b r, StdArg a u b r ↔ ∃ h v n, Tok u h v r ∧ WholeInt v n ∧ FitsIn size n ∧ b = W n.toNat)
    (eq : Bool) (u : Str) (b : Bytes) (n : Nat) :
    uintStr2act a.type size pd u = .ok (b, n) ↔ ArgOk eq a.name u b n := by
  unfold ArgOk
  simp only [std_args ha, hs]
  unfold uintStr2act
  rcases hg : getToken u with ⟨hd, v, r⟩
  have hu := eq_tok hg
  dsimp only
  have hlen : ∀ m : Nat, (be size m ++ zeros pd).length = size + pd := by
    intro m
    rw [List.length_append, be_length]
    simp [zeros]
  constructor
  · intro h
    obtain ⟨⟨m, l⟩, h1, h2⟩ := bind_iff.1 h
    obtain ⟨_, h3, h4⟩ := bind_iff.1 h2
    have h3 := pyAssert_iff.1 h3
    simp only [beq_iff_eq] at h3
    subst h3
    obtain ⟨x, h5, h6⟩ := bind_iff.1 h4
    obtain ⟨h7, rfl⟩ := (packU_packed _ _ _).1 h5
    simp only [List.flatMap_cons, List.flatMap_nil, List.append_nil] at h6
    cases h6
    exact ⟨r, ⟨hd, v, m, hu, (parseInt_iff _ _ _).1 h1, h7 (size, m) (by simp), by rw [hW, hlen]⟩, tok_len hu⟩
  · rintro ⟨r', ⟨h', v', m, h1, h2, h3, rfl⟩, rfl⟩
    have := hg.symm.trans (tok_get h1)
    cases this
    rw [(parseInt_iff _ _ _).2 h2, ok_bind]
    dsimp only
    rw [show pyAssert (v.length == v.length) = .ok () by simp [pyAssert], ok_bind,
      (packU_packed size m (be size m.toNat)).2 ⟨by simpa using h3, by simp⟩, ok_bind, hW, hlen, tok_len hu]

theorem number_args {a : StdAct} (ha : a ∈ stdActs) (pd : Nat) (hk : a.arg = .ttl ∧ pd = 3 ∨ a.arg = .word ∧ pd = 0)
    (hn : a.name ≠ t!"set_nw_ttl") (eq : Bool) (u : Str) (b : Bytes) (n : Nat) :
    uintStr2act a.type a.arg.size pd u = .ok (b, n) ↔ ArgOk eq a.name u b n := by
  refine uint_args ha _ _ a.wire ?_ ?_ eq u b n
  · intro v
    unfold StdAct.wire
    rw [spec_u16, spec_u16]
    rcases hk with ⟨hk, rfl⟩ | ⟨hk, rfl⟩ <;> rw [hk]
    · rfl
    · show _ = beBytes 2 a.type ++ (beBytes 2 8 ++ (be 4 v ++ []))
      rw [List.append_nil]
      rfl
  · intro u b r
    constructor
    · intro h
      cases h with
      | none h1 => rcases hk with ⟨hk, _⟩ | ⟨hk, _⟩ <;> rw [hk] at h1 <;> cases h1
      | ether h' v n l _ h1 => rcases hk with ⟨hk, _⟩ | ⟨hk, _⟩ <;> rw [hk] at h1 <;> cases h1
      | number h' v n _ h1 h2 h3 h4 h5 => exact ⟨h', v, n, h3, h4, h5, rfl⟩
      | nwTtl h' v n _ h1 => exact absurd h1 hn
    · rintro ⟨h', v, n, h3, h4, h5, rfl⟩
      refine .number a u h' v n r ?_ hn h3 h4 h5
      rcases hk with ⟨hk, _⟩ | ⟨hk, _⟩
      · exact Or.inl hk
      · exact Or.inr hk

theorem nwTtl_args (eq : Bool) (u : Str) (b : Bytes) (n : Nat) :
    uintStr2act 23 1 0 u = .ok (b, n) ↔ ArgOk eq t!"set_nw_ttl" u b n := by
  refine uint_args (a := ⟨t!"set_nw_ttl", 23, .ttl⟩) (by decide) 1 0 (fun n => u16 23 ++ (u16 5 ++ u8 n)) ?_ ?_ eq u b n
  · intro v
    show u16 23 ++ (u16 5 ++ u8 v) = beBytes 2 23 ++ (beBytes 2 5 ++ (be 1 v ++ []))
    rw [List.append_nil, spec_u16, spec_u16]
    rfl
  · intro u b r
    constructor
    · intro h
      cases h with
      | none h1 => cases h1
      | ether h' v n l _ h1 => cases h1
      | number h' v n _ h1 h2 => exact absurd rfl h2
      | nwTtl h' v n _ h1 h2 h3 h4 => exact ⟨h', v, n, h2, h3, h4, rfl⟩
    · rintro ⟨h', v, n, h3, h4, h5, rfl⟩
      exact .nwTtl _ u h' v n r rfl h3 h4 h5

/-! ## `output` -/

theorem wholeInt_nocolon {p : Str} {n : Int} (h : WholeInt p n) : ∀ x ∈ p, x ≠ ':' := by
  intro x hx
  have := (intSyntax_chars h).2.2 x
  rw [List.take_length] at this
  exact (this hx).2.2

theorem portText_nocolon {p : Str} {n : Int} (h : PortText p n) : ∀ x ∈ p, x ≠ ':' := by
  cases h with
  | name k s h =>
    have key : ∀ e ∈ reservedPorts, ∀ x ∈ e.2, x ≠ ':' := by decide
    exact key _ h
  | num _ _ h => exact wholeInt_nocolon h

/-- The bytes to send to a controller, from what stands behind the first colon. -/
inductive MaxArg : Option Str → Int → Prop
  | none : MaxArg none 0xffff
  | some (r k) : WholeInt (split1 ':' r).1 k → MaxArg (some r) k

theorem outputText_iff (v : Str) (n k : Int) : OutputText v n k ↔ ∃ p rest, split1 ':' v = (p, rest) ∧ PortText p n ∧ MaxArg rest k := by
  constructor
  · intro h
    cases h with
    | port _ _ h => exact ⟨v, none, split1_none _ _ (portText_nocolon h), h, .none⟩
    | max p m _ _ h h2 =>
      refine ⟨p, some m, split1_some _ _ _ (portText_nocolon h), h, .some _ _ ?_⟩
      rw [split1_none _ _ (wholeInt_nocolon h2)]
      exact h2
    | junk p m r _ _ h h2 =>
      refine ⟨p, some _, split1_some _ _ _ (portText_nocolon h), h, .some _ _ ?_⟩
      rw [split1_some _ _ _ (wholeInt_nocolon h2)]
      exact h2
  · rintro ⟨p, rest, h1, h2, h3⟩
    have h4 := (split1_inv h1).2
    cases h3 with
    | none =>
      dsimp only at h4
      subst h4
      exact .port _ _ h2
    | some r _ h5 =>
      dsimp only at h4
      subst h4
      rcases hr : split1 ':' r with ⟨m, o⟩
      rw [hr] at h5
      have h6 := (split1_inv hr).2
      cases o with
      | none =>
        dsimp only at h6
        subst h6
        exact .max _ _ _ _ h2 h5
      | some q =>
        dsimp only at h6
        subst h6
        exact .junk _ _ _ _ _ h2 h5

theorem output_args (eq : Bool) (u : Str) (b : Bytes) (n : Nat) : outputStr2act u = .ok (b, n) ↔ ArgOk eq t!"output" u b n := by
  unfold outputStr2act
  rcases hg : getToken u with ⟨hd, v, r⟩
  have hu := eq_tok hg
  dsimp only
  have hslash : pyAssert (!hasChar v '/') = .ok () ↔ '/' ∉ v := by
    rw [pyAssert_iff, ← hasChar_iff]
    simp
  have hmax : ∀ rest k, (match rest with
      | none => .ok (OFPCML_NO_BUFFER : Int)
      | some r => do
        let p1 := (split1 ':' r).1
        let (n, l) ← parseInt p1
        pyAssert (p1.length == l)
        .ok n : Py Int) = .ok k ↔ MaxArg rest k := by
    intro rest k
    cases rest with
    | none =>
      constructor
      · intro h; cases h; exact .none
      · intro h; cases h; rfl
    | some r =>
      dsimp only
      constructor
      · intro h
        obtain ⟨⟨m, l⟩, h1, h2⟩ := bind_iff.1 h
        obtain ⟨_, h3, h4⟩ := bind_iff.1 h2
        have h3 := pyAssert_iff.1 h3
        simp only [beq_iff_eq] at h3
        cases h4
        refine .some r m ?_
        unfold WholeInt
        rw [h3]
        exact (parseInt_iff _ _ _).1 h1
      · intro h
        cases h with
        | some _ _ h =>
          rw [(parseInt_iff _ _ _).2 h, ok_bind]
          dsimp only
          rw [show pyAssert ((split1 ':' r).1.length == (split1 ':' r).1.length) = .ok () by simp [pyAssert], ok_bind]
  rcases hs : split1 ':' v with ⟨p0, rest⟩
  dsimp only
  constructor
  · intro h
    obtain ⟨⟨⟩, h1, h2⟩ := bind_iff.1 h
    obtain ⟨m, h3, h4⟩ := bind_iff.1 h2
    obtain ⟨k, h5, h6⟩ := bind_iff.1 h4
    obtain ⟨x, h7, h8⟩ := bind_iff.1 h6
    cases h8
    refine ⟨r, ?_, tok_len hu⟩
    rw [← spec_u16, ← spec_u16, ← spec_pad]
    exact .output eq u hd v r m k x hu (hslash.1 h1)
      ((outputText_iff _ _ _).2 ⟨p0, rest, hs, (nameOrInt_port_iff _ _).1 h3, (hmax _ _).1 h5⟩) ((packed_iff _ _).1 h7)
  · rintro ⟨r', h, rfl⟩
    generalize hn : t!"output" = name at h
    cases h with
    | std a _ _ _ ha _ => exact absurd hn.symm (std_not_nx a ha).2
    | note => exact absurd hn (by decide)
    | nx _ _ t body _ h3 h4 =>
      subst hn
      exact absurd (nxArg_name h3).1 (by decide)
    | output _ h' v' _ m k x h1 h2 h3 h4 =>
      have := hg.symm.trans (tok_get h1)
      cases this
      obtain ⟨p, rest', h5, h6, h7⟩ := (outputText_iff _ _ _).1 h3
      have := hs.symm.trans h5
      cases this
      rw [hslash.2 h2, ok_bind, (nameOrInt_port_iff _ _).2 h6, ok_bind]
      refine bind_iff.2 ⟨k, (hmax _ _).2 h7, ?_⟩
      rw [(packed_iff _ _).2 h4, ok_bind, spec_u16, spec_u16, spec_pad, tok_len hu]

/-! ## `note` -/

theorem note_args (eq : Bool) (u : Str) (b : Bytes) (n : Nat) : qpStr2act NXAST_NOTE u eq = .ok (b, n) ↔ ArgOk eq t!"note" u b n := by
  unfold qpStr2act
  rcases hg : getToken u with ⟨hd, v, r⟩
  have hu := eq_tok hg
  dsimp only
  constructor
  · intro h
    obtain ⟨_, h1, h2⟩ := bind_iff.1 h
    obtain ⟨q, h3, h4⟩ := bind_iff.1 h2
    obtain ⟨x, h5, h6⟩ := bind_iff.1 h4
    cases h6
    rw [fixActLen_hdr] at h5
    split at h5
    · rename_i hl
      cases h5
      obtain ⟨h7, h8⟩ := (a2bQp_iff _ _).1 h3
      exact ⟨r, .note eq u hd v r q hu ((readarg_iff _ _).1 (pyAssert_iff.1 h1)) h7 h8 hl, tok_len hu⟩
    · cases h5
  · rintro ⟨r', h, rfl⟩
    generalize hn : t!"note" = name at h
    cases h with
    | std a _ _ _ ha _ =>
      have := (std_not_nx a ha).1
      rw [← hn] at this
      exact absurd (by decide) this
    | output => exact absurd hn (by decide)
    | nx _ _ t body _ h3 h4 => exact absurd hn.symm (nxArg_name h3).2
    | note _ h' v' _ q h1 h2 h3 h4 h5 =>
      have := hg.symm.trans (tok_get h1)
      cases this
      rw [show pyAssert (!eq || hasChar hd '=') = .ok () from pyAssert_iff.2 ((readarg_iff _ _).2 h2), ok_bind,
        (a2bQp_iff _ _).2 ⟨h3, h4⟩, ok_bind, fixActLen_hdr, if_pos h5, ok_bind, tok_len hu]
      rfl

/-! ## All actions -/

theorem runAct_iff {name : Str} {k : ActEnc} (hk : lookupAct name = some k) (eq : Bool) (u : Str) (b : Bytes) (n : Nat) :
    runActEnc k u eq = .ok (b, n) ↔ ArgOk eq name u b n := by
  have hm := lookupAct_mem hk
  simp only [str2actTable, List.mem_cons, List.not_mem_nil, or_false, Prod.mk.injEq] at hm
  rcases hm with h | h | h | h | h | h | h | h | h | h | h | h | h | h | h | h | h | h | h | h | h | h | h | h | h | h | h | h | h | h | h | h
  all_goals (obtain ⟨rfl, rfl⟩ := h; unfold runActEnc; dsimp only)
  · exact output_args eq u b n
  · exact generic_args (a := ⟨t!"copy_ttl_out", 11, .none⟩) (by decide) rfl eq u b n
  · exact generic_args (a := ⟨t!"copy_ttl_in", 12, .none⟩) (by decide) rfl eq u b n
  · exact number_args (a := ⟨t!"set_mpls_ttl", 15, .ttl⟩) (by decide) 3 (Or.inl ⟨rfl, rfl⟩) (by decide) eq u b n
  · exact generic_args (a := ⟨t!"dec_mpls_ttl", 16, .none⟩) (by decide) rfl eq u b n
  · exact push_args (a := ⟨t!"push_vlan", 17, .ether⟩) (by decide) rfl eq u b n
  · exact generic_args (a := ⟨t!"pop_vlan", 18, .none⟩) (by decide) rfl eq u b n
  · exact push_args (a := ⟨t!"push_mpls", 19, .ether⟩) (by decide) rfl eq u b n
  · exact push_args (a := ⟨t!"pop_mpls", 20, .ether⟩) (by decide) rfl eq u b n
  · exact number_args (a := ⟨t!"set_queue", 21, .word⟩) (by decide) 0 (Or.inr ⟨rfl, rfl⟩) (by decide) eq u b n
  · exact number_args (a := ⟨t!"group", 22, .word⟩) (by decide) 0 (Or.inr ⟨rfl, rfl⟩) (by decide) eq u b n
  · exact nwTtl_args eq u b n
  · exact generic_args (a := ⟨t!"dec_nw_ttl", 24, .none⟩) (by decide) rfl eq u b n
  · exact push_args (a := ⟨t!"push_pbb", 26, .ether⟩) (by decide) rfl eq u b n
  · exact generic_args (a := ⟨t!"pop_pbb", 27, .none⟩) (by decide) rfl eq u b n
  · exact nx_args cntIds_exact (by decide) (by decide) eq u b n
  · exact nx_args regLoad_exact (by decide) (by decide) eq u b n
  · exact nx_args regLoad2_exact (by decide) (by decide) eq u b n
  · exact nx_args regMove_exact (by decide) (by decide) eq u b n
  · exact nx_args resubmit_exact (by decide) (by decide) eq u b n
  · exact nx_args resubmitTable_exact (by decide) (by decide) eq u b n
  · exact nx_args (tunnel_exact (e := (t!"set_tunnel", 2)) (by decide)) (by decide) (by decide) eq u b n
  · exact nx_args (tunnel_exact (e := (t!"set_tunnel64", 9)) (by decide)) (by decide) (by decide) eq u b n
  · exact nx_args popQueue_exact (by decide) (by decide) eq u b n
  · exact note_args eq u b n
  · exact nx_args exit_exact (by decide) (by decide) eq u b n
  · exact nx_args multipath_exact (by decide) (by decide) eq u b n
  · exact nx_args bundle_exact (by decide) (by decide) eq u b n
  · exact nx_args bundleLoad_exact (by decide) (by decide) eq u b n
  · exact nx_args outputReg_exact (by decide) (by decide) eq u b n
  · exact nx_args outputReg2_exact (by decide) (by decide) eq u b n
  · exact nx_args learn_exact (by decide) (by decide) eq u b n

theorem actArgs_name {eq : Bool} {name u : Str} {b : Bytes} {r : Str} (h : ActArgs eq name u b r) : name ∈ actNames := by
  have key : ∀ a ∈ stdActs, a.name ∈ actNames := by decide +kernel
  have key2 : ∀ n ∈ nxActs.map (·.1), n ∈ actNames := by decide +kernel
  cases h with
  | std a _ _ _ ha _ => exact key a ha
  | output => decide
  | note => decide
  | nx _ _ t body _ h3 h4 => exact key2 _ (nxArg_name h3).1

theorem lookupAct_isSome (name : Str) : name ∈ actNames ↔ ∃ k, lookupAct name = some k := by
  constructor
  · intro h
    have key : ∀ n ∈ actNames, (lookupAct n).isSome = true := by decide +kernel
    exact Option.isSome_iff_exists.1 (key name h)
  · rintro ⟨k, h⟩
    have key : ∀ e ∈ str2actTable, e.1 ∈ actNames := by decide +kernel
    exact key _ (lookupAct_mem h)

end Ofpstr
