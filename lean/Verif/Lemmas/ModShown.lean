import Verif.Lemmas.InstShown

/-!
# Printed flow-mods
-/

namespace Ofpstr
open Spec

set_option linter.unusedSimpArgs false

/-! ## Keys -/

theorem keyPrinted_iff {name : Str} {P : Str → Nat → Prop} {g : Nat → Str} (h : ∀ s n, P s n ↔ s = g n) (d v : Nat)
    (ts : List Str) : KeyPrinted name P d v ts ↔ ts = if v = d then [] else [name ++ '=' :: g v] := by
  constructor
  · intro h'
    cases h' with
    | hidden h1 => rw [if_pos h1]
    | shown s h1 h2 => rw [if_neg h1, (h s v).1 h2]
  · rintro rfl
    by_cases c : v = d
    · rw [if_pos c]; exact .hidden c
    · rw [if_neg c]; exact .shown _ c ((h _ _).2 rfl)

theorem keyPrinted_lt {name : Str} {P : Str → Nat → Prop} {g : Nat → Str} {d v : Nat} (h : ∀ s, P s v ↔ s = g v)
    (ts : List Str) : KeyPrinted name P d v ts ↔ ts = if v = d then [] else [name ++ '=' :: g v] := by
  constructor
  · intro h'
    cases h' with
    | hidden h1 => rw [if_pos h1]
    | shown s h1 h2 => rw [if_neg h1, (h s).1 h2]
  · rintro rfl
    by_cases c : v = d
    · rw [if_pos c]; exact .hidden c
    · rw [if_neg c]; exact .shown _ c ((h _).2 rfl)

theorem emitF_eq (v d : Nat) (f : Nat → Str) : emitF (some v) (some d) f = if v = d then [] else [f v] := by
  unfold emitF
  dsimp only
  by_cases c : v = d
  · rw [if_pos c, if_pos (by rw [c]; simp)]
  · rw [if_neg c, if_neg (by simpa using c)]

theorem portPrinted_iff (s : Str) (n : Nat) (hn : n < 2 ^ 32) : PortPrinted s n ↔ s = nameOrD ofpp n := by
  unfold PortPrinted
  rw [portShown_iff 4 (Or.inr rfl), nameOrD_portName]
  have : beVal (u32 n) = n := by
    have h : uAt (u32 n ++ []) 0 4 = n := by rw [uAt_u32_here _ _ hn]
    rw [List.append_nil] at h
    unfold uAt slice at h
    rwa [List.drop_zero, List.take_of_length_le (by rw [u32_length])] at h
  rw [this]
  exact ⟨fun h => h.2, fun h => ⟨u32_length n, h⟩⟩

theorem groupPrinted_iff (s : Str) (n : Nat) : GroupPrinted s n ↔ s = nameOrD ofpg n := by
  have hof : ofpg = reservedGroups := by decide
  have hinj : ∀ e ∈ reservedGroups, ∀ e' ∈ reservedGroups, e.1 = e'.1 → e = e' := by decide
  unfold nameOrD
  rw [hof]
  cases hf : reservedGroups.find? (fun e => e.1 == n) with
  | some e =>
    have he := List.mem_of_find?_eq_some hf
    have h1 : e.1 = n := by simpa using List.find?_some hf
    constructor
    · intro h
      cases h with
      | name _ _ h => rw [hinj e he (n, s) h h1]
      | num _ _ h2 h3 => exact absurd h1 (h2 e he)
    · rintro rfl
      rw [← h1]
      exact .name _ _ he
  | none =>
    have hn : ∀ e ∈ reservedGroups, e.1 ≠ n := by
      intro e he h
      have := List.find?_eq_none.1 hf e he
      exact this (by simpa using h)
    constructor
    · intro h
      cases h with
      | name _ _ h => exact absurd rfl (hn _ h)
      | num _ _ h1 h2 => exact decimal_eq h2
    · rintro rfl
      exact .num _ _ hn (decimal_fmtD n)

theorem flagsPrinted_eq (f : Nat) : flagsPrinted f = (ofpff.filter fun e => (f / 2 ^ e.2) % 2 == 1).map (·.1) := by
  have hof : ofpff = flagWords := by decide
  unfold flagsPrinted
  rw [hof]
  congr 2
  funext e
  rw [Nat.testBit_eq_decide_div_mod_eq]
  rfl

theorem flagsPrinted_zero : flagsPrinted 0 = [] := by decide

theorem cookiePrinted_iff (c m : Nat) (ts : List Str) : CookiePrinted c m ts ↔
    ts = if m = 0 then (if c = 0 then [] else [t!"cookie=" ++ fmtX 0 c]) else [t!"cookie=" ++ (fmtX 0 c ++ '/' :: fmtX 0 m)] := by
  constructor
  · intro h
    cases h with
    | hidden h1 h2 => rw [if_pos h2, if_pos h1]
    | plain s h1 h2 h3 => rw [if_pos h2, if_neg h1, (hexShown_iff _ _ _).1 h3]
    | masked s t h1 h2 h3 => rw [if_neg h1, (hexShown_iff _ _ _).1 h2, (hexShown_iff _ _ _).1 h3]
  · rintro rfl
    by_cases hm : m = 0
    · rw [if_pos hm]
      by_cases hc : c = 0
      · rw [if_pos hc]; exact .hidden hc hm
      · rw [if_neg hc]; exact .plain _ hc hm ((hexShown_iff _ _ _).2 rfl)
    · rw [if_neg hm]
      exact .masked _ _ hm ((hexShown_iff _ _ _).2 rfl) ((hexShown_iff _ _ _).2 rfl)

theorem flags_tok (f : Nat) : (match some f with
    | some f => if some f == some 0 then []
      else (ofpff.filter fun e => (f / 2 ^ e.2) % 2 == 1).map (·.1)
    | none => ([] : List Str)) = flagsPrinted f := by
  dsimp only
  by_cases c : f = 0
  · rw [c, flagsPrinted_zero]; rfl
  · rw [if_neg (by simpa using c), flagsPrinted_eq]

/-! ## Match and instructions -/

theorem outcome_rule (b : Bytes) (len mlen : Nat) (ret : List Str) (f : List Str → Str) :
    OutcomeOf (oxm2str (slice b 52 (52 + mlen - 4)) >>= fun rstr =>
        inst2str (slice b (48 + align8 mlen) len) >>= fun istr => .ok (f (ret ++ (optTok rstr ++ optTok istr))))
      (fun s => ∃ ts, RulePrinted b len mlen ts ∧ s = f (ret ++ ts)) (RuleFails b len mlen) := by
  have e1 : slice b 52 (52 + mlen - 4) = (b.drop 52).take (mlen - 4) := by
    unfold slice
    rw [List.drop_take]
    congr 1
    omega
  have e2 : slice b (48 + align8 mlen) len = (b.take len).drop (48 + roundUp8 mlen) := rfl
  rw [e1, e2]
  have h1 : OutcomeOf _ _ _ := outcome_match ((b.drop 52).take (mlen - 4))
  have h2 := outcome_insts ((b.take len).drop (48 + roundUp8 mlen))
  refine (h1.bind (fun a _ => h2.map (f := fun i => f (ret ++ (optTok a ++ optTok i))))).congr (fun s => ?_) (fun e => ?_)
  · constructor
    · rintro ⟨_, ⟨ms, hm, rfl⟩, _, ⟨is, hi, rfl⟩, rfl⟩
      exact ⟨_, .mk ms is hm hi, by rw [optTok_eq, optTok_eq]⟩
    · rintro ⟨_, ⟨ms, is, hm, hi⟩, rfl⟩
      exact ⟨_, ⟨ms, hm, rfl⟩, _, ⟨is, hi, rfl⟩, by rw [optTok_eq, optTok_eq]⟩
  · constructor
    · rintro (h | ⟨_, ⟨ms, hm, rfl⟩, h⟩)
      · exact .mtch e h
      · exact .inst ms e hm h
    · intro h
      cases h with
      | mtch _ h => exact Or.inl h
      | inst ms _ hm h => exact Or.inr ⟨_, ⟨ms, hm, rfl⟩, h⟩

/-! ## Flow-mods -/

theorem rawMod_length (m : RawMod) (h : m.Fits) : m.wire.length = 52 := by
  simp [RawMod.wire, u16_length, u32_length, u64_length, h.unused]

/-- Reading a number out of bytes in which lists and single bytes stand, too. -/
macro "uatl" h:term : tactic => `(tactic| (
  repeat first
    | rw [uAt_u16 _ _ _ _ (by omega)]
    | rw [uAt_u32 _ _ _ _ (by omega)]
    | rw [uAt_u64 _ _ _ _ (by omega)]
    | rw [uAt_skip_byte _ _ _ _ (by omega)]
    | rw [uAt_skip_list _ _ _ _ _ $h (by omega)]
  first
    | rw [uAt_u16_here _ _ (by omega)]
    | rw [uAt_u32_here _ _ (by omega)]
    | rw [uAt_u64_here _ _ (by omega)]
    | rw [uAt_byte]))

theorem rawMod_flat (m : RawMod) (r : Bytes) : m.wire ++ r = m.version :: m.type :: (u16 m.len ++ (u32 m.xid ++ (u64 m.cookie ++ (u64 m.mask ++
    (m.table :: m.command :: (u16 m.idle ++ (u16 m.hard ++ (u16 m.priority ++ (u32 m.buffer ++ (u32 m.outPort ++
    (u32 m.outGroup ++ (u16 m.flags ++ (m.unused ++ (u16 m.mtype ++ (u16 m.mlen ++ r))))))))))))))) := by
  unfold RawMod.wire
  simp only [List.append_assoc, List.cons_append, List.nil_append]

theorem rawMod_at (m : RawMod) (h : m.Fits) (r : Bytes) :
    uAt (m.wire ++ r) 2 2 = m.len ∧ uAt (m.wire ++ r) 8 8 = m.cookie ∧ uAt (m.wire ++ r) 16 8 = m.mask ∧
    uAt (m.wire ++ r) 24 1 = m.table.toNat ∧ uAt (m.wire ++ r) 25 1 = m.command.toNat ∧ uAt (m.wire ++ r) 26 2 = m.idle ∧
    uAt (m.wire ++ r) 28 2 = m.hard ∧ uAt (m.wire ++ r) 30 2 = m.priority ∧ uAt (m.wire ++ r) 32 4 = m.buffer ∧
    uAt (m.wire ++ r) 36 4 = m.outPort ∧ uAt (m.wire ++ r) 40 4 = m.outGroup ∧ uAt (m.wire ++ r) 44 2 = m.flags ∧
    uAt (m.wire ++ r) 48 2 = m.mtype ∧ uAt (m.wire ++ r) 50 2 = m.mlen := by
  obtain ⟨h1, h2, h3, h4, h5, h6, h7, h8, h9, h10, h11, h12, h13, h14⟩ := h
  rw [rawMod_flat]
  refine ⟨?_, ?_, ?_, ?_, ?_, ?_, ?_, ?_, ?_, ?_, ?_, ?_, ?_, ?_⟩
  all_goals uatl h12

theorem mod_default (c : UInt8) : modDefault (c.toNat : Int) = if c = 3 ∨ c = 4 then ofpfcDelDefault else ofpfcDefault := by
  unfold modDefault
  by_cases h : c = 3 ∨ c = 4
  · rw [if_pos h, if_pos]
    rcases h with rfl | rfl <;> decide
  · rw [if_neg h, if_neg]
    intro h'
    apply h
    simp only [Bool.or_eq_true, beq_iff_eq] at h'
    rcases h' with h' | h'
    · left
      exact UInt8.toNat_inj.1 (by have := h'; simp; omega)
    · right
      exact UInt8.toNat_inj.1 (by have := h'; simp; omega)

/-- The tokens for the keys. -/
def modToks (m : RawMod) : List Str := fixedText (modDefault (m.command.toNat : Int)) {
    cookie := some m.cookie, cookieMask := some m.mask, table := some m.table.toNat, priority := some m.priority,
    buffer := some m.buffer, outPort := some m.outPort, outGroup := some m.outGroup, idleTimeout := some m.idle,
    hardTimeout := some m.hard, flags := some m.flags }

theorem fixed_all (d : Fixed) (tb bu op og : Nat) (hd : d = { cookie := some 0, cookieMask := some 0, table := some tb, idleTimeout := some 0, hardTimeout := some 0, priority := some 0x8000, buffer := some bu, outPort := some op, outGroup := some og, flags := some 0 })
    (c m t p b o g i h f : Nat) :
    fixedText d { cookie := some c, cookieMask := some m, table := some t, priority := some p, buffer := some b, outPort := some o, outGroup := some g, idleTimeout := some i, hardTimeout := some h, flags := some f } =
    (if m = 0 then (if c = 0 then [] else [t!"cookie=" ++ fmtX 0 c]) else [t!"cookie=" ++ (fmtX 0 c ++ '/' :: fmtX 0 m)]) ++
    ((if t = tb then [] else [t!"table" ++ '=' :: fmtD t]) ++ ((if p = 0x8000 then [] else [t!"priority" ++ '=' :: fmtD p]) ++
    ((if b = bu then [] else [t!"buffer" ++ '=' :: fmtX 0 b]) ++ ((if o = op then [] else [t!"out_port" ++ '=' :: nameOrD ofpp o]) ++
    ((if g = og then [] else [t!"out_group" ++ '=' :: nameOrD ofpg g]) ++ ((if i = 0 then [] else [t!"idle_timeout" ++ '=' :: fmtD i]) ++
    ((if h = 0 then [] else [t!"hard_timeout" ++ '=' :: fmtD h]) ++ flagsPrinted f))))))) := by
  subst hd
  unfold fixedText
  dsimp only
  simp only [emitF_eq]
  have hf := flags_tok f
  dsimp only at hf
  rw [hf]
  congr 1
  by_cases hm : m = 0
  · rw [if_pos hm, if_pos (by rw [hm]; rfl)]
  · rw [if_neg hm, if_neg (by simpa using hm)]
    rfl

theorem modKeys_iff (m : RawMod) (h : m.Fits) (ks : List Str) : m.Keys ks ↔ ks = modToks m := by
  have hd : (if m.command = 3 ∨ m.command = 4 then ofpfcDelDefault else ofpfcDefault) = { cookie := some 0, cookieMask := some 0, table := some (if m.Deletes then 255 else 0), idleTimeout := some 0, hardTimeout := some 0, priority := some 0x8000, buffer := some (if m.Deletes then 0 else 0xffffffff), outPort := some (if m.Deletes then 0xffffffff else 0), outGroup := some (if m.Deletes then 0xffffffff else 0), flags := some 0 } := by
    by_cases hc : m.command = 3 ∨ m.command = 4
    · have hd : m.Deletes := hc
      simp only [if_pos hc, if_pos hd]; rfl
    · have hd : ¬ m.Deletes := hc
      simp only [if_neg hc, if_neg hd]; rfl
  unfold modToks
  rw [mod_default, fixed_all _ _ _ _ _ hd]
  have hD : ∀ s n, Decimal s n ↔ s = fmtD n := decimal_iff
  constructor
  · rintro ⟨a, b, c, d, e, f, g, i, h1, h2, h3, h4, h5, h6, h7, h8⟩
    rw [(cookiePrinted_iff _ _ _).1 h1, (keyPrinted_iff hD _ _ _).1 h2, (keyPrinted_iff hD _ _ _).1 h3,
      (keyPrinted_iff (hexShown_iff 0) _ _ _).1 h4, (keyPrinted_lt (fun s => portPrinted_iff s _ h.outPort) _).1 h5,
      (keyPrinted_iff groupPrinted_iff _ _ _).1 h6, (keyPrinted_iff hD _ _ _).1 h7, (keyPrinted_iff hD _ _ _).1 h8]
  · rintro rfl
    exact .mk _ _ _ _ _ _ _ _ ((cookiePrinted_iff _ _ _).2 rfl) ((keyPrinted_iff hD _ _ _).2 rfl) ((keyPrinted_iff hD _ _ _).2 rfl)
      ((keyPrinted_iff (hexShown_iff 0) _ _ _).2 rfl) ((keyPrinted_lt (fun s => portPrinted_iff s _ h.outPort) _).2 rfl)
      ((keyPrinted_iff groupPrinted_iff _ _ _).2 rfl) ((keyPrinted_iff hD _ _ _).2 rfl) ((keyPrinted_iff hD _ _ _).2 rfl)

theorem mod_parts (m : RawMod) (h : m.Fits) (r : Bytes) : mod2str (m.wire ++ r) =
    if m.mtype = 1 then (oxm2str (slice (m.wire ++ r) 52 (52 + m.mlen - 4)) >>= fun rstr =>
      inst2str (slice (m.wire ++ r) (48 + align8 m.mlen) m.len) >>= fun istr =>
      .ok (joinStr t!"," (modToks m ++ (optTok rstr ++ optTok istr)))) else .error .valueError := by
  have hl := rawMod_length m h
  obtain ⟨h1, h2, h3, h4, h5, h6, h7, h8, h9, h10, h11, h12, h13, h14⟩ := rawMod_at m h r
  have hl' : 52 ≤ (m.wire ++ r).length := by rw [List.length_append]; omega
  generalize m.wire ++ r = w at *
  unfold mod2str
  rw [need_ok _ _ _ (by omega), ok_bind]
  dsimp only
  rw [h1, h2, h3, h4, h5, h6, h7, h8, h9, h10, h11, h12, h13, h14]
  by_cases c : m.mtype = 1
  · have c' : (m.mtype == OFPMT_OXM) = true := by rw [c]; rfl
    rw [if_pos c, if_pos c']
    rfl
  · have c' : ¬ (m.mtype == OFPMT_OXM) = true := by rw [beq_iff_eq]; exact c
    rw [if_neg c, if_neg c']

theorem cut_mod (b : Bytes) (h : 52 ≤ b.length) : ∃ (m : RawMod) (r : Bytes), m.Fits ∧ b = m.wire ++ r := by
  obtain ⟨v, t, r, rfl⟩ := cut8 b (by omega)
  simp only [List.length_cons] at h
  obtain ⟨len, r, h1, rfl⟩ := cut16 r (by omega)
  rw [List.length_append, u16_length] at h
  obtain ⟨xid, r, h2, rfl⟩ := cut32 r (by omega)
  rw [List.length_append, u32_length] at h
  obtain ⟨ck, r, h3, rfl⟩ := cut64 r (by omega)
  rw [List.length_append, u64_length] at h
  obtain ⟨mk, r, h4, rfl⟩ := cut64 r (by omega)
  rw [List.length_append, u64_length] at h
  obtain ⟨tb, cmd, r, rfl⟩ := cut8 r (by omega)
  simp only [List.length_cons] at h
  obtain ⟨idle, r, h5, rfl⟩ := cut16 r (by omega)
  rw [List.length_append, u16_length] at h
  obtain ⟨hard, r, h6, rfl⟩ := cut16 r (by omega)
  rw [List.length_append, u16_length] at h
  obtain ⟨prio, r, h7, rfl⟩ := cut16 r (by omega)
  rw [List.length_append, u16_length] at h
  obtain ⟨buf, r, h8, rfl⟩ := cut32 r (by omega)
  rw [List.length_append, u32_length] at h
  obtain ⟨op, r, h9, rfl⟩ := cut32 r (by omega)
  rw [List.length_append, u32_length] at h
  obtain ⟨og, r, h10, rfl⟩ := cut32 r (by omega)
  rw [List.length_append, u32_length] at h
  obtain ⟨fl, r, h11, rfl⟩ := cut16 r (by omega)
  rw [List.length_append, u16_length] at h
  obtain ⟨x, r, h12, rfl⟩ := cut_list 2 r (by omega)
  rw [List.length_append, h12] at h
  obtain ⟨mt, r, h13, rfl⟩ := cut16 r (by omega)
  rw [List.length_append, u16_length] at h
  obtain ⟨ml, r, h14, rfl⟩ := cut16 r (by omega)
  refine ⟨⟨v, t, len, xid, ck, mk, tb, cmd, idle, hard, prio, buf, op, og, fl, x, mt, ml⟩, r,
    ⟨h1, h2, h3, h4, h5, h6, h7, h8, h9, h10, h11, h12, h13, h14⟩, ?_⟩
  rw [rawMod_flat]

theorem outcome_mod (b : Bytes) : OutcomeOf (mod2str b) (ModPrinted b) (ModFails b) := by
  refine ⟨?_, ?_, ?_⟩
  · intro s h
    cases h with
    | mk m r ks ts h1 h2 h3 h4 =>
      rw [mod_parts m h1 r, if_pos h2, (modKeys_iff m h1 ks).1 h3]
      exact (outcome_rule _ m.len m.mlen (modToks m) (joinStr t!",")).1 _ ⟨ts, h4, rfl⟩
  · intro e h
    cases h with
    | short h =>
      unfold mod2str
      rw [need_err _ _ _ (by omega), err_bind]
    | mtype m r h1 h2 => rw [mod_parts m h1 r, if_neg h2]
    | rule m r _ h1 h2 h3 =>
      rw [mod_parts m h1 r, if_pos h2]
      exact (outcome_rule _ m.len m.mlen (modToks m) (joinStr t!",")).2.1 _ h3
  · by_cases hl : b.length < 52
    · exact Or.inr ⟨_, .short b hl⟩
    · obtain ⟨m, r, hm, rfl⟩ := cut_mod b (by omega)
      by_cases c : m.mtype = 1
      · rcases (outcome_rule (m.wire ++ r) m.len m.mlen [] (joinStr t!",")).2.2 with ⟨s, ts, h, _⟩ | ⟨e, h⟩
        · exact Or.inl ⟨_, .mk m r _ ts hm c ((modKeys_iff m hm _).2 rfl) h⟩
        · exact Or.inr ⟨e, .rule m r e hm c h⟩
      · exact Or.inr ⟨_, .mtype m r hm c⟩

end Ofpstr
