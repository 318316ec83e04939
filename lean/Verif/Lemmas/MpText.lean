import Verif.Spec.MpText
import Verif.Lemmas.RuleText
import Verif.Props.Multipart
import Verif.Lemmas.MpLines

/-!
# Lemmas: exactly which texts are multipart messages
-/

set_option linter.unusedSimpArgs false

namespace Ofpstr
open Spec

/-! ## Lines -/

theorem lineList_join (ls : List Str) : lineList ls = joinStr ['\n'] ls := by
  induction ls with
  | nil => rfl
  | cons t ts ih =>
    cases ts with
    | nil => rfl
    | cons u us => rw [lineList, joinStr, ih]; simp

theorem textLines_iff (txt : Str) (ls : List Str) : TextLines txt ls ↔ splitAll '\n' txt = ls := by
  unfold TextLines
  rw [lineList_join]
  constructor
  · rintro ⟨h1, h2, rfl⟩
    exact splitAll_join '\n' ls h1 (fun p hp x hx e => h2 p hp (e ▸ hx))
  · intro h
    obtain ⟨h1, h2⟩ := splitAll_eq '\n' txt ls h
    exact ⟨h ▸ splitAll_ne_nil '\n' txt, h1, h2⟩

theorem mpMessage_iff (t x : Int) (k : Nat) (cap m : Bytes) (hk : k < 256 ^ 2) :
    mpMessage t x k cap = .ok m ↔ MpFits t x cap ∧ m = mpWire t.toNat x.toNat k 0 cap := by
  constructor
  · intro h
    obtain ⟨-, h1, h2, h3⟩ := mpMessage_inv h
    rw [mpMessage_fit t x k cap h1 h2 hk h3] at h
    cases h
    exact ⟨⟨h1, h2, h3⟩, rfl⟩
  · rintro ⟨⟨h1, h2, h3⟩, rfl⟩
    exact mpMessage_fit t x k cap h1 h2 hk h3

theorem packLines_iff (bs : List Bytes) (out : Bytes) :
    packLines [] bs = .ok out ↔ 16 + bs.flatten.length < 65536 ∧ out = bs.flatten := by
  rw [packLines_eq bs [] (by simp)]
  split
  · rename_i h
    simp only [List.length_nil, Nat.zero_add] at h
    simp only [List.nil_append, Except.ok.injEq]
    exact ⟨fun e => ⟨by omega, e.symm⟩, fun e => e.2.symm⟩
  · rename_i h
    simp only [List.length_nil, Nat.zero_add] at h
    constructor
    · intro e; cases e
    · intro e; exact absurd e.1 (by omega)

theorem descGo_iff (ls : List Str) (cap out : Bytes) : descGo cap ls = .ok out ↔
    ∃ bs, List.Forall₂ (fun l b => descBody l = .ok b) ls bs ∧ packLines cap bs = .ok out := by
  constructor
  · intro h
    induction ls generalizing cap with
    | nil => exact ⟨[], .nil, h⟩
    | cons l ls ih =>
      rw [descGo] at h
      obtain ⟨b, h1, h⟩ := bind_iff.1 h
      obtain ⟨c, h2, h⟩ := bind_iff.1 h
      obtain ⟨bs, h3, h4⟩ := ih c h
      refine ⟨b :: bs, .cons h1 h3, ?_⟩
      rw [packLines, h2]
      exact h4
  · rintro ⟨bs, h1, h2⟩
    rw [descGo_lines h1, h2]

theorem mpgroupGo_iff (ls : List Str) (cap out : Bytes) : mpgroupGo 19 cap ls = .ok out ↔
    ∃ bs, List.Forall₂ (fun l b => ∃ g r, statGroupHead (l.length + 1) 0 l = .ok (g, r) ∧ groupStatBody g r = .ok b) ls bs ∧
      packLines cap bs = .ok out := by
  constructor
  · intro h
    induction ls generalizing cap with
    | nil => exact ⟨[], .nil, h⟩
    | cons l ls ih =>
      rw [mpgroupGo] at h
      obtain ⟨⟨g, r⟩, h0, h⟩ := bind_iff.1 h
      dsimp only at h
      rw [if_neg (by decide)] at h
      obtain ⟨b, h1, h⟩ := bind_iff.1 h
      obtain ⟨c, h2, h⟩ := bind_iff.1 h
      obtain ⟨bs, h3, h4⟩ := ih c h
      refine ⟨b :: bs, .cons ⟨g, r, h0, h1⟩ h3, ?_⟩
      rw [packLines, h2]
      exact h4
  · rintro ⟨bs, h1, h2⟩
    rw [mpgroupGo_lines h1, h2]

theorem mpflowGo_iff (type : Int) (ls : List Str) (cap out : Bytes) :
    (∃ rules, parseStats ls = .ok rules ∧ mpflowGo type cap rules = .ok out) ↔
    ∃ bs, List.Forall₂ (fun l b => ∃ c i, parseStat l = .ok (c, i) ∧ statBody type c i = .ok b) ls bs ∧ packLines cap bs = .ok out := by
  constructor
  · rintro ⟨rules, h0, h⟩
    induction ls generalizing cap rules with
    | nil => cases h0; exact ⟨[], .nil, h⟩
    | cons l ls ih =>
      rw [parseStats] at h0
      obtain ⟨⟨c, i⟩, h1, h0⟩ := bind_iff.1 h0
      obtain ⟨rs, h2, h0⟩ := bind_iff.1 h0
      cases h0
      rw [mpflowGo] at h
      obtain ⟨b, h3, h⟩ := bind_iff.1 h
      obtain ⟨cap', h4, h⟩ := bind_iff.1 h
      obtain ⟨bs, h5, h6⟩ := ih cap' rs h2 h
      refine ⟨b :: bs, .cons ⟨c, i, h1, h3⟩ h5, ?_⟩
      rw [packLines, h4]
      exact h6
  · rintro ⟨bs, h1, h2⟩
    obtain ⟨rules, h3, h4⟩ := mpflowGo_lines h1
    exact ⟨rules, h3, by rw [h4, h2]⟩

/-- From lines and bytes to lines and entries. -/
theorem forall₂_entries {ε : Type} {R : Str → Bytes → Prop} {Q : Str → ε → Prop} {w : ε → Bytes}
    (h : ∀ l b, R l b ↔ ∃ e, Q l e ∧ b = w e) (ls : List Str) (bs : List Bytes) :
    List.Forall₂ R ls bs ↔ ∃ es, List.Forall₂ Q ls es ∧ bs = es.map w := by
  constructor
  · intro hf
    induction hf with
    | nil => exact ⟨[], .nil, rfl⟩
    | cons h1 _ ih =>
      obtain ⟨e, h2, rfl⟩ := (h _ _).1 h1
      obtain ⟨es, h3, rfl⟩ := ih
      exact ⟨e :: es, .cons h2 h3, rfl⟩
  · rintro ⟨es, hf, rfl⟩
    induction hf with
    | nil => exact .nil
    | cons h1 _ ih => exact .cons ((h _ _).2 ⟨_, h1, rfl⟩) ih

theorem forall₂_split {ε : Type} {Q : Str → ε → Prop} {P : ε → Prop} (ls : List Str) (es : List ε) :
    List.Forall₂ (fun l e => Q l e ∧ P e) ls es ↔ List.Forall₂ Q ls es ∧ ∀ e ∈ es, P e := by
  constructor
  · intro hf
    induction hf with
    | nil => exact ⟨.nil, by simp⟩
    | cons h1 _ ih => exact ⟨.cons h1.1 ih.1, by simpa using ⟨h1.2, ih.2⟩⟩
  · rintro ⟨hf, hp⟩
    induction hf with
    | nil => exact .nil
    | cons h1 _ ih =>
      exact .cons ⟨h1, hp _ (by simp)⟩ (ih fun e he => hp e (by simp [he]))

theorem mem_flatten_len {bs : List Bytes} {b : Bytes} (h : b ∈ bs) : b.length ≤ bs.flatten.length := by
  rw [List.length_flatten]
  exact List.single_le_sum (by simp) _ (List.mem_map.2 ⟨b, h, rfl⟩)

/-! ## Counters -/

theorem numArg_iff (s r : Str) (n : Int) : procArg s = .ok (n, r) ↔ NumArg s n r := procArg_iff s r n

theorem numArg_shorter {s r : Str} {n : Int} (h : NumArg s n r) : r.length ≤ s.length := by
  obtain ⟨op, p, h1, -⟩ := h
  exact tok_length h1

theorem countOf_append (name : Str) (l : List (Str × Int)) (e : Str × Int) :
    countOf name (l ++ [e]) = if e.1 = name then e.2 else countOf name l := by
  unfold countOf
  rw [List.filter_append, List.map_append]
  by_cases h : e.1 = name
  · simp [h]
  · simp [h]

/-- The counters of a list. -/
def setCounts (c : Counters) (l : List (Str × Int)) : Counters :=
  l.foldl (fun c e =>
    if e.1 = t!"packet_count" then { c with packetCount := some e.2 }
    else if e.1 = t!"byte_count" then { c with byteCount := some e.2 }
    else if e.1 = t!"duration_sec" then { c with durationSec := some e.2 }
    else if e.1 = t!"duration_nsec" then { c with durationNsec := some e.2 }
    else if e.1 = t!"ref_count" then { c with refCount := some e.2 }
    else c) c

theorem setCounts_get (l : List (Str × Int)) : (setCounts {} l).packetCount.getD 0 = countOf t!"packet_count" l ∧
    (setCounts {} l).byteCount.getD 0 = countOf t!"byte_count" l ∧ (setCounts {} l).durationSec.getD 0 = countOf t!"duration_sec" l ∧
    (setCounts {} l).durationNsec.getD 0 = countOf t!"duration_nsec" l ∧ (setCounts {} l).refCount.getD 0 = countOf t!"ref_count" l := by
  induction l using List.reverseRecOn with
  | nil => decide
  | append_singleton l e ih =>
    obtain ⟨h1, h2, h3, h4, h5⟩ := ih
    have hs : setCounts {} (l ++ [e]) = setCounts (setCounts {} l) [e] := by simp [setCounts]
    rw [hs]
    simp only [countOf_append, ← h1, ← h2, ← h3, ← h4, ← h5]
    generalize setCounts {} l = c
    obtain ⟨name, n⟩ := e
    simp only [setCounts, List.foldl_cons, List.foldl_nil]
    by_cases e1 : name = t!"packet_count"
    · subst e1; simp
    by_cases e2 : name = t!"byte_count"
    · subst e2; simp
    by_cases e3 : name = t!"duration_sec"
    · subst e3; simp
    by_cases e4 : name = t!"duration_nsec"
    · subst e4; simp
    by_cases e5 : name = t!"ref_count"
    · subst e5; simp
    simp [e1, e2, e3, e4, e5]

theorem countersGo_tok {s h name t : Str} (hs : s ≠ []) (ht : Tok s h name t) (hn : name ∈ flowCounters) (fuel : Nat) (c : Counters) :
    countersGo (fuel + 1) c s = (do
      let (n, u) ← procArg t
      countersGo fuel (setCounts c [(name, n)]) u) := by
  rw [countersGo, if_neg (by simpa using hs), (getToken_iff _ _ _ _).2 ht]
  dsimp only
  simp only [flowCounters, List.mem_cons, List.not_mem_nil, or_false] at hn
  rcases hn with rfl | rfl | rfl | rfl <;> rfl

theorem countersGo_other {s h name t : Str} (hs : s ≠ []) (ht : Tok s h name t) (hn : name ∉ flowCounters) (fuel : Nat) (c : Counters) :
    countersGo (fuel + 1) c s = .ok (c, s) := by
  rw [countersGo, if_neg (by simpa using hs), (getToken_iff _ _ _ _).2 ht]
  dsimp only
  simp only [flowCounters, List.mem_cons, List.not_mem_nil, or_false, not_or] at hn
  obtain ⟨h1, h2, h3, h4⟩ := hn
  rw [if_neg (by simpa using h1), if_neg (by simpa using h2), if_neg (by simpa using h3), if_neg (by simpa using h4)]

theorem countersGo_iff (fuel : Nat) (c : Counters) (s : Str) (hf : s.length < fuel) (c' : Counters) (r : Str) :
    countersGo fuel c s = .ok (c', r) ↔ ∃ l, CountText flowCounters l s r ∧ c' = setCounts c l := by
  induction fuel generalizing c s with
  | zero => omega
  | succ fuel ih =>
    by_cases hs : s = []
    · subst hs
      have e : countersGo (fuel + 1) c [] = .ok (c, []) := rfl
      rw [e]
      constructor
      · intro h; cases h; exact ⟨[], .nil, rfl⟩
      · rintro ⟨l, h1, rfl⟩
        cases h1 with
        | nil => rfl
        | stop => rfl
        | cons _ _ _ _ _ _ _ _ h => exact absurd rfl h
    · obtain ⟨h, name, t, ht⟩ : ∃ h name t, Tok s h name t := ⟨_, _, _, (getToken_iff _ _ _ _).1 rfl⟩
      by_cases hn : name ∈ flowCounters
      · rw [countersGo_tok hs ht hn, bind_iff]
        have hl := tok_progress hs ht
        constructor
        · rintro ⟨⟨n, u⟩, h1, h2⟩
          rw [numArg_iff] at h1
          have := numArg_shorter h1
          obtain ⟨l, h3, h4⟩ := (ih _ u (by omega)).1 h2
          exact ⟨(name, n) :: l, .cons s h name t n u l r hs ht hn h1 h3, by rw [h4]; rfl⟩
        · rintro ⟨l, h1, rfl⟩
          cases h1 with
          | nil => exact absurd rfl hs
          | stop _ h' name' t' ht' hn' => exact absurd ((tok_det ht ht').2.1 ▸ hn) hn'
          | cons _ h' name' t' n u l _ _ ht' hn' h1 h2 =>
            obtain ⟨-, rfl, rfl⟩ := tok_det ht ht'
            have := numArg_shorter h1
            exact ⟨(n, u), (numArg_iff _ _ _).2 h1, (ih _ u (by omega)).2 ⟨l, h2, rfl⟩⟩
      · rw [countersGo_other hs ht hn]
        constructor
        · intro e; cases e; exact ⟨[], .stop _ h name t ht hn, rfl⟩
        · rintro ⟨l, h1, rfl⟩
          cases h1 with
          | nil => rfl
          | stop => rfl
          | cons _ h' name' t' n u l _ _ ht' hn' h1 h2 => exact absurd ((tok_det ht ht').2.1 ▸ hn') hn

/-! ## Flow statistics -/

theorem str2dict_iff (s : Str) (i : Info) : str2dict s = .ok i ↔
    ∃ ws, RuleText s ws ∧ (∀ j ∈ instsOf ws, j.Fits) ∧ i = infoAfter {} ws (instsOf ws) := by
  simp only [RuleText, ← readsWords_len]
  constructor
  · intro h
    obtain ⟨ws, h1, h2⟩ := str2dict_inv h
    rw [str2dict_words h1 h2] at h
    unfold guardFits at h
    split at h
    · rename_i h3; cases h; exact ⟨ws, ⟨h1, h2⟩, h3, rfl⟩
    · cases h
  · rintro ⟨ws, ⟨h1, h2⟩, h3, rfl⟩
    rw [str2dict_words h1 h2, guard_pos h3]

theorem parseStat_iff (s : Str) (c : Counters) (i : Info) : parseStat s = .ok (c, i) ↔
    ∃ e, StatLine s e ∧ (∀ j ∈ instsOf e.2, j.Fits) ∧ c = setCounts {} e.1 ∧ i = infoAfter {} e.2 (instsOf e.2) := by
  unfold parseStat
  rw [bind_iff]
  constructor
  · rintro ⟨⟨c', r⟩, h1, h2⟩
    obtain ⟨i', h3, h4⟩ := bind_iff.1 h2
    cases h4
    obtain ⟨l, h5, h6⟩ := (countersGo_iff _ _ _ (by omega) _ _).1 h1
    obtain ⟨ws, h7, h8, h9⟩ := (str2dict_iff _ _).1 h3
    exact ⟨(l, ws), ⟨r, h5, h7⟩, h8, h6, h9⟩
  · rintro ⟨⟨l, ws⟩, ⟨r, h1, h2⟩, h3, rfl, rfl⟩
    refine ⟨(setCounts {} l, r), (countersGo_iff _ _ _ (by omega) _ _).2 ⟨l, h1, rfl⟩, ?_⟩
    dsimp only
    rw [(str2dict_iff _ _).2 ⟨ws, h2, h3, rfl⟩, ok_bind]

theorem packMatch_iff (oxm m : Bytes) : packMatch oxm = .ok m ↔ 4 + oxm.length < 65536 ∧ m = matchWire oxm := by
  by_cases h : 4 + oxm.length < 65536
  · rw [packMatch_fit oxm h]
    exact ⟨fun e => by cases e; exact ⟨h, rfl⟩, fun e => by rw [e.2]⟩
  · rw [packMatch_unfit oxm h]
    constructor
    · intro e; cases e
    · intro e; exact absurd e.1 h

/-- The sizes of a line. -/
def LineShort (type : Int) (e : List (Str × Int) × List Word) : Prop :=
  4 + (oxmOf e.2).length < 65536 ∧ (type = 19 → 48 + (statTail e.2).length < 65536)

theorem statBody_req (type : Int) (ht : type ≠ 19) (l : List (Str × Int)) (ws : List Word) (b : Bytes) :
    statBody type (setCounts {} l) (infoAfter {} ws (instsOf ws)) = .ok b ↔
    ((reqOf ws).Fits ∧ 4 + (oxmOf ws).length < 65536) ∧ b = (reqOf ws).wire (oxmOf ws) := by
  unfold statBody infoAfter
  dsimp only
  simp only [Option.or_none, List.nil_append]
  rw [bind_iff]
  have hb : (type != OFPT_MULTIPART_REPLY) = true := bne_iff_ne.2 ht
  constructor
  · rintro ⟨m, h1, h⟩
    rw [packMatch_iff] at h1
    obtain ⟨h1, rfl⟩ := h1
    rw [if_pos hb] at h
    obtain ⟨t, h2, h⟩ := bind_iff.1 h
    obtain ⟨x, h3, h⟩ := bind_iff.1 h
    obtain ⟨y, h4, h⟩ := bind_iff.1 h
    obtain ⟨f2, rfl⟩ := (packU_packed _ _ _).1 h2
    obtain ⟨f3, rfl⟩ := (packed_iff _ _).1 h3
    obtain ⟨f4, rfl⟩ := (packed_iff _ _).1 h4
    cases h
    refine ⟨⟨⟨f2 (1, _) (.head _), f3 (4, _) (.head _), ?_, f4 (8, _) (.head _), ?_⟩, h1⟩, ?_⟩
    · exact f3 (4, _) (List.mem_cons_of_mem _ (List.mem_cons_self))
    · exact f4 (8, _) (List.mem_cons_of_mem _ (List.mem_cons_self))
    · simp only [FlowReq.wire, reqOf, u8, u32, u64, List.flatMap_cons, List.flatMap_nil, List.append_nil, List.append_assoc]
      rfl
  · rintro ⟨⟨⟨q1, q2, q3, q4, q5⟩, h1⟩, rfl⟩
    refine ⟨_, (packMatch_iff _ _).2 ⟨h1, rfl⟩, ?_⟩
    rw [if_pos hb]
    refine bind_iff.2 ⟨_, (packU_packed _ _ _).2 ⟨?_, rfl⟩, ?_⟩
    · intro e he
      simp only [List.mem_cons, List.not_mem_nil, or_false] at he
      subst he; exact q1
    refine bind_iff.2 ⟨_, (packed_iff _ _).2 ⟨?_, rfl⟩, ?_⟩
    · intro e he
      simp only [List.mem_cons, List.not_mem_nil, or_false] at he
      rcases he with rfl | rfl
      · exact q2
      · exact q3
    refine bind_iff.2 ⟨_, (packed_iff _ _).2 ⟨?_, rfl⟩, ?_⟩
    · intro e he
      simp only [List.mem_cons, List.not_mem_nil, or_false] at he
      rcases he with rfl | rfl
      · exact q4
      · exact q5
    simp only [FlowReq.wire, reqOf, u8, u32, u64, List.flatMap_cons, List.flatMap_nil, List.append_nil, List.append_assoc]
    rfl

theorem statBody_reply (l : List (Str × Int)) (ws : List Word) (hw : ∀ i, Word.flag i ∈ ws → i < 5) (b : Bytes) :
    statBody 19 (setCounts {} l) (infoAfter {} ws (instsOf ws)) = .ok b ↔
    (StatFits l ws ∧ 4 + (oxmOf ws).length < 65536 ∧ 48 + (statTail ws).length < 65536) ∧ b = statOf l ws := by
  obtain ⟨c1, c2, c3, c4, -⟩ := setCounts_get l
  have hfl := flagFold_eq hw
  have hf2 : flagsOf ws < 256 ^ 2 := lt_of_lt_of_le (flagsOf_lt ws) (by decide)
  unfold statBody infoAfter
  dsimp only
  simp only [Option.or_none, List.nil_append]
  rw [c1, c2, c3, c4, hfl, bind_iff]
  have hlen : ((48 : Int) + ((matchWire (oxmOf ws)).length : Int) + (((instsOf ws).flatMap Inst.wire).length : Int)) =
      ((48 + (statTail ws).length : Nat) : Int) := by
    unfold statTail instBytes
    rw [List.length_append]; push_cast; omega
  constructor
  · rintro ⟨m, h1, h⟩
    rw [packMatch_iff] at h1
    obtain ⟨h1, rfl⟩ := h1
    rw [if_neg (by decide), hlen] at h
    obtain ⟨t, h2, h⟩ := bind_iff.1 h
    obtain ⟨x, h3, h⟩ := bind_iff.1 h
    obtain ⟨y, h4, h⟩ := bind_iff.1 h
    obtain ⟨f2, rfl⟩ := (packed_iff _ _).1 h2
    obtain ⟨f3, rfl⟩ := (packed_iff _ _).1 h3
    obtain ⟨f4, rfl⟩ := (packed_iff _ _).1 h4
    cases h
    refine ⟨⟨⟨?_, ?_, ?_, ?_, ?_, ?_, ?_, ?_, ?_⟩, h1, ?_⟩, ?_⟩
    · exact f2 (1, _) (.tail _ (.head _))
    · exact f3 (4, _) (.head _)
    · exact f3 (4, _) (.tail _ (.head _))
    · exact f3 (2, _) (.tail _ (.tail _ (.head _)))
    · exact f3 (2, _) (.tail _ (.tail _ (.tail _ (.head _))))
    · exact f3 (2, _) (.tail _ (.tail _ (.tail _ (.tail _ (.head _)))))
    · exact f4 (8, _) (.head _)
    · exact f4 (8, _) (.tail _ (.head _))
    · exact f4 (8, _) (.tail _ (.tail _ (.head _)))
    · exact (fitsIn2 _).1 (f2 (2, _) (.head _))
    · simp only [statOf, statTail, instBytes, keyOf, u8, u16, u32, u64, List.flatMap_cons, List.flatMap_nil, List.append_nil, List.append_assoc]
      rfl
  · rintro ⟨⟨⟨q1, q2, q3, q4, q5, q6, q7, q8, q9⟩, h1, h2⟩, rfl⟩
    refine ⟨_, (packMatch_iff _ _).2 ⟨h1, rfl⟩, ?_⟩
    rw [if_neg (by decide), hlen]
    refine bind_iff.2 ⟨_, (packed_iff _ _).2 ⟨?_, rfl⟩, ?_⟩
    · intro e he
      simp only [List.mem_cons, List.not_mem_nil, or_false] at he
      rcases he with rfl | rfl
      · exact (fitsIn2 _).2 h2
      · exact q1
    refine bind_iff.2 ⟨_, (packed_iff _ _).2 ⟨?_, rfl⟩, ?_⟩
    · intro e he
      simp only [List.mem_cons, List.not_mem_nil, or_false] at he
      rcases he with rfl | rfl | rfl | rfl | rfl | rfl
      · exact q2
      · exact q3
      · exact q4
      · exact q5
      · exact q6
      · exact fitsIn_cast hf2
    refine bind_iff.2 ⟨_, (packed_iff _ _).2 ⟨?_, rfl⟩, ?_⟩
    · intro e he
      simp only [List.mem_cons, List.not_mem_nil, or_false] at he
      rcases he with rfl | rfl | rfl
      · exact q7
      · exact q8
      · exact q9
    simp only [statOf, statTail, instBytes, keyOf, u8, u16, u32, u64, List.flatMap_cons, List.flatMap_nil, List.append_nil, List.append_assoc]
    rfl

theorem statLine_iff (type : Int) (s : Str) (b : Bytes) : (∃ c i, parseStat s = .ok (c, i) ∧ statBody type c i = .ok b) ↔
    ∃ e, (StatLine s e ∧ LineFits type e ∧ LineShort type e) ∧ b = lineOf type e := by
  constructor
  · rintro ⟨c, i, h1, h2⟩
    obtain ⟨⟨l, ws⟩, h3, h4, rfl, rfl⟩ := (parseStat_iff _ _ _).1 h1
    refine ⟨(l, ws), ?_⟩
    by_cases ht : type = 19
    · subst ht
      obtain ⟨r, -, h5, -⟩ := id h3
      rw [← readsWords_len] at h5
      obtain ⟨⟨h6, h7, h8⟩, rfl⟩ := (statBody_reply _ _ (reads_flags h5) _).1 h2
      exact ⟨⟨h3, ⟨h4, by rw [if_pos rfl]; exact h6⟩, h7, fun _ => h8⟩, by rw [lineOf, if_pos rfl]⟩
    · obtain ⟨⟨h6, h7⟩, rfl⟩ := (statBody_req type ht _ _ _).1 h2
      exact ⟨⟨h3, ⟨h4, by rw [if_neg ht]; exact h6⟩, h7, fun e => absurd e ht⟩, by rw [lineOf, if_neg ht]⟩
  · rintro ⟨⟨l, ws⟩, ⟨h3, ⟨h4, h6⟩, h7, h8⟩, rfl⟩
    refine ⟨_, _, (parseStat_iff _ _ _).2 ⟨(l, ws), h3, h4, rfl, rfl⟩, ?_⟩
    by_cases ht : type = 19
    · subst ht
      obtain ⟨r, -, h5, -⟩ := id h3
      rw [← readsWords_len] at h5
      rw [if_pos rfl] at h6
      exact (statBody_reply _ _ (reads_flags h5) _).2 ⟨⟨h6, h7, h8 rfl⟩, by rw [lineOf, if_pos rfl]⟩
    · rw [if_neg ht] at h6
      exact (statBody_req type ht _ _ _).2 ⟨⟨h6, h7⟩, by rw [lineOf, if_neg ht]⟩

theorem lineOf_short (type : Int) (e : List (Str × Int) × List Word) (h : 16 + (lineOf type e).length < 65536) : LineShort type e := by
  have ha := align8_facts (4 + (oxmOf e.2).length)
  unfold lineOf at h
  refine ⟨?_, ?_⟩
  · split at h
    · simp only [statOf, statTail, List.length_append, u8_length, u16_length, u32_length, u64_length, pad_length, matchWire_length] at h
      omega
    · simp only [FlowReq.wire, List.length_append, u8_length, u32_length, u64_length, pad_length, matchWire_length] at h
      omega
  · intro ht
    rw [if_pos ht] at h
    simp only [statOf, List.length_append, u8_length, u16_length, u32_length, u64_length, pad_length] at h ⊢
    omega

theorem text2mpflow_iff (txt : Str) (type xid : Int) (m : Bytes) : text2mpflow txt type xid = .ok m ↔
    ∃ ls es, TextLines txt ls ∧ List.Forall₂ StatLine ls es ∧ (∀ e ∈ es, LineFits type e) ∧
      MpFits type xid (es.flatMap (lineOf type)) ∧ m = mpWire type.toNat xid.toNat 1 0 (es.flatMap (lineOf type)) := by
  simp only [textLines_iff]
  have key : text2mpflow txt type xid = .ok m ↔ ∃ cap, (∃ rules, parseStats (splitAll '\n' txt) = .ok rules ∧ mpflowGo type [] rules = .ok cap) ∧
      mpMessage type xid OFPMP_FLOW cap = .ok m := by
    unfold text2mpflow
    rw [bind_iff]
    constructor
    · rintro ⟨rules, h1, h⟩
      obtain ⟨cap, h2, h⟩ := bind_iff.1 h
      exact ⟨cap, ⟨rules, h1, h2⟩, h⟩
    · rintro ⟨cap, ⟨rules, h1, h2⟩, h⟩
      exact ⟨rules, h1, bind_iff.2 ⟨cap, h2, h⟩⟩
  rw [key]
  constructor
  · rintro ⟨cap, h1, h2⟩
    obtain ⟨bs, h3, h4⟩ := (mpflowGo_iff _ _ _ _).1 h1
    obtain ⟨es, h5, rfl⟩ := (forall₂_entries (statLine_iff type) _ _).1 h3
    obtain ⟨h6, h7⟩ := (forall₂_split _ _).1 h5
    obtain ⟨-, rfl⟩ := (packLines_iff _ _).1 h4
    obtain ⟨h8, rfl⟩ := (mpMessage_iff _ _ _ _ _ (by decide)).1 h2
    rw [← List.flatMap_def] at h8 ⊢
    exact ⟨_, es, rfl, h6, fun e he => (h7 e he).1, h8, rfl⟩
  · rintro ⟨_, es, rfl, h1, h2, h3, rfl⟩
    rw [List.flatMap_def] at h3 ⊢
    refine ⟨(es.map (lineOf type)).flatten, (mpflowGo_iff _ _ _ _).2 ⟨es.map (lineOf type), ?_, ?_⟩, (mpMessage_iff _ _ _ _ _ (by decide)).2 ⟨h3, rfl⟩⟩
    · refine (forall₂_entries (statLine_iff type) _ _).2 ⟨es, (forall₂_split _ _).2 ⟨h1, fun e he => ⟨h2 e he, lineOf_short type e ?_⟩⟩, rfl⟩
      have := mem_flatten_len (List.mem_map.2 ⟨e, he, rfl⟩ : lineOf type e ∈ es.map (lineOf type))
      have := h3.2.2
      omega
    · exact (packLines_iff _ _).2 ⟨h3.2.2, rfl⟩

end Ofpstr
