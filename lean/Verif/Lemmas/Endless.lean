import Verif.Props.MatchPrint
import Verif.Props.MsgPrint
import Verif.Spec.Endless

/-! # Lemmas: the bytes that are printed for ever -/

set_option linter.unusedSimpArgs false

namespace Ofpstr
open Spec

theorem hang_parts {α : Type} {least : Nat} {len : Bytes → Nat} {P : Bytes → α → Prop} {F : Bytes → Err → Prop} (b : Bytes) :
    PartsFail least len P F b .loops ↔ ∃ c, Reach least len (fun b => ∃ x, P b x) b c ∧ least ≤ c.length ∧
      (((∃ x, P c x) ∧ len c = 0) ∨ F c .loops) := by
  constructor
  · intro h
    generalize he : Err.loops = e at h
    induction h with
    | now b e h1 h2 => subst he; exact ⟨b, .here b, h1, Or.inr h2⟩
    | stuck b x h1 h2 h3 => exact ⟨b, .here b, h1, Or.inl ⟨⟨x, h2⟩, h3⟩⟩
    | later b x e h1 h2 h3 h4 ih =>
      obtain ⟨c, hc, h⟩ := ih he
      exact ⟨c, .next b c h1 ⟨x, h2⟩ h3 hc, h⟩
  · rintro ⟨c, hc, h1, h⟩
    induction hc with
    | here b =>
      rcases h with ⟨⟨x, h2⟩, h3⟩ | h
      · exact .stuck b x h1 h2 h3
      · exact .now b _ h1 h
    | next b c h1' h2 h3 h4 ih =>
      obtain ⟨x, hx⟩ := h2
      exact .later b x _ h1' hx h3 (ih h1 h)

theorem hang_acts (b : Bytes) :
    ActionsFail b .loops ↔ ∃ c, Reach 5 lenField (fun b => ∃ s, ActionText b s) b c ∧ 4 < c.length ∧
      (∃ s, ActionText c s) ∧ lenField c = 0 := by
  constructor
  · intro h
    generalize he : Err.loops = e at h
    induction h with
    | now b e h1 h2 =>
      subst he
      exact absurd ((outcome_action b (by omega)).2.1 _ h2) (ends_act2strOne b)
    | stuck b s h1 h2 h3 => exact ⟨b, .here b, h1, ⟨s, h2⟩, h3⟩
    | later b s e h1 h2 h3 h4 ih =>
      obtain ⟨c, hc, h⟩ := ih he
      exact ⟨c, .next b c h1 ⟨s, h2⟩ h3 hc, h⟩
  · rintro ⟨c, hc, h1, ⟨s, h2⟩, h3⟩
    induction hc with
    | here b => exact .stuck b s h1 h2 h3
    | next b c h1' h2' h3' h4 ih =>
      obtain ⟨x, hx⟩ := h2'
      exact .later b x _ h1' hx h3' (ih h1 h3 h2)

theorem lenField_at (t l : Nat) (hl : l < 65536) (r : Bytes) : lenField (u16 t ++ (u16 l ++ r)) = l := by
  rw [lenField_uAt _ (by simp [u16_length]; omega)]
  uat

/-- No standard action is printed without its body. -/
theorem std_empty (t : Nat) (s : Str) : ¬ StdText t [] s := by
  intro h
  generalize hp : ([] : Bytes) = p at h
  cases h with
  | output p m r s => have := congrArg List.length hp; simp [u32_length, u16_length] at this; omega
  | controller m r s => have := congrArg List.length hp; simp [u32_length, u16_length] at this; omega
  | plain a => exact absurd hp (by decide)
  | ttl a n r s => exact absurd hp (by simp)
  | word a n r s => have := congrArg List.length hp; simp [u32_length, u16_length] at this; omega
  | ether a n r s => have := congrArg List.length hp; simp [u32_length, u16_length] at this; omega

/-- Which Nicira actions are printed without a body. -/
theorem nx_empty (t : Nat) : (∃ s, NxText t [] s) ↔ t ∈ [5, 8, 17, 33] := by
  constructor
  · rintro ⟨s, h⟩
    generalize hp : ([] : Bytes) = p at h
    cases h
    case popQueue => decide
    case note => decide
    case exit => decide
    case regLoad2 => decide
    case regLoad2Short => decide
    all_goals (have := congrArg List.length hp; simp [u32_length, u16_length, u64_length, pad] at this) <;> omega
  · intro h
    simp only [List.mem_cons, List.not_mem_nil, or_false] at h
    rcases h with rfl | rfl | rfl | rfl
    · exact ⟨_, .popQueue []⟩
    · exact ⟨_, .note []⟩
    · exact ⟨_, .exit []⟩
    · exact ⟨_, .regLoad2Short [] (by decide)⟩

theorem entry_long {b : Bytes} {s : Str} (h : EntryText b s) : 4 ≤ b.length := by
  cases h <;> simp [u16_length, u32_length, show ∀ n, (u8 n).length = 1 from fun _ => rfl, fieldByte] <;> omega

theorem zero_action (c : Bytes) : ZeroAction c ↔ 4 < c.length ∧ (∃ s, ActionText c s) ∧ lenField c = 0 := by
  constructor
  · intro h
    cases h with
    | type t r h1 h2 h3 h4 h5 =>
      refine ⟨?_, ⟨_, .unknown t 0 r h1 (by omega) ?_ ?_⟩, lenField_at _ _ (by omega) _⟩
      · have := List.length_pos_iff.2 h5
        simp [u16_length]; omega
      · simp only [List.mem_cons, List.not_mem_nil, or_false, not_or]
        exact ⟨fun h => h2 (by rw [h]; decide), h3, h4⟩
      · intro a ha he
        have key : ∀ a ∈ stdActs, a.type ∈ needBody := by decide
        exact h2 (he ▸ key a ha)
    | set r s h =>
      have := entry_long h
      exact ⟨by simp [u16_length]; omega, ⟨_, .setField 0 r s (by omega) h⟩, lenField_at _ _ (by omega) _⟩
    | setShort r h h' =>
      have := List.length_pos_iff.2 h
      exact ⟨by simp [u16_length]; omega, ⟨_, .setShort 0 r (by omega) h'⟩, lenField_at _ _ (by omega) _⟩
    | vendor id r h h' =>
      exact ⟨by simp [u16_length, u32_length]; omega, ⟨_, .vendor 0 id r (by omega) h h'⟩, lenField_at _ _ (by omega) _⟩
    | nx t r h1 h2 h3 =>
      refine ⟨by simp [u16_length, u32_length]; omega, ?_, lenField_at _ _ (by omega) _⟩
      by_cases ht : ∃ a ∈ nxActs, a.2 = t
      · obtain ⟨a, ha, rfl⟩ := ht
        have key : ∀ a ∈ nxActs, a.2 ∈ needNxBody ∨ a.2 ∈ [5, 8, 17, 33] := by decide
        rcases key a ha with h | h
        · exact absurd h h2
        · obtain ⟨s, hs⟩ := (nx_empty a.2).2 h
          exact ⟨s, .nx 0 a.2 r s (by omega) h1 h3 (by simpa using hs)⟩
      · exact ⟨_, .unknownNx 0 t r (by omega) h1 h3 (fun a ha he => ht ⟨a, ha, he⟩)⟩
    | setNx r s h =>
      exact ⟨by simp [u16_length, u32_length]; omega, ⟨_, .setNx 0 r s (by omega) h⟩, lenField_at _ _ (by omega) _⟩
  · rintro ⟨h4, ⟨s, h⟩, h0⟩
    cases h with
    | output t l r s h1 h2 h3 h4' h =>
      rw [lenField_at t l h2] at h0
      subst h0
      exact absurd (by simpa using h) (std_empty t s)
    | nx l t r s h1 h2 h3 h =>
      rw [lenField_at _ l h1] at h0
      subst h0
      have := (nx_empty t).1 ⟨s, by simpa using h⟩
      refine .nx t r h2 ?_ h3
      simp only [List.mem_cons, List.not_mem_nil, or_false] at this
      rcases this with rfl | rfl | rfl | rfl <;> decide
    | setField l r s h1 h =>
      rw [lenField_at _ l h1] at h0
      subst h0
      exact .set r s h
    | setShort l r h1 h =>
      rw [lenField_at _ l h1] at h0
      subst h0
      refine .setShort r ?_ h
      rintro rfl
      simp [u16_length] at h4
    | setNx l r s h1 h =>
      rw [lenField_at _ l h1] at h0
      subst h0
      exact .setNx r s h
    | unknown t l r h1 h2 h3 h =>
      rw [lenField_at _ l h2] at h0
      subst h0
      simp only [List.mem_cons, List.not_mem_nil, or_false, not_or] at h3
      refine .type t r h1 ?_ h3.2.1 h3.2.2 ?_
      · intro hm
        have key : ∀ t ∈ needBody, t = 0 ∨ ∃ a ∈ stdActs, a.type = t := by decide
        rcases key t hm with h' | ⟨a, ha, h'⟩
        · exact h3.1 h'
        · exact h a ha h'
      · rintro rfl
        simp [u16_length] at h4
    | unknownNx l t r h1 h2 h3 h =>
      rw [lenField_at _ l h1] at h0
      subst h0
      refine .nx t r h2 ?_ h3
      intro hm
      have key : ∀ t ∈ needNxBody, ∃ a ∈ nxActs, a.2 = t := by decide
      obtain ⟨a, ha, h'⟩ := key t hm
      exact h a ha h'
    | vendor l id r h1 h2 h3 =>
      rw [lenField_at _ l h1] at h0
      subst h0
      exact .vendor id r h2 h3

theorem hang_actions (b : Bytes) : ActionsFail b .loops ↔ ActionsHang b := by
  rw [hang_acts]
  exact exists_congr fun c => and_congr Iff.rfl (zero_action c).symm

theorem reach_nil {least : Nat} {len : Bytes → Nat} {P : Bytes → Prop} {b c : Bytes} (h : Reach least len P b c) (hb : b.length < least) :
    c = b := by
  cases h with
  | here => rfl
  | next b c h1 => omega

theorem acts_short {b : Bytes} (h : b.length ≤ 4) : ¬ ActionsHang b := by
  rintro ⟨c, h1, h2⟩
  rw [reach_nil h1 (by omega)] at h2
  have := ((zero_action b).1 h2).1
  omega

/-! ## Instructions -/

theorem hang_inst (c : Bytes) (h5 : 5 ≤ c.length) :
    (((∃ ts, InstPrinted c ts) ∧ lenField c = 0) ∨ InstFails c .loops) ↔ InstHang c := by
  constructor
  · rintro (⟨⟨ts, h⟩, h0⟩ | h)
    · cases h with
      | goto n r s h => rw [lenField_at _ 8 (by omega)] at h0; omega
      | metadata x v r s h => rw [lenField_at _ 24 (by omega)] at h0; omega
      | masked x v m r s t h => rw [lenField_at _ 24 (by omega)] at h0; omega
      | acts k name l r ss h1 h2 h3 h =>
        rw [lenField_at _ l h2] at h0
        subst h0
        have : k = 3 ∨ k = 4 := by
          simp only [List.mem_cons, Prod.mk.injEq, List.not_mem_nil, or_false] at h1
          rcases h1 with ⟨h, _⟩ | ⟨h, _⟩ <;> simp [h]
        exact .zero k r (by omega) (by rcases this with rfl | rfl <;> decide)
      | clear r => rw [lenField_at _ 8 (by omega)] at h0; omega
      | meter n r s h => rw [lenField_at _ 8 (by omega)] at h0; omega
      | unknown k l r h1 h2 h3 =>
        rw [lenField_at _ l h2] at h0
        subst h0
        refine .zero k r h1 ?_
        simp only [List.mem_cons, List.not_mem_nil, or_false]
        omega
    · cases h with
      | acts k l r e h1 h2 h3 h => exact .acts k l r h1 h2 h3 ((hang_actions _).1 h)
  · intro h
    cases h with
    | zero k r h1 h2 =>
      refine Or.inl ⟨?_, lenField_at _ _ (by omega) _⟩
      by_cases h3 : k = 3 ∨ k = 4
      · have : ∃ name, (k, name) ∈ [(3, t!"@write"), (4, t!"@apply")] := by
          rcases h3 with rfl | rfl
          · exact ⟨t!"@write", by decide⟩
          · exact ⟨t!"@apply", by decide⟩
        obtain ⟨name, hn⟩ := this
        exact ⟨_, .acts k name 0 r [] hn (by omega) (by omega) (.done _ (by simp))⟩
      · refine ⟨_, .unknown k 0 r h1 (by omega) ?_⟩
        simp only [List.mem_cons, List.not_mem_nil, or_false, not_or] at h2
        omega
    | acts k l r h1 h2 h3 h => exact Or.inr (.acts k l r _ h1 h2 h3 ((hang_actions _).2 h))

theorem hang_insts (b : Bytes) : InstsFail b .loops ↔ InstsHang b := by
  unfold InstsFail InstsHang
  rw [hang_parts]
  refine exists_congr fun c => and_congr Iff.rfl ?_
  constructor
  · rintro ⟨h, h'⟩
    exact ⟨h, (hang_inst c h).1 h'⟩
  · rintro ⟨h, h'⟩
    exact ⟨h, (hang_inst c h).2 h'⟩

theorem insts_short {b : Bytes} (h : b.length < 5) : ¬ InstsHang b := by
  rintro ⟨c, h1, h2, _⟩
  rw [reach_nil h1 h] at h2
  omega

/-! ## Rules -/

theorem match_ends (b : Bytes) : ¬ MatchFails b .loops := fun h => ends_oxm2str b ((C76_match_error b _).2 h)

theorem hang_rule (b : Bytes) (len mlen : Nat) : RuleFails b len mlen .loops ↔
    (∃ ms, MatchShown ((b.drop 52).take (mlen - 4)) ms) ∧ InstsHang ((b.take len).drop (48 + roundUp8 mlen)) := by
  constructor
  · intro h
    cases h with
    | mtch _ h => exact absurd h (match_ends _)
    | inst ms _ h h' => exact ⟨⟨ms, h⟩, (hang_insts _).1 h'⟩
  · rintro ⟨⟨ms, h⟩, h'⟩
    exact .inst ms _ h ((hang_insts _).2 h')

theorem mod_words (m : RawMod) (h : m.Fits) (r : Bytes) :
    word16 (m.wire ++ r) 2 = m.len ∧ word16 (m.wire ++ r) 48 = m.mtype ∧ word16 (m.wire ++ r) 50 = m.mlen := by
  have hl := rawMod_length m h
  obtain ⟨h1, -, -, -, -, -, -, -, -, -, -, -, h2, h3⟩ := rawMod_at m h r
  refine ⟨?_, ?_, ?_⟩
  · rw [word16_uAt _ _ (by rw [List.length_append]; omega), h1]
  · rw [word16_uAt _ _ (by rw [List.length_append]; omega), h2]
  · rw [word16_uAt _ _ (by rw [List.length_append]; omega), h3]

theorem hang_mod (b : Bytes) : ModFails b .loops ↔ ModHang b := by
  constructor
  · intro h
    cases h with
    | rule m r _ h1 h2 h3 =>
      obtain ⟨e1, e2, e3⟩ := mod_words m h1 r
      obtain ⟨h4, h5⟩ := (hang_rule _ _ _).1 h3
      refine ⟨?_, by rw [e2, h2], ?_, ?_⟩
      · rw [List.length_append, rawMod_length m h1]; omega
      · unfold MatchPrints; rw [e3]; exact h4
      · rw [e1, e3]; exact h5
  · rintro ⟨h1, h2, h3, h4⟩
    obtain ⟨m, r, hm, rfl⟩ := cut_mod b h1
    obtain ⟨e1, e2, e3⟩ := mod_words m hm r
    unfold MatchPrints at h3
    rw [e3] at h3
    rw [e1, e3] at h4
    exact .rule m r _ hm (by rw [← e2, h2]) ((hang_rule _ _ _).2 ⟨h3, h4⟩)

/-! ## Buckets -/

theorem word16_at (n : Nat) (hn : n < 65536) (r : Bytes) : word16 (u16 n ++ r) 0 = n := by
  rw [word16_uAt _ _ (by simp [u16_length])]
  uat

theorem bucket_long {type : Nat} {b : Bytes} {s : Str} (h : BucketPrinted type b s) : 16 ≤ b.length := by
  cases h with
  | mk len weight port group x r a b c ss h1 h2 h3 h4 h5 => simp [u16_length, u32_length, h5]; omega

theorem drop_head (n : Nat) (x r : Bytes) (h : x.length = 14) : (u16 n ++ (x ++ r)).drop 16 = r := by
  rw [← List.append_assoc]
  exact List.drop_left' (by simp [u16_length, h])

theorem hang_bucket (c : Bytes) : BucketFails (c.take (word16 c 0)) .loops ↔ ActionsHang ((c.take (word16 c 0)).drop 16) := by
  constructor
  · intro h
    generalize hb : c.take (word16 c 0) = b at h
    cases h with
    | acts len x r e h1 h2 h =>
      have hw : word16 c 0 = len := by
        have hl : 16 ≤ (c.take (word16 c 0)).length := by rw [hb]; simp [u16_length, h2]; omega
        have hl' := hl
        rw [List.length_take] at hl'
        have e1 : c = (u16 len ++ (x ++ r)) ++ c.drop (word16 c 0) := by rw [← hb, List.take_append_drop]
        have e2 : word16 ((u16 len ++ (x ++ r)) ++ c.drop (word16 c 0)) 0 = len := by
          rw [List.append_assoc]; exact word16_at len h1 _
        rw [← e1] at e2
        exact e2
      have hlen : r.length ≤ len - 16 := by
        have := congrArg List.length hb
        rw [List.length_take] at this
        simp [u16_length, h2] at this
        omega
      rw [drop_head len x r h2]
      rw [List.take_of_length_le hlen] at h
      exact (hang_actions _).1 h
  · intro h
    generalize hb : c.take (word16 c 0) = b at h ⊢
    have h16 : 16 ≤ b.length := by
      by_contra hc
      exact acts_short (by rw [List.length_drop]; omega) h
    have hl' := h16
    rw [← hb, List.length_take] at hl'
    obtain ⟨len, r0, h1, rfl⟩ := cut16 b (by omega)
    obtain ⟨x, r, h2, rfl⟩ := cut_list 14 r0 (by simp [u16_length] at h16; omega)
    have hw : word16 c 0 = len := by
      have e1 : c = (u16 len ++ (x ++ r)) ++ c.drop (word16 c 0) := by rw [← hb, List.take_append_drop]
      have e2 : word16 ((u16 len ++ (x ++ r)) ++ c.drop (word16 c 0)) 0 = len := by
        rw [List.append_assoc]; exact word16_at len h1 _
      rw [← e1] at e2
      exact e2
    have hlen : r.length ≤ len - 16 := by
      have := congrArg List.length hb
      rw [List.length_take] at this
      simp [u16_length, h2] at this
      omega
    rw [drop_head len x r h2] at h
    refine .acts len x r _ h1 h2 ?_
    rw [List.take_of_length_le hlen]
    exact (hang_actions _).2 h

theorem hang_buckets (type least : Nat) (b : Bytes) : BucketsFail type least b .loops ↔ BucketsHang type least b := by
  unfold BucketsFail BucketsHang
  rw [hang_parts]
  refine exists_congr fun c => and_congr Iff.rfl (and_congr Iff.rfl ?_)
  rw [hang_bucket]
  constructor
  · rintro (⟨⟨s, h⟩, h0⟩ | h)
    · have := bucket_long h
      rw [List.length_take, h0] at this
      omega
    · exact h
  · exact Or.inr

theorem buckets_short {type least : Nat} {b : Bytes} (h : b.length < least) : ¬ BucketsHang type least b := by
  rintro ⟨c, h1, h2, _⟩
  rw [reach_nil h1 h] at h2
  omega

theorem hang_group (b : Bytes) : GroupModFails b .loops ↔ GroupModHang b := by
  have ht : ∀ (x : Bytes) (type z : UInt8) (gid : Nat) (r : Bytes), x.length = 10 →
      (x ++ type :: z :: (u32 gid ++ r)).getD 10 0 = type ∧ (x ++ type :: z :: (u32 gid ++ r)).drop 16 = r := by
    intro x type z gid r hx
    constructor
    · rw [List.getD_eq_getElem?_getD, List.getElem?_append_right (by omega)]
      simp [hx]
    · have : x ++ type :: z :: (u32 gid ++ r) = (x ++ type :: z :: u32 gid) ++ r := by simp
      rw [this]
      exact List.drop_left' (by simp [u32_length, hx])
  constructor
  · intro h
    cases h with
    | bucket x type z gid r e h1 h2 h3 h =>
      obtain ⟨e1, e2⟩ := ht x type z gid r h1
      refine ⟨by simp [h1, u32_length]; omega, by rw [e1]; exact h3, ?_⟩
      rw [e1, e2]
      exact (hang_buckets _ _ _).1 h
  · rintro ⟨h1, h2, h3⟩
    obtain ⟨x, type, z, gid, r, hx, hg, rfl⟩ := cut_group b h1
    obtain ⟨e1, e2⟩ := ht x type z gid r hx
    rw [e1] at h2
    rw [e1, e2] at h3
    exact .bucket x type z gid r _ hx hg h2 ((hang_buckets _ _ _).2 h3)

/-! ## Entries of multipart messages -/

theorem stat_words (m : RawStat) (h : m.Fits) (r : Bytes) :
    word16 (m.wire ++ r) 0 = m.len ∧ word16 (m.wire ++ r) 48 = m.mtype ∧ word16 (m.wire ++ r) 50 = m.mlen := by
  have hl := rawStat_length m h
  obtain ⟨h1, -, -, -, -, -, -, -, -, -, -, h2, h3⟩ := rawStat_at m h r
  refine ⟨?_, ?_, ?_⟩
  · rw [word16_uAt _ _ (by rw [List.length_append]; omega), h1]
  · rw [word16_uAt _ _ (by rw [List.length_append]; omega), h2]
  · rw [word16_uAt _ _ (by rw [List.length_append]; omega), h3]

theorem hang_stat (b : Bytes) (h52 : 52 ≤ b.length) :
    (((∃ s, FlowStatPrinted b s) ∧ word16 b 0 = 0) ∨ FlowStatFails b .loops) ↔ FlowStatHang b := by
  constructor
  · rintro (⟨⟨s, h⟩, h0⟩ | h)
    · cases h with
      | mk m r cs ks ts h1 h2 h3 h4 h =>
        obtain ⟨e1, e2, e3⟩ := stat_words m h1 r
        cases h with
        | mk ms is h h' =>
          refine ⟨by rw [e2, h2], ?_, Or.inl h0⟩
          unfold MatchPrints
          rw [e3]
          exact ⟨ms, h⟩
    · cases h with
      | rule m r e h1 h2 h =>
        obtain ⟨e1, e2, e3⟩ := stat_words m h1 r
        obtain ⟨h4, h5⟩ := (hang_rule _ _ _).1 h
        refine ⟨by rw [e2, h2], ?_, Or.inr ?_⟩
        · unfold MatchPrints; rw [e3]; exact h4
        · rw [e1, e3]; exact h5
  · rintro ⟨h2, h3, h4⟩
    obtain ⟨m, r, hm, rfl⟩ := cut_stat b h52
    obtain ⟨e1, e2, e3⟩ := stat_words m hm r
    unfold MatchPrints at h3
    rw [e3] at h3
    rw [e1, e3] at h4
    rcases h4 with h4 | h4
    · left
      refine ⟨?_, by rw [e1, h4]⟩
      obtain ⟨ms, h3⟩ := h3
      refine ⟨_, .mk m r _ _ _ hm (by rw [← e2, h2]) ((statCounts_iff m _).2 rfl) ((statKeys_iff m _).2 rfl)
        (.mk ms [] h3 (.done _ ?_))⟩
      rw [h4]
      simp
    · right
      exact .rule m r _ hm (by rw [← e2, h2]) ((hang_rule _ _ _).2 ⟨h3, h4⟩)

theorem hang_desc (b : Bytes) (h8 : 8 ≤ b.length) :
    (((∃ s, DescPrinted b s) ∧ word16 b 0 = 0) ∨ DescFails b .loops) ↔ DescHang b := by
  have ht : ∀ (len : Nat) (type z : UInt8) (gid : Nat) (r : Bytes), len < 65536 →
      word16 (u16 len ++ type :: z :: (u32 gid ++ r)) 0 = len ∧
      (u16 len ++ type :: z :: (u32 gid ++ r)).getD 2 0 = type ∧ (u16 len ++ type :: z :: (u32 gid ++ r)).drop 8 = r := by
    intro len type z gid r hl
    refine ⟨word16_at len hl _, ?_, ?_⟩
    · rw [List.getD_eq_getElem?_getD, List.getElem?_append_right (by simp [u16_length])]
      simp [u16_length]
    · have : u16 len ++ type :: z :: (u32 gid ++ r) = (u16 len ++ type :: z :: u32 gid) ++ r := by simp
      rw [this]
      exact List.drop_left' (by simp [u32_length, u16_length])
  constructor
  · rintro (⟨⟨s, h⟩, h0⟩ | h)
    · cases h with
      | mk len type z gid r s name ss h1 h2 =>
        rw [(ht len type z gid r h1).1] at h0
        omega
    · cases h with
      | bucket len type z gid r e h1 h2 h3 h4 h =>
        obtain ⟨e0, e1, e2⟩ := ht len type z gid r h1
        unfold DescHang
        rw [e0, e1, e2]
        exact ⟨h4, (hang_buckets _ _ _).1 h⟩
  · rintro ⟨h1, h2⟩
    right
    obtain ⟨len, r0, hl, rfl⟩ := cut16 b (by omega)
    obtain ⟨type, z, r1, rfl⟩ := cut8 r0 (by simp [u16_length] at h8; omega)
    obtain ⟨gid, r, hg, rfl⟩ := cut32 r1 (by simp [u16_length] at h8; omega)
    obtain ⟨e0, e1, e2⟩ := ht len type z gid r hl
    rw [e1] at h1
    rw [e0, e1, e2] at h2
    refine .bucket len type z gid r _ hl ?_ hg h1 ((hang_buckets _ _ _).2 h2)
    by_contra hc
    refine buckets_short ?_ h2
    rw [List.length_take]
    omega

/-! ## Messages -/

theorem word16_skip (i : Nat) (p q : Bytes) (h : p.length = i) : word16 (p ++ q) i = word16 q 0 := by
  subst h
  unfold word16
  simp [List.getD_eq_getElem?_getD, List.getElem?_append_right]

theorem msg_head (v t : UInt8) (len : Nat) (x : Bytes) (k : Nat) (y r : Bytes) (hl : len < 65536) (hx : x.length = 4)
    (hy : y.length = 6) (hk : k < 65536) : let b := v :: t :: (u16 len ++ (x ++ (u16 k ++ (y ++ r))))
    16 ≤ b.length ∧ b.getD 1 0 = t ∧ word16 b 2 = len ∧ word16 b 8 = k ∧ b.drop 16 = r := by
  intro b
  have h16 : 16 ≤ b.length := by simp only [b, List.length_cons, List.length_append, u16_length, hx, hy]; omega
  refine ⟨h16, rfl, ?_, ?_, ?_⟩
  · rw [show b = [v, t] ++ (u16 len ++ (x ++ (u16 k ++ (y ++ r)))) from rfl, word16_skip 2 _ _ rfl, word16_at _ hl]
  · rw [show b = (v :: t :: (u16 len ++ x)) ++ (u16 k ++ (y ++ r)) by simp [b],
      word16_skip 8 _ _ (by simp [u16_length, hx]), word16_at _ hk]
  · have : b = (v :: t :: (u16 len ++ (x ++ (u16 k ++ y)))) ++ r := by simp [b]
    rw [this]
    exact List.drop_left' (by simp [u16_length, hx, hy])

theorem hang_reply {α : Type} {kind least : Nat} {P : Bytes → α → Prop} {F : Bytes → Err → Prop} {H : Bytes → Prop}
    {S : Nat → Bytes → Err → Prop} (hk : kind < 65536) (hS : ∀ len r, ¬ S len r .loops)
    (h : ∀ c : Bytes, least ≤ c.length → ((((∃ x, P c x) ∧ word16 c 0 = 0) ∨ F c .loops) ↔ H c)) (b : Bytes) :
    MpFails kind (PartsFail least (word16 · 0) P F) S b .loops ↔ ReplyHang kind least P H b := by
  have hp : ∀ b, PartsFail least (word16 · 0) P F b .loops ↔
      ∃ c, Reach least (word16 · 0) (fun b => ∃ x, P b x) b c ∧ least ≤ c.length ∧ H c := by
    intro b
    rw [hang_parts]
    refine exists_congr fun c => and_congr Iff.rfl ⟨fun ⟨h1, h2⟩ => ⟨h1, (h c h1).1 h2⟩, fun ⟨h1, h2⟩ => ⟨h1, (h c h1).2 h2⟩⟩
  constructor
  · intro hf
    cases hf with
    | reply v len x y r e h1 h2 h3 h4 =>
      obtain ⟨e1, e2, e3, e4, e5⟩ := msg_head v 19 len x kind y r h1 h2 h3 hk
      refine ⟨e1, e2, e4, ?_⟩
      rw [e3, e5]
      exact (hp _).1 h4
    | other v t len x y r e h0 h1 h2 h3 h4 => exact absurd h4 (hS len r)
  · rintro ⟨h1, h2, h3, h4⟩
    obtain ⟨v, t, r0, rfl⟩ := cut8 b (by omega)
    have ht : t = 19 := h2
    subst ht
    simp only [List.length_cons] at h1
    obtain ⟨len, r1, hl, rfl⟩ := cut16 r0 (by omega)
    simp only [List.length_append, u16_length] at h1
    obtain ⟨x, r2, hx, rfl⟩ := cut_list 4 r1 (by omega)
    simp only [List.length_append, u16_length] at h1
    obtain ⟨k, r3, hk', rfl⟩ := cut16 r2 (by omega)
    simp only [List.length_append, u16_length] at h1
    obtain ⟨y, r, hy, rfl⟩ := cut_list 6 r3 (by omega)
    obtain ⟨e1, e2, e3, e4, e5⟩ := msg_head v 19 len x k y r hl hx hy hk'
    rw [e4] at h3
    subst h3
    rw [e3, e5] at h4
    exact .reply v len x y r _ hl hx hy ((hp _).2 h4)

theorem mp_long {kind : Nat} {R : Bytes → List Str → Prop} {S : Nat → Bytes → List Str → Prop} {b : Bytes} {rows : List Str}
    (h : MpPrinted kind R S b rows) : 16 ≤ b.length := by
  cases h with
  | reply v len x y r rows h1 h2 h3 => simp [u16_length, h2, h3]; omega
  | other v t len x y r rows h0 h1 h2 h3 => simp [u16_length, h2, h3]; omega

theorem hang_msgs {P : Bytes → List Str → Prop} {F : Bytes → Err → Prop} {H : Bytes → Prop}
    (hP : ∀ b rows, P b rows → 16 ≤ b.length) (hH : ∀ b, H b → 16 ≤ b.length) (h : ∀ b, F b .loops ↔ H b) (b : Bytes) :
    MsgsFail P F b .loops ↔ MsgsHang P H b := by
  unfold MsgsFail MsgsHang
  rw [hang_parts]
  have hr : (fun b : Bytes => ∃ x, 8 ≤ b.length ∧ P (b.take (lenField b)) x) =
      (fun b : Bytes => 8 ≤ b.length ∧ ∃ rows, P (b.take (lenField b)) rows) := by
    funext b
    exact propext ⟨fun ⟨x, h1, h2⟩ => ⟨h1, x, h2⟩, fun ⟨h1, x, h2⟩ => ⟨x, h1, h2⟩⟩
  rw [hr]
  refine exists_congr fun c => and_congr Iff.rfl ?_
  constructor
  · rintro ⟨h1, ⟨⟨x, h2, h3⟩, h4⟩ | ⟨h2, h3⟩ | ⟨h2, h3⟩⟩
    · have := hP _ _ h3
      rw [List.length_take, h4] at this
      omega
    · exact absurd h3 (by decide)
    · exact (h _).1 h3
  · intro hc
    have := hH _ hc
    rw [List.length_take] at this
    exact ⟨by omega, Or.inr (Or.inr ⟨by omega, (h _).2 hc⟩)⟩

theorem no_groupStat (c : Bytes) (h40 : 40 ≤ c.length) :
    (((∃ s, GroupStatPrinted c s) ∧ word16 c 0 = 0) ∨ GroupStatFails c .loops) ↔ False := by
  refine ⟨?_, False.elim⟩
  rintro (⟨⟨s, h⟩, h0⟩ | h)
  · cases h with
    | mk len x gid ref y packets bytes sec nsec r g a b c d e ts h1 h2 =>
      rw [word16_at len h1] at h0
      omega
  · cases h

end Ofpstr
