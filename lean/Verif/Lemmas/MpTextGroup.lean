import Verif.Lemmas.MpText

/-!
# Lemmas: exactly which texts are group descriptions and group statistics
-/

set_option linter.unusedSimpArgs false

namespace Ofpstr
open Spec

/-! ## Group descriptions -/

theorem descHead_id {s h t : Str} (hs : s ≠ []) (ht : Tok s h t!"group" t) (fuel : Nat) (g : Int) (ty : Nat) :
    descHead (fuel + 1) g ty s = (do
      let (n, u) ← procArg t
      descHead fuel n ty u) := by
  rw [descHead, if_neg (by simpa using hs), (getToken_iff _ _ _ _).2 ht]
  dsimp only
  rw [if_pos (by decide)]

theorem descHead_type {s h name t : Str} {k : Nat} (hs : s ≠ []) (ht : Tok s h name t) (hk : groupTypes[k]? = some (name.map Char.toLower))
    (fuel : Nat) (g : Int) (ty : Nat) : descHead (fuel + 1) g ty s = descHead fuel g k t := by
  obtain ⟨h1, h2, h3⟩ := ofpgt_idx k _ hk
  rw [descHead, if_neg (by simpa using hs), (getToken_iff _ _ _ _).2 ht]
  dsimp only
  have hn : name ≠ t!"group" := by
    rintro rfl
    have : (t!"group").map Char.toLower ∈ groupTypes := List.mem_of_getElem? hk
    exact absurd this (by decide)
  rw [if_neg (by simpa using hn), lowerStr_eq, if_pos h1, h2]

theorem descHead_stop {s h name t : Str} (ht : Tok s h name t) (h1 : name ≠ t!"group") (h2 : name.map Char.toLower ∉ groupTypes)
    (fuel : Nat) (g : Int) (ty : Nat) : descHead (fuel + 1) g ty s = .ok (g, ty, s) := by
  rw [descHead]
  split
  · rfl
  · rw [(getToken_iff _ _ _ _).2 ht]
    dsimp only
    have hc : ¬ ofpgt.contains (lowerStr name) = true := by
      rw [lowerStr_eq]
      exact fun hc => h2 (List.contains_iff_mem.1 hc)
    rw [if_neg (by simpa using h1), if_neg hc]

theorem descHead_iff (fuel : Nat) (g : Int) (ty : Nat) (s : Str) (hf : s.length < fuel) (g' : Int) (ty' : Nat) (r : Str) :
    descHead fuel g ty s = .ok (g', ty', r) ↔ ∃ gs, HeadD gs s r ∧ (g', ty') = gs.foldl stepG (g, ty) := by
  induction fuel generalizing g ty s with
  | zero => omega
  | succ fuel ih =>
    by_cases hs : s = []
    · subst hs
      have e : descHead (fuel + 1) g ty [] = .ok (g, ty, []) := rfl
      rw [e]
      constructor
      · intro h; cases h; exact ⟨[], .nil, rfl⟩
      · rintro ⟨gs, h1, h2⟩
        cases h1 with
        | nil => cases h2; rfl
        | stop => cases h2; rfl
        | cons _ _ _ _ _ h => exact absurd rfl h
    · obtain ⟨h, name, t, ht⟩ : ∃ h name t, Tok s h name t := ⟨_, _, _, (getToken_iff _ _ _ _).1 rfl⟩
      have hl := tok_progress hs ht
      by_cases hn : name = t!"group"
      · subst hn
        rw [descHead_id hs ht, bind_iff]
        constructor
        · rintro ⟨⟨n, u⟩, h1, h2⟩
          rw [numArg_iff] at h1
          have := numArg_shorter h1
          obtain ⟨gs, h3, h4⟩ := (ih n ty u (by omega)).1 h2
          exact ⟨.id n :: gs, .cons s _ u gs r hs (.id s h t n u ht h1) h3, h4⟩
        · rintro ⟨gs, h1, h2⟩
          cases h1 with
          | nil => exact absurd rfl hs
          | stop _ h' name' t' ht' hn' => exact absurd (tok_det ht ht').2.1.symm hn'
          | cons _ w u gs _ _ hw h3 =>
            cases hw with
            | id h' t' n _ ht' ha =>
              obtain ⟨-, -, rfl⟩ := tok_det ht ht'
              have := numArg_shorter ha
              exact ⟨(n, u), (numArg_iff _ _ _).2 ha, (ih n ty u (by omega)).2 ⟨gs, h3, h2⟩⟩
            | type h' name' k _ ht' hk =>
              rw [← (tok_det ht ht').2.1] at hk
              exact absurd (List.mem_of_getElem? hk) (by decide)
      · by_cases hk : name.map Char.toLower ∈ groupTypes
        · obtain ⟨k, hk⟩ := groupTypes_mem (List.contains_iff_mem.2 hk)
          rw [descHead_type hs ht hk]
          constructor
          · intro h1
            obtain ⟨gs, h3, h4⟩ := (ih g k t (by omega)).1 h1
            exact ⟨.type k :: gs, .cons s _ t gs r hs (.type s h name k t ht hk) h3, h4⟩
          · rintro ⟨gs, h1, h2⟩
            cases h1 with
            | nil => exact absurd rfl hs
            | stop _ h' name' t' ht' _ hn' =>
              rw [← (tok_det ht ht').2.1] at hn'
              exact absurd (List.mem_of_getElem? hk) hn'
            | cons _ w u gs _ _ hw h3 =>
              cases hw with
              | id h' t' n _ ht' ha => exact absurd (tok_det ht ht').2.1 hn
              | type h' name' k' _ ht' hk' =>
                obtain ⟨-, rfl, rfl⟩ := tok_det ht ht'
                have : k = k' := by rw [← (ofpgt_idx _ _ hk).2.1, ← (ofpgt_idx _ _ hk').2.1]
                subst this
                exact (ih g k t (by omega)).2 ⟨gs, h3, h2⟩
        · rw [descHead_stop ht hn hk]
          constructor
          · intro e; cases e; exact ⟨[], .stop _ h name t ht hn hk, rfl⟩
          · rintro ⟨gs, h1, h2⟩
            cases h1 with
            | nil => exact absurd rfl hs
            | stop => cases h2; rfl
            | cons _ w u gs _ _ hw h3 =>
              cases hw with
              | id h' t' n _ ht' ha => exact absurd (tok_det ht ht').2.1 hn
              | type h' name' k' _ ht' hk' =>
                rw [← (tok_det ht ht').2.1] at hk'
                exact absurd (List.mem_of_getElem? hk') hk

theorem descBuckets_mark {s h t : Str} (hs : s ≠ []) (ht : Tok s h t!"@bucket" t) (ty fuel : Nat) :
    descBuckets ty (fuel + 1) s = descBuckets ty fuel t := by
  rw [descBuckets, if_neg (by simpa using hs), (getToken_iff _ _ _ _).2 ht]
  dsimp only
  rw [if_pos (by decide)]

theorem descBuckets_other {s h name t : Str} (hs : s ≠ []) (ht : Tok s h name t) (hn : name ≠ t!"@bucket") (ty fuel : Nat) :
    descBuckets ty (fuel + 1) s = (do
      let (b, l) ← str2bucket ty s
      if l > 0 then do
        let bs ← descBuckets ty fuel (s.drop l)
        .ok (b ++ bs)
      else .ok []) := by
  rw [descBuckets, if_neg (by simpa using hs), (getToken_iff _ _ _ _).2 ht]
  dsimp only
  rw [if_neg (by simpa using hn)]

/-- A bucket does not start with `@bucket`. -/
theorem bucket_not_mark {ws : List BWord} {s u h t : Str} (hw : ws ≠ []) (hb : BucketText actP ws s u) (ht : Tok s h t!"@bucket" t) : False := by
  cases hb with
  | nil => exact hw rfl
  | cons _ w _ _ _ h1 h2 =>
    cases h2 with
    | weight _ _ _ _ _ _ h3 => exact absurd (tok_det ht h3).2.1 (by decide)
    | port _ _ _ _ _ _ h3 => exact absurd (tok_det ht h3).2.1 (by decide)
    | group _ _ _ _ _ _ h3 => exact absurd (tok_det ht h3).2.1 (by decide)
    | act _ name _ _ _ h3 _ h4 =>
      rw [← (tok_det ht h3).2.1] at h4
      exact h4 (by decide)

theorem descBuckets_iff (ty fuel : Nat) (s : Str) (hf : s.length < fuel) (b : Bytes) :
    descBuckets ty fuel s = .ok b ↔ ∃ bs, BucketsD bs s ∧ (∀ ws ∈ bs, BucketFits ty ws) ∧ b = bs.flatMap (bucketOf ty) := by
  induction fuel generalizing s b with
  | zero => omega
  | succ fuel ih =>
    by_cases hs : s = []
    · subst hs
      have e : descBuckets ty (fuel + 1) [] = .ok [] := rfl
      rw [e]
      constructor
      · intro h; cases h; exact ⟨[], .nil, by simp, rfl⟩
      · rintro ⟨bs, h1, h2, rfl⟩
        cases h1 with
        | nil => rfl
        | mark _ _ _ _ h => exact absurd rfl h
        | junk _ _ _ _ h => exact absurd rfl h
        | bucket _ ws u bs h1 h2 =>
          cases h2 with
          | nil => exact absurd rfl h1
          | cons _ _ _ _ _ h3 => exact absurd rfl h3
    · obtain ⟨h, name, t, ht⟩ : ∃ h name t, Tok s h name t := ⟨_, _, _, (getToken_iff _ _ _ _).1 rfl⟩
      have hl := tok_progress hs ht
      by_cases hn : name = t!"@bucket"
      · subst hn
        rw [descBuckets_mark hs ht, ih t (by omega)]
        constructor
        · rintro ⟨bs, h1, h2, h3⟩
          exact ⟨bs, .mark s h t bs hs ht h1, h2, h3⟩
        · rintro ⟨bs, h1, h2, h3⟩
          cases h1 with
          | nil => exact absurd rfl hs
          | mark _ h' t' _ _ ht' h4 =>
            obtain ⟨-, -, rfl⟩ := tok_det ht ht'
            exact ⟨bs, h4, h2, h3⟩
          | bucket _ ws u bs h4 h5 h6 =>
            rw [← actP_len] at h5
            exact (bucket_not_mark h4 h5 ht).elim
          | junk _ h' name' t' _ ht' hn' => exact absurd (tok_det ht ht').2.1.symm hn'
      · rw [descBuckets_other hs ht hn, bind_iff]
        constructor
        · rintro ⟨⟨b1, l⟩, h1, h2⟩
          obtain ⟨ws, r, h3, h4⟩ := str2bucket_inv h1
          dsimp only at h2
          rcases h4 with ⟨rfl, rfl⟩ | ⟨h4, h5, rfl, rfl, h6⟩
          · rw [if_neg (by omega)] at h2
            cases h2
            have := (bucketText_shorter h3).1 rfl
            subst this
            rw [actP_len] at h3
            exact ⟨[], .junk _ h name t hs ht hn h3, by simp, rfl⟩
          · rw [if_pos (by omega)] at h2
            obtain ⟨b2, h7, h2⟩ := bind_iff.1 h2
            cases h2
            have hsh := (bucketText_shorter h3).2 h4
            obtain ⟨bs, h8, h9, rfl⟩ := (ih (s.drop l) (by omega) b2).1 h7
            rw [actP_len] at h3
            exact ⟨ws :: bs, .bucket s ws _ bs h4 h3 h8, by simpa using ⟨h5, h9⟩, rfl⟩
        · rintro ⟨bs, h1, h2, rfl⟩
          cases h1 with
          | nil => exact absurd rfl hs
          | mark _ h' t' _ _ ht' h4 => exact absurd (tok_det ht ht').2.1 hn
          | bucket _ ws u bs h4 h5 h6 =>
            rw [← actP_len] at h5
            have e := str2bucket_text h5 ty
            rw [if_neg h4, if_pos (h2 ws (by simp))] at e
            refine ⟨_, e, ?_⟩
            dsimp only
            have hsh := (bucketText_shorter h5).2 h4
            rw [if_pos (by omega), ← bucketText_drop h5, (ih u (by omega) _).2 ⟨bs, h6, fun ws hw => h2 ws (by simp [hw]), rfl⟩, ok_bind]
            rfl
          | junk _ h' name' t' _ ht' hn' h5 =>
            rw [← actP_len] at h5
            have e := str2bucket_text h5 ty
            rw [if_pos rfl] at e
            exact ⟨_, e, rfl⟩

theorem headD_type {gs : List GWord} {s r : Str} (h : HeadD gs s r) : ∀ t, .type t ∈ gs → t < 4 := by
  induction h with
  | nil => intro t ht; cases ht
  | stop => intro t ht; cases ht
  | cons s w u gs r hs hw _ ih =>
    intro t ht
    rcases List.mem_cons.1 ht with rfl | ht
    · cases hw with
      | type _ name _ _ _ hk => exact (List.getElem?_eq_some_iff.1 hk).1
    · exact ih t ht

theorem descBody_iff (s : Str) (b : Bytes) : descBody s = .ok b ↔
    ∃ e, (DescLine s e ∧ DescFits e ∧ 8 + (e.2.flatMap (bucketOf (groupType e.1))).length < 65536) ∧ b = descOf e := by
  have hst : ∀ gs : List GWord, gs.foldl stepG ((0 : Int), 0) = (lineGroup gs, groupType gs) := fun gs =>
    Prod.ext (stepG_id gs (0, 0)) (stepG_type gs (0, 0))
  unfold descBody
  rw [bind_iff]
  constructor
  · rintro ⟨⟨g, ty, r⟩, h1, h⟩
    obtain ⟨gs, h2, h3⟩ := (descHead_iff _ _ _ _ (by omega) _ _ _).1 h1
    rw [hst] at h3
    cases h3
    dsimp only at h
    obtain ⟨bs', h4, h⟩ := bind_iff.1 h
    obtain ⟨bs, h5, h6, rfl⟩ := (descBuckets_iff _ _ _ (by omega) _).1 h4
    obtain ⟨x, h7, h⟩ := bind_iff.1 h
    obtain ⟨y, h8, h⟩ := bind_iff.1 h
    obtain ⟨f7, rfl⟩ := (packed_iff _ _).1 h7
    obtain ⟨f8, rfl⟩ := (packU_packed _ _ _).1 h8
    cases h
    have f1 := f7 (2, _) (.head _)
    have f2 := (fitsIn2 (8 + (bs.flatMap (bucketOf (groupType gs))).length)).1 (by push_cast; exact f1)
    refine ⟨(gs, bs), ⟨⟨r, h2, h5⟩, ⟨f8 (4, _) (.head _), h6⟩, f2⟩, ?_⟩
    simp only [descOf, u8, u16, u32, List.flatMap_cons, List.flatMap_nil, List.append_nil, List.append_assoc]
    rfl
  · rintro ⟨⟨gs, bs⟩, ⟨⟨r, h1, h2⟩, ⟨h3, h4⟩, h5⟩, rfl⟩
    refine ⟨(lineGroup gs, groupType gs, r), (descHead_iff _ _ _ _ (by omega) _ _ _).2 ⟨gs, h1, (hst gs).symm⟩, ?_⟩
    dsimp only
    refine bind_iff.2 ⟨_, (descBuckets_iff _ _ _ (by omega) _).2 ⟨bs, h2, h4, rfl⟩, ?_⟩
    refine bind_iff.2 ⟨_, (packed_iff _ _).2 ⟨?_, rfl⟩, ?_⟩
    · intro e he
      simp only [List.mem_cons, List.not_mem_nil, or_false] at he
      rcases he with rfl | rfl
      · have := (fitsIn2 (8 + (bs.flatMap (bucketOf (groupType gs))).length)).2 h5
        push_cast at this
        exact this
      · have := groupType_lt (headD_type h1)
        exact fitsIn_cast (k := 1) (by show _ < 256; dsimp only at this ⊢; omega)
    refine bind_iff.2 ⟨_, (packU_packed _ _ _).2 ⟨?_, rfl⟩, ?_⟩
    · intro e he
      simp only [List.mem_cons, List.not_mem_nil, or_false] at he
      subst he; exact h3
    simp only [descOf, u8, u16, u32, List.flatMap_cons, List.flatMap_nil, List.append_nil, List.append_assoc]
    rfl

theorem text2mpgroupdesc_iff (txt : Str) (xid : Int) (m : Bytes) : text2mpgroupdesc txt 19 xid = .ok m ↔
    ∃ ls es, TextLines txt ls ∧ List.Forall₂ DescLine ls es ∧ (∀ e ∈ es, DescFits e) ∧
      MpFits 19 xid (es.flatMap descOf) ∧ m = mpWire 19 xid.toNat 7 0 (es.flatMap descOf) := by
  simp only [textLines_iff]
  unfold text2mpgroupdesc
  rw [if_neg (by decide), bind_iff]
  constructor
  · rintro ⟨cap, h1, h2⟩
    obtain ⟨bs, h3, h4⟩ := (descGo_iff _ _ _).1 h1
    obtain ⟨es, h5, rfl⟩ := (forall₂_entries descBody_iff _ _).1 h3
    obtain ⟨h6, h7⟩ := (forall₂_split _ _).1 h5
    obtain ⟨-, rfl⟩ := (packLines_iff _ _).1 h4
    obtain ⟨h8, rfl⟩ := (mpMessage_iff _ _ _ _ _ (by decide)).1 h2
    rw [← List.flatMap_def] at h8 ⊢
    exact ⟨_, es, rfl, h6, fun e he => (h7 e he).1, h8, rfl⟩
  · rintro ⟨_, es, rfl, h1, h2, h3, rfl⟩
    rw [List.flatMap_def] at h3 ⊢
    refine ⟨(es.map descOf).flatten, (descGo_iff _ _ _).2 ⟨es.map descOf, ?_, ?_⟩, (mpMessage_iff _ _ _ _ _ (by decide)).2 ⟨h3, rfl⟩⟩
    · refine (forall₂_entries descBody_iff _ _).2 ⟨es, (forall₂_split _ _).2 ⟨h1, fun e he => ⟨h2 e he, ?_⟩⟩, rfl⟩
      have := mem_flatten_len (List.mem_map.2 ⟨e, he, rfl⟩ : descOf e ∈ es.map descOf)
      have := h3.2.2
      have : (descOf e).length = 8 + (e.2.flatMap (bucketOf (groupType e.1))).length := by
        simp only [descOf, List.length_append, u8_length, u16_length, u32_length, pad_length]; omega
      omega
    · exact (packLines_iff _ _).2 ⟨h3.2.2, rfl⟩

/-! ## Group statistics -/

theorem statGroupHead_id {s h t : Str} (hs : s ≠ []) (ht : Tok s h t!"group" t) (fuel : Nat) (g : Int) :
    statGroupHead (fuel + 1) g s = (do
      let (n, u) ← procArg t
      statGroupHead fuel n u) := by
  rw [statGroupHead, if_neg (by simpa using hs), (getToken_iff _ _ _ _).2 ht]
  dsimp only
  rw [if_pos (by decide)]

theorem statGroupHead_stop {s h name t : Str} (ht : Tok s h name t) (h1 : name ≠ t!"group") (fuel : Nat) (g : Int) :
    statGroupHead (fuel + 1) g s = .ok (g, s) := by
  rw [statGroupHead]
  split
  · rfl
  · rw [(getToken_iff _ _ _ _).2 ht]
    dsimp only
    rw [if_neg (by simpa using h1)]

theorem statGroupHead_iff (fuel : Nat) (g : Int) (s : Str) (hf : s.length < fuel) (g' : Int) (r : Str) :
    statGroupHead fuel g s = .ok (g', r) ↔ ∃ gs, HeadS gs s r ∧ g' = gs.getLast?.getD g := by
  induction fuel generalizing g s with
  | zero => omega
  | succ fuel ih =>
    by_cases hs : s = []
    · subst hs
      have e : statGroupHead (fuel + 1) g [] = .ok (g, []) := rfl
      rw [e]
      constructor
      · intro h; cases h; exact ⟨[], .nil, rfl⟩
      · rintro ⟨gs, h1, rfl⟩
        cases h1 with
        | nil => rfl
        | stop => rfl
        | cons _ _ _ _ _ _ _ h => exact absurd rfl h
    · obtain ⟨h, name, t, ht⟩ : ∃ h name t, Tok s h name t := ⟨_, _, _, (getToken_iff _ _ _ _).1 rfl⟩
      have hl := tok_progress hs ht
      have hc : ∀ (n : Int) (gs : List Int), (n :: gs).getLast?.getD g = gs.getLast?.getD n := by
        intro n gs
        cases gs with
        | nil => rfl
        | cons a as => rw [List.getLast?_cons_cons]; simp [List.getLast?_cons]
      by_cases hn : name = t!"group"
      · subst hn
        rw [statGroupHead_id hs ht, bind_iff]
        constructor
        · rintro ⟨⟨n, u⟩, h1, h2⟩
          rw [numArg_iff] at h1
          have := numArg_shorter h1
          obtain ⟨gs, h3, h4⟩ := (ih n u (by omega)).1 h2
          exact ⟨n :: gs, .cons s h t n u gs r hs ht h1 h3, by rw [hc, h4]⟩
        · rintro ⟨gs, h1, h2⟩
          cases h1 with
          | nil => exact absurd rfl hs
          | stop _ h' name' t' ht' hn' => exact absurd (tok_det ht ht').2.1.symm hn'
          | cons _ h' t' n u gs _ _ ht' ha h3 =>
            obtain ⟨-, -, rfl⟩ := tok_det ht ht'
            have := numArg_shorter ha
            exact ⟨(n, u), (numArg_iff _ _ _).2 ha, (ih n u (by omega)).2 ⟨gs, h3, by rw [h2, hc]⟩⟩
      · rw [statGroupHead_stop ht hn]
        constructor
        · intro e; cases e; exact ⟨[], .stop _ h name t ht hn, rfl⟩
        · rintro ⟨gs, h1, h2⟩
          cases h1 with
          | nil => exact absurd rfl hs
          | stop => cases h2; rfl
          | cons _ h' t' n u gs _ _ ht' => exact absurd (tok_det ht ht').2.1 hn

/-- The counters of a bucket. -/
def setBucket (e : Option Int × Option Int) (l : List (Str × Int)) : Option Int × Option Int :=
  l.foldl (fun e c => if c.1 = t!"packet_count" then (some c.2, e.2) else if c.1 = t!"byte_count" then (e.1, some c.2) else e) e

theorem setBucket_get (l : List (Str × Int)) : (setBucket (none, none) l).1.getD 0 = countOf t!"packet_count" l ∧
    (setBucket (none, none) l).2.getD 0 = countOf t!"byte_count" l := by
  induction l using List.reverseRecOn with
  | nil => decide
  | append_singleton l e ih =>
    obtain ⟨h1, h2⟩ := ih
    have hs : setBucket (none, none) (l ++ [e]) = setBucket (setBucket (none, none) l) [e] := by simp [setBucket]
    rw [hs]
    simp only [countOf_append, ← h1, ← h2]
    generalize setBucket (none, none) l = c
    obtain ⟨name, n⟩ := e
    simp only [setBucket, List.foldl_cons, List.foldl_nil]
    by_cases e1 : name = t!"packet_count"
    · subst e1; simp
    by_cases e2 : name = t!"byte_count"
    · subst e2; simp
    simp [e1, e2]

theorem groupStatsGo_mark {s h t : Str} (hs : s ≠ []) (ht : Tok s h t!"@bucket" t) (fuel : Nat) (g : Counters) (bs : List (Option Int × Option Int)) :
    groupStatsGo (fuel + 1) g bs s = groupStatsGo fuel g ((none, none) :: bs) t := by
  rw [groupStatsGo, if_neg (by simpa using hs), (getToken_iff _ _ _ _).2 ht]
  dsimp only
  rw [if_pos (by decide)]

theorem groupStatsGo_group {s h name t : Str} (hs : s ≠ []) (ht : Tok s h name t) (hn : name ≠ t!"@bucket") (fuel : Nat) (g : Counters) :
    groupStatsGo (fuel + 1) g [] s = (do
      let (n, u) ← procArg t
      if name ∈ groupCounters then groupStatsGo fuel (setCounts g [(name, n)]) [] u else .ok (g, [])) := by
  rw [groupStatsGo, if_neg (by simpa using hs), (getToken_iff _ _ _ _).2 ht]
  dsimp only
  rw [if_neg (by simpa using hn)]
  by_cases hc : name ∈ groupCounters
  · simp only [if_pos hc]
    simp only [groupCounters, List.mem_cons, List.not_mem_nil, or_false] at hc
    rcases hc with rfl | rfl | rfl | rfl | rfl <;> rfl
  · simp only [if_neg hc]
    simp only [groupCounters, List.mem_cons, List.not_mem_nil, or_false, not_or] at hc
    obtain ⟨h1, h2, h3, h4, h5⟩ := hc
    simp only [beq_false_of_ne h1, beq_false_of_ne h2, beq_false_of_ne h3, beq_false_of_ne h4, beq_false_of_ne h5, Bool.false_eq_true, if_false]

theorem groupStatsGo_bucket {s h name t : Str} (hs : s ≠ []) (ht : Tok s h name t) (hn : name ≠ t!"@bucket") (fuel : Nat) (g : Counters)
    (e : Option Int × Option Int) (bs : List (Option Int × Option Int)) :
    groupStatsGo (fuel + 1) g (e :: bs) s = (do
      let (n, u) ← procArg t
      if name ∈ bucketCounters then groupStatsGo fuel g (setBucket e [(name, n)] :: bs) u else .ok (g, e :: bs)) := by
  obtain ⟨pc, bc⟩ := e
  rw [groupStatsGo, if_neg (by simpa using hs), (getToken_iff _ _ _ _).2 ht]
  dsimp only
  rw [if_neg (by simpa using hn)]
  by_cases hc : name ∈ bucketCounters
  · simp only [if_pos hc]
    simp only [bucketCounters, List.mem_cons, List.not_mem_nil, or_false] at hc
    rcases hc with rfl | rfl <;> rfl
  · simp only [if_neg hc]
    simp only [bucketCounters, List.mem_cons, List.not_mem_nil, or_false, not_or] at hc
    obtain ⟨h1, h2⟩ := hc
    simp only [beq_false_of_ne h1, beq_false_of_ne h2, Bool.false_eq_true, if_false]

theorem mark_not : t!"@bucket" ∉ bucketCounters ∧ t!"@bucket" ∉ groupCounters := by decide

/-- The buckets, last one first. -/
def statBuckets (ss : List (List (Str × Int))) : List (Option Int × Option Int) := (ss.map (setBucket (none, none))).reverse

theorem statBuckets_cons (l : List (Str × Int)) (ss : List (List (Str × Int))) : statBuckets (l :: ss) = statBuckets ss ++ [setBucket (none, none) l] := by
  simp [statBuckets]

theorem bucketStats_iff (fuel : Nat) (g : Counters) (e : Option Int × Option Int) (bs : List (Option Int × Option Int)) (s : Str)
    (hf : s.length < fuel) (g' : Counters) (bs' : List (Option Int × Option Int)) :
    groupStatsGo fuel g (e :: bs) s = .ok (g', bs') ↔
    ∃ l ss, StatParts bucketCounters l ss s ∧ g' = g ∧ bs' = statBuckets ss ++ (setBucket e l :: bs) := by
  induction fuel generalizing e bs s with
  | zero => omega
  | succ fuel ih =>
    by_cases hs : s = []
    · subst hs
      have he : groupStatsGo (fuel + 1) g (e :: bs) [] = .ok (g, e :: bs) := rfl
      rw [he]
      constructor
      · intro h; cases h; exact ⟨[], [], .nil _, rfl, rfl⟩
      · rintro ⟨l, ss, h1, rfl, rfl⟩
        cases h1 with
        | nil => rfl
        | mark _ _ _ _ _ _ h => exact absurd rfl h
        | count _ _ _ _ _ _ _ _ _ h => exact absurd rfl h
        | junk _ _ _ _ _ _ _ h => exact absurd rfl h
    · obtain ⟨h, name, t, ht⟩ : ∃ h name t, Tok s h name t := ⟨_, _, _, (getToken_iff _ _ _ _).1 rfl⟩
      have hl := tok_progress hs ht
      by_cases hn : name = t!"@bucket"
      · subst hn
        rw [groupStatsGo_mark hs ht, ih _ _ t (by omega)]
        constructor
        · rintro ⟨l, ss, h1, h2, h3⟩
          refine ⟨[], l :: ss, .mark _ s h t l ss hs ht h1, h2, ?_⟩
          rw [h3, statBuckets_cons, List.append_assoc]
          rfl
        · rintro ⟨l, ss, h1, h2, h3⟩
          cases h1 with
          | nil => exact absurd rfl hs
          | mark _ _ h' t' l ss _ ht' h4 =>
            obtain ⟨-, -, rfl⟩ := tok_det ht ht'
            refine ⟨l, ss, h4, h2, ?_⟩
            rw [h3, statBuckets_cons, List.append_assoc]
            rfl
          | count _ _ h' name' t' n u l ss _ ht' hm => exact absurd ((tok_det ht ht').2.1 ▸ hm) mark_not.1
          | junk _ _ h' name' t' n u _ ht' hm => exact absurd (tok_det ht ht').2.1.symm hm
      · rw [groupStatsGo_bucket hs ht hn, bind_iff]
        constructor
        · rintro ⟨⟨n, u⟩, h1, h2⟩
          rw [numArg_iff] at h1
          have := numArg_shorter h1
          dsimp only at h2
          by_cases hc : name ∈ bucketCounters
          · rw [if_pos hc, ih _ _ u (by omega)] at h2
            obtain ⟨l, ss, h3, h4, h5⟩ := h2
            exact ⟨(name, n) :: l, ss, .count _ s h name t n u l ss hs ht hc h1 h3, h4, h5⟩
          · rw [if_neg hc] at h2
            cases h2
            exact ⟨[], [], .junk _ s h name t n u hs ht hn hc h1, rfl, rfl⟩
        · rintro ⟨l, ss, h1, h2, h3⟩
          cases h1 with
          | nil => exact absurd rfl hs
          | mark _ _ h' t' l ss _ ht' h4 => exact absurd (tok_det ht ht').2.1 hn
          | count _ _ h' name' t' n u l ss _ ht' hm ha h4 =>
            obtain ⟨-, rfl, rfl⟩ := tok_det ht ht'
            have := numArg_shorter ha
            refine ⟨(n, u), (numArg_iff _ _ _).2 ha, ?_⟩
            dsimp only
            rw [if_pos hm, ih _ _ u (by omega)]
            exact ⟨l, ss, h4, h2, h3⟩
          | junk _ _ h' name' t' n u _ ht' hm hc ha =>
            obtain ⟨-, rfl, rfl⟩ := tok_det ht ht'
            refine ⟨(n, u), (numArg_iff _ _ _).2 ha, ?_⟩
            dsimp only
            rw [if_neg hc, h2, h3]
            rfl

theorem groupStats_iff (fuel : Nat) (g : Counters) (s : Str)
    (hf : s.length < fuel) (g' : Counters) (bs' : List (Option Int × Option Int)) :
    groupStatsGo fuel g [] s = .ok (g', bs') ↔
    ∃ l ss, StatParts groupCounters l ss s ∧ g' = setCounts g l ∧ bs' = statBuckets ss := by
  induction fuel generalizing g s with
  | zero => omega
  | succ fuel ih =>
    by_cases hs : s = []
    · subst hs
      have he : groupStatsGo (fuel + 1) g [] [] = .ok (g, []) := rfl
      rw [he]
      constructor
      · intro h; cases h; exact ⟨[], [], .nil _, rfl, rfl⟩
      · rintro ⟨l, ss, h1, rfl, rfl⟩
        cases h1 with
        | nil => rfl
        | mark _ _ _ _ _ _ h => exact absurd rfl h
        | count _ _ _ _ _ _ _ _ _ h => exact absurd rfl h
        | junk _ _ _ _ _ _ _ h => exact absurd rfl h
    · obtain ⟨h, name, t, ht⟩ : ∃ h name t, Tok s h name t := ⟨_, _, _, (getToken_iff _ _ _ _).1 rfl⟩
      have hl := tok_progress hs ht
      by_cases hn : name = t!"@bucket"
      · subst hn
        rw [groupStatsGo_mark hs ht, bucketStats_iff _ _ _ _ t (by omega)]
        constructor
        · rintro ⟨l, ss, h1, h2, h3⟩
          exact ⟨[], l :: ss, .mark _ s h t l ss hs ht h1, h2, by rw [h3, statBuckets_cons]⟩
        · rintro ⟨l, ss, h1, h2, h3⟩
          cases h1 with
          | nil => exact absurd rfl hs
          | mark _ _ h' t' l ss _ ht' h4 =>
            obtain ⟨-, -, rfl⟩ := tok_det ht ht'
            exact ⟨l, ss, h4, h2, by rw [h3, statBuckets_cons]⟩
          | count _ _ h' name' t' n u l ss _ ht' hm => exact absurd ((tok_det ht ht').2.1 ▸ hm) mark_not.2
          | junk _ _ h' name' t' n u _ ht' hm => exact absurd (tok_det ht ht').2.1.symm hm
      · rw [groupStatsGo_group hs ht hn, bind_iff]
        constructor
        · rintro ⟨⟨n, u⟩, h1, h2⟩
          rw [numArg_iff] at h1
          have := numArg_shorter h1
          dsimp only at h2
          by_cases hc : name ∈ groupCounters
          · rw [if_pos hc, ih _ u (by omega)] at h2
            obtain ⟨l, ss, h3, h4, h5⟩ := h2
            exact ⟨(name, n) :: l, ss, .count _ s h name t n u l ss hs ht hc h1 h3, h4, h5⟩
          · rw [if_neg hc] at h2
            cases h2
            exact ⟨[], [], .junk _ s h name t n u hs ht hn hc h1, rfl, rfl⟩
        · rintro ⟨l, ss, h1, h2, h3⟩
          cases h1 with
          | nil => exact absurd rfl hs
          | mark _ _ h' t' l ss _ ht' h4 => exact absurd (tok_det ht ht').2.1 hn
          | count _ _ h' name' t' n u l ss _ ht' hm ha h4 =>
            obtain ⟨-, rfl, rfl⟩ := tok_det ht ht'
            have := numArg_shorter ha
            refine ⟨(n, u), (numArg_iff _ _ _).2 ha, ?_⟩
            dsimp only
            rw [if_pos hm, ih _ u (by omega)]
            exact ⟨l, ss, h4, h2, h3⟩
          | junk _ _ h' name' t' n u _ ht' hm hc ha =>
            obtain ⟨-, rfl, rfl⟩ := tok_det ht ht'
            refine ⟨(n, u), (numArg_iff _ _ _).2 ha, ?_⟩
            dsimp only
            rw [if_neg hc, h2, h3]
            rfl

theorem packBucketStats_iff (ss : List (List (Str × Int))) (b : Bytes) :
    packBucketStats (ss.map (setBucket (none, none))) = .ok b ↔
    (∀ l ∈ ss, FitsIn 8 (countOf t!"packet_count" l) ∧ FitsIn 8 (countOf t!"byte_count" l)) ∧ b = ss.flatMap bucketCounter := by
  induction ss generalizing b with
  | nil =>
    constructor
    · intro h; cases h; exact ⟨by simp, rfl⟩
    · rintro ⟨-, rfl⟩; rfl
  | cons l ss ih =>
    obtain ⟨e1, e2⟩ := setBucket_get l
    rw [List.map_cons]
    generalize setBucket (none, none) l = c at e1 e2
    obtain ⟨pc, bc⟩ := c
    dsimp only at e1 e2
    rw [packBucketStats, e1, e2, bind_iff]
    constructor
    · rintro ⟨x, h1, h⟩
      obtain ⟨y, h2, h⟩ := bind_iff.1 h
      obtain ⟨f1, rfl⟩ := (packed_iff _ _).1 h1
      obtain ⟨f2, rfl⟩ := (ih _).1 h2
      cases h
      refine ⟨?_, ?_⟩
      · intro l' hl'
        rcases List.mem_cons.1 hl' with rfl | hl'
        · exact ⟨f1 (8, _) (.head _), f1 (8, _) (.tail _ (.head _))⟩
        · exact f2 l' hl'
      · simp only [bucketCounter, u64, List.flatMap_cons, List.flatMap_nil, List.append_nil, List.append_assoc]
    · rintro ⟨h1, rfl⟩
      refine ⟨_, (packed_iff _ _).2 ⟨?_, rfl⟩, bind_iff.2 ⟨_, (ih _).2 ⟨fun l' hl' => h1 l' (.tail _ hl'), rfl⟩, ?_⟩⟩
      · intro e he
        simp only [List.mem_cons, List.not_mem_nil, or_false] at he
        rcases he with rfl | rfl
        · exact (h1 l (.head _)).1
        · exact (h1 l (.head _)).2
      · simp only [bucketCounter, u64, List.flatMap_cons, List.flatMap_nil, List.append_nil, List.append_assoc]

theorem bucketCounters_length (ss : List (List (Str × Int))) : (ss.flatMap bucketCounter).length = 16 * ss.length := by
  induction ss with
  | nil => rfl
  | cons l ss ih =>
    rw [List.flatMap_cons, List.length_append, ih, List.length_cons]
    simp only [bucketCounter, List.length_append, u64_length]
    omega

theorem groupStatBody_iff (gid : Int) (s : Str) (b : Bytes) : groupStatBody gid s = .ok b ↔
    ∃ l ss, StatParts groupCounters l ss s ∧ ∀ ids : List Int, ids.getLast?.getD 0 = gid →
      ((⟨ids, l, ss⟩ : GStat).Fits ∧ 40 + 16 * ss.length < 65536) ∧ b = (⟨ids, l, ss⟩ : GStat).wire := by
  unfold groupStatBody
  rw [bind_iff]
  constructor
  · rintro ⟨⟨g, bs⟩, h1, h⟩
    obtain ⟨l, ss, h2, rfl, rfl⟩ := (groupStats_iff _ _ _ (by omega) _ _).1 h1
    refine ⟨l, ss, h2, ?_⟩
    rintro ids rfl
    obtain ⟨c1, c2, c3, c4, c5⟩ := setCounts_get l
    dsimp only at h
    rw [c1, c2, c3, c4, c5, statBuckets, List.reverse_reverse] at h
    obtain ⟨x, h3, h⟩ := bind_iff.1 h
    obtain ⟨f3, rfl⟩ := (packBucketStats_iff _ _).1 h3
    rw [bucketCounters_length] at h
    obtain ⟨y, h4, h⟩ := bind_iff.1 h
    obtain ⟨z, h5, h⟩ := bind_iff.1 h
    obtain ⟨w, h6, h⟩ := bind_iff.1 h
    obtain ⟨f4, rfl⟩ := (packU_packed _ _ _).1 h4
    obtain ⟨f5, rfl⟩ := (packed_iff _ _).1 h5
    obtain ⟨f6, rfl⟩ := (packed_iff _ _).1 h6
    cases h
    have f4 := f4 (2, _) (.head _)
    have f4' := (fitsIn2 (40 + 16 * ss.length)).1 (by push_cast at f4 ⊢; exact f4)
    refine ⟨⟨⟨f5 (4, _) (.head _), f5 (4, _) (.tail _ (.head _)), f6 (8, _) (.head _), f6 (8, _) (.tail _ (.head _)),
      f6 (4, _) (.tail _ (.tail _ (.head _))), f6 (4, _) (.tail _ (.tail _ (.tail _ (.head _)))), f3⟩, f4'⟩, ?_⟩
    simp only [GStat.wire, GStat.gid, u16, u32, u64, List.flatMap_cons, List.flatMap_nil, List.append_nil, List.append_assoc]
    rfl
  · rintro ⟨l, ss, h1, h2⟩
    obtain ⟨⟨⟨q1, q2, q3, q4, q5, q6, q7⟩, h3⟩, rfl⟩ := h2 [gid] rfl
    refine ⟨_, (groupStats_iff _ _ _ (by omega) _ _).2 ⟨l, ss, h1, rfl, rfl⟩, ?_⟩
    obtain ⟨c1, c2, c3, c4, c5⟩ := setCounts_get l
    dsimp only
    rw [c1, c2, c3, c4, c5, statBuckets, List.reverse_reverse]
    refine bind_iff.2 ⟨_, (packBucketStats_iff _ _).2 ⟨q7, rfl⟩, ?_⟩
    rw [bucketCounters_length]
    refine bind_iff.2 ⟨_, (packU_packed _ _ _).2 ⟨?_, rfl⟩, ?_⟩
    · intro e he
      simp only [List.mem_cons, List.not_mem_nil, or_false] at he
      subst he
      have := (fitsIn2 (40 + 16 * ss.length)).2 h3
      push_cast at this ⊢
      exact this
    refine bind_iff.2 ⟨_, (packed_iff _ _).2 ⟨?_, rfl⟩, ?_⟩
    · intro e he
      simp only [List.mem_cons, List.not_mem_nil, or_false] at he
      rcases he with rfl | rfl
      · exact q1
      · exact q2
    refine bind_iff.2 ⟨_, (packed_iff _ _).2 ⟨?_, rfl⟩, ?_⟩
    · intro e he
      simp only [List.mem_cons, List.not_mem_nil, or_false] at he
      rcases he with rfl | rfl | rfl | rfl
      · exact q3
      · exact q4
      · exact q5
      · exact q6
    simp only [GStat.wire, GStat.gid, u16, u32, u64, List.flatMap_cons, List.flatMap_nil, List.append_nil, List.append_assoc]
    rfl

theorem gstatLine_iff (s : Str) (b : Bytes) :
    (∃ g r, statGroupHead (s.length + 1) 0 s = .ok (g, r) ∧ groupStatBody g r = .ok b) ↔
    ∃ e : GStat, (GStatLine s e ∧ e.Fits ∧ 40 + 16 * e.buckets.length < 65536) ∧ b = e.wire := by
  constructor
  · rintro ⟨g, r, h1, h2⟩
    obtain ⟨gs, h3, rfl⟩ := (statGroupHead_iff _ _ _ (by omega) _ _).1 h1
    obtain ⟨l, ss, h4, h5⟩ := (groupStatBody_iff _ _ _).1 h2
    obtain ⟨⟨h6, h7⟩, h8⟩ := h5 gs rfl
    exact ⟨⟨gs, l, ss⟩, ⟨⟨r, h3, h4⟩, h6, h7⟩, h8⟩
  · rintro ⟨⟨gs, l, ss⟩, ⟨⟨r, h3, h4⟩, h6, h7⟩, rfl⟩
    refine ⟨_, r, (statGroupHead_iff _ _ _ (by omega) _ _).2 ⟨gs, h3, rfl⟩, (groupStatBody_iff _ _ _).2 ⟨l, ss, h4, ?_⟩⟩
    intro ids hi
    have hg : (⟨ids, l, ss⟩ : GStat).gid = (⟨gs, l, ss⟩ : GStat).gid := hi
    unfold GStat.Fits GStat.wire at *
    rw [hg]
    exact ⟨⟨h6, h7⟩, rfl⟩

theorem text2mpgroup_iff (txt : Str) (xid : Int) (m : Bytes) : text2mpgroup txt 19 xid = .ok m ↔
    ∃ ls es, TextLines txt ls ∧ List.Forall₂ GStatLine ls es ∧ (∀ e ∈ es, e.Fits) ∧
      MpFits 19 xid (es.flatMap GStat.wire) ∧ m = mpWire 19 xid.toNat 6 0 (es.flatMap GStat.wire) := by
  simp only [textLines_iff]
  unfold text2mpgroup
  rw [bind_iff]
  constructor
  · rintro ⟨cap, h1, h2⟩
    obtain ⟨bs, h3, h4⟩ := (mpgroupGo_iff _ _ _).1 h1
    obtain ⟨es, h5, rfl⟩ := (forall₂_entries gstatLine_iff _ _).1 h3
    obtain ⟨h6, h7⟩ := (forall₂_split _ _).1 h5
    obtain ⟨-, rfl⟩ := (packLines_iff _ _).1 h4
    obtain ⟨h8, rfl⟩ := (mpMessage_iff _ _ _ _ _ (by decide)).1 h2
    rw [← List.flatMap_def] at h8 ⊢
    exact ⟨_, es, rfl, h6, fun e he => (h7 e he).1, h8, rfl⟩
  · rintro ⟨_, es, rfl, h1, h2, h3, rfl⟩
    rw [List.flatMap_def] at h3 ⊢
    refine ⟨(es.map GStat.wire).flatten, (mpgroupGo_iff _ _ _).2 ⟨es.map GStat.wire, ?_, ?_⟩, (mpMessage_iff _ _ _ _ _ (by decide)).2 ⟨h3, rfl⟩⟩
    · refine (forall₂_entries gstatLine_iff _ _).2 ⟨es, (forall₂_split _ _).2 ⟨h1, fun e he => ⟨h2 e he, ?_⟩⟩, rfl⟩
      have := mem_flatten_len (List.mem_map.2 ⟨e, he, rfl⟩ : GStat.wire e ∈ es.map GStat.wire)
      have := h3.2.2
      have : e.wire.length = 40 + 16 * e.buckets.length := by
        simp only [GStat.wire, List.length_append, u8_length, u16_length, u32_length, u64_length, pad_length, bucketCounters_length]; omega
      omega
    · exact (packLines_iff _ _).2 ⟨h3.2.2, rfl⟩

end Ofpstr
