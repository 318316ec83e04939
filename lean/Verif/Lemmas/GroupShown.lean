import Verif.Lemmas.ModShown

/-!
# Printed buckets and group-mods
-/

namespace Ofpstr
open Spec

set_option linter.unusedSimpArgs false

/-! ## Buckets -/

theorem bucket_parts (gt len weight port group : Nat) (x r : Bytes) (h1 : len < 65536) (h2 : weight < 65536) (h3 : port < 2 ^ 32)
    (h4 : group < 2 ^ 32) (h5 : x.length = 4) :
    bucket2str gt (u16 len ++ (u16 weight ++ (u32 port ++ (u32 group ++ (x ++ r))))) =
      act2str (r.take (len - 16)) >>= fun a => .ok (joinStr t!"," (
        (if weight = (if gt = 1 then 1 else weight) then [] else [t!"weight" ++ '=' :: fmtD weight]) ++
        ((if port = 0xffffffff then [] else [t!"watch_port" ++ '=' :: fmtD port]) ++
        ((if group = 0xffffffff then [] else [t!"watch_group" ++ '=' :: fmtD group]) ++ unlessEmpty a)))) := by
  generalize hw : u16 len ++ (u16 weight ++ (u32 port ++ (u32 group ++ (x ++ r)))) = w
  have e0 : uAt w 0 2 = len := by rw [← hw]; uat
  have e2 : uAt w 2 2 = weight := by rw [← hw]; uat
  have e4 : uAt w 4 4 = port := by rw [← hw]; uat
  have e8 : uAt w 8 4 = group := by rw [← hw]; uat
  have hl : 16 ≤ w.length := by rw [← hw]; simp [u16_length, u32_length, h5]; omega
  have hs : slice w 16 len = r.take (len - 16) := by
    unfold slice
    rw [List.drop_take, ← hw,
      show u16 len ++ (u16 weight ++ (u32 port ++ (u32 group ++ (x ++ r)))) =
        (u16 len ++ (u16 weight ++ (u32 port ++ (u32 group ++ x)))) ++ r by simp only [List.append_assoc],
      drop_pre _ r 16 (by simp [u16_length, u32_length, h5])]
  unfold bucket2str
  rw [need_ok _ _ _ (by omega), ok_bind]
  dsimp only
  rw [e0, e2, e4, e8, hs]
  congr 1
  funext a
  congr 2
  have b1 : (if (gt == OFPGT_SELECT && weight != 1) = true then [t!"weight=" ++ fmtD weight] else []) =
      (if weight = (if gt = 1 then 1 else weight) then [] else [t!"weight" ++ '=' :: fmtD weight]) := by
    by_cases c : gt = 1
    · by_cases c' : weight = 1
      · rw [if_neg (by simp [c']), if_pos c, if_pos c']
      · rw [if_pos (by simp [c, c']; rfl), if_pos c, if_neg c']; rfl
    · have c'' : ¬ gt = OFPGT_SELECT := c
      rw [if_neg (by simp [c'']), if_neg c, if_pos rfl]
  have b2 : (if (port != OFPP_ANY) = true then [t!"watch_port=" ++ fmtD port] else []) =
      (if port = 0xffffffff then [] else [t!"watch_port" ++ '=' :: fmtD port]) := by
    by_cases c : port = 0xffffffff
    · rw [if_pos c, if_neg (by rw [c]; decide)]
    · have c' : ¬ port = OFPP_ANY := c
      rw [if_neg c, if_pos (by simpa using c')]; rfl
  have b3 : (if (group != OFPG_ANY) = true then [t!"watch_group=" ++ fmtD group] else []) =
      (if group = 0xffffffff then [] else [t!"watch_group" ++ '=' :: fmtD group]) := by
    by_cases c : group = 0xffffffff
    · rw [if_pos c, if_neg (by rw [c]; decide)]
    · have c' : ¬ group = OFPG_ANY := c
      rw [if_neg c, if_pos (by simpa using c')]; rfl
  have b4 : (if a.isEmpty = true then [] else [a]) = unlessEmpty a := by cases a <;> rfl
  rw [b1, b2, b3, b4]

theorem cut_bucket (b : Bytes) (h : 16 ≤ b.length) : ∃ len weight port group x r, len < 65536 ∧ weight < 65536 ∧
    port < 2 ^ 32 ∧ group < 2 ^ 32 ∧ x.length = 4 ∧ b = u16 len ++ (u16 weight ++ (u32 port ++ (u32 group ++ (x ++ r)))) := by
  obtain ⟨len, r, h1, rfl⟩ := cut16 b (by omega)
  rw [List.length_append, u16_length] at h
  obtain ⟨weight, r, h2, rfl⟩ := cut16 r (by omega)
  rw [List.length_append, u16_length] at h
  obtain ⟨port, r, h3, rfl⟩ := cut32 r (by omega)
  rw [List.length_append, u32_length] at h
  obtain ⟨group, r, h4, rfl⟩ := cut32 r (by omega)
  rw [List.length_append, u32_length] at h
  obtain ⟨x, r, h5, rfl⟩ := cut_list 4 r (by omega)
  exact ⟨len, weight, port, group, x, r, h1, h2, h3, h4, h5, rfl⟩

theorem outcome_bucket (gt : Nat) (b : Bytes) : OutcomeOf (bucket2str gt b) (BucketPrinted gt b) (BucketFails b) := by
  have hD : ∀ s n, Decimal s n ↔ s = fmtD n := decimal_iff
  refine ⟨?_, ?_, ?_⟩
  · intro s h
    cases h with
    | mk len weight port group x r a b c ss h1 h2 h3 h4 h5 h6 h7 h8 h9 =>
      rw [bucket_parts gt len weight port group x r h1 h2 h3 h4 h5, (outcome_actions _).1 _ ⟨ss, h9, rfl⟩, ok_bind,
        (keyPrinted_iff hD _ _ _).1 h6, (keyPrinted_iff hD _ _ _).1 h7, (keyPrinted_iff hD _ _ _).1 h8]
  · intro e h
    cases h with
    | short h =>
      unfold bucket2str
      rw [need_err _ _ _ (by omega), err_bind]
    | acts len x r _ h1 h2 h3 =>
      obtain ⟨weight, y, hw, rfl⟩ := cut16 x (by omega)
      rw [List.length_append, u16_length] at h2
      obtain ⟨port, y, hp, rfl⟩ := cut32 y (by omega)
      rw [List.length_append, u32_length] at h2
      obtain ⟨group, y, hg, rfl⟩ := cut32 y (by omega)
      rw [List.length_append, u32_length] at h2
      simp only [List.append_assoc]
      rw [bucket_parts gt len weight port group y r h1 hw hp hg (by omega), (outcome_actions _).2.1 _ h3, err_bind]
  · by_cases hl : b.length < 16
    · exact Or.inr ⟨_, .short b hl⟩
    · obtain ⟨len, weight, port, group, x, r, h1, h2, h3, h4, h5, rfl⟩ := cut_bucket b (by omega)
      rcases (outcome_actions (r.take (len - 16))).2.2 with ⟨s, ss, h, _⟩ | ⟨e, h⟩
      · exact Or.inl ⟨_, .mk len weight port group x r _ _ _ ss h1 h2 h3 h4 h5 ((keyPrinted_iff hD _ _ _).2 rfl)
          ((keyPrinted_iff hD _ _ _).2 rfl) ((keyPrinted_iff hD _ _ _).2 rfl) h⟩
      · have := BucketFails.acts len (u16 weight ++ (u32 port ++ (u32 group ++ x))) r e h1
          (by simp [u16_length, u32_length, h5]) h
        simp only [List.append_assoc] at this
        exact Or.inr ⟨e, this⟩

theorem outcome_buckets (gt least : Nat) (hl : 2 ≤ least) (fuel : Nat) (b : Bytes) (hf : b.length < fuel) :
    OutcomeOf (bucketsText gt least fuel b) (fun ts => ∃ ss, BucketsPrinted gt least b ss ∧ ts = bucketTokens ss)
      (BucketsFail gt least b) :=
  outcome_loop (least := least) (len := (word16 · 0)) (one := fun b => bucket2str gt (b.take (word16 b 0)))
    (f := fun s => [t!"@bucket", s]) (go := bucketsText gt least) (fun _ => rfl)
    (fun n b h => by unfold bucketsText; rw [if_pos h])
    (fun n b h => by
      conv => lhs; unfold bucketsText
      rw [if_neg (by omega), word16_uAt b 0 (by omega)]
      rfl)
    (by omega) (fun b _ => outcome_bucket gt _) fuel b hf

/-! ## Group-mods -/

theorem outcome_tname (t : Nat) :
    OutcomeOf (groupTypeName t) (fun s => groupTypes[t]? = some s) (fun e => 4 ≤ t ∧ e = .indexError) := by
  have hof : ofpgt = groupTypes := by decide
  unfold groupTypeName tupleGet
  rw [hof]
  cases h : groupTypes[t]? with
  | some s =>
    refine (OutcomeOf.pure s).congr (fun a => ?_) (fun e => ⟨False.elim, fun h' => ?_⟩)
    · constructor
      · rintro rfl; rfl
      · intro h; exact (Option.some.inj h).symm
    · have := List.getElem?_eq_none (l := groupTypes) (i := t) h'.1
      rw [this] at h
      cases h
  | none =>
    have h4 : 4 ≤ t := List.getElem?_eq_none_iff.1 h
    exact (OutcomeOf.raise Err.indexError).congr (fun a => ⟨False.elim, fun h => by cases h⟩) (fun e => ⟨fun h => ⟨h4, h⟩, fun h => h.2⟩)

theorem gidPrinted_iff (n : Nat) (ts : List Str) : GidPrinted n ts ↔
    ts = if n == OFPG_ALL then [t!"group=all"] else if n == OFPG_ANY then [] else [t!"group=" ++ fmtD n] := by
  by_cases c : n = 0xfffffffc
  · subst c
    rw [if_pos (show ((0xfffffffc : Nat) == OFPG_ALL) = true from rfl)]
    constructor
    · intro h
      generalize hn : (0xfffffffc : Nat) = n at h
      cases h with
      | all => rfl
      | any => omega
      | num _ s h1 h2 h3 => exact absurd hn.symm h1
    · rintro rfl; exact .all
  · have c' : ¬ (n == OFPG_ALL) = true := by rw [beq_iff_eq]; exact c
    rw [if_neg c']
    by_cases d : n = 0xffffffff
    · subst d
      rw [if_pos (show ((0xffffffff : Nat) == OFPG_ANY) = true from rfl)]
      constructor
      · intro h
        generalize hn : (0xffffffff : Nat) = n at h
        cases h with
        | all => omega
        | any => rfl
        | num _ s h1 h2 h3 => exact absurd hn.symm h2
      · rintro rfl; exact .any
    · have d' : ¬ (n == OFPG_ANY) = true := by rw [beq_iff_eq]; exact d
      rw [if_neg d']
      constructor
      · intro h
        cases h with
        | all => exact absurd rfl c
        | any => exact absurd rfl d
        | num _ s h1 h2 h3 => rw [decimal_eq h3]
      · rintro rfl; exact .num _ _ c d (decimal_fmtD _)

theorem group_parts (x : Bytes) (type z : UInt8) (gid : Nat) (r : Bytes) (h1 : x.length = 10) (h2 : gid < 2 ^ 32) :
    group2str (x ++ type :: z :: (u32 gid ++ r)) = groupTypeName type.toNat >>= fun name =>
      bucketsText type.toNat 17 ((x ++ type :: z :: (u32 gid ++ r)).length + 1) r >>= fun bs =>
      .ok (joinStr t!"," ((if gid == OFPG_ALL then [t!"group=all"] else if gid == OFPG_ANY then [] else [t!"group=" ++ fmtD gid]) ++
        name :: bs)) := by
  generalize hw : x ++ type :: z :: (u32 gid ++ r) = w
  have e10 : uAt w 10 1 = type.toNat := by rw [← hw]; uatl h1
  have e12 : uAt w 12 4 = gid := by rw [← hw]; uatl h1
  have hl : 16 ≤ w.length := by rw [← hw]; simp [u32_length, h1]; omega
  have hd : w.drop 16 = r := by
    rw [← hw, show x ++ type :: z :: (u32 gid ++ r) = (x ++ type :: z :: u32 gid) ++ r by simp]
    exact drop_pre _ r 16 (by simp [u32_length, h1])
  unfold group2str
  rw [need_ok _ _ _ (by omega), ok_bind]
  dsimp only
  rw [e10, e12, hd]

theorem cut_group (b : Bytes) (h : 16 ≤ b.length) : ∃ (x : Bytes) (type z : UInt8) (gid : Nat) (r : Bytes), x.length = 10 ∧
    gid < 2 ^ 32 ∧ b = x ++ type :: z :: (u32 gid ++ r) := by
  obtain ⟨x, r, h1, rfl⟩ := cut_list 10 b (by omega)
  rw [List.length_append, h1] at h
  obtain ⟨t, z, r, rfl⟩ := cut8 r (by omega)
  simp only [List.length_cons] at h
  obtain ⟨gid, r, h2, rfl⟩ := cut32 r (by omega)
  exact ⟨x, t, z, gid, r, h1, h2, rfl⟩

theorem outcome_group_parts (x : Bytes) (type z : UInt8) (gid : Nat) (r : Bytes) (h1 : x.length = 10) (h2 : gid < 2 ^ 32) :
    OutcomeOf (group2str (x ++ type :: z :: (u32 gid ++ r)))
      (fun s => ∃ g name ss, GidPrinted gid g ∧ groupTypes[type.toNat]? = some name ∧ BucketsPrinted type.toNat 17 r ss ∧
        s = joinStr t!"," (g ++ name :: bucketTokens ss))
      (fun e => (4 ≤ type.toNat ∧ e = .indexError) ∨ (type.toNat < 4 ∧ BucketsFail type.toNat 17 r e)) := by
  rw [group_parts x type z gid r h1 h2]
  refine ((outcome_tname type.toNat).bind fun name _ => (outcome_buckets type.toNat 17 (by omega) _ r
    (by simp; omega)).map (f := fun bs => joinStr t!"," ((if gid == OFPG_ALL then [t!"group=all"] else if gid == OFPG_ANY then []
      else [t!"group=" ++ fmtD gid]) ++ name :: bs))).congr (fun s => ?_) (fun e => ?_)
  · constructor
    · rintro ⟨name, hn, _, ⟨ss, hs, rfl⟩, rfl⟩
      exact ⟨_, name, ss, (gidPrinted_iff _ _).2 rfl, hn, hs, rfl⟩
    · rintro ⟨g, name, ss, hg, hn, hs, rfl⟩
      refine ⟨name, hn, _, ⟨ss, hs, rfl⟩, ?_⟩
      rw [(gidPrinted_iff _ _).1 hg]
  · constructor
    · rintro (h | ⟨name, hn, h⟩)
      · exact Or.inl h
      · have : type.toNat < 4 := (List.getElem?_eq_some_iff.1 hn).1
        exact Or.inr ⟨this, h⟩
    · rintro (h | ⟨ht, h⟩)
      · exact Or.inl h
      · exact Or.inr ⟨_, List.getElem?_eq_getElem (l := groupTypes) ht, h⟩

theorem outcome_group (b : Bytes) : OutcomeOf (group2str b) (GroupModPrinted b) (GroupModFails b) := by
  refine ⟨?_, ?_, ?_⟩
  · intro s h
    cases h with
    | mk x type z gid r g name ss h1 h2 h3 h4 h5 =>
      exact (outcome_group_parts x type z gid r h1 h2).1 _ ⟨g, name, ss, h3, h4, h5, rfl⟩
  · intro e h
    cases h with
    | short h =>
      unfold group2str
      rw [need_err _ _ _ (by omega), err_bind]
    | type x type r h1 h2 h3 =>
      obtain ⟨z, r, rfl⟩ := cut_byte r (by omega)
      simp only [List.length_cons] at h2
      obtain ⟨gid, r, h4, rfl⟩ := cut32 r (by omega)
      exact (outcome_group_parts x type z gid r h1 h4).2.1 _ (Or.inl ⟨h3, rfl⟩)
    | bucket x type z gid r _ h1 h2 h3 h4 =>
      exact (outcome_group_parts x type z gid r h1 h2).2.1 _ (Or.inr ⟨h3, h4⟩)
  · by_cases hl : b.length < 16
    · exact Or.inr ⟨_, .short b hl⟩
    · obtain ⟨x, type, z, gid, r, h1, h2, rfl⟩ := cut_group b (by omega)
      rcases (outcome_group_parts x type z gid r h1 h2).2.2 with ⟨s, g, name, ss, h3, h4, h5, _⟩ | ⟨e, ⟨h, rfl⟩ | ⟨h, h'⟩⟩
      · exact Or.inl ⟨_, .mk x type z gid r g name ss h1 h2 h3 h4 h5⟩
      · exact Or.inr ⟨_, .type x type _ h1 (by simp [u32_length]) h⟩
      · exact Or.inr ⟨e, .bucket x type z gid r e h1 h2 h h'⟩

end Ofpstr
