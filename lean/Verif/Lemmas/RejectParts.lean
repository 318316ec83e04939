import Verif.Lemmas.RejectNum

/-!
# Which exceptions refused values raise: pairs of numbers, rates, MAC addresses
-/

set_option linter.unusedSimpArgs false

namespace Ofpstr
open Spec

/-! ## Two numbers -/

/-- Two numbers up to the packed bytes, as both `pkt_str2bin` and `ch_str2bin` read them. -/
def readTwo (u : Str) : Py (Bytes × Nat) := do
  let (v1, l) ← parseInt u
  assertColon u l
  let (v2, l2) ← parseInt (u.drop (l + 1))
  let payload ← packAll [(2, v1), (2, v2)]
  .ok (payload, l + 1 + l2)

theorem pack2_eq (v w : Int) : packAll [(2, v), (2, w)] =
    if FitsIn 2 v ∧ FitsIn 2 w then .ok (be 2 v.toNat ++ be 2 w.toNat) else .error .structError := by
  rw [packAll_eq]
  simp

theorem assertColon_nil (a : Str) : assertColon (a ++ []) a.length = .error .indexError := by
  unfold assertColon; rw [List.drop_left]

theorem assertColon_other (a : Str) {c : Char} (r : Str) (h : c ≠ ':') :
    assertColon (a ++ c :: r) a.length = .error .assertionError := by
  unfold assertColon; rw [List.drop_left]
  simp [pyAssert, h]

theorem readTwo_cases (u : Str) : (∃ e, readTwo u = .error e ∧ TwoRejects u e) ∨
    ∃ a r b, u = a ++ r ∧ readTwo u = .ok (b, a.length) ∧ TwoThen u r := by
  unfold readTwo
  rcases int_cases u with ⟨h, hno⟩ | ⟨a, r, v, rfl, h, hi, -⟩
  · exact Or.inl ⟨_, by rw [h, raise_bind], .first u hno⟩
  · rw [h, ok_bind]
    dsimp only
    match r with
    | [] => exact Or.inl ⟨_, by rw [assertColon_nil, raise_bind], .short _ v hi⟩
    | c :: r =>
      by_cases hc : c = ':'
      · subst hc
        rw [assertColon_mk, ok_bind, drop_sep]
        rcases int_cases r with ⟨h2, hno⟩ | ⟨a2, r2, w, rfl, h2, hi2, -⟩
        · exact Or.inl ⟨_, by rw [h2, raise_bind], .second _ v r hi hno⟩
        · rw [h2, ok_bind]
          dsimp only
          rw [pack2_eq]
          split
          · rename_i hf
            refine Or.inr ⟨a ++ ':' :: a2, r2, be 2 v.toNat ++ be 2 w.toNat, by simp, ?_, v, w, _, hi, hi2, hf.1, hf.2⟩
            rw [ok_bind]
            simp
            omega
          · rename_i hf
            exact Or.inl ⟨_, by rw [raise_bind], .big _ v _ w r2 hi hi2 hf⟩
      · exact Or.inl ⟨_, by rw [assertColon_other a r hc, raise_bind], .colon _ v c r hi hc⟩

theorem readTwo_rejects {u : Str} {e : Err} (h : TwoRejects u e) : readTwo u = .error e := by
  unfold readTwo
  cases h with
  | first h => rw [no_int h, raise_bind]
  | short v h =>
    obtain ⟨a, rfl, g⟩ := int_then h
    rw [g, ok_bind]
    dsimp only
    rw [assertColon_nil, raise_bind]
  | colon v c r h hc =>
    obtain ⟨a, rfl, g⟩ := int_then h
    rw [g, ok_bind]
    dsimp only
    rw [assertColon_other a r hc, raise_bind]
  | second v r h h2 =>
    obtain ⟨a, rfl, g⟩ := int_then h
    rw [g, ok_bind]
    dsimp only
    rw [assertColon_mk, ok_bind, drop_sep, no_int h2, raise_bind]
  | big v r w t h h2 hf =>
    obtain ⟨a2, rfl, g2⟩ := int_then h2
    obtain ⟨a, rfl, g⟩ := int_then h
    rw [g, ok_bind]
    dsimp only
    rw [assertColon_mk, ok_bind, drop_sep, g2, ok_bind]
    dsimp only
    rw [pack2_eq, if_neg hf, raise_bind]

theorem readTwo_then {u r : Str} (h : TwoThen u r) : ∃ a b, u = a ++ r ∧ readTwo (a ++ r) = .ok (b, a.length) := by
  obtain ⟨v, w, t, h, h2, f1, f2⟩ := h
  obtain ⟨a2, rfl, g2⟩ := int_then h2
  obtain ⟨a, rfl, g⟩ := int_then h
  refine ⟨a ++ ':' :: a2, be 2 v.toNat ++ be 2 w.toNat, by simp, ?_⟩
  have e : (a ++ ':' :: a2) ++ r = a ++ ':' :: (a2 ++ r) := by simp
  unfold readTwo
  rw [e, g, ok_bind]
  dsimp only
  rw [assertColon_mk, ok_bind, drop_sep, g2, ok_bind]
  dsimp only
  rw [pack2_eq, if_pos ⟨f1, f2⟩, ok_bind]
  simp
  omega

theorem pkt_two (key : Key) (u : Str) : pktStr2bin key u =
    readTwo u >>= fun x => .ok (header key 4 false ++ x.1, x.2) := by
  unfold pktStr2bin readTwo
  simp only [bind_assoc', ok_bind]
  congr 1; funext x
  congr 1; funext y
  congr 1; funext z
  congr 1; funext w
  rw [show x.2 + z.2 + 1 = x.2 + 1 + z.2 by omega]

theorem refused_packetType (key : Key) (u : Str) (e : Err) :
    Refusal (encText key .pkt u) u e ↔ Kind.packetType.Rejects u e := by
  show Refusal (pktStr2bin key u) u e ↔ PacketTypeRejects u e
  rw [pkt_two]
  constructor
  · rcases readTwo_cases u with ⟨e', h, hr⟩ | ⟨a, r, b, rfl, h, ht⟩
    · rw [h, raise_bind, refusal_error]
      rintro rfl
      exact .two u _ hr
    · rw [h, ok_bind, refusal_ok]
      rintro ⟨h1, rfl⟩
      match r with
      | [] => simp at h1
      | c :: r => exact .junk _ c r ht
  · intro hr
    cases hr with
    | two _ h => rw [readTwo_rejects h, raise_bind, refusal_error]
    | junk c r h =>
      obtain ⟨a, b, rfl, g⟩ := readTwo_then h
      rw [g, ok_bind, refusal_ok]
      exact ⟨by simp, rfl⟩

/-! ## Channels -/

/-- The first number of the mask of `ch_str2bin`. -/
def chFirst (r : Str) : Py (Int × Nat) := if startsWith r t!":" then .ok (0, 0) else parseInt r

/-- The mask of `ch_str2bin`: bytes and length. -/
def readChMask (r : Str) : Py (Bytes × Nat) :=
  chFirst r >>= fun x => if startsWith (r.drop x.2) t!":" then
      parseInt (r.drop (x.2 + 1)) >>= fun y => packAll [(2, x.1), (2, y.1)] >>= fun mask => .ok (mask, x.2 + 1 + y.2)
    else packAll [(2, x.1), (2, 0)] >>= fun mask => .ok (mask, x.2)

theorem ch_two (key : Key) (u : Str) : chStr2bin key u =
    readTwo u >>= fun x => if startsWith (u.drop x.2) t!"/" then
        readChMask (u.drop (x.2 + 1)) >>= fun y => .ok (header key 4 true ++ (x.1 ++ y.1), x.2 + (1 + y.2))
      else .ok (header key 4 false ++ x.1, x.2) := by
  unfold chStr2bin readTwo readChMask chFirst
  simp only [bind_assoc', ok_bind]
  congr 1; funext x
  congr 1; funext y
  congr 1; funext z
  congr 1; funext w
  have tail : ∀ a : Int × Nat, (if startsWith (u.drop (x.2 + 1 + z.2 + 1 + a.2)) t!":" then
      parseInt (u.drop (x.2 + 1 + z.2 + 1 + a.2 + 1)) >>= fun y => packAll [(2, a.1), (2, y.1)] >>= fun mask =>
        .ok (header key 4 true ++ (w ++ mask), x.2 + 1 + z.2 + (1 + a.2 + 1 + y.2))
    else packAll [(2, a.1), (2, 0)] >>= fun mask =>
      .ok (header key 4 true ++ (w ++ mask), x.2 + 1 + z.2 + (1 + a.2))) =
    (if startsWith ((u.drop (x.2 + 1 + z.2 + 1)).drop a.2) t!":" then
      parseInt ((u.drop (x.2 + 1 + z.2 + 1)).drop (a.2 + 1)) >>= fun y => packAll [(2, a.1), (2, y.1)] >>= fun mask => .ok (mask, a.2 + 1 + y.2)
    else packAll [(2, a.1), (2, 0)] >>= fun mask => .ok (mask, a.2)) >>= fun y =>
      .ok (header key 4 true ++ (w ++ y.1), x.2 + 1 + z.2 + (1 + y.2)) := by
    intro a
    rw [List.drop_drop, List.drop_drop]
    have e : x.2 + 1 + z.2 + 1 + a.2 + 1 = x.2 + 1 + z.2 + 1 + (a.2 + 1) := by omega
    rw [e]
    split
    · simp only [bind_assoc', ok_bind]
      congr 1; funext b
      congr 1; funext c
      rw [show 1 + a.2 + 1 + b.2 = 1 + (a.2 + 1 + b.2) by omega]
    · simp only [bind_assoc', ok_bind]
  by_cases c1 : startsWith (u.drop (x.2 + 1 + z.2)) t!"/" = true
  · rw [if_pos c1, if_pos c1]
    by_cases c2 : startsWith (u.drop (x.2 + 1 + z.2 + 1)) t!":" = true
    · rw [show (if startsWith (u.drop (x.2 + 1 + z.2 + 1)) t!":" = true then (.ok (0, 0) : Py (Int × Nat))
        else parseInt (u.drop (x.2 + 1 + z.2 + 1))) = .ok (0, 0) from if_pos c2, ok_bind]
      exact (if_pos c2).trans (tail (0, 0))
    · rw [if_neg c2, if_neg c2]
      congr 1; funext a
      exact tail a
  · rw [if_neg c1, if_neg c1]

theorem maskFirst_cases (r : Str) : ((∀ v t, ¬ MaskFirst r v t) ∧
      chFirst r = .error .valueError) ∨
    ∃ a t v, r = a ++ t ∧ chFirst r = .ok (v, a.length) ∧
      MaskFirst r v t ∧ ∀ w z, MaskFirst r w z → w = v ∧ z = t := by
  unfold chFirst
  have col : ∀ t v z, ¬ IntThen (':' :: t) v z := by
    rintro t v z ⟨l, h, _⟩
    exact parseInt_colon t v l ((parseInt_iff _ _ _).2 h)
  by_cases hr : ∃ t, r = ':' :: t
  · obtain ⟨t, rfl⟩ := hr
    refine Or.inr ⟨[], _, 0, rfl, by rw [if_pos ((startsWith_one _ _).2 ⟨_, rfl⟩)]; rfl, .missing t, ?_⟩
    intro w z h
    cases h with
    | missing => exact ⟨rfl, rfl⟩
    | number _ _ _ h => exact absurd h (col _ _ _)
  · rw [if_neg (fun h => hr ((startsWith_one _ _).1 h))]
    have only : ∀ w z, MaskFirst r w z → IntThen r w z := by
      intro w z h
      cases h with
      | missing t => exact absurd ⟨t, rfl⟩ hr
      | number _ _ _ h => exact h
    rcases int_cases r with ⟨h, hno⟩ | ⟨a, t, v, rfl, h, hi, uni⟩
    · exact Or.inl ⟨fun v t hm => hno _ _ (only _ _ hm), h⟩
    · exact Or.inr ⟨a, t, v, rfl, h, .number _ _ _ hi, fun w z hm => uni _ _ (only _ _ hm)⟩

theorem colon_not {c : Char} {r : Str} (h : c ≠ ':') : ¬ startsWith (c :: r) t!":" = true := by
  intro h'
  obtain ⟨t, ht⟩ := (startsWith_one _ _).1 h'
  cases ht; exact h rfl

theorem fits_zero : FitsIn 2 0 := by decide

theorem refused_chMask (r : Str) (e : Err) : Refusal (readChMask r) r e ↔ ChannelMaskRejects r e := by
  unfold readChMask
  rcases maskFirst_cases r with ⟨hno, h⟩ | ⟨a, t, v, rfl, h, hm, uni⟩
  · rw [h, raise_bind, refusal_error]
    constructor
    · rintro rfl; exact .first r hno
    · intro hr
      cases hr with
      | first _ => rfl
      | second v t h => exact absurd h (hno _ _)
      | big v t w z h => exact absurd h (hno _ _)
      | junk v t w c z h => exact absurd h (hno _ _)
      | bigAlone v t h => exact absurd h (hno _ _)
      | junkAlone v c t h => exact absurd h (hno _ _)
  · rw [h, ok_bind]
    dsimp only
    rw [List.drop_left]
    by_cases ht : ∃ t', t = ':' :: t'
    · obtain ⟨t, rfl⟩ := ht
      rw [if_pos ((startsWith_one _ _).2 ⟨_, rfl⟩), drop_sep]
      rcases int_cases t with ⟨h2, hno⟩ | ⟨a2, z, w, rfl, h2, hi2, uni2⟩
      · rw [h2, raise_bind, refusal_error]
        constructor
        · rintro rfl; exact .second _ v t hm hno
        · intro hr
          cases hr with
          | first h => exact absurd hm (h _ _)
          | second v t h => rfl
          | big v t w z h h2 => cases (uni _ _ h).2; exact absurd h2 (hno _ _)
          | junk v t w c z h h2 => cases (uni _ _ h).2; exact absurd h2 (hno _ _)
          | bigAlone v t h h2 => cases (uni _ _ h).2; exact absurd rfl h2
          | junkAlone v c t h h2 => cases (uni _ _ h).2; exact absurd rfl h2
      · rw [h2, ok_bind]
        dsimp only
        rw [pack2_eq]
        by_cases hf : FitsIn 2 v ∧ FitsIn 2 w
        · rw [if_pos hf, ok_bind, refusal_ok]
          constructor
          · rintro ⟨h1, rfl⟩
            match z with
            | [] => simp at h1; omega
            | c :: z => exact .junk _ v _ w c z hm hi2 hf.1 hf.2
          · intro hr
            cases hr with
            | first h => exact absurd hm (h _ _)
            | second v t h h3 => cases (uni _ _ h).2; exact absurd hi2 (h3 _ _)
            | big v t w z h h3 hf' =>
              obtain ⟨rfl, e1⟩ := uni _ _ h
              cases e1
              cases (uni2 _ _ h3).1
              exact absurd hf hf'
            | junk v t w c z h h3 =>
              cases (uni _ _ h).2
              cases (uni2 _ _ h3).2
              exact ⟨by simp; omega, rfl⟩
            | bigAlone v t h h2 => cases (uni _ _ h).2; exact absurd rfl h2
            | junkAlone v c t h h2 => cases (uni _ _ h).2; exact absurd rfl h2
        · rw [if_neg hf, raise_bind, refusal_error]
          constructor
          · rintro rfl
            exact .big _ v _ w z hm hi2 hf
          · intro hr
            cases hr with
            | first h => exact absurd hm (h _ _)
            | second v t h h3 => cases (uni _ _ h).2; exact absurd hi2 (h3 _ _)
            | big v t w z h h3 hf' => rfl
            | junk v t w c z h h3 f1 f2 =>
              obtain ⟨rfl, e1⟩ := uni _ _ h
              cases e1
              cases (uni2 _ _ h3).1
              exact absurd ⟨f1, f2⟩ hf
            | bigAlone v t h h2 => cases (uni _ _ h).2; exact absurd rfl h2
            | junkAlone v c t h h2 => cases (uni _ _ h).2; exact absurd rfl h2
    · rw [if_neg (fun h => ht ((startsWith_one _ _).1 h)), pack2_eq]
      have hh : t.head? ≠ some ':' := by
        intro h
        cases t with
        | nil => cases h
        | cons c t => cases h; exact ht ⟨t, rfl⟩
      by_cases hf : FitsIn 2 v
      · rw [if_pos ⟨hf, fits_zero⟩, ok_bind, refusal_ok]
        constructor
        · rintro ⟨h1, rfl⟩
          match t with
          | [] => simp at h1
          | c :: t => exact .junkAlone _ v c t hm (fun h => hh (by rw [h]; rfl)) hf
        · intro hr
          cases hr with
          | first h => exact absurd hm (h _ _)
          | second v t h h3 => cases (uni _ _ h).2; exact absurd rfl hh
          | big v t w z h h3 hf' => cases (uni _ _ h).2; exact absurd rfl hh
          | junk v t w c z h h3 => cases (uni _ _ h).2; exact absurd rfl hh
          | bigAlone v t h h2 h3 => cases (uni _ _ h).1; exact absurd hf h3
          | junkAlone v c t h h2 => cases (uni _ _ h).2; exact ⟨by simp, rfl⟩
      · rw [if_neg (fun h => hf h.1), raise_bind, refusal_error]
        constructor
        · rintro rfl
          exact .bigAlone _ v t hm hh hf
        · intro hr
          cases hr with
          | first h => exact absurd hm (h _ _)
          | second v t h h3 => cases (uni _ _ h).2; exact absurd rfl hh
          | big v t w z h h3 hf' => rfl
          | junk v t w c z h h3 => cases (uni _ _ h).2; exact absurd rfl hh
          | bigAlone v t h h2 h3 => rfl
          | junkAlone v c t h h2 h3 => cases (uni _ _ h).1; exact absurd h3 hf

theorem refused_channel (key : Key) (u : Str) (e : Err) :
    Refusal (encText key .ch u) u e ↔ Kind.channel.Rejects u e := by
  show Refusal (chStr2bin key u) u e ↔ ChannelRejects u e
  rw [ch_two]
  have tail : ∀ (a r : Str) (b : Bytes), Refusal (readChMask r >>= fun y =>
      .ok (header key 4 true ++ (b ++ y.1), a.length + (1 + y.2))) (a ++ '/' :: r) e ↔ Refusal (readChMask r) r e := by
    intro a r b
    cases h : readChMask r with
    | error e' => rw [raise_bind, refusal_error, refusal_error]
    | ok x =>
      obtain ⟨b', l⟩ := x
      rw [ok_bind, refusal_ok, refusal_ok]
      simp only [List.length_append, List.length_cons]
      constructor
      · rintro ⟨h1, rfl⟩; exact ⟨by omega, rfl⟩
      · rintro ⟨h1, rfl⟩; exact ⟨by omega, rfl⟩
  constructor
  · rcases readTwo_cases u with ⟨e', h, hr⟩ | ⟨a, r, b, rfl, h, ht⟩
    · rw [h, raise_bind, refusal_error]
      rintro rfl
      exact .two u _ hr
    · rw [h, ok_bind]
      dsimp only
      rw [List.drop_left]
      match r with
      | [] =>
        rw [if_neg (by simp [startsWith]), refusal_ok]
        rintro ⟨h1, _⟩; simp at h1
      | c :: r =>
        by_cases hc : c = '/'
        · subst hc
          rw [if_pos (slash_yes _), drop_sep, tail, refused_chMask]
          exact fun h => .mask _ r e ht h
        · rw [if_neg (slash_not hc), refusal_ok]
          rintro ⟨_, rfl⟩
          exact .junk _ c r ht hc
  · intro hr
    cases hr with
    | two _ h => rw [readTwo_rejects h, raise_bind, refusal_error]
    | junk c r h hc =>
      obtain ⟨a, b, rfl, g⟩ := readTwo_then h
      rw [g, ok_bind]
      dsimp only
      rw [List.drop_left, if_neg (slash_not hc), refusal_ok]
      exact ⟨by simp, rfl⟩
    | mask r _ h hm =>
      obtain ⟨a, b, rfl, g⟩ := readTwo_then h
      rw [g, ok_bind]
      dsimp only
      rw [List.drop_left, if_pos (slash_yes _), drop_sep, tail, refused_chMask]
      exact hm

end Ofpstr
