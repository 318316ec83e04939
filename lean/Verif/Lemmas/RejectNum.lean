import Verif.Lemmas.ValueExact
import Verif.Spec.MatchReject
import Verif.Lemmas.TextBits

/-!
# Which exceptions refused values raise: numbers
-/

set_option linter.unusedSimpArgs false

namespace Ofpstr
open Spec

theorem raise_bind {α β : Type} (e : Err) (f : α → Py β) : ((.error e : Py α) >>= f) = .error e := rfl

/-- The exception of an encoder whose result has to be as long as the text. -/
def Refusal (x : Py (Bytes × Nat)) (v : Str) (e : Err) : Prop :=
  x = .error e ∨ (e = .assertionError ∧ ∃ bin l, x = .ok (bin, l) ∧ l ≠ v.length)

theorem refusal_error {e e' : Err} {v : Str} : Refusal (.error e') v e ↔ e' = e := by
  unfold Refusal
  constructor
  · rintro (h | ⟨_, _, _, h, _⟩)
    · exact Except.error.inj h
    · cases h
  · rintro rfl; exact Or.inl rfl

theorem refusal_ok {bin : Bytes} {l : Nat} {v : Str} {e : Err} :
    Refusal (.ok (bin, l)) v e ↔ l ≠ v.length ∧ e = .assertionError := by
  unfold Refusal
  constructor
  · rintro (h | ⟨h1, _, _, h, h2⟩)
    · cases h
    · cases h; exact ⟨h2, h1⟩
  · rintro ⟨h, rfl⟩; exact Or.inr ⟨rfl, _, _, rfl, h⟩

/-- Either there is no integer, or there is exactly one. -/
theorem int_cases (u : Str) : (parseInt u = .error .valueError ∧ NoInt u) ∨
    ∃ a r v, u = a ++ r ∧ parseInt u = .ok (v, a.length) ∧ IntThen u v r ∧ ∀ w t, IntThen u w t → w = v ∧ t = r := by
  have key : ∀ w t, IntThen u w t → ∃ l, parseInt u = .ok (w, l) ∧ t = u.drop l := by
    rintro w t ⟨l, h, rfl⟩
    exact ⟨l, (parseInt_iff _ _ _).2 h, rfl⟩
  cases h : parseInt u with
  | error e =>
    refine Or.inl ⟨by rw [parseInt_err u e h], fun v r hi => ?_⟩
    obtain ⟨l, h', _⟩ := key v r hi
    rw [h] at h'; cases h'
  | ok x =>
    obtain ⟨v, l⟩ := x
    obtain ⟨a, r, rfl, rfl, _⟩ := parseInt_take h
    refine Or.inr ⟨a, r, v, rfl, rfl, ⟨a.length, (parseInt_iff _ _ _).1 h, by simp⟩, fun w t hi => ?_⟩
    obtain ⟨l, h', rfl⟩ := key w t hi
    rw [h] at h'
    cases h'
    exact ⟨rfl, by simp⟩


/-- The same for anything that is scanned. -/
def ScanCases {α : Type} (scan : Str → Py (α × Nat)) (S : Str → Str → Prop) : Prop :=
  ∀ u, (scan u = .error .valueError ∧ ∀ r, ¬ S u r) ∨
    ∃ a r x, u = a ++ r ∧ scan u = .ok (x, a.length) ∧ S u r ∧ ∀ t, S u t → t = r

theorem scan_int : ScanCases parseInt fun u r => ∃ v, IntThen u v r := by
  intro u
  rcases int_cases u with ⟨h, hno⟩ | ⟨a, r, v, hu, h, hi, uni⟩
  · exact Or.inl ⟨h, fun r ⟨v, hv⟩ => hno v r hv⟩
  · exact Or.inr ⟨a, r, v, hu, h, ⟨v, hi⟩, fun t ⟨w, hw⟩ => (uni w t hw).2⟩

theorem refused_scan {α : Type} {scan : Str → Py (α × Nat)} {S : Str → Str → Prop} (hs : ScanCases scan S)
    (F : α → α → Py Bytes) (G : α → Py Bytes) (u : Str)
    (hF : ∀ u t x l y k, scan u = .ok (x, l) → scan t = .ok (y, k) → ∃ b, F x y = .ok b)
    (hG : ∀ u x l, scan u = .ok (x, l) → ∃ b, G x = .ok b) (e : Err) :
    Refusal (scan u >>= fun x => if startsWith (u.drop x.2) t!"/" then
        scan (u.drop (x.2 + 1)) >>= fun y => F x.1 y.1 >>= fun b => .ok (b, x.2 + (1 + y.2))
      else G x.1 >>= fun b => .ok (b, x.2)) u e ↔ ScanRejects S u e := by
  rcases hs u with ⟨h, hno⟩ | ⟨a, r, v, rfl, h, hi, uni⟩
  · rw [h, raise_bind, refusal_error]
    constructor
    · rintro rfl
      exact .value u hno
    · intro hr
      cases hr with
      | value => rfl
      | junk c r h => exact absurd h (hno _)
      | mask r h => exact absurd h (hno _)
      | junkMask r c t h => exact absurd h (hno _)
  · rw [h, ok_bind]
    dsimp only
    rw [List.drop_left]
    match r with
    | [] =>
      obtain ⟨b, hb⟩ := hG _ _ _ h
      rw [if_neg (by simp [startsWith]), hb, ok_bind, refusal_ok]
      constructor
      · rintro ⟨h1, _⟩; simp at h1
      · intro hr
        cases hr with
        | value h => exact absurd hi (h _)
        | junk c r h => cases uni _ h
        | mask r h => cases uni _ h
        | junkMask r c t h => cases uni _ h
    | c :: r =>
      by_cases hc : c = '/'
      · subst hc
        rw [if_pos ((startsWith_one _ _).2 ⟨_, rfl⟩), drop_sep]
        rcases hs r with ⟨h2, hno⟩ | ⟨a2, r2, v2, rfl, h2, hi2, uni2⟩
        · rw [h2, raise_bind, refusal_error]
          constructor
          · rintro rfl
            exact .mask _ r hi hno
          · intro hr
            cases hr with
            | value h => exact absurd hi (h _)
            | junk c r h h' => cases uni _ h; exact absurd rfl h'
            | mask r h => rfl
            | junkMask r c t h h' => cases uni _ h; exact absurd h' (hno _)
        · obtain ⟨b, hb⟩ := hF _ _ _ _ _ _ h h2
          rw [h2, ok_bind]
          dsimp only
          rw [hb, ok_bind, refusal_ok]
          constructor
          · rintro ⟨h1, rfl⟩
            match r2 with
            | [] => simp at h1; omega
            | d :: r2 => exact .junkMask _ _ d r2 hi hi2
          · intro hr
            cases hr with
            | value h => exact absurd hi (h _)
            | junk c r h h' => cases uni _ h; exact absurd rfl h'
            | mask r h h' => cases uni _ h; exact absurd hi2 (h' _)
            | junkMask r c t h h' =>
              cases uni _ h
              cases uni2 _ h'
              refine ⟨?_, rfl⟩
              simp
              omega
      · obtain ⟨b, hb⟩ := hG _ _ _ h
        rw [if_neg (by
          intro h'
          obtain ⟨t, ht⟩ := (startsWith_one _ _).1 h'
          cases ht; exact hc rfl), hb, ok_bind, refusal_ok]
        constructor
        · rintro ⟨h1, rfl⟩
          exact .junk _ c r hi hc
        · intro hr
          cases hr with
          | value h => exact absurd hi (h _)
          | junk c r h h' => exact ⟨by simp, rfl⟩
          | mask r h h' => cases uni _ h; exact absurd rfl hc
          | junkMask r c t h h' => cases uni _ h; exact absurd rfl hc

theorem refused_uint (key : Key) (n : Nat) (u : Str) (e : Err) :
    Refusal (encText key (.uint n) u) u e ↔ (Kind.uint n).Rejects u e := by
  refine Iff.trans ?_ (refused_scan scan_int (fun v m => .ok (header key n true ++ (intBE n v ++ intBE n m)))
    (fun v => .ok (header key n false ++ intBE n v)) u (fun _ _ _ _ _ _ _ _ => ⟨_, rfl⟩) (fun _ _ _ _ => ⟨_, rfl⟩) e)
  rfl

theorem int_then {u : Str} {v : Int} {r : Str} (h : IntThen u v r) :
    ∃ a, u = a ++ r ∧ parseInt (a ++ r) = .ok (v, a.length) := by
  rcases int_cases u with ⟨_, hno⟩ | ⟨a, r', v', rfl, h', _, uni⟩
  · exact absurd h (hno _ _)
  · obtain ⟨rfl, rfl⟩ := uni _ _ h
    exact ⟨a, rfl, h'⟩

theorem no_int {u : Str} (h : NoInt u) : parseInt u = .error .valueError := by
  rcases int_cases u with ⟨h', _⟩ | ⟨a, r', v', rfl, h', hi, uni⟩
  · exact h'
  · exact absurd hi (h _ _)

theorem slash_not {c : Char} {r : Str} (h : c ≠ '/') : ¬ startsWith (c :: r) t!"/" = true := by
  intro h'
  obtain ⟨t, ht⟩ := (startsWith_one _ _).1 h'
  cases ht; exact h rfl

theorem slash_yes (r : Str) : startsWith ('/' :: r) t!"/" = true := (startsWith_one _ _).2 ⟨_, rfl⟩

theorem refused_le (key : Key) (n : Nat) (u : Str) (e : Err) :
    Refusal (encText key (.le n) u) u e ↔ (Kind.le n).Rejects u e := by
  show Refusal (leStr2bin key n u) u e ↔ LeRejects u e
  unfold leStr2bin
  constructor
  · rcases int_cases u with ⟨h, hno⟩ | ⟨a, r, v, rfl, h, hi, -⟩
    · rw [h, raise_bind, refusal_error]
      rintro rfl
      exact .value u hno
    · rw [h, ok_bind]
      dsimp only
      rw [List.drop_left]
      match r with
      | [] =>
        rw [if_neg (by simp [startsWith]), refusal_ok]
        rintro ⟨h1, _⟩; simp at h1
      | c :: r =>
        by_cases hc : c = '/'
        · subst hc
          rw [if_pos (slash_yes _), drop_sep]
          rcases int_cases r with ⟨h2, hno⟩ | ⟨a2, r2, v2, rfl, h2, hi2, -⟩
          · rw [h2, raise_bind, refusal_error]
            rintro rfl
            exact .noMask _ v r hi hno
          · rw [h2, ok_bind, refusal_error]
            rintro rfl
            exact .mask _ v _ v2 r2 hi hi2
        · rw [if_neg (slash_not hc), refusal_ok]
          rintro ⟨_, rfl⟩
          exact .junk _ v c r hi hc
  · intro hr
    cases hr with
    | value h => rw [no_int h, raise_bind, refusal_error]
    | junk v c r h hc =>
      obtain ⟨a, rfl, g⟩ := int_then h
      rw [g, ok_bind]
      dsimp only
      rw [List.drop_left, if_neg (slash_not hc), refusal_ok]
      exact ⟨by simp, rfl⟩
    | noMask v r h h2 =>
      obtain ⟨a, rfl, g⟩ := int_then h
      rw [g, ok_bind]
      dsimp only
      rw [List.drop_left, if_pos (slash_yes _), drop_sep, no_int h2, raise_bind, refusal_error]
    | mask v r m t h h2 =>
      obtain ⟨a2, rfl, g2⟩ := int_then h2
      obtain ⟨a, rfl, g⟩ := int_then h
      rw [g, ok_bind]
      dsimp only
      rw [List.drop_left, if_pos (slash_yes _), drop_sep, g2, ok_bind, refusal_error]

theorem refused_signed (key : Key) (u : Str) (e : Err) :
    Refusal (encText key .s8 u) u e ↔ Kind.signed.Rejects u e := by
  show Refusal (s8Str2bin key u) u e ↔ SignedRejects u e
  unfold s8Str2bin packS8
  constructor
  · rcases int_cases u with ⟨h, hno⟩ | ⟨a, r, v, rfl, h, hi, -⟩
    · rw [h, raise_bind, refusal_error]
      rintro rfl
      exact .value u hno
    · rw [h, ok_bind]
      dsimp only
      split
      · rename_i hv
        rw [ok_bind, refusal_ok]
        rintro ⟨h1, rfl⟩
        match r with
        | [] => simp at h1
        | c :: r => exact .junk _ v c r hi hv.1 hv.2
      · rename_i hv
        rw [raise_bind, refusal_error]
        rintro rfl
        exact .big _ v r hi hv
  · intro hr
    cases hr with
    | value h => rw [no_int h, raise_bind, refusal_error]
    | big v r h hv =>
      obtain ⟨a, rfl, g⟩ := int_then h
      rw [g, ok_bind]
      dsimp only
      rw [if_neg hv, raise_bind, refusal_error]
    | junk v c r h h1 h2 =>
      obtain ⟨a, rfl, g⟩ := int_then h
      rw [g, ok_bind]
      dsimp only
      rw [if_pos ⟨h1, h2⟩, ok_bind, refusal_ok]
      exact ⟨by simp, rfl⟩

/-! ## Ports -/

theorem ports_none (n : Nat) (hn : n = 2 ∨ n = 4) (u : Str) (l : List (Nat × Str)) (st : Nat × Bytes)
    (h : (l.foldl (init := st) fun st (e : Nat × Str) =>
      if startsWith u (lowerStr e.2) || startsWith u (upperStr e.2) then
        (e.2.length, beBytes n (e.1 % 256 ^ n)) else st).2 = []) :
    st.2 = [] ∧ ∀ e ∈ l, ¬ (startsWith u (lowerStr e.2) || startsWith u (upperStr e.2)) = true := by
  induction l generalizing st with
  | nil => exact ⟨h, fun e he => by cases he⟩
  | cons e l ih =>
    rw [List.foldl_cons] at h
    obtain ⟨h1, h2⟩ := ih _ h
    have hc : ¬ (startsWith u (lowerStr e.2) || startsWith u (upperStr e.2)) = true := by
      intro hc
      rw [if_pos hc] at h1
      have := congrArg List.length h1
      simp at this
      omega
    rw [if_neg hc] at h1
    refine ⟨h1, fun x hx => ?_⟩
    cases hx with
    | head => exact hc
    | tail _ hx => exact h2 x hx

theorem reserved_ofpp : ∀ x ∈ reservedPorts ++ reservedPortsUpper, ∃ e ∈ ofpp, e.1 = x.1 ∧
    (lowerStr e.2 = x.2 ∨ upperStr e.2 = x.2) := by decide +kernel

/-- The reserved name that a text starts with. -/
theorem portNames_cases (n : Nat) (hn : n = 2 ∨ n = 4) (u : Str) :
    (portNames n u = (0, []) ∧ ∀ k s r, (k, s) ∈ reservedPorts ++ reservedPortsUpper → u ≠ s ++ r) ∨
    ∃ k s r b, (k, s) ∈ reservedPorts ++ reservedPortsUpper ∧ u = s ++ r ∧ portNames n u = (s.length, b) ∧
      b.isEmpty = false := by
  rcases portNames_foldl n u ofpp (0, []) with h0 | ⟨e, he, hs, h0⟩
  · refine Or.inl ⟨h0, ?_⟩
    rintro k s r hks rfl
    obtain ⟨_, h⟩ := ports_none n hn (s ++ r) ofpp (0, []) (by rw [h0])
    obtain ⟨e, he, -, h1⟩ := reserved_ofpp _ hks
    refine h e he ?_
    dsimp only at h1
    rw [Bool.or_eq_true]
    rcases h1 with h1 | h1
    · left; rw [h1]; exact List.isPrefixOf_iff_prefix.2 (List.prefix_append _ _)
    · right; rw [h1]; exact List.isPrefixOf_iff_prefix.2 (List.prefix_append _ _)
  · obtain ⟨h1, h2, h3, h4, _⟩ := ofpp_reserved e he
    have hb : (beBytes n (e.1 % 256 ^ n)).isEmpty = false := by
      rw [List.isEmpty_eq_false_iff]
      intro h
      have := congrArg List.length h
      simp at this
      omega
    rcases hs with hs | hs
    · obtain ⟨r, rfl⟩ := List.isPrefixOf_iff_prefix.1 hs
      exact Or.inr ⟨_, _, r, _, h1, rfl, by rw [h3]; exact h0, hb⟩
    · obtain ⟨r, rfl⟩ := List.isPrefixOf_iff_prefix.1 hs
      exact Or.inr ⟨_, _, r, _, h2, rfl, by rw [h4]; exact h0, hb⟩

/-- No text starts with two reserved names, and none with a reserved name and a number. -/
theorem reserved_free : ∀ x ∈ reservedPorts ++ reservedPortsUpper, ∀ y ∈ reservedPorts ++ reservedPortsUpper,
    List.isPrefixOf x.2 y.2 = true → x.2 = y.2 := by decide +kernel

theorem reserved_nodigit : ∀ x ∈ reservedPorts ++ reservedPortsUpper, ∀ c ∈ x.2.head?, c ≠ '-' ∧ isDec c = false := by
  decide +kernel

theorem reserved_nonempty : ∀ x ∈ reservedPorts ++ reservedPortsUpper, x.2 ≠ [] := by decide +kernel

theorem reserved_same {k s r k' s' r'} (h : (k, s) ∈ reservedPorts ++ reservedPortsUpper)
    (h' : (k', s') ∈ reservedPorts ++ reservedPortsUpper) (he : s ++ r = s' ++ r') : s = s' := by
  rcases Nat.le_total s.length s'.length with hl | hl
  · exact reserved_free _ h _ h' (List.isPrefixOf_iff_prefix.2
      (List.prefix_of_prefix_length_le (List.prefix_append s r) (he ▸ List.prefix_append s' r') hl))
  · exact (reserved_free _ h' _ h (List.isPrefixOf_iff_prefix.2
      (List.prefix_of_prefix_length_le (List.prefix_append s' r') (he ▸ List.prefix_append s r) hl))).symm

theorem reserved_int {k s r v t} (h : (k, s) ∈ reservedPorts ++ reservedPortsUpper) : ¬ IntThen (s ++ r) v t := by
  rintro ⟨l, hi, -⟩
  obtain ⟨c, t, hc, hd⟩ := intSyntax_start hi
  cases s with
  | nil => exact reserved_nonempty _ h rfl
  | cons d s =>
    cases hc
    obtain ⟨h1, h2⟩ := reserved_nodigit _ h c rfl
    rcases hd with hd | hd
    · exact h1 hd
    · rw [h2] at hd; cases hd

theorem refused_port (key : Key) (n : Nat) (hn : n = 2 ∨ n = 4) (u : Str) (e : Err) :
    Refusal (encText key (.port n) u) u e ↔ (Kind.port n).Rejects u e := by
  show Refusal (portStr2bin key n u) u e ↔ PortRejects n u e
  unfold portStr2bin
  constructor
  · rcases portNames_cases n hn u with ⟨h0, hno⟩ | ⟨k, s, r, b, hks, rfl, h0, hb⟩
    · rw [h0]
      dsimp only
      rw [if_pos (by rfl)]
      rcases int_cases u with ⟨h, hni⟩ | ⟨a, r, v, rfl, h, hi, -⟩
      · rw [h, raise_bind, refusal_error]
        rintro rfl
        exact .none u hno hni
      · rw [h, ok_bind]
        dsimp only
        rw [packU_wire]
        split
        · rename_i hv
          rw [ok_bind, refusal_ok]
          rintro ⟨h1, rfl⟩
          match r with
          | [] => simp at h1
          | c :: r => exact .junk _ v c r hi hv
        · rename_i hv
          rw [raise_bind, refusal_error]
          rintro rfl
          exact .big _ v r hi hv
    · rw [h0]
      dsimp only
      rw [if_neg (by rw [hb]; decide), refusal_ok]
      rintro ⟨h1, rfl⟩
      match r with
      | [] => simp at h1
      | c :: r => exact .name k s c r hks
  · intro hr
    have num : ∀ {u v r}, IntThen u v r → portNames n u = (0, []) := by
      intro u v r hi
      rcases portNames_cases n hn u with ⟨h0, -⟩ | ⟨k, s, r, b, hks, rfl, -⟩
      · exact h0
      · exact absurd hi (reserved_int hks)
    cases hr with
    | name k s c r hks =>
      rcases portNames_cases n hn (s ++ c :: r) with ⟨_, hno⟩ | ⟨k', s', r', b, hks', he, h0, hb⟩
      · exact absurd rfl (hno k s (c :: r) hks)
      · have := reserved_same hks hks' he
        subst this
        rw [h0]
        dsimp only
        rw [if_neg (by rw [hb]; decide), refusal_ok]
        exact ⟨by simp, rfl⟩
    | none _ hno hni =>
      rcases portNames_cases n hn u with ⟨h0, -⟩ | ⟨k, s, r, b, hks, rfl, -⟩
      · rw [h0]
        dsimp only
        rw [if_pos (by rfl), no_int hni, raise_bind, refusal_error]
      · exact absurd rfl (hno k s r hks)
    | big _ v r h hv =>
      rw [num h]
      dsimp only
      obtain ⟨a, rfl, g⟩ := int_then h
      rw [if_pos (by rfl), g, ok_bind]
      dsimp only
      rw [packU_wire, if_neg hv, raise_bind, refusal_error]
    | junk _ v c r h hv =>
      rw [num h]
      dsimp only
      obtain ⟨a, rfl, g⟩ := int_then h
      rw [if_pos (by rfl), g, ok_bind]
      dsimp only
      rw [packU_wire, if_pos hv, ok_bind, refusal_ok]
      exact ⟨by simp, rfl⟩

end Ofpstr
