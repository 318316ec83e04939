import Verif.Lemmas.RejectParts

/-!
# Which exceptions refused values raise: rates, addresses, bytes, lists of numbers
-/

set_option linter.unusedSimpArgs false

namespace Ofpstr
open Spec

/-! ## MAC addresses -/

theorem scan_mac : ScanCases macScan MacThen := by
  intro u
  have key : ∀ t, MacThen u t → ∃ g l, macScan u = .ok (g, l) ∧ t = u.drop l := by
    rintro t ⟨a, b, rfl, hm⟩
    obtain ⟨g, h, _⟩ := macScan_value hm t
    exact ⟨g, a.length, h, by simp⟩
  cases h : macScan u with
  | error e =>
    have he : e = .valueError := by
      unfold macScan at h
      repeat' split at h
      all_goals cases h
      rfl
    subst he
    refine Or.inl ⟨rfl, fun r hr => ?_⟩
    obtain ⟨g, l, h', _⟩ := key r hr
    rw [h] at h'; cases h'
  | ok x =>
    obtain ⟨g, l⟩ := x
    obtain ⟨a, r, b, rfl, rfl, hm, _⟩ := macScan_take h
    refine Or.inr ⟨a, r, g, rfl, rfl, ⟨a, b, rfl, hm⟩, fun t ht => ?_⟩
    obtain ⟨g', l', h', rfl⟩ := key t ht
    rw [h] at h'
    cases h'
    simp

theorem refused_mac (key : Key) (u : Str) (e : Err) :
    Refusal (encText key .mac u) u e ↔ Kind.mac.Rejects u e := by
  refine Iff.trans ?_ (refused_scan scan_mac (fun v m => a2bHex (v ++ m) >>= fun p => .ok (header key 6 true ++ p))
    (fun v => a2bHex v >>= fun p => .ok (header key 6 false ++ p)) u ?_ ?_ e)
  · show Refusal (macStr2bin key u) u e ↔ _
    unfold macStr2bin
    simp only [bind_assoc', ok_bind]
  · intro u t x l y k hx hy
    obtain ⟨_, _, b1, _, _, _, h1⟩ := macScan_take hx
    obtain ⟨_, _, b2, _, _, _, h2⟩ := macScan_take hy
    have := (hexText_a2b (hexText_append h1 h2)).1
    exact ⟨_, by rw [this, ok_bind]⟩
  · intro u x l hx
    obtain ⟨_, _, b1, _, _, _, h1⟩ := macScan_take hx
    exact ⟨_, by rw [(hexText_a2b h1).1, ok_bind]⟩

/-! ## Rates -/

theorem noDigit_noStart {r : Str} (h : NoDigit 10 r) : NoStart isDec r := by
  rintro c t rfl
  cases hd : isDec c with
  | false => rfl
  | true =>
    obtain ⟨d, hd⟩ := (isDec_iff c).1 hd
    exact absurd hd (h c t d rfl)

theorem noStart_noDigit {r : Str} (h : NoStart isDec r) : NoDigit 10 r := by
  rintro c t d rfl hd
  have := h c t rfl
  rw [(isDec_iff c).2 ⟨d, hd⟩] at this
  cases this

theorem floatGo_then {u : Str} {n d : Nat} {r : Str} (h : FractionThen u n d r) :
    ∃ a, u = a ++ r ∧ floatGo u = .ok ((n, d), a.length) ∧ ∃ c t, u = c :: t ∧ isDec c = true := by
  unfold floatGo
  dsimp only
  cases h with
  | whole s n _ h hr hp =>
    obtain ⟨h1, h2⟩ := numeral_dec h
    refine ⟨s, rfl, ?_, ?_⟩
    · rw [longest_append isDec s r h2 (noDigit_noStart hr), List.take_left, (digits_numeral h2).2 h, ok_bind,
        List.drop_left, if_neg]
      intro hs
      obtain ⟨t', rfl⟩ := (startsWith_one _ _).1 hs
      exact hp rfl
    · cases s with
      | nil => exact absurd rfl h1
      | cons c s => exact ⟨c, _, rfl, h2 c (by simp)⟩
  | point s n t m _ h h' hr =>
    obtain ⟨h1, h2⟩ := numeral_dec h
    obtain ⟨_, h3⟩ := numeral_dec h'
    refine ⟨s ++ '.' :: t, by simp, ?_, ?_⟩
    · rw [longest_append isDec s _ h2 (noStart_cons (by decide) _), List.take_left, (digits_numeral h2).2 h, ok_bind,
        List.drop_left, if_pos ((startsWith_one _ _).2 ⟨_, rfl⟩), drop_sep,
        longest_append isDec t r h3 (noDigit_noStart hr), slice_part, (digits_numeral h3).2 h', ok_bind]
      simp
    · cases s with
      | nil => exact absurd rfl h1
      | cons c s => exact ⟨c, _, rfl, h2 c (by simp)⟩

theorem floatGo_cases (u : Str) : (floatGo u = .error .valueError) ∨
    ∃ a r n d, u = a ++ r ∧ floatGo u = .ok ((n, d), a.length) ∧ FractionThen u n d r ∧ ∃ s c, a = s ++ [c] ∧ isDec c = true := by
  have dig : ∀ s : Str, (∀ c ∈ s, isDec c = true) → (s = [] ∧ intOfDigits 10 s = .error .valueError) ∨
      (s ≠ [] ∧ ∃ n, intOfDigits 10 s = .ok n) := by
    intro s _
    unfold intOfDigits
    cases s with
    | nil => exact Or.inl ⟨rfl, rfl⟩
    | cons c s => exact Or.inr ⟨by simp, _, rfl⟩
  have last : ∀ s : Str, s ≠ [] → (∀ c ∈ s, isDec c = true) → ∃ t c, s = t ++ [c] ∧ isDec c = true := by
    intro s h1 h2
    exact ⟨s.dropLast, s.getLast h1, (List.dropLast_concat_getLast h1).symm, h2 _ (List.getLast_mem h1)⟩
  obtain ⟨e1, e2, e3⟩ := longest_split isDec u
  generalize u.take (longest isDec u) = s at e1 e2
  generalize u.drop (longest isDec u) = r at e1 e3
  subst e1
  unfold floatGo
  dsimp only
  rw [longest_append isDec s r e2 e3, List.take_left, List.drop_left]
  rcases dig s e2 with ⟨rfl, h⟩ | ⟨hne, n, h⟩
  · left; rw [h, raise_bind]
  · rw [h, ok_bind]
    have hn := (digits_numeral e2).1 h
    by_cases hp : ∃ t, r = '.' :: t
    · obtain ⟨t, rfl⟩ := hp
      rw [if_pos ((startsWith_one _ _).2 ⟨_, rfl⟩), drop_sep]
      obtain ⟨f1, f2, f3⟩ := longest_split isDec t
      generalize t.take (longest isDec t) = s2 at f1 f2
      generalize t.drop (longest isDec t) = r2 at f1 f3
      subst f1
      rw [longest_append isDec s2 r2 f2 f3, slice_part]
      rcases dig s2 f2 with ⟨rfl, h2⟩ | ⟨hne2, m, h2⟩
      · left; rw [h2, raise_bind]
      · rw [h2, ok_bind]
        obtain ⟨s', c, rfl, hc⟩ := last s2 hne2 f2
        refine Or.inr ⟨s ++ '.' :: (s' ++ [c]), r2, _, _, by simp, ?_, .point s n _ m r2 hn ((digits_numeral f2).1 h2)
          (noStart_noDigit f3), s ++ '.' :: s', c, by simp, hc⟩
        simp
    · rw [if_neg (fun h => hp ((startsWith_one _ _).1 h))]
      refine Or.inr ⟨s, r, n, 1, rfl, rfl, .whole s n r hn (noStart_noDigit e3) ?_, last s hne e2⟩
      intro hh
      cases r with
      | nil => cases hh
      | cons c t => cases hh; exact hp ⟨t, rfl⟩

theorem packOne_eq (k : Nat) : packU 1 (k : Int) = if k < 256 then .ok (be 1 k) else .error .structError := by
  rw [packU_wire]
  simp only [fitsIn_one]
  rfl

theorem refused_rate (key : Key) (u : Str) (e : Err) :
    Refusal (encText key .rate u) u e ↔ Kind.rate.Rejects u e := by
  show Refusal (rateStr2bin key u) u e ↔ RateRejects u e
  unfold rateStr2bin
  rw [parseFloat_eq]
  have hKM : ∀ c : Char, isDec c = true → c ≠ 'K' ∧ c ≠ 'M' := by
    intro c hc
    constructor
    · rintro rfl; revert hc; decide
    · rintro rfl; revert hc; decide
  constructor
  · by_cases hm : startsWith u t!"-" = true
    · rw [if_pos hm]
      obtain ⟨t, rfl⟩ := (startsWith_one _ _).1 hm
      have hno : ∀ n d r, ¬ FractionThen ('-' :: t) n d r := by
        intro n d r h
        obtain ⟨_, _, _, c, t', hc, hd⟩ := floatGo_then h
        cases hc
        revert hd; decide
      show Refusal (floatGo t >>= _) _ _ → _
      rcases floatGo_cases t with h | ⟨a, r, n, d, rfl, h, _, s, c, rfl, hc⟩
      · rw [h, raise_bind, refusal_error]
        rintro rfl
        exact .none _ hno
      · rw [h, ok_bind]
        dsimp only
        have e1 : ('-' :: (s ++ [c] ++ r)).drop (s ++ [c]).length = c :: r := by
          have e1 : '-' :: (s ++ [c] ++ r) = ('-' :: s) ++ c :: r := by simp
          have e2 : (s ++ [c]).length = ('-' :: s).length := by simp
          rw [e1, e2, List.drop_left]
        rw [e1]
        dsimp only
        rw [if_neg (by simpa using (hKM c hc).1), if_neg (by simpa using (hKM c hc).2), refusal_error]
        rintro rfl
        exact .none _ hno
    · rw [if_neg hm]
      rcases hf : floatGo_cases u with h | ⟨a, r, n, d, rfl, h, ht, _⟩
      · rw [h, raise_bind, refusal_error]
        rintro rfl
        refine .none _ ?_
        intro n d r h'
        obtain ⟨a, _, h2, _⟩ := floatGo_then h'
        rw [h] at h2; cases h2
      · rw [h, ok_bind]
        dsimp only
        rw [List.drop_left]
        match r with
        | [] =>
          dsimp only
          rw [refusal_error]
          rintro rfl
          exact .short _ n d ht
        | c :: r =>
          dsimp only
          by_cases hk : c = 'K'
          · subst hk
            rw [if_pos (by rfl), packOne_eq]
            split
            · rename_i hs
              rw [ok_bind, refusal_ok]
              rintro ⟨h1, rfl⟩
              match r with
              | [] => simp at h1
              | x :: r => exact .junkKilo _ n d x r ht (by rw [Nat.mul_comm]; exact hs)
            · rename_i hs
              rw [raise_bind, refusal_error]
              rintro rfl
              exact .bigKilo _ n d r ht (by rw [Nat.mul_comm]; omega)
          · rw [if_neg (by simpa using hk)]
            by_cases hk' : c = 'M'
            · subst hk'
              rw [if_pos (by rfl), packOne_eq]
              split
              · rename_i hs
                rw [ok_bind, refusal_ok]
                rintro ⟨h1, rfl⟩
                match r with
                | [] => simp at h1
                | x :: r => exact .junkMega _ n d x r ht (by rw [Nat.mul_comm]; exact hs)
              · rename_i hs
                rw [raise_bind, refusal_error]
                rintro rfl
                exact .bigMega _ n d r ht (by rw [Nat.mul_comm]; omega)
            · rw [if_neg (by simpa using hk'), refusal_error]
              rintro rfl
              exact .unit _ n d c r ht hk hk'
  · intro hr
    have go : ∀ {n d r}, FractionThen u n d r → ∃ a, u = a ++ r ∧
        floatGo (if startsWith u t!"-" then u.drop 1 else u) = .ok ((n, d), a.length) := by
      intro n d r h
      obtain ⟨a, h1, h2, c, t, h3, h4⟩ := floatGo_then h
      refine ⟨a, h1, ?_⟩
      rw [if_neg, h2]
      intro hs
      obtain ⟨t', rfl⟩ := (startsWith_one _ _).1 hs
      cases h3
      revert h4; decide
    cases hr with
    | none h =>
      by_cases hm : startsWith u t!"-" = true
      · rw [if_pos hm]
        obtain ⟨t, rfl⟩ := (startsWith_one _ _).1 hm
        show Refusal (floatGo t >>= _) _ _
        rcases floatGo_cases t with h | ⟨a, r, n, d, rfl, h, _, s, c, rfl, hc⟩
        · rw [h, raise_bind, refusal_error]
        · rw [h, ok_bind]
          dsimp only
          have e1 : ('-' :: (s ++ [c] ++ r)).drop (s ++ [c]).length = c :: r := by
            have e1 : '-' :: (s ++ [c] ++ r) = ('-' :: s) ++ c :: r := by simp
            have e2 : (s ++ [c]).length = ('-' :: s).length := by simp
            rw [e1, e2, List.drop_left]
          rw [e1]
          dsimp only
          rw [if_neg (by simpa using (hKM c hc).1), if_neg (by simpa using (hKM c hc).2), refusal_error]
      · rw [if_neg hm]
        rcases floatGo_cases u with h' | ⟨a, r, n, d, rfl, _, ht, _⟩
        · rw [h', raise_bind, refusal_error]
        · exact absurd ht (h _ _ _)
    | short n d h =>
      obtain ⟨a, h1, g⟩ := go h
      rw [g, ok_bind]
      dsimp only
      rw [h1, List.drop_left]
      dsimp only
      rw [refusal_error]
    | unit n d c r h h1 h2 =>
      obtain ⟨a, h3, g⟩ := go h
      rw [g, ok_bind]
      dsimp only
      rw [h3, List.drop_left]
      dsimp only
      rw [if_neg (by simpa using h1), if_neg (by simpa using h2), refusal_error]
    | bigKilo n d r h h1 =>
      obtain ⟨a, h3, g⟩ := go h
      rw [g, ok_bind]
      dsimp only
      rw [h3, List.drop_left]
      dsimp only
      rw [if_pos (by rfl), packOne_eq, if_neg (by rw [Nat.mul_comm]; omega), raise_bind, refusal_error]
    | junkKilo n d c r h h1 =>
      obtain ⟨a, h3, g⟩ := go h
      rw [g, ok_bind]
      dsimp only
      rw [h3, List.drop_left]
      dsimp only
      rw [if_pos (by rfl), packOne_eq, if_pos (by rw [Nat.mul_comm]; exact h1), ok_bind, refusal_ok]
      exact ⟨by simp, rfl⟩
    | bigMega n d r h h1 =>
      obtain ⟨a, h3, g⟩ := go h
      rw [g, ok_bind]
      dsimp only
      rw [h3, List.drop_left]
      dsimp only
      rw [if_neg (by decide), if_pos (by rfl), packOne_eq, if_neg (by rw [Nat.mul_comm]; omega), raise_bind, refusal_error]
    | junkMega n d c r h h1 =>
      obtain ⟨a, h3, g⟩ := go h
      rw [g, ok_bind]
      dsimp only
      rw [h3, List.drop_left]
      dsimp only
      rw [if_neg (by decide), if_pos (by rfl), packOne_eq, if_pos (by rw [Nat.mul_comm]; exact h1), ok_bind, refusal_ok]
      exact ⟨by simp, rfl⟩

/-! ## Value and mask split at the slash -/

theorem refused_split {d dm : Str → Py Bytes} {F : Bytes → Bytes → Bytes × Nat} {G : Bytes → Bytes × Nat}
    {P : Str → Prop} {E E' : Str → Err → Prop} (v : Str)
    (hF : ∀ p q, (F p q).2 = v.length) (hG : ∀ p, (G p).2 = v.length)
    (hP : ∀ a y, v = a ++ y → '/' ∉ a → (P a ↔ ∃ p, d a = .ok p))
    (hE : ∀ a y, v = a ++ y → '/' ∉ a → ∀ e, E a e ↔ d a = .error e)
    (hE' : ∀ a b, v = a ++ '/' :: b → '/' ∉ a → P a → ∀ e, E' b e ↔ dm b = .error e) (e : Err) :
    Refusal (match split1 '/' v with
      | (v, m) => d v >>= fun p => match m with
        | some m => dm m >>= fun q => .ok (F p q)
        | none => .ok (G p)) v e ↔ SplitRejects P E E' v e := by
  have nF : ∀ p q e, ¬ Refusal (.ok (F p q)) v e := by
    intro p q e h
    exact (refusal_ok.1 (show Refusal (.ok ((F p q).1, (F p q).2)) v e from h)).1 (hF p q)
  have nG : ∀ p e, ¬ Refusal (.ok (G p)) v e := by
    intro p e h
    exact (refusal_ok.1 (show Refusal (.ok ((G p).1, (G p).2)) v e from h)).1 (hG p)
  constructor
  · rcases hs : split1 '/' v with ⟨a, m⟩
    dsimp only
    have hi := split1_inv hs
    have ha : '/' ∉ a := fun h => hi.1 _ h rfl
    cases m with
    | none =>
      have hv : v = a := hi.2
      cases hd : d a with
      | error e' =>
        rw [raise_bind, refusal_error]
        rintro rfl
        rw [hv]
        exact .plain a _ ha ((hE a [] (by simpa using hv) ha _).2 hd)
      | ok p =>
        rw [ok_bind]
        exact fun h => absurd h (nG p e)
    | some b =>
      have hv : v = a ++ '/' :: b := hi.2
      cases hd : d a with
      | error e' =>
        rw [raise_bind, refusal_error]
        rintro rfl
        have := (hE a _ hv ha _).2 hd
        rw [hv]
        exact .value a b _ ha this
      | ok p =>
        rw [ok_bind]
        have hp := (hP a _ hv ha).2 ⟨p, hd⟩
        dsimp only
        cases hm : dm b with
        | error e' =>
          rw [raise_bind, refusal_error]
          rintro rfl
          have := (hE' a b hv ha hp _).2 hm
          rw [hv]
          exact .mask a b _ ha hp this
        | ok q =>
          rw [ok_bind]
          exact fun h => absurd h (nF p q e)
  · intro hr
    cases hr with
    | plain _ _ ha h =>
      rw [split1_none '/' v (fun c hc he => ha (he ▸ hc))]
      dsimp only
      rw [(hE v [] (by simp) ha e).1 h, raise_bind, refusal_error]
    | value a b _ ha h =>
      rw [split1_some '/' a b (fun c hc he => ha (he ▸ hc))]
      dsimp only
      rw [(hE a _ rfl ha e).1 h, raise_bind, refusal_error]
    | mask a b _ ha hp h =>
      rw [split1_some '/' a b (fun c hc he => ha (he ▸ hc))]
      dsimp only
      obtain ⟨p, hd⟩ := (hP a _ rfl ha).1 hp
      rw [hd, ok_bind]
      rw [(hE' a b rfl ha hp e).1 h, raise_bind, refusal_error]

/-! ## Addresses -/

theorem inetAton_rejects {s : Str} (hs : ∀ b, inetAton s = .ok b ↔ Aton 4 s b) (e : Err) :
    Ipv4Rejects s e ↔ inetAton s = .error e := by
  have nul : '\x00' ∈ s → inetAton s = .error .valueError := by
    intro h
    unfold inetAton
    rw [if_pos (by simpa using h)]
  have bad : '\x00' ∉ s → (∃ b, inetAton s = .ok b) ∨ inetAton s = .error .osError := by
    intro h
    unfold inetAton
    rw [if_neg (by simpa using h)]
    split
    · exact Or.inr rfl
    · dsimp only
      split
      · exact Or.inl ⟨_, rfl⟩
      · exact Or.inr rfl
  constructor
  · intro h
    cases h with
    | nul h => exact nul h
    | bad h h' =>
      rcases bad h with ⟨b, hb⟩ | hb
      · exact absurd ((hs b).1 hb) (h' b)
      · exact hb
  · intro h
    by_cases hn : '\x00' ∈ s
    · rw [nul hn] at h
      cases h
      exact .nul s hn
    · rcases bad hn with ⟨b, hb⟩ | hb
      · rw [hb] at h; cases h
      · rw [hb] at h
        cases h
        refine .bad s hn fun b h' => ?_
        rw [(hs b).2 h'] at hb; cases hb

theorem pyInt_err {s : Str} {e : Err} (h : pyInt s = .error e) : e = .valueError := by
  unfold pyInt at h
  dsimp only at h
  split at h
  · split at h <;> cases h
  · cases h; rfl

theorem ipv4Mask_error (m : Str) (e : Err) : ipv4Mask m = .error e ↔ inetAton m = .error e := by
  cases h : inetAton m with
  | ok b => unfold ipv4Mask; rw [h]
  | error e' =>
    cases e' with
    | valueError =>
      have hm := ipv4Mask_eq m
      have : ipv4Mask m = .error .valueError := by
        unfold ipv4Mask
        rw [h]
        dsimp only
        cases hp : pyInt m with
        | error e2 =>
          rw [raise_bind]
          rw [pyInt_err hp]
        | ok n =>
          exfalso
          unfold inetAton at h
          split at h
          · rename_i hc
            exact pyInt_nul hp (by simpa using hc)
          · split at h
            · cases h
            · dsimp only at h
              split at h <;> cases h
      rw [this]
    | _ => unfold ipv4Mask; rw [h]

theorem refused_ipv4 (key : Key) (v : Str) (hg : getToken v = ([], v, [])) (e : Err) :
    Refusal (encText key .ipv4 v) v e ↔ Kind.ipv4.Rejects v e := by
  show Refusal (ipv4Str2bin key v) v e ↔ SplitRejects _ _ _ v e
  unfold ipv4Str2bin
  rw [hg]
  have head : ∀ a y, v = a ++ y → ∀ b, inetAton a = .ok b ↔ Aton 4 a b := fun a y hv =>
    inetAton_tok hg (x := []) (s := a) (y := y) (by simpa using hv) (by simp)
  refine refused_split (F := fun p q => (header key 4 true ++ (p ++ q), 0 + v.length))
    (G := fun p => (header key 4 false ++ p, 0 + v.length)) v (fun _ _ => by simp) (fun _ => by simp) ?_ ?_ ?_ e
  · intro a y hv _
    exact exists_congr fun b => (head a y hv b).symm
  · intro a y hv _ e
    exact inetAton_rejects (head a y hv) e
  · rintro a b hv _ ⟨p, hp⟩ e
    rw [ipv4Mask_error]
    refine inetAton_rejects (inetAton_tok hg (x := a ++ ['/']) (s := b) (y := []) (by simp [hv]) ?_) e
    intro c hc
    rcases List.mem_append.1 hc with hc | hc
    · exact cchar_notOpen (aton_chars hp c hc)
    · simp at hc; subst hc; decide

theorem inetPton_rejects (s : Str) (e : Err) : Ipv6Rejects s e ↔ inetPton s = .error e := by
  have nul : '\x00' ∈ s → inetPton s = .error .valueError := by
    intro h
    unfold inetPton
    rw [if_pos (by simpa using h)]
  have bad : '\x00' ∉ s → (∃ b, inetPton s = .ok b) ∨ inetPton s = .error .osError := by
    intro h
    unfold inetPton
    rw [if_neg (by simpa using h)]
    split
    · exact Or.inr rfl
    · exact Or.inl ⟨_, rfl⟩
  constructor
  · intro h
    cases h with
    | nul h => exact nul h
    | bad h h' =>
      rcases bad h with ⟨b, hb⟩ | hb
      · exact absurd ((inetPton_iff s b).1 hb) (h' b)
      · exact hb
  · intro h
    by_cases hn : '\x00' ∈ s
    · rw [nul hn] at h
      cases h
      exact .nul s hn
    · rcases bad hn with ⟨b, hb⟩ | hb
      · rw [hb] at h; cases h
      · rw [hb] at h
        cases h
        refine .bad s hn fun b h' => ?_
        rw [(inetPton_iff s b).2 h'] at hb; cases hb

theorem prefix_struct (n : Int) (hn : n < 128) :
    packAll [(8, ((2 ^ 128 - 1) * 2 ^ (128 - n).toNat : Int) / 2 ^ 64), (8, ((2 ^ 128 - 1) * 2 ^ (128 - n).toNat : Int) % 2 ^ 64)] =
      .error .structError := by
  cases h : packAll [(8, ((2 ^ 128 - 1) * 2 ^ (128 - n).toNat : Int) / 2 ^ 64), (8, ((2 ^ 128 - 1) * 2 ^ (128 - n).toNat : Int) % 2 ^ 64)] with
  | ok p =>
    have := (prefix_pack n (by omega) p).1 h
    omega
  | error e =>
    rw [packAll_eq] at h
    split at h <;> cases h
    rfl

theorem ipv6Mask_rejects (m : Str) (e : Err) : Ipv6MaskRejects m e ↔ ipv6Mask m = .error e := by
  have no : (∀ b, ¬ Ipv6Value m b) → ∃ e', inetPton m = .error e' := by
    intro h
    cases hp : inetPton m with
    | ok b => exact absurd ((inetPton_iff m b).1 hp) (h b)
    | error e' => exact ⟨e', rfl⟩
  unfold ipv6Mask
  constructor
  · intro h
    cases h with
    | none h h' =>
      obtain ⟨e', he⟩ := no h
      rw [he]
      dsimp only
      cases hp : pyInt m with
      | ok n => exact absurd ((pyInt_iff _ _).1 hp) (h' n)
      | error e2 => rw [raise_bind, pyInt_err hp]
    | long n h h' hn =>
      obtain ⟨e', he⟩ := no h
      rw [he]
      dsimp only
      rw [(pyInt_iff _ _).2 h', ok_bind, if_pos (by omega)]
    | short n h h' hn =>
      obtain ⟨e', he⟩ := no h
      rw [he]
      dsimp only
      rw [(pyInt_iff _ _).2 h', ok_bind, if_neg (by omega)]
      exact prefix_struct n hn
  · intro h
    cases hp : inetPton m with
    | ok b => rw [hp] at h; cases h
    | error e' =>
      have hno : ∀ b, ¬ Ipv6Value m b := by
        intro b hb
        rw [(inetPton_iff m b).2 hb] at hp; cases hp
      rw [hp] at h
      dsimp only at h
      cases hi : pyInt m with
      | error e2 =>
        rw [hi, raise_bind] at h
        cases h
        rw [pyInt_err hi]
        refine .none m hno fun n hn => ?_
        rw [(pyInt_iff _ _).2 hn] at hi; cases hi
      | ok n =>
        have hn := (pyInt_iff _ _).1 hi
        rw [hi, ok_bind] at h
        rcases Int.lt_trichotomy n 128 with hlt | rfl | hgt
        · rw [if_neg (by omega)] at h
          have := prefix_struct n hlt
          rw [this] at h
          cases h
          exact .short m n hno hn hlt
        · have := (ipv6Mask_iff m (List.replicate 16 255)).2 (Or.inr ⟨hn, rfl⟩)
          unfold ipv6Mask at this
          rw [hp] at this
          dsimp only at this
          rw [hi, ok_bind, h] at this
          cases this
        · rw [if_pos (by omega)] at h
          cases h
          exact .long m n hno hn hgt

theorem refused_ipv6 (key : Key) (v : Str) (hg : getToken v = ([], v, [])) (e : Err) :
    Refusal (encText key .ipv6 v) v e ↔ Kind.ipv6.Rejects v e := by
  show Refusal (ipv6Str2bin key v) v e ↔ SplitRejects _ _ _ v e
  unfold ipv6Str2bin
  rw [hg]
  exact refused_split (F := fun p q => (header key 16 true ++ (p ++ q), 0 + v.length))
    (G := fun p => (header key 16 false ++ p, 0 + v.length)) v (fun _ _ => by simp) (fun _ => by simp)
    (fun a _ _ _ => exists_congr fun b => (inetPton_iff a b).symm) (fun a _ _ _ e => inetPton_rejects a e)
    (fun _ b _ _ _ e => ipv6Mask_rejects b e) e

end Ofpstr
