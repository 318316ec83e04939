import Verif.Lemmas.Shape

/-!
# Texts accepted by `str2oxm`: their items, and putting accepted texts together
-/

namespace Ofpstr
open Spec

/-! ## reading a token when text is appended -/

theorem takeWhile_stable {p : Char → Bool} (l x : Str) (h : l.dropWhile p ≠ []) :
    (l ++ x).takeWhile p = l.takeWhile p ∧ (l ++ x).dropWhile p = l.dropWhile p ++ x := by
  induction l with
  | nil => simp at h
  | cons c l ih =>
    simp only [List.cons_append, List.takeWhile, List.dropWhile] at h ⊢
    split
    · rename_i hc
      simp only [hc] at h
      exact ⟨by rw [(ih h).1], (ih h).2⟩
    · exact ⟨rfl, rfl⟩

theorem drop_takeWhile {p : Char → Bool} (l : Str) :
    l.drop (l.takeWhile p).length = l.dropWhile p := by
  induction l with
  | nil => rfl
  | cons c l ih =>
    simp only [List.takeWhile, List.dropWhile]
    split
    · simpa using ih
    · rfl

theorem dropWhile_nil {p : Char → Bool} (l : Str) : l.dropWhile p = [] ↔ ∀ c ∈ l, p c = true := by
  induction l with
  | nil => simp
  | cons c l ih =>
    simp only [List.dropWhile]
    split
    · rename_i h; simp [ih, h]
    · rename_i h; simp [h]

/-- The head does not change when text is appended after something that is not head. -/
theorem tokenHead_stable (s x : Str) (hne : s.drop (tokenHead s).length ≠ []) :
    tokenHead (s ++ x) = tokenHead s := by
  cases hd : s.dropWhile isReSpace with
  | nil =>
    exfalso; apply hne
    have h1 : tokenHead s = s.takeWhile (fun c => isReSpace c || c == ',') := by
      unfold tokenHead; rw [hd]
    rw [h1, drop_takeWhile]
    rw [dropWhile_nil] at hd ⊢
    intro c hc; simp [hd c hc]
  | cons c r =>
    obtain ⟨e1, e2⟩ := takeWhile_stable (p := isReSpace) s x (by rw [hd]; simp)
    rw [hd, List.cons_append] at e2
    by_cases hc : c = '='
    · subst hc
      have h1 : tokenHead s = s.takeWhile isReSpace ++ '=' :: r.takeWhile isReSpace := by
        unfold tokenHead; simp only [hd]
      have h2 : tokenHead (s ++ x) = (s ++ x).takeWhile isReSpace ++
          '=' :: (r ++ x).takeWhile isReSpace := by
        unfold tokenHead; simp only [e2]
      rw [h1] at hne
      have hs : s = s.takeWhile isReSpace ++ '=' :: r := by
        rw [← hd, List.takeWhile_append_dropWhile]
      have hr : r.dropWhile isReSpace ≠ [] := by
        intro h
        apply hne
        conv => lhs; arg 2; rw [hs]
        rw [List.length_append, ← List.drop_drop]
        simp [drop_takeWhile, h]
      rw [h1, h2, e1, (takeWhile_stable r x hr).1]
    · have h1 : tokenHead s = s.takeWhile (fun c => isReSpace c || c == ',') := by
        unfold tokenHead; rw [hd]; split
        · rename_i h; simp at h; exact absurd h.1 hc
        · rfl
      have h2 : tokenHead (s ++ x) = (s ++ x).takeWhile (fun c => isReSpace c || c == ',') := by
        unfold tokenHead; rw [e2]; split
        · rename_i h; simp at h; exact absurd h.1 hc
        · rfl
      rw [h1, drop_takeWhile] at hne
      rw [h1, h2, (takeWhile_stable s x hne).1]

theorem getToken_drop (s : Str) :
    s.drop (tokenHead s).length = (getToken s).2.1 ++ (getToken s).2.2 := by
  have happ := getToken_append s
  conv => lhs; arg 2; rw [← happ]
  rw [getToken_fst, List.append_assoc]
  simp

theorem atEnd_append {r : Str} (h : AtEnd r) (hn : r ≠ []) (x : Str) : AtEnd (r ++ x) := by
  cases r with
  | nil => exact absurd rfl hn
  | cons c t => intro c' t' he; cases he; exact h c t rfl

/-- Appending a comma and more after a complete token. -/
theorem getToken_more (s h b r : Str) (hs : getToken s = (h, b, r))
    (hc : r ≠ [] ∨ (b ≠ [] ∧ ¬ OpenToken b)) (x : Str) :
    getToken (s ++ ',' :: x) = (h, b, r ++ ',' :: x) := by
  have happ := getToken_append s
  have hfst := getToken_fst s
  have hdrop := getToken_drop s
  have hcases := getToken_cases s
  rw [hs] at happ hfst hdrop hcases
  dsimp only at happ hfst hdrop hcases
  have hne : s.drop (tokenHead s).length ≠ [] := by
    rw [hdrop]; rcases hc with hc | hc
    · simp [hc]
    · simp [hc.1]
  apply getToken_of_head
  · rw [← happ]; simp
  · rw [tokenHead_stable _ _ hne, hfst]
  · rcases hcases with h' | h'
    · exact h'.1
    · rcases hc with hc | hc
      · exact absurd h'.2 hc
      · exact absurd h'.1 hc.2
  · by_cases hr : r = []
    · subst hr; exact atEnd_comma x
    · rcases hcases with h' | h'
      · exact atEnd_append h'.2 hr _
      · exact absurd h'.2 hr

/-- The body starts with a plain character. -/
theorem getToken_plainStart (s : Str) : PlainStart (getToken s).2.1 := by
  intro c t hb
  have hho := tokenHead_headOf s
  have hdrop := getToken_drop s
  have hcases := getToken_cases s
  have hne : ¬ SepChar c ∧ c ≠ '=' := by
    have pr : ∀ o e, Pair o e → ¬ SepChar o ∧ o ≠ '=' := by
      intro o e h; cases h <;> decide
    rcases hcases with ⟨h, _⟩ | ⟨h, _⟩
    · rw [hb] at h
      generalize hx : c :: t = x at h
      cases h with
      | nil => cases hx
      | char c s h1 h2 _ _ => cases hx; exact ⟨h1, h2⟩
      | group o e p s h1 _ _ => cases hx; exact pr _ _ h1
    · rw [hb] at h
      generalize hx : c :: t = x at h
      cases h with
      | start o e s h1 _ => cases hx; exact pr _ _ h1
      | char c s h1 h2 _ _ => cases hx; exact ⟨h1, h2⟩
      | group o e p s h1 _ _ => cases hx; exact pr _ _ h1
  rw [hb] at hdrop
  refine ⟨?_, fun h => hne.1 (Or.inl h), hne.2⟩
  generalize hh : tokenHead s = h at hho hdrop
  cases hho with
  | eq w1 w2 r _ _ h3 =>
    apply h3 c (t ++ (getToken (w1 ++ '=' :: w2 ++ r)).2.2)
    rw [List.drop_left] at hdrop
    simpa using hdrop
  | run h r _ _ h3 =>
    rw [List.drop_left] at hdrop
    exact (h3 c (t ++ (getToken (h ++ r)).2.2) (by simpa using hdrop)).1

/-- A token that was read is read again, whole. -/
theorem getToken_again (s h b r : Str) (hs : getToken s = (h, b, r)) (h' : Str) (hh : Head h')
    (hb : b ≠ []) : getToken (h' ++ b) = (h', b, []) := by
  have hps := getToken_plainStart s
  have hcases := getToken_cases s
  have hdrop := getToken_drop s
  have hbody : (getToken s).2.1 = tokenBody ((s.drop (tokenHead s).length).length + 1)
    (s.drop (tokenHead s).length) := rfl
  rw [hs] at hps hcases hdrop hbody
  dsimp only at hps hcases hdrop hbody
  rcases hcases with h1 | ⟨_, h2⟩
  · have := getToken_head hh h1.1 atEnd_nil hps hb
    simpa using this
  · subst h2
    simp only [List.append_nil] at hdrop
    rw [hdrop] at hbody
    have e1 : tokenHead (h' ++ b) = h' := tokenHead_of_head hh hps
    unfold getToken
    simp only [e1]
    have e2 : (h' ++ b).drop h'.length = b := by simp
    rw [e2, ← hbody]
    simp

/-! ## what an encoder that returns has read -/

theorem parseInt_pos (u : Str) (v : Int) (l : Nat) (h : parseInt u = .ok (v, l)) : 0 < l := by
  have hn : ∀ b ds n, Numeral b ds n → 0 < ds.length := by
    intro b ds n h
    cases h <;> simp
  cases (parseInt_iff u v l).1 h with
  | neg ds r n h1 => omega
  | hex x ds r n => omega
  | oct ds r n => omega
  | dec ds r n h1 => exact hn _ _ _ h1

theorem getToken_zero (u : Str) (h : (getToken u).1.length + (getToken u).2.1.length = 0) :
    u = [] := by
  by_contra hu
  have h1 := getToken_progress u hu
  have h2 := congrArg List.length (getToken_append u)
  simp only [List.length_append] at h2
  exact absurd h1 (by rw [← h2]; simp only [Nat.not_lt]; omega)

theorem macScan_pos (u v : Str) (l : Nat) (h : macScan u = .ok (v, l)) : 0 < l := by
  unfold macScan at h
  repeat' split at h
  all_goals first | (cases h; done) | (cases h; omega)

theorem portNames_pos (size : Nat) (u : Str) (h : (portNames size u).2.isEmpty = false) :
    0 < (portNames size u).1 := by
  have key : ∀ (l : List (Nat × Str)) (st : Nat × Bytes), (∀ e ∈ l, 0 < e.2.length) →
      (st.2 = [] ∨ 0 < st.1) →
      ((l.foldl (init := st) fun st (v, name) =>
        if startsWith u (lowerStr name) || startsWith u (upperStr name) then
          (name.length, beBytes size (v % 256 ^ size)) else st).2 = [] ∨
      0 < (l.foldl (init := st) fun st (v, name) =>
        if startsWith u (lowerStr name) || startsWith u (upperStr name) then
          (name.length, beBytes size (v % 256 ^ size)) else st).1) := by
    intro l
    induction l with
    | nil => intro st _ h; exact h
    | cons x l ih =>
      intro st hl h
      rw [List.foldl_cons]
      apply ih _ (fun e he => hl e (by simp [he]))
      dsimp only
      split
      · right; exact hl x (by simp)
      · exact h
  rcases key ofpp (0, []) (by decide) (Or.inl rfl) with h' | h'
  · unfold portNames at h; rw [h'] at h; simp at h
  · exact h'

theorem parseFloat_any (u : Str) (x : (Nat × Nat)) (l : Nat) (_h : parseFloat u = .ok (x, l)) :
    0 < l + 1 := by omega

/-- Only an empty byte string is read without consuming anything. -/
theorem encText_zero (key : Key) (k : Enc) (u : Str) (bin : Bytes)
    (hk : ∀ s, k = .comp s → s.length ≠ 1) (h : encText key k u = .ok (bin, 0)) :
    (k = .hex ∨ k = .ssid) ∧ u = [] := by
  cases k <;> simp only [encText] at h
  case uint n =>
    obtain ⟨⟨num, rlen⟩, hp, h⟩ := bind_ok h
    have := parseInt_pos _ _ _ hp
    dsimp only at h
    split at h
    · obtain ⟨⟨m, e⟩, _, h⟩ := bind_ok h
      simp only [Except.ok.injEq, Prod.mk.injEq] at h; omega
    · simp only [Except.ok.injEq, Prod.mk.injEq] at h; omega
  case port n =>
    unfold portStr2bin at h
    dsimp only at h
    split at h
    · obtain ⟨⟨num, rlen⟩, hp, h⟩ := bind_ok h
      have := parseInt_pos _ _ _ hp
      obtain ⟨p, _, h⟩ := bind_ok h
      simp only [Except.ok.injEq, Prod.mk.injEq] at h; omega
    · rename_i he
      have := portNames_pos n u (by simpa using he)
      simp only [Except.ok.injEq, Prod.mk.injEq] at h; omega
  case mac =>
    obtain ⟨⟨v, rlen⟩, hv, h⟩ := bind_ok h
    have := macScan_pos _ _ _ hv
    dsimp only at h
    split at h
    · obtain ⟨⟨m, e⟩, hm, h⟩ := bind_ok h
      obtain ⟨p, hp, h⟩ := bind_ok h
      simp only [Except.ok.injEq, Prod.mk.injEq] at h; omega
    · obtain ⟨p, hp, h⟩ := bind_ok h
      simp only [Except.ok.injEq, Prod.mk.injEq] at h; omega
  case ipv4 =>
    unfold ipv4Str2bin at h
    dsimp only at h
    obtain ⟨p, hp, h⟩ := bind_ok h
    have hz : (getToken u).1.length + (getToken u).2.1.length = 0 := by
      split at h
      · obtain ⟨m, _, h⟩ := bind_ok h
        simp only [Except.ok.injEq, Prod.mk.injEq] at h; exact h.2
      · simp only [Except.ok.injEq, Prod.mk.injEq] at h; exact h.2
    rw [getToken_zero u hz] at hp
    cases hp
  case ipv6 =>
    unfold ipv6Str2bin at h
    dsimp only at h
    obtain ⟨p, hp, h⟩ := bind_ok h
    have hz : (getToken u).1.length + (getToken u).2.1.length = 0 := by
      split at h
      · obtain ⟨m, _, h⟩ := bind_ok h
        simp only [Except.ok.injEq, Prod.mk.injEq] at h; exact h.2
      · simp only [Except.ok.injEq, Prod.mk.injEq] at h; exact h.2
    rw [getToken_zero u hz] at hp
    cases hp
  case pkt =>
    obtain ⟨_, _, h⟩ := bind_ok h
    obtain ⟨_, _, h⟩ := bind_ok h
    obtain ⟨_, _, h⟩ := bind_ok h
    obtain ⟨p, hp, h⟩ := bind_ok h
    simp only [Except.ok.injEq, Prod.mk.injEq] at h; omega
  case hex =>
    unfold hexStr2bin at h
    dsimp only at h
    obtain ⟨p, hp, h⟩ := bind_ok h
    refine ⟨Or.inl rfl, getToken_zero u ?_⟩
    split at h
    · obtain ⟨m, _, h⟩ := bind_ok h
      simp only [Except.ok.injEq, Prod.mk.injEq] at h; exact h.2
    · simp only [Except.ok.injEq, Prod.mk.injEq] at h; exact h.2
  case ssid =>
    unfold ssidStr2bin at h
    dsimp only at h
    refine ⟨Or.inr rfl, getToken_zero u ?_⟩
    split at h
    · cases h
    · obtain ⟨p, hp, h⟩ := bind_ok h
      split at h
      · obtain ⟨m, _, h⟩ := bind_ok h
        simp only [Except.ok.injEq, Prod.mk.injEq] at h; exact h.2
      · simp only [Except.ok.injEq, Prod.mk.injEq] at h; exact h.2
  case le n =>
    obtain ⟨⟨num, rlen⟩, hp, h⟩ := bind_ok h
    have := parseInt_pos _ _ _ hp
    dsimp only at h
    split at h
    · obtain ⟨_, _, h⟩ := bind_ok h
      cases h
    · simp only [Except.ok.injEq, Prod.mk.injEq] at h; omega
  case rate =>
    obtain ⟨⟨⟨num, den⟩, rlen⟩, _, h⟩ := bind_ok h
    dsimp only at h
    split at h
    · cases h
    · split at h
      · obtain ⟨p, hp, h⟩ := bind_ok h
        simp only [Except.ok.injEq, Prod.mk.injEq] at h; omega
      · split at h
        · obtain ⟨p, hp, h⟩ := bind_ok h
          simp only [Except.ok.injEq, Prod.mk.injEq] at h; omega
        · cases h
  case ch =>
    unfold chStr2bin at h
    obtain ⟨⟨v1, l1⟩, hp, h⟩ := bind_ok h
    have := parseInt_pos _ _ _ hp
    obtain ⟨_, _, h⟩ := bind_ok h
    obtain ⟨⟨v2, l2⟩, _, h⟩ := bind_ok h
    obtain ⟨p, hp, h⟩ := bind_ok h
    dsimp only at h
    split at h
    · split at h
      all_goals
        obtain ⟨⟨m1, l3⟩, _, h⟩ := bind_ok h
        dsimp only at h
        split at h
        · obtain ⟨⟨m2, l4⟩, _, h⟩ := bind_ok h
          obtain ⟨m, hm, h⟩ := bind_ok h
          simp only [Except.ok.injEq, Prod.mk.injEq] at h; omega
        · obtain ⟨m, hm, h⟩ := bind_ok h
          simp only [Except.ok.injEq, Prod.mk.injEq] at h; omega
    · simp only [Except.ok.injEq, Prod.mk.injEq] at h; omega
  case comp s =>
    unfold compStr2bin at h
    dsimp only at h
    obtain ⟨p, hp, h⟩ := bind_ok h
    have hz : (getToken u).1.length + (getToken u).2.1.length = 0 := by
      split at h
      · obtain ⟨m, _, h⟩ := bind_ok h
        simp only [Except.ok.injEq, Prod.mk.injEq] at h; exact h.2
      · simp only [Except.ok.injEq, Prod.mk.injEq] at h; exact h.2
    rw [getToken_zero u hz] at hp
    exfalso
    have hk := hk s rfl
    have hp : packSizesLE s [0] = .ok p := hp
    match s, hk, hp with
    | [], _, hp => cases hp
    | [_], hk, _ => exact hk rfl
    | a :: b :: s, _, hp =>
      rw [packSizesLE] at hp
      obtain ⟨_, _, hp⟩ := bind_ok hp
      obtain ⟨_, hp', _⟩ := bind_ok hp
      cases hp'
  case vht =>
    unfold vhtStr2bin at h
    dsimp only at h
    obtain ⟨p, hp, h⟩ := bind_ok h
    have hz : (getToken u).1.length + (getToken u).2.1.length = 0 := by
      split at h
      · obtain ⟨m, _, h⟩ := bind_ok h
        simp only [Except.ok.injEq, Prod.mk.injEq] at h; exact h.2
      · simp only [Except.ok.injEq, Prod.mk.injEq] at h; exact h.2
    rw [getToken_zero u hz] at hp
    cases hp
  case s8 =>
    obtain ⟨⟨num, rlen⟩, hp, h⟩ := bind_ok h
    have := parseInt_pos _ _ _ hp
    obtain ⟨p, hp, h⟩ := bind_ok h
    simp only [Except.ok.injEq, Prod.mk.injEq] at h; omega

/-! ## items -/

/-- Entries of the encoder table are fields of the list. -/
def entryOk (e : Str × Key × Enc) : Bool :=
  fields.any fun f => f.name == e.1 && fieldKey f == e.2.1 &&
    (kindEnc f.kind == e.2.2 || (e.1 == t!"nxm_ct_label" && e.2.2 == .uint 4))

theorem table_known : ∀ e ∈ str2binTable, entryOk e = true := by decide +kernel

theorem lookupEnc_field {name : Str} {key : Key} {k : Enc} (h : lookupEnc name = some (key, k)) :
    ∃ f ∈ fields, f.name = name ∧ fieldKey f = key ∧
      (kindEnc f.kind = k ∨ (name = t!"nxm_ct_label" ∧ k = .uint 4)) := by
  unfold lookupEnc at h
  rw [Option.map_eq_some_iff] at h
  obtain ⟨⟨n, key', k'⟩, he, hk⟩ := h
  have hm := List.mem_of_find?_eq_some he
  have hn := List.find?_some he
  have := table_known _ hm
  simp only [entryOk, List.any_eq_true, Bool.and_eq_true, beq_iff_eq, Bool.or_eq_true] at this
  obtain ⟨f, hf, ⟨h1, h2⟩, h3⟩ := this
  simp only [beq_iff_eq] at hn
  cases hk
  exact ⟨f, hf, by rw [h1, hn], h2, by rw [← hn]; exact h3⟩

theorem comp_sizes : ∀ e ∈ str2binTable, ∀ s, e.2.2 = .comp s → s.length ≠ 1 := by
  intro e he s hs
  obtain ⟨f, hf, _⟩ := List.any_eq_true.1 (table_known e he)
  have : (match e.2.2 with | .comp s => decide (s.length ≠ 1) | _ => true) = true := by
    have key : ∀ e ∈ str2binTable,
      (match e.2.2 with | .comp s => decide (s.length ≠ 1) | _ => true) = true := by decide +kernel
    exact key e he
  rw [hs] at this
  simpa using this

theorem lookupEnc_comp {name : Str} {key : Key} {k : Enc} (h : lookupEnc name = some (key, k)) :
    ∀ s, k = .comp s → s.length ≠ 1 := by
  unfold lookupEnc at h
  rw [Option.map_eq_some_iff] at h
  obtain ⟨e, he, hk⟩ := h
  have hm := List.mem_of_find?_eq_some he
  intro s hs
  exact comp_sizes e hm s (by rw [hk]; exact hs)

theorem head_noEq {s h b r : Str} (hs : getToken s = (h, b, r)) (hn : hasChar h '=' = false) :
    ∀ c ∈ h, Space c ∨ c = ',' := by
  have hho := tokenHead_headOf s
  rw [← getToken_fst, hs] at hho
  dsimp only at hho
  cases hho with
  | eq w1 w2 r h1 h2 h3 => simp [hasChar] at hn
  | run h r h1 h2 h3 => exact h2

theorem head_hasEq {s h b r : Str} (hs : getToken s = (h, b, r)) (hn : hasChar h '=' = true) :
    ∃ w1 w2, h = w1 ++ '=' :: w2 ∧ (∀ c ∈ w1, Space c) ∧ (∀ c ∈ w2, Space c) := by
  have hho := tokenHead_headOf s
  rw [← getToken_fst, hs] at hho
  dsimp only at hho
  cases hho with
  | eq w1 w2 r h1 h2 h3 => exact ⟨w1, w2, rfl, h1, h2⟩
  | run h r h1 h2 h3 =>
    exfalso
    simp only [hasChar, List.contains_iff_mem] at hn
    rcases h2 '=' hn with h | h
    · revert h; decide
    · revert h; decide

/-- The parts of one item. -/
theorem str2oxmOne_parts {u : Str} {bin : Bytes} {l : Nat} {p r : Str}
    (h : str2oxmOne u = .ok (bin, l, p, r)) :
    ∃ hd name w1 w2 key k r1, getToken u = (hd, name, r1) ∧
      getToken r1 = (w1 ++ '=' :: w2, p, r) ∧ u = hd ++ (name ++ (w1 ++ '=' :: w2 ++ (p ++ r))) ∧
      (∀ c ∈ hd, Space c ∨ c = ',') ∧ (∀ c ∈ w1, Space c) ∧ (∀ c ∈ w2, Space c) ∧
      lookupEnc name = some (key, k) ∧ encText key k p = .ok (bin, l) := by
  unfold str2oxmOne at h
  rcases hg : getToken u with ⟨hd, name, r1⟩
  rcases hg2 : getToken r1 with ⟨op, p', r'⟩
  rw [hg] at h
  dsimp only at h
  rw [hg2] at h
  dsimp only at h
  obtain ⟨_, ha, h⟩ := bind_ok h
  have ha' : hasChar hd '=' = false ∧ hasChar op '=' = true := by
    unfold pyAssert at ha
    split at ha
    · rename_i hc; simpa using hc
    · cases ha
  split at h
  · cases h
  · rename_i key k hl
    obtain ⟨⟨b', l'⟩, he, h⟩ := bind_ok h
    cases h
    obtain ⟨w1, w2, rfl, h1, h2⟩ := head_hasEq hg2 ha'.2
    have a1 := getToken_append u
    have a2 := getToken_append r1
    rw [hg] at a1
    rw [hg2] at a2
    dsimp only at a1 a2
    refine ⟨hd, name, w1, w2, key, k, r1, rfl, hg2, ?_, head_noEq hg ha'.1, h1, h2, hl, he⟩
    rw [← a1, ← a2]
    simp

/-- One item read with `loop=False`, alone. -/
theorem str2oxm1_alone {u : Str} {bin : Bytes} {l : Nat} {p r : Str}
    (h : str2oxmOne u = .ok (bin, l, p, r)) (hp : p ≠ []) (hl : l = p.length) :
    ∃ f ∈ fields, ∃ hd w1 w2, u = hd ++ (f.name ++ (w1 ++ '=' :: w2 ++ (p ++ r))) ∧
      (∀ c ∈ hd, Space c ∨ c = ',') ∧ (∀ c ∈ w1, Space c) ∧ (∀ c ∈ w2, Space c) ∧
      str2oxm1 (f.name ++ '=' :: p) = .ok (bin, (f.name ++ '=' :: p).length) := by
  obtain ⟨hd, name, w1, w2, key, k, r1, hg, hg2, hu, h1, h2, h3, hlk, he⟩ := str2oxmOne_parts h
  obtain ⟨f, hf, rfl, _, _⟩ := lookupEnc_field hlk
  obtain ⟨n1, n2, _⟩ := field_name f hf
  refine ⟨f, hf, hd, w1, w2, hu, h1, h2, h3, ?_⟩
  have hh : Head ['='] := Or.inr ⟨[], [], rfl, by simp, by simp⟩
  have g1 := getToken_plain n1.token (atEnd_eq p) n1.plainStart n2
  have g2 := getToken_again _ _ _ _ hg2 ['='] hh hp
  have hone : str2oxmOne (f.name ++ '=' :: p) = .ok (bin, l, p, []) := by
    unfold str2oxmOne
    have g2' : getToken ('=' :: p) = (['='], p, []) := g2
    simp only [g1, g2', hlk, he, bind, Except.bind]
    simp [pyAssert, hasChar]
  have hne : (f.name ++ '=' :: p).isEmpty = false := by simp
  have hz : (p.length == 0) = false := by simpa using hp
  unfold str2oxm1 str2oxmL
  rw [str2oxmGo]
  simp only [hne, hone, hl, hz, bind, Except.bind]
  simp [pyAssert]

/-- The text read by the loop is a list of items. -/
theorem str2oxmGo_reads (fuel : Nat) (u : Str) (b : Bytes) (rest : Str)
    (h : str2oxmGo true fuel u = .ok (b, rest)) :
    Reads (fun f v bin => str2oxm1 (f.name ++ '=' :: v) = .ok (bin, (f.name ++ '=' :: v).length))
      u b rest := by
  induction fuel generalizing u b rest with
  | zero => cases h
  | succ fuel ih =>
    rw [str2oxmGo] at h
    split at h
    · rename_i hu
      cases h
      have : u = [] := by simpa using hu
      rw [this]; exact Reads.nil
    · obtain ⟨⟨bin, l, p, r⟩, hone, h⟩ := bind_ok h
      dsimp only at h
      split at h
      · rename_i hl
        have hl : l = 0 := by simpa using hl
        subst hl
        simp only [Except.ok.injEq, Prod.mk.injEq] at h
        obtain ⟨hb, hr⟩ := h
        subst hb hr
        obtain ⟨hd, name, w1, w2, key, k, r1, hg, hg2, hu, h1, h2, h3, hlk, he⟩ := str2oxmOne_parts hone
        obtain ⟨f, hf, rfl, _, hk⟩ := lookupEnc_field hlk
        obtain ⟨hkk, hp⟩ := encText_zero _ _ _ _ (lookupEnc_comp hlk) he
        subst hp
        rw [hu]
        refine Reads.stop hd w1 w2 r f h1 h2 h3 hf ?_ ?_
        · rcases hk with hk | hk
          · rcases hkk with h | h
            · left; rw [h] at hk; revert hk; cases f.kind <;> simp [kindEnc]
            · right; rw [h] at hk; revert hk; cases f.kind <;> simp [kindEnc]
          · rcases hkk with h | h <;> rw [h] at hk <;> exact absurd hk.2 (by decide)
        · have := getToken_cases r1
          rw [hg2] at this
          dsimp only at this
          rcases this with h | h
          · exact h.2
          · intro c t hr; rw [h.2] at hr; cases hr
      · rename_i hz
        obtain ⟨_, ha, h⟩ := bind_ok h
        rw [if_pos rfl] at h
        obtain ⟨⟨msg, rest'⟩, hrec, h⟩ := bind_ok h
        simp only [Except.ok.injEq, Prod.mk.injEq] at h
        obtain ⟨hb, hr⟩ := h
        subst hb hr
        have hpl : l = p.length := by
          unfold pyAssert at ha
          split at ha
          · rename_i hc; simpa using hc
          · cases ha
        have hp : p ≠ [] := by
          intro hp; apply hz; simp [hpl, hp]
        obtain ⟨f, hf, hd, w1, w2, hu, h1, h2, h3, h4⟩ := str2oxm1_alone hone hp hpl
        rw [hu]
        exact Reads.item hd w1 w2 p r f bin msg rest' h1 h2 h3 hf hp h4 (ih _ _ _ hrec)

/-! ## appending -/

/-- More fuel does not change the result. -/
theorem str2oxmGo_fuel (loop : Bool) (f1 f2 : Nat) (u : Str) (h1 : u.length < f1)
    (h2 : u.length < f2) : str2oxmGo loop f1 u = str2oxmGo loop f2 u := by
  induction f1 generalizing f2 u with
  | zero => omega
  | succ f1 ih =>
    cases f2 with
    | zero => omega
    | succ f2 =>
      rw [str2oxmGo, str2oxmGo]
      split
      · rfl
      · rename_i hu
        cases hone : str2oxmOne u with
        | error e => rfl
        | ok x =>
          obtain ⟨bin, l, p, r⟩ := x
          have := str2oxmOne_rest u bin l p r (by simpa using hu) hone
          simp only [bind, Except.bind]
          rw [ih f2 r (by omega) (by omega)]

theorem str2oxmOne_more {u : Str} {bin : Bytes} {l : Nat} {p r : Str}
    (h : str2oxmOne u = .ok (bin, l, p, r)) (hp : p ≠ []) (hc : r = [] → ¬ OpenToken p) (x : Str) :
    str2oxmOne (u ++ ',' :: x) = .ok (bin, l, p, r ++ ',' :: x) := by
  obtain ⟨hd, name, w1, w2, key, k, r1, hg, hg2, hu, h1, h2, h3, hlk, he⟩ := str2oxmOne_parts h
  have hr1 : r1 ≠ [] := by
    intro h; rw [h] at hg2; simp [getToken_nil] at hg2
  have g1 := getToken_more _ _ _ _ hg (Or.inl hr1) x
  have g2 := getToken_more _ _ _ _ hg2 (by
    by_cases hr : r = []
    · exact Or.inr ⟨hp, hc hr⟩
    · exact Or.inl hr) x
  have hne : hasChar hd '=' = false := by
    rw [← Bool.not_eq_true, hasChar, List.contains_iff_mem]
    intro hm
    rcases h1 _ hm with h | h
    · revert h; decide
    · revert h; decide
  unfold str2oxmOne
  simp only [g1, g2, hlk, he, bind, Except.bind, hne]
  simp [pyAssert, hasChar]

theorem str2oxmOne_comma {u : Str} {x : Bytes × Nat × Str × Str} (h : str2oxmOne u = .ok x) :
    str2oxmOne (',' :: u) = .ok x := by
  obtain ⟨bin, l, p, r⟩ := x
  obtain ⟨hd, name, w1, w2, key, k, r1, hg, hg2, hu, h1, h2, h3, hlk, he⟩ := str2oxmOne_parts h
  obtain ⟨f, hf, rfl, _, hk⟩ := lookupEnc_field hlk
  obtain ⟨n1, n2, _⟩ := field_name f hf
  have hend : AtEnd r1 := by
    have := getToken_cases u
    rw [hg] at this
    dsimp only at this
    rcases this with h | h
    · exact h.2
    · intro c t hr; rw [h.2] at hr; cases hr
  have happ := getToken_append u
  rw [hg] at happ
  have hh : Head (',' :: hd) := Or.inl (by
    intro c hc
    rcases List.mem_cons.1 hc with h | h
    · exact Or.inr h
    · exact h1 c h)
  have g1 := getToken_head hh n1.token hend n1.plainStart n2
  have e : ',' :: hd ++ (f.name ++ r1) = ',' :: u := by rw [← happ]; simp
  rw [e] at g1
  have hne : hasChar (',' :: hd) '=' = false := by
    rw [← Bool.not_eq_true, hasChar, List.contains_iff_mem]
    intro hm
    rcases List.mem_cons.1 hm with h | h
    · revert h; decide
    · rcases h1 _ h with h | h
      · revert h; decide
      · revert h; decide
  unfold str2oxmOne
  simp only [g1, hg2, hlk, he, bind, Except.bind, hne]
  simp [pyAssert, hasChar]

/-- No bracket of the text is left open. -/
def AllClosed (u : Str) : Prop := ∀ x y, u = x ++ y → ¬ OpenToken y

theorem AllClosed.suffix {x y : Str} (h : AllClosed (x ++ y)) : AllClosed y := by
  intro a b he
  apply h (x ++ a) b
  rw [he]; simp

theorem str2oxmGo_concat (a b : Str) (ba bb : Bytes) (rest : Str) (fa fuel : Nat)
    (ha : str2oxmGo true fa a = .ok (ba, [])) (hcl : AllClosed a)
    (hend : ∀ x c, a = x ++ [c] → c ≠ '=' ∧ ¬ Space c) (hb : str2oxmGo true fuel b = .ok (bb, rest))
    (hbn : b ≠ []) (hfb : b.length < fuel) (f : Nat) (hf : (a ++ ',' :: b).length < f)
    (han : a ≠ []) :
    str2oxmGo true f (a ++ ',' :: b) = .ok (ba ++ bb, rest) := by
  induction fa generalizing a ba f with
  | zero => cases ha
  | succ fa ih =>
    cases f with
    | zero => omega
    | succ f =>
      rw [str2oxmGo, if_neg (by simpa using han)] at ha
      obtain ⟨⟨bin, l, p, r⟩, hone, h⟩ := bind_ok ha
      dsimp only at h
      obtain ⟨hd, name, w1, w2, key, k, r1, hg, hg2, hu, h1, h2, h3, hlk, he⟩ := str2oxmOne_parts hone
      split at h
      · rename_i hl
        exfalso
        have hl : l = 0 := by simpa using hl
        subst hl
        simp only [Except.ok.injEq, Prod.mk.injEq] at h
        obtain ⟨-, hr⟩ := h
        subst hr
        obtain ⟨hkk, hp⟩ := encText_zero _ _ _ _ (lookupEnc_comp hlk) he
        subst hp
        rcases List.eq_nil_or_concat w2 with hw | ⟨w, c, hw⟩
        · subst hw
          exact (hend (hd ++ (name ++ w1)) '=' (by rw [hu]; simp)).1 rfl
        · rw [List.concat_eq_append] at hw
          subst hw
          exact (hend (hd ++ (name ++ (w1 ++ '=' :: w))) c (by rw [hu]; simp)).2 (h3 c (by simp))
      · rename_i hz
        obtain ⟨_, hass, h⟩ := bind_ok h
        rw [if_pos rfl] at h
        obtain ⟨⟨msg, rest'⟩, hrec, h⟩ := bind_ok h
        simp only [Except.ok.injEq, Prod.mk.injEq] at h
        obtain ⟨hba, hr⟩ := h
        subst hba hr
        have hpl : l = p.length := by
          unfold pyAssert at hass
          split at hass
          · rename_i hc; simpa using hc
          · cases hass
        have hp : p ≠ [] := by
          intro hp; apply hz; simp [hpl, hp]
        have hmore := str2oxmOne_more hone hp (fun hr => by
          subst hr
          apply hcl (hd ++ (name ++ (w1 ++ '=' :: w2))) p
          rw [hu]; simp) b
        have hlen := str2oxmOne_rest _ _ _ _ _ han hone
        have hgo : str2oxmGo true f (r ++ ',' :: b) = .ok (msg ++ bb, rest) := by
          by_cases hrn : r = []
          · subst hrn
            have hm : msg = [] := by
              cases fa with
              | zero => cases hrec
              | succ fa =>
                rw [str2oxmGo, if_pos (by rfl)] at hrec
                simp only [Except.ok.injEq, Prod.mk.injEq] at hrec
                exact hrec.1.symm
            subst hm
            simp only [List.nil_append]
            -- the comma in front of `b`
            cases fuel with
            | zero => omega
            | succ fuel =>
              rw [str2oxmGo, if_neg (by simpa using hbn)] at hb
              obtain ⟨⟨bin2, l2, p2, r2⟩, hone2, hb2⟩ := bind_ok hb
              have hc := str2oxmOne_comma hone2
              have hl2 := str2oxmOne_rest _ _ _ _ _ hbn hone2
              cases f with
              | zero => simp at hf
              | succ f =>
                rw [str2oxmGo, if_neg (by simp), hc]
                have hfu := str2oxmGo_fuel true f fuel r2 (by simp at hf; omega) (by omega)
                simp only [bind, Except.bind] at hb2 ⊢
                rw [hfu]
                exact hb2
          · have hcl' : AllClosed r := by
              rw [hu] at hcl
              have e : hd ++ (name ++ (w1 ++ '=' :: w2 ++ (p ++ r))) =
                (hd ++ (name ++ (w1 ++ '=' :: w2 ++ p))) ++ r := by simp
              rw [e] at hcl
              exact hcl.suffix
            have hend' : ∀ x c, r = x ++ [c] → c ≠ '=' ∧ ¬ Space c := by
              intro x c hx
              apply hend (hd ++ (name ++ (w1 ++ '=' :: w2 ++ (p ++ x)))) c
              rw [hu, hx]; simp
            refine ih r msg hrec hcl' hend' f ?_ hrn
            simp only [List.length_append, List.length_cons] at hf ⊢
            omega
        rw [str2oxmGo, if_neg (by simp), hmore]
        have hz' : (l == 0) = false := by simpa using hz
        simp only [bind, Except.bind, hz', hgo]
        simp [pyAssert, hpl]

end Ofpstr
