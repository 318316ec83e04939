import Verif.Lemmas.ValuePton

/-!
# Exactly which texts are matches
-/

set_option linter.unusedSimpArgs false

namespace Ofpstr
open Spec

theorem masked_len {P Q : Str → Bytes → Prop} {n : Nat} (hP : ∀ s p, P s p → p.length = n) (hQ : ∀ s p, Q s p → p.length = n)
    {v : Str} {p q : Bytes} (h : Masked P Q v p (some q)) : q.length = p.length := by
  cases h with
  | mask a b _ _ h1 h2 => rw [hP _ _ h1, hQ _ _ h2]

theorem filled_len {P Q : Str → Bytes → Prop} {v : Str} {p q : Bytes} (h : Filled P Q v p (some q)) : q.length = p.length := by
  cases h with
  | mask a b p q h1 h2 => simp [pad]; omega

theorem leBytes_len {ns : List Nat} {vs : List Int} {p : Bytes} (h : LeBytes ns vs p) : p.length = ns.sum := by
  induction h with
  | nil => rfl
  | cons n v ns vs p _ _ ih => simp [le_len, ih]

theorem twoNums_len {s : Str} {p : Bytes} (h : TwoNums s p) : p.length = 4 := by
  cases h; simp [be_len]

theorem valueText_len {k : Kind} {v : Str} {p q : Bytes} (h : ValueText k v p (some q)) : q.length = p.length := by
  cases k with
  | uint n =>
    refine masked_len (n := n) ?_ ?_ h <;>
      (rintro s p ⟨v, _, rfl⟩; simp [be_len])
  | mac => exact masked_len (n := 6) (fun s p h => macValue_len h) (fun s p h => macValue_len h) h
  | ipv4 => exact masked_len (n := 4) (fun s p h => aton_len h) (fun s p h => aton_len h) h
  | ipv6 =>
    refine masked_len (n := 16) (fun s p h => (ipv6Value_facts h).2.2) ?_ h
    rintro s p (h | ⟨_, rfl⟩)
    · exact (ipv6Value_facts h).2.2
    · rfl
  | bytes => exact filled_len h
  | ssid => exact filled_len h
  | channel =>
    refine masked_len (n := 4) (fun s p h => twoNums_len h) ?_ h
    intro s p h
    cases h with
    | both _ _ h => exact twoNums_len h
    | first _ v => simp [be_len]
    | second _ v => simp [be_len]
  | parts sizes => exact masked_len (n := sizes.sum) (fun s p h => (parts_facts h).2) (fun s p h => (parts_facts h).2) h
  | vht =>
    have hv : ∀ s p, VhtValue s p → p.length = [2, 1, 1, 1, 1, 1, 1, 1, 1, 2].sum := by
      intro s p h
      cases h with
      | mk _ _ _ _ _ _ _ _ _ _ _ _ _ _ _ _ _ _ hh => exact leBytes_len hh
    exact masked_len (fun s p h => hv s p h.2) hv h
  | port n => cases h.2
  | packetType => cases h.2
  | le n => cases h.2
  | rate => cases h.2
  | signed => cases h.2

theorem kind_exact (key : Key) (k : Kind) (hk : ∀ n, k = .port n → n = 2 ∨ n = 4) (v : Str)
    (hg : getToken v = ([], v, [])) : ExactOn key (kindEnc k) k v := by
  cases k with
  | uint n => exact uint_exact key n v
  | port n => exact port_exact key n (hk n rfl) v
  | mac => exact mac_exact key v
  | ipv4 => exact ipv4_exact key v hg
  | ipv6 => exact ipv6_exact key v hg
  | packetType => exact pkt_exact key v
  | bytes => exact hex_exact key v hg
  | ssid => exact ssid_exact key v hg
  | le n => exact le_exact key n v
  | rate => exact rate_exact key v
  | channel => exact ch_exact key v
  | parts sizes => exact comp_exact key sizes v hg
  | vht => exact vht_exact key v hg
  | signed => exact s8_exact key v

theorem field_ports : ∀ f ∈ fields, (match f.kind with | .port n => n == 2 || n == 4 | .parts s => s.length != 1 | _ => true) = true := by
  decide +kernel

theorem lookupEnc_textKind (f : Field) (hf : f ∈ fields) : lookupEnc f.name = some (fieldKey f, kindEnc f.textKind) := by
  obtain ⟨k, h1, h2⟩ := lookupEnc_of_field f hf
  by_cases hn : f.name = t!"nxm_ct_label"
  · rw [(label_kind f hf hn).2]
    unfold Field.textKind
    rw [if_pos hn]
    rfl
  · rw [h1, h2 hn]
    unfold Field.textKind
    rw [if_neg hn]

theorem textKind_ports (f : Field) (hf : f ∈ fields) : (∀ n, f.textKind = .port n → n = 2 ∨ n = 4) ∧
    ∀ s, kindEnc f.textKind = .comp s → s.length ≠ 1 := by
  have h := field_ports f hf
  unfold Field.textKind
  split
  · simp [kindEnc]
  · constructor
    · intro n hn
      rw [hn] at h
      simpa using h
    · intro s hs
      cases hk : f.kind <;> rw [hk] at hs h <;> simp [kindEnc] at hs
      subst hs
      simpa using h

theorem fieldBytes_cut (f : Field) (hf : f ∈ fields) (p : Bytes) (m : Option Bytes) (hl : ∀ q, m = some q → q.length = p.length) :
    fieldBytes (fieldKey f) p m = (⟨f, p, m⟩ : Tlv).cut := by
  unfold fieldBytes Tlv.cut Tlv.body
  rw [header_cut f hf]
  cases m with
  | none => simp
  | some q =>
    have := hl q rfl
    simp [this, Nat.two_mul]

/-- The value of an item is a token. -/
theorem token_self {s h b r : Str} (hs : getToken s = (h, b, r)) : getToken b = ([], b, []) := by
  by_cases hb : b = []
  · subst hb; rfl
  · exact getToken_again s h b r hs [] (by unfold Head; simp) hb

theorem encText_field (f : Field) (hf : f ∈ fields) (v : Str) (hg : getToken v = ([], v, [])) (bin : Bytes) (l : Nat) :
    (encText (fieldKey f) (kindEnc f.textKind) v = .ok (bin, l) ∧ l = v.length) ↔
    ∃ p m, ValueText f.textKind v p m ∧ l = v.length ∧ bin = (⟨f, p, m⟩ : Tlv).cut := by
  rw [kind_exact (fieldKey f) f.textKind (textKind_ports f hf).1 v hg bin l]
  constructor
  · rintro ⟨p, m, h1, h2, h3⟩
    refine ⟨p, m, h1, h2, ?_⟩
    rw [h3, fieldBytes_cut f hf]
    rintro q rfl
    exact valueText_len h1
  · rintro ⟨p, m, h1, h2, h3⟩
    refine ⟨p, m, h1, h2, ?_⟩
    rw [h3, fieldBytes_cut f hf]
    rintro q rfl
    exact valueText_len h1

theorem name_unique : ∀ f ∈ fields, ∀ g ∈ fields, f.name = g.name → f = g := by decide +kernel

/-- One round of the loop. -/
theorem str2oxmOne_exact (u : Str) (bin : Bytes) (v r : Str) :
    str2oxmOne u = .ok (bin, v.length, v, r) ↔ ∃ t, MatchItem u v t r ∧ bin = t.cut := by
  unfold MatchItem
  constructor
  · intro h
    obtain ⟨hd, name, w1, w2, key, k, r1, h1, h2, _, h3, _, _, h6, h7⟩ := str2oxmOne_parts h
    obtain ⟨f, hf, rfl, _⟩ := lookupEnc_field h6
    rw [lookupEnc_textKind f hf] at h6
    cases h6
    obtain ⟨p, m, g1, _, g3⟩ := (encText_field f hf v (token_self h2) bin v.length).1 ⟨h7, rfl⟩
    refine ⟨⟨f, p, m⟩, ⟨hd, _, r1, (getToken_iff _ _ _ _).1 h1, (getToken_iff _ _ _ _).1 h2, ?_, by simp, hf, g1⟩, g3⟩
    intro hc
    rcases h3 _ hc with h | h
    · revert h; decide
    · revert h; decide
  · rintro ⟨⟨f, p, m⟩, ⟨hd, op, r1, h1, h2, h3, h4, hf, h5⟩, rfl⟩
    have h1 := (getToken_iff _ _ _ _).2 h1
    have h2 := (getToken_iff _ _ _ _).2 h2
    have := ((encText_field f hf v (token_self h2) _ v.length).2 ⟨p, m, h5, rfl, rfl⟩).1
    unfold str2oxmOne
    rw [h1]
    dsimp only
    rw [h2]
    dsimp only
    rw [show pyAssert (!hasChar hd '=' && hasChar op '=') = .ok () by
      have e : (!hasChar hd '=' && hasChar op '=') = true := by simp [hasChar, h3, h4]
      rw [e]; rfl, ok_bind, lookupEnc_textKind f hf]
    dsimp only
    rw [this, ok_bind]

theorem str2oxmOne_zero {u : Str} {bin : Bytes} {v r : Str} (h : str2oxmOne u = .ok (bin, 0, v, r)) : v = [] := by
  obtain ⟨hd, name, w1, w2, key, k, r1, h1, h2, _, h3, _, _, h6, h7⟩ := str2oxmOne_parts h
  obtain ⟨f, hf, rfl, _⟩ := lookupEnc_field h6
  rw [lookupEnc_textKind f hf] at h6
  cases h6
  exact (encText_zero _ _ _ _ (textKind_ports f hf).2 h7).2

theorem matchText_of (fuel : Nat) : ∀ (u : Str) (b : Bytes) (rest : Str), str2oxmGo true fuel u = .ok (b, rest) →
    ∃ ts, MatchText u ts rest ∧ b = ts.flatMap Tlv.cut := by
  induction fuel with
  | zero => intro u b rest h; cases h
  | succ fuel ih =>
    intro u b rest h
    rw [str2oxmGo] at h
    split at h
    · rename_i hu
      have hu : u = [] := by simpa using hu
      subst hu
      cases h
      exact ⟨[], .done, rfl⟩
    · obtain ⟨⟨bin, l, p, r⟩, hone, h⟩ := bind_ok h
      dsimp only at h
      split at h
      · rename_i hl
        have hl : l = 0 := by simpa using hl
        subst hl
        have hp := str2oxmOne_zero hone
        subst hp
        obtain ⟨t, ht, _⟩ := (str2oxmOne_exact u bin [] r).1 hone
        cases h
        exact ⟨[], .stop u t _ ht, rfl⟩
      · rename_i hl
        have hl : l ≠ 0 := by simpa using hl
        obtain ⟨_, ha, h3⟩ := bind_ok h
        clear h
        have ha : l = p.length := by simpa [pyAssert] using ha
        subst ha
        rw [if_pos rfl] at h3
        obtain ⟨⟨msg, rest'⟩, hrec, h4⟩ := bind_ok h3
        cases h4
        obtain ⟨t, ht, rfl⟩ := (str2oxmOne_exact u bin p r).1 hone
        obtain ⟨ts, h1, rfl⟩ := ih _ _ _ hrec
        refine ⟨t :: ts, .item u p t r ts _ ht ?_ h1, by simp⟩
        rintro rfl; simp at hl

theorem matchItem_ne {u v r : Str} {t : Tlv} (h : MatchItem u v t r) : u ≠ [] := by
  rintro rfl
  have := (str2oxmOne_exact [] t.cut v r).2 ⟨t, h, rfl⟩
  obtain ⟨hd, name, w1, w2, key, k, r1, _, _, hu, _⟩ := str2oxmOne_parts this
  simp at hu

theorem of_matchText {u rest : Str} {ts : List Tlv} (h : MatchText u ts rest) : ∀ fuel, u.length < fuel →
    str2oxmGo true fuel u = .ok (ts.flatMap Tlv.cut, rest) := by
  induction h with
  | done =>
    intro fuel hf
    cases fuel with
    | zero => omega
    | succ fuel => rfl
  | stop u t r h =>
    intro fuel hf
    cases fuel with
    | zero => omega
    | succ fuel =>
      have hu := matchItem_ne h
      rw [str2oxmGo, if_neg (by simpa using hu), (str2oxmOne_exact u t.cut [] r).2 ⟨t, h, rfl⟩, ok_bind]
      rfl
  | item u v t r ts rest h hv hts ih =>
    intro fuel hf
    cases fuel with
    | zero => omega
    | succ fuel =>
      have hu := matchItem_ne h
      have hone := (str2oxmOne_exact u t.cut v r).2 ⟨t, h, rfl⟩
      have hlt := str2oxmOne_rest u _ _ _ _ hu hone
      have hl : v.length ≠ 0 := by simpa using hv
      rw [str2oxmGo, if_neg (by simpa using hu), hone, ok_bind]
      dsimp only
      rw [if_neg (by simpa using hl), show pyAssert (v.length == v.length) = .ok () by simp [pyAssert], ok_bind, if_pos rfl, ih fuel (by omega), ok_bind]
      simp

theorem str2oxm_matchText (u : Str) (b : Bytes) (n : Nat) : str2oxm u = .ok (b, n) ↔
    ∃ ts rest, MatchText u ts rest ∧ b = ts.flatMap Tlv.cut ∧ n = u.length - rest.length := by
  unfold str2oxm str2oxmL
  constructor
  · intro h
    obtain ⟨⟨msg, rest⟩, h1, h⟩ := bind_ok h
    cases h
    obtain ⟨ts, h2, h3⟩ := matchText_of _ _ _ _ h1
    exact ⟨ts, rest, h2, h3, rfl⟩
  · rintro ⟨ts, rest, h, rfl, rfl⟩
    rw [of_matchText h _ (Nat.lt_succ_self _), ok_bind]

theorem str2oxm1_matchItem (u : Str) (b : Bytes) (n : Nat) : str2oxm1 u = .ok (b, n) ↔
    (u = [] ∧ b = [] ∧ n = 0) ∨ (∃ t r, MatchItem u [] t r ∧ b = [] ∧ n = u.length - r.length) ∨
    ∃ v t r, MatchItem u v t r ∧ v ≠ [] ∧ b = t.cut ∧ n = u.length - r.length := by
  unfold str2oxm1 str2oxmL
  constructor
  · intro h
    obtain ⟨⟨msg, rest⟩, h1, h⟩ := bind_ok h
    cases h
    rw [str2oxmGo] at h1
    split at h1
    · rename_i hu
      have hu : u = [] := by simpa using hu
      subst hu
      cases h1
      exact Or.inl ⟨rfl, rfl, rfl⟩
    · obtain ⟨⟨bin, l, p, r⟩, hone, h1⟩ := bind_ok h1
      dsimp only at h1
      split at h1
      · rename_i hl
        have hl : l = 0 := by simpa using hl
        subst hl
        have hp := str2oxmOne_zero hone
        subst hp
        obtain ⟨t, ht, _⟩ := (str2oxmOne_exact u bin [] r).1 hone
        cases h1
        exact Or.inr (Or.inl ⟨t, _, ht, rfl, rfl⟩)
      · rename_i hl
        have hl : l ≠ 0 := by simpa using hl
        obtain ⟨_, ha, h3⟩ := bind_ok h1
        clear h1
        have ha : l = p.length := by simpa [pyAssert] using ha
        subst ha
        rw [if_neg (by simp)] at h3
        cases h3
        obtain ⟨t, ht, rfl⟩ := (str2oxmOne_exact u _ p rest).1 hone
        refine Or.inr (Or.inr ⟨p, t, rest, ht, ?_, rfl, rfl⟩)
        rintro rfl; simp at hl
  · rintro (⟨rfl, rfl, rfl⟩ | ⟨t, r, h, rfl, rfl⟩ | ⟨v, t, r, h, hv, rfl, rfl⟩)
    · rfl
    · rw [str2oxmGo, if_neg (by simpa using matchItem_ne h), (str2oxmOne_exact u t.cut [] r).2 ⟨t, h, rfl⟩, ok_bind]
      rfl
    · have hone := (str2oxmOne_exact u t.cut v r).2 ⟨t, h, rfl⟩
      have hl : v.length ≠ 0 := by simpa using hv
      rw [str2oxmGo, if_neg (by simpa using matchItem_ne h), hone, ok_bind]
      dsimp only
      rw [if_neg (by simpa using hl), show pyAssert (v.length == v.length) = .ok () by simp [pyAssert], ok_bind, if_neg (by simp), ok_bind]

end Ofpstr
