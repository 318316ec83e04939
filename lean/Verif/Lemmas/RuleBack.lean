import Verif.Spec.RuleExact
import Verif.Lemmas.Dropped
import Verif.Lemmas.FlowTrip

/-!
# Which rules are read back

The words of a printed rule, one by one: if the bytes read are those printed, every part was read back.
-/

set_option linter.unusedSimpArgs false

namespace Ofpstr
open Spec

/-! ## Lists -/

/-- Every element survives where it stands; `last` says whether the end of the list is the end of all. -/
def ListSurvive {α : Type} (S : α → Prop → Prop) (last : Prop) (l : List α) : Prop :=
  ∀ a x b, l = a ++ x :: b → S x (b = [] ∧ last)

theorem listSurvive_nil {α : Type} (S : α → Prop → Prop) (last : Prop) : ListSurvive S last [] := by
  intro a x b h
  simp at h

theorem listSurvive_cons {α : Type} {S : α → Prop → Prop} {last : Prop} {t : α} {ts : List α} :
    ListSurvive S last (t :: ts) ↔ S t (ts = [] ∧ last) ∧ ListSurvive S last ts := by
  constructor
  · intro h
    refine ⟨h [] t ts rfl, ?_⟩
    rintro a t' b rfl
    exact h (t :: a) t' b rfl
  · rintro ⟨h1, h2⟩ a t' b hab
    cases a with
    | nil =>
      simp only [List.nil_append, List.cons.injEq] at hab
      obtain ⟨rfl, rfl⟩ := hab
      exact h1
    | cons x a =>
      simp only [List.cons_append, List.cons.injEq] at hab
      exact h2 a t' b hab.2

/-- The rest of a comma list, perhaps with the comma before it. -/
def RestOf (s : Str) (l : List Str) : Prop := ∃ h, (h = [] ∨ h = [',']) ∧ s = h ++ commaList l ∧ (l = [] → h = [])

theorem rest_all (l : List Str) : RestOf (commaList l) l := ⟨[], Or.inl rfl, rfl, fun _ => rfl⟩

theorem rest_nil {s : Str} (h : RestOf s []) : s = [] := by
  obtain ⟨h, -, rfl, h2⟩ := h
  rw [h2 rfl]; rfl

theorem rest_cons {s t : Str} {l : List Str} (h : RestOf s (t :: l)) : ∃ h r, (h = [] ∨ h = [',']) ∧ (r = [] ∨ ∃ r', r = ',' :: r') ∧
    s = h ++ (t ++ r) ∧ (r = [] ↔ l = []) ∧ RestOf r l := by
  obtain ⟨h, hh, rfl, -⟩ := h
  cases l with
  | nil => exact ⟨h, [], hh, Or.inl rfl, by simp [commaList], by simp, rest_all []⟩
  | cons u l =>
    exact ⟨h, ',' :: commaList (u :: l), hh, Or.inr ⟨_, rfl⟩, by simp [commaList], by simp, [','], Or.inr rfl, rfl, by simp⟩

theorem seps_of {h : Str} (hh : h = [] ∨ h = [',']) : ∀ c ∈ h, Space c ∨ c = ',' := by
  rcases hh with rfl | rfl
  · simp
  · intro c hc; exact Or.inr (List.mem_singleton.1 hc)

theorem noeq_of {h : Str} (hh : h = [] ∨ h = [',']) : '=' ∉ h := noeq_of_seps (seps_of hh)

/-! ## Inversion -/

theorem reads_inv {ws : List Word} {s : Str} (h : ReadsWords oxmP actP ws s []) (hs : s ≠ []) {hd name t : Str}
    (ht : Tok s hd name t) : ∃ w u ws', ws = w :: ws' ∧ '=' ∉ hd ∧ Body oxmP actP name t w u ∧ ReadsWords oxmP actP ws' u [] := by
  cases h with
  | nil => exact absurd rfl hs
  | cons _ h' name' t' w u ws' _ _ h2 h3 h4 h5 =>
    obtain ⟨rfl, rfl, rfl⟩ := tok_unique ht h2
    exact ⟨w, u, ws', rfl, h3, h4, h5⟩

theorem place_inv {p : Place} {w : Word} {ws : List Word} (h : placeAfter p (w :: ws) ≠ none) :
    ∃ q, w.next p = some q ∧ placeAfter q ws ≠ none := by
  rw [placeAfter] at h
  cases hq : w.next p with
  | none => rw [hq] at h; exact absurd rfl h
  | some q => rw [hq] at h; exact ⟨q, rfl, h⟩

theorem body_start {name s u : Str} {w : Word} (h : Body oxmP actP name s w u) (hn : name ∉ matchKeys) (ha : name.head? ≠ some '@')
    (hp : w.next .start ≠ none) : ∃ b l, w = .oxm b ∧ str2oxm1 (name ++ s) = .ok (b, l) ∧ l ≠ 0 ∧ u = (name ++ s).drop l := by
  have hi : ∀ l : List Str, (∀ n ∈ l, n.head? = some '@') → name ∉ l := fun l hl hm => ha (hl _ hm)
  have hk : ∀ k : FKey, k.name ∈ matchKeys := by intro k; cases k <;> decide
  have hfl : ∀ e ∈ flagWords, e.1 ∈ matchKeys := by decide
  cases h with
  | key k => exact absurd (hk k) hn
  | cookie => exact absurd (by decide) hn
  | cookieMask => exact absurd (by decide) hn
  | flag _ bit _ h => exact absurd (hfl _ h) hn
  | oxm _ _ b l h1 h2 h3 h4 => exact ⟨b, l, rfl, h3, h4, rfl⟩
  | goto _ _ _ _ _ _ h => exact absurd h (hi _ (by decide))
  | metadata _ _ _ _ _ _ h => exact absurd h (hi _ (by decide))
  | metadataMask _ _ _ _ _ _ _ _ h => exact absurd h (hi _ (by decide))
  | apply _ _ h => exact absurd h (hi _ (by decide))
  | write _ _ h => exact absurd h (hi _ (by decide))
  | clear _ _ h => exact absurd h (hi _ (by decide))
  | meter => exact absurd rfl ha
  | act => exact absurd rfl hp

theorem body_acts {name s u : Str} {w : Word} (h : Body oxmP actP name s w u) (ha : name.head? ≠ some '@')
    (hp : w.next .acts ≠ none) : ∃ b l, w = .act b ∧ str2act (name ++ s) = .ok (b, l) ∧ l ≠ 0 ∧ u = (name ++ s).drop l := by
  have hi : ∀ l : List Str, (∀ n ∈ l, n.head? = some '@') → name ∉ l := fun l hl hm => ha (hl _ hm)
  cases h with
  | key k => exact absurd rfl hp
  | cookie => exact absurd rfl hp
  | cookieMask => exact absurd rfl hp
  | flag _ bit _ h => exact absurd rfl hp
  | oxm _ _ b l h1 h2 h3 h4 => exact absurd rfl hp
  | goto _ _ _ _ _ _ h => exact absurd h (hi _ (by decide))
  | metadata _ _ _ _ _ _ h => exact absurd h (hi _ (by decide))
  | metadataMask _ _ _ _ _ _ _ _ h => exact absurd h (hi _ (by decide))
  | apply _ _ h => exact absurd h (hi _ (by decide))
  | write _ _ h => exact absurd h (hi _ (by decide))
  | clear _ _ h => exact absurd h (hi _ (by decide))
  | meter => exact absurd rfl ha
  | act _ _ b l h1 h2 h3 => exact ⟨b, l, rfl, h2, h3, rfl⟩

/-- All match bytes come from items. -/
theorem reads_oxm {ws : List Word} {s r : Str} (h : ReadsWords oxmP actP ws s r) : ∀ b, .oxm b ∈ ws → ∃ u n, str2oxm1 u = .ok (b, n) := by
  induction h with
  | nil => intro b hb; cases hb
  | cons s h name t w u ws r h1 h2 h3 h4 _ ih =>
    intro b hb
    rcases List.mem_cons.1 hb with rfl | hb
    · cases h4 with
      | oxm _ _ _ l _ _ h5 => exact ⟨_, l, h5⟩
    · exact ih b hb

theorem oxmOf_first {ws : List Word} (h : oxmOf ws ≠ []) : ∃ b msg, .oxm b ∈ ws ∧ b ≠ [] ∧ oxmOf ws = b ++ msg := by
  induction ws with
  | nil => exact absurd rfl h
  | cons w ws ih =>
    have e : oxmOf (w :: ws) = w.oxmBytes ++ oxmOf ws := by simp [oxmOf]
    by_cases hw : w.oxmBytes = []
    · rw [hw, List.nil_append] at e
      obtain ⟨b, msg, h1, h2, h3⟩ := ih (by rw [← e]; exact h)
      exact ⟨b, msg, List.mem_cons_of_mem _ h1, h2, by rw [e, h3]⟩
    · cases w with
      | oxm b => exact ⟨b, oxmOf ws, by simp, hw, e⟩
      | _ => exact absurd rfl hw

/-! ## One item -/

/-- A word that reads whatever follows is the first one. -/
theorem word_peel {w : Word} {t : Str} (hw : IsWord oxmP actP w t) {h r : Str} (hh : h = [] ∨ h = [',']) (hr : r = [] ∨ ∃ r', r = ',' :: r')
    {ws : List Word} (hrd : ReadsWords oxmP actP ws (h ++ (t ++ r)) []) {p : Place} (hp : placeAfter p ws ≠ none) (hwp : w.next p ≠ none) :
    ∃ ws', ws = w :: ws' ∧ ReadsWords oxmP actP ws' r [] := by
  obtain ⟨hn, hw⟩ := hw
  obtain ⟨name, u, h1, h2⟩ := hw h r (seps_of hh) (atEnd_of hr)
  obtain ⟨w', u', ws', rfl, -, h4, h5⟩ := reads_inv hrd (by simp [hn]) h1
  obtain ⟨q, hq, -⟩ := place_inv hp
  obtain ⟨rfl, rfl⟩ := body_det (o := oxmP) (a := actP) (fun _ _ _ _ _ => oxmP_det) (fun _ _ _ _ _ => actP_det) h2 h4 hwp (by rw [hq]; simp)
  exact ⟨ws', rfl, h5⟩

theorem tok_eq_head {q h b r : Str} (ht : Tok ('=' :: q) h b r) : '=' ∈ h := by
  obtain ⟨-, h2, -⟩ := ht
  generalize hs : '=' :: q = s at h2
  cases h2 with
  | eq => simp
  | run _ r h1 =>
    obtain ⟨c, hc, -⟩ := h1 [] q hs.symm
    cases hc

theorem matchItem_drop {u v r : Str} {t : Tlv} (h : MatchItem u v t r) : u.drop (u.length - r.length) = r := by
  obtain ⟨h0, op, r1, h1, h2, -⟩ := h
  have e : u = (h0 ++ (t.field.name ++ (op ++ v))) ++ r := by
    rw [h1.1, h2.1]; simp
  have hl : u.length - r.length = (h0 ++ (t.field.name ++ (op ++ v))).length := by
    rw [e, List.length_append]; omega
  rw [hl, e, List.drop_left]

/-- A match item of which the bytes are read was read back. -/
theorem tlv_peel (t : Tlv) (hv : t.Valid) (hz : t.field.kind = .ssid → t.mask ≠ none → ∃ x ∈ t.value, x ≠ 0)
    {h r : Str} (hh : h = [] ∨ h = [',']) (hr : r = [] ∨ ∃ r', r = ',' :: r') {ws : List Word}
    (hrd : ReadsWords oxmP actP ws (h ++ (tlvPrint t ++ r)) []) (hp : placeAfter .start ws ≠ none)
    {x : Bytes} (hx : x.head? ≠ some 44 ∧ x.head? ≠ some 47) (ho : oxmOf ws = t.wire ++ x) :
    t.Survives (r = []) ∧ ∃ ws', ws = .oxm t.wire :: ws' ∧ ReadsWords oxmP actP ws' r [] := by
  obtain ⟨f, hf, z, htok⟩ := tlv_starts t hv hz hh hr
  have hmk : f.name ∉ matchKeys ∧ f.name.head? ≠ some '@' :=
    (by decide +kernel : ∀ f ∈ fields, f.name ∉ matchKeys ∧ f.name.head? ≠ some '@') f hf
  have hne : h ++ (tlvPrint t ++ r) ≠ [] := by
    intro h0
    have := htok.1
    rw [h0] at this
    have hn := (field_name _ hf).2.1
    simp [hn] at this
  obtain ⟨w, u, ws', rfl, -, hb, hrest⟩ := reads_inv hrd hne htok
  obtain ⟨q, hq, hp'⟩ := place_inv hp
  have hz' : f.name ++ z = tlvPrint t ++ r := (List.append_cancel_left htok.1).symm
  obtain ⟨b, l, rfl, h1, h2, h3⟩ := body_start hb hmk.1 hmk.2 (by rw [hq]; simp)
  rw [hz'] at h1 h3
  have ho' : b ++ oxmOf ws' = t.wire ++ x := by rw [← ho]; simp [oxmOf, Word.oxmBytes]
  rcases (str2oxm1_matchItem _ _ _).1 h1 with ⟨h0, -, -⟩ | ⟨t', r', hi, rfl, hn⟩ | ⟨v, t', r', hi, hvn, hbt, hn⟩
  · rw [← hz'] at h0
    exact absurd (List.append_eq_nil_iff.1 h0).1 (field_name _ hf).2.1
  · exfalso
    rw [hn, matchItem_drop hi] at h3
    subst h3
    rcases tlv_dropped t hv hz hr hi with ⟨q, rfl⟩ | hnever
    · cases hrest with
      | cons _ _ _ _ _ _ _ _ _ g2 g3 => exact g3 (tok_eq_head g2)
    · rw [List.nil_append] at ho'
      have hw : oxmOf ws' ≠ [] := by
        rw [ho']
        have := wire_ne t
        simp [this]
      obtain ⟨b, msg, g1, g2, g3⟩ := oxmOf_first hw
      obtain ⟨u, n, g4⟩ := reads_oxm hrest b g1
      exact hnever u b n msg x g4 g2 (by rw [← g3, ho'])
  · have hone := (str2oxmOne_exact _ _ _ _).2 ⟨t', hi, hbt⟩
    have hl0 : v.length ≠ 0 := by simpa using hvn
    have hsv := tlv_back t hv hz (h := []) (Or.inl rfl) hr hone hl0 hx ho'
    refine ⟨hsv, ws', ?_, ?_⟩
    · obtain ⟨v2, -, h5⟩ := tlv_fwd t hv (h := []) (Or.inl rfl) hr hsv
      rw [List.nil_append, hone] at h5
      simp only [Except.ok.injEq, Prod.mk.injEq] at h5
      rw [h5.1]
    · obtain ⟨v2, -, h5⟩ := tlv_fwd t hv (h := []) (Or.inl rfl) hr hsv
      rw [List.nil_append, hone] at h5
      simp only [Except.ok.injEq, Prod.mk.injEq] at h5
      rw [hn, matchItem_drop hi, h5.2.2.2] at h3
      rw [← h3]; exact hrest

/-- A match item that survives is read. -/
theorem tlv_reads (t : Tlv) (hv : t.Valid) {h r : Str} (hh : h = [] ∨ h = [',']) (hr : r = [] ∨ ∃ r', r = ',' :: r')
    (hs : t.Survives (r = [])) : ReadsWords oxmP actP [.oxm t.wire] (h ++ (tlvPrint t ++ r)) r := by
  have hz : t.field.kind = .ssid → t.mask ≠ none → ∃ x ∈ t.value, x ≠ 0 := fun hk hm => ssid_nonzero hk hs hm
  obtain ⟨f, hf, z, htok⟩ := tlv_starts t hv hz hh hr
  have hmk : f.name ∉ matchKeys ∧ f.name.head? ≠ some '@' :=
    (by decide +kernel : ∀ f ∈ fields, f.name ∉ matchKeys ∧ f.name.head? ≠ some '@') f hf
  have hz' : f.name ++ z = tlvPrint t ++ r := (List.append_cancel_left htok.1).symm
  have hne : tlvPrint t ++ r ≠ [] := by
    rw [← hz']
    have hn := (field_name _ hf).2.1
    simp [hn]
  obtain ⟨v, hvn, h1⟩ := tlv_fwd t hv (h := []) (Or.inl rfl) hr hs
  obtain ⟨t', hi, hbt⟩ := (str2oxmOne_exact _ _ _ _).1 h1
  rw [List.nil_append] at hi
  have h2 := (str2oxm1_matchItem _ _ _).2 (Or.inr (Or.inr ⟨v, t', r, hi, hvn, hbt, rfl⟩))
  have hl : (tlvPrint t ++ r).length - r.length ≠ 0 := by
    intro h0
    have := matchItem_drop hi
    rw [h0, List.drop_zero] at this
    obtain ⟨h0, op, r1, g1, g2, -, g3, -⟩ := hi
    have e1 := congrArg List.length g1.1
    have e2 := congrArg List.length g2.1
    have e3 := List.length_pos_of_mem g3
    rw [this] at e1
    simp only [List.length_append] at e1 e2
    omega
  have := Body.oxm (oxm := oxmP) (act := actP) f.name z t.wire _ hmk.1 hmk.2 (by rw [hz']; exact h2) hl
  rw [hz', matchItem_drop hi] at this
  exact .cons _ h _ z _ r [] r (by intro h0; exact hne (List.append_eq_nil_iff.1 h0).2) htok (noeq_of hh) this (.nil r)

/-- What is known of the first token of an action. -/
theorem act_tok {t : Str} (ne : t ≠ []) (hst : ActStart t) {h r : Str} (hh : h = [] ∨ h = [',']) :
    ∃ name u, Tok (h ++ (t ++ r)) h name u ∧ t ++ r = name ++ u ∧ name.head? ≠ some '@' := by
  rcases hgt : getToken (h ++ (t ++ r)) with ⟨h', name, u⟩
  have ht := (getToken_iff _ _ _ _).1 hgt
  have hps : PlainStart (t ++ r) := plainStart_append hst.1 ne
  have hh' : h' = h := by
    have := getToken_fst (h ++ (t ++ r))
    rw [hgt, tokenHead_of_head (head_of hh) hps] at this
    exact this
  subst hh'
  have hnu : t ++ r = name ++ u := List.append_cancel_left ht.1
  refine ⟨name, u, ht, hnu, ?_⟩
  cases name with
  | nil => simp
  | cons d nm =>
    cases t with
    | nil => exact absurd rfl ne
    | cons e t =>
      simp only [List.cons_append, List.cons.injEq] at hnu
      have := hst.2
      rw [hnu.1] at this
      exact this

/-- An action of which the bytes are read was read back. -/
theorem act_peel (a : Act) (hv : a.Valid) {t : Str} (hpr : ∀ rest, act2strOne (a.wire ++ rest) = .ok t)
    {h r : Str} (hh : h = [] ∨ h = [',']) (hr : r = [] ∨ ∃ r', r = ',' :: r') {ws : List Word}
    (hrd : ReadsWords oxmP actP ws (h ++ (t ++ r)) []) (hp : placeAfter .acts ws ≠ none)
    {x : Bytes} (ho : leading ws = a.wire ++ x) :
    a.Survives (r = []) ∧ ∃ ws', ws = .act a.wire :: ws' ∧ ReadsWords oxmP actP ws' r [] := by
  have hb := act_back a hv
  rcases hb.back with ⟨e, -, he, -⟩ | ⟨text, hpt, hne, hst, hbr⟩
  · have := hpr []
    rw [he] at this
    cases this
  have ht : text = t := by
    have := hpt []
    rw [hpr] at this
    exact (Except.ok.inj this).symm
  subst ht
  obtain ⟨name, u, htok, hnu, hat⟩ := act_tok (r := r) hne hst hh
  obtain ⟨w, u', ws', rfl, -, hbd, hrest⟩ := reads_inv hrd (by simp [hne]) htok
  obtain ⟨q, hq, hp'⟩ := place_inv hp
  obtain ⟨b, l, rfl, h1, h2, h3⟩ := body_acts hbd hat (by rw [hq]; simp)
  rw [← hnu] at h1 h3
  have he := act_same (actGood_lenf (act_good_of hne hst h1 h2) (leading ws')).1 (hb.lenf x) ho
  subst he
  have hsv := (hbr [] r (Or.inl rfl) hr).2 l (by simpa using h1)
  refine ⟨hsv, ws', rfl, ?_⟩
  have h4 := (hbr [] r (Or.inl rfl) hr).1 hsv
  simp only [List.nil_append, List.length_nil, Nat.zero_add] at h4
  rw [h1] at h4
  cases h4
  rw [List.drop_left] at h3
  rw [← h3]; exact hrest

/-- An action that survives is read. -/
theorem act_reads (a : Act) (hv : a.Valid) {t : Str} (hpr : ∀ rest, act2strOne (a.wire ++ rest) = .ok t)
    {h r : Str} (hh : h = [] ∨ h = [',']) (hr : r = [] ∨ ∃ r', r = ',' :: r') (hs : a.Survives (r = [])) :
    ReadsWords oxmP actP [.act a.wire] (h ++ (t ++ r)) r := by
  have hb := act_back a hv
  rcases hb.back with ⟨e, -, he, -⟩ | ⟨text, hpt, hne, hst, hbr⟩
  · have := hpr []
    rw [he] at this
    cases this
  have ht : text = t := by
    have := hpt []
    rw [hpr] at this
    exact (Except.ok.inj this).symm
  subst ht
  obtain ⟨name, u, htok, hnu, hat⟩ := act_tok (r := r) hne hst hh
  have h4 := (hbr [] r (Or.inl rfl) hr).1 hs
  simp only [List.nil_append, List.length_nil, Nat.zero_add] at h4
  have hl : text.length ≠ 0 := by simpa using hne
  have := Body.act (oxm := oxmP) (act := actP) name u a.wire _ hat (by rw [← hnu]; exact h4) hl
  rw [← hnu, List.drop_left] at this
  exact .cons _ h _ u _ r [] r (by simp [hne]) htok (noeq_of hh) this (.nil r)

/-! ## Lists of items -/

theorem words_peel (ks : List (Word × Str)) (hk : ∀ e ∈ ks, IsWord oxmP actP e.1 e.2 ∧ StartWord e.1) {l : List Str} {s : Str}
    (hs : RestOf s (ks.map (·.2) ++ l)) {ws : List Word} (hrd : ReadsWords oxmP actP ws s []) (hp : placeAfter .start ws ≠ none) :
    ∃ ws' s', ws = ks.map (·.1) ++ ws' ∧ RestOf s' l ∧ ReadsWords oxmP actP ws' s' [] ∧ placeAfter .start ws' ≠ none := by
  induction ks generalizing s ws with
  | nil => exact ⟨ws, s, rfl, hs, hrd, hp⟩
  | cons e ks ih =>
    obtain ⟨h, r, hh, hr, rfl, -, hrest⟩ := rest_cons hs
    have hnx : e.1.next .start = some .start := by
      have := (hk e (by simp)).2
      cases he : e.1 <;> rw [he] at this <;> first | rfl | exact absurd this id
    obtain ⟨ws', rfl, h2⟩ := word_peel (hk e (by simp)).1 hh hr hrd hp (by rw [hnx]; simp)
    obtain ⟨q, hq, hp'⟩ := place_inv hp
    rw [hnx] at hq
    cases hq
    obtain ⟨ws2, s2, rfl, g2, g3, g4⟩ := ih (fun x hx => hk x (by simp [hx])) hrest h2 hp'
    exact ⟨ws2, s2, rfl, g2, g3, g4⟩

theorem words_reads (ks : List (Word × Str)) (hk : ∀ e ∈ ks, IsWord oxmP actP e.1 e.2) {l : List Str} {s : Str}
    (hs : RestOf s (ks.map (·.2) ++ l)) : ∃ s', RestOf s' l ∧ ReadsWords oxmP actP (ks.map (·.1)) s s' := by
  induction ks generalizing s with
  | nil => exact ⟨s, hs, .nil s⟩
  | cons e ks ih =>
    obtain ⟨h, r, hh, hr, rfl, -, hrest⟩ := rest_cons hs
    obtain ⟨s', h1, h2⟩ := ih (fun x hx => hk x (by simp [hx])) hrest
    exact ⟨s', h1, reads_append (reads_one (hk e (by simp)) (seps_of hh) (atEnd_of hr)) h2⟩

theorem tlvs_peel (ts : List Tlv) (hv : ∀ t ∈ ts, t.Valid)
    (hz : ∀ t ∈ ts, t.field.kind = .ssid → t.mask ≠ none → ∃ x ∈ t.value, x ≠ 0) {l : List Str} {s : Str}
    (hs : RestOf s (ts.map tlvPrint ++ l)) {ws : List Word} (hrd : ReadsWords oxmP actP ws s []) (hp : placeAfter .start ws ≠ none)
    (ho : oxmOf ws = wireAll ts) :
    ListSurvive (fun t q => Tlv.Survives q t) (l = []) ts ∧ ∃ ws' s', ws = ts.map (fun t => .oxm t.wire) ++ ws' ∧ RestOf s' l ∧
      ReadsWords oxmP actP ws' s' [] ∧ placeAfter .start ws' ≠ none := by
  induction ts generalizing s ws with
  | nil => exact ⟨listSurvive_nil _ _, ws, s, rfl, hs, hrd, hp⟩
  | cons t ts ih =>
    obtain ⟨h, r, hh, hr, rfl, hrn, hrest⟩ := rest_cons hs
    have hwa : wireAll (t :: ts) = t.wire ++ wireAll ts := rfl
    rw [hwa] at ho
    obtain ⟨h1, ws', rfl, h2⟩ := tlv_peel t (hv t (by simp)) (hz t (by simp)) hh hr hrd hp (wireAll_head ts (fun x hx => hv x (by simp [hx]))) ho
    obtain ⟨q, hq, hp'⟩ := place_inv hp
    cases hq
    have ho' : oxmOf ws' = wireAll ts := by
      have : oxmOf (.oxm t.wire :: ws') = t.wire ++ oxmOf ws' := by simp [oxmOf, Word.oxmBytes]
      rw [this] at ho
      exact List.append_cancel_left ho
    obtain ⟨g1, ws2, s2, rfl, g2, g3, g4⟩ := ih (fun x hx => hv x (by simp [hx])) (fun x hx => hz x (by simp [hx])) hrest h2 hp' ho'
    refine ⟨listSurvive_cons.2 ⟨?_, g1⟩, ws2, s2, rfl, g2, g3, g4⟩
    have : (r = []) = (ts = [] ∧ l = []) := by
      rw [propext hrn]
      show (ts.map tlvPrint ++ l = []) = _
      rw [List.append_eq_nil_iff, List.map_eq_nil_iff]
    rw [← this]
    exact h1

theorem tlvs_reads (ts : List Tlv) (hv : ∀ t ∈ ts, t.Valid) {l : List Str} (hsv : ListSurvive (fun t q => Tlv.Survives q t) (l = []) ts)
    {s : Str} (hs : RestOf s (ts.map tlvPrint ++ l)) : ∃ s', RestOf s' l ∧ ReadsWords oxmP actP (ts.map fun t => .oxm t.wire) s s' := by
  induction ts generalizing s with
  | nil => exact ⟨s, hs, .nil s⟩
  | cons t ts ih =>
    obtain ⟨h, r, hh, hr, rfl, hrn, hrest⟩ := rest_cons hs
    obtain ⟨h1, h2⟩ := listSurvive_cons.1 hsv
    obtain ⟨s', h3, h4⟩ := ih (fun x hx => hv x (by simp [hx])) h2 hrest
    have : (r = []) = (ts = [] ∧ l = []) := by
      rw [propext hrn]
      show (ts.map tlvPrint ++ l = []) = _
      rw [List.append_eq_nil_iff, List.map_eq_nil_iff]
    rw [← this] at h1
    exact ⟨s', h3, reads_append (tlv_reads t (hv t (by simp)) hh hr h1) h4⟩

theorem acts_peel (as : List Act) (hv : ∀ a ∈ as, a.Valid) {ts : List Str} (hts : ActTexts as ts) {l : List Str} {s : Str}
    (hs : RestOf s (ts ++ l)) {ws : List Word} (hrd : ReadsWords oxmP actP ws s []) (hp : placeAfter .acts ws ≠ none)
    {x : Bytes} (ho : leading ws = as.flatMap Act.wire ++ x) :
    ListSurvive (fun a q => Act.Survives q a) (l = []) as ∧ ∃ ws' s', ws = as.map (fun a => .act a.wire) ++ ws' ∧ RestOf s' l ∧
      ReadsWords oxmP actP ws' s' [] ∧ placeAfter .acts ws' ≠ none := by
  induction hts generalizing s ws with
  | nil => exact ⟨listSurvive_nil _ _, ws, s, rfl, hs, hrd, hp⟩
  | @cons a t as ts hpr hrs ih =>
    obtain ⟨h, r, hh, hr, rfl, hrn, hrest⟩ := rest_cons hs
    rw [List.flatMap_cons, List.append_assoc] at ho
    obtain ⟨h1, ws', rfl, h2⟩ := act_peel a (hv a (by simp)) hpr hh hr hrd hp ho
    obtain ⟨q, hq, hp'⟩ := place_inv hp
    cases hq
    have ho' : leading ws' = as.flatMap Act.wire ++ x := by
      rw [leading] at ho
      exact List.append_cancel_left ho
    obtain ⟨g1, ws2, s2, rfl, g2, g3, g4⟩ := ih (fun x hx => hv x (by simp [hx])) hrest h2 hp' ho'
    refine ⟨listSurvive_cons.2 ⟨?_, g1⟩, ws2, s2, rfl, g2, g3, g4⟩
    have hte : ts = [] ↔ as = [] := by
      cases hrs <;> simp
    have : (r = []) = (as = [] ∧ l = []) := by
      rw [propext hrn]
      show (ts ++ l = []) = _
      rw [List.append_eq_nil_iff, propext hte]
    rw [← this]
    exact h1

theorem acts_reads (as : List Act) (hv : ∀ a ∈ as, a.Valid) {ts : List Str} (hts : ActTexts as ts) {l : List Str}
    (hsv : ListSurvive (fun a q => Act.Survives q a) (l = []) as) {s : Str} (hs : RestOf s (ts ++ l)) :
    ∃ s', RestOf s' l ∧ ReadsWords oxmP actP (as.map fun a => .act a.wire) s s' := by
  induction hts generalizing s with
  | nil => exact ⟨s, hs, .nil s⟩
  | @cons a t as ts hpr hrs ih =>
    obtain ⟨h, r, hh, hr, rfl, hrn, hrest⟩ := rest_cons hs
    obtain ⟨h1, h2⟩ := listSurvive_cons.1 hsv
    obtain ⟨s', h3, h4⟩ := ih (fun x hx => hv x (by simp [hx])) h2 hrest
    have hte : ts = [] ↔ as = [] := by
      cases hrs <;> simp
    have : (r = []) = (as = [] ∧ l = []) := by
      rw [propext hrn]
      show (ts ++ l = []) = _
      rw [List.append_eq_nil_iff, propext hte]
    rw [← this] at h1
    exact ⟨s', h3, reads_append (act_reads a (hv a (by simp)) hpr hh hr h1) h4⟩

/-! ## Instructions -/

/-- The word of an instruction and its text. -/
def instWord : FInst → Word × Str
  | .goto n => (.goto n, t!"@goto=" ++ fmtD n)
  | .metadata n m => (.metadata n m, if m = 0 then t!"@metadata=" ++ fmtX 0 n else t!"@metadata=" ++ (fmtX 0 n ++ '/' :: fmtX 0 m))
  | .write _ => (.write, t!"@write")
  | .apply _ => (.apply, t!"@apply")
  | .clear => (.clear, t!"@clear")
  | .meter n => (.meter n, t!"@meter=" ++ fmtD n)

/-- The words of an instruction. -/
def instWordsOf (i : FInst) : List Word := (instWord i).1 :: i.actions.map fun a => .act a.wire

theorem instWord_isWord (i : FInst) : IsWord oxmP actP (instWord i).1 (instWord i).2 := by
  cases i with
  | goto n =>
    have h2 := intSyntax_fmtD n
    exact isWord_eq (w := .goto n) (name := t!"@goto") (by decide) (by decide) (intSyntax_clean h2).1 (intSyntax_clean h2).2.1
      (fun s op r h3 h4 => .goto _ s op _ n r (by decide) h3 h4 h2)
  | metadata n m =>
    have h2 := intSyntax_fmtX 0 n
    have h2' := intSyntax_fmtX 0 m
    rw [instWord]
    dsimp only
    by_cases hm : m = 0
    · subst hm
      rw [if_pos rfl]
      exact isWord_eq (w := .metadata n 0) (name := t!"@metadata") (by decide) (by decide) (intSyntax_clean h2).1 (intSyntax_clean h2).2.1
        (fun s op r h3 h4 => .metadata _ s op _ n r (by decide) h3 h4 h2)
    · rw [if_neg hm]
      exact isWord_eq (w := .metadata n m) (name := t!"@metadata") (by decide) (by decide) (slash_clean h2 h2') (by simp)
        (fun s op r h3 h4 => .metadataMask _ s op _ _ n m r (by decide) h3 h4 h2 h2')
  | write as => exact isWord_bare (w := .write) (name := t!"@write") (by decide) (by decide) (fun s => .write _ s (by decide))
  | apply as => exact isWord_bare (w := .apply) (name := t!"@apply") (by decide) (by decide) (fun s => .apply _ s (by decide))
  | clear => exact isWord_bare (w := .clear) (by decide) (by decide) (fun s => .clear _ s (by decide))
  | meter n =>
    have h2 := intSyntax_fmtD n
    exact isWord_eq (w := .meter n) (name := t!"@meter") (by decide) (by decide) (intSyntax_clean h2).1
      (intSyntax_clean h2).2.1 (fun s op r h3 h4 => .meter s op _ n r h3 h4 h2)

theorem instWire_acts {t : Nat} {a b x y : Bytes} (ha : 8 + a.length < 65536) (hb : 8 + b.length < 65536)
    (h : (u16 t ++ (u16 (8 + a.length) ++ (pad 4 ++ a))) ++ x = (u16 t ++ (u16 (8 + b.length) ++ (pad 4 ++ b))) ++ y) : a = b ∧ x = y := by
  simp only [List.append_assoc] at h
  have h1 := List.append_cancel_left h
  obtain ⟨h2, h3⟩ := List.append_inj h1 (by simp [u16_length])
  have h4 := List.append_cancel_left h3
  have h5 : 8 + a.length = 8 + b.length := be_inj (k := 2) (by simpa using ha) (by simpa using hb) h2
  exact List.append_inj h4 (by omega)

theorem insts_peel (L : List (FInst × List Str)) (hv : ∀ e ∈ L, e.1.Valid) (hts : ∀ e ∈ L, ActTexts e.1.actions e.2) {s : Str}
    (hs : RestOf s (L.flatMap fun e => (instWord e.1).2 :: e.2)) {ws : List Word} (hrd : ReadsWords oxmP actP ws s [])
    {p : Place} (hp : placeAfter p ws ≠ none) (hfit : ∀ i ∈ instsOf ws, i.Fits)
    (ho : (instsOf ws).flatMap Inst.wire = (L.map (·.1)).flatMap fun i => i.inst.wire) :
    (∀ a i b, L.map (·.1) = a ++ i :: b → ListSurvive (fun a q => Act.Survives q a) (b = []) i.actions) ∧
      ws = (L.map (·.1)).flatMap instWordsOf := by
  induction L generalizing s ws p with
  | nil =>
    refine ⟨by intro a i b h; simp at h, ?_⟩
    rw [rest_nil hs] at hrd
    cases hrd with
    | nil => rfl
    | cons _ _ _ _ _ _ _ _ h1 => exact absurd rfl h1
  | cons e L ih =>
    obtain ⟨i, ts⟩ := e
    rw [List.flatMap_cons, List.cons_append] at hs
    obtain ⟨h, r, hh, hr, rfl, hrn, hrest⟩ := rest_cons hs
    have hnx : ∀ p, (instWord i).1.next p ≠ none := by intro p; cases i <;> cases p <;> simp [instWord, Word.next]
    obtain ⟨ws', rfl, h2⟩ := word_peel (instWord_isWord i) hh hr hrd hp (hnx p)
    obtain ⟨q, hq, hp'⟩ := place_inv hp
    have hvi := hv (i, ts) (by simp)
    have hti := hts (i, ts) (by simp)
    dsimp only at hvi hti hrest
    have hL : L.flatMap (fun e => (instWord e.1).2 :: e.2) = [] ↔ L.map (·.1) = [] := by
      cases L <;> simp
    have fin : ∀ {ws2 : List Word} {s2 : Str} {p2 : Place}, RestOf s2 (L.flatMap fun e => (instWord e.1).2 :: e.2) →
        ReadsWords oxmP actP ws2 s2 [] → placeAfter p2 ws2 ≠ none → (∀ i ∈ instsOf ws2, i.Fits) →
        (instsOf ws2).flatMap Inst.wire = ((L.map (·.1)).flatMap fun i => i.inst.wire) →
        ListSurvive (fun a q => Act.Survives q a) (L.flatMap (fun e => (instWord e.1).2 :: e.2) = []) i.actions →
        ws' = i.actions.map (fun a => .act a.wire) ++ ws2 →
        (∀ a j b, ((i, ts) :: L).map (·.1) = a ++ j :: b → ListSurvive (fun a q => Act.Survives q a) (b = []) j.actions) ∧
          (instWord i).1 :: ws' = (((i, ts) :: L).map (·.1)).flatMap instWordsOf := by
      intro ws2 s2 p2 g1 g2 g3 g4 g5 g6 g7
      obtain ⟨k1, k2⟩ := ih (fun x hx => hv x (by simp [hx])) (fun x hx => hts x (by simp [hx])) g1 g2 g3 g4 g5
      constructor
      · intro a j b hab
        cases a with
        | nil =>
          simp only [List.map_cons, List.nil_append, List.cons.injEq] at hab
          obtain ⟨rfl, rfl⟩ := hab
          rw [propext hL] at g6
          exact g6
        | cons y a =>
          simp only [List.map_cons, List.cons_append, List.cons.injEq] at hab
          exact k1 a j b hab.2
      · rw [g7, k2]
        simp [instWordsOf]
    have plain : i.actions = [] → instsOf ((instWord i).1 :: ws') = i.inst :: instsOf ws' →
        (∀ a j b, ((i, ts) :: L).map (·.1) = a ++ j :: b → ListSurvive (fun a q => Act.Survives q a) (b = []) j.actions) ∧
          (instWord i).1 :: ws' = (((i, ts) :: L).map (·.1)).flatMap instWordsOf := by
      intro ha hi
      rw [ha] at hti
      cases hti
      rw [hi] at ho hfit
      refine fin hrest h2 hp' (fun j hj => hfit j (by simp [hj])) ?_ (by rw [ha]; exact listSurvive_nil _ _) (by rw [ha]; rfl)
      simp only [List.flatMap_cons, List.map_cons] at ho
      exact List.append_cancel_left ho
    have acts : ∀ as : List Act, i.actions = as → q = .acts → leading ws' = as.flatMap Act.wire →
        (instsOf ws').flatMap Inst.wire = ((L.map (·.1)).flatMap fun i => i.inst.wire) →
        (∀ j ∈ instsOf ws', j.Fits) →
        (∀ a j b, ((i, ts) :: L).map (·.1) = a ++ j :: b → ListSurvive (fun a q => Act.Survives q a) (b = []) j.actions) ∧
          (instWord i).1 :: ws' = (((i, ts) :: L).map (·.1)).flatMap instWordsOf := by
      rintro as ha rfl hlead hre hfi
      rw [ha] at hti
      obtain ⟨k1, ws2, s2, rfl, k2, k3, k4⟩ := acts_peel as (by rw [← ha]; exact hvi.2.1) hti hrest h2 hp' (x := []) (by rw [hlead]; simp)
      have hio : instsOf (as.map (fun a => Word.act a.wire) ++ ws2) = instsOf ws2 := by
        have := instsOf_acts (as.map Act.wire) ws2
        rw [List.map_map] at this
        exact this
      rw [hio] at hre hfi
      exact fin k2 k3 k4 hfi hre (by rw [ha]; exact k1) (by rw [ha])
    cases i with
    | goto n => exact plain rfl rfl
    | metadata n m => exact plain rfl rfl
    | clear => exact plain rfl rfl
    | meter n => exact plain rfl rfl
    | write as =>
      have hi : instsOf ((instWord (.write as)).1 :: ws') = .write (leading ws') :: instsOf ws' := rfl
      rw [hi] at ho hfit
      simp only [List.flatMap_cons, List.map_cons] at ho
      obtain ⟨e1, e2⟩ := instWire_acts (t := 3) (hfit (.write (leading ws')) (by simp)) hvi.1 ho
      refine acts as rfl ?_ e1 e2 (fun j hj => hfit j (by simp [hj]))
      cases p <;> exact (Option.some.inj hq).symm
    | apply as =>
      have hi : instsOf ((instWord (.apply as)).1 :: ws') = .apply (leading ws') :: instsOf ws' := rfl
      rw [hi] at ho hfit
      simp only [List.flatMap_cons, List.map_cons] at ho
      obtain ⟨e1, e2⟩ := instWire_acts (t := 4) (hfit (.apply (leading ws')) (by simp)) hvi.1 ho
      refine acts as rfl ?_ e1 e2 (fun j hj => hfit j (by simp [hj]))
      cases p <;> exact (Option.some.inj hq).symm

theorem insts_reads (L : List (FInst × List Str)) (hv : ∀ e ∈ L, e.1.Valid) (hts : ∀ e ∈ L, ActTexts e.1.actions e.2)
    (hsv : ∀ a i b, L.map (·.1) = a ++ i :: b → ListSurvive (fun a q => Act.Survives q a) (b = []) i.actions) {s : Str}
    (hs : RestOf s (L.flatMap fun e => (instWord e.1).2 :: e.2)) :
    ReadsWords oxmP actP ((L.map (·.1)).flatMap instWordsOf) s [] := by
  induction L generalizing s with
  | nil =>
    rw [rest_nil hs]
    exact .nil []
  | cons e L ih =>
    obtain ⟨i, ts⟩ := e
    rw [List.flatMap_cons, List.cons_append] at hs
    obtain ⟨h, r, hh, hr, rfl, hrn, hrest⟩ := rest_cons hs
    have hL : L.flatMap (fun e => (instWord e.1).2 :: e.2) = [] ↔ L.map (·.1) = [] := by
      cases L <;> simp
    have h1 := hsv [] i (L.map (·.1)) rfl
    rw [← propext hL] at h1
    obtain ⟨s', g1, g2⟩ := acts_reads i.actions (hv (i, ts) (by simp)).2.1 (hts (i, ts) (by simp)) h1 hrest
    have g3 := ih (fun x hx => hv x (by simp [hx])) (fun x hx => hts x (by simp [hx]))
      (fun a j b hab => hsv (i :: a) j b (by rw [List.map_cons, hab]; rfl)) g1
    have := reads_append (reads_one (instWord_isWord i) (seps_of hh) (atEnd_of hr)) (reads_append g2 g3)
    simpa [instWordsOf] using this

theorem instWords_of (is : List FInst) : InstWords (is.flatMap instWordsOf) (is.map FInst.inst) := by
  induction is with
  | nil => exact ⟨rfl, rfl, fun p => by simp [placeAfter], by simp⟩
  | cons i is ih =>
    have e : (i :: is).flatMap instWordsOf = (instWord i).1 :: ((i.actions.map Act.wire).map Word.act ++ is.flatMap instWordsOf) := by
      simp [instWordsOf, Function.comp_def]
    have hacts : i.actions.map Act.wire = [] ∨ (instWord i).1.next .start = some .acts := by
      cases i <;> first | exact Or.inl rfl | exact Or.inr rfl
    have hlead : leading ((i.actions.map Act.wire).map Word.act ++ is.flatMap instWordsOf) = i.actions.flatMap Act.wire := by
      rw [leading_acts, ih.lead, List.append_nil, List.flatMap_def]
    rw [e]
    refine ⟨?_, by cases i <;> rfl, ?_, ?_⟩
    · have hr : instsOf ((i.actions.map Act.wire).map Word.act ++ is.flatMap instWordsOf) = is.map FInst.inst := by
        rw [instsOf_acts, ih.insts]
      cases i <;> simp only [instWord, instsOf, FInst.inst, List.map_cons, hr, hlead] <;> rfl
    · intro p
      have h1 : ∀ q, placeAfter q ((([] : List Bytes)).map Word.act ++ is.flatMap instWordsOf) ≠ none := fun q => ih.place q
      cases i <;> cases p <;> first
        | exact h1 .done
        | (simp only [instWord, placeAfter, Word.next]; rw [placeAfter_acts]; exact ih.place _)
    · intro x hx
      rcases List.mem_cons.1 hx with rfl | hx
      · cases i <;> trivial
      · rcases List.mem_append.1 hx with hx | hx
        · obtain ⟨a, -, rfl⟩ := List.mem_map.1 hx
          trivial
        · exact ih.only x hx

end Ofpstr
