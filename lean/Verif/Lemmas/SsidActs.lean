import Verif.Lemmas.NoteExact
import Verif.Spec.ActQp

/-!
# SSIDs in actions: exactly which come back
-/

set_option linter.unusedSimpArgs false

namespace Ofpstr
open Spec

/-- As `ssid_value`, for a text that ends at a closing bracket. -/
theorem ssid_part (p t : Bytes) (hp : p ≠ []) (z y a : Str) (hz : ∀ c s, z = c :: s → c = ')' ∨ c = '/')
    (hy : ∀ c s, y = c :: s → c = ')') (ht : t.head? ≠ some 41 ∧ t.head? ≠ some 47) (ha : b2aQp p ++ z = a ++ y)
    {h payload rest v : Str} {ms : List Str}
    (hg : getToken ('=' :: a) = (h, payload, rest)) (hs : splitAll '/' payload = v :: ms)
    (hv : a2bQp v = .ok (p ++ t)) : h = ['='] ∧ v = b2aQp p ∧ '/' ∉ b2aQp p := by
  obtain ⟨w, rfl, hsp, hw, hst, htok, -⟩ := value_token hg
  obtain ⟨hasc, hdec⟩ := a2bQp_inv hv
  obtain ⟨hns, hpv⟩ := splitAll_inv _ _ _ _ hs
  have hy : ∃ y', payload ++ (rest ++ y) = v ++ y' ∧ ∀ c s, y' = c :: s → QpPart v c ∧ ∀ d, d < 16 → c ≠ upDigit d := by
    rcases hpv with ⟨rfl, -⟩ | ⟨u, rfl, -⟩
    · refine ⟨rest ++ y, rfl, ?_⟩
      intro c s hc
      cases rest with
      | nil =>
        cases hy c s hc
        have := sep_upDigit ')' (by simp)
        exact ⟨Or.inl ⟨by decide, by decide, this⟩, this⟩
      | cons c' rest =>
        cases hc
        rcases htok with ⟨h1, h2⟩ | ⟨_, h2⟩
        · exact ⟨Or.inr (token_last h1), sep_upDigit c ((h2 c _ rfl).elim Or.inl fun h => Or.inr (Or.inl h))⟩
        · cases h2
    · refine ⟨'/' :: (u ++ (rest ++ y)), by simp, ?_⟩
      intro c s hc
      cases hc
      have := sep_upDigit '/' (by simp)
      exact ⟨Or.inl ⟨by decide, by decide, this⟩, this⟩
  obtain ⟨y', hy1, hy2⟩ := hy
  have hvst : ∀ c s, v = c :: s → ¬ Space c ∧ c ≠ '=' ∧ c.toNat < 128 := by
    intro c s hc
    have : ∃ s', payload = c :: s' := by
      rcases hpv with ⟨rfl, -⟩ | ⟨u, rfl, -⟩
      · exact ⟨s, hc⟩
      · exact ⟨s ++ '/' :: u, by rw [hc]; rfl⟩
    obtain ⟨s', hs'⟩ := this
    have := hst c s' hs'
    exact ⟨this.1, this.2.1, hasc c (by rw [hc]; simp)⟩
  have hall : b2aQp p ++ z = w ++ (v ++ y') := by rw [ha, hsp, ← hy1]; simp
  have hw0 : w = [] := qp_head p t hp z w v y' hall hw hvst hdec
  subst hw0
  have hvq := qp_whole p t z v y' (by
    intro c s hc
    rcases hz c s hc with rfl | rfl
    · exact ⟨by decide, ht.1⟩
    · exact ⟨by decide, ht.2⟩) hall hy2 hdec
  exact ⟨rfl, hvq, by rw [← hvq]; exact hns⟩

theorem prefix_open {e c : Char} {a : Str} (h : Inside e (c :: a) ∨ Unclosed e (c :: a)) : c ≠ e := by
  rintro rfl
  rcases h with h | h
  · generalize hz : c :: a = z at h
    cases h with
    | nil => cases hz
    | char _ _ _ a1 _ _ => cases hz; exact a1 rfl
    | nest _ _ _ _ _ a1 _ _ _ => simp at hz; exact a1 hz.1.symm
  · generalize hz : c :: a = z at h
    cases h with
    | nil => cases hz
    | char _ _ _ a1 _ _ => cases hz; exact a1 rfl
    | nest _ _ _ _ _ a1 _ _ _ => simp at hz; exact a1 hz.1.symm
    | deep _ _ _ _ a1 _ _ => simp at hz; exact a1 hz.1.symm

/-- The tail of a text in brackets that begins with a word without brackets. -/
theorem arg_split {n x r a y : Str} (hn : NoBracket n) (h : (n ++ x) ++ ')' :: r = a ++ y)
    (hy : (∃ y', y = ')' :: y') ∨ y = []) : ∃ a', a = n ++ a' ∧ x ++ ')' :: r = a' ++ y := by
  rw [List.append_assoc] at h
  rcases List.append_eq_append_iff.1 h with ⟨u, hu1, hu2⟩ | ⟨u, hu1, hu2⟩
  · exact ⟨u, hu1, hu2⟩
  · cases u with
    | nil => exact ⟨[], by simpa using hu1.symm, by simpa using hu2.symm⟩
    | cons c u =>
      exfalso
      rcases hy with ⟨y', rfl⟩ | rfl
      · simp only [List.cons_append, List.cons.injEq] at hu2
        have := (hn c (by rw [hu1]; simp)).2.1
        exact this hu2.1.symm
      · cases hu2

theorem load_arg {a : Str} {w : Bytes} {l : Nat} (han : a ≠ [])
    (hr : regLoad2Str2act a false = .ok (nxWire 33 w, l)) :
    ∃ bin l payload r msg, str2oxmOne a = .ok (bin, l, payload, r) ∧ l ≠ 0 ∧ ∃ j k, bin ++ (msg ++ zeros j) = w ++ zeros k := by
  unfold regLoad2Str2act at hr
  rw [if_neg (by simp)] at hr
  obtain ⟨bin, h1, h2⟩ := nxWrap_inv hr
  obtain ⟨⟨oxm, rl⟩, h3, h1⟩ := bind_ok h1
  dsimp only at h1
  split at h1
  · cases h1
  · obtain ⟨_, hnb, h1⟩ := bind_ok h1
    simp only [Except.ok.injEq, Prod.mk.injEq] at h1
    obtain ⟨rfl, rfl⟩ := h1
    have h4 := nxWrap_hdr_inv (t := 33) h2
    have h5 := nxWire_eq h4
    obtain ⟨k, hk⟩ := fill_pad (10 + oxm.length)
    obtain ⟨j, hj⟩ := fill_pad (10 + w.length)
    unfold str2oxm1 str2oxmL at h3
    obtain ⟨⟨m, rest⟩, h6, h7⟩ := bind_ok h3
    simp only [Except.ok.injEq, Prod.mk.injEq] at h7
    obtain ⟨rfl, -⟩ := h7
    obtain ⟨bin, l', p, r, hone, hc⟩ := str2oxmGo_one h6 han
    rcases hc with ⟨-, rfl⟩ | ⟨hl, msg, rfl⟩
    · exfalso
      unfold needBytes at hnb
      simp at hnb
    · refine ⟨bin, l', p, r, msg, hone, hl, k, j, ?_⟩
      rw [hk, hj] at h5
      rw [← List.append_assoc]
      exact h5.symm

theorem ssid_name_box : NoBracket t!"dot11_ssid=" := by unfold NoBracket; decide

/-- What stands in the brackets, after the name. -/
theorem box_strip {a : Str} {A B : Prop} (h : (Inside ')' (t!"dot11_ssid=" ++ a) ∧ A) ∨ (Unclosed ')' (t!"dot11_ssid=" ++ a) ∧ B)) :
    (Inside ')' a ∧ A) ∨ (Unclosed ')' a ∧ B) := by
  obtain ⟨h1, h2⟩ := strip_chars (e := ')') (u := a) (n := t!"dot11_ssid=") (by decide)
  exact h.imp (fun h => ⟨h1 h.1, h.2⟩) (fun h => ⟨h2 h.1, h.2⟩)

/-- An SSID in brackets without mask that is read back. -/
theorem box_back {r a y payload r' : Str} {bin p msg : Bytes} {l i j : Nat} (hp : p.length + 4 < 256)
    (hay : (t!"dot11_ssid=" ++ b2aQp p) ++ ')' :: r = a ++ y)
    (hcase : (Inside ')' a ∧ ∃ y', y = ')' :: y') ∨ (Unclosed ')' a ∧ y = []))
    (hone : str2oxmOne a = .ok (bin, l, payload, r')) (hl : l ≠ 0)
    (hb : bin ++ (msg ++ zeros i) = (header ssidKey p.length false ++ p) ++ zeros j) :
    SsidText False p ∧ Inside ')' (b2aQp p) := by
  obtain ⟨a', ha, hay'⟩ := arg_split ssid_name_box hay (hcase.imp And.right And.right)
  clear hay
  subst ha
  replace hcase := box_strip hcase
  have hbox := hcase.imp And.left And.left
  obtain ⟨op, v, ms, hg, hs, hlen, d, hd, hc⟩ := ssid_one (h := []) (Or.inl rfl) (z := a') (by rw [← hone]; simp)
  have hy : ∀ c s, y = c :: s → c = ')' := by
    intro c s hc'
    rcases hcase with ⟨-, y', rfl⟩ | ⟨-, rfl⟩
    · cases hc'; rfl
    · cases hc'
  by_cases hpn : p = []
  · exfalso
    subst hpn
    have hq : b2aQp [] = [] := by decide
    rw [hq, List.nil_append] at hay'
    cases a' with
    | nil =>
      have hg0 : getToken ['='] = (['='], [], []) := by decide
      rw [hg0] at hg
      simp only [Prod.mk.injEq] at hg
      rw [← hg.2.1] at hlen
      exact hl hlen
    | cons c a' =>
      simp only [List.cons_append, List.cons.injEq] at hay'
      exact prefix_open hbox hay'.1.symm
  · rcases hc with ⟨hms, rfl⟩ | ⟨m, ms', k, rfl, hk, rfl⟩
    · rw [List.append_assoc, List.append_assoc] at hb
      obtain ⟨-, h2, h3⟩ := header_inj hb
      have ht : ∃ t, d = p ++ t ∧ t.head? ≠ some 41 ∧ t.head? ≠ some 47 := by
        unfold ssidLen at h2
        simp only [Bool.false_eq_true, if_false] at h2
        have hle : p.length ≤ d.length := by omega
        rcases List.append_eq_append_iff.1 h3 with ⟨u, ha1, ha2⟩ | ⟨u, ha1, ha2⟩
        · have : u = [] := by
            have := congrArg List.length ha1
            simp only [List.length_append] at this
            exact List.length_eq_zero_iff.1 (by omega)
          subst this
          exact ⟨[], by rw [ha1]; simp, by simp, by simp⟩
        · refine ⟨u, ha1, ?_⟩
          cases u with
          | nil => simp
          | cons c u =>
            have : c = 0 := by
              have hm : c ∈ zeros j := by rw [ha2]; simp
              exact List.eq_of_mem_replicate hm
            subst this
            simp
      obtain ⟨t, rfl, ht⟩ := ht
      obtain ⟨rfl, rfl, hns⟩ := ssid_part p t hpn (')' :: r) y a' (by intro c s hc; cases hc; exact Or.inl rfl) hy ht hay' hg hs hd
      obtain ⟨w, hw, hsp, -, -, htok, -⟩ := value_token hg
      simp only [List.cons.injEq, true_and] at hw
      subst hw
      rw [List.nil_append] at hsp
      obtain ⟨-, hpv⟩ := splitAll_inv _ _ _ _ hs
      rw [hms] at hpv
      have hpay : payload = b2aQp p := by
        rcases hpv with h | ⟨u, -, hu⟩
        · exact h.1
        · exact absurd hu.symm (splitAll_ne_nil _ _)
      subst hpay
      have ht0 : t = [] := by
        have := a2b_b2a p
        rw [hd] at this
        have h4 := Except.ok.inj this
        have h5 := nlAs_prefix (qpCrlf p) p (Or.inr ⟨t, h4⟩)
        rw [h5] at h4
        simpa using h4
      subst ht0
      rw [List.append_nil] at hd
      rcases htok with ⟨h1, -⟩ | ⟨h1, h2⟩
      · exact ⟨⟨hpn, style_of p hd, hns, Or.inl h1⟩, token_inside h1 r' (by rw [← hsp]; exact hbox)⟩
      · exfalso
        subst h2
        rw [List.append_nil] at hsp
        subst hsp
        have hyr := List.append_cancel_left hay'
        rcases hcase with ⟨hi, -⟩ | ⟨-, rfl⟩
        · exact openToken_inside h1 hi
        · cases hyr
    · exfalso
      rw [List.append_assoc, List.append_assoc] at hb
      exact absurd (header_inj hb).1 (by decide)

/-- The mask is read up to its end at most. -/
theorem mask_part {m : Bytes} {r u z m' : Str} {ms : List Str} {k : Bytes} (hsp : b2aHex m ++ ')' :: r = u ++ z)
    (hs : splitAll '/' u = m' :: ms) (hk : a2bHex m' = .ok k) : ∃ t, b2aHex m = u ++ t := by
  rcases List.append_eq_append_iff.1 hsp with ⟨a, ha, hb⟩ | ⟨a, ha, hb⟩
  · cases a with
    | nil => exact ⟨[], by simpa using ha.symm⟩
    | cons c a =>
      exfalso
      simp only [List.cons_append, List.cons.injEq] at hb
      obtain ⟨rfl, -⟩ := hb
      have hhex := a2bHex_isHex hk
      have hmem : ')' ∈ m' := by
        obtain ⟨hns, hy⟩ := splitAll_inv _ _ _ _ hs
        rcases hy with ⟨rfl, -⟩ | ⟨x, hx, -⟩
        · rw [ha]; simp
        · rw [ha] at hx
          rcases List.append_eq_append_iff.1 hx with ⟨q, hq1, hq2⟩ | ⟨q, hq1, hq2⟩
          · cases q with
            | nil => simp at hq2
            | cons d q =>
              simp only [List.cons_append, List.cons.injEq] at hq2
              rw [hq1, ← hq2.1]; simp
          · exfalso
            cases q with
            | nil => simp at hq2
            | cons d q =>
              simp only [List.cons_append, List.cons.injEq] at hq2
              have := b2aHex_isHex m '/' (by rw [hq1, ← hq2.1]; simp)
              exact absurd this (by decide)
      exact absurd (hhex _ hmem) (by decide)
  · exact ⟨a, ha⟩

/-- An SSID in brackets with mask that is read back. -/
theorem box_back_mask {r a y payload r' : Str} {bin p m msg : Bytes} {l i j k : Nat} (hpn : p ≠ [])
    (hlast : p.getLast? ≠ some 0) (hm : m.length = (p ++ zeros k).length) (hfit : 2 * m.length + 4 < 256)
    (hay : (t!"dot11_ssid=" ++ (b2aQp p ++ '/' :: b2aHex m)) ++ ')' :: r = a ++ y)
    (hcase : (Inside ')' a ∧ ∃ y', y = ')' :: y') ∨ (Unclosed ')' a ∧ y = []))
    (hone : str2oxmOne a = .ok (bin, l, payload, r'))
    (hb : bin ++ (msg ++ zeros i) = (header ssidKey m.length true ++ ((p ++ zeros k) ++ m)) ++ zeros j) :
    SsidText False p ∧ Inside ')' (b2aQp p) := by
  obtain ⟨a', ha, hay'⟩ := arg_split ssid_name_box hay (hcase.imp And.right And.right)
  clear hay
  subst ha
  replace hcase := box_strip hcase
  have hbox := hcase.imp And.left And.left
  obtain ⟨op, v, ms, hg, hs, hlen, d, hd, hc⟩ := ssid_one (h := []) (Or.inl rfl) (z := a') (by rw [← hone]; simp)
  have hy : ∀ c s, y = c :: s → c = ')' := by
    intro c s hc'
    rcases hcase with ⟨-, y', rfl⟩ | ⟨-, rfl⟩
    · cases hc'; rfl
    · cases hc'
  rcases hc with ⟨hms, rfl⟩ | ⟨m', ms', kk, rfl, hk, rfl⟩
  · exfalso
    rw [List.append_assoc, List.append_assoc] at hb
    exact absurd (header_inj hb).1 (by decide)
  · rw [List.append_assoc, List.append_assoc] at hb
    obtain ⟨-, h2, h3⟩ := header_inj hb
    have hL : (padMask d kk).2 = m.length := by
      unfold ssidLen at h2
      simp only [if_true] at h2
      omega
    obtain ⟨j, hj⟩ := padMask_inv hm hL h3
    obtain ⟨i, rfl⟩ := zeros_cut hj hlast
    have hz41 : (zeros i).head? ≠ some 41 ∧ (zeros i).head? ≠ some 47 := by
      refine ⟨?_, (zeros_head i).2⟩
      cases i with
      | zero => simp [zeros]
      | succ i => simp [zeros, List.replicate_succ]
    rw [List.append_assoc] at hay'
    obtain ⟨rfl, rfl, hns⟩ := ssid_part p (zeros i) hpn _ y a' (by
      intro c s hc
      simp only [List.cons_append, List.cons.injEq] at hc
      exact Or.inr hc.1.symm) hy hz41 hay' hg hs hd
    have hst : NoDos p ∨ AllDos p := by
      apply style_of
      have h4 := a2b_b2a p
      rw [hd] at h4
      have h4 := Except.ok.inj h4
      have h5 := nlAs_prefix (qpCrlf p) p (Or.inr ⟨zeros i, h4⟩)
      rw [h5] at h4
      rw [h4] at hd
      exact hd
    obtain ⟨w, hw, hsp, -, -, htok, -⟩ := value_token hg
    simp only [List.cons.injEq, true_and] at hw
    subst hw
    rw [List.nil_append] at hsp
    obtain ⟨-, hpv⟩ := splitAll_inv _ _ _ _ hs
    obtain ⟨u, hu, hmu⟩ : ∃ u, payload = b2aQp p ++ '/' :: u ∧ m' :: ms' = splitAll '/' u := by
      rcases hpv with ⟨-, h⟩ | h
      · cases h
      · exact h
    have hsp2 : b2aHex m ++ ')' :: r = u ++ (r' ++ y) := by
      have : b2aQp p ++ '/' :: (b2aHex m ++ ')' :: r) = b2aQp p ++ '/' :: (u ++ (r' ++ y)) := by
        rw [← List.cons_append, hay', hsp, hu]; simp
      simpa using List.append_cancel_left this
    obtain ⟨t, ht⟩ := mask_part hsp2 hmu.symm hk
    have hnb : NoBracket ('/' :: u) := by
      intro c hc
      exact (hex_tail m).2 c (by
        rw [ht]
        rcases List.mem_cons.1 hc with rfl | hc
        · simp
        · simp [hc])
    rcases htok with ⟨h1, -⟩ | ⟨h1, h2⟩
    · have hq := token_prefix h1 _ _ hu hnb
      exact ⟨⟨hpn, hst, hns, Or.inl hq⟩, token_inside hq ('/' :: u ++ r') (by
        rw [← List.append_assoc, ← hu, ← hsp]; exact hbox)⟩
    · exfalso
      subst h2
      rw [List.append_nil] at hsp
      subst hsp
      rcases hcase with ⟨hi, -⟩ | ⟨-, rfl⟩
      · exact openToken_inside h1 hi
      · rw [List.append_nil, List.append_nil] at hsp2
        have := congrArg List.length (hsp2.symm.trans (by rfl))
        rw [ht] at hsp2
        have := congrArg List.length hsp2
        simp at this

end Ofpstr
