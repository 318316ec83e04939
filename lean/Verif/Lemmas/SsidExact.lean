import Verif.Lemmas.QpCut
import Verif.Lemmas.OxmExact
import Verif.Spec.Qp
import Verif.Props.Qp
import Verif.Lemmas.LostRange

/-!
# SSIDs: exactly which come back
-/

set_option linter.unusedSimpArgs false

namespace Ofpstr
open Spec

/-! ## Tokens without their end -/

/-- Not a bracket. -/
def NoBracket (s : Str) : Prop := ∀ c ∈ s, NotOpen c ∧ c ≠ ')' ∧ c ≠ '}' ∧ c ≠ ']' ∧ c ≠ '>'

theorem pair_end {o e : Char} (h : Pair o e) {s : Str} (hs : NoBracket s) : e ∉ s := by
  intro he
  have := (hs e he).2
  cases h <;> simp_all

theorem pair_start {o e : Char} (h : Pair o e) {s : Str} (hs : NoBracket s) : o ∉ s := by
  intro he
  have := (hs o he).1
  unfold NotOpen at this
  cases h <;> simp_all

/-- A group that ends in `a ++ t` ends in `a`, if `t` has no bracket. -/
theorem split_group {o e : Char} {p s a t : Str} (hp : Pair o e) (ht : NoBracket t) (h : o :: p ++ e :: s = a ++ t) :
    ∃ a', a = o :: p ++ e :: a' ∧ s = a' ++ t := by
  have h' : (o :: p ++ [e]) ++ s = a ++ t := by rw [← h]; simp
  rcases List.append_eq_append_iff.1 h' with ⟨x, hx1, hx2⟩ | ⟨x, hx1, hx2⟩
  · exact ⟨x, by rw [hx1]; simp, hx2⟩
  · cases hx : x.reverse with
    | nil =>
      have : x = [] := by simpa using hx
      subst this
      exact ⟨[], by rw [List.append_nil] at hx1; rw [← hx1], by simpa using hx2.symm⟩
    | cons c x' =>
      exfalso
      have hxe : x = x'.reverse ++ [c] := by
        have := congrArg List.reverse hx
        simpa using this
      have hc : c = e := by
        rw [hxe, ← List.append_assoc] at hx1
        have := List.append_inj_right' hx1 rfl
        simpa using this.symm
      apply pair_end hp ht
      rw [hx2, hxe, hc]; simp

theorem token_prefix {s : Str} (h : Token s) (a t : Str) (hs : s = a ++ t) (ht : NoBracket t) : Token a := by
  induction h generalizing a with
  | nil =>
    have : a = [] := by simp at hs; exact hs.1
    rw [this]; exact .nil
  | char c s h1 h2 h3 h ih =>
    cases a with
    | nil => exact .nil
    | cons d a =>
      simp only [List.cons_append, List.cons.injEq] at hs
      obtain ⟨rfl, rfl⟩ := hs
      exact .char _ _ h1 h2 h3 (ih a rfl)
  | group o e p s hp hi h ih =>
    obtain ⟨a', rfl, rfl⟩ := split_group hp ht hs
    exact .group o e p a' hp hi (ih a' rfl)

theorem unclosed_prefix {e : Char} {s : Str} (h : Unclosed e s) (a t : Str) (hs : s = a ++ t) (ht : NoBracket t) :
    Unclosed e a := by
  induction h generalizing a with
  | nil e =>
    have : a = [] := by simp at hs; exact hs.1
    rw [this]; exact .nil e
  | char e c s h1 h2 h ih =>
    cases a with
    | nil => exact .nil e
    | cons d a =>
      simp only [List.cons_append, List.cons.injEq] at hs
      obtain ⟨rfl, rfl⟩ := hs
      exact .char _ _ _ h1 h2 (ih a rfl)
  | nest e o e' p s h1 hp hi h ih =>
    obtain ⟨a', rfl, rfl⟩ := split_group hp ht hs
    exact .nest e o e' p a' h1 hp hi (ih a' rfl)
  | deep e o e' s h1 hp h ih =>
    cases a with
    | nil => exact .nil e
    | cons d a =>
      simp only [List.cons_append, List.cons.injEq] at hs
      obtain ⟨rfl, rfl⟩ := hs
      exact .deep _ _ _ _ h1 hp (ih a rfl)

theorem openToken_prefix {s : Str} (h : OpenToken s) (a t : Str) (hs : s = a ++ t) (ht : NoBracket t) : OpenToken a := by
  induction h generalizing a with
  | start o e s hp h =>
    cases a with
    | nil => exact absurd (by rw [show t = o :: s from hs.symm]; simp) (pair_start hp ht)
    | cons d a =>
      simp only [List.cons_append, List.cons.injEq] at hs
      obtain ⟨rfl, rfl⟩ := hs
      exact .start _ e _ hp (unclosed_prefix h a t rfl ht)
  | char c s h1 h2 h3 h ih =>
    cases a with
    | nil =>
      exfalso
      have key : ∀ {s : Str}, OpenToken s → ¬ NoBracket s := by
        intro s h
        induction h with
        | start o e s hp _ => exact fun hb => pair_start hp hb (by simp)
        | char c s _ _ _ _ ih => exact fun hb => ih fun x hx => hb x (by simp [hx])
        | group o e p s hp _ _ _ => exact fun hb => pair_start hp hb (by simp)
      exact key h fun x hx => ht x (by rw [show t = c :: s from hs.symm]; simp [hx])
    | cons d a =>
      simp only [List.cons_append, List.cons.injEq] at hs
      obtain ⟨rfl, rfl⟩ := hs
      exact .char _ _ h1 h2 h3 (ih a rfl)
  | group o e p s hp hi h ih =>
    obtain ⟨a', rfl, rfl⟩ := split_group hp ht hs
    exact .group o e p a' hp hi (ih a' rfl)

/-- Clean text after a token. -/
theorem token_clean {s t : Str} (h : Token s) (ht : Clean t) : Token (s ++ t) := by
  induction h with
  | nil => exact ht.token
  | char c s h1 h2 h3 h ih => exact .char c _ h1 h2 h3 ih
  | group o e p s hp hi h ih =>
    rw [show o :: p ++ e :: s ++ t = o :: p ++ e :: (s ++ t) by simp]
    exact .group o e p _ hp hi ih

theorem unclosed_more {e : Char} {s t : Str} (h : Unclosed e s) (ht : NoBracket t) (hp : ∃ o, Pair o e) : Unclosed e (s ++ t) := by
  induction h with
  | nil e =>
    have : ∀ (t : Str), NoBracket t → Unclosed e t := by
      intro t ht
      induction t with
      | nil => exact .nil e
      | cons c t ih =>
        obtain ⟨o, hp⟩ := hp
        exact .char e c t (fun hc => pair_end hp ht (by simp [hc])) (ht c (by simp)).1 (ih fun x hx => ht x (by simp [hx]))
    exact this t ht
  | char e c s h1 h2 h ih => exact .char e c _ h1 h2 (ih hp)
  | nest e o e' p s h1 hp' hi h ih =>
    rw [show o :: p ++ e' :: s ++ t = o :: p ++ e' :: (s ++ t) by simp]
    exact .nest e o e' p _ h1 hp' hi (ih hp)
  | deep e o e' s h1 hp' h ih => exact .deep e o e' _ h1 hp' (ih ⟨o, hp'⟩)

theorem openToken_more {s t : Str} (h : OpenToken s) (ht : NoBracket t) : OpenToken (s ++ t) := by
  induction h with
  | start o e s hp h => exact .start o e _ hp (unclosed_more h ht ⟨o, hp⟩)
  | char c s h1 h2 h3 h ih => exact .char c _ h1 h2 h3 ih
  | group o e p s hp hi h ih =>
    rw [show o :: p ++ e :: s ++ t = o :: p ++ e :: (s ++ t) by simp]
    exact .group o e p _ hp hi ih

/-! ## The value of an item -/

theorem value_token {s h payload rest : Str} (hg : getToken ('=' :: s) = (h, payload, rest)) :
    ∃ w, h = '=' :: w ∧ s = w ++ (payload ++ rest) ∧ (∀ c ∈ w, Space c) ∧
      (∀ c t, payload = c :: t → ¬ Space c ∧ c ≠ '=' ∧ c ≠ ',') ∧
      ((Token payload ∧ Boundary rest) ∨ (OpenToken payload ∧ rest = [])) ∧ getToken payload = ([], payload, []) := by
  obtain ⟨h1, h2, h3⟩ := (getToken_iff _ _ _ _).1 hg
  obtain ⟨w, r, rfl, rfl, hw, hr⟩ := headOf_eq h2
  have hr' : r = payload ++ rest := by
    simp only [List.cons_append, List.cons.injEq, true_and] at h1
    exact List.append_cancel_left h1
  have hst : ∀ c t, payload = c :: t → ¬ Space c ∧ c ≠ '=' ∧ c ≠ ',' := by
    intro c t hc
    obtain ⟨ha, hb⟩ := token_start (b := payload) (h3.elim (fun h => Or.inl h.1) (fun h => Or.inr h.1)) c t hc
    refine ⟨hr c (t ++ rest) (by rw [hr', hc]; rfl), ha, ?_⟩
    rintro rfl
    exact hb (by decide)
  refine ⟨w, rfl, by rw [hr'], hw, hst, h3, ?_⟩
  rw [getToken_iff]
  refine ⟨by simp, ?_, ?_⟩
  · refine HeadOf.run [] payload ?_ (by simp) (fun c t hc => ⟨(hst c t hc).1, (hst c t hc).2.2⟩)
    intro x t hx
    cases x with
    | nil => exact absurd rfl (hst '=' t hx).2.1
    | cons c x => exact ⟨c, by simp, (hst c _ hx).1⟩
  · rcases h3 with h | h
    · exact Or.inl ⟨h.1, fun c t hc => by cases hc⟩
    · exact Or.inr ⟨h.1, rfl⟩

theorem splitAll_inv (c : Char) (s v : Str) (ms : List Str) (h : splitAll c s = v :: ms) :
    c ∉ v ∧ ((s = v ∧ ms = []) ∨ ∃ u, s = v ++ c :: u ∧ ms = splitAll c u) := by
  induction s generalizing v ms with
  | nil => simp only [splitAll, List.cons.injEq] at h; obtain ⟨rfl, rfl⟩ := h; simp
  | cons x s ih =>
    rw [splitAll] at h
    split at h
    · rename_i hx
      simp only [List.cons.injEq] at h
      obtain ⟨rfl, rfl⟩ := h
      have : x = c := by simpa using hx
      exact ⟨by simp, Or.inr ⟨s, by rw [this]; rfl, rfl⟩⟩
    · rename_i hx
      split at h
      · rename_i hn; exact absurd hn (splitAll_ne_nil c s)
      · rename_i t ts hs
        simp only [List.cons.injEq] at h
        obtain ⟨rfl, rfl⟩ := h
        obtain ⟨h1, h2⟩ := ih t ts hs
        refine ⟨by simp only [List.mem_cons, not_or]; exact ⟨fun he => hx (by simp [he]), h1⟩, ?_⟩
        rcases h2 with ⟨rfl, rfl⟩ | ⟨u, rfl, rfl⟩
        · exact Or.inl ⟨rfl, rfl⟩
        · exact Or.inr ⟨u, rfl, rfl⟩

theorem sep_upDigit (c : Char) (h : SepChar c ∨ c = '=' ∨ c = '/' ∨ c = ')') (d : Nat) (hd : d < 16) : c ≠ upDigit d := by
  have h1 : ∀ d : Fin 16, upDigit d.1 ∉ [',', ' ', '\t', '\n', '\r', '\x0b', '\x0c', '=', '/', ')'] := by decide
  rintro rfl
  have := h1 ⟨d, hd⟩
  unfold SepChar at h
  simp only [List.mem_cons, List.not_mem_nil, or_false, not_or] at this
  tauto

/-- If the value that is read starts with the SSID, the whole text of the SSID has been read. -/
theorem ssid_value (p t : Bytes) (hp : p ≠ []) (z : Str) (hz : ∀ c s, z = c :: s → c = ',' ∨ c = '/')
    (ht : t.head? ≠ some 44 ∧ t.head? ≠ some 47) {h payload rest v : Str} {ms : List Str}
    (hg : getToken ('=' :: (b2aQp p ++ z)) = (h, payload, rest)) (hs : splitAll '/' payload = v :: ms)
    (hv : a2bQp v = .ok (p ++ t)) : h = ['='] ∧ v = b2aQp p ∧ '/' ∉ b2aQp p := by
  obtain ⟨w, rfl, hsp, hw, hst, htok, -⟩ := value_token hg
  obtain ⟨hasc, hdec⟩ := a2bQp_inv hv
  obtain ⟨hns, hpv⟩ := splitAll_inv _ _ _ _ hs
  have hy : ∃ y, payload ++ rest = v ++ y ∧ ∀ c s, y = c :: s → QpPart v c ∧ ∀ d, d < 16 → c ≠ upDigit d := by
    rcases hpv with ⟨rfl, -⟩ | ⟨u, rfl, -⟩
    · refine ⟨rest, rfl, ?_⟩
      intro c s hc
      rcases htok with ⟨h1, h2⟩ | ⟨_, h2⟩
      · exact ⟨Or.inr (token_last h1), sep_upDigit c ((h2 c s hc).elim Or.inl fun h => Or.inr (Or.inl h))⟩
      · rw [h2] at hc; cases hc
    · refine ⟨'/' :: (u ++ rest), by simp, ?_⟩
      intro c s hc
      cases hc
      have := sep_upDigit '/' (by simp)
      exact ⟨Or.inl ⟨by decide, by decide, this⟩, this⟩
  obtain ⟨y, hy1, hy2⟩ := hy
  have hvst : ∀ c s, v = c :: s → ¬ Space c ∧ c ≠ '=' ∧ c.toNat < 128 := by
    intro c s hc
    have : ∃ s', payload = c :: s' := by
      rcases hpv with ⟨rfl, -⟩ | ⟨u, rfl, -⟩
      · exact ⟨s, hc⟩
      · exact ⟨s ++ '/' :: u, by rw [hc]; rfl⟩
    obtain ⟨s', hs'⟩ := this
    have := hst c s' hs'
    exact ⟨this.1, this.2.1, hasc c (by rw [hc]; simp)⟩
  have hw0 : w = [] := qp_head p t hp z w v y (by rw [hsp, hy1]) hw hvst hdec
  subst hw0
  have hvq := qp_whole p t z v y (by
    intro c s hc
    rcases hz c s hc with rfl | rfl
    · exact ⟨by decide, ht.1⟩
    · exact ⟨by decide, ht.2⟩) (by rw [hsp, List.nil_append, hy1]) hy2 hdec
  exact ⟨rfl, hvq, by rw [← hvq]; exact hns⟩

/-! ## The item -/

/-- The key of the SSID field. -/
def ssidKey : Key := ⟨.stratos, 8⟩

theorem ssid_field : ∀ f ∈ fields, f.kind = .ssid → fieldKey f = ssidKey ∧ f.name = t!"dot11_ssid" := by decide +kernel

theorem ssid_enc : lookupEnc t!"dot11_ssid" = some (ssidKey, .ssid) := by decide +kernel

/-- The length byte. -/
def ssidLen (n : Nat) (m : Bool) : Nat := min 255 ((if m then n * 2 else n) + 4)

theorem ssid_header (n : Nat) (m : Bool) : header ssidKey n m =
    [255, 255, if m then 17 else 16] ++ (beBytes 1 (ssidLen n m) ++ [255, 0, 224, 77]) := by
  have h : (if (if m then n * 2 else n) + 4 > 255 then 255 else (if m then n * 2 else n) + 4) = ssidLen n m := by
    unfold ssidLen
    cases m <;> (simp only [if_true, Bool.false_eq_true, if_false]; split <;> omega)
  unfold header ssidKey
  dsimp only
  rw [if_pos rfl, h]
  cases m <;> rfl

theorem header_inj {n n' : Nat} {m m' : Bool} {x y : Bytes} (h : header ssidKey n m ++ x = header ssidKey n' m' ++ y) :
    m = m' ∧ ssidLen n m = ssidLen n' m' ∧ x = y := by
  have hl : (header ssidKey n m).length = (header ssidKey n' m').length := by rw [header_length, header_length]
  obtain ⟨h1, h2⟩ := List.append_inj h hl
  rw [ssid_header, ssid_header] at h1
  have hm : m = m' := by
    simp only [List.cons_append, List.cons.injEq, true_and] at h1
    have := h1.1
    cases m <;> cases m' <;> first | rfl | exact absurd this (by decide)
  subst hm
  refine ⟨rfl, ?_, h2⟩
  have h3 := List.append_cancel_left h1
  have h4 := List.append_cancel_right h3
  exact be_inj (k := 1) (by unfold ssidLen; omega) (by unfold ssidLen; omega) (by rw [spec_be, spec_be]; exact h4)

/-- What reading an SSID item gives. -/
theorem ssid_one {h z payload r' : Str} {bin : Bytes} {l : Nat} (hh : h = [] ∨ h = [','])
    (hone : str2oxmOne (h ++ (t!"dot11_ssid" ++ '=' :: z)) = .ok (bin, l, payload, r')) :
    ∃ op v ms, getToken ('=' :: z) = (op, payload, r') ∧ splitAll '/' payload = v :: ms ∧ l = payload.length ∧
      ∃ d, a2bQp v = .ok d ∧ ((ms = [] ∧ bin = header ssidKey d.length false ++ d) ∨
        ∃ m ms' k, ms = m :: ms' ∧ a2bHex m = .ok k ∧ bin = header ssidKey (padMask d k).2 true ++ (padMask d k).1) := by
  have hhd : Head h := by rcases hh with rfl | rfl; exacts [head_nil, head_comma]
  have hc : Clean t!"dot11_ssid" := by decide
  have h1 := getToken_head hhd hc.token (atEnd_eq z) hc.plainStart (by decide)
  unfold str2oxmOne at hone
  rw [h1] at hone
  dsimp only at hone
  rcases hg : getToken ('=' :: z) with ⟨op, p, rest⟩
  rw [hg] at hone
  dsimp only at hone
  obtain ⟨_, _, hone⟩ := bind_ok hone
  rw [ssid_enc] at hone
  dsimp only at hone
  obtain ⟨⟨out, l'⟩, he, hone⟩ := bind_ok hone
  simp only [Except.ok.injEq, Prod.mk.injEq] at hone
  obtain ⟨rfl, rfl, rfl, rfl⟩ := hone
  obtain ⟨w, -, -, -, -, -, hgp⟩ := value_token hg
  simp only [encText, ssidStr2bin, hgp] at he
  cases hs : splitAll '/' p with
  | nil => exact absurd hs (splitAll_ne_nil _ _)
  | cons v ms =>
    rw [hs] at he
    dsimp only at he
    obtain ⟨d, hd, he⟩ := bind_ok he
    cases ms with
    | nil =>
      dsimp only at he
      simp only [Except.ok.injEq, Prod.mk.injEq] at he
      refine ⟨op, v, [], rfl, rfl, by simpa using he.2.symm, d, hd, Or.inl ⟨rfl, he.1.symm⟩⟩
    | cons m ms =>
      dsimp only at he
      obtain ⟨k, hk, he⟩ := bind_ok he
      rcases hpm : padMask d k with ⟨body, length⟩
      rw [hpm] at he
      simp only [Except.ok.injEq, Prod.mk.injEq] at he
      refine ⟨op, v, m :: ms, rfl, rfl, by simpa using he.2.symm, d, hd, Or.inr ⟨m, ms, k, rfl, hk, ?_⟩⟩
      rw [hpm]; exact he.1.symm

theorem style_of (p : Bytes) (h : a2bQp (b2aQp p) = .ok p) : NoDos p ∨ AllDos p := (C63_exact p).1 h

/-- An SSID without mask that is read back. -/
theorem ssid_back {h r payload r' : Str} {bin p msg x : Bytes} {l : Nat} (hh : h = [] ∨ h = [','])
    (hr : r = [] ∨ ∃ r', r = ',' :: r') (hp : p.length + 4 < 256)
    (hone : str2oxmOne (h ++ (t!"dot11_ssid" ++ '=' :: (b2aQp p ++ r))) = .ok (bin, l, payload, r')) (hl : l ≠ 0)
    (hx : x.head? ≠ some 44 ∧ x.head? ≠ some 47) (hb : bin ++ msg = (header ssidKey p.length false ++ p) ++ x) :
    SsidText (r = []) p ∧ payload = b2aQp p ∧ r' = r ∧ bin = header ssidKey p.length false ++ p := by
  obtain ⟨op, v, ms, hg, hs, hlen, d, hd, hcase⟩ := ssid_one hh hone
  by_cases hpn : p = []
  · exfalso
    subst hpn
    have hq : b2aQp [] = [] := by decide
    rw [hq, List.nil_append, getToken_empty r hr] at hg
    simp only [Prod.mk.injEq] at hg
    rw [← hg.2.1] at hlen
    exact hl hlen
  · rcases hcase with ⟨hms, rfl⟩ | ⟨m, ms', k, rfl, hk, rfl⟩
    · rw [List.append_assoc, List.append_assoc] at hb
      obtain ⟨-, h2, h3⟩ := header_inj hb
      have ht : ∃ t, d = p ++ t ∧ t.head? ≠ some 44 ∧ t.head? ≠ some 47 := by
        unfold ssidLen at h2
        simp only [Bool.false_eq_true, if_false] at h2
        have hle : p.length ≤ d.length := by omega
        rcases List.append_eq_append_iff.1 h3 with ⟨a, ha1, ha2⟩ | ⟨a, ha1, ha2⟩
        · have : a = [] := by
            have := congrArg List.length ha1
            simp only [List.length_append] at this
            exact List.length_eq_zero_iff.1 (by omega)
          subst this
          exact ⟨[], by rw [ha1]; simp, by simp, by simp⟩
        · refine ⟨a, ha1, ?_⟩
          cases a with
          | nil => simp
          | cons c a => rw [ha2] at hx; exact hx
      obtain ⟨t, rfl, ht⟩ := ht
      obtain ⟨rfl, rfl, hns⟩ := ssid_value p t hpn r (by
        intro c s hc
        rcases hr with rfl | ⟨r', rfl⟩
        · cases hc
        · cases hc; exact Or.inl rfl) ht hg hs hd
      obtain ⟨w, hw, hsp, -, -, htok, -⟩ := value_token hg
      simp only [List.cons.injEq, true_and] at hw
      subst hw
      obtain ⟨-, hpv⟩ := splitAll_inv _ _ _ _ hs
      rw [hms] at hpv
      have hpay : payload = b2aQp p := by
        rcases hpv with h | ⟨u, -, hu⟩
        · exact h.1
        · exact absurd hu.symm (splitAll_ne_nil _ _)
      have hrr : r' = r := by
        rw [hpay, List.nil_append] at hsp
        exact (List.append_cancel_left hsp).symm
      have ht0 : t = [] := by
        have := a2b_b2a p
        rw [hd] at this
        have h4 := Except.ok.inj this
        have h5 := nlAs_prefix (qpCrlf p) p (Or.inr ⟨t, h4⟩)
        rw [h5] at h4
        simpa using h4
      subst ht0
      rw [List.append_nil] at hd
      refine ⟨⟨hpn, style_of p hd, hns, ?_⟩, hpay, hrr, by simp⟩
      rw [hpay, hrr] at htok
      rcases htok with h | h
      · exact Or.inl h.1
      · exact Or.inr ⟨h.2, h.1⟩
    · exfalso
      rw [List.append_assoc, List.append_assoc] at hb
      exact absurd (header_inj hb).1 (by decide)

theorem zeros_cut {d p : Bytes} {j k : Nat} (h : d ++ zeros j = p ++ zeros k) (hp : p.getLast? ≠ some 0) :
    ∃ i, d = p ++ zeros i := by
  rcases List.append_eq_append_iff.1 h with ⟨a, ha, hb⟩ | ⟨a, ha, hb⟩
  · cases hr : a.reverse with
    | nil =>
      have : a = [] := by simpa using hr
      subst this
      exact ⟨0, by rw [ha]; simp [zeros]⟩
    | cons c a' =>
      exfalso
      have hae : a = a'.reverse ++ [c] := by
        have := congrArg List.reverse hr
        simpa using this
      have hc : c ∈ zeros j := by rw [hb, hae]; simp
      have : c = 0 := by simp [zeros] at hc; exact hc.2
      apply hp
      rw [ha, hae, this, ← List.append_assoc, List.getLast?_append]
      rfl
  · refine ⟨a.length, ?_⟩
    rw [ha]
    congr 1
    apply List.eq_replicate_of_mem
    intro b hb'
    have : b ∈ zeros k := by rw [hb]; simp [hb']
    simp [zeros] at this
    exact this.2

theorem zeros_head (i : Nat) : (zeros i).head? ≠ some 44 ∧ (zeros i).head? ≠ some 47 := by
  cases i with
  | zero => simp [zeros]
  | succ i => simp [zeros, List.replicate_succ]

theorem a2bHex_isHex {s : Str} {b : Bytes} (h : a2bHex s = .ok b) : ∀ c ∈ s, isHex c = true :=
  (hexText_a2b (a2b_hexText s b h)).2.1

theorem hex_tail (m : Bytes) : Clean ('/' :: b2aHex m) ∧ NoBracket ('/' :: b2aHex m) := by
  refine ⟨clean_cons clean_slash (b2aHex_clean m), ?_⟩
  intro c hc
  rcases List.mem_cons.1 hc with rfl | hc
  · decide
  · have h := b2aHex_isHex m c hc
    have h2 := isHex_close h
    exact ⟨(isHex_clean h).2.2.2, h2.1, h2.2.2.1, h2.2.1, h2.2.2.2⟩

/-- The mask of an SSID is read as it is printed. -/
theorem mask_whole (m : Bytes) {r y rest m' : Str} {ms : List Str} {k : Bytes} (hr : r = [] ∨ ∃ r', r = ',' :: r')
    (hsp : b2aHex m ++ r = y ++ rest) (hrest : Boundary rest) (hs : splitAll '/' y = m' :: ms)
    (hk : a2bHex m' = .ok k) : y = b2aHex m ∧ rest = r := by
  obtain ⟨hns, hy⟩ := splitAll_inv _ _ _ _ hs
  have hhex := a2bHex_isHex hk
  rcases List.append_eq_append_iff.1 hsp with ⟨a, ha, hb⟩ | ⟨a, ha, hb⟩
  · cases a with
    | nil => exact ⟨by simpa using ha, by simpa using hb.symm⟩
    | cons c a =>
      exfalso
      have hc : c = ',' := by
        rcases hr with rfl | ⟨r', rfl⟩
        · cases hb
        · simp only [List.cons_append, List.cons.injEq] at hb
          exact hb.1.symm
      have hm : ',' ∈ m' := by
        rcases hy with ⟨rfl, -⟩ | ⟨u, hu, -⟩
        · rw [ha, hc]; simp
        · rw [ha, hc] at hu
          rcases List.append_eq_append_iff.1 hu with ⟨a', ha', hb'⟩ | ⟨a', ha', hb'⟩
          · cases a' with
            | nil => simp at hb'
            | cons d a' =>
              simp only [List.cons_append, List.cons.injEq] at hb'
              rw [ha', ← hb'.1]; simp
          · exfalso
            have hsl : '/' ∈ b2aHex m ∨ a' = [] := by
              cases a' with
              | nil => exact Or.inr rfl
              | cons d a' =>
                simp only [List.cons_append, List.cons.injEq] at hb'
                left
                rw [ha', ← hb'.1]; simp
            rcases hsl with h | h
            · exact (isHex_ne (b2aHex_isHex m _ h)).1 rfl
            · rw [h] at hb'; simp at hb'
      exact absurd (hhex _ hm) (by decide)
  · cases a with
    | nil => exact ⟨by simpa using ha.symm, by simpa using hb⟩
    | cons c a =>
      exfalso
      have hc := b2aHex_isHex m c (by rw [ha]; simp)
      have := isHex_clean hc
      rcases hrest c (a ++ r) (by rw [hb]; rfl) with h | h
      · refine this.1 ?_
        unfold SepChar at h
        rcases h with rfl | rfl | rfl | rfl | rfl | rfl | rfl
        · exact absurd rfl this.2.1
        all_goals decide
      · exact this.2.2.1 h

theorem padMask_inv {d k v m : Bytes} (hl : m.length = v.length) (hlen : (padMask d k).2 = m.length)
    {y x : Bytes} (h : (padMask d k).1 ++ y = (v ++ m) ++ x) : ∃ j, d ++ zeros j = v := by
  unfold padMask at hlen h
  dsimp only at hlen h
  split at h
  · rename_i hlt
    rw [if_pos hlt] at hlen
    dsimp only at hlen h
    refine ⟨max k.length d.length - min k.length d.length, ?_⟩
    have h2 : (d ++ zeros (max k.length d.length - min k.length d.length)) ++ (k ++ y) = v ++ (m ++ x) := by
      simpa using h
    refine (List.append_inj h2 ?_).1
    simp only [List.length_append, zeros, List.length_replicate]
    omega
  · rename_i hlt
    rw [if_neg hlt] at hlen
    dsimp only at hlen h
    refine ⟨0, ?_⟩
    have h2 : d ++ ((k ++ zeros (max k.length d.length - min k.length d.length)) ++ y) = v ++ (m ++ x) := by
      simpa using h
    have := (List.append_inj h2 (by omega)).1
    simpa [zeros] using this

/-- An SSID with mask that is read back. -/
theorem ssid_back_mask {h r payload r' : Str} {bin p m msg x : Bytes} {l k : Nat} (hh : h = [] ∨ h = [','])
    (hr : r = [] ∨ ∃ r', r = ',' :: r') (hpn : p ≠ []) (hlast : p.getLast? ≠ some 0)
    (hm : m.length = (p ++ zeros k).length) (hfit : 2 * m.length + 4 < 256)
    (hone : str2oxmOne (h ++ (t!"dot11_ssid" ++ '=' :: (b2aQp p ++ '/' :: (b2aHex m ++ r)))) = .ok (bin, l, payload, r'))
    (hb : bin ++ msg = (header ssidKey m.length true ++ ((p ++ zeros k) ++ m)) ++ x) :
    SsidText (r = []) p ∧ payload = b2aQp p ++ '/' :: b2aHex m ∧ r' = r := by
  obtain ⟨op, v, ms, hg, hs, hlen, d, hd, hcase⟩ := ssid_one hh hone
  rcases hcase with ⟨hms, rfl⟩ | ⟨m', ms', kk, rfl, hk, rfl⟩
  · exfalso
    rw [List.append_assoc, List.append_assoc] at hb
    exact absurd (header_inj hb).1 (by decide)
  · rw [List.append_assoc, List.append_assoc] at hb
    obtain ⟨-, h2, h3⟩ := header_inj hb
    have hL : (padMask d kk).2 = m.length := by
      unfold ssidLen at h2
      simp only [if_true] at h2
      omega
    obtain ⟨j, hj⟩ := padMask_inv hm hL h3
    obtain ⟨i, rfl⟩ := zeros_cut hj hlast
    obtain ⟨rfl, rfl, hns⟩ := ssid_value p (zeros i) hpn _ (by
      intro c s hc
      simp only [List.cons.injEq] at hc
      exact Or.inr hc.1.symm) (zeros_head i) hg hs hd
    have hst : NoDos p ∨ AllDos p := by
      apply style_of
      have h4 := a2b_b2a p
      rw [hd] at h4
      have h4 := Except.ok.inj h4
      have h5 := nlAs_prefix (qpCrlf p) p (Or.inr ⟨zeros i, h4⟩)
      rw [h5] at h4
      rw [h4] at hd
      exact hd
    obtain ⟨w, hw, hsp, -, -, htok, -⟩ := value_token hg
    simp only [List.cons.injEq, true_and] at hw
    subst hw
    obtain ⟨-, hpv⟩ := splitAll_inv _ _ _ _ hs
    obtain ⟨u, hu, hmu⟩ : ∃ u, payload = b2aQp p ++ '/' :: u ∧ m' :: ms' = splitAll '/' u := by
      rcases hpv with ⟨-, h⟩ | h
      · cases h
      · exact h
    rw [hu, List.nil_append] at hsp
    have hsp2 : b2aHex m ++ r = u ++ r' := by
      have : b2aQp p ++ '/' :: (b2aHex m ++ r) = b2aQp p ++ '/' :: (u ++ r') := by simpa using hsp
      simpa using List.append_cancel_left this
    have hbd : Boundary r' := by
      rcases htok with h | h
      · exact h.2
      · rw [h.2]; intro c t hc; cases hc
    obtain ⟨rfl, rfl⟩ := mask_whole m hr hsp2 hbd hmu.symm hk
    have hht := hex_tail m
    refine ⟨⟨hpn, hst, hns, ?_⟩, hu, rfl⟩
    rcases htok with h | h
    · exact Or.inl (token_prefix h.1 _ _ hu hht.2)
    · exact Or.inr ⟨h.2, openToken_prefix h.1 _ _ hu hht.2⟩

/-! ## Reading it back -/

theorem qp_start {f : Bool} {q : Str} {n : Bytes} (h : QpText f q n) (c : Char) (t : Str) (hq : q = c :: t)
    (he : c ≠ '=') (hs : ¬ SepChar c) : ¬ Space c := by
  cases h with
  | nil => cases hq
  | raw f d s b hd _ =>
    cases hq
    rcases hd with rfl | rfl | rfl | ⟨h1, h2, h3⟩
    · exact absurd (by decide) hs
    · exact absurd (by decide) hs
    · exact absurd (by decide) hs
    · intro hsp
      have h32 : c.toNat = 32 := by
        unfold Space at hsp
        simp only [List.mem_cons, List.not_mem_nil, or_false] at hsp
        omega
      apply hs
      have : c = ' ' := Char.toNat_inj.1 (by rw [h32]; decide)
      rw [this]; decide
  | quoted f x s b _ _ => cases hq; exact absurd rfl he
  | soft s b _ _ => cases hq; exact absurd rfl he
  | softCr s b _ _ => cases hq; exact absurd rfl he

theorem ssid_get (p : Bytes) (tail r : Str) (hp : p ≠ []) (htl : Clean tail ∧ NoBracket tail) (hr : AtEnd r)
    (htok : Token (b2aQp p) ∨ (r = [] ∧ OpenToken (b2aQp p))) :
    getToken ('=' :: ((b2aQp p ++ tail) ++ r)) = (['='], b2aQp p ++ tail, r) ∧
    getToken (b2aQp p ++ tail) = ([], b2aQp p ++ tail, []) := by
  have hq := b2aQp_text p
  have hcons : ∃ c t, b2aQp p = c :: t := by
    cases hb : b2aQp p with
    | nil => exact absurd ((nlAs_nil _ _).1 (hq.empty.1 hb)) hp
    | cons c t => exact ⟨c, t, rfl⟩
  obtain ⟨c, t, hct⟩ := hcons
  obtain ⟨h1, h2⟩ := token_start (htok.imp id (·.2)) c t hct
  have h3 := qp_start hq c t hct h1 h2
  have hg : getToken ('=' :: ((b2aQp p ++ tail) ++ r)) = (['='], b2aQp p ++ tail, r) := by
    rw [getToken_iff]
    refine ⟨rfl, ?_, ?_⟩
    · refine HeadOf.eq [] [] _ (by simp) (by simp) ?_
      intro d s hd
      rw [hct] at hd
      have hcd : c = d := (List.cons.inj (show c :: ((t ++ tail) ++ r) = d :: s from hd)).1
      rw [← hcd]; exact h3
    · rcases htok with h | ⟨h, h'⟩
      · exact Or.inl ⟨token_clean h htl.1, hr⟩
      · exact Or.inr ⟨openToken_more h' htl.2, h⟩
  exact ⟨hg, (value_token hg).choose_spec.2.2.2.2.2⟩

theorem ssid_fwd {h r : Str} {p : Bytes} (hh : h = [] ∨ h = [',']) (hr : r = [] ∨ ∃ r', r = ',' :: r')
    (hp : SsidText (r = []) p) : str2oxmOne (h ++ (t!"dot11_ssid" ++ '=' :: (b2aQp p ++ r))) =
      .ok (header ssidKey p.length false ++ p, (b2aQp p).length, b2aQp p, r) ∧ b2aQp p ≠ [] := by
  obtain ⟨hpn, hst, hns, htok⟩ := hp
  have hq := b2aQp_text p
  have hqn : b2aQp p ≠ [] := fun hb => hpn ((nlAs_nil _ _).1 (hq.empty.1 hb))
  obtain ⟨hg1, hg2⟩ := ssid_get p [] r hpn ⟨clean_nil, by intro c hc; cases hc⟩ (atEnd_of hr) htok
  rw [List.append_nil] at hg1 hg2
  have hhd : Head h := by rcases hh with rfl | rfl; exacts [head_nil, head_comma]
  have hhe : hasChar h '=' = false := by rcases hh with rfl | rfl <;> decide
  have hc : Clean t!"dot11_ssid" := by decide
  have h1 := getToken_head hhd hc.token (atEnd_eq (b2aQp p ++ r)) hc.plainStart (by decide)
  have hd : a2bQp (b2aQp p) = .ok p := (C63_exact p).2 hst
  have hsp : splitAll '/' (b2aQp p) = [b2aQp p] := splitAll_none '/' _ (fun x hx he => hns (he ▸ hx))
  refine ⟨?_, hqn⟩
  unfold str2oxmOne
  rw [h1]
  dsimp only
  rw [hg1]
  dsimp only
  rw [hhe, ssid_enc]
  have he : encText ssidKey .ssid (b2aQp p) = .ok (header ssidKey p.length false ++ p, (b2aQp p).length) := by
    simp only [encText, ssidStr2bin, hg2, hsp, hd, ok_bind, List.length_nil, Nat.zero_add]
  dsimp only
  rw [he]
  rfl

theorem padMask_pad (p m : Bytes) (k : Nat) (hm : m.length = (p ++ zeros k).length) :
    padMask p m = ((p ++ zeros k) ++ m, m.length) := by
  simp only [List.length_append, zeros, List.length_replicate] at hm
  unfold padMask
  have h1 : max m.length p.length = m.length := by omega
  have h2 : min m.length p.length = p.length := by omega
  have h3 : m.length - p.length = k := by omega
  rw [h1, h2, h3]
  by_cases hk : k = 0
  · have : ¬ p.length < m.length := by omega
    have h4 : m.length = p.length := by omega
    simp [hk, zeros, h4]
  · have : p.length < m.length := by omega
    simp [this]

theorem ssid_fwd_mask {h r : Str} {p m : Bytes} {k : Nat} (hh : h = [] ∨ h = [',']) (hr : r = [] ∨ ∃ r', r = ',' :: r')
    (hp : SsidText (r = []) p) (hm : m.length = (p ++ zeros k).length) :
    str2oxmOne (h ++ (t!"dot11_ssid" ++ '=' :: ((b2aQp p ++ '/' :: b2aHex m) ++ r))) =
      .ok (header ssidKey m.length true ++ ((p ++ zeros k) ++ m), (b2aQp p ++ '/' :: b2aHex m).length,
        b2aQp p ++ '/' :: b2aHex m, r) := by
  obtain ⟨hpn, hst, hns, htok⟩ := hp
  obtain ⟨hg1, hg2⟩ := ssid_get p ('/' :: b2aHex m) r hpn (hex_tail m) (atEnd_of hr) htok
  have hhd : Head h := by rcases hh with rfl | rfl; exacts [head_nil, head_comma]
  have hhe : hasChar h '=' = false := by rcases hh with rfl | rfl <;> decide
  have hc : Clean t!"dot11_ssid" := by decide
  have h1 := getToken_head hhd hc.token (atEnd_eq ((b2aQp p ++ '/' :: b2aHex m) ++ r)) hc.plainStart (by decide)
  have hd : a2bQp (b2aQp p) = .ok p := (C63_exact p).2 hst
  have hsp : splitAll '/' (b2aQp p ++ '/' :: b2aHex m) = [b2aQp p, b2aHex m] := by
    rw [splitAll_some '/' _ _ (fun x hx he => hns (he ▸ hx)),
      splitAll_none '/' _ (fun c hc => (isHex_ne (b2aHex_isHex m c hc)).1)]
  unfold str2oxmOne
  rw [h1]
  dsimp only
  rw [hg1]
  dsimp only
  rw [hhe, ssid_enc]
  have he : encText ssidKey .ssid (b2aQp p ++ '/' :: b2aHex m) =
      .ok (header ssidKey m.length true ++ ((p ++ zeros k) ++ m), (b2aQp p ++ '/' :: b2aHex m).length) := by
    simp only [encText, ssidStr2bin, hg2, hsp, hd, ok_bind, List.length_nil, Nat.zero_add, a2bHex_b2aHex,
      padMask_pad p m k hm]
  dsimp only
  rw [he]
  rfl

end Ofpstr
