import Verif.Lemmas.SsidList
import Verif.Lemmas.LostAll

/-!
# Byte strings in the brackets of an action: exactly which come back
-/

set_option linter.unusedSimpArgs false

namespace Ofpstr
open Spec

/-! ## Brackets close at one place -/

theorem inside_unique {e : Char} {p p' s s' : Str} (h : Inside e p) (h' : Inside e p') (he : p ++ e :: s = p' ++ e :: s') :
    p = p' ∧ s = s' := by
  have h1 := scanParen_inside h s ((p ++ e :: s).length + 1) (by omega)
  have h2 := scanParen_inside h' s' ((p ++ e :: s).length + 1) (by rw [he]; omega)
  rw [he] at h1
  rw [← he, he, h1] at h2
  simp only [Prod.mk.injEq] at h2
  exact ⟨h2.1, h2.2.2⟩

theorem inside_unclosed {e : Char} {p s : Str} (h : Inside e p) (h' : Unclosed e (p ++ e :: s)) : False := by
  have h1 := scanParen_inside h s ((p ++ e :: s).length + 1) (by omega)
  have h2 := scanParen_unclosed h' ((p ++ e :: s).length + 1) (by omega)
  rw [h1] at h2
  simp at h2

theorem pair_unique {o e e' : Char} (h : Pair o e) (h' : Pair o e') : e = e' := by
  cases h <;> cases h' <;> rfl

theorem pair_open {o e : Char} (h : Pair o e) : ¬ NotOpen o := by cases h <;> decide

/-- A token at the start of what stands in brackets has all its brackets closed. -/
theorem token_inside {e : Char} {q : Str} (hq : Token q) (s : Str) (h : Inside e (q ++ s) ∨ Unclosed e (q ++ s)) :
    Inside e q := by
  induction hq with
  | nil => exact .nil e
  | char c q h1 h2 h3 _ ih =>
    rcases h with h | h
    · generalize hu : (c :: q) ++ s = u at h
      cases h with
      | nil => cases hu
      | char _ d t a1 a2 a3 =>
        simp only [List.cons_append, List.cons.injEq] at hu
        obtain ⟨rfl, rfl⟩ := hu
        exact .char e c q a1 a2 (ih (Or.inl a3))
      | nest _ o e' p t a1 a2 a3 a4 =>
        simp only [List.cons_append, List.cons.injEq] at hu
        rw [hu.1] at h3
        exact absurd h3 (pair_open a2)
    · generalize hu : (c :: q) ++ s = u at h
      cases h with
      | nil => cases hu
      | char _ d t a1 a2 a3 =>
        simp only [List.cons_append, List.cons.injEq] at hu
        obtain ⟨rfl, rfl⟩ := hu
        exact .char e c q a1 a2 (ih (Or.inr a3))
      | nest _ o e' p t a1 a2 a3 a4 =>
        simp only [List.cons_append, List.cons.injEq] at hu
        rw [hu.1] at h3
        exact absurd h3 (pair_open a2)
      | deep _ o e' t a1 a2 a3 =>
        simp only [List.cons_append, List.cons.injEq] at hu
        rw [hu.1] at h3
        exact absurd h3 (pair_open a2)
  | group o e1 p q hp hi _ ih =>
    rw [show o :: p ++ e1 :: q ++ s = o :: (p ++ e1 :: (q ++ s)) by simp] at h
    rcases h with h | h
    · generalize hu : o :: (p ++ e1 :: (q ++ s)) = u at h
      cases h with
      | nil => cases hu
      | char _ d t a1 a2 a3 =>
        simp only [List.cons.injEq] at hu
        rw [← hu.1] at a2
        exact absurd a2 (pair_open hp)
      | nest _ o' e' p' t a1 a2 a3 a4 =>
        simp only [List.cons_append, List.cons.injEq] at hu
        obtain ⟨rfl, hu⟩ := hu
        cases pair_unique hp a2
        obtain ⟨rfl, rfl⟩ := inside_unique hi a3 hu
        exact .nest e o e1 p q a1 hp hi (ih (Or.inl a4))
    · generalize hu : o :: (p ++ e1 :: (q ++ s)) = u at h
      cases h with
      | nil => cases hu
      | char _ d t a1 a2 a3 =>
        simp only [List.cons.injEq] at hu
        rw [← hu.1] at a2
        exact absurd a2 (pair_open hp)
      | nest _ o' e' p' t a1 a2 a3 a4 =>
        simp only [List.cons_append, List.cons.injEq] at hu
        obtain ⟨rfl, hu⟩ := hu
        cases pair_unique hp a2
        obtain ⟨rfl, rfl⟩ := inside_unique hi a3 hu
        exact .nest e o e1 p q a1 hp hi (ih (Or.inr a4))
      | deep _ o' e' t a1 a2 a3 =>
        simp only [List.cons.injEq] at hu
        obtain ⟨rfl, rfl⟩ := hu
        cases pair_unique hp a2
        exact absurd a3 (fun h => inside_unclosed hi h)

/-- A text with an open bracket does not stand in brackets. -/
theorem openToken_inside {e : Char} {q : Str} (hq : OpenToken q) (h : Inside e q) : False := by
  induction hq with
  | start o e1 s hp hu =>
    generalize hw : o :: s = w at h
    cases h with
    | nil => cases hw
    | char _ d t a1 a2 a3 =>
      simp only [List.cons.injEq] at hw
      rw [← hw.1] at a2
      exact pair_open hp a2
    | nest _ o' e' p t a1 a2 a3 a4 =>
      simp only [List.cons_append, List.cons.injEq] at hw
      obtain ⟨rfl, rfl⟩ := hw
      cases pair_unique hp a2
      exact inside_unclosed a3 hu
  | char c q h1 h2 h3 _ ih =>
    generalize hw : c :: q = w at h
    cases h with
    | nil => cases hw
    | char _ d t a1 a2 a3 =>
      simp only [List.cons.injEq] at hw
      obtain ⟨rfl, rfl⟩ := hw
      exact ih a3
    | nest _ o e' p t a1 a2 a3 a4 =>
      simp only [List.cons_append, List.cons.injEq] at hw
      rw [hw.1] at h3
      exact pair_open a2 h3
  | group o e1 p q hp hi _ ih =>
    generalize hw : o :: p ++ e1 :: q = w at h
    cases h with
    | nil => cases hw
    | char _ d t a1 a2 a3 =>
      simp only [List.cons_append, List.cons.injEq] at hw
      rw [← hw.1] at a2
      exact pair_open hp a2
    | nest _ o' e' p' t a1 a2 a3 a4 =>
      simp only [List.cons_append, List.cons.injEq] at hw
      obtain ⟨rfl, hu⟩ := hw
      cases pair_unique hp a2
      obtain ⟨rfl, rfl⟩ := inside_unique hi a3 hu
      exact ih a4

theorem strip_char {e c : Char} {u : Str} (hc : NotOpen c) :
    (Inside e (c :: u) → Inside e u) ∧ (Unclosed e (c :: u) → Unclosed e u) := by
  constructor
  · intro h
    generalize hw : c :: u = w at h
    cases h with
    | nil => cases hw
    | char _ d t a1 a2 a3 => cases hw; exact a3
    | nest _ o e' p t a1 a2 a3 a4 =>
      simp only [List.cons_append, List.cons.injEq] at hw
      rw [hw.1] at hc
      exact absurd hc (pair_open a2)
  · intro h
    generalize hw : c :: u = w at h
    cases h with
    | nil => cases hw
    | char _ d t a1 a2 a3 => cases hw; exact a3
    | nest _ o e' p t a1 a2 a3 a4 =>
      simp only [List.cons_append, List.cons.injEq] at hw
      rw [hw.1] at hc
      exact absurd hc (pair_open a2)
    | deep _ o e' t a1 a2 a3 =>
      simp only [List.cons_append, List.cons.injEq] at hw
      rw [hw.1] at hc
      exact absurd hc (pair_open a2)

theorem strip_chars {e : Char} {n u : Str} (hn : ∀ c ∈ n, NotOpen c) :
    (Inside e (n ++ u) → Inside e u) ∧ (Unclosed e (n ++ u) → Unclosed e u) := by
  induction n with
  | nil => exact ⟨id, id⟩
  | cons c n ih =>
    obtain ⟨h1, h2⟩ := ih (fun d hd => hn d (by simp [hd]))
    obtain ⟨h3, h4⟩ := strip_char (e := e) (u := n ++ u) (hn c (by simp))
    exact ⟨fun h => h1 (h3 h), fun h => h2 (h4 h)⟩

theorem token_strip {n u : Str} (hn : Clean n) (h : Token (n ++ u)) : Token u := by
  induction n with
  | nil => exact h
  | cons c n ih =>
    have hc := (hn c (by simp)).2.2.2
    apply ih (fun d hd => hn d (by simp [hd]))
    generalize hw : c :: n ++ u = w at h
    cases h with
    | nil => cases hw
    | char d t a1 a2 a3 a4 =>
      simp only [List.cons_append, List.cons.injEq] at hw
      obtain ⟨rfl, rfl⟩ := hw
      exact a4
    | group o e' p t a1 a2 a3 =>
      simp only [List.cons_append, List.cons.injEq] at hw
      rw [hw.1] at hc
      exact absurd hc (pair_open a1)

/-! ## What a call takes for its argument -/

/-- Whatever is read as a call of `name`, its argument is the text up to the closing bracket or, if the
bracket stays open, all the text. -/
theorem call_cases (h name x r : Str) (k : ActEnc) (hh : Head h) (hc : Clean name) (hn : name ≠ [])
    (hset : ∀ x, startsWith (name ++ '(' :: x) t!"set_" = false)
    (hk : lookupAct name = some k) {c : Bytes} {l : Nat} (hcn : c ≠ [])
    (hs : str2act (h ++ ((name ++ '(' :: x ++ [')']) ++ r)) = .ok (c, l)) :
    ∃ a y p, runActEnc k a false = .ok (c, p) ∧ a ≠ [] ∧ x ++ ')' :: r = a ++ y ∧
      ((Inside ')' a ∧ ∃ y', y = ')' :: y') ∨ (Unclosed ')' a ∧ y = [])) := by
  have e0 : h ++ ((name ++ '(' :: x ++ [')']) ++ r) = h ++ (name ++ '(' :: (x ++ ')' :: r)) := by simp
  rw [e0] at hs
  obtain ⟨u, rest, hg, hx, hu⟩ := getToken_prefix h name ('(' :: (x ++ ')' :: r)) hh hc hn (by
    intro c t hct
    cases hct
    exact Or.inr (Or.inr (by decide)))
  obtain ⟨h', tok, r', fname, farg, hg', hpf, hcs⟩ := str2act_cases _ _ _ hs
  rw [hg] at hg'
  simp only [Prod.mk.injEq] at hg'
  obtain ⟨rfl, rfl, rfl⟩ := hg'
  have htok := ((getToken_iff _ _ _ _).1 hg).2.2
  cases u with
  | nil =>
    exfalso
    rw [List.append_nil] at htok
    rw [List.nil_append] at hx
    rcases htok with ⟨_, hb⟩ | ⟨_, hb⟩
    · rcases hb '(' _ hx.symm with h | h
      · exact absurd h (by decide)
      · exact absurd h (by decide)
    · rw [hb] at hx; cases hx
  | cons o t =>
    simp only [List.cons_append, List.cons.injEq] at hx
    obtain ⟨rfl, hx⟩ := hx
    have hlk : lookupAct (name ++ '(' :: t) = none := lookupAct_bracket _ _ _ (by decide)
    have hfn := parseFunc_prefix name ('(' :: t) fname farg hc (by intro c u hcu; cases hcu; decide) hpf
    subst hfn
    have hst := hset t
    rcases hcs with ⟨k', u, ra, p, hrun, hcs⟩ | ⟨_, _, _, _, _, h3, _⟩ | ⟨h3, _⟩
    · rcases hcs with ⟨a, rfl, han, rfl, rfl, hl, -⟩ | ⟨-, -, hl, -⟩
      · rw [hk] at hl
        cases hl
        have harg : (t = u ++ [')'] ∧ Inside ')' u) ∨ (t = u ∧ Unclosed ')' u) := by
          rcases scanParen_cases (t.length + 1) ')' t (by omega) with ⟨q, s, h1, h2, h3⟩ | ⟨h1, h3⟩
          · subst h2
            have := parseFunc_call fname q s '(' ')' hc.notOpen .round h1
            rw [show fname ++ '(' :: (q ++ ')' :: s) = fname ++ '(' :: q ++ ')' :: s by simp, this] at hpf
            split at hpf
            · rename_i hs0
              subst hs0
              simp only [Except.ok.injEq, Prod.mk.injEq, Option.some.injEq, true_and] at hpf
              subst hpf
              exact Or.inl ⟨rfl, h1⟩
            · cases hpf
          · right
            unfold parseFunc at hpf
            rw [parseFuncGo_name _ fname hc.notOpen, parseFuncGo, (pars_some_iff '(' ')').2 .round] at hpf
            dsimp only at hpf
            rw [h3] at hpf
            dsimp only at hpf
            split at hpf
            · simp only [Except.ok.injEq, Prod.mk.injEq, Option.some.injEq, true_and] at hpf
              obtain ⟨-, rfl⟩ := hpf
              exact ⟨rfl, h1⟩
            · cases hpf
        rcases harg with ⟨rfl, hi⟩ | ⟨rfl, hu⟩
        · exact ⟨u, ')' :: rest, p, hrun, han, by rw [hx]; simp, Or.inl ⟨hi, _, rfl⟩⟩
        · refine ⟨t, rest, p, hrun, han, hx, Or.inr ⟨hu, ?_⟩⟩
          rcases htok with ⟨ht, -⟩ | ⟨-, hb⟩
          · exfalso
            have := token_strip hc ht
            generalize hw : '(' :: t = w at this
            cases this with
            | nil => cases hw
            | char d t' a1 a2 a3 a4 => cases hw; exact absurd a3 (by decide)
            | group o e' p' t' a1 a2 a3 =>
              simp only [List.cons_append, List.cons.injEq] at hw
              obtain ⟨rfl, rfl⟩ := hw
              cases pair_unique a1 .round
              exact inside_unclosed a2 hu
          · exact hb
      · rw [hlk] at hl; cases hl
    · rw [hst] at h3; cases h3
    · exact absurd h3 hcn

/-! ## Notes -/

/-- Separators at the start of the text are lost. -/
theorem qp_head_any (p t : Bytes) (hp : p ≠ []) (z w v y : Str) (hsplit : b2aQp p ++ z = w ++ (v ++ y))
    (hw : ∀ c ∈ w, Space c ∨ c = ',' ∨ c = '=')
    (hn : ∀ c s, v = c :: s → ¬ Space c ∧ c ≠ '=' ∧ c ≠ ',' ∧ c.toNat < 128) (hdec : qpDec v = p ++ t) :
    w = [] := by
  cases w with
  | nil => rfl
  | cons c w =>
    exfalso
    have hq := b2aQp_text p
    have hc := hw c (by simp)
    have key : ∀ {q n}, QpText false q n → ∀ q', q = c :: q' → ∃ x n', n = x :: n' ∧
        (x.toNat ∈ [9, 10, 13, 32, 44] ∨ (c = '=' ∧ QuotedByte x ∧ ∃ q'', q' = upDigit (x.toNat / 16) :: q'')) := by
      intro q n h q' he
      cases h with
      | nil => cases he
      | raw f d s b hd _ =>
        cases he
        refine ⟨_, _, rfl, Or.inl ?_⟩
        rcases hd with rfl | rfl | rfl | ⟨h1, h2, h3⟩
        · decide
        · decide
        · decide
        · rcases hc with hc | rfl | rfl
          · have hs : c.toNat = 32 := by
              unfold Space at hc
              simp only [List.mem_cons, List.not_mem_nil, or_false] at hc
              omega
            rw [hs]; decide
          · decide
          · exact absurd rfl h3
      | quoted f x s b hx _ => cases he; exact ⟨_, _, rfl, Or.inr ⟨rfl, hx, _, rfl⟩⟩
    cases hb : b2aQp p with
    | nil => exact hp ((nlAs_nil _ _).1 (hq.empty.1 hb))
    | cons d q =>
      rw [hb] at hsplit
      simp only [List.cons_append, List.cons.injEq] at hsplit
      obtain ⟨rfl, hsplit⟩ := hsplit
      obtain ⟨x, n', hx1, hx2⟩ := key hq q hb
      obtain ⟨y', p', rfl, hy⟩ := nlAs_head _ p x n' hx1
      cases v with
      | nil => rw [qpDec_nil] at hdec; simp at hdec
      | cons e v =>
        obtain ⟨n1, n2, n3, n4⟩ := hn e v rfl
        rw [qpDec_raw n2] at hdec
        simp only [List.cons_append, List.cons.injEq] at hdec
        have h2 := congrArg UInt8.toNat hdec.1
        rw [UInt8.toNat_ofNat', Nat.mod_eq_of_lt (by omega)] at h2
        have hlist : y'.toNat ∈ [9, 10, 13, 32, 44] → False := by
          intro hm
          rw [← h2] at hm
          by_cases h44 : e.toNat = 44
          · exact n3 (Char.toNat_inj.1 h44)
          · apply n1
            unfold Space
            simp only [List.mem_cons, List.not_mem_nil, or_false] at hm ⊢
            omega
        rcases hy with rfl | ⟨_, hy⟩
        · rcases hx2 with hx2 | ⟨rfl, hx2, q'', rfl⟩
          · exact hlist hx2
          · have hlt := x.toNat_lt
            have hd : ∀ d : Fin 16, 48 ≤ (upDigit d.1).toNat ∧ (upDigit d.1).toNat ≤ 70 ∧ (upDigit d.1).toNat ≠ 61 ∧
                ¬ (Space (upDigit d.1) ∨ upDigit d.1 = ',' ∨ upDigit d.1 = '=') := by decide
            obtain ⟨d1, d2, d3, d4⟩ := hd ⟨x.toNat / 16, by omega⟩
            have hwn : w = [] := by
              cases w with
              | nil => rfl
              | cons c w =>
                simp only [List.cons_append, List.cons.injEq] at hsplit
                exact absurd (hsplit.1 ▸ hw c (by simp)) d4
            subst hwn
            simp only [List.cons_append, List.nil_append, List.cons.injEq] at hsplit
            rw [hsplit.1] at d1 d2 d3
            unfold QuotedByte at hx2
            omega
        · apply hlist
          simp only [List.mem_cons, List.not_mem_nil, or_false] at hy ⊢
          omega

theorem headOf_chars {s h : Str} (hh : HeadOf s h) : ∀ c ∈ h, Space c ∨ c = ',' ∨ c = '=' := by
  intro c hc
  cases hh with
  | eq w1 w2 r h1 h2 h3 =>
    simp only [List.mem_append, List.mem_cons] at hc
    rcases hc with hc | rfl | hc
    · exact Or.inl (h1 c hc)
    · exact Or.inr (Or.inr rfl)
    · exact Or.inl (h2 c hc)
  | run h r h1 h2 h3 => exact (h2 c hc).imp id Or.inl

theorem headOf_rest {s h u : Str} (hh : HeadOf s h) (hs : s = h ++ u) : ∀ c t, u = c :: t → ¬ Space c := by
  intro c t hu
  cases hh with
  | eq w1 w2 r h1 h2 h3 => exact h3 c t (by rw [List.append_cancel_left hs, hu])
  | run h r h1 h2 h3 => exact (h3 c t (by rw [List.append_cancel_left hs, hu])).1

theorem nxRaw_ne (t : Nat) (b : Bytes) : nxRaw t b ≠ [] := by
  intro h
  have := congrArg List.length h
  rw [nxRaw_length] at this
  simp at this

theorem note_back (b : Bytes) {h r : Str} (hh : Head h) {n : Nat}
    (hs : str2act (h ++ ((t!"note" ++ '(' :: b2aQp b ++ [')']) ++ r)) = .ok (nxRaw 8 b, n)) :
    b ≠ [] ∧ (NoDos b ∨ AllDos b) ∧ Token (b2aQp b) ∧ Inside ')' (b2aQp b) := by
  obtain ⟨a, y, p, hrun, han, hay, hcase⟩ := call_cases h t!"note" (b2aQp b) r .note hh (by decide) (by decide)
    (by intro x; rfl) (by decide) (nxRaw_ne 8 b) hs
  simp only [runActEnc, qpStr2act] at hrun
  rcases hg : getToken a with ⟨w, v, rest⟩
  rw [hg] at hrun
  dsimp only at hrun
  obtain ⟨_, -, hrun⟩ := bind_ok hrun
  obtain ⟨d, hd, hrun⟩ := bind_ok hrun
  obtain ⟨bin, hbin, hrun⟩ := bind_ok hrun
  simp only [Except.ok.injEq, Prod.mk.injEq] at hrun
  obtain ⟨rfl, -⟩ := hrun
  rw [show NXAST_NOTE = 8 from rfl, fixActLen_hdr] at hbin
  split at hbin
  · have hdb : d = b := by
      have := Except.ok.inj hbin
      unfold nxRaw at this
      have h2 := (List.append_inj (List.append_inj this rfl).2 (by simp [u16_length])).2
      exact (List.append_inj (List.append_inj h2 rfl).2 rfl).2
    subst hdb
    obtain ⟨t1, t2, t3⟩ := (getToken_iff _ _ _ _).1 hg
    have hbn : d ≠ [] := by
      rintro rfl
      have hq : b2aQp [] = [] := by decide
      rw [hq, List.nil_append] at hay
      cases a with
      | nil => exact han rfl
      | cons c a =>
        simp only [List.cons_append, List.cons.injEq] at hay
        obtain ⟨rfl, -⟩ := hay
        rcases hcase with ⟨hi, -⟩ | ⟨hu, -⟩
        · generalize hz : ')' :: a = z at hi
          cases hi with
          | nil => cases hz
          | char _ _ _ a1 _ _ => cases hz; exact a1 rfl
          | nest _ _ _ _ _ a1 _ _ _ => simp at hz; exact a1 hz.1.symm
        · generalize hz : ')' :: a = z at hu
          cases hu with
          | nil => cases hz
          | char _ _ _ a1 _ _ => cases hz; exact a1 rfl
          | nest _ _ _ _ _ a1 _ _ _ => simp at hz; exact a1 hz.1.symm
          | deep _ _ _ _ a1 _ _ => simp at hz; exact a1 hz.1.symm
    obtain ⟨hasc, hdec⟩ := a2bQp_inv hd
    have hvt : Token v ∨ OpenToken v := t3.imp And.left And.left
    have hsplit : b2aQp d ++ ')' :: r = w ++ (v ++ (rest ++ y)) := by rw [hay, t1]; simp
    have hw : w = [] := qp_head_any d [] hbn (')' :: r) w v (rest ++ y) hsplit (headOf_chars t2) (by
      intro c s hc
      have := token_start hvt c s hc
      refine ⟨headOf_rest t2 t1 c (s ++ rest) (by rw [hc]; rfl), this.1, ?_, hasc c (by rw [hc]; simp)⟩
      rintro rfl
      exact this.2 (by decide)) (by rw [hdec]; simp)
    subst hw
    rw [List.nil_append] at hsplit t1
    have hvq : v = b2aQp d := qp_whole d [] (')' :: r) v (rest ++ y) (by
      intro c s hc; cases hc; exact ⟨by decide, by simp⟩) hsplit (by
      intro c s hc
      cases rest with
      | nil =>
        rcases hcase with ⟨-, y', rfl⟩ | ⟨-, rfl⟩
        · cases hc
          have := sep_upDigit ')' (by simp)
          exact ⟨Or.inl ⟨by decide, by decide, this⟩, this⟩
        · cases hc
      | cons c' rest =>
        cases hc
        rcases t3 with ⟨h1, h2⟩ | ⟨_, h2⟩
        · exact ⟨Or.inr (token_last h1), sep_upDigit c ((h2 c _ rfl).elim Or.inl fun h => Or.inr (Or.inl h))⟩
        · cases h2) (by rw [hdec]; simp)
    subst hvq
    refine ⟨hbn, style_of d hd, ?_⟩
    rcases t3 with ⟨h1, h2⟩ | ⟨h1, h2⟩
    · refine ⟨h1, token_inside h1 rest ?_⟩
      rw [← t1]
      exact hcase.imp And.left And.left
    · exfalso
      subst h2
      rw [List.append_nil] at t1
      subst t1
      rcases hcase with ⟨hi, -⟩ | ⟨-, rfl⟩
      · exact openToken_inside h1 hi
      · have := List.append_cancel_left hay
        cases this
  · cases hbin

theorem qp_plainStart (b : Bytes) (ht : Token (b2aQp b) ∨ OpenToken (b2aQp b)) : PlainStart (b2aQp b) := by
  intro c t hc
  have h1 := token_start ht c t hc
  exact ⟨qp_start (b2aQp_text b) c t hc h1.1 h1.2, fun h => h1.2 (by rw [h]; decide), h1.1⟩

theorem note_fwd (b : Bytes) (hlen : b.length < 60000) (hne : b ≠ []) (hst : NoDos b ∨ AllDos b) (ht : Token (b2aQp b))
    (hi : Inside ')' (b2aQp b)) {h r : Str} (hh : Head h) (hr : AtEnd r) :
    str2act (h ++ ((t!"note" ++ '(' :: b2aQp b ++ [')']) ++ r)) =
      .ok (nxRaw 8 b, h.length + (t!"note" ++ '(' :: b2aQp b ++ [')']).length) := by
  have hqn : b2aQp b ≠ [] := fun hb => hne ((nlAs_nil _ _).1 ((b2aQp_text b).empty.1 hb))
  rw [str2act_call h t!"note" (b2aQp b) r .note hh (by decide) (by decide) hi hqn hr (by decide)]
  simp only [runActEnc, qpStr2act]
  have hg := getToken_plain ht atEnd_nil (qp_plainStart b (Or.inl ht)) hqn
  rw [List.append_nil] at hg
  rw [hg]
  dsimp only
  rw [(C63_exact b).2 hst]
  simp only [ok_bind, pyAssert_ok, Bool.not_false, Bool.true_or]
  rw [show NXAST_NOTE = 8 from rfl, fixActLen_hdr, if_pos (by omega)]
  rfl

end Ofpstr
