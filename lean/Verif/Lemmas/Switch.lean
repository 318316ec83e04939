import Verif.Model.Switch
import Verif.Spec.Switch
import Verif.Lemmas.Ranges

/-!
# Lemmas: backtracking, longest first
-/

set_option linter.unusedSimpArgs false

namespace Ofpstr
open Spec

/-- `K` finds the way with the largest list of lengths among those of `Cut`. -/
structure Best {α : Type} (K : Str → Option α) (Cut : Str → List Nat → α → Prop) : Prop where
  some : ∀ s a, K s = Option.some a → ∃ l, Cut s l a ∧ ∀ l' a', Cut s l' a' → ¬ l < l'
  none : ∀ s, K s = Option.none → ∀ l a, ¬ Cut s l a

theorem best_end {α : Type} (f : Str → α) : Best (fun r => Option.some (f r)) (fun r l a => l = [] ∧ a = f r) :=
  ⟨fun s a h => ⟨[], ⟨rfl, (Option.some.inj h).symm⟩, fun l' a' h' => by rw [h'.1]; simp⟩, fun s h => nomatch h⟩

/-- The way of a repetition. -/
def StarCut {α : Type} (p : Char → Bool) (Cut : Str → List Nat → α → Prop) (s : Str) (l : List Nat) (a : α) : Prop :=
  ∃ d r l', s = d ++ r ∧ (∀ c ∈ d, p c = true) ∧ Cut r l' a ∧ l = d.length :: l'

/-- The way of a repetition of at least one. -/
def PlusCut {α : Type} (p : Char → Bool) (Cut : Str → List Nat → α → Prop) (s : Str) (l : List Nat) (a : α) : Prop :=
  ∃ d r l', s = d ++ r ∧ d ≠ [] ∧ (∀ c ∈ d, p c = true) ∧ Cut r l' a ∧ l = d.length :: l'

/-- The way of one character. -/
def OneCut {α : Type} (p : Char → Bool) (Cut : Str → List Nat → α → Prop) (s : Str) (l : List Nat) (a : α) : Prop :=
  ∃ c r, s = c :: r ∧ p c = true ∧ Cut r l a

theorem star_none {α : Type} (p : Char → Bool) {K : Str → Option α} {Cut : Str → List Nat → α → Prop} (h : Best K Cut) :
    ∀ s, starGo p K s = .none → ∀ l a, ¬ StarCut p Cut s l a := by
  intro s
  induction s with
  | nil =>
    rintro hk l a ⟨d, r, l', he, hd, hc, rfl⟩
    obtain ⟨rfl, rfl⟩ := List.append_eq_nil_iff.1 he.symm
    exact h.none [] hk l' a hc
  | cons c s ih =>
    rintro hk l a ⟨d, r, l', he, hd, hc, rfl⟩
    rw [starGo] at hk
    by_cases hp : p c = true
    · rw [if_pos hp] at hk
      cases hs : starGo p K s with
      | some a1 => rw [hs] at hk; cases hk
      | none =>
        rw [hs] at hk
        cases d with
        | nil => cases he; exact h.none _ hk l' a hc
        | cons c' d =>
          simp only [List.cons_append, List.cons.injEq] at he
          exact ih hs _ a ⟨d, r, l', he.2, fun x hx => hd x (by simp [hx]), hc, rfl⟩
    · rw [if_neg hp] at hk
      cases d with
      | nil => cases he; exact h.none _ hk l' a hc
      | cons c' d =>
        simp only [List.cons_append, List.cons.injEq] at he
        exact absurd (by rw [he.1]; exact hd c' (by simp)) hp

theorem best_star {α : Type} (p : Char → Bool) {K : Str → Option α} {Cut : Str → List Nat → α → Prop} (h : Best K Cut) :
    Best (starGo p K) (StarCut p Cut) := by
  -- nothing repeated
  have h0 : ∀ s a, K s = .some a → (∀ d r l' a', s = d ++ r → d ≠ [] → (∀ c ∈ d, p c = true) → ¬ Cut r l' a') →
      ∃ l, StarCut p Cut s l a ∧ ∀ l' a', StarCut p Cut s l' a' → ¬ l < l' := by
    intro s a hk hn
    obtain ⟨l, hc, hm⟩ := h.some s a hk
    refine ⟨0 :: l, ⟨[], s, l, rfl, by simp, hc, rfl⟩, ?_⟩
    rintro l' a' ⟨d, r, l'', rfl, hd, hc', rfl⟩
    by_cases hd0 : d = []
    · subst hd0
      simp only [List.length_nil, List.cons_lt_cons_iff, lt_irrefl, true_and, false_or]
      exact hm l'' a' hc'
    · exact absurd hc' (hn d r l'' a' rfl hd0 hd)
  constructor
  · intro s
    induction s with
    | nil =>
      intro a hk
      refine h0 [] a hk ?_
      intro d r l' a' he hd0
      exact absurd (List.append_eq_nil_iff.1 he.symm).1 hd0
    | cons c s ih =>
      intro a hk
      rw [starGo] at hk
      by_cases hp : p c = true
      · rw [if_pos hp] at hk
        cases hs : starGo p K s with
        | some a1 =>
          rw [hs] at hk
          cases hk
          obtain ⟨l, ⟨d, r, l1, rfl, hd, hc, rfl⟩, hm⟩ := ih a hs
          refine ⟨(c :: d).length :: l1, ⟨c :: d, r, l1, rfl, by simpa [hp] using hd, hc, rfl⟩, ?_⟩
          rintro l' a' ⟨d', r', l2, he, hd', hc', rfl⟩
          cases d' with
          | nil => simp [List.cons_lt_cons_iff]
          | cons c' d' =>
            simp only [List.cons_append, List.cons.injEq] at he
            obtain ⟨rfl, he⟩ := he
            have := hm _ a' ⟨d', r', l2, he, fun x hx => hd' x (by simp [hx]), hc', rfl⟩
            simpa [List.cons_lt_cons_iff] using this
        | none =>
          rw [hs] at hk
          refine h0 (c :: s) a hk ?_
          intro d r l' a' he hd0 hd hc
          -- a longer run would have been found behind the character
          cases d with
          | nil => exact hd0 rfl
          | cons c' d =>
            simp only [List.cons_append, List.cons.injEq] at he
            obtain ⟨rfl, he⟩ := he
            exact star_none p h s hs _ a' ⟨d, r, l', he, fun x hx => hd x (by simp [hx]), hc, rfl⟩
      · rw [if_neg hp] at hk
        refine h0 (c :: s) a hk ?_
        intro d r l' a' he hd0 hd
        cases d with
        | nil => exact absurd rfl hd0
        | cons c' d =>
          simp only [List.cons_append, List.cons.injEq] at he
          exact absurd (by rw [he.1]; exact hd c' (by simp)) hp
  · exact star_none p h

/-- One character, then a repetition. -/
def plusGo {α : Type} (p : Char → Bool) (K : Str → Option α) : Str → Option α
  | [] => none
  | c :: r => if p c then starGo p K r else none

def oneGo {α : Type} (p : Char → Bool) (K : Str → Option α) : Str → Option α
  | [] => none
  | c :: r => if p c then K r else none

theorem best_one {α : Type} (p : Char → Bool) {K : Str → Option α} {Cut : Str → List Nat → α → Prop} (h : Best K Cut) :
    Best (oneGo p K) (OneCut p Cut) := by
  constructor
  · intro s a hk
    cases s with
    | nil => cases hk
    | cons c r =>
      by_cases hp : p c = true
      · rw [oneGo, if_pos hp] at hk
        obtain ⟨l, hc, hm⟩ := h.some r a hk
        refine ⟨l, ⟨c, r, rfl, hp, hc⟩, ?_⟩
        rintro l' a' ⟨c', r', he, _, hc'⟩
        cases he
        exact hm l' a' hc'
      · rw [oneGo, if_neg hp] at hk; cases hk
  · rintro s hk l a ⟨c, r, rfl, hp, hc⟩
    rw [oneGo, if_pos hp] at hk
    exact h.none r hk l a hc

theorem best_plus {α : Type} (p : Char → Bool) {K : Str → Option α} {Cut : Str → List Nat → α → Prop} (h : Best K Cut) :
    Best (plusGo p K) (PlusCut p Cut) := by
  have hs := best_star p h
  constructor
  · intro s a hk
    cases s with
    | nil => cases hk
    | cons c r =>
      by_cases hp : p c = true
      · rw [plusGo, if_pos hp] at hk
        obtain ⟨l, ⟨d, r1, l1, rfl, hd, hc, rfl⟩, hm⟩ := hs.some r a hk
        refine ⟨(c :: d).length :: l1, ⟨c :: d, r1, l1, rfl, by simp, by simpa [hp] using hd, hc, rfl⟩, ?_⟩
        rintro l' a' ⟨d', r', l2, he, hne, hd', hc', rfl⟩
        cases d' with
        | nil => exact absurd rfl hne
        | cons c' d' =>
          simp only [List.cons_append, List.cons.injEq] at he
          have := hm _ a' ⟨d', r', l2, he.2, fun x hx => hd' x (by simp [hx]), hc', rfl⟩
          simpa [List.cons_lt_cons_iff] using this
      · rw [plusGo, if_neg hp] at hk; cases hk
  · rintro s hk l a ⟨d, r, l1, rfl, hne, hd, hc, rfl⟩
    cases d with
    | nil => exact hne rfl
    | cons c d =>
      rw [List.cons_append, plusGo, if_pos (hd c (by simp))] at hk
      exact hs.none _ hk _ a ⟨d, r, l1, rfl, fun x hx => hd x (by simp [hx]), hc, rfl⟩

theorem run_plus {α : Type} (p : Char → Bool) (k : Str → Caps → Option α) (s : Str) (m : Caps) :
    (Re.plus p).run k s m = plusGo p (fun r => k r m) s := by
  cases s <;> simp [Re.run, plusGo]

theorem run_one {α : Type} (p : Char → Bool) (k : Str → Caps → Option α) (s : Str) (m : Caps) :
    (Re.one p).run k s m = oneGo p (fun r => k r m) s := by
  cases s <;> simp [Re.run, oneGo]

theorem run_char {α : Type} (c : Char) (k : Str → Caps → Option α) (s : Str) (m : Caps) :
    (Re.lit [c]).run k s m = oneGo (· == c) (fun r => k r m) s := by
  cases s with
  | nil => simp [Re.run, oneGo, startsWith]
  | cons d r =>
    by_cases h : d = c
    · subst h; simp [Re.run, oneGo, startsWith]
    · have h' : ¬ c = d := fun e => h e.symm
      simp [Re.run, oneGo, startsWith, h, h']

theorem digits_dec {d : Str} : Digits d ↔ d ≠ [] ∧ ∀ c ∈ d, isDec c = true :=
  and_congr_right fun _ => forall₂_congr fun c _ => (isDec_iff c).symm

theorem take_front (a b : Str) : (a ++ b).take ((a ++ b).length - b.length) = a := by simp

/-- What the first alternative finds. -/
def tcpRe : Re := .cat (.lit t!"tcp:") (.cat (.group 2 reHost) (.cat (.lit t!":") (.group 3 (.plus isDec))))

/-- The captures that belong to parts of an address. -/
def partCaps (t : TcpParts) : Caps := [(1, t!"tcp:" ++ (t.host ++ ':' :: t.port)), (3, t.port), (2, t.host)]

def tcpTail (sw : Str) (s : Str) : Option Caps :=
  plusGo isDec (oneGo reDot (plusGo isDec (oneGo reDot (plusGo isDec (oneGo reDot (plusGo isDec
    (fun r => oneGo (· == ':') (fun r' => plusGo isDec (fun r'' => some [(1, sw.take (sw.length - r''.length)),
      (3, r'.take (r'.length - r''.length)), (2, s.take (s.length - r.length))]) r') r))))))) s

theorem run_tcp (sw : Str) : tcpRe.run (fun r m => some ((1, sw.take (sw.length - r.length)) :: m)) sw [] =
    if startsWith sw t!"tcp:" then tcpTail sw (sw.drop 4) else none := by
  unfold tcpRe tcpTail reHost
  rw [Re.run, Re.run]
  congr 1
  simp only [Re.run.eq_5, Re.run.eq_7, run_plus, run_one, run_char]
  rfl

theorem best_dep {α : Type} {F : Str → Str → Option α} {C : Str → Str → List Nat → α → Prop} (h : ∀ x, Best (F x) (C x)) :
    Best (fun s => F s s) (fun s => C s s) :=
  ⟨fun s a hk => (h s).some s a hk, fun s hk => (h s).none s hk⟩

theorem tail_best (sw s : Str) : ∃ Cut, Best (fun s' => plusGo isDec (oneGo reDot (plusGo isDec (oneGo reDot (plusGo isDec (oneGo reDot (plusGo isDec
    (fun r => oneGo (· == ':') (fun r' => plusGo isDec (fun r'' => some [(1, sw.take (sw.length - r''.length)),
      (3, r'.take (r'.length - r''.length)), (2, s.take (s.length - r.length))]) r') r))))))) s') Cut ∧
    (∀ l a, Cut s l a ↔ ∃ t : TcpParts, Digits t.a ∧ Digits t.b ∧ Digits t.c ∧ Digits t.d ∧ Digits t.port ∧
      t.x ≠ '\n' ∧ t.y ≠ '\n' ∧ t.z ≠ '\n' ∧ l = t.lengths ∧ ∃ r, s = t.host ++ ':' :: (t.port ++ r) ∧
      a = [(1, sw.take (sw.length - r.length)), (3, t.port), (2, t.host)]) := by
  refine ⟨_, best_plus _ (best_one _ (best_plus _ (best_one _ (best_plus _ (best_one _ (best_plus _
    (best_dep fun r => best_one _ (best_dep fun r' => best_plus _ (best_end _))))))))), ?_⟩
  intro l a
  simp only [digits_dec]
  have dot : ∀ c, reDot c = true ↔ c ≠ '\n' := fun c => by simp [reDot]
  constructor
  · rintro ⟨a, _, _, he, ha, ha', ⟨x, _, rfl, hx, b, _, _, rfl, hb, hb', ⟨y, _, rfl, hy, c, _, _, rfl, hc, hc', ⟨z, _, rfl, hz, d, _, _, rfl, hd, hd', ⟨w, _, rfl, hw, q, r, _, rfl, hq, hq', ⟨rfl, rfl⟩, rfl⟩, rfl⟩, rfl⟩, rfl⟩, rfl⟩
    obtain rfl : w = ':' := by simpa using hw
    have h2 : s.take (s.length - (':' :: (q ++ r)).length) = a ++ x :: (b ++ y :: (c ++ z :: d)) := by
      rw [he, show a ++ x :: (b ++ y :: (c ++ z :: (d ++ ':' :: (q ++ r)))) =
        (a ++ x :: (b ++ y :: (c ++ z :: d))) ++ ':' :: (q ++ r) by simp]
      exact take_front _ _
    refine ⟨⟨a, x, b, y, c, z, d, q⟩, ⟨ha, ha'⟩, ⟨hb, hb'⟩, ⟨hc, hc'⟩, ⟨hd, hd'⟩, ⟨hq, hq'⟩, (dot x).1 hx, (dot y).1 hy, (dot z).1 hz, rfl,
      r, by simp [he, TcpParts.host], ?_⟩
    rw [h2, take_front]
    rfl
  · rintro ⟨⟨a, x, b, y, c, z, d, q⟩, ⟨ha, ha'⟩, ⟨hb, hb'⟩, ⟨hc, hc'⟩, ⟨hd, hd'⟩, ⟨hq, hq'⟩, hx, hy, hz, rfl, r, he, rfl⟩
    have he' : s = a ++ x :: (b ++ y :: (c ++ z :: (d ++ ':' :: (q ++ r)))) := by simp [he, TcpParts.host]
    refine ⟨a, _, _, he', ha, ha', ⟨x, _, rfl, (dot x).2 hx, b, _, _, rfl, hb, hb', ⟨y, _, rfl, (dot y).2 hy, c, _, _, rfl, hc, hc',
      ⟨z, _, rfl, (dot z).2 hz, d, _, _, rfl, hd, hd', ⟨':', _, rfl, by simp, q, r, _, rfl, hq, hq', ⟨rfl, ?_⟩, rfl⟩, rfl⟩, rfl⟩, rfl⟩, rfl⟩
    have h2 : s.take (s.length - (':' :: (q ++ r)).length) = a ++ x :: (b ++ y :: (c ++ z :: d)) := by
      rw [he]
      exact take_front _ _
    rw [h2, take_front]
    rfl

theorem cut_drop {s : Str} {t : TcpParts} : TcpCut s t ↔ startsWith s t!"tcp:" = true ∧ Digits t.a ∧ Digits t.b ∧ Digits t.c ∧ Digits t.d ∧
    Digits t.port ∧ t.x ≠ '\n' ∧ t.y ≠ '\n' ∧ t.z ≠ '\n' ∧ ∃ r, s.drop 4 = t.host ++ ':' :: (t.port ++ r) := by
  unfold TcpCut startsWith
  rw [List.isPrefixOf_iff_prefix]
  constructor
  · rintro ⟨h1, h2, h3, h4, h5, h6, h7, h8, r, rfl⟩
    exact ⟨List.prefix_append _ _, h1, h2, h3, h4, h5, h6, h7, h8, r, rfl⟩
  · rintro ⟨⟨u, rfl⟩, h1, h2, h3, h4, h5, h6, h7, h8, r, hr⟩
    exact ⟨h1, h2, h3, h4, h5, h6, h7, h8, r, congrArg (t!"tcp:" ++ ·) hr⟩

theorem tcp_some {sw : Str} {m : Caps} (h : tcpRe.run (fun r m => some ((1, sw.take (sw.length - r.length)) :: m)) sw [] = some m) :
    ∃ t, TcpFirst sw t ∧ m = partCaps t := by
  rw [run_tcp] at h
  by_cases hp : startsWith sw t!"tcp:" = true
  · rw [if_pos hp] at h
    obtain ⟨Cut, hb, hi⟩ := tail_best sw (sw.drop 4)
    obtain ⟨l, hc, hm⟩ := hb.some _ m h
    obtain ⟨t, h1, h2, h3, h4, h5, h6, h7, h8, rfl, r, hr, rfl⟩ := (hi _ _).1 hc
    have hcut : TcpCut sw t := cut_drop.2 ⟨hp, h1, h2, h3, h4, h5, h6, h7, h8, r, hr⟩
    refine ⟨t, ⟨hcut, ?_⟩, ?_⟩
    · intro u hu
      obtain ⟨_, g1, g2, g3, g4, g5, g6, g7, g8, r', hr'⟩ := cut_drop.1 hu
      exact hm _ _ ((hi _ _).2 ⟨u, g1, g2, g3, g4, g5, g6, g7, g8, rfl, r', hr', rfl⟩)
    · unfold startsWith at hp
      rw [List.isPrefixOf_iff_prefix] at hp
      obtain ⟨v, rfl⟩ := hp
      have hv : v = t.host ++ ':' :: (t.port ++ r) := hr
      unfold partCaps
      rw [hv, show t!"tcp:" ++ (t.host ++ ':' :: (t.port ++ r)) = (t!"tcp:" ++ (t.host ++ ':' :: t.port)) ++ r by simp, take_front]
  · rw [if_neg hp] at h; cases h

theorem tcp_none {sw : Str} (h : tcpRe.run (fun r m => some ((1, sw.take (sw.length - r.length)) :: m)) sw [] = none) (t : TcpParts) :
    ¬ TcpCut sw t := by
  intro hc
  obtain ⟨hp, g1, g2, g3, g4, g5, g6, g7, g8, r', hr'⟩ := cut_drop.1 hc
  rw [run_tcp, if_pos hp] at h
  obtain ⟨Cut, hb, hi⟩ := tail_best sw (sw.drop 4)
  exact hb.none _ h _ _ ((hi _ _).2 ⟨t, g1, g2, g3, g4, g5, g6, g7, g8, rfl, r', hr', rfl⟩)

/-! ## The path -/

theorem star_end {α : Type} (p : Char → Bool) (f : Str → α) (s : Str) :
    starGo p (fun r => some (f r)) s = some (f (s.dropWhile p)) := by
  induction s with
  | nil => rfl
  | cons c s ih =>
    rw [starGo]
    by_cases hp : p c = true
    · rw [if_pos hp, ih, List.dropWhile_cons_of_pos hp]
    · rw [if_neg hp, List.dropWhile_cons_of_neg hp]

def unixRe : Re := .cat (.lit t!"unix:") (.group 4 (.star reDot))

theorem run_unix (sw : Str) : unixRe.run (fun r m => some ((1, sw.take (sw.length - r.length)) :: m)) sw [] =
    if startsWith sw t!"unix:" then some [(1, t!"unix:" ++ (sw.drop 5).takeWhile reDot), (4, (sw.drop 5).takeWhile reDot)] else none := by
  unfold unixRe
  rw [Re.run, Re.run]
  by_cases hp : startsWith sw t!"unix:" = true
  · rw [if_pos hp, if_pos hp, Re.run, Re.run, star_end]
    unfold startsWith at hp
    rw [List.isPrefixOf_iff_prefix] at hp
    obtain ⟨v, rfl⟩ := hp
    have h5 : (t!"unix:" ++ v).drop (t!"unix:").length = v := rfl
    have h5' : (t!"unix:" ++ v).drop 5 = v := rfl
    rw [h5, h5']
    have hv := List.takeWhile_append_dropWhile (p := reDot) (l := v)
    have e1 : v.take (v.length - (v.dropWhile reDot).length) = v.takeWhile reDot := by
      have : ∀ w z : Str, w ++ z = v → v.take (v.length - z.length) = w := by rintro w z rfl; exact take_front _ _
      exact this _ _ hv
    have e2 : (t!"unix:" ++ v).take ((t!"unix:" ++ v).length - (v.dropWhile reDot).length) = t!"unix:" ++ v.takeWhile reDot := by
      have : t!"unix:" ++ v = (t!"unix:" ++ v.takeWhile reDot) ++ v.dropWhile reDot := by rw [List.append_assoc, hv]
      rw [this]
      exact take_front _ _
    rw [e1, e2]
  · rw [if_neg hp, if_neg hp]

theorem unix_path {s p : Str} : UnixPath s p ↔ startsWith s t!"unix:" = true ∧ p = (s.drop 5).takeWhile reDot := by
  unfold UnixPath startsWith
  rw [List.isPrefixOf_iff_prefix]
  constructor
  · rintro ⟨hn, r, rfl, hr⟩
    refine ⟨List.prefix_append _ _, ?_⟩
    show p = (p ++ r).takeWhile reDot
    rw [List.takeWhile_append_of_pos (by intro c hc; simp [reDot]; rintro rfl; exact hn hc)]
    cases r with
    | nil => simp
    | cons c r =>
      have : c = '\n' := by simpa using hr
      subst this
      simp [reDot]
  · rintro ⟨⟨v, rfl⟩, rfl⟩
    show '\n' ∉ v.takeWhile reDot ∧ ∃ r, _ ++ v = _ ++ (v.takeWhile reDot ++ r) ∧ _
    refine ⟨fun h => ?_, v.dropWhile reDot, by rw [List.takeWhile_append_dropWhile], ?_⟩
    · have := (List.all_eq_true.1 (List.all_takeWhile (l := v) (p := reDot))) _ h
      simp [reDot] at this
    · cases hd : v.dropWhile reDot with
      | nil => simp
      | cons c r =>
        have := List.head?_dropWhile_not reDot v
        rw [hd] at this
        simp [reDot] at this
        simp [this]

theorem reSwitch_run (sw : Str) : reSwitch.run (fun _ m => some m) sw [] =
    match tcpRe.run (fun r m => some ((1, sw.take (sw.length - r.length)) :: m)) sw [] with
    | some m => some m
    | none => unixRe.run (fun r m => some ((1, sw.take (sw.length - r.length)) :: m)) sw [] := by
  rw [show reSwitch = .group 1 (.alt tcpRe unixRe) from rfl, Re.run.eq_9, Re.run.eq_8]
  cases tcpRe.run (fun r m => some ((1, sw.take (sw.length - r.length)) :: m)) sw [] <;> rfl

theorem switch_numeral {d : Str} (h : Digits d) : ∃ n, Numeral 10 d n :=
  ⟨_, (numeral_iff 10 (by omega) _ _).2 ⟨h.1, h.2, rfl⟩⟩

theorem numeral_one {d : Str} {m n : Nat} (h : Numeral 10 d m) (h' : Numeral 10 d n) : m = n := by
  have h1 := pyInt_numeral h
  rw [pyInt_numeral h'] at h1
  simpa using h1.symm

/-- Every argument in one of three ways. -/
theorem switch_cases (sw : Str) :
    (∃ t n, TcpFirst sw t ∧ Numeral 10 t.port n ∧ switchTarget sw = .ok (.tcp t.host n)) ∨
    (∃ p, UnixPath sw p ∧ switchTarget sw = .ok (.unix p)) ∨
    ((∀ t, ¬ TcpCut sw t) ∧ (∀ p, ¬ UnixPath sw p) ∧ switchTarget sw = .error .eparam) := by
  unfold switchTarget
  rw [reSwitch_run]
  cases ht : tcpRe.run (fun r m => some ((1, sw.take (sw.length - r.length)) :: m)) sw [] with
  | some m =>
    obtain ⟨t, hf, rfl⟩ := tcp_some ht
    obtain ⟨n, hn⟩ := switch_numeral hf.1.2.2.2.2.1
    refine .inl ⟨t, n, hf, hn, ?_⟩
    have h1 : (partCaps t).get 1 = t!"tcp:" ++ (t.host ++ ':' :: t.port) := rfl
    have h2 : (partCaps t).get 2 = t.host := rfl
    have h3 : (partCaps t).get 3 = t.port := rfl
    dsimp only
    rw [h1, h2, h3, pyInt_numeral hn]
    rfl
  | none =>
    dsimp only
    rw [run_unix]
    by_cases hp : startsWith sw t!"unix:" = true
    · rw [if_pos hp]
      exact .inr (.inl ⟨_, unix_path.2 ⟨hp, rfl⟩, rfl⟩)
    · rw [if_neg hp]
      exact .inr (.inr ⟨tcp_none ht, fun p h => hp (unix_path.1 h).1, rfl⟩)

/-! ## The parts that count -/

theorem tcp_not_unix {s p : Str} {t : TcpParts} (h : TcpCut s t) : ¬ UnixPath s p := by
  rintro ⟨_, r, rfl, _⟩
  obtain ⟨_, _, _, _, _, _, _, _, r', he⟩ := h
  revert he
  simp

theorem cut_lengths {s : Str} {t u : TcpParts} (ht : TcpCut s t) (hu : TcpCut s u) (h : t.lengths = u.lengths) : t = u := by
  obtain ⟨_, _, _, _, _, _, _, _, r, rfl⟩ := ht
  obtain ⟨_, _, _, _, _, _, _, _, r', he⟩ := hu
  obtain ⟨a, x, b, y, c, z, d, q⟩ := t
  obtain ⟨a', x', b', y', c', z', d', q'⟩ := u
  simp only [TcpParts.lengths, List.cons.injEq, and_true] at h
  obtain ⟨ha, hb, hc, hd, hq⟩ := h
  simp only [TcpParts.host, List.append_assoc, List.cons_append, List.append_cancel_left_eq] at he
  simp only [List.nil_append, List.cons.injEq, true_and] at he
  obtain ⟨e1, e⟩ := List.append_inj he ha
  obtain ⟨e2, e⟩ := List.cons.inj e
  obtain ⟨e3, e⟩ := List.append_inj e hb
  obtain ⟨e4, e⟩ := List.cons.inj e
  obtain ⟨e5, e⟩ := List.append_inj e hc
  obtain ⟨e6, e⟩ := List.cons.inj e
  obtain ⟨e7, e⟩ := List.append_inj e hd
  obtain ⟨e8, e⟩ := List.cons.inj e
  obtain ⟨e9, e⟩ := List.append_inj e hq
  rw [e1, e2, e3, e4, e5, e6, e7, e9]

theorem first_one {s : Str} {t u : TcpParts} (ht : TcpFirst s t) (hu : TcpFirst s u) : t = u :=
  cut_lengths ht.1 hu.1 (le_antisymm (not_lt.1 (hu.2 t ht.1)) (not_lt.1 (ht.2 u hu.1)))

theorem run_shorter {d d' r r' : Str} (hr : ∀ c k, r.head? = some c → ¬ Digit 10 c k) (hd' : Digits d') (he : d ++ r = d' ++ r') :
    d'.length ≤ d.length := by
  by_contra hlt
  rw [List.append_eq_append_iff] at he
  rcases he with ⟨v, rfl, rfl⟩ | ⟨v, rfl, _⟩
  · cases v with
    | nil => simp at hlt
    | cons c v =>
      obtain ⟨k, hk⟩ := hd'.2 c (by simp)
      exact hr c k rfl hk
  · simp at hlt

end Ofpstr
