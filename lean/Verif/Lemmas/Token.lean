import Verif.Model.Util
import Verif.Spec.Text

/-!
# Lemmas about the tokeniser
-/

namespace Ofpstr
open Spec

theorem isDelimiter_iff (c : Char) : isDelimiter c = true ↔ SepChar c := by
  simp [isDelimiter, isAsciiWs, SepChar, or_assoc]

theorem pars_some_iff (c e : Char) : pars c = some e ↔ Pair c e := by
  constructor
  · unfold pars
    intro h
    split at h
    · simp_all; subst h; exact Pair.round
    split at h
    · simp_all; subst h; exact Pair.curly
    split at h
    · simp_all; subst h; exact Pair.square
    split at h
    · simp_all; subst h; exact Pair.angle
    simp at h
  · intro h; cases h <;> decide

theorem pars_none_iff (c : Char) : pars c = none ↔ NotOpen c := by
  unfold pars NotOpen
  by_cases h1 : c = '('
  · simp [h1]
  by_cases h2 : c = '{'
  · simp [h2]
  by_cases h3 : c = '['
  · simp [h3]
  by_cases h4 : c = '<'
  · simp [h4]
  simp [h1, h2, h3, h4]

theorem isReSpace_iff (c : Char) : isReSpace c = true ↔ Space c := by
  unfold isReSpace Space
  simp
  omega

theorem sepChar_space_or_comma {c : Char} (h : SepChar c) : c = ',' ∨ Space c := by
  unfold SepChar at h
  rcases h with h | h | h | h | h | h | h <;> subst h <;> first | exact Or.inl rfl | (right; decide)

/-! ## scanParen -/

theorem scanParen_append (fuel : Nat) (e : Char) (cs : Str) :
    (scanParen fuel e cs).1 ++ (scanParen fuel e cs).2.1 ++ (scanParen fuel e cs).2.2 = cs := by
  induction fuel generalizing e cs with
  | zero => simp [scanParen]
  | succ fuel ih =>
    cases cs with
    | nil => simp [scanParen]
    | cons c cs =>
      simp only [scanParen]
      split
      · simp
      · split
        · rename_i e' _
          have h1 := ih e' cs
          have h2 := ih e (scanParen fuel e' cs).2.2
          simp only [List.append_assoc, List.cons_append] at *
          rw [h2, h1]
        · have h2 := ih e cs
          simp only [List.append_assoc, List.cons_append] at *
          rw [h2]

theorem scanParen_rest_le (fuel : Nat) (e : Char) (cs : Str) :
    (scanParen fuel e cs).2.2.length ≤ cs.length := by
  have h := congrArg List.length (scanParen_append fuel e cs)
  simp at h
  omega

theorem scanParen_fuel (f1 f2 : Nat) (e : Char) (cs : Str) (h1 : cs.length < f1)
    (h2 : cs.length < f2) : scanParen f1 e cs = scanParen f2 e cs := by
  induction f1 generalizing e cs f2 with
  | zero => omega
  | succ f1 ih =>
    cases f2 with
    | zero => omega
    | succ f2 =>
      cases cs with
      | nil => simp [scanParen]
      | cons c cs =>
        simp only [List.length_cons] at h1 h2
        simp only [scanParen]
        split
        · rfl
        · split
          · rename_i e' _
            have := scanParen_rest_le f2 e' cs
            rw [ih f2 e' cs (by omega) (by omega),
              ih f2 e _ (Nat.lt_of_le_of_lt this (by omega)) (Nat.lt_of_le_of_lt this (by omega))]
          · rw [ih f2 e cs (by omega) (by omega)]

/-- What `scanParen` does with a closed bracket. -/
theorem scanParen_inside {e : Char} {p : Str} (h : Inside e p) (rest : Str) (fuel : Nat)
    (hf : (p ++ e :: rest).length < fuel) : scanParen fuel e (p ++ e :: rest) = (p, [e], rest) := by
  induction h generalizing rest fuel with
  | nil e =>
    cases fuel with
    | zero => simp at hf
    | succ fuel => simp [scanParen]
  | char e c s hc ho _ ih =>
    cases fuel with
    | zero => simp at hf
    | succ fuel =>
      have := ih rest fuel (by simp at hf ⊢; omega)
      simp [scanParen, hc, (pars_none_iff c).2 ho, this]
  | nest e o e' p s hc hp _ _ ih1 ih2 =>
    cases fuel with
    | zero => simp at hf
    | succ fuel =>
      have h1 := ih1 (s ++ e :: rest) fuel (by simp at hf ⊢; omega)
      have h2 := ih2 rest fuel (by simp at hf ⊢; omega)
      simp [scanParen, hc, (pars_some_iff o e').2 hp, h1, h2]

/-- What `scanParen` does with a bracket that is never closed. -/
theorem scanParen_unclosed {e : Char} {p : Str} (h : Unclosed e p) (fuel : Nat)
    (hf : p.length < fuel) : scanParen fuel e p = (p, [], []) := by
  induction h generalizing fuel with
  | nil e =>
    cases fuel with
    | zero => simp at hf
    | succ fuel => simp [scanParen]
  | char e c s hc ho _ ih =>
    cases fuel with
    | zero => simp at hf
    | succ fuel =>
      have := ih fuel (by simp at hf ⊢; omega)
      simp [scanParen, hc, (pars_none_iff c).2 ho, this]
  | nest e o e' p s hc hp hi _ ih =>
    cases fuel with
    | zero => simp at hf
    | succ fuel =>
      have h1 := scanParen_inside hi s fuel (by simp at hf ⊢; omega)
      have h2 := ih fuel (by simp at hf ⊢; omega)
      simp [scanParen, hc, (pars_some_iff o e').2 hp, h1, h2]
  | deep e o e' s hc hp _ ih =>
    cases fuel with
    | zero => simp at hf
    | succ fuel =>
      have h1 := ih fuel (by simp at hf ⊢; omega)
      cases fuel with
      | zero => simp at hf
      | succ fuel => simp [scanParen, hc, (pars_some_iff o e').2 hp, h1]

/-- Every outcome of `scanParen`: a closed bracket, or the whole input with the bracket open. -/
theorem scanParen_cases (fuel : Nat) (e : Char) (cs : Str) (hf : cs.length < fuel) :
    (∃ p rest, Inside e p ∧ cs = p ++ e :: rest ∧ scanParen fuel e cs = (p, [e], rest)) ∨
    (Unclosed e cs ∧ scanParen fuel e cs = (cs, [], [])) := by
  induction fuel generalizing e cs with
  | zero => omega
  | succ fuel ih =>
    cases cs with
    | nil => right; exact ⟨Unclosed.nil e, by simp [scanParen]⟩
    | cons c cs =>
      simp only [List.length_cons] at hf
      by_cases hc : c = e
      · subst hc; left; exact ⟨[], cs, Inside.nil _, by simp, by simp [scanParen]⟩
      · cases hp : pars c with
        | none =>
          rcases ih e cs (by omega) with ⟨p, rest, hi, he, hs⟩ | ⟨hu, hs⟩
          · left
            exact ⟨c :: p, rest, Inside.char e c p hc ((pars_none_iff c).1 hp) hi, by simp [he],
              by simp [scanParen, hc, hp, hs]⟩
          · right
            exact ⟨Unclosed.char e c cs hc ((pars_none_iff c).1 hp) hu,
              by simp [scanParen, hc, hp, hs]⟩
        | some e' =>
          have hpair := (pars_some_iff c e').1 hp
          rcases ih e' cs (by omega) with ⟨p, rest, hi, he, hs⟩ | ⟨hu, hs⟩
          · have hr : rest.length < fuel := by
              have := congrArg List.length he; simp at this; omega
            rcases ih e rest hr with ⟨p2, rest2, hi2, he2, hs2⟩ | ⟨hu2, hs2⟩
            · left
              exact ⟨c :: p ++ e' :: p2, rest2, Inside.nest e c e' p p2 hc hpair hi hi2,
                by simp [he, he2], by simp [scanParen, hc, hp, hs, hs2]⟩
            · right
              refine ⟨?_, by simp [scanParen, hc, hp, hs, hs2]; simp [he]⟩
              rw [he]
              exact Unclosed.nest e c e' p rest hc hpair hi hu2
          · right
            refine ⟨Unclosed.deep e c e' cs hc hpair hu, ?_⟩
            cases fuel with
            | zero => omega
            | succ fuel => simp [scanParen, hc, hp, hs]

/-! ## tokenBody -/

theorem tokenBody_prefix (fuel : Nat) (cs : Str) : tokenBody fuel cs <+: cs := by
  induction fuel generalizing cs with
  | zero => simp [tokenBody]
  | succ fuel ih =>
    cases cs with
    | nil => simp [tokenBody]
    | cons c cs =>
      simp only [tokenBody]
      split
      · simp
      · split
        · rename_i e _
          have h := scanParen_append (cs.length + 1) e cs
          have ⟨t, ht⟩ := ih (scanParen (cs.length + 1) e cs).2.2
          refine ⟨t, ?_⟩
          simp only [List.append_assoc, List.cons_append, ht] at *
          rw [h]
        · simp [ih cs]

theorem tokenBody_fuel (f1 f2 : Nat) (cs : Str) (h1 : cs.length < f1) (h2 : cs.length < f2) :
    tokenBody f1 cs = tokenBody f2 cs := by
  induction f1 generalizing cs f2 with
  | zero => omega
  | succ f1 ih =>
    cases f2 with
    | zero => omega
    | succ f2 =>
      cases cs with
      | nil => simp [tokenBody]
      | cons c cs =>
        simp only [List.length_cons] at h1 h2
        simp only [tokenBody]
        split
        · rfl
        · split
          · rename_i e _
            have := scanParen_rest_le (cs.length + 1) e cs
            rw [ih f2 _ (Nat.lt_of_le_of_lt this (by omega)) (Nat.lt_of_le_of_lt this (by omega))]
          · rw [ih f2 cs (by omega) (by omega)]

/-- The rest after a token is empty or starts with a separator or `=`. -/
def AtEnd (r : Str) : Prop := ∀ c t, r = c :: t → SepChar c ∨ c = '='

theorem atEnd_nil : AtEnd [] := by intro c t h; cases h
theorem atEnd_comma (t : Str) : AtEnd (',' :: t) := by
  intro c u h; cases h; left; left; rfl
theorem atEnd_eq (t : Str) : AtEnd ('=' :: t) := by
  intro c u h; cases h; right; rfl
theorem atEnd_sep {c : Char} (h : SepChar c) (t : Str) : AtEnd (c :: t) := by
  intro c u h; cases h; left; assumption

/-- A token followed by a separator is read whole. -/
theorem tokenBody_token {b : Str} (h : Token b) (r : Str) (hr : AtEnd r) (fuel : Nat)
    (hf : (b ++ r).length < fuel) : tokenBody fuel (b ++ r) = b := by
  induction h generalizing fuel with
  | nil =>
    cases fuel with
    | zero => simp at hf
    | succ fuel =>
      cases r with
      | nil => simp [tokenBody]
      | cons c t =>
        rcases hr c t rfl with h | h
        · simp [tokenBody, (isDelimiter_iff c).2 h]
        · simp [tokenBody, h]
  | char c s hs he ho _ ih =>
    cases fuel with
    | zero => simp at hf
    | succ fuel =>
      have hd : isDelimiter c = false := by
        rw [← Bool.not_eq_true, isDelimiter_iff]; exact hs
      have := ih fuel (by simp at hf ⊢; omega)
      simp [tokenBody, hd, he, (pars_none_iff c).2 ho, this]
  | group o e p s hp hi _ ih =>
    cases fuel with
    | zero => simp at hf
    | succ fuel =>
      have hd : isDelimiter o = false := by cases hp <;> decide
      have he : o ≠ '=' := by cases hp <;> decide
      have := ih fuel (by simp at hf ⊢; omega)
      have hsc := scanParen_inside hi (s ++ r) (((p ++ e :: (s ++ r)).length) + 1) (by omega)
      simp only [List.cons_append, List.append_assoc] at hsc ⊢
      simp [tokenBody, hd, he, (pars_some_iff o e).2 hp] at hsc ⊢
      rw [hsc]
      simp [this]

/-- Every body is a token followed by a boundary, or an open token reaching the end. -/
theorem tokenBody_cases (fuel : Nat) (cs : Str) (hf : cs.length < fuel) :
    (∃ r, Token (tokenBody fuel cs) ∧ cs = tokenBody fuel cs ++ r ∧ AtEnd r) ∨
    (OpenToken cs ∧ tokenBody fuel cs = cs) := by
  induction fuel generalizing cs with
  | zero => omega
  | succ fuel ih =>
    cases cs with
    | nil => left; exact ⟨[], by simp [tokenBody]; exact Token.nil, by simp [tokenBody], atEnd_nil⟩
    | cons c cs =>
      simp only [List.length_cons] at hf
      by_cases hd : isDelimiter c = true
      · left
        refine ⟨c :: cs, ?_, ?_, atEnd_sep ((isDelimiter_iff c).1 hd) cs⟩ <;>
          simp [tokenBody, hd]
        exact Token.nil
      by_cases he : c = '='
      · left; subst he
        refine ⟨'=' :: cs, ?_, ?_, atEnd_eq cs⟩ <;> simp [tokenBody]
        exact Token.nil
      have hns : ¬ SepChar c := fun h => hd ((isDelimiter_iff c).2 h)
      cases hp : pars c with
      | none =>
        have ho := (pars_none_iff c).1 hp
        have hb : tokenBody (fuel + 1) (c :: cs) = c :: tokenBody fuel cs := by
          simp [tokenBody, hd, he, hp]
        rw [hb]
        rcases ih cs (by omega) with ⟨r, ht, hr, hend⟩ | ⟨ho', hb'⟩
        · left; exact ⟨r, Token.char c _ hns he ho ht, by simp [← hr], hend⟩
        · right; exact ⟨OpenToken.char c cs hns he ho ho', by rw [hb']⟩
      | some e =>
        have hpair := (pars_some_iff c e).1 hp
        rcases scanParen_cases (cs.length + 1) e cs (by omega) with
          ⟨p, rest, hi, hcs, hsc⟩ | ⟨hu, hsc⟩
        · have hb : tokenBody (fuel + 1) (c :: cs) = c :: p ++ e :: tokenBody fuel rest := by
            simp [tokenBody, hd, he, hp, hsc]
          rw [hb]
          have hl : rest.length < fuel := by
            have := congrArg List.length hcs; simp at this; omega
          rcases ih rest hl with ⟨r, ht, hr, hend⟩ | ⟨ho', hb'⟩
          · left
            refine ⟨r, Token.group c e p _ hpair hi ht, ?_, hend⟩
            rw [hcs]; simp [← hr]
          · right
            rw [hb', hcs]
            exact ⟨OpenToken.group c e p rest hpair hi ho', by simp⟩
        · right
          refine ⟨OpenToken.start c e cs hpair hu, ?_⟩
          cases fuel with
          | zero => omega
          | succ fuel => simp [tokenBody, hd, he, hp, hsc]

/-! ## tokenHead -/

theorem tokenHead_prefix (s : Str) : tokenHead s <+: s := by
  unfold tokenHead
  split
  · rename_i r h
    refine ⟨r.dropWhile isReSpace, ?_⟩
    have h2 := List.takeWhile_append_dropWhile (p := isReSpace) (l := s)
    rw [h] at h2
    simp [List.takeWhile_append_dropWhile, h2]
  · exact List.takeWhile_prefix _

theorem getToken_fst (s : Str) : (getToken s).1 = tokenHead s := rfl

theorem getToken_append (s : Str) :
    (getToken s).1 ++ (getToken s).2.1 ++ (getToken s).2.2 = s := by
  obtain ⟨t, ht⟩ := tokenHead_prefix s
  have h1 : s.drop (tokenHead s).length = t := by
    generalize tokenHead s = h at ht
    subst ht
    simp
  obtain ⟨u, hu⟩ := tokenBody_prefix (t.length + 1) t
  simp only [getToken, h1]
  have h2 : s.drop ((tokenHead s).length + (tokenBody (t.length + 1) t).length) = u := by
    rw [← List.drop_drop, h1]
    generalize tokenBody (t.length + 1) t = b at hu
    subst hu
    simp
  rw [h2, List.append_assoc, hu, ht]

/-- Characters that are neither white space nor comma nor `=`: nothing to skip. -/
def Plain (c : Char) : Prop := ¬ Space c ∧ c ≠ ',' ∧ c ≠ '='

instance : DecidablePred Plain := fun c => by unfold Plain; infer_instance

theorem Plain.space {c : Char} (h : Plain c) : isReSpace c = false := by
  rw [← Bool.not_eq_true, isReSpace_iff]; exact h.1

/-- `s` is empty or starts with a plain character. -/
def PlainStart (s : Str) : Prop := ∀ c t, s = c :: t → Plain c

theorem plainStart_nil : PlainStart [] := by intro c t h; cases h
theorem plainStart_cons {c : Char} (h : Plain c) (t : Str) : PlainStart (c :: t) := by
  intro c u h; cases h; assumption

theorem tokenHead_plain {s : Str} (h : PlainStart s) : tokenHead s = [] := by
  cases s with
  | nil => rfl
  | cons c t =>
    have hp := h c t rfl
    unfold tokenHead
    have h2 : (c == ',') = false := by simp [hp.2.1]
    simp [List.dropWhile, List.takeWhile, hp.space, h2]
    split
    · rename_i h; cases h; exact absurd rfl hp.2.2
    · rfl

theorem tokenHead_comma {s : Str} (h : ∀ c t, s = c :: t → ¬ Space c ∧ c ≠ ',') :
    tokenHead (',' :: s) = [','] := by
  have hc : isReSpace ',' = false := by decide
  unfold tokenHead
  cases s with
  | nil => simp [List.dropWhile, List.takeWhile, hc]
  | cons c t =>
    have hp := h c t rfl
    have : isReSpace c = false := by rw [← Bool.not_eq_true, isReSpace_iff]; exact hp.1
    have h2 : (c == ',') = false := by simp [hp.2]
    simp [List.dropWhile, List.takeWhile, hc, this, h2]

theorem tokenHead_eq {s : Str} (h : ∀ c t, s = c :: t → ¬ Space c) :
    tokenHead ('=' :: s) = ['='] := by
  have hc : isReSpace '=' = false := by decide
  unfold tokenHead
  cases s with
  | nil => simp [List.dropWhile, List.takeWhile, hc]
  | cons c t =>
    have hp := h c t rfl
    have : isReSpace c = false := by rw [← Bool.not_eq_true, isReSpace_iff]; exact hp
    simp [List.dropWhile, List.takeWhile, hc, this]

/-- Reading a token when the head is known. -/
theorem getToken_of_head {s h b r : Str} (hs : s = h ++ (b ++ r)) (hh : tokenHead s = h)
    (hb : Token b) (hr : AtEnd r) : getToken s = (h, b, r) := by
  have h1 : s.drop h.length = b ++ r := by rw [hs]; simp
  have h2 := tokenBody_token hb r hr ((b ++ r).length + 1) (by omega)
  simp only [getToken, hh, h1, h2]
  rw [← List.drop_drop, h1]
  simp

theorem getToken_plain {b r : Str} (hb : Token b) (hr : AtEnd r) (hp : PlainStart b)
    (hn : b ≠ []) : getToken (b ++ r) = ([], b, r) := by
  apply getToken_of_head (by simp) _ hb hr
  apply tokenHead_plain
  cases b with
  | nil => exact absurd rfl hn
  | cons c t => exact plainStart_cons (hp c t rfl) _

theorem getToken_comma {b r : Str} (hb : Token b) (hr : AtEnd r) (hp : PlainStart b)
    (hn : b ≠ []) : getToken (',' :: (b ++ r)) = ([','], b, r) := by
  apply getToken_of_head (by simp) _ hb hr
  apply tokenHead_comma
  cases b with
  | nil => exact absurd rfl hn
  | cons c t =>
    intro c' t' h
    have := hp c t rfl
    cases h
    exact ⟨this.1, this.2.1⟩

theorem getToken_eq {b r : Str} (hb : Token b) (hr : AtEnd r) (hp : PlainStart b)
    (hn : b ≠ []) : getToken ('=' :: (b ++ r)) = (['='], b, r) := by
  apply getToken_of_head (by simp) _ hb hr
  apply tokenHead_eq
  cases b with
  | nil => exact absurd rfl hn
  | cons c t =>
    intro c' t' h
    have := hp c t rfl
    cases h
    exact this.1

theorem getToken_nil : getToken [] = ([], [], []) := by decide

end Ofpstr

namespace Ofpstr
open Spec

theorem takeWhile_append_stop {p : Char → Bool} {a b : Str} (ha : ∀ c ∈ a, p c = true)
    (hb : ∀ c t, b = c :: t → p c = false) : (a ++ b).takeWhile p = a := by
  rw [List.takeWhile_append_of_pos ha]
  cases b with
  | nil => simp
  | cons c t => simp [List.takeWhile, hb c t rfl]

theorem dropWhile_append_stop {α : Type} {p : α → Bool} {a b : List α} (ha : ∀ c ∈ a, p c = true)
    (hb : ∀ c t, b = c :: t → p c = false) : (a ++ b).dropWhile p = b := by
  rw [List.dropWhile_append_of_pos ha]
  cases b with
  | nil => simp
  | cons c t => simp [List.dropWhile, hb c t rfl]

theorem isReSpace_false {c : Char} (h : ¬ Space c) : isReSpace c = false := by
  rw [← Bool.not_eq_true, isReSpace_iff]; exact h

theorem tokenHead_headOf (s : Str) : HeadOf s (tokenHead s) := by
  unfold tokenHead
  have hsplit := List.takeWhile_append_dropWhile (p := isReSpace) (l := s)
  have hall : ∀ c ∈ s.takeWhile isReSpace, Space c := by
    intro c hc
    exact (isReSpace_iff c).1 (List.all_eq_true.1 (List.all_takeWhile (l := s) (p := isReSpace)) c hc)
  split
  · rename_i r h
    rw [h] at hsplit
    have h2 := List.takeWhile_append_dropWhile (p := isReSpace) (l := r)
    have := HeadOf.eq (s.takeWhile isReSpace) (r.takeWhile isReSpace) (r.dropWhile isReSpace) hall
      (by
        intro c hc
        exact (isReSpace_iff c).1
          (List.all_eq_true.1 (List.all_takeWhile (l := r) (p := isReSpace)) c hc))
      (by
        intro c t hc
        have := List.head?_dropWhile_not isReSpace r
        rw [hc] at this
        rw [← isReSpace_iff]; simpa using this)
    simp only [List.append_assoc, List.cons_append, h2] at this
    rw [hsplit] at this
    exact this
  · rename_i hne
    generalize hp : (fun c => isReSpace c || c == ',') = p
    have h2 := List.takeWhile_append_dropWhile (p := p) (l := s)
    have := HeadOf.run (s.takeWhile p) (s.dropWhile p)
      (by
        rw [h2]
        intro w t ht
        apply Classical.byContradiction
        intro hno
        have hw : ∀ c ∈ w, isReSpace c = true := by
          intro c hc
          rw [isReSpace_iff]
          apply Classical.byContradiction
          intro hs
          exact hno ⟨c, hc, hs⟩
        have : s.dropWhile isReSpace = '=' :: t := by
          rw [ht]
          exact dropWhile_append_stop hw (by intro c u h; cases h; decide)
        exact hne t this)
      (by
        intro c hc
        have := List.all_eq_true.1 (List.all_takeWhile (l := s) (p := p)) c hc
        rw [← hp] at this
        simp at this
        rcases this with h | h
        · exact Or.inl ((isReSpace_iff c).1 h)
        · exact Or.inr h)
      (by
        intro c t hc
        have := List.head?_dropWhile_not p s
        rw [hc, ← hp] at this
        simp at this
        refine ⟨?_, this.2⟩
        rw [← isReSpace_iff]; simp [this.1])
    rw [h2] at this
    exact this

theorem tokenHead_of_head {h x : Str} (hh : Head h) (hx : PlainStart x) :
    tokenHead (h ++ x) = h := by
  rcases hh with hh | ⟨w1, w2, rfl, h1, h2⟩
  · unfold tokenHead
    have key : (h ++ x).takeWhile (fun c => isReSpace c || c == ',') = h := by
      apply takeWhile_append_stop
      · intro c hc
        rcases hh c hc with h | h
        · simp [(isReSpace_iff c).2 h]
        · simp [h]
      · intro c t hc
        have := hx c t hc
        simp [this.space, this.2.1]
    split
    · rename_i r hr
      exfalso
      have hm : '=' ∈ h ++ x := by
        have h2 := List.takeWhile_append_dropWhile (p := isReSpace) (l := h ++ x)
        rw [← h2, hr]; simp
      -- the first character that is not white space is in h (then a comma) or starts x
      have : ∀ h : Str, (∀ c ∈ h, Space c ∨ c = ',') → (h ++ x).dropWhile isReSpace ≠ '=' :: r := by
        intro h
        induction h with
        | nil =>
          intro _ hd
          cases x with
          | nil => simp at hd
          | cons c t =>
            have hp := hx c t rfl
            simp [List.dropWhile, hp.space] at hd
            exact hp.2.2 hd.1
        | cons c h ih =>
          intro hc hd
          simp only [List.cons_append, List.dropWhile] at hd
          split at hd
          · exact ih (fun y hy => hc y (by simp [hy])) hd
          · rename_i hns
            rcases hc c (by simp) with hs | hs
            · rw [(isReSpace_iff c).2 hs] at hns; cases hns
            · simp at hd; rw [hs] at hd; exact absurd hd.1 (by decide)
      exact this h hh hr
    · exact key
  · unfold tokenHead
    have e1 : (w1 ++ '=' :: w2 ++ x).dropWhile isReSpace = '=' :: (w2 ++ x) := by
      have := dropWhile_append_stop (p := isReSpace) (a := w1) (b := '=' :: (w2 ++ x))
        (fun c hc => (isReSpace_iff c).2 (h1 c hc)) (by intro c t h; cases h; decide)
      simpa using this
    have e2 : (w1 ++ '=' :: w2 ++ x).takeWhile isReSpace = w1 := by
      have := takeWhile_append_stop (p := isReSpace) (a := w1) (b := '=' :: (w2 ++ x))
        (fun c hc => (isReSpace_iff c).2 (h1 c hc)) (by intro c t h; cases h; decide)
      simpa using this
    have e3 : (w2 ++ x).takeWhile isReSpace = w2 :=
      takeWhile_append_stop (fun c hc => (isReSpace_iff c).2 (h2 c hc))
        (fun c t h => (hx c t h).space)
    rw [e1, e2]
    simp [e3]

/-- Reading a token after any separator text. -/
theorem getToken_head {h b r : Str} (hh : Head h) (hb : Token b) (hr : AtEnd r) (hp : PlainStart b)
    (hn : b ≠ []) : getToken (h ++ (b ++ r)) = (h, b, r) := by
  apply getToken_of_head rfl _ hb hr
  apply tokenHead_of_head hh
  cases b with
  | nil => exact absurd rfl hn
  | cons c t => exact plainStart_cons (hp c t rfl) _

theorem getToken_cases (s : Str) :
    (Token (getToken s).2.1 ∧ AtEnd (getToken s).2.2) ∨
    (OpenToken (getToken s).2.1 ∧ (getToken s).2.2 = []) := by
  have happ := getToken_append s
  have hb : (getToken s).2.1 = tokenBody ((s.drop (tokenHead s).length).length + 1)
    (s.drop (tokenHead s).length) := rfl
  have hd : s.drop (tokenHead s).length = (getToken s).2.1 ++ (getToken s).2.2 := by
    conv => lhs; arg 2; rw [← happ]
    rw [getToken_fst, List.append_assoc]
    simp
  generalize s.drop (tokenHead s).length = t at hb hd
  rcases tokenBody_cases (t.length + 1) t (by omega) with ⟨r, h1, h2, h3⟩ | ⟨h1, h2⟩
  · left
    rw [← hb] at h1 h2
    rw [hd] at h2
    have := List.append_cancel_left h2
    rw [this]
    exact ⟨h1, h3⟩
  · right
    rw [← hb] at h2
    rw [h2]
    refine ⟨h1, ?_⟩
    rw [h2] at hd
    simpa using hd

theorem getToken_progress (s : Str) (h : s ≠ []) : (getToken s).2.2.length < s.length := by
  have happ := getToken_append s
  have hl := congrArg List.length happ
  simp at hl
  by_cases h0 : (getToken s).1 = [] ∧ (getToken s).2.1 = []
  · exfalso
    obtain ⟨ha, hb⟩ := h0
    have hr : (getToken s).2.2 = s := by simpa [ha, hb] using happ
    have hend : AtEnd s := by
      rcases getToken_cases s with h' | h'
      · rw [hr] at h'; exact h'.2
      · rw [hr] at h'; exact absurd h'.2 h
    have hho := tokenHead_headOf s
    rw [getToken_fst] at ha
    rw [ha] at hho
    generalize hE : ([] : Str) = E at hho
    cases hho with
    | eq w1 w2 r h1 h2 h3 => simp at hE
    | run hh r h1 h2 h3 =>
      subst hE
      simp at h hend h1
      cases r with
      | nil => exact h rfl
      | cons c t =>
        rcases hend c t rfl with hs | hs
        · have := h3 c t rfl
          rcases sepChar_space_or_comma hs with h | h
          · exact this.2 h
          · exact this.1 h
        · subst hs
          obtain ⟨x, hx, _⟩ := h1 [] t rfl
          simp at hx
  · have : 0 < (getToken s).1.length ∨ 0 < (getToken s).2.1.length := by
      rcases Classical.not_and_iff_not_or_not.1 h0 with h | h
      · exact Or.inl (List.length_pos_iff.2 h)
      · exact Or.inr (List.length_pos_iff.2 h)
    omega

theorem getToken_rest_le (s : Str) : (getToken s).2.2.length ≤ s.length := by
  have hl := congrArg List.length (getToken_append s)
  simp at hl
  omega

end Ofpstr
