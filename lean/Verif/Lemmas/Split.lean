import Verif.Lemmas.Token

/-!
# Lemmas about `split` and `parse_func`
-/

namespace Ofpstr
open Spec

theorem isDelimiter_false {c : Char} (h : ¬ SepChar c) : isDelimiter c = false := by
  rw [← Bool.not_eq_true, isDelimiter_iff]; exact h

theorem splitGo_plain (t : Str) (h : ∀ c ∈ t, ¬ SepChar c ∧ NotOpen c) (f : Nat) (tok rest : Str) :
    splitGo (t.length + f) tok (t ++ rest) = splitGo f (tok ++ t) rest := by
  induction t generalizing tok with
  | nil => simp
  | cons c t ih =>
    have hc := h c (by simp)
    have : (c :: t).length + f = (t.length + f) + 1 := by simp; omega
    rw [this, List.cons_append, splitGo, isDelimiter_false hc.1, (pars_none_iff c).2 hc.2]
    simp only [Bool.false_eq_true, if_false]
    rw [ih (fun x hx => h x (by simp [hx]))]
    simp

theorem splitGo_seps (w : Str) (h : ∀ c ∈ w, SepChar c) (f : Nat) (rest : Str) :
    splitGo (w.length + f) [] (w ++ rest) = splitGo f [] rest := by
  induction w with
  | nil => simp
  | cons c w ih =>
    have hc := h c (by simp)
    have : (c :: w).length + f = (w.length + f) + 1 := by simp; omega
    rw [this, List.cons_append, splitGo, (isDelimiter_iff c).2 hc]
    simp [ih (fun x hx => h x (by simp [hx]))]

theorem splitGo_fuel (f1 f2 : Nat) (tok cs : Str) (h1 : cs.length < f1) (h2 : cs.length < f2) :
    splitGo f1 tok cs = splitGo f2 tok cs := by
  induction f1 generalizing tok cs f2 with
  | zero => omega
  | succ f1 ih =>
    cases f2 with
    | zero => omega
    | succ f2 =>
      cases cs with
      | nil => simp [splitGo]
      | cons c cs =>
        simp only [List.length_cons] at h1 h2
        simp only [splitGo]
        split
        · rw [ih f2 [] cs (by omega) (by omega)]
        · split
          · rename_i e _
            have := scanParen_rest_le (cs.length + 1) e cs
            rw [ih f2 _ _ (Nat.lt_of_le_of_lt this (by omega)) (Nat.lt_of_le_of_lt this (by omega))]
          · rw [ih f2 _ cs (by omega) (by omega)]

theorem splitGo_ne_nil (f : Nat) (tok cs : Str) : ∀ t ∈ splitGo f tok cs, t ≠ [] := by
  induction f generalizing tok cs with
  | zero =>
    intro t ht
    simp only [splitGo] at ht
    split at ht <;> simp_all
  | succ f ih =>
    cases cs with
    | nil =>
      intro t ht
      simp only [splitGo] at ht
      split at ht <;> simp_all
    | cons c cs =>
      intro t ht
      simp only [splitGo] at ht
      split at ht
      · split at ht
        · exact ih _ _ t ht
        · simp at ht
          rcases ht with rfl | ht
          · simp_all
          · exact ih _ _ t ht
      · split at ht <;> exact ih _ _ t ht

/-! ## parse_func -/

theorem parseFuncGo_name (total : Nat) (n : Str) (hn : ∀ c ∈ n, NotOpen c) (acc rest : Str) :
    parseFuncGo total acc (n ++ rest) = parseFuncGo total (acc ++ n) rest := by
  induction n generalizing acc with
  | nil => simp
  | cons c n ih =>
    rw [List.cons_append, parseFuncGo, (pars_none_iff c).2 (hn c (by simp))]
    simp only
    rw [ih (fun x hx => hn x (by simp [hx]))]
    simp

theorem parseFunc_bare (n : Str) (hn : ∀ c ∈ n, NotOpen c) : parseFunc n = .ok (n, none) := by
  unfold parseFunc
  have := parseFuncGo_name n.length n hn [] []
  simp only [List.append_nil] at this
  rw [this]
  simp [parseFuncGo]

theorem parseFunc_call (n p rest : Str) (o e : Char) (hn : ∀ c ∈ n, NotOpen c) (hp : Pair o e)
    (hi : Inside e p) :
    parseFunc (n ++ o :: p ++ e :: rest) =
      if rest = [] then .ok (n, some p) else .error .assertionError := by
  unfold parseFunc
  simp only [List.append_assoc, List.cons_append]
  rw [parseFuncGo_name _ n hn]
  have hsc := scanParen_inside hi rest ((p ++ e :: rest).length + 1) (by omega)
  simp only [List.nil_append, parseFuncGo, (pars_some_iff o e).2 hp, hsc]
  cases rest with
  | nil => simp; omega
  | cons c t => simp; omega

end Ofpstr
