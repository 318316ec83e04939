import Verif.Lemmas.Qp
import Verif.Lemmas.Tok

/-!
# Parts of quoted-printable text
-/

set_option linter.unusedSimpArgs false

namespace Ofpstr
open Spec

/-- Bytes with other newlines never agree. -/
theorem nlAs_prefix (crlf : Bool) (p : Bytes) (h : nlAs crlf p <+: p ∨ p <+: nlAs crlf p) : nlAs crlf p = p := by
  fun_induction nlAs crlf p with
  | case1 => rfl
  | case2 r ih =>
    cases crlf with
    | true =>
      simp only [if_true, List.cons_append, List.nil_append, List.cons_prefix_cons, true_and] at h ⊢
      rw [ih h]
    | false =>
      simp [List.cons_prefix_cons] at h
  | case3 r ih =>
    cases crlf with
    | true => simp [List.cons_prefix_cons] at h
    | false =>
      simp only [Bool.false_eq_true, if_false, List.cons_append, List.nil_append, List.cons_prefix_cons, true_and] at h ⊢
      rw [ih h]
  | case4 c r h1 h2 ih =>
    simp only [List.cons_prefix_cons, true_and] at h
    rw [ih h]

/-- A text that is cut before the character `c`. -/
def QpPart (v : Str) (c : Char) : Prop :=
  (c ≠ '\n' ∧ c ≠ '\r' ∧ ∀ d, d < 16 → c ≠ upDigit d) ∨ (∀ w d, v = w ++ [d] → d ≠ '=' ∧ d ≠ '\r')

theorem QpPart.tail {a : Char} {v : Str} {c : Char} (h : QpPart (a :: v) c) : QpPart v c := by
  rcases h with h | h
  · exact Or.inl h
  · exact Or.inr fun w d hw => h (a :: w) d (by rw [hw]; rfl)

theorem upDigit_ne (x : UInt8) : upDigit (x.toNat / 16) ≠ '\n' ∧ upDigit (x.toNat / 16) ≠ '\r' ∧
    upDigit (x.toNat % 16) ≠ '\n' ∧ upDigit (x.toNat % 16) ≠ '\r' := by
  have h1 : ∀ d : Fin 16, upDigit d.1 ≠ '\n' ∧ upDigit d.1 ≠ '\r' := by decide
  have := x.toNat_lt
  have a := h1 ⟨x.toNat / 16, by omega⟩
  have b := h1 ⟨x.toNat % 16, by omega⟩
  exact ⟨a.1, a.2, b.1, b.2⟩

/-- The part before the cut means a proper part of the bytes.  The cut must not be within `=XX`. -/
theorem QpText.cut {f : Bool} {q : Str} {n : Bytes} (h : QpText f q n) (v : Str) (c : Char) (y : Str)
    (hq : q = v ++ c :: y) (hc : QpPart v c) (hd : ∀ d, d < 16 → c ≠ upDigit d) :
    ∃ n2, n2 ≠ [] ∧ n = qpDec v ++ n2 := by
  induction h generalizing v with
  | nil => simp at hq
  | raw f e s b he hs ih =>
    cases v with
    | nil => exact ⟨UInt8.ofNat e.toNat :: b, by simp, by rw [qpDec_nil]; rfl⟩
    | cons a v =>
      simp only [List.cons_append, List.cons.injEq] at hq
      obtain ⟨rfl, rfl⟩ := hq
      obtain ⟨n2, h2, h3⟩ := ih v rfl hc.tail
      refine ⟨n2, h2, ?_⟩
      have hne : e ≠ '=' := by
        rcases he with rfl | rfl | rfl | h
        · decide
        · decide
        · decide
        · exact h.2.2
      rw [qpDec_raw hne, h3]; rfl
  | quoted f x s b hx hs ih =>
    have hx16 := x.toNat_lt
    match v, hq with
    | [], _ => exact ⟨x :: b, by simp, by rw [qpDec_nil]; rfl⟩
    | [a], hq =>
      simp only [List.cons_append, List.nil_append, List.cons.injEq] at hq
      exact absurd hq.2.1.symm (hd _ (by omega))
    | [a, a'], hq =>
      simp only [List.cons_append, List.nil_append, List.cons.injEq] at hq
      exact absurd hq.2.2.1.symm (hd _ (by omega))
    | a :: a' :: a'' :: v, hq =>
      simp only [List.cons_append, List.cons.injEq] at hq
      obtain ⟨rfl, rfl, rfl, rfl⟩ := hq
      obtain ⟨n2, h2, h3⟩ := ih v rfl hc.tail.tail.tail
      exact ⟨n2, h2, by rw [qpDec_quoted, h3]; rfl⟩
  | soft s b hs hb ih =>
    match v, hq with
    | [], _ => exact ⟨_, hb, by rw [qpDec_nil]; rfl⟩
    | [a], hq =>
      simp only [List.cons_append, List.nil_append, List.cons.injEq] at hq
      obtain ⟨rfl, rfl, -⟩ := hq
      rcases hc with h | h
      · exact absurd rfl h.1
      · exact absurd rfl (h [] _ rfl).1
    | a :: a' :: v, hq =>
      simp only [List.cons_append, List.cons.injEq] at hq
      obtain ⟨rfl, rfl, rfl⟩ := hq
      obtain ⟨n2, h2, h3⟩ := ih v rfl hc.tail.tail
      exact ⟨n2, h2, by rw [qpDec_soft, h3]⟩
  | softCr s b hs hb ih =>
    match v, hq with
    | [], _ => exact ⟨_, hb, by rw [qpDec_nil]; rfl⟩
    | [a], hq =>
      simp only [List.cons_append, List.nil_append, List.cons.injEq] at hq
      obtain ⟨rfl, rfl, -⟩ := hq
      rcases hc with h | h
      · exact absurd rfl h.2.1
      · exact absurd rfl (h [] _ rfl).1
    | [a, a'], hq =>
      simp only [List.cons_append, List.nil_append, List.cons.injEq] at hq
      obtain ⟨rfl, rfl, rfl, -⟩ := hq
      rcases hc with h | h
      · exact absurd rfl h.1
      · exact absurd rfl (h ['='] _ rfl).2
    | a :: a' :: a'' :: v, hq =>
      simp only [List.cons_append, List.cons.injEq] at hq
      obtain ⟨rfl, rfl, rfl, rfl⟩ := hq
      obtain ⟨n2, h2, h3⟩ := ih v rfl hc.tail.tail.tail
      exact ⟨n2, h2, by rw [qpDec_softCr, h3]⟩

/-- A token does not end in `=` or a separator. -/
theorem token_last {s : Str} (h : Token s) : ∀ w d, s = w ++ [d] → d ≠ '=' ∧ d ≠ '\r' := by
  induction h with
  | nil => intro w d h; simp at h
  | char c s h1 h2 h3 _ ih =>
    intro w d h
    cases w with
    | nil =>
      simp at h
      rw [← h.1]
      refine ⟨h2, fun hc => h1 ?_⟩
      rw [hc]; decide
    | cons a w =>
      simp at h
      exact ih w d h.2
  | group o e p s hp hi _ ih =>
    intro w d h
    cases s with
    | nil =>
      have h2 : (o :: p) ++ [e] = w ++ [d] := h
      have h3 := List.append_inj_right' h2 rfl
      simp only [List.cons.injEq, and_true] at h3
      subst h3
      cases hp <;> decide
    | cons a s =>
      have h' : o :: p ++ e :: a :: s = (o :: p ++ [e]) ++ (a :: s) := by simp
      rw [h'] at h
      have hw : ∃ w', w = (o :: p ++ [e]) ++ w' := by
        have hl := congrArg List.length h
        simp at hl
        refine ⟨w.drop (o :: p ++ [e]).length, ?_⟩
        have h2 := congrArg (List.take (o :: p ++ [e]).length) h
        rw [List.take_left] at h2
        rw [List.take_append_of_le_length (by simp; omega)] at h2
        conv_lhs => rw [← List.take_append_drop (o :: p ++ [e]).length w, ← h2]
      obtain ⟨w', rfl⟩ := hw
      rw [List.append_assoc (o :: p ++ [e]) w' [d]] at h
      exact ih w' d (List.append_cancel_left h)

/-- What is read of quoted-printable text, when more or less than the text is taken. -/
theorem qp_whole (p t : Bytes) (z v y : Str) (hz : ∀ c s, z = c :: s → c ≠ '=' ∧ t.head? ≠ some (UInt8.ofNat c.toNat))
    (hsplit : b2aQp p ++ z = v ++ y)
    (hcut : ∀ c s, y = c :: s → QpPart v c ∧ ∀ d, d < 16 → c ≠ upDigit d) (hdec : qpDec v = p ++ t) :
    v = b2aQp p := by
  have hq := b2aQp_text p
  rcases List.append_eq_append_iff.1 hsplit with ⟨a, ha, hb⟩ | ⟨a, ha, hb⟩
  · -- more than the text
    cases a with
    | nil => simpa using ha
    | cons c a =>
      exfalso
      obtain ⟨hc, hc0⟩ := hz c (a ++ y) (by rw [hb]; rfl)
      rw [ha, hq.dec, qpDec_raw hc] at hdec
      have hnp : nlAs (qpCrlf p) p = p := by
        apply nlAs_prefix
        rcases List.append_eq_append_iff.1 hdec with ⟨m, hm1, hm2⟩ | ⟨m, hm1, hm2⟩
        · exact Or.inl ⟨m, hm1.symm⟩
        · exact Or.inr ⟨m, hm1.symm⟩
      rw [hnp] at hdec
      apply hc0
      rw [← List.append_cancel_left hdec]
      rfl
  · -- less than the text
    cases a with
    | nil => simpa using ha.symm
    | cons c a =>
      exfalso
      obtain ⟨hc1, hc2⟩ := hcut c (a ++ z) (by rw [hb]; rfl)
      obtain ⟨n2, hn2, hn⟩ := hq.cut v c a ha hc1 hc2
      rw [hdec] at hn
      have := nlAs_prefix _ p (Or.inr ⟨t ++ n2, by rw [hn]; simp⟩)
      rw [this] at hn
      have := congrArg List.length hn
      simp only [List.length_append] at this
      exact hn2 (List.length_eq_zero_iff.1 (by omega))

theorem a2bQp_inv {v : Str} {d : Bytes} (h : a2bQp v = .ok d) : (∀ c ∈ v, c.toNat < 128) ∧ qpDec v = d := by
  unfold a2bQp at h
  split at h
  · rename_i ha
    exact ⟨by simpa using ha, Except.ok.inj h⟩
  · cases h

theorem headOf_eq {s h : Str} (hh : HeadOf ('=' :: s) h) :
    ∃ w r, h = '=' :: w ∧ s = w ++ r ∧ (∀ c ∈ w, Space c) ∧ ∀ c t, r = c :: t → ¬ Space c := by
  generalize hs : '=' :: s = u at hh
  cases hh with
  | eq w1 w2 r h1 h2 h3 =>
    cases w1 with
    | nil =>
      simp only [List.nil_append, List.cons_append, List.cons.injEq, true_and] at hs
      exact ⟨w2, r, rfl, hs, h2, h3⟩
    | cons c w1 =>
      simp only [List.cons_append, List.cons.injEq] at hs
      have := h1 c (by simp)
      rw [← hs.1] at this
      exact absurd this (by decide)
  | run h r h1 h2 h3 =>
    obtain ⟨c, hc, _⟩ := h1 [] s (by rw [← hs]; rfl)
    cases hc

theorem token_start {b : Str} (h : Token b ∨ OpenToken b) : ∀ c t, b = c :: t → c ≠ '=' ∧ ¬ SepChar c := by
  intro c t hb
  subst hb
  have hp : ∀ o e, Pair o e → o ≠ '=' ∧ ¬ SepChar o := by intro o e h; cases h <;> decide
  rcases h with h | h
  · cases h with
    | char _ _ h1 h2 h3 _ => exact ⟨h2, h1⟩
    | group o e p s h1 h2 h3 => exact hp _ _ h1
  · cases h with
    | start _ e _ h1 h2 => exact hp _ _ h1
    | char _ _ h1 h2 h3 _ => exact ⟨h2, h1⟩
    | group o e p s h1 h2 h3 => exact hp _ _ h1

theorem nlAs_head (crlf : Bool) (p : Bytes) (x : UInt8) (n : Bytes) (h : nlAs crlf p = x :: n) :
    ∃ y p', p = y :: p' ∧ (x = y ∨ (x.toNat ∈ [10, 13] ∧ y.toNat ∈ [10, 13])) := by
  cases p with
  | nil => cases h
  | cons y p' =>
    refine ⟨y, p', rfl, ?_⟩
    unfold nlAs at h
    split at h
    · cases h
    · rename_i r heq
      simp only [List.cons.injEq] at heq
      obtain ⟨rfl, -⟩ := heq
      right
      cases crlf <;> (simp at h; rw [← h.1]; decide)
    · rename_i r heq
      simp only [List.cons.injEq] at heq
      obtain ⟨rfl, -⟩ := heq
      right
      cases crlf <;> (simp at h; rw [← h.1]; decide)
    · rename_i c r _ _ heq
      simp only [List.cons.injEq] at heq h
      exact Or.inl (h.1.symm.trans heq.1.symm)

theorem nlAs_nil (crlf : Bool) (p : Bytes) : nlAs crlf p = [] ↔ p = [] := by
  refine ⟨fun h => ?_, fun h => by rw [h]; rfl⟩
  cases p with
  | nil => rfl
  | cons a p =>
    unfold nlAs at h
    split at h
    · assumption
    · cases crlf <;> simp at h
    · cases crlf <;> simp at h
    · cases h

/-- White space at the start of the text is taken for part of the separator, and lost. -/
theorem qp_head (p t : Bytes) (hp : p ≠ []) (z w v y : Str) (hsplit : b2aQp p ++ z = w ++ (v ++ y))
    (hw : ∀ c ∈ w, Space c) (hn : ∀ c s, v = c :: s → ¬ Space c ∧ c ≠ '=' ∧ c.toNat < 128) (hdec : qpDec v = p ++ t) :
    w = [] := by
  cases w with
  | nil => rfl
  | cons c w =>
    exfalso
    have hq := b2aQp_text p
    have hc := hw c (by simp)
    have key : ∀ {f q n}, QpText f q n → ∀ q', q = c :: q' → ∃ x n', n = x :: n' ∧ x.toNat ∈ [9, 10, 13, 32] := by
      intro f q n h q' he
      cases h with
      | nil => cases he
      | raw f d s b hd _ =>
        cases he
        refine ⟨_, _, rfl, ?_⟩
        rcases hd with rfl | rfl | rfl | ⟨h1, h2, h3⟩
        · decide
        · decide
        · decide
        · have hs : c.toNat = 32 := by
            unfold Space at hc
            simp only [List.mem_cons, List.not_mem_nil, or_false] at hc
            omega
          rw [hs]; decide
      | quoted f x s b _ _ => cases he; exact absurd hc (by decide)
      | soft s b _ _ => cases he; exact absurd hc (by decide)
      | softCr s b _ _ => cases he; exact absurd hc (by decide)
    cases hb : b2aQp p with
    | nil =>
      exact hp ((nlAs_nil _ _).1 (hq.empty.1 hb))
    | cons d q =>
      rw [hb] at hsplit
      simp only [List.cons_append, List.cons.injEq] at hsplit
      obtain ⟨rfl, -⟩ := hsplit
      obtain ⟨x, n', hx1, hx2⟩ := key hq q hb
      obtain ⟨y', p', rfl, hy⟩ := nlAs_head _ p x n' hx1
      have hy2 : y'.toNat ∈ [9, 10, 13, 32] := by
        rcases hy with rfl | ⟨_, hy⟩
        · exact hx2
        · simp only [List.mem_cons, List.not_mem_nil, or_false] at hy ⊢
          omega
      cases v with
      | nil => rw [qpDec_nil] at hdec; simp at hdec
      | cons e v =>
        obtain ⟨n1, n2, n3⟩ := hn e v rfl
        rw [qpDec_raw n2] at hdec
        simp only [List.cons_append, List.cons.injEq] at hdec
        have h2 := congrArg UInt8.toNat hdec.1
        rw [UInt8.toNat_ofNat', Nat.mod_eq_of_lt (by omega)] at h2
        apply n1
        unfold Space
        rw [h2]
        simp only [List.mem_cons, List.not_mem_nil, or_false] at hy2 ⊢
        omega

end Ofpstr
