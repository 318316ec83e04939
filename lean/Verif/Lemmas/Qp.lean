import Verif.Lemmas.Kinds2

/-!
# Quoted-printable: helper lemmas
-/

set_option linter.unusedSimpArgs false

namespace Ofpstr
open Spec

/-- Decoding a text; the fuel of the model is out of the way. -/
def qpDec (s : Str) : Bytes := a2bQpGo (s.length + 1) s

theorem a2bQpGo_fuel : ∀ (n m : Nat) (s : Str), s.length < n → s.length < m → a2bQpGo n s = a2bQpGo m s := by
  intro n
  induction n with
  | zero => intro m s h; omega
  | succ n ih =>
    intro m s hn hm
    cases m with
    | zero => omega
    | succ m =>
      cases s with
      | nil => rfl
      | cons c cs =>
        simp only [List.length_cons] at hn hm
        have ih' := fun s (h : s.length ≤ cs.length) => ih m s (by omega) (by omega)
        have hdw : ∀ ds : Str, ((ds.dropWhile (· != '\n')).drop 1).length ≤ ds.length := by
          intro ds
          have := (List.dropWhile_suffix (· != '\n') (l := ds)).length_le
          rw [List.length_drop]; omega
        unfold a2bQpGo
        split
        · cases cs with
          | nil => rfl
          | cons d ds =>
            simp only [List.length_cons] at ih'
            have h1 := ih' ds (by omega)
            have h2 := ih' _ (Nat.le_trans (hdw ds) (by omega))
            have h3 := ih' (d :: ds) (by simp)
            dsimp only
            rw [h1, h2, h3]
            split
            · rfl
            · split
              · rfl
              · split
                · rfl
                · cases digitVal d with
                  | none => rfl
                  | some x =>
                    cases ds with
                    | nil => rfl
                    | cons e es =>
                      dsimp only
                      rw [ih' es (by simp only [List.length_cons]; omega)]
        · rw [ih' cs (Nat.le_refl _)]

theorem qpDec_nil : qpDec [] = [] := rfl

theorem a2bQpGo_eq (n : Nat) (s : Str) (h : s.length < n) : a2bQpGo n s = qpDec s :=
  a2bQpGo_fuel _ _ _ h (by omega)

theorem qpDec_raw {c : Char} (h : c ≠ '=') (s : Str) : qpDec (c :: s) = UInt8.ofNat c.toNat :: qpDec s := by
  unfold qpDec
  rw [show (c :: s).length + 1 = (s.length + 1) + 1 from rfl]
  rw [a2bQpGo.eq_def]
  dsimp only
  rw [if_neg (by simpa using h)]

theorem qpDec_soft (s : Str) : qpDec ('=' :: '\n' :: s) = qpDec s :=
  a2bQpGo_eq (s.length + 2) s (by omega)

theorem qpDec_softCr (s : Str) : qpDec ('=' :: '\r' :: '\n' :: s) = qpDec s :=
  a2bQpGo_eq (s.length + 3) s (by omega)

theorem upDigit_val (d : Nat) (h : d < 16) : digitVal (upDigit d) = some d ∧ upDigit d ≠ '\n' ∧ upDigit d ≠ '\r' ∧
    upDigit d ≠ '=' := by
  have h1 : ∀ d : Fin 16, digitVal (upDigit d.1) = some d.1 ∧ upDigit d.1 ≠ '\n' ∧ upDigit d.1 ≠ '\r' ∧
    upDigit d.1 ≠ '=' := by decide
  exact h1 ⟨d, h⟩

theorem qpDec_quoted (b : UInt8) (s : Str) :
    qpDec ('=' :: upDigit (b.toNat / 16) :: upDigit (b.toNat % 16) :: s) = b :: qpDec s := by
  have hb := b.toNat_lt
  obtain ⟨a1, a2, a3, a4⟩ := upDigit_val (b.toNat / 16) (by omega)
  obtain ⟨b1, _⟩ := upDigit_val (b.toNat % 16) (by omega)
  unfold qpDec
  rw [show ('=' :: upDigit (b.toNat / 16) :: upDigit (b.toNat % 16) :: s).length + 1 = (s.length + 3) + 1 from rfl]
  rw [a2bQpGo.eq_def]
  simp only [beq_self_eq_true, if_true, beq_iff_eq, a2, a3, a4, if_false, a1, b1]
  rw [Nat.div_add_mod, UInt8.ofNat_toNat]
  rw [a2bQpGo_eq _ s (by omega), a2bQpGo_eq _ s (by omega)]

/-- Characters that quoted-printable text shows as they are. -/
def RawChar (c : Char) : Prop := c = '\t' ∨ c = '\n' ∨ c = '\r' ∨ (32 ≤ c.toNat ∧ c.toNat ≤ 126 ∧ c ≠ '=')

/-- Bytes that are written as `=XX`. -/
def QuotedByte (b : UInt8) : Prop := b.toNat ≤ 32 ∨ 126 < b.toNat ∨ b.toNat = 61 ∨ b.toNat = 46

/-- Texts with soft line breaks before some of the bytes; `soft` allows one at the start. -/
inductive QpText : Bool → Str → Bytes → Prop
  | nil (f) : QpText f [] []
  | raw (f c s b) : RawChar c → QpText true s b → QpText f (c :: s) (UInt8.ofNat c.toNat :: b)
  | quoted (f x s b) : QuotedByte x → QpText true s b →
      QpText f ('=' :: upDigit (x.toNat / 16) :: upDigit (x.toNat % 16) :: s) (x :: b)
  | soft (s b) : QpText false s b → b ≠ [] → QpText true ('=' :: '\n' :: s) b
  | softCr (s b) : QpText false s b → b ≠ [] → QpText true ('=' :: '\r' :: '\n' :: s) b

theorem QpText.any {f : Bool} {s : Str} {b : Bytes} (h : QpText false s b) : QpText f s b := by
  cases h with
  | nil => exact .nil f
  | raw _ c s b hc h => exact .raw f c s b hc h
  | quoted _ x s b hx h => exact .quoted f x s b hx h

theorem QpText.empty {f : Bool} {s : Str} {b : Bytes} (h : QpText f s b) : s = [] ↔ b = [] := by
  cases h <;> simp_all

theorem QpText.dec {f : Bool} {x : Str} {b : Bytes} (h : QpText f x b) (y : Str) : qpDec (x ++ y) = b ++ qpDec y := by
  induction h with
  | nil => rfl
  | raw f c s b hc _ ih =>
    have : c ≠ '=' := by
      rcases hc with rfl | rfl | rfl | h
      · decide
      · decide
      · decide
      · exact h.2.2
    rw [List.cons_append, qpDec_raw this, ih]; rfl
  | quoted f x s b hx _ ih => rw [List.cons_append, List.cons_append, List.cons_append, qpDec_quoted, ih]; rfl
  | soft s b _ _ ih => rw [List.cons_append, List.cons_append, qpDec_soft, ih]
  | softCr s b _ _ ih => rw [List.cons_append, List.cons_append, List.cons_append, qpDec_softCr, ih]

theorem QpText.append {f : Bool} {x y : Str} {b c : Bytes} (h : QpText f x b) (hx : x ≠ []) (k : QpText true y c) :
    QpText f (x ++ y) (b ++ c) := by
  induction h with
  | nil => exact absurd rfl hx
  | raw f d s b hc h ih =>
    refine .raw f d _ _ hc ?_
    by_cases hs : s = []
    · rw [hs, h.empty.1 hs]; exact k
    · exact ih hs
  | quoted f x s b hq h ih =>
    refine .quoted f x _ _ hq ?_
    by_cases hs : s = []
    · rw [hs, h.empty.1 hs]; exact k
    · exact ih hs
  | soft s b h hb ih => exact .soft _ _ (ih (fun he => hb (h.empty.1 he))) (by simp [hb])
  | softCr s b h hb ih => exact .softCr _ _ (ih (fun he => hb (h.empty.1 he))) (by simp [hb])

theorem chr_raw (b : UInt8) (h : b.toNat ≤ 126) (h' : b.toNat ≠ 61) (h'' : 32 ≤ b.toNat ∨ b.toNat ∈ [9, 10, 13]) :
    RawChar (chr b) ∧ UInt8.ofNat (chr b).toNat = b := by
  have h1 : ∀ b : Fin 127, b.1 ≠ 61 → (32 ≤ b.1 ∨ b.1 ∈ [9, 10, 13]) →
      RawChar (chr (UInt8.ofNat b.1)) ∧ UInt8.ofNat (chr (UInt8.ofNat b.1)).toNat = UInt8.ofNat b.1 := by
    unfold RawChar
    decide +kernel
  have := h1 ⟨b.toNat, by omega⟩ h' h''
  simpa using this

theorem qpText_raw (f : Bool) (b : UInt8) (h : b.toNat ≤ 126) (h' : b.toNat ≠ 61)
    (h'' : 32 ≤ b.toNat ∨ b.toNat ∈ [9, 10, 13]) : QpText f [chr b] [b] := by
  obtain ⟨h1, h2⟩ := chr_raw b h h' h''
  have := QpText.raw f _ [] [] h1 (.nil true)
  rwa [h2] at this

theorem qpText_quoted (f : Bool) (b : UInt8) (h : QuotedByte b) :
    QpText f ['=', upDigit (b.toNat / 16), upDigit (b.toNat % 16)] [b] := .quoted f b [] [] h (.nil true)

theorem qpText_brk (crlf : Bool) {s : Str} {b : Bytes} (h : QpText false s b) (hb : b ≠ []) :
    QpText true ((if crlf then ['=', '\r', '\n'] else ['=', '\n']) ++ s) b := by
  cases crlf
  · exact .soft s b h hb
  · exact .softCr s b h hb

theorem qpText_nl (f crlf : Bool) :
    QpText f (if crlf then ['\r', '\n'] else ['\n']) (if crlf then [13, 10] else [10]) := by
  have h10 := fun f => qpText_raw f 10 (by decide) (by decide) (by decide)
  cases crlf
  · exact h10 f
  · exact (qpText_raw f 13 (by decide) (by decide) (by decide)).append (by simp) (h10 true)

/-- The newlines of the data in one style. -/
def nlAs (crlf : Bool) : Bytes → Bytes
  | [] => []
  | 13 :: 10 :: r => (if crlf then [13, 10] else [10]) ++ nlAs crlf r
  | 10 :: r => (if crlf then [13, 10] else [10]) ++ nlAs crlf r
  | c :: r => c :: nlAs crlf r

/-- What is known of the output so far: its meaning, also if a blank at its end is quoted. -/
structure OutText (out : Str) (b : Bytes) : Prop where
  all : QpText false out.reverse b
  space : ∀ o, out = ' ' :: o → QpText false (o.reverse ++ ['=', '2', '0']) b
  tab : ∀ o, out = '\t' :: o → QpText false (o.reverse ++ ['=', '0', '9']) b

theorem OutText.add {x out : Str} {b c : Bytes} (h : OutText out b) (hx : ∀ f, QpText f x.reverse c)
    (h1 : ∀ o, x ++ out ≠ ' ' :: o) (h2 : ∀ o, x ++ out ≠ '\t' :: o) : OutText (x ++ out) (b ++ c) := by
  refine ⟨?_, fun o ho => absurd ho (h1 o), fun o ho => absurd ho (h2 o)⟩
  rw [List.reverse_append]
  by_cases ho : out = []
  · subst ho
    rw [show b = [] from h.all.empty.1 rfl]; exact hx false
  · exact h.all.append (by simpa using ho) (hx true)

theorem OutText.addSoft {x out : Str} {b c : Bytes} (h : OutText out b) (hx : QpText true x.reverse c) (ho : out ≠ [])
    (h1 : ∀ o, x ++ out ≠ ' ' :: o) (h2 : ∀ o, x ++ out ≠ '\t' :: o) : OutText (x ++ out) (b ++ c) := by
  refine ⟨?_, fun o ho => absurd ho (h1 o), fun o ho => absurd ho (h2 o)⟩
  rw [List.reverse_append]
  exact h.all.append (by simpa using ho) hx

theorem upDigit_blank (x : UInt8) : upDigit (x.toNat % 16) ≠ ' ' ∧ upDigit (x.toNat % 16) ≠ '\t' := by
  have hd : ∀ d : Fin 16, upDigit d.1 ≠ ' ' ∧ upDigit d.1 ≠ '\t' := by decide
  exact hd ⟨x.toNat % 16, by omega⟩

theorem OutText.quoted (x : UInt8) (hx : QuotedByte x) {out : Str} {c : Bytes} (h : OutText out c) :
    OutText ([upDigit (x.toNat % 16), upDigit (x.toNat / 16), '='] ++ out) (c ++ [x]) :=
  h.add (fun f => qpText_quoted f x hx) (fun o ho => (upDigit_blank x).1 (List.cons.inj ho).1)
    (fun o ho => (upDigit_blank x).2 (List.cons.inj ho).1)

theorem OutText.softQuoted (crlf : Bool) (x : UInt8) (hx : QuotedByte x) {out : Str} {c : Bytes} (h : OutText out c)
    (ho : out ≠ []) : OutText ([upDigit (x.toNat % 16), upDigit (x.toNat / 16), '='] ++
      ((if crlf then ['\n', '\r', '='] else ['\n', '=']) ++ out)) (c ++ [x]) := by
  rw [← List.append_assoc]
  refine h.addSoft ?_ ho (fun o ho => (upDigit_blank x).1 (List.cons.inj ho).1)
    (fun o ho => (upDigit_blank x).2 (List.cons.inj ho).1)
  have := qpText_brk crlf (qpText_quoted false x hx) (by simp)
  cases crlf <;> exact this

theorem chr_blank (x : UInt8) : (chr x = ' ' → x = 32) ∧ (chr x = '\t' → x = 9) := by
  have h : ∀ x : Fin 256, (chr (UInt8.ofNat x.1) = ' ' → UInt8.ofNat x.1 = 32) ∧
      (chr (UInt8.ofNat x.1) = '\t' → UInt8.ofNat x.1 = 9) := by decide +kernel
  simpa using h ⟨x.toNat, x.toNat_lt⟩

/-- A raw byte, after what is quoted-printable with any byte after it. -/
theorem OutText.rawAfter (x : UInt8) (h : x.toNat ≤ 126) (h' : x.toNat ≠ 61)
    (h'' : 32 ≤ x.toNat ∨ x.toNat ∈ [9, 10, 13]) {out : Str} {c : Bytes}
    (ho : ∀ (s : Str) (b : UInt8), (∀ f, QpText f s [b]) → QpText false (out.reverse ++ s) (c ++ [b])) :
    OutText (Ofpstr.chr x :: out) (c ++ [x]) := by
  refine ⟨?_, ?_, ?_⟩
  · rw [List.reverse_cons]
    exact ho _ _ fun f => qpText_raw f x h h' h''
  · intro o e
    obtain ⟨e1, rfl⟩ := List.cons.inj e
    rw [(chr_blank x).1 e1]
    exact ho _ _ fun f => qpText_quoted f 32 (by unfold QuotedByte; decide)
  · intro o e
    obtain ⟨e1, rfl⟩ := List.cons.inj e
    rw [(chr_blank x).2 e1]
    exact ho _ _ fun f => qpText_quoted f 9 (by unfold QuotedByte; decide)

theorem OutText.chr (x : UInt8) (h : x.toNat ≤ 126) (h' : x.toNat ≠ 61) (h'' : 32 ≤ x.toNat ∨ x.toNat ∈ [9, 10, 13])
    {out : Str} {c : Bytes} (ho : OutText out c) : OutText (Ofpstr.chr x :: out) (c ++ [x]) := by
  apply OutText.rawAfter x h h' h''
  intro s b hs
  by_cases hn : out = []
  · subst hn
    rw [show c = [] from ho.all.empty.1 rfl]; exact hs false
  · exact ho.all.append (by simpa using hn) (hs true)

theorem OutText.softChr (crlf : Bool) (x : UInt8) (h : x.toNat ≤ 126) (h' : x.toNat ≠ 61)
    (h'' : 32 ≤ x.toNat ∨ x.toNat ∈ [9, 10, 13]) {out : Str} {c : Bytes} (ho : OutText out c) (hn : out ≠ []) :
    OutText (Ofpstr.chr x :: ((if crlf then ['\n', '\r', '='] else ['\n', '=']) ++ out)) (c ++ [x]) := by
  apply OutText.rawAfter x h h' h''
  intro s b hs
  have := qpText_brk crlf (hs false) (by simp)
  rw [List.reverse_append, List.append_assoc]
  refine ho.all.append (by simpa using hn) ?_
  cases crlf <;> exact this

/-- A blank before a newline is quoted afterwards. -/
theorem outText_blank (out : Str) (b : Bytes) : OutText out b →
    OutText (match out with
      | ' ' :: o => ['0', '2', '='] ++ o
      | '\t' :: o => ['9', '0', '='] ++ o
      | o => o) b := by
  intro h
  split
  · rename_i o
    refine ⟨?_, by simp, by simp⟩
    rw [List.reverse_append]
    exact h.space o rfl
  · rename_i o
    refine ⟨?_, by simp, by simp⟩
    rw [List.reverse_append]
    exact h.tab o rfl
  · exact h

theorem OutText.nl (crlf : Bool) {out : Str} {b : Bytes} (h : OutText out b) :
    OutText ((if crlf then ['\n', '\r'] else ['\n']) ++ out) (b ++ (if crlf then [13, 10] else [10])) := by
  refine h.add ?_ (by cases crlf <;> simp) (by cases crlf <;> simp)
  intro f
  have := qpText_nl f crlf
  cases crlf <;> exact this

theorem notQuoted {b : UInt8} {n : Option UInt8} {l : Nat} (h : ¬ qpMustQuote b n l = true) :
    b.toNat ≤ 126 ∧ b.toNat ≠ 61 ∧ (32 ≤ b.toNat ∨ b.toNat ∈ [9, 10, 13]) := by
  unfold qpMustQuote at h
  dsimp only at h
  simp only [Bool.or_eq_true, not_or, decide_eq_true_eq, beq_iff_eq, Bool.and_eq_true, bne_iff_ne] at h
  refine ⟨by omega, by omega, ?_⟩
  simp only [List.mem_cons, List.not_mem_nil, or_false]
  omega

theorem mustQuote {b : UInt8} {n : Option UInt8} {l : Nat} (h : qpMustQuote b n l = true) :
    QuotedByte b ∧ b ≠ 10 ∧ b ≠ 13 := by
  refine ⟨?_, ?_, ?_⟩
  · unfold qpMustQuote at h
    dsimp only at h
    simp only [Bool.or_eq_true, decide_eq_true_eq, beq_iff_eq, Bool.and_eq_true, bne_iff_ne] at h
    unfold QuotedByte
    omega
  · rintro rfl
    simp [qpMustQuote] at h
  · rintro rfl
    simp [qpMustQuote] at h

theorem b2aQpGo_text (crlf : Bool) (fuel linelen : Nat) (out : Str) (b : Bytes) (c : Bytes) (hf : b.length < fuel)
    (h : OutText out c) (hl : out = [] → linelen = 0) : QpText false (b2aQpGo crlf fuel linelen out b) (c ++ nlAs crlf b) := by
  induction fuel generalizing linelen out b c with
  | zero => omega
  | succ fuel ih =>
    cases b with
    | nil => rw [b2aQpGo]; simpa [nlAs] using h.all
    | cons x rest =>
      simp only [List.length_cons] at hf
      rw [b2aQpGo.eq_def]
      dsimp only
      by_cases hq : qpMustQuote x rest.head? linelen = true
      · rw [if_pos hq]
        obtain ⟨hqb, h10, h13⟩ := mustQuote hq
        have hnl : nlAs crlf (x :: rest) = x :: nlAs crlf rest := by
          rw [nlAs]
          · rintro r rfl; exact absurd rfl h13
          · rintro rfl; exact h10 rfl
        rw [hnl, show c ++ x :: nlAs crlf rest = (c ++ [x]) ++ nlAs crlf rest by simp]
        split
        · exact ih _ _ _ _ (by omega) (h.softQuoted crlf x hqb (fun ho => by have := hl ho; omega)) (by simp)
        · exact ih _ _ _ _ (by omega) (h.quoted x hqb) (by simp)
      · rw [if_neg hq]
        obtain ⟨h1, h2, h3⟩ := notQuoted hq
        by_cases hn : (x == 10 || (x == 13 && rest.head? == some 10)) = true
        · rw [if_pos hn]
          have hnl : nlAs crlf (x :: rest) = (if crlf then [13, 10] else [10]) ++
              nlAs crlf (if (x == 13) = true then rest.drop 1 else rest) := by
            simp only [Bool.or_eq_true, Bool.and_eq_true, beq_iff_eq] at hn
            rcases hn with rfl | ⟨rfl, hr⟩
            · rw [nlAs]; rfl
            · cases rest with
              | nil => cases hr
              | cons y r =>
                cases hr
                rw [nlAs]; rfl
          rw [hnl, ← List.append_assoc]
          refine ih _ _ _ _ ?_ (OutText.nl crlf (outText_blank _ _ h)) (fun _ => rfl)
          split
          · rw [List.length_drop]; omega
          · omega
        · rw [if_neg hn]
          have hnl : nlAs crlf (x :: rest) = x :: nlAs crlf rest := by
            simp only [Bool.or_eq_true, Bool.and_eq_true, beq_iff_eq, not_or, not_and] at hn
            rw [nlAs]
            · rintro r rfl rfl; exact hn.2 rfl rfl
            · rintro rfl; exact hn.1 rfl
          rw [hnl, show c ++ x :: nlAs crlf rest = (c ++ [x]) ++ nlAs crlf rest by simp]
          split
          · rename_i hs
            simp only [Bool.and_eq_true, decide_eq_true_eq] at hs
            exact ih _ _ _ _ (by omega) (h.softChr crlf x h1 h2 h3 (fun ho => by have := hl ho; omega)) (by simp)
          · exact ih _ _ _ _ (by omega) (h.chr x h1 h2 h3) (by simp)

theorem b2aQp_text (b : Bytes) : QpText false (b2aQp b) (nlAs (qpCrlf b) b) :=
  b2aQpGo_text (qpCrlf b) (b.length + 1) 0 [] b [] (by omega) ⟨.nil _, by simp, by simp⟩ (fun _ => rfl)

theorem qpText_ascii {f : Bool} {s : Str} {b : Bytes} (h : QpText f s b) : ∀ c ∈ s, c.toNat < 128 := by
  have hu : ∀ d, d < 16 → (upDigit d).toNat < 128 := by
    have h1 : ∀ d : Fin 16, (upDigit d.1).toNat < 128 := by decide
    exact fun d hd => h1 ⟨d, hd⟩
  induction h with
  | nil => simp
  | raw f c s b hc _ ih =>
    intro d hd
    rcases List.mem_cons.1 hd with rfl | hd
    · rcases hc with rfl | rfl | rfl | h
      · decide
      · decide
      · decide
      · omega
    · exact ih d hd
  | quoted f x s b _ _ ih =>
    intro d hd
    have := x.toNat_lt
    simp only [List.mem_cons] at hd
    rcases hd with rfl | rfl | rfl | hd
    · decide
    · exact hu _ (by omega)
    · exact hu _ (by omega)
    · exact ih d hd
  | soft s b _ _ ih =>
    intro d hd
    simp only [List.mem_cons] at hd
    rcases hd with rfl | rfl | hd
    · decide
    · decide
    · exact ih d hd
  | softCr s b _ _ ih =>
    intro d hd
    simp only [List.mem_cons] at hd
    rcases hd with rfl | rfl | rfl | hd
    · decide
    · decide
    · decide
    · exact ih d hd

theorem a2b_b2a (b : Bytes) : a2bQp (b2aQp b) = .ok (nlAs (qpCrlf b) b) := by
  have h := b2aQp_text b
  have ha : (b2aQp b).all (fun c => decide (c.toNat < 128)) = true := by
    rw [List.all_eq_true]
    intro c hc
    simpa using qpText_ascii h c hc
  unfold a2bQp
  rw [if_pos ha]
  have := h.dec []
  rw [List.append_nil] at this
  rw [show a2bQpGo ((b2aQp b).length + 1) (b2aQp b) = qpDec (b2aQp b) from rfl, this, qpDec_nil, List.append_nil]

end Ofpstr
