import Verif.Lemmas.Token
import Verif.Lemmas.Num
import Verif.Lemmas.Split

/-!
# Properties C01-C03, C05-C08: the tokeniser and number syntax (`ofpstr/util.py`)
-/

namespace Ofpstr
open Spec

/-! ## C01 -/

/-- C01: `get_token` loses no character. -/
theorem C01_get_token_lossless (s h b r : Str) (hs : getToken s = (h, b, r)) :
    h ++ b ++ r = s := by
  have := getToken_append s
  rw [hs] at this
  exact this

example : getToken t!", a(b,=c)=1" = (t!", ", t!"a(b,=c)", t!"=1") := by decide

/-! ## C02 -/

/-- C02: the head is exactly the separator text at the start. -/
theorem C02_get_token_head (s h b r : Str) (hs : getToken s = (h, b, r)) : HeadOf s h := by
  have := tokenHead_headOf s
  rw [← getToken_fst, hs] at this
  exact this

/-- C02: the body never starts with a separator or `=`. -/
theorem C02_body_start (s h b r : Str) (hs : getToken s = (h, b, r)) (c : Char) (t : Str)
    (hb : b = c :: t) : ¬ SepChar c ∧ c ≠ '=' := by
  have key : Token b ∨ OpenToken b := by
    rcases getToken_cases s with h | h <;> rw [hs] at h
    · exact Or.inl h.1
    · exact Or.inr h.1
  have pr : ∀ o e, Pair o e → ¬ SepChar o ∧ o ≠ '=' := by
    intro o e h; cases h <;> decide
  subst hb
  rcases key with h | h
  · generalize hx : c :: t = x at h
    cases h with
    | nil => cases hx
    | char c s h1 h2 _ _ => cases hx; exact ⟨h1, h2⟩
    | group o e p s h1 _ _ => cases hx; exact pr _ _ h1
  · generalize hx : c :: t = x at h
    cases h with
    | start o e s h1 _ => cases hx; exact pr _ _ h1
    | char c s h1 h2 _ _ => cases hx; exact ⟨h1, h2⟩
    | group o e p s h1 _ _ => cases hx; exact pr _ _ h1

example : HeadOf t!" = a" t!" = " :=
  HeadOf.eq t!" " t!" " t!"a" (by decide) (by decide) (by intro c t h; cases h; decide)
example : getToken t!" = a" = (t!" = ", t!"a", []) := by decide
example : getToken t!" , =a" = (t!" , ", [], t!"=a") := by decide

/-! ## C03 -/

/-- C03: the body has no separator and no `=` outside brackets, and what is left is empty or starts
with a separator or `=`; if a bracket is never closed, the body reaches the end. -/
theorem C03_token_ends_outside_brackets (s h b r : Str) (hs : getToken s = (h, b, r)) :
    (Token b ∧ ∀ c t, r = c :: t → SepChar c ∨ c = '=') ∨ (OpenToken b ∧ r = []) := by
  have := getToken_cases s
  rw [hs] at this
  exact this

/-- C03: conversely every token is read whole, whatever its brackets contain. -/
theorem C03_token_read_whole (h b r : Str) (hh : Head h) (hb : Token b)
    (hr : ∀ c t, r = c :: t → SepChar c ∨ c = '=')
    (hp : ∃ c t, b = c :: t ∧ ¬ Space c ∧ c ≠ ',' ∧ c ≠ '=') :
    getToken (h ++ b ++ r) = (h, b, r) := by
  obtain ⟨c, t, rfl, hc⟩ := hp
  rw [List.append_assoc]
  exact getToken_head hh hb hr (plainStart_cons hc t) (by simp)

example : Token t!"a(b,{c=d})e" :=
  Token.char _ _ (by decide) (by decide) (by decide)
    (Token.group '(' ')' t!"b,{c=d}" t!"e" Pair.round
      (Inside.char _ _ _ (by decide) (by decide)
        (Inside.char _ _ _ (by decide) (by decide)
          (Inside.nest ')' '{' '}' t!"c=d" [] (by decide) Pair.curly
            (Inside.char _ _ _ (by decide) (by decide) (Inside.char _ _ _ (by decide) (by decide)
              (Inside.char _ _ _ (by decide) (by decide) (Inside.nil _)))) (Inside.nil _))))
      (Token.char _ _ (by decide) (by decide) (by decide) Token.nil))
example : getToken t!",a(b,{c=d})e=1" = (t!",", t!"a(b,{c=d})e", t!"=1") := by decide
example : getToken t!"a(b,c" = ([], t!"a(b,c", []) := by decide

/-! ## C04, tokeniser part (the parsers are in the files of their modules) -/

/-- C04: `get_token` consumes at least one character of a non-empty string. -/
theorem C04_get_token_progress (s h b r : Str) (hs : getToken s = (h, b, r)) (hn : s ≠ []) :
    r.length < s.length := by
  have := getToken_progress s hn
  rw [hs] at this
  exact this

example : getToken t!"=," = (t!"=", [], t!",") := by decide

/-! ## C05 -/

/-- C05: a call is taken apart into name and argument text; text after the closing bracket raises
`AssertionError`. -/
theorem C05_parse_func_call (n p rest : Str) (o e : Char) (hn : ∀ c ∈ n, NotOpen c) (hp : Pair o e)
    (hi : Inside e p) :
    parseFunc (n ++ o :: p ++ e :: rest) =
      if rest = [] then .ok (n, some p) else .error .assertionError :=
  parseFunc_call n p rest o e hn hp hi

/-- C05: a bracket-free text is a name without argument. -/
theorem C05_parse_func_bare (n : Str) (hn : ∀ c ∈ n, NotOpen c) : parseFunc n = .ok (n, none) :=
  parseFunc_bare n hn

/-- C05: an unclosed bracket is accepted, the rest of the text being the argument. -/
theorem C05_parse_func_unclosed (n p : Str) (o e : Char) (hn : ∀ c ∈ n, NotOpen c) (hp : Pair o e)
    (hu : Unclosed e p) : parseFunc (n ++ o :: p) = .ok (n, some p) := by
  unfold parseFunc
  rw [parseFuncGo_name _ n hn]
  have key := scanParen_unclosed hu (p.length + 1) (by omega)
  simp [parseFuncGo, (pars_some_iff o e).2 hp, key]
  omega

example : parseFunc t!"learn(a=1,f(x))" = .ok (t!"learn", some t!"a=1,f(x)") := by decide
example : parseFunc t!"f(x)y" = .error .assertionError := by decide
example : parseFunc t!"f(x" = .ok (t!"f", some t!"x") := by decide

/-! ## C06 -/

/-- C06: `split` gives back the tokens of every listing. -/
theorem C06_split_listing (ts : List Str) (s : Str) (h : Listing ts s) : splitTokens s = ts := by
  unfold splitTokens
  induction h with
  | nil w hw =>
    have := splitGo_seps w hw 1 []
    simp only [List.append_nil] at this
    rw [this]; rfl
  | last w t hw ht hp =>
    have h1 := splitGo_seps w hw (t.length + 1) t
    have h2 := splitGo_plain t hp 1 [] []
    simp only [List.append_nil] at h2
    rw [show (w ++ t).length + 1 = w.length + (t.length + 1) by simp; omega, h1, h2]
    simp [splitGo, ht]
  | cons w t ts c r hw ht hp hc _ ih =>
    have h1 := splitGo_seps w hw (t.length + ((c :: r).length + 1)) (t ++ c :: r)
    have h2 := splitGo_plain t hp ((c :: r).length + 1) [] (c :: r)
    rw [show (w ++ t ++ c :: r).length + 1 = w.length + (t.length + ((c :: r).length + 1)) by
      simp; omega, List.append_assoc, h1, h2]
    rw [splitGo, (isDelimiter_iff c).2 hc] at ih ⊢
    simp at ih
    simp [ht]
    exact ih

/-- C06: `split(sep.join(tokens)) == tokens`. -/
theorem C06_split_join (sep : Str) (hsep : ∀ c ∈ sep, SepChar c) (hne : sep ≠ []) (ts : List Str)
    (hts : ∀ t ∈ ts, t ≠ [] ∧ ∀ c ∈ t, ¬ SepChar c ∧ NotOpen c) :
    splitTokens (joinStr sep ts) = ts := by
  have key : ∀ ts : List Str, (∀ t ∈ ts, t ≠ [] ∧ ∀ c ∈ t, ¬ SepChar c ∧ NotOpen c) →
      ∀ w : Str, (∀ c ∈ w, SepChar c) → Listing ts (w ++ joinStr sep ts) := by
    intro ts
    induction ts with
    | nil => intro _ w hw; simpa [joinStr] using Listing.nil w hw
    | cons t ts ih =>
      intro hts w hw
      have ht := hts t (by simp)
      cases ts with
      | nil => simpa [joinStr] using Listing.last w t hw ht.1 ht.2
      | cons t2 ts =>
        cases sep with
        | nil => exact absurd rfl hne
        | cons c sp =>
          have := ih (fun x hx => hts x (by simp [hx])) (c :: sp) hsep
          have := Listing.cons w t (t2 :: ts) c _ hw ht.1 ht.2 (hsep c (by simp)) this
          simpa [joinStr] using this
  have := key ts hts [] (by simp)
  exact C06_split_listing ts _ (by simpa using this)

/-- C06: `split` never returns an empty token. -/
theorem C06_split_no_empty (s t : Str) (h : t ∈ splitTokens s) : t ≠ [] :=
  splitGo_ne_nil _ _ _ t h

example : splitTokens t!" 1, 2,,3 " = [t!"1", t!"2", t!"3"] := by decide
/-- The opening bracket of a token is dropped (util.py:75), so `split` is not lossless on tokens
with brackets. -/
example : splitTokens t!"a(b,c) d" = [t!"ab,c)", t!"d"] := by decide

/-! ## C07 -/

/-- C07: `parseInt` reads back `{:d}`, for every integer. -/
theorem C07_parseInt_decimal (n : Int) (r : Str) (hr : NoDigit 10 r)
    (hx : ∀ t, r ≠ 'x' :: t ∧ r ≠ 'X' :: t) :
    parseInt (fmtInt n ++ r) = .ok (n, (fmtInt n).length) := by
  apply parseInt_fmtInt n r ((noDigit_iff 10 isDec isDec_iff r).1 hr)
  intro c t h
  have := hx t
  subst h
  simp at this ⊢
  exact this

/-- C07: `parseInt` reads back `{:#0wx}`, for every natural number and width. -/
theorem C07_parseInt_hex (w n : Nat) (r : Str) (hr : NoDigit 16 r) :
    parseInt (fmtX w n ++ r) = .ok ((n : Int), (fmtX w n).length) :=
  parseInt_fmtX w n r ((noDigit_iff 16 isHex isHex_iff r).1 hr)

/-- C07: what `{:d}` prints is the decimal numeral, without leading zero. -/
theorem C07_fmt_decimal (n : Nat) : Numeral 10 (fmtD n) n ∧ (n ≠ 0 → ∀ t, fmtD n ≠ '0' :: t) := by
  have hs := digitsOf_spec 10 n (by omega)
  constructor
  · rw [← intOfDigits_numeral 10 (by omega) _ (fun c hc => (isDec_iff c).1 (fmtD_isDec n c hc))]
    exact intOfDigits_fmtD n
  · intro h t ht
    have h0 := hs.2.2.2.2 h
    unfold fmtD at ht
    cases hd : digitsOf 10 n with
    | nil => simp [hd] at ht
    | cons d ds =>
      simp [hd] at ht h0
      have := hs.2.1 d (by simp [hd])
      exact digitChar_ne_zero d (by omega) h0 ht.1

example : parseInt t!"-120,x" = .ok (-120, 4) ∧ fmtInt (-120) = t!"-120" := by decide
example : parseInt t!"0x00ff/1" = .ok (255, 6) ∧ fmtX 6 255 = t!"0x00ff" := by decide

/-! ## C08 -/

/-- C08: `parseInt` accepts exactly the integer syntax, with the value and length it has. -/
theorem C08_parseInt_syntax (u : Str) (v : Int) (l : Nat) :
    parseInt u = .ok (v, l) ↔ IntSyntax u v l :=
  parseInt_iff u v l

/-- C08: the only exception is `ValueError`. -/
theorem C08_parseInt_error (u : Str) (e : Err) (h : parseInt u = .error e) : e = .valueError :=
  parseInt_err u e h

example : parseInt t!"017/2" = .ok (15, 3) ∧ IntSyntax t!"017/2" 15 3 :=
  ⟨by decide, (C08_parseInt_syntax _ _ _).1 (by decide)⟩
example : parseInt t!"07" = .ok (7, 2) ∧ parseInt t!"08" = .ok (8, 2) ∧
    parseInt t!"0x" = .error .valueError ∧ parseInt t!"-0x1" = .ok (0, 2) := by decide

end Ofpstr
