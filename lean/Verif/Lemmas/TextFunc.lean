import Verif.Spec.ActText
import Verif.Lemmas.ValueExact
import Verif.Lemmas.LostRange
import Verif.Lemmas.NxHdr

/-!
# The parts of the texts of actions: names with arguments, numbers, lists, fields
-/

set_option linter.unusedSimpArgs false

namespace Ofpstr
open Spec

theorem bind_iff {α β : Type} {x : Py α} {f : α → Py β} {b : β} :
    (x >>= f) = .ok b ↔ ∃ a, x = .ok a ∧ f a = .ok b :=
  ⟨bind_ok, by rintro ⟨a, rfl, h⟩; rw [ok_bind]; exact h⟩

theorem pyAssert_iff {b : Bool} {u : Unit} : pyAssert b = .ok u ↔ b = true :=
  ⟨pyAssert_inv, by rintro rfl; rfl⟩

/-! ## `parse_func` -/

theorem parseFuncGo_func (total : Nat) (acc s : Str) (n : Str) (a : Option Str) (ht : total = (acc ++ s).length)
    (h : parseFuncGo total acc s = .ok (n, a)) : ∃ m, n = acc ++ m ∧ Func s m a := by
  induction s generalizing acc with
  | nil =>
    simp only [parseFuncGo] at h
    cases h
    exact ⟨[], by simp, .bare _ (by simp)⟩
  | cons c s ih =>
    rw [parseFuncGo] at h
    cases hp : pars c with
    | none =>
      rw [hp] at h
      dsimp only at h
      obtain ⟨m, rfl, hm⟩ := ih (acc ++ [c]) (by simp [ht]) h
      have hc := (pars_none_iff c).1 hp
      refine ⟨c :: m, by simp, ?_⟩
      have hx : ∀ y ∈ m, NotOpen y → ∀ z ∈ c :: m, NotOpen z → True := fun _ _ _ _ _ _ => trivial
      cases hm with
      | bare _ h1 => exact .bare _ (by simpa using ⟨hc, h1⟩)
      | call _ o e p h1 h2 h3 => exact .call (c :: m) o e p (by simpa using ⟨hc, h1⟩) h2 h3
      | cut _ o e p h1 h2 h3 => exact .cut (c :: m) o e p (by simpa using ⟨hc, h1⟩) h2 h3
    | some e =>
      rw [hp] at h
      have he := (pars_some_iff c e).1 hp
      rcases scanParen_cases (s.length + 1) e s (by omega) with ⟨p, rest, h1, h2, h3⟩ | ⟨h1, h2⟩
      · dsimp only at h
        rw [h3] at h
        dsimp only at h
        split at h
        · rename_i hl
          cases h
          have hl : rest = [] := by
            rw [ht, h2] at hl
            simp at hl
            exact List.length_eq_zero_iff.1 (by omega)
          subst hl
          exact ⟨[], by simp, h2 ▸ .call [] c e p (by simp) he h1⟩
        · cases h
      · dsimp only at h
        rw [h2] at h
        dsimp only at h
        split at h
        · cases h
          exact ⟨[], by simp, .cut [] c e s (by simp) he h1⟩
        · cases h

theorem func_iff (s n : Str) (a : Option Str) : parseFunc s = .ok (n, a) ↔ Func s n a := by
  constructor
  · intro h
    obtain ⟨m, rfl, h⟩ := parseFuncGo_func s.length [] s n a (by simp) h
    simpa using h
  · intro h
    cases h with
    | bare _ h => exact parseFunc_bare _ h
    | call _ o e p h1 h2 h3 =>
      have := parseFunc_call n p [] o e h1 h2 h3
      simpa using this
    | cut _ o e p h1 h2 h3 =>
      unfold parseFunc
      rw [parseFuncGo_name _ n h1]
      have key := scanParen_unclosed h3 (p.length + 1) (by omega)
      simp [parseFuncGo, (pars_some_iff o e).2 h2, key]
      omega

theorem func_unique {s n m : Str} {a b : Option Str} (h1 : Func s n a) (h2 : Func s m b) : n = m ∧ a = b := by
  have h1 := (func_iff _ _ _).2 h1
  rw [(func_iff _ _ _).2 h2] at h1
  cases h1
  exact ⟨rfl, rfl⟩

/-- The name in a token. -/
theorem func_name {s n : Str} {a : Option Str} (h : Func s n a) : (∀ c ∈ n, NotOpen c) ∧ ∃ t, s = n ++ t := by
  cases h with
  | bare _ h => exact ⟨h, [], by simp⟩
  | call _ o e p h1 h2 h3 => exact ⟨h1, _, rfl⟩
  | cut _ o e p h1 h2 h3 => exact ⟨h1, _, rfl⟩

theorem name_chars {n t : Str} (hn : ∀ c ∈ n, NotOpen c) (h : Token (n ++ t) ∨ OpenToken (n ++ t)) :
    ∀ c ∈ n, ¬ SepChar c ∧ c ≠ '=' := by
  induction n with
  | nil => simp
  | cons c n ih =>
    have hc := hn c (by simp)
    have hpo : ∀ {o e : Char}, Pair o e → ¬ NotOpen o := by
      intro o e h; cases h <;> decide
    have key : ¬ SepChar c ∧ c ≠ '=' ∧ (Token (n ++ t) ∨ OpenToken (n ++ t)) := by
      rcases h with h | h
      · generalize hx : c :: n ++ t = x at h
        cases h with
        | nil => simp at hx
        | char d s h1 h2 h3 h4 =>
          simp only [List.cons_append, List.cons.injEq] at hx
          obtain ⟨rfl, rfl⟩ := hx
          exact ⟨h1, h2, Or.inl h4⟩
        | group o e p s h1 h2 h3 =>
          simp only [List.cons_append, List.cons.injEq] at hx
          obtain ⟨rfl, _⟩ := hx
          exact absurd hc (hpo h1)
      · generalize hx : c :: n ++ t = x at h
        cases h with
        | start o e s h1 h2 =>
          simp only [List.cons_append, List.cons.injEq] at hx
          obtain ⟨rfl, _⟩ := hx
          exact absurd hc (hpo h1)
        | char d s h1 h2 h3 h4 =>
          simp only [List.cons_append, List.cons.injEq] at hx
          obtain ⟨rfl, rfl⟩ := hx
          exact ⟨h1, h2, Or.inr h4⟩
        | group o e p s h1 h2 h3 =>
          simp only [List.cons_append, List.cons.injEq] at hx
          obtain ⟨rfl, _⟩ := hx
          exact absurd hc (hpo h1)
    intro x hx
    rcases List.mem_cons.1 hx with rfl | hx
    · exact ⟨key.1, key.2.1⟩
    · exact ih (fun c hc => hn c (by simp [hc])) key.2.2 x hx

theorem token_of_chars {n : Str} (hn : ∀ c ∈ n, NotOpen c) (h : ∀ c ∈ n, ¬ SepChar c ∧ c ≠ '=') : Token n := by
  induction n with
  | nil => exact .nil
  | cons c n ih =>
    exact .char c n (h c (by simp)).1 (h c (by simp)).2 (hn c (by simp)) (ih (fun x hx => hn x (by simp [hx])) (fun x hx => h x (by simp [hx])))

theorem headOf_nil_start {s : Str} (h : HeadOf s []) : ∀ c t, s = c :: t → ¬ Space c ∧ c ≠ ',' := by
  have key : ∀ hd, HeadOf s hd → hd = [] → ∀ c t, s = c :: t → ¬ Space c ∧ c ≠ ',' := by
    intro hd h e
    cases h with
    | eq w1 w2 r => simp at e
    | run _ r h1 h2 h3 => subst e; simpa using h3
  exact key [] h rfl

/-- The name of a token is read as a token again. -/
theorem name_self {s h b r n : Str} {a : Option Str} (hs : getToken s = (h, b, r)) (hf : Func b n a) :
    getToken n = ([], n, []) := by
  obtain ⟨h1, t, rfl⟩ := func_name hf
  have hb := (getToken_iff _ _ _ _).1 (token_self hs)
  obtain ⟨_, h2, h3⟩ := hb
  have h4 := headOf_nil_start h2
  have h5 := name_chars h1 (by rcases h3 with h | h; exacts [Or.inl h.1, Or.inr h.1])
  have h6 : ∀ c t', n = c :: t' → ¬ Space c ∧ c ≠ ',' := by
    rintro c t' rfl
    exact h4 c (t' ++ t) rfl
  refine (getToken_iff _ _ _ _).2 ⟨by simp, ?_, Or.inl ⟨token_of_chars h1 h5, by intro c t h; cases h⟩⟩
  refine HeadOf.run [] n ?_ (by simp) h6
  intro w t' hw
  cases w with
  | nil =>
    simp only [List.nil_append] at hw
    exact absurd rfl (h5 '=' (by rw [hw]; simp)).2
  | cons c w =>
    simp only [List.nil_append] at hw
    exact ⟨c, by simp, (h6 c _ hw).1⟩

/-! ## Numbers -/

theorem packed_iff (l : List (Nat × Int)) (b : Bytes) : packAll l = .ok b ↔ Packed l b := by
  unfold Packed
  rw [packAll_eq]
  split
  · rename_i h
    constructor
    · intro h'; cases h'; exact ⟨h, rfl⟩
    · rintro ⟨_, rfl⟩; rfl
  · rename_i h
    constructor
    · intro h'; cases h'
    · intro h'; exact absurd h'.1 h

theorem packU_packed (k : Nat) (v : Int) (b : Bytes) : packU k v = .ok b ↔ Packed [(k, v)] b := by
  rw [packU_wire]
  unfold Packed
  split
  · rename_i h
    constructor
    · intro h'; cases h'; exact ⟨by simpa using h, by simp⟩
    · rintro ⟨_, rfl⟩; simp
  · rename_i h
    constructor
    · intro h'; cases h'
    · intro h'; exact absurd (by simpa using h'.1) h

theorem packHs_packed (ids : List Int) (b : Bytes) : packHs ids = .ok b ↔ Packed (ids.map fun i => (2, i)) b :=
  packed_iff _ _

theorem parseInts_iff (ts : List Str) (vs : List Int) : parseInts ts = .ok vs ↔ LooseNums ts vs := by
  induction ts generalizing vs with
  | nil =>
    constructor
    · intro h; cases h; exact .nil
    · intro h; cases h; rfl
  | cons t ts ih =>
    rw [parseInts]
    simp only [bind_iff, Prod.exists]
    constructor
    · rintro ⟨v, l, h1, vs', h2, h⟩
      cases h
      exact .cons t v l ts vs' ((parseInt_iff _ _ _).1 h1) ((ih _).1 h2)
    · intro h
      cases h with
      | cons _ v l _ vs' h1 h2 => exact ⟨v, l, (parseInt_iff _ _ _).2 h1, vs', (ih _).2 h2, rfl⟩

theorem looseNums_split (v : Str) (ids : List Int) : parseInts (splitAll ':' v) = .ok ids ↔
    ∃ ts, v = joinStr t!":" ts ∧ ts ≠ [] ∧ (∀ t ∈ ts, ':' ∉ t) ∧ LooseNums ts ids := by
  rw [parseInts_iff]
  constructor
  · intro h
    obtain ⟨h1, h2⟩ := splitAll_eq ':' v _ rfl
    exact ⟨_, h2, splitAll_ne_nil _ _, h1, h⟩
  · rintro ⟨ts, rfl, h1, h2, h3⟩
    rw [splitAll_join ':' ts h1 (by
      intro p hp x hx e
      subst e
      exact h2 p hp hx)]
    exact h3

/-! ## `split` -/

theorem sepChar_notOpen {c : Char} (h : SepChar c) : NotOpen c := by
  unfold SepChar at h
  rcases h with h | h | h | h | h | h | h <;> rw [h] <;> decide

theorem pair_notOpen {o e : Char} (h : Pair o e) : ¬ NotOpen o := by cases h <;> decide

theorem pair_notSep {o e : Char} (h : Pair o e) : ¬ SepChar o := fun hs => pair_notOpen h (sepChar_notOpen hs)

theorem splitGo_sep (f : Nat) (tok : Str) (c : Char) (cs : Str) (h : SepChar c) :
    splitGo (f + 1) tok (c :: cs) = nonEmpty tok ++ splitGo f [] cs := by
  rw [splitGo, if_pos ((isDelimiter_iff c).2 h)]
  unfold nonEmpty
  cases tok <;> simp

theorem splitGo_char (f : Nat) (tok : Str) (c : Char) (cs : Str) (h : ¬ SepChar c) (ho : NotOpen c) :
    splitGo (f + 1) tok (c :: cs) = splitGo f (tok ++ [c]) cs := by
  rw [splitGo, if_neg (by rw [isDelimiter_iff]; exact h), (pars_none_iff c).2 ho]

theorem splitGo_nil (f : Nat) (tok : Str) : splitGo (f + 1) tok [] = nonEmpty tok := by
  rw [splitGo]
  unfold nonEmpty
  cases tok <;> simp

theorem splitGo_group (f : Nat) (tok : Str) (o e : Char) (p cs : Str) (h : Pair o e) (hi : Inside e p) :
    splitGo (f + 1) tok (o :: (p ++ e :: cs)) = splitGo f (tok ++ (p ++ [e])) cs := by
  rw [splitGo, if_neg (by rw [isDelimiter_iff]; exact pair_notSep h), (pars_some_iff o e).2 h]
  dsimp only
  rw [scanParen_inside hi cs _ (Nat.lt_succ_self _)]
  simp

theorem splitGo_open (f : Nat) (tok : Str) (o e : Char) (p : Str) (h : Pair o e) (hi : Unclosed e p) :
    splitGo (f + 2) tok (o :: p) = nonEmpty (tok ++ p) := by
  rw [splitGo, if_neg (by rw [isDelimiter_iff]; exact pair_notSep h), (pars_some_iff o e).2 h]
  dsimp only
  rw [scanParen_unclosed hi _ (Nat.lt_succ_self _), splitGo_nil]
  simp

/-- What follows a piece that has been begun. -/
inductive PiecesFrom (tok : Str) : Str → List Str → Prop
  | last (s t) : ClosedPiece s t → PiecesFrom tok s (nonEmpty (tok ++ t))
  | open (s t) : OpenPiece s t → PiecesFrom tok s (nonEmpty (tok ++ t))
  | cons (s t c r ts) : ClosedPiece s t → SepChar c → Pieces r ts → PiecesFrom tok (s ++ c :: r) (nonEmpty (tok ++ t) ++ ts)

theorem piecesFrom_nil {s : Str} {ts : List Str} (h : PiecesFrom [] s ts) : Pieces s ts := by
  cases h with
  | last s t h => simpa using Pieces.last s t h
  | «open» s t h => simpa using Pieces.open s t h
  | cons s t c r ts h1 h2 h3 => simpa using Pieces.cons s t c r ts h1 h2 h3

theorem splitGo_pieces (f : Nat) : ∀ (tok s : Str), s.length < f → PiecesFrom tok s (splitGo f tok s) := by
  induction f with
  | zero => intro tok s h; omega
  | succ f ih =>
    intro tok s hs
    cases s with
    | nil =>
      rw [splitGo_nil]
      simpa using PiecesFrom.last (tok := tok) [] [] .nil
    | cons c s =>
      simp only [List.length_cons] at hs
      by_cases hc : SepChar c
      · rw [splitGo_sep f tok c s hc]
        have := PiecesFrom.cons (tok := tok) [] [] c s _ .nil hc (piecesFrom_nil (ih [] s (by omega)))
        simpa using this
      · cases hp : pars c with
        | none =>
          have ho := (pars_none_iff c).1 hp
          rw [splitGo_char f tok c s hc ho]
          have h := ih (tok ++ [c]) s (by omega)
          generalize splitGo f (tok ++ [c]) s = x at h
          cases h with
          | last _ t h => simpa using PiecesFrom.last (tok := tok) (c :: s) (c :: t) (.char c s t hc ho h)
          | «open» _ t h => simpa using PiecesFrom.open (tok := tok) (c :: s) (c :: t) (.char c s t hc ho h)
          | cons a t d r ts h1 h2 h3 =>
            simpa using PiecesFrom.cons (tok := tok) (c :: a) (c :: t) d r ts (.char c a t hc ho h1) h2 h3
        | some e =>
          have he := (pars_some_iff c e).1 hp
          rcases scanParen_cases (s.length + 1) e s (by omega) with ⟨p, rest, h1, rfl, _⟩ | ⟨h1, _⟩
          · rw [splitGo_group f tok c e p rest he h1]
            have h := ih (tok ++ (p ++ [e])) rest (by simp at hs; omega)
            generalize splitGo f (tok ++ (p ++ [e])) rest = x at h
            cases h with
            | last _ t h => simpa using PiecesFrom.last (tok := tok) _ _ (.group c e p rest t he h1 h)
            | «open» _ t h => simpa using PiecesFrom.open (tok := tok) _ _ (.group c e p rest t he h1 h)
            | cons a t d r ts h2 h3 h4 =>
              simpa using PiecesFrom.cons (tok := tok) _ _ d r ts (.group c e p a t he h1 h2) h3 h4
          · cases f with
            | zero => omega
            | succ f =>
              rw [splitGo_open f tok c e s he h1]
              exact .open (c :: s) s (.start c e s he h1)

theorem closedPiece_go {s t : Str} (h : ClosedPiece s t) : ∀ (f : Nat) (tok r : Str), (s ++ r).length < f →
    ∃ f', r.length < f' ∧ splitGo f tok (s ++ r) = splitGo f' (tok ++ t) r := by
  induction h with
  | nil => intro f tok r hf; exact ⟨f, by simpa using hf, by simp⟩
  | char c s t h1 h2 h3 ih =>
    intro f tok r hf
    cases f with
    | zero => simp at hf
    | succ f =>
      obtain ⟨f', hf', he⟩ := ih f (tok ++ [c]) r (by simp at hf ⊢; omega)
      refine ⟨f', hf', ?_⟩
      rw [List.cons_append, splitGo_char f tok c _ h1 h2, he]
      simp
  | group o e p s t h1 h2 h3 ih =>
    intro f tok r hf
    cases f with
    | zero => simp at hf
    | succ f =>
      obtain ⟨f', hf', he⟩ := ih f (tok ++ (p ++ [e])) r (by simp at hf ⊢; omega)
      refine ⟨f', hf', ?_⟩
      have e1 : o :: (p ++ e :: s) ++ r = o :: (p ++ e :: (s ++ r)) := by simp
      rw [e1, splitGo_group f tok o e p _ h1 h2, he]
      simp

theorem openPiece_go {s t : Str} (h : OpenPiece s t) : ∀ (f : Nat) (tok : Str), s.length < f →
    splitGo f tok s = nonEmpty (tok ++ t) := by
  induction h with
  | start o e p h1 h2 =>
    intro f tok hf
    match f, hf with
    | f + 2, _ => exact splitGo_open f tok o e p h1 h2
  | char c s t h1 h2 h3 ih =>
    intro f tok hf
    cases f with
    | zero => simp at hf
    | succ f =>
      rw [splitGo_char f tok c _ h1 h2, ih f _ (by simp at hf; omega)]
      simp
  | group o e p s t h1 h2 h3 ih =>
    intro f tok hf
    cases f with
    | zero => simp at hf
    | succ f =>
      rw [splitGo_group f tok o e p _ h1 h2, ih f _ (by simp at hf; omega)]
      simp

theorem pieces_go {s : Str} {ts : List Str} (h : Pieces s ts) : ∀ f, s.length < f → splitGo f [] s = ts := by
  induction h with
  | last s t h =>
    intro f hf
    obtain ⟨f', h1, h2⟩ := closedPiece_go h f [] [] (by simpa using hf)
    rw [List.append_nil] at h2
    rw [h2]
    cases f' with
    | zero => simp at h1
    | succ f' => rw [splitGo_nil]; simp
  | «open» s t h =>
    intro f hf
    rw [openPiece_go h f [] hf]
    simp
  | cons s t c r ts h hc hr ih =>
    intro f hf
    obtain ⟨f', h1, h2⟩ := closedPiece_go h f [] (c :: r) hf
    rw [h2]
    cases f' with
    | zero => simp at h1
    | succ f' =>
      rw [splitGo_sep f' _ c r hc, ih f' (by simp at h1; omega)]
      simp

theorem pieces_iff (s : Str) (ts : List Str) : Pieces s ts ↔ splitTokens s = ts := by
  constructor
  · intro h; exact pieces_go h _ (Nat.lt_succ_self _)
  · rintro rfl; exact piecesFrom_nil (splitGo_pieces _ _ _ (Nat.lt_succ_self _))

/-! ## Names of fields -/

theorem encId_nameId (f : Field) (hf : f ∈ fields) (m : Bool) :
    encId (fieldKey f) (kindEnc f.textKind) m = f.nameId m := by
  have hp : ∀ (b : Bool) (n : Nat), header (fieldKey f) n b = f.header b (min ((if b then 2 else 1) * n) (255 - f.extra)) := by
    intro b n
    rw [header_cut f hf n b]
    cases b <;> simp
  unfold Field.nameId Field.nameLen
  cases hk : f.textKind <;> simp only [kindEnc, encId, hp, Kind.size, Kind.noMaskId, Option.getD_some, Option.getD_none, Bool.not_false,
    Bool.not_true, Bool.and_true, Bool.and_false]
  rfl

theorem lookupEnc_known {s : Str} {e : Key × Enc} (h : lookupEnc s = some e) : ∃ f ∈ fields, f.name = s := by
  obtain ⟨key, k⟩ := e
  obtain ⟨f, hf, hn, _⟩ := lookupEnc_field h
  exact ⟨f, hf, hn⟩

theorem str2oxmid_token (m : Bool) (s : Str) (hg : getToken s = ([], s, [])) :
    str2oxmid m s = .ok (match lookupEnc s with | some (key, k) => encId key k m | none => []) := by
  unfold str2oxmid
  by_cases hs : s = []
  · subst hs
    rfl
  · have hl : 0 < s.length := List.length_pos_of_ne_nil hs
    obtain ⟨n, hn⟩ : ∃ n, s.length = n + 1 := ⟨s.length - 1, by omega⟩
    rw [str2oxmidGo, if_neg (by simpa using hs), hg]
    dsimp only
    rw [hn, str2oxmidGo, if_pos (by rfl), ok_bind, List.append_nil]
    by_cases hu : s = t!"_"
    · subst hu
      rfl
    · rw [if_neg (by simpa using hu)]; rfl

theorem oxmid_iff (m : Bool) (s : Str) (hg : getToken s = ([], s, [])) (b : Bytes) :
    str2oxmid m s = .ok b ↔ IdText m s b := by
  rw [str2oxmid_token m s hg]
  constructor
  · intro h
    cases hl : lookupEnc s with
    | none =>
      rw [hl] at h
      cases h
      refine .unknown s ?_
      rintro f hf rfl
      rw [lookupEnc_textKind f hf] at hl
      cases hl
    | some e =>
      obtain ⟨f, hf, rfl⟩ := lookupEnc_known hl
      rw [lookupEnc_textKind f hf] at h
      dsimp only at h
      rw [encId_nameId f hf] at h
      cases h
      exact .known f hf
  · intro h
    cases h with
    | known f hf =>
      rw [lookupEnc_textKind f hf]
      dsimp only
      rw [encId_nameId f hf]
    | unknown _ h =>
      cases hl : lookupEnc s with
      | none => rfl
      | some e =>
        obtain ⟨f, hf, hn⟩ := lookupEnc_known hl
        exact absurd hn (h f hf)

/-- The first four bytes of an id. -/
theorem nameId_parts (f : Field) (hf : f ∈ fields) (m : Bool) : needBytes (f.nameId m) 0 4 = .ok () ∧
    uAt (f.nameId m) 3 1 = f.nameLen m + f.extra ∧ (uAt (f.nameId m) 0 2 == 0xffff) = f.experimenter ∧
    (f.nameId m).length = 4 + f.extra ∧ f.nameLen m + f.extra < 256 := by
  have key : ∀ f ∈ fields, ∀ m : Bool, needBytes (f.nameId m) 0 4 = .ok () ∧
    uAt (f.nameId m) 3 1 = f.nameLen m + f.extra ∧ (uAt (f.nameId m) 0 2 == 0xffff) = f.experimenter ∧
    (f.nameId m).length = 4 + f.extra ∧ f.nameLen m + f.extra < 256 := by decide +kernel
  exact key f hf m

end Ofpstr
