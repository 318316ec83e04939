import Verif.Lemmas.ActShown

/-!
# Printed actions: the specifications of `learn`
-/

namespace Ofpstr
open Spec

set_option linter.unusedSimpArgs false

theorem head_long {b : Bytes} {s : Str} {r : Bytes} (h : HeadShown b s r) : 4 ≤ b.length := by
  obtain ⟨_, _, _, h, _⟩ := id_shown h
  exact h

theorem headFails_long {b : Bytes} {e : Err} (h : HeadFails b e) : 4 ≤ b.length := (id_fails h).2

theorem drop_six (a b c l : UInt8) (ofs : Nat) (r : Bytes) : (a :: b :: c :: l :: (u16 ofs ++ r)).drop 6 = r := by
  show (u16 ofs ++ r).drop 2 = r
  rw [List.drop_left' (u16_length ofs)]

theorem specField_ok {n : Nat} {b : Bytes} {s : Str} {r : Bytes} (h : SpecField n b s r) :
    learnField b n = .ok s ∧ b.drop 6 = r ∧ r.length < b.length := by
  cases h with
  | mk a b c l ofs r name r' s h1 h2 h3 =>
    refine ⟨?_, drop_six a b c l ofs _, by simp [u16_length]; omega⟩
    unfold learnField
    have h4 := (nameShown_iff _ _).1 (.head _ _ _ h1)
    have h5 : uAt (a :: b :: c :: l :: (u16 ofs ++ r)) 3 1 = l.toNat := len_byte a b c l _
    have h6 : uAt (a :: b :: c :: l :: (u16 ofs ++ r)) 4 2 = ofs := by
      rw [show a :: b :: c :: l :: (u16 ofs ++ r) = [a, b, c, l] ++ (u16 ofs ++ r) from rfl,
        uAt_right _ _ _ _ (by simp)]
      exact uAt_u16_here ofs r h2
    rw [h4, ok_bind, need_ok _ _ _ (by simp [u16_length]), ok_bind, h5, h6, (bitsShown_iff _ _ _ _ _).1 h3]

theorem specField_err {b : Bytes} {e : Err} (n : Nat) (h : SpecFieldFails b e) : learnField b n = .error e := by
  unfold learnField
  cases h with
  | head _ h => rw [(headFails_iff b e).1 h, err_bind]
  | short h1 h2 =>
    rcases name_total b with ⟨s, hs⟩ | ⟨e, he⟩
    · rw [(nameShown_iff b s).1 hs, ok_bind, need_err _ _ _ (by omega), err_bind]
    · exact absurd he (h2 e)

theorem specField_all (n : Nat) (b : Bytes) : (∃ s r, SpecField n b s r) ∨ ∃ e, SpecFieldFails b e := by
  by_cases hf : ∃ e, HeadFails b e
  · obtain ⟨e, he⟩ := hf
    exact Or.inr ⟨e, .head _ _ he⟩
  · by_cases hl : b.length < 6
    · exact Or.inr ⟨_, .short b hl fun e he => hf ⟨e, he⟩⟩
    · left
      match b, Nat.le_of_not_lt hl with
      | a :: b :: c :: l :: r, hl =>
        simp only [List.length_cons] at hl
        obtain ⟨ofs, r, ho, rfl⟩ := cut16 r (by omega)
        rcases id_all a b c l (u16 ofs ++ r) with ⟨s, r', hs⟩ | ⟨e, he⟩
        · exact ⟨_, _, .mk a b c l ofs r s r' _ hs ho ((bitsShown_iff _ _ _ _ _).2 rfl)⟩
        · exact absurd ⟨e, he⟩ hf

/-- Reading the source of a specification. -/
def sourceRead (n : Nat) (b : Bytes) : Py (LearnObj × Bytes) :=
  if n / 4096 % 2 == 1 then
    .ok (.imm (beVal (b.take ((n % 1024 + 15) / 16 * 2))), b.drop ((n % 1024 + 15) / 16 * 2))
  else do
    let s ← learnField b (n % 1024)
    .ok (.fld s, b.drop 6)

def objText (st : NumStyle) : LearnObj → Str
  | .imm n => fmtI (styleFmt st) n
  | .fld s => s

theorem source_ok {n : Nat} {st : NumStyle} {b : Bytes} {s : Str} {r : Bytes} (hn : n < 8192) (h : SpecSource n st b s r) :
    ∃ o, sourceRead n b = .ok (o, r) ∧ objText st o = s ∧ r.length ≤ b.length := by
  unfold sourceRead
  cases h with
  | imm v _ _ h1 h2 h3 =>
    refine ⟨.imm (beVal v), ?_, ((numText_be _ _ _).1 h3).symm, by simp⟩
    rw [if_pos (by rw [beq_iff_eq]; omega)]
    rcases h2 with h2 | ⟨h2, rfl⟩
    · rw [List.take_left' (by omega), List.drop_left' (by omega)]
    · rw [List.append_nil, List.take_of_length_le (by omega), List.drop_eq_nil_of_le (by omega)]
  | fld _ _ _ h1 h2 =>
    obtain ⟨h3, h4, h5⟩ := specField_ok h2
    refine ⟨.fld s, ?_, rfl, by omega⟩
    rw [if_neg (by rw [beq_iff_eq]; omega), h3, ok_bind, h4]

theorem source_err {n : Nat} {b : Bytes} {e : Err} (h1 : n / 4096 = 0) (h : SpecFieldFails b e) :
    sourceRead n b = .error e := by
  unfold sourceRead
  rw [if_neg (by rw [beq_iff_eq]; omega), specField_err _ h, err_bind]

theorem source_all (n : Nat) (st : NumStyle) (hn : n < 8192) (b : Bytes) :
    (∃ s r, SpecSource n st b s r) ∨ (n / 4096 = 0 ∧ ∃ e, SpecFieldFails b e) := by
  by_cases h : n / 4096 = 0
  · rcases specField_all (n % 1024) b with ⟨s, r, hs⟩ | he
    · exact Or.inl ⟨s, r, .fld _ _ _ h hs⟩
    · exact Or.inr ⟨h, he⟩
  · left
    have h1 : n / 4096 = 1 := by omega
    generalize hk : 2 * ((n % 1024 + 15) / 16) = k
    by_cases hl : k ≤ b.length
    · obtain ⟨v, r, hv, rfl⟩ := cut_list k b hl
      exact ⟨_, _, .imm v r _ h1 (Or.inl (by omega)) ((numText_be _ _ _).2 rfl)⟩
    · have := SpecSource.imm (n := n) (st := st) b [] _ h1 (Or.inr ⟨by omega, rfl⟩) ((numText_be _ _ _).2 rfl)
      rw [List.append_nil] at this
      exact ⟨_, _, this⟩

/-- One specification: its text and the bytes after it. -/
def specRead (prev : Option Str) (n : Nat) (b : Bytes) : Py (Str × Bytes) := do
  let (o, b) ← sourceRead n b
  if n / 1024 % 4 == 2 then .ok (t!"output(" ++ (objText .dec o ++ t!")"), b)
  else
    let d ← learnField b (n % 1024)
    if n / 1024 % 4 == 0 then .ok (d ++ '=' :: objText (.hex 0) o, b.drop 6)
    else if n / 1024 % 4 == 1 then .ok (t!"reg_load(" ++ (d ++ '=' :: (objText (.hex 0) o ++ t!")")), b.drop 6)
    else match prev with
      | none => .error .nameError
      | some p => .ok (p, b.drop 6)

theorem learnSpecs_eq (fuel : Nat) (prev : Option Str) (n : Nat) (b : Bytes) (h0 : 0 < n) (hn : n < 8192) (hb : b ≠ []) :
    learnSpecs (fuel + 1) prev (u16 n ++ b) = (do
      let (s, r) ← specRead prev n b
      let rest ← learnSpecs fuel (some s) r
      .ok (s :: rest)) := by
  have hl : (u16 n ++ b).length = 2 + b.length := by rw [List.length_append, u16_length]
  have hp := List.length_pos_iff.2 hb
  conv => lhs; unfold learnSpecs
  rw [if_neg (by omega)]
  dsimp only
  rw [uAt_u16_here _ _ (by omega), if_neg (by rw [beq_iff_eq]; omega), List.drop_left' (u16_length n),
    assert_true (by rw [beq_iff_eq]; omega), ok_bind]
  unfold specRead
  rw [show (if (n / 4096 % 2 == 1) = true then
      (.ok (LearnObj.imm (beVal (b.take ((n % 1024 + 15) / 16 * 2))), b.drop ((n % 1024 + 15) / 16 * 2)) : Py (LearnObj × Bytes))
      else do
        let s ← learnField b (n % 1024)
        .ok (.fld s, b.drop 6)) = sourceRead n b from rfl]
  cases hs : sourceRead n b with
  | error e => rw [err_bind, err_bind, err_bind]
  | ok x =>
    obtain ⟨o, b'⟩ := x
    rw [ok_bind, ok_bind]
    dsimp only
    by_cases c2 : (n / 1024 % 4 == 2) = true
    · rw [if_pos c2, if_pos c2, ok_bind]
      cases o <;> rfl
    · rw [if_neg c2, if_neg c2]
      cases hd : learnField b' (n % 1024) with
      | error e => rw [err_bind, err_bind, err_bind]
      | ok d =>
        rw [ok_bind, ok_bind]
        by_cases c0 : (n / 1024 % 4 == 0) = true
        · rw [if_pos c0, if_pos c0, ok_bind]
          cases o <;> rfl
        · rw [if_neg c0, if_neg c0]
          by_cases c1 : (n / 1024 % 4 == 1) = true
          · rw [if_pos c1, if_pos c1, ok_bind]
            cases o <;> rfl
          · rw [if_neg c1, if_neg c1]
            cases prev <;> rfl

theorem spec_ok {prev : Option Str} {n : Nat} {b : Bytes} {s : Str} {r : Bytes} (hn : n < 8192) (h : SpecText prev n b s r) :
    specRead prev n b = .ok (s, r) ∧ r.length ≤ b.length := by
  unfold specRead
  cases h with
  | mtch s q d _ h1 h2 h3 =>
    obtain ⟨o, e1, e2, e3⟩ := source_ok hn h2
    obtain ⟨e4, e5, e6⟩ := specField_ok h3
    refine ⟨?_, by omega⟩
    rw [e1, ok_bind]
    dsimp only
    rw [if_neg (by rw [beq_iff_eq]; omega), e4, ok_bind, if_pos (by rw [beq_iff_eq]; omega), e2, e5]
  | load s q d _ h1 h2 h3 =>
    obtain ⟨o, e1, e2, e3⟩ := source_ok hn h2
    obtain ⟨e4, e5, e6⟩ := specField_ok h3
    refine ⟨?_, by omega⟩
    rw [e1, ok_bind]
    dsimp only
    rw [if_neg (by rw [beq_iff_eq]; omega), e4, ok_bind, if_neg (by rw [beq_iff_eq]; omega),
      if_pos (by rw [beq_iff_eq]; omega), e2, e5]
  | output s q h1 h2 =>
    obtain ⟨o, e1, e2, e3⟩ := source_ok hn h2
    refine ⟨?_, by omega⟩
    rw [e1, ok_bind]
    dsimp only
    rw [if_pos (by rw [beq_iff_eq]; omega), e2]
  | again s q d _ p h1 h2 h3 h4 =>
    obtain ⟨o, e1, e2, e3⟩ := source_ok hn h2
    obtain ⟨e4, e5, e6⟩ := specField_ok h3
    refine ⟨?_, by omega⟩
    rw [e1, ok_bind]
    dsimp only
    rw [if_neg (by rw [beq_iff_eq]; omega), e4, ok_bind, if_neg (by rw [beq_iff_eq]; omega),
      if_neg (by rw [beq_iff_eq]; omega), e5]
    subst h4
    rfl

theorem spec_err {prev : Option Str} {n : Nat} {b : Bytes} {e : Err} (hn : n < 8192) (h : SpecFails prev n b e) :
    specRead prev n b = .error e := by
  unfold specRead
  cases h with
  | source _ h1 h2 => rw [source_err h1 h2, err_bind]
  | dest st s q _ h1 h2 h3 =>
    obtain ⟨o, e1, e2, e3⟩ := source_ok hn h2
    rw [e1, ok_bind]
    dsimp only
    rw [if_neg (by rw [beq_iff_eq]; omega), specField_err _ h3, err_bind]
  | first st s q d r' h1 h2 h3 h4 =>
    obtain ⟨o, e1, e2, e3⟩ := source_ok hn h2
    obtain ⟨e4, e5, e6⟩ := specField_ok h3
    rw [e1, ok_bind]
    dsimp only
    rw [if_neg (by rw [beq_iff_eq]; omega), e4, ok_bind, if_neg (by rw [beq_iff_eq]; omega),
      if_neg (by rw [beq_iff_eq]; omega), h4]

theorem spec_all (prev : Option Str) (n : Nat) (hn : n < 8192) (b : Bytes) :
    (∃ s r, SpecText prev n b s r) ∨ ∃ e, SpecFails prev n b e := by
  by_cases c2 : n / 1024 % 4 = 2
  · rcases source_all n .dec hn b with ⟨s, r, h⟩ | ⟨h, e, he⟩
    · exact Or.inl ⟨_, _, .output _ _ _ c2 h⟩
    · exact Or.inr ⟨e, .source _ _ h he⟩
  · rcases source_all n (.hex 0) hn b with ⟨s, r, h⟩ | ⟨h, e, he⟩
    · rcases specField_all (n % 1024) r with ⟨d, r', hd⟩ | ⟨e, he⟩
      · by_cases c0 : n / 1024 % 4 = 0
        · exact Or.inl ⟨_, _, .mtch _ _ _ _ _ c0 h hd⟩
        · by_cases c1 : n / 1024 % 4 = 1
          · exact Or.inl ⟨_, _, .load _ _ _ _ _ c1 h hd⟩
          · have c3 : n / 1024 % 4 = 3 := by omega
            cases prev with
            | none => exact Or.inr ⟨_, .first _ _ _ _ _ _ c3 h hd rfl⟩
            | some p => exact Or.inl ⟨_, _, .again _ _ _ _ _ p c3 h hd rfl⟩
      · exact Or.inr ⟨e, .dest _ _ _ _ _ c2 h he⟩
    · exact Or.inr ⟨e, .source _ _ h he⟩

theorem specs_ok : ∀ (fuel : Nat) (p : Option Str) (b : Bytes) (ss : List Str), b.length < fuel → SpecsShown p b ss →
    learnSpecs fuel p b = .ok ss := by
  intro fuel
  induction fuel with
  | zero => intro p b ss h; omega
  | succ fuel ih =>
    intro p b ss hl h
    cases h with
    | done _ _ h => unfold learnSpecs; rw [if_pos h]
    | zero _ r h =>
      have hp := List.length_pos_iff.2 h
      unfold learnSpecs
      rw [if_neg (by rw [List.length_append, u16_length]; omega)]
      dsimp only
      rw [uAt_u16_here _ _ (by omega), if_pos (show ((0 : Nat) == 0) = true from rfl)]
    | more _ n b s r ss h0 hn hb h1 h2 =>
      obtain ⟨e1, e2⟩ := spec_ok hn h1
      rw [learnSpecs_eq fuel p n b h0 hn hb, e1, ok_bind]
      dsimp only
      rw [ih _ _ _ (by rw [List.length_append, u16_length] at hl; omega) h2, ok_bind]

theorem specs_err : ∀ (fuel : Nat) (p : Option Str) (b : Bytes) (e : Err), b.length < fuel → SpecsFail p b e →
    learnSpecs fuel p b = .error e := by
  intro fuel
  induction fuel with
  | zero => intro p b ss h; omega
  | succ fuel ih =>
    intro p b e hl h
    cases h with
    | bits _ n r h1 h2 h =>
      have hp := List.length_pos_iff.2 h
      unfold learnSpecs
      rw [if_neg (by rw [List.length_append, u16_length]; omega)]
      dsimp only
      rw [uAt_u16_here _ _ (by omega), if_neg (by rw [beq_iff_eq]; omega), assert_false (by rw [beq_eq_false_iff_ne]; omega),
        err_bind]
    | now _ n b _ h0 hn hb h1 =>
      rw [learnSpecs_eq fuel p n b h0 hn hb, spec_err hn h1, err_bind]
    | later _ n b s r _ h0 hn hb h1 h2 =>
      obtain ⟨e1, e2⟩ := spec_ok hn h1
      rw [learnSpecs_eq fuel p n b h0 hn hb, e1, ok_bind]
      dsimp only
      rw [ih _ _ _ (by rw [List.length_append, u16_length] at hl; omega) h2, err_bind]

theorem specs_all : ∀ (k : Nat) (p : Option Str) (b : Bytes), b.length < k →
    (∃ ss, SpecsShown p b ss) ∨ ∃ e, SpecsFail p b e := by
  intro k
  induction k with
  | zero => intro p b h; omega
  | succ k ih =>
    intro p b hl
    by_cases h2 : b.length ≤ 2
    · exact Or.inl ⟨_, .done _ _ h2⟩
    · obtain ⟨n, r, hn, rfl⟩ := cut16 b (by omega)
      rw [List.length_append, u16_length] at hl h2
      have hr : r ≠ [] := by rintro rfl; simp at h2
      by_cases h0 : n = 0
      · subst h0; exact Or.inl ⟨_, .zero _ _ hr⟩
      · by_cases h8 : n < 8192
        · rcases spec_all p n h8 r with ⟨s, r', h⟩ | ⟨e, h⟩
          · obtain ⟨_, e2⟩ := spec_ok h8 h
            rcases ih (some s) r' (by omega) with ⟨ss, h'⟩ | ⟨e, h'⟩
            · exact Or.inl ⟨_, .more _ _ _ _ _ _ (by omega) h8 hr h h'⟩
            · exact Or.inr ⟨_, .later _ _ _ _ _ _ (by omega) h8 hr h h'⟩
          · exact Or.inr ⟨_, .now _ _ _ _ (by omega) h8 hr h⟩
        · exact Or.inr ⟨_, .bits _ _ _ (by omega) hn hr⟩

end Ofpstr
