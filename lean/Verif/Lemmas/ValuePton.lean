import Verif.Lemmas.ValueAddr
import Verif.Lemmas.Ipv6Text

/-!
# Exactly which texts are values: IPv6 addresses
-/

set_option linter.unusedSimpArgs false

namespace Ofpstr
open Spec

/-! ## dotted decimal -/

/-- Decimal bytes with dots between them. -/
inductive DecDots : Str → List Nat → Prop
  | one (s n) : Decimal s n → n < 256 → DecDots s [n]
  | cons (s n t ns) : Decimal s n → n < 256 → DecDots t ns → DecDots (s ++ '.' :: t) (n :: ns)

theorem decimal_snoc {pre : Str} {v d : Nat} {c : Char} (h : Decimal pre v) (hv : v ≠ 0) (hc : digitVal c = some d)
    (hd : d < 10) : Decimal (pre ++ [c]) (v * 10 + d) := by
  obtain ⟨h1, h2, h3⟩ := (numeral_iff 10 (by omega) _ _).1 h.1
  refine ⟨(numeral_iff 10 (by omega) _ _).2 ⟨by simp, ?_, ?_⟩, ?_⟩
  · intro x hx
    rcases List.mem_append.1 hx with hx | hx
    · exact h2 x hx
    · simp at hx; subst hx; exact ⟨d, (digit_iff 10 (by omega) _ _).2 ⟨hc, hd⟩⟩
  · rw [← h3]
    simp [ofDigits, hc]
  · intro t ht
    cases pre with
    | nil => exact absurd rfl h1
    | cons x p =>
      simp at ht
      obtain ⟨rfl, rfl⟩ := ht
      have := h.2 p rfl
      subst this
      exfalso
      apply hv
      rw [← h3]
      decide

theorem decimal_one {c : Char} {d : Nat} (hc : digitVal c = some d) (hd : d < 10) : Decimal [c] d := by
  refine ⟨(numeral_iff 10 (by omega) _ _).2 ⟨by simp, ?_, ?_⟩, ?_⟩
  · intro x hx
    simp at hx; subst hx; exact ⟨d, (digit_iff 10 (by omega) _ _).2 ⟨hc, hd⟩⟩
  · simp [ofDigits, hc]
  · intro t ht; simp at ht; exact ht.2

theorem isDec_val {c : Char} (h : isDec c = true) : ∃ d, digitVal c = some d ∧ d < 10 := by
  obtain ⟨d, hd⟩ := (isDec_iff c).1 h
  exact ⟨d, (digit_iff 10 (by omega) _ _).1 hd⟩

theorem inetPton4Go_inv (s : Str) : ∀ (dn : List Nat) (cur : Option Nat) (l : List Nat),
    inetPton4Go dn cur s = some l → l.length = 4 ∧ ∃ qs, l = dn.reverse ++ qs ∧
      (cur = none → DecDots s qs) ∧ ∀ v pre, cur = some v → Decimal pre v → v < 256 → DecDots (pre ++ s) qs := by
  induction s with
  | nil =>
    intro dn cur l h
    cases cur with
    | none => cases h
    | some v =>
      rw [inetPton4Go] at h
      split at h
      · rename_i hl
        have hl : dn.length = 3 := by simpa using hl
        cases h
        refine ⟨by simp [hl], [v], by simp, by simp, ?_⟩
        intro v' pre hv hp hlt
        cases hv
        rw [List.append_nil]
        exact .one _ _ hp hlt
      · cases h
  | cons c cs ih =>
    intro dn cur l h
    cases cur with
    | none =>
      have e : inetPton4Go dn none (c :: cs) = if isDec c then
          if dn.length ≥ 4 then none else inetPton4Go dn (some ((digitVal c).getD 0)) cs
        else if c == '.' then none else none := by rw [inetPton4Go]
      rw [e] at h
      split at h
      · rename_i hc
        obtain ⟨d, hd, hd9⟩ := isDec_val hc
        rw [hd] at h
        split at h
        · cases h
        · obtain ⟨h1, qs, h2, _, h4⟩ := ih _ _ _ h
          exact ⟨h1, qs, h2, fun _ => h4 d [c] rfl (decimal_one hd hd9) (by omega), by simp⟩
      · split at h <;> cases h
    | some v =>
      have e : inetPton4Go dn (some v) (c :: cs) = if isDec c then
          if v == 0 then none
          else if v * 10 + (digitVal c).getD 0 > 255 then none
          else inetPton4Go dn (some (v * 10 + (digitVal c).getD 0)) cs
        else if c == '.' then
          if dn.length == 3 then none else inetPton4Go (v :: dn) none cs
        else none := by rw [inetPton4Go]
      rw [e] at h
      split at h
      · rename_i hc
        obtain ⟨d, hd, hd9⟩ := isDec_val hc
        rw [hd] at h
        split at h
        · cases h
        · rename_i hv0
          split at h
          · cases h
          · rename_i hv
            obtain ⟨h1, qs, h2, _, h4⟩ := ih _ _ _ h
            simp only [Option.getD_some] at hv h4
            refine ⟨h1, qs, h2, by simp, ?_⟩
            intro v' pre he hp hlt
            cases he
            have := h4 _ (pre ++ [c]) rfl (decimal_snoc hp (by simpa using hv0) hd hd9) (by omega)
            simpa using this
      · split at h
        · rename_i hdot
          have hdot : c = '.' := by simpa using hdot
          subst hdot
          split at h
          · cases h
          · obtain ⟨h1, qs, h2, h3, _⟩ := ih _ _ _ h
            refine ⟨h1, v :: qs, by rw [h2]; simp, by simp, ?_⟩
            intro v' pre he hp hlt
            cases he
            exact .cons _ _ _ _ hp hlt (h3 rfl)
        · cases h

theorem decDots_four {s : Str} {a b x y : Nat} (h : DecDots s [a, b, x, y]) :
    ∃ a' b' x' y' : UInt8, DottedQuad s [a', b', x', y'] ∧ a = a'.toNat ∧ b = b'.toNat ∧ x = x'.toNat ∧ y = y'.toNat := by
  have e : ∀ n, n < 256 → (UInt8.ofNat n).toNat = n := fun n hn => by simp; omega
  cases h with
  | cons sa _ t _ ha hla h =>
    cases h with
    | cons sb _ t _ hb hlb h =>
      cases h with
      | cons sc _ t _ hc hlc h =>
        cases h with
        | one sd _ hd hld =>
          refine ⟨UInt8.ofNat a, UInt8.ofNat b, UInt8.ofNat x, UInt8.ofNat y, ?_, (e _ hla).symm, (e _ hlb).symm,
            (e _ hlc).symm, (e _ hld).symm⟩
          exact .mk _ _ _ _ _ _ _ _ (by rw [e _ hla]; exact ha) (by rw [e _ hlb]; exact hb) (by rw [e _ hlc]; exact hc)
            (by rw [e _ hld]; exact hd)
        | cons _ _ _ _ _ _ h => cases h

/-! ## groups -/

theorem numeral16_snoc {pre : Str} {v d : Nat} {c : Char} (h : (∀ c ∈ pre, isHex c = true) ∧
      ofDigits 16 (pre.map fun c => (digitVal c).getD 0) = v) (hc : digitVal c = some d) :
    (∀ x ∈ pre ++ [c], isHex x = true) ∧ ofDigits 16 ((pre ++ [c]).map fun c => (digitVal c).getD 0) = v * 16 + d := by
  constructor
  · intro x hx
    rcases List.mem_append.1 hx with hx | hx
    · exact h.1 x hx
    · simp at hx; subst hx; unfold isHex; rw [hc]; rfl
  · rw [← h.2]
    simp [ofDigits, hc]

theorem numeral16_mk {pre : Str} {v : Nat} (h : (∀ c ∈ pre, isHex c = true) ∧
      ofDigits 16 (pre.map fun c => (digitVal c).getD 0) = v) (hp : pre ≠ []) : Numeral 16 pre v :=
  (numeral_iff 16 (by omega) _ _).2 ⟨hp, fun c hc => (isHex_iff c).1 (h.1 c hc), h.2⟩

/-- After `::`. -/
theorem pton6_after (s : Str) : ∀ (tp : List Nat) (k : Nat) (pre : Str) (seen val : Nat) (r : List Nat × Option Nat),
    inetPton6Go tp (some k) (pre ++ s) seen val s = some r → pre.length = seen → seen ≤ 4 →
    ((∀ c ∈ pre, isHex c = true) ∧ ofDigits 16 (pre.map fun c => (digitVal c).getD 0) = val) →
    r.2 = some k ∧ ∃ bs, r.1 = tp ++ bs ∧ ((pre ++ s = [] ∧ bs = []) ∨ QuadGroups (pre ++ s) bs) := by
  induction s with
  | nil =>
    intro tp k pre seen val r h hs h4 hv
    rw [inetPton6Go] at h
    split at h
    · split at h
      · cases h
      · cases h
        refine ⟨rfl, [val], rfl, Or.inr ?_⟩
        rw [List.append_nil]
        refine .one _ _ (numeral16_mk hv ?_) (by omega)
        rintro rfl; simp at hs; omega
    · cases h
      refine ⟨rfl, [], by simp, Or.inl ⟨?_, rfl⟩⟩
      rw [List.append_nil]
      exact List.length_eq_zero_iff.1 (by omega)
  | cons c cs ih =>
    intro tp k pre seen val r h hs h4 hv
    have happ : pre ++ c :: cs = (pre ++ [c]) ++ cs := by simp
    rw [inetPton6Go] at h
    split at h
    · rename_i d hd
      split at h
      · cases h
      · rename_i hne
        have hne : seen ≠ 4 := by simpa using hne
        rw [happ] at h ⊢
        exact ih _ _ _ _ _ _ h (by simp [hs]) (by omega) (numeral16_snoc hv hd)
    · split at h
      · rename_i hcol
        have hcol : c = ':' := by simpa using hcol
        subst hcol
        split at h
        · cases h
        · rename_i hs0
          have hs0 : seen ≠ 0 := by simpa using hs0
          have hp : pre ≠ [] := by rintro rfl; simp at hs; omega
          split at h
          · cases h
          · rename_i hcs
            split at h
            · cases h
            · obtain ⟨h1, bs, h2, h3⟩ := ih (tp ++ [val]) k [] 0 0 r h rfl (by omega) ⟨by simp, rfl⟩
              refine ⟨h1, val :: bs, by rw [h2]; simp, Or.inr ?_⟩
              rcases h3 with ⟨h3, _⟩ | h3
              · simp at h3; simp [h3] at hcs
              · exact .cons _ _ _ _ (numeral16_mk hv hp) (by omega) h3
      · split at h
        · split at h
          · rename_i a b x y hq
            cases h
            obtain ⟨_, qs, h2, h3, _⟩ := inetPton4Go_inv _ _ _ _ hq
            simp only [List.reverse_nil, List.nil_append] at h2
            subst h2
            obtain ⟨a', b', x', y', h5, rfl, rfl, rfl, rfl⟩ := decDots_four (h3 rfl)
            refine ⟨rfl, _, rfl, Or.inr ?_⟩
            have := QuadGroups.quad _ a' b' x' y' h5
            rw [Nat.mul_comm 256, Nat.mul_comm 256] at this
            exact this
          · cases h
        · cases h

/-- Before `::`. -/
theorem pton6_before (s : Str) : ∀ (tp : List Nat) (pre : Str) (seen val : Nat) (r : List Nat × Option Nat),
    inetPton6Go tp none (pre ++ s) seen val s = some r → pre.length = seen → seen ≤ 4 →
    ((∀ c ∈ pre, isHex c = true) ∧ ofDigits 16 (pre.map fun c => (digitVal c).getD 0) = val) →
    (r.2 = none ∧ ∃ bs, r.1 = tp ++ bs ∧ ((pre ++ s = [] ∧ bs = []) ∨ QuadGroups (pre ++ s) bs)) ∨
    (∃ t bs, pre = [] ∧ s = ':' :: t ∧ r = (tp ++ bs, some tp.length) ∧ ((t = [] ∧ bs = []) ∨ QuadGroups t bs)) ∨
    ∃ a as t bs, pre ++ s = a ++ ':' :: ':' :: t ∧ Groups a as ∧ r = (tp ++ as ++ bs, some (tp ++ as).length) ∧
      ((t = [] ∧ bs = []) ∨ QuadGroups t bs) := by
  induction s with
  | nil =>
    intro tp pre seen val r h hs h4 hv
    rw [inetPton6Go] at h
    split at h
    · split at h
      · cases h
      · cases h
        refine Or.inl ⟨rfl, [val], rfl, Or.inr ?_⟩
        rw [List.append_nil]
        refine .one _ _ (numeral16_mk hv ?_) (by omega)
        rintro rfl; simp at hs; omega
    · cases h
      refine Or.inl ⟨rfl, [], by simp, Or.inl ⟨?_, rfl⟩⟩
      rw [List.append_nil]
      exact List.length_eq_zero_iff.1 (by omega)
  | cons c cs ih =>
    intro tp pre seen val r h hs h4 hv
    have happ : pre ++ c :: cs = (pre ++ [c]) ++ cs := by simp
    rw [inetPton6Go] at h
    split at h
    · rename_i d hd
      split at h
      · cases h
      · rename_i hne
        have hne : seen ≠ 4 := by simpa using hne
        rw [happ] at h ⊢
        rcases ih _ _ _ _ _ h (by simp [hs]) (by omega) (numeral16_snoc hv hd) with h | ⟨t, bs, h, _⟩ | h
        · exact Or.inl h
        · simp at h
        · exact Or.inr (Or.inr h)
    · split at h
      · rename_i hcol
        have hcol : c = ':' := by simpa using hcol
        subst hcol
        split at h
        · rename_i hs0
          have hs0 : seen = 0 := by simpa using hs0
          subst hs0
          have hp : pre = [] := List.length_eq_zero_iff.1 hs
          subst hp
          simp only [Option.isSome_none, Bool.false_eq_true, if_false] at h
          have hval : val = 0 := hv.2.symm
          subst hval
          obtain ⟨h1, bs, h2, h3⟩ := pton6_after cs tp tp.length [] 0 0 r h rfl (by omega) ⟨by simp, rfl⟩
          refine Or.inr (Or.inl ⟨cs, bs, rfl, rfl, ?_, h3⟩)
          rw [← h1, ← h2]
        · rename_i hs0
          have hs0 : seen ≠ 0 := by simpa using hs0
          have hp : pre ≠ [] := by rintro rfl; simp at hs; omega
          have hnum := numeral16_mk hv hp
          split at h
          · cases h
          · rename_i hcs
            split at h
            · cases h
            · rcases ih (tp ++ [val]) [] 0 0 r h rfl (by omega) ⟨by simp, rfl⟩ with ⟨h1, bs, h2, h3⟩ | ⟨t, bs, _, h2, h3, h5⟩ |
                ⟨a, as, t, bs, h1, h2, h3, h5⟩
              · refine Or.inl ⟨h1, val :: bs, by rw [h2]; simp, Or.inr ?_⟩
                rcases h3 with ⟨h3, _⟩ | h3
                · simp at h3; simp [h3] at hcs
                · exact .cons _ _ _ _ hnum (by omega) h3
              · exact Or.inr (Or.inr ⟨pre, [val], t, bs, by rw [h2], .one _ _ hnum (by omega), h3, h5⟩)
              · refine Or.inr (Or.inr ⟨pre ++ ':' :: a, val :: as, t, bs, ?_, .cons _ _ _ _ hnum (by omega) h2, ?_, h5⟩)
                · rw [List.nil_append] at h1; rw [h1]; simp
                · rw [h3]; simp
      · split at h
        · split at h
          · rename_i a b x y hq
            cases h
            obtain ⟨_, qs, h2, h3, _⟩ := inetPton4Go_inv _ _ _ _ hq
            simp only [List.reverse_nil, List.nil_append] at h2
            subst h2
            obtain ⟨a', b', x', y', h5, rfl, rfl, rfl, rfl⟩ := decDots_four (h3 rfl)
            refine Or.inl ⟨rfl, _, rfl, Or.inr ?_⟩
            have := QuadGroups.quad _ a' b' x' y' h5
            rw [Nat.mul_comm 256, Nat.mul_comm 256] at this
            exact this
          · cases h
        · cases h

theorem quadGroups_facts {s : Str} {ws : List Nat} (h : QuadGroups s ws) :
    (∃ c t, s = c :: t ∧ isHex c = true) ∧ (∀ c ∈ s, isHex c = true ∨ c = ':' ∨ c = '.') ∧
    (ws.length = 8 → ':' ∈ s) := by
  have num : ∀ {s w}, Numeral 16 s w → (∃ c t, s = c :: t ∧ isHex c = true) ∧ ∀ c ∈ s, isHex c = true := by
    intro s w h
    obtain ⟨h1, h2, _⟩ := numeral16 h
    cases s with
    | nil => exact absurd rfl h1
    | cons c t => exact ⟨⟨c, t, rfl, h2 c (by simp)⟩, h2⟩
  have dec : ∀ {s n}, Decimal s n → (∃ c t, s = c :: t ∧ isHex c = true) ∧ ∀ c ∈ s, isHex c = true := by
    intro s n h
    have hx := numeral_hexes (by omega) h.1
    cases s with
    | nil => exact absurd rfl ((numeral_iff 10 (by omega) _ _).1 h.1).1
    | cons c t => exact ⟨⟨c, t, rfl, hx c (by simp)⟩, hx⟩
  induction h with
  | one s w h hl => exact ⟨(num h).1, fun c hc => Or.inl ((num h).2 c hc), by simp⟩
  | quad s a b c d h =>
    cases h with
    | mk sa sb sc sd _ _ _ _ ha hb hc hd =>
      obtain ⟨⟨x, t, rfl, hx⟩, h1⟩ := dec ha
      refine ⟨⟨x, _, rfl, hx⟩, ?_, by simp⟩
      intro y hy
      simp only [List.mem_append, List.mem_cons] at hy h1
      rcases hy with hy | rfl | hy | rfl | hy | rfl | hy
      · exact Or.inl (h1 y (by simpa using hy))
      · exact Or.inr (Or.inr rfl)
      · exact Or.inl ((dec hb).2 y hy)
      · exact Or.inr (Or.inr rfl)
      · exact Or.inl ((dec hc).2 y hy)
      · exact Or.inr (Or.inr rfl)
      · exact Or.inl ((dec hd).2 y hy)
  | cons s w t ws h hl h2 ih =>
    obtain ⟨⟨x, q, rfl, hx⟩, h1⟩ := num h
    refine ⟨⟨x, _, rfl, hx⟩, ?_, by simp⟩
    intro y hy
    simp only [List.mem_append, List.mem_cons] at hy h1
    rcases hy with hy | rfl | hy
    · exact Or.inl (h1 y (by simpa using hy))
    · exact Or.inr (Or.inl rfl)
    · exact ih.2.1 y hy

theorem pton6_quad {s : Str} {ws : List Nat} (h : QuadGroups s ws) : ∀ (tp : List Nat) (colon : Option Nat),
    tp.length + ws.length ≤ 8 → inetPton6Go tp colon s 0 0 s = some (tp ++ ws, colon) := by
  induction h with
  | one s w h hl =>
    intro tp colon hle
    exact pton6_groups (.one s w h hl) tp colon s hle
  | quad s a b c d h =>
    intro tp colon hle
    rw [(quad_dotted h).1, pton6_v4 tp colon a b c d (by simp at hle; omega), Nat.mul_comm 256, Nat.mul_comm 256]
  | cons s w t ws h hl h2 ih =>
    intro tp colon hle
    obtain ⟨k, hk, e⟩ := pton6_num tp colon (s ++ ':' :: t) h hl (':' :: t)
    simp only [List.length_cons] at hle
    have ht : t ≠ [] := by
      obtain ⟨⟨c, q, rfl, _⟩, _⟩ := quadGroups_facts h2
      simp
    rw [e, pton6_colon tp colon _ k w hk t ht (by omega), ih (tp ++ [w]) colon (by simp; omega)]
    simp

theorem inetPton6_of {s : Str} {ws : List Nat} (h : Pton6 s ws) : inetPton6 s = some ws := by
  cases h with
  | full _ _ h hl =>
    obtain ⟨⟨c, t, rfl, hc⟩, _⟩ := quadGroups_facts h
    rw [inetPton6_noColon c t (isHex_ne hc).2.1, pton6_quad h [] none (by simp; omega)]
    simp [inetPton6Fin, hl]
  | short s t as bs hs ht hle =>
    have hend : inetPton6Go as (some as.length) t 0 0 t = some (as ++ bs, some as.length) := by
      rcases ht with ⟨rfl, rfl⟩ | ht
      · simp [inetPton6Go]
      · exact pton6_quad ht as _ (by omega)
    have hfin : inetPton6Fin (as ++ bs, some as.length) =
        some (as ++ List.replicate (8 - (as.length + bs.length)) 0 ++ bs) := by
      have h1 : ¬ (as.length + bs.length = 8) := by omega
      simp [inetPton6Fin, h1]
    rcases hs with ⟨rfl, rfl⟩ | hs
    · rw [List.nil_append, inetPton6_colons]
      simp only [List.length_nil] at hend hfin
      rw [hend]
      exact hfin
    · obtain ⟨_, ⟨c, q, rfl, hc⟩, _⟩ := groups_facts hs
      rw [List.cons_append, inetPton6_noColon c _ (isHex_ne hc).2.1, ← List.cons_append,
        pton6_groups_colons hs t [] _ (by simp; omega), List.nil_append, hend]
      exact hfin

theorem fin_short {as bs ws : List Nat} (hle : (as ++ bs).length ≤ 8)
    (h : inetPton6Fin (as ++ bs, some as.length) = some ws) : as.length + bs.length ≤ 7 ∧
    ws = as ++ List.replicate (8 - (as.length + bs.length)) 0 ++ bs := by
  unfold inetPton6Fin at h
  split at h
  · rename_i tp k he
    cases he
    split at h
    · cases h
    · rename_i hne
      have hne : (as ++ bs).length ≠ 8 := by simpa using hne
      cases h
      rw [List.length_append] at hle hne
      refine ⟨by omega, ?_⟩
      simp
  · rename_i he; cases he

theorem pton6_of {s : Str} {ws : List Nat} (h : inetPton6 s = some ws) : Pton6 s ws := by
  have nocolon : ∀ c t ws, c :: t ≠ [] → c ≠ ':' → inetPton6 (c :: t) = some ws → Pton6 (c :: t) ws := by
    intro c t ws _ hc h
    rw [inetPton6_noColon c t hc, Option.bind_eq_some_iff] at h
    obtain ⟨r, h1, h2⟩ := h
    have hl := inetPton6Go_len _ _ _ _ _ _ _ (by simp) h1
    rcases pton6_before (c :: t) [] [] 0 0 r h1 rfl (by omega) ⟨by simp, rfl⟩ with ⟨g1, bs, g2, g3⟩ | ⟨u, bs, _, g1, _⟩ |
      ⟨a, as, u, bs, g1, g2, g3, g4⟩
    · obtain ⟨r1, r2⟩ := r
      dsimp only at g1 g2
      subst g1
      rw [List.nil_append] at g2
      subst g2
      rcases g3 with ⟨g3, _⟩ | g3
      · simp at g3
      · unfold inetPton6Fin at h2
        dsimp only at h2
        split at h2
        · rename_i h8
          cases h2
          exact .full _ _ g3 (by simpa using h8)
        · cases h2
    · simp at g1; exact absurd g1.1 hc
    · subst g3
      simp only [List.nil_append] at h2 hl g1
      obtain ⟨q1, rfl⟩ := fin_short hl h2
      rw [g1]
      exact .short _ _ _ _ (Or.inr g2) g4 q1
  cases s with
  | nil => cases h
  | cons c t =>
    by_cases hc : c = ':'
    · subst hc
      cases t with
      | nil => cases h
      | cons d t =>
        by_cases hd : d = ':'
        · subst hd
          rw [show inetPton6 (':' :: ':' :: t) = (inetPton6Go [] none (':' :: t) 0 0 (':' :: t)).bind inetPton6Fin from rfl,
            Option.bind_eq_some_iff] at h
          obtain ⟨r, h1, h2⟩ := h
          have hl := inetPton6Go_len _ _ _ _ _ _ _ (by simp) h1
          have hcol : isHex ':' = false := by decide
          rcases pton6_before (':' :: t) [] [] 0 0 r h1 rfl (by omega) ⟨by simp, rfl⟩ with ⟨g1, bs, g2, g3⟩ |
            ⟨u, bs, _, g1, g2, g3⟩ | ⟨a, as, u, bs, g1, g2, g3, g4⟩
          · rcases g3 with ⟨g3, _⟩ | g3
            · simp at g3
            · obtain ⟨⟨c, q, hq, hx⟩, _⟩ := quadGroups_facts g3
              simp at hq
              rw [← hq.1, hcol] at hx
              cases hx
          · cases g1
            subst g2
            simp only [List.nil_append] at h2 hl
            obtain ⟨q1, rfl⟩ := fin_short (as := []) hl h2
            exact Pton6.short [] t [] bs (Or.inl ⟨rfl, rfl⟩) g3 q1
          · obtain ⟨_, ⟨c, q, rfl, hx⟩, _⟩ := groups_facts g2
            simp at g1
            rw [← g1.1, hcol] at hx
            cases hx
        · exfalso
          have : inetPton6 (':' :: d :: t) = none := by
            unfold inetPton6
            split
            · rename_i he; cases he
            · rename_i he
              cases he
              split
              · rename_i he; cases he; exact absurd rfl hd
              · rfl
            · rename_i he; exact absurd rfl (he _)
          rw [this] at h
          cases h
    · exact nocolon c t ws (by simp) hc h

theorem pton6_chars {s : Str} {ws : List Nat} (h : Pton6 s ws) :
    (∀ c ∈ s, isHex c = true ∨ c = ':' ∨ c = '.') ∧ ':' ∈ s ∧ ws.length = 8 := by
  cases h with
  | full _ _ h hl => exact ⟨(quadGroups_facts h).2.1, (quadGroups_facts h).2.2 hl, hl⟩
  | short s t as bs hs ht hle =>
    refine ⟨?_, by simp, by simp; omega⟩
    intro c hc
    simp only [List.mem_append, List.mem_cons] at hc
    rcases hc with hc | rfl | rfl | hc
    · rcases hs with ⟨rfl, _⟩ | hs
      · simp at hc
      · rcases (groups_facts hs).2.2.1 c hc with h | h
        · exact Or.inl h
        · exact Or.inr (Or.inl h)
    · exact Or.inr (Or.inl rfl)
    · exact Or.inr (Or.inl rfl)
    · rcases ht with ⟨rfl, _⟩ | ht
      · simp at hc
      · exact (quadGroups_facts ht).2.1 c hc

theorem inetPton_iff (s : Str) (p : Bytes) : inetPton s = .ok p ↔ Ipv6Value s p := by
  have hb : (beBytes 2 : Nat → Bytes) = be 2 := by funext n; rw [spec_be]
  unfold inetPton Ipv6Value
  rw [hb]
  constructor
  · intro h
    split at h
    · cases h
    · split at h
      · cases h
      · rename_i ws hw
        cases h
        exact ⟨ws, pton6_of hw, rfl⟩
  · rintro ⟨ws, h, rfl⟩
    rw [if_neg, inetPton6_of h]
    intro hc
    have h0 := (pton6_chars h).1 '\x00' (by simpa using hc)
    revert h0; decide

theorem ipv6Value_facts {s : Str} {p : Bytes} (h : Ipv6Value s p) : '/' ∉ s ∧ ':' ∈ s ∧ p.length = 16 := by
  obtain ⟨ws, h, rfl⟩ := h
  obtain ⟨h1, h2, h3⟩ := pton6_chars h
  refine ⟨?_, h2, ?_⟩
  · intro hc
    have := h1 _ hc
    revert this; decide
  · have : ∀ l : List Nat, (l.flatMap (be 2)).length = 2 * l.length := by
      intro l
      induction l with
      | nil => rfl
      | cons a l ih => rw [List.flatMap_cons, List.length_append, ih, be_len]; simp; omega
    rw [this, h3]

theorem pyInt_nocolon {s : Str} {v : Int} (h : PyInt s v) : ':' ∉ s := by
  have h0 : ¬ Space ':' := by decide
  have key : ∀ {w t z : Str} {n}, (∀ c ∈ w ++ z, Space c) → Underscored t n → ':' ∉ w ∧ ':' ∉ t ∧ ':' ∉ z := by
    intro w t z n hwz hu
    refine ⟨fun hc => h0 (hwz _ (by simp [hc])), ?_, fun hc => h0 (hwz _ (by simp [hc]))⟩
    intro hc
    rcases (under_ends hu).1 _ hc with h | h
    · revert h; decide
    · revert h; decide
  intro hc
  cases h with
  | pos w t z n hwz hu => have := key hwz hu; simp only [List.mem_append] at hc; tauto
  | plus w t z n hwz hu =>
    have := key hwz hu
    simp only [List.mem_append, List.mem_cons] at hc
    have hd : ':' ≠ '+' := by decide
    tauto
  | minus w t z n hwz hu =>
    have := key hwz hu
    simp only [List.mem_append, List.mem_cons] at hc
    have hd : ':' ≠ '-' := by decide
    tauto

/-- Only the prefix length 128 can be packed. -/
theorem prefix_pack (n : Int) (hn : ¬ 128 - n < 0) (p : Bytes) :
    packAll [(8, ((2 ^ 128 - 1) * 2 ^ (128 - n).toNat : Int) / 2 ^ 64), (8, ((2 ^ 128 - 1) * 2 ^ (128 - n).toNat : Int) % 2 ^ 64)]
      = .ok p ↔ n = 128 ∧ p = List.replicate 16 255 := by
  by_cases h : n = 128
  · subst h
    have e : packAll [(8, ((2 ^ 128 - 1) * 2 ^ (128 - (128 : Int)).toNat : Int) / 2 ^ 64),
      (8, ((2 ^ 128 - 1) * 2 ^ (128 - (128 : Int)).toNat : Int) % 2 ^ 64)] = .ok (List.replicate 16 255) := by decide +kernel
    rw [e]
    constructor
    · intro h; cases h; exact ⟨rfl, rfl⟩
    · rintro ⟨_, rfl⟩; rfl
  · constructor
    · intro h'
      exfalso
      obtain ⟨c, _, h2, _⟩ := packAll_cons_inv h'
      obtain ⟨e, he⟩ : ∃ e, (128 - n).toNat = e + 1 := ⟨(128 - n).toNat - 1, by omega⟩
      rw [he] at h2
      have h3 : (2 : Int) ^ (e + 1) ≥ 2 := by
        have : (1 : Int) ≤ 2 ^ e := by exact_mod_cast Nat.one_le_two_pow
        rw [pow_succ]; omega
      generalize (2 : Int) ^ (e + 1) = E at *
      have h4 : (2 ^ 128 - 1 : Int) * E / 2 ^ 64 < 2 ^ 64 := by
        have e8 : ((256 ^ 8 : Nat) : Int) = 2 ^ 64 := by norm_num
        rw [e8] at h2; exact h2
      omega
    · rintro ⟨h', _⟩; exact absurd h' h

theorem ipv6Mask_iff (m : Str) (p : Bytes) : ipv6Mask m = .ok p ↔ Ipv6Mask m p := by
  unfold ipv6Mask Ipv6Mask
  cases h : inetPton m with
  | ok b =>
    have hb := (inetPton_iff m b).1 h
    constructor
    · intro h'; cases h'; exact Or.inl hb
    · rintro (h' | ⟨h', _⟩)
      · have := (inetPton_iff m p).2 h'
        rw [h] at this
        exact this
      · exact absurd (ipv6Value_facts hb).2.1 (pyInt_nocolon h')
  | error e =>
    have hno : ¬ Ipv6Value m p := by
      intro h'
      have := (inetPton_iff m p).2 h'
      rw [h] at this
      cases this
    simp only [hno, false_or]
    constructor
    · intro h'
      obtain ⟨n, h1, h2⟩ := bind_ok h'
      split at h2
      · cases h2
      · rename_i hn
        obtain ⟨rfl, rfl⟩ := (prefix_pack n hn p).1 h2
        exact ⟨(pyInt_iff _ _).1 h1, rfl⟩
    · rintro ⟨h1, h2⟩
      rw [(pyInt_iff _ _).2 h1, ok_bind, if_neg (by omega)]
      exact (prefix_pack 128 (by omega) p).2 ⟨rfl, h2⟩

theorem ipv6_exact (key : Key) (v : Str) (hg : getToken v = ([], v, [])) :
    ExactOn key .ipv6 .ipv6 v := by
  intro bin l
  have key' := split_iff (d := inetPton) (dm := ipv6Mask)
    (F := fun p q => (header key 16 true ++ (p ++ q), 0 + v.length))
    (G := fun p => (header key 16 false ++ p, 0 + v.length))
    (P := Ipv6Value) (Q := Ipv6Mask)
    (fun s p => ⟨fun h => ⟨(ipv6Value_facts h).1, (inetPton_iff _ _).2 h⟩, fun h => (inetPton_iff _ _).1 h.2⟩)
    (fun s p => (ipv6Mask_iff _ _).symm) v (bin, l)
  show (ipv6Str2bin key v = _ ∧ _) ↔ ∃ p m, Masked Ipv6Value Ipv6Mask v p m ∧ _
  unfold ipv6Str2bin
  rw [hg]
  refine (Iff.and key' Iff.rfl).trans ?_
  constructor
  · rintro ⟨⟨p, h1, h2⟩ | ⟨a, b, p, q, rfl, h1, h2, h3⟩, hl⟩
    · cases h2
      exact ⟨p, none, .plain _ _ h1, hl, by simp [fieldBytes, (ipv6Value_facts h1).2.2]⟩
    · cases h3
      exact ⟨p, some q, .mask _ _ _ _ h1 h2, hl, by simp [fieldBytes, (ipv6Value_facts h1).2.2]⟩
  · rintro ⟨p, m, h, rfl, rfl⟩
    refine ⟨?_, rfl⟩
    cases h with
    | plain _ _ h1 => exact Or.inl ⟨p, h1, by simp [fieldBytes, (ipv6Value_facts h1).2.2]⟩
    | mask a b _ q h1 h2 =>
      exact Or.inr ⟨a, b, p, q, rfl, h1, h2, by simp [fieldBytes, (ipv6Value_facts h1).2.2]⟩

end Ofpstr
