import Verif.Lemmas.FieldText

/-!
# IPv6 texts
-/

namespace Ofpstr
open Spec

theorem pton6_run (tp : List Nat) (colon : Option Nat) (cur : Str) (s : Str) (seen val : Nat) (r : Str)
    (hd : ∀ c ∈ s, isHex c = true) (hl : seen + s.length ≤ 4) :
    inetPton6Go tp colon cur seen val (s ++ r) = inetPton6Go tp colon cur (seen + s.length)
      ((s.map fun c => (digitVal c).getD 0).foldl (fun a d => a * 16 + d) val) r := by
  induction s generalizing seen val with
  | nil => simp
  | cons c s ih =>
    simp only [List.cons_append, List.length_cons] at hl ⊢
    have hc := hd c (by simp)
    unfold isHex at hc
    obtain ⟨d, hd'⟩ := Option.isSome_iff_exists.1 hc
    rw [inetPton6Go, hd']
    have h4 : (seen == 4) = false := by simp; omega
    simp only [h4]
    rw [if_neg (by simp), ih _ _ (fun x hx => hd x (by simp [hx])) (by omega)]
    simp only [List.foldl_cons, List.map_cons, hd', Option.getD_some]
    congr 1
    omega

theorem numeral16 {s : Str} {w : Nat} (h : Numeral 16 s w) : s ≠ [] ∧ (∀ c ∈ s, isHex c = true) ∧
    (s.map fun c => (digitVal c).getD 0).foldl (fun a d => a * 16 + d) 0 = w := by
  obtain ⟨h1, h2, h3⟩ := (numeral_iff 16 (by omega) _ _).1 h
  exact ⟨h1, fun c hc => (isHex_iff c).2 (h2 c hc), h3⟩

theorem pton6_num (tp : List Nat) (colon : Option Nat) (cur : Str) {s : Str} {w : Nat} (h : Numeral 16 s w)
    (hl : s.length ≤ 4) (r : Str) : ∃ k, 0 < k ∧
    inetPton6Go tp colon cur 0 0 (s ++ r) = inetPton6Go tp colon cur k w r := by
  obtain ⟨h1, h2, h3⟩ := numeral16 h
  refine ⟨s.length, List.length_pos_iff.2 h1, ?_⟩
  rw [pton6_run _ _ _ _ _ _ _ h2 (by omega), h3]
  simp

theorem pton6_colon (tp : List Nat) (colon : Option Nat) (cur : Str) (k w : Nat) (hk : 0 < k) (t : Str)
    (ht : t ≠ []) (hl : tp.length < 8) : inetPton6Go tp colon cur k w (':' :: t) =
      inetPton6Go (tp ++ [w]) colon t 0 0 t := by
  rw [inetPton6Go, digitVal_colon]
  have hk0 : (k == 0) = false := by simp; omega
  have hne : t.isEmpty = false := by simpa using ht
  simp only [beq_self_eq_true, if_true, hk0, hne]
  rw [if_neg (by simp), if_neg (by simp), if_neg (by omega)]

theorem groups_facts {s : Str} {ws : List Nat} (h : Groups s ws) : ws ≠ [] ∧
    (∃ c t, s = c :: t ∧ isHex c = true) ∧ (∀ c ∈ s, isHex c = true ∨ c = ':') ∧ ∀ w ∈ ws, w < 65536 := by
  have num : ∀ s w, Numeral 16 s w → s.length ≤ 4 → w < 65536 := by
    intro s w h hl
    obtain ⟨h1, h2, h3⟩ := (numeral_iff 16 (by omega) _ _).1 h
    have : ∀ (ds : List Nat), (∀ d ∈ ds, d < 16) → ofDigits 16 ds < 16 ^ ds.length := by
      intro ds
      induction ds using List.reverseRecOn with
      | nil => simp [ofDigits]
      | append_singleton ds d ih =>
        intro hd
        rw [ofDigits_snoc, List.length_append, List.length_singleton, Nat.pow_succ]
        have := ih (fun x hx => hd x (by simp [hx]))
        have := hd d (by simp)
        omega
    have h4 := this (s.map fun c => (digitVal c).getD 0) (by
      intro d hd
      simp only [List.mem_map] at hd
      obtain ⟨c, hc, rfl⟩ := hd
      obtain ⟨d, hd⟩ := h2 c hc
      rw [(digitVal_iff c d).2 hd]
      exact hd.lt)
    rw [h3, List.length_map] at h4
    have : 16 ^ s.length ≤ 16 ^ 4 := Nat.pow_le_pow_right (by omega) hl
    omega
  induction h with
  | one s w h hl =>
    obtain ⟨h1, h2, h3⟩ := numeral16 h
    refine ⟨by simp, ?_, fun c hc => Or.inl (h2 c hc), by simpa using num s w h hl⟩
    cases s with
    | nil => exact absurd rfl h1
    | cons c t => exact ⟨c, t, rfl, h2 c (by simp)⟩
  | cons s w t ws h hl _ ih =>
    obtain ⟨h1, h2, h3⟩ := numeral16 h
    refine ⟨by simp, ?_, ?_, ?_⟩
    · cases s with
      | nil => exact absurd rfl h1
      | cons c t => exact ⟨c, _, rfl, h2 c (by simp)⟩
    · intro c hc
      simp only [List.mem_append, List.mem_cons] at hc
      rcases hc with hc | rfl | hc
      · exact Or.inl (h2 c hc)
      · exact Or.inr rfl
      · exact ih.2.2.1 c hc
    · intro x hx
      simp only [List.mem_cons] at hx
      rcases hx with rfl | hx
      · exact num s x h hl
      · exact ih.2.2.2 x hx

theorem pton6_groups {s : Str} {ws : List Nat} (h : Groups s ws) : ∀ (tp : List Nat) (colon : Option Nat)
    (cur : Str), tp.length + ws.length ≤ 8 → inetPton6Go tp colon cur 0 0 s = some (tp ++ ws, colon) := by
  induction h with
  | one s w h hl =>
    intro tp colon cur hle
    obtain ⟨k, hk, hg⟩ := pton6_num tp colon cur h hl []
    rw [List.append_nil] at hg
    rw [hg, pton6_end _ _ _ _ _ hk (by simp at hle; omega)]
  | cons s w t ws h hl ht ih =>
    intro tp colon cur hle
    simp only [List.length_cons] at hle
    obtain ⟨_, ⟨c, r, rfl, _⟩, _⟩ := groups_facts ht
    obtain ⟨k, hk, hg⟩ := pton6_num tp colon cur h hl (':' :: c :: r)
    rw [hg, pton6_colon _ _ _ _ _ hk _ (by simp) (by omega), ih _ _ _ (by simp; omega)]
    simp

theorem pton6_groups_colons {s : Str} {ws : List Nat} (h : Groups s ws) (r : Str) : ∀ (tp : List Nat)
    (cur : Str), tp.length + ws.length ≤ 8 →
    inetPton6Go tp none cur 0 0 (s ++ ':' :: ':' :: r) =
      inetPton6Go (tp ++ ws) (some (tp ++ ws).length) r 0 0 r := by
  induction h with
  | one s w h hl =>
    intro tp cur hle
    simp only [List.length_cons, List.length_nil] at hle
    obtain ⟨k, hk, hg⟩ := pton6_num tp none cur h hl (':' :: ':' :: r)
    rw [hg, pton6_colon _ _ _ _ _ hk _ (by simp) (by omega), inetPton6Go, digitVal_colon]
    simp
  | cons s w t ws h hl ht ih =>
    intro tp cur hle
    simp only [List.length_cons] at hle
    obtain ⟨_, ⟨c, q, rfl, _⟩, _⟩ := groups_facts ht
    obtain ⟨k, hk, hg⟩ := pton6_num tp none cur h hl (':' :: (c :: q ++ ':' :: ':' :: r))
    rw [List.append_assoc, List.cons_append, hg, pton6_colon _ _ _ _ _ hk _ (by simp) (by omega),
      ih _ _ (by simp; omega)]
    simp

theorem inetPton6_text {s : Str} {ws : List Nat} (h : Ipv6Text s ws) : inetPton6 s = some ws := by
  cases h with
  | full _ _ h hl =>
    obtain ⟨_, ⟨c, t, rfl, hc⟩, _⟩ := groups_facts h
    rw [inetPton6_noColon c t (isHex_ne hc).2.1, pton6_groups h [] none _ (by simp; omega)]
    simp [inetPton6Fin, hl]
  | short s t as bs hs ht hle =>
    have hend : ∀ cur, inetPton6Go as (some as.length) cur 0 0 t = some (as ++ bs, some as.length) := by
      intro cur
      rcases ht with ⟨rfl, rfl⟩ | ht
      · simp [inetPton6Go]
      · exact pton6_groups ht as _ cur (by omega)
    have hfin : inetPton6Fin (as ++ bs, some as.length) =
        some (as ++ List.replicate (8 - (as.length + bs.length)) 0 ++ bs) := by
      have h1 : ¬ (as.length + bs.length = 8) := by omega
      simp [inetPton6Fin, h1]
    rcases hs with ⟨rfl, rfl⟩ | hs
    · rw [List.nil_append, inetPton6_colons]
      have := hend t
      simp only [List.length_nil] at this hfin
      rw [this]
      exact hfin
    · obtain ⟨_, ⟨c, q, rfl, hc⟩, _⟩ := groups_facts hs
      rw [List.cons_append, inetPton6_noColon c _ (isHex_ne hc).2.1, ← List.cons_append,
        pton6_groups_colons hs t [] _ (by simp; omega), List.nil_append, hend]
      exact hfin

theorem ipv6Text_facts {s : Str} {ws : List Nat} (h : Ipv6Text s ws) : Clean s ∧ s ≠ [] ∧
    (∀ c ∈ s, c ≠ '/') ∧ (ws.flatMap (be 2)).length = 16 ∧ inetPton s = .ok (ws.flatMap (be 2)) := by
  have hch : (∀ c ∈ s, isHex c = true ∨ c = ':') ∧ s ≠ [] ∧ ws.length = 8 := by
    cases h with
    | full _ _ h hl =>
      obtain ⟨_, ⟨c, t, rfl, hc⟩, hx, _⟩ := groups_facts h
      exact ⟨hx, by simp, hl⟩
    | short s t as bs hs ht hle =>
      refine ⟨?_, by simp, by simp; omega⟩
      intro c hc
      simp only [List.mem_append, List.mem_cons] at hc
      rcases hc with hc | rfl | rfl | hc
      · rcases hs with ⟨rfl, _⟩ | hs
        · simp at hc
        · exact (groups_facts hs).2.2.1 c hc
      · exact Or.inr rfl
      · exact Or.inr rfl
      · rcases ht with ⟨rfl, _⟩ | ht
        · simp at hc
        · exact (groups_facts ht).2.2.1 c hc
  have hc : ∀ c ∈ s, c ≠ '/' ∧ c ≠ '\x00' ∧ CleanChar c := by
    intro c h
    rcases hch.1 c h with h | rfl
    · exact ⟨(isHex_ne h).1, (isHex_ne h).2.2.2.2.2.2, isHex_clean h⟩
    · decide
  refine ⟨fun c h => (hc c h).2.2, hch.2.1, fun c h => (hc c h).1, ?_, ?_⟩
  · have : ∀ ws : List Nat, (ws.flatMap (be 2)).length = 2 * ws.length := by
      intro ws
      induction ws with
      | nil => rfl
      | cons w ws ih =>
        rw [List.flatMap_cons, List.length_append, ih, List.length_cons, spec_be, beBytes_length]
        omega
    rw [this]; omega
  · unfold inetPton
    rw [contains_false_of (fun x hx => (hc x hx).2.1), inetPton6_text h]
    have e : (be 2) = beBytes 2 := funext fun n => spec_be 2 n
    simp [e]

end Ofpstr
