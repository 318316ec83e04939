import Verif.Lemmas.Clean

/-!
# `inet_aton ∘ inet_ntoa` and `inet_pton ∘ inet_ntop` are the identity
-/

namespace Ofpstr
open Spec

/-! ## IPv4 -/

theorem strtoul_fmtD (n : Nat) (r : Str) (hr : ∀ c t, r = c :: t → c = '.') :
    strtoul (fmtD n ++ r) = (n, r) := by
  have hdot : isDec '.' = false := by decide
  have hdoto : isOct '.' = false := by decide
  have hrd : ∀ c t, r = c :: t → isDec c = false := by
    intro c t h; rw [hr c t h]; exact hdot
  by_cases hz : n = 0
  · subst hz
    have h0 : fmtD 0 = ['0'] := by decide
    have ho : isOct '0' = true := by decide
    rw [h0]
    match r, hr with
    | [], _ => decide
    | [c], hr =>
      have := hr c [] rfl
      subst this; decide
    | c :: d :: t, hr =>
      have := hr c (d :: t) rfl
      subst this
      simp [strtoul, List.takeWhile, List.dropWhile, ho, hdoto]
      decide
  · have hs := digitsOf_spec 10 n (by omega)
    have hc0 : ∀ t, fmtD n ++ r ≠ '0' :: t := by
      intro t h
      have hh := hs.2.2.2.2 hz
      unfold fmtD at h
      cases hd : digitsOf 10 n with
      | nil => exact hs.1 hd
      | cons d ds =>
        simp [hd] at h hh
        have := hs.2.1 d (by simp [hd])
        exact digitChar_ne_zero d (by omega) hh h.1
    have e1 : (fmtD n ++ r).takeWhile isDec = fmtD n :=
      takeWhile_append_stop (fmtD_isDec n) hrd
    have e2 : (fmtD n ++ r).dropWhile isDec = r :=
      dropWhile_append_stop (fmtD_isDec n) hrd
    have e3 : ofDigits 10 ((fmtD n).map fun c => (digitVal c).getD 0) = n := by
      rw [fmtD, map_digitVal_digitChar, hs.2.2.1]
      intro d hd; have := hs.2.1 d hd; omega
    unfold strtoul
    split
    · rename_i x d t h; exact absurd h (hc0 _)
    · rename_i x h; exact absurd h (hc0 _)
    · simp only [e1, e2, e3]

/-- One part of `inet_aton`. -/
theorem inetAtonGo_fmtD (fuel : Nat) (parts : List Nat) (n : Nat) (hn : n < 256) (r : Str) :
    inetAtonGo (fuel + 1) parts (fmtD n ++ '.' :: r) =
      if parts.length > 2 then none else inetAtonGo fuel (parts ++ [n]) r := by
  have hs := strtoul_fmtD n ('.' :: r) (by intro c t h; cases h; rfl)
  obtain ⟨c, cs, hc⟩ : ∃ c cs, fmtD n = c :: cs := by
    cases h : fmtD n with
    | nil => exact absurd h (fmtD_ne_nil n)
    | cons c cs => exact ⟨c, cs, rfl⟩
  have hcd : isDec c = true := fmtD_isDec n c (by simp [hc])
  rw [hc] at hs ⊢
  simp only [List.cons_append] at hs ⊢
  simp only [inetAtonGo, hcd, hs]
  have h1 : ¬ (n > 0xffffffff) := by omega
  have h2 : ¬ (n > 0xff) := by omega
  by_cases hp : parts.length > 2 <;> simp [h1, h2, hp]

theorem inetAtonGo_fmtD_last (fuel : Nat) (parts : List Nat) (n : Nat) (hn : n < 256) :
    inetAtonGo (fuel + 1) parts (fmtD n) = some (parts, n) := by
  have hs := strtoul_fmtD n [] (by intro c t h; cases h)
  obtain ⟨c, cs, hc⟩ : ∃ c cs, fmtD n = c :: cs := by
    cases h : fmtD n with
    | nil => exact absurd h (fmtD_ne_nil n)
    | cons c cs => exact ⟨c, cs, rfl⟩
  have hcd : isDec c = true := fmtD_isDec n c (by simp [hc])
  rw [List.append_nil] at hs
  rw [hc] at hs ⊢
  simp only [inetAtonGo, hcd, hs]
  have h1 : ¬ (n > 0xffffffff) := by omega
  simp [h1]

theorem dotted_chars (b : Bytes) : ∀ c ∈ dotted b, isDec c = true ∨ c = '.' := by
  have key : ∀ ps : List Str, (∀ p ∈ ps, ∀ c ∈ p, isDec c = true) →
      ∀ c ∈ joinStr t!"." ps, isDec c = true ∨ c = '.' := by
    intro ps
    induction ps with
    | nil => intro _ c hc; simp [joinStr] at hc
    | cons p ps ih =>
      intro h c hc
      cases ps with
      | nil => simp [joinStr] at hc; exact Or.inl (h p (by simp) c hc)
      | cons q ps =>
        simp only [joinStr, List.mem_append] at hc
        rcases hc with (hc | hc) | hc
        · exact Or.inl (h p (by simp) c hc)
        · simp at hc; exact Or.inr hc
        · exact ih (fun p hp => h p (by simp [hp])) c hc
  apply key
  intro p hp c hc
  simp at hp
  obtain ⟨x, _, rfl⟩ := hp
  exact fmtD_isDec _ c hc

theorem dotted_clean (b : Bytes) : Clean (dotted b) := by
  intro c hc
  rcases dotted_chars b c hc with h | rfl
  · exact isDec_clean h
  · decide

theorem dotted_no (b : Bytes) : ∀ c ∈ dotted b, c ≠ '/' ∧ c ≠ '\x00' ∧ c ≠ ':' := by
  intro c hc
  rcases dotted_chars b c hc with h | rfl
  · have := isHex_ne (isDec_isHex h)
    exact ⟨this.1, this.2.2.2.2.2.2, this.2.1⟩
  · decide

theorem dotted_four (a b c d : UInt8) : dotted [a, b, c, d] =
    fmtD a.toNat ++ '.' :: (fmtD b.toNat ++ '.' :: (fmtD c.toNat ++ '.' :: fmtD d.toNat)) := by
  simp [dotted, joinStr]

theorem contains_false_of {s : Str} {c : Char} (h : ∀ x ∈ s, x ≠ c) : s.contains c = false := by
  rw [← Bool.not_eq_true]
  intro hc
  exact h c (List.contains_iff_mem.1 hc) rfl

/-- `inet_aton(inet_ntoa(b)) == b`. -/
theorem inetAton_dotted (b : Bytes) (h : b.length = 4) : inetAton (dotted b) = .ok b := by
  match b, h with
  | [a, b, c, d], _ =>
    have ha := a.toNat_lt
    have hb := b.toNat_lt
    have hc := c.toNat_lt
    have hd := d.toNat_lt
    unfold inetAton
    rw [contains_false_of (fun x hx => (dotted_no _ x hx).2.1)]
    have hl : ∃ k, (dotted [a, b, c, d]).length = k + 3 := by
      rw [dotted_four]; simp
      exact ⟨(fmtD a.toNat).length + ((fmtD b.toNat).length + ((fmtD c.toNat).length +
        (fmtD d.toNat).length)), by omega⟩
    obtain ⟨k, hk⟩ := hl
    rw [hk, dotted_four]
    rw [inetAtonGo_fmtD _ _ _ ha, inetAtonGo_fmtD _ _ _ hb, inetAtonGo_fmtD _ _ _ hc,
      inetAtonGo_fmtD_last _ _ _ hd]
    have : d.toNat < 256 := hd
    simp [beBytes, this]

/-! ## IPv6: reading -/

theorem digitsOf_length_le (n : Nat) (h : n < 65536) : (digitsOf 16 n).length ≤ 4 := by
  have hs := digitsOf_spec 16 n (by omega)
  by_cases hz : n = 0
  · rw [hs.2.2.2.1 hz]; simp
  have hh := hs.2.2.2.2 hz
  have hv := hs.2.2.1
  generalize digitsOf 16 n = ds at *
  -- a number with k+1 digits and non-zero head is at least 16^k
  have key : ∀ ds : List Nat, ∀ a, ds.foldl (fun a d => a * 16 + d) a ≥ a * 16 ^ ds.length := by
    intro ds
    induction ds with
    | nil => intro a; simp
    | cons d ds ih =>
      intro a
      have := ih (a * 16 + d)
      simp only [List.foldl_cons, List.length_cons]
      calc a * 16 ^ (ds.length + 1) = a * 16 * 16 ^ ds.length := by ring
        _ ≤ (a * 16 + d) * 16 ^ ds.length := Nat.mul_le_mul_right _ (by omega)
        _ ≤ _ := this
  cases ds with
  | nil => simp
  | cons d ds =>
    simp at hh
    have h1 := key ds (0 * 16 + d)
    have h2 : ofDigits 16 (d :: ds) = ds.foldl (fun a d => a * 16 + d) (0 * 16 + d) := rfl
    rw [← h2, hv] at h1
    have h3 : 16 ^ ds.length ≤ n := by
      calc 16 ^ ds.length = 1 * 16 ^ ds.length := by ring
        _ ≤ (0 * 16 + d) * 16 ^ ds.length := Nat.mul_le_mul_right _ (by omega)
        _ ≤ n := h1
    by_contra hlen
    simp at hlen
    have : 16 ^ 4 ≤ 16 ^ ds.length := Nat.pow_le_pow_right (by omega) (by omega)
    omega

theorem fmtHexRaw_zero (n : Nat) : fmtHexRaw 0 n = (digitsOf 16 n).map digitChar := by
  simp [fmtHexRaw]

/-- Reading the digits of one group. -/
theorem pton6_digits (tp : List Nat) (colon : Option Nat) (cur : Str) (ds : List Nat)
    (seen val : Nat) (r : Str) (hd : ∀ d ∈ ds, d < 16) (hl : seen + ds.length ≤ 4) :
    inetPton6Go tp colon cur seen val (ds.map digitChar ++ r) =
      inetPton6Go tp colon cur (seen + ds.length) (ds.foldl (fun a d => a * 16 + d) val) r := by
  induction ds generalizing seen val with
  | nil => simp
  | cons d ds ih =>
    simp only [List.map_cons, List.cons_append, List.length_cons] at hl ⊢
    rw [inetPton6Go, digitVal_digitChar d (hd d (by simp))]
    have h4 : (seen == 4) = false := by simp; omega
    simp only [h4]
    rw [if_neg (by simp), ih _ _ (fun x hx => hd x (by simp [hx])) (by omega)]
    simp only [List.foldl_cons]
    congr 1
    omega

theorem pton6_group (tp : List Nat) (colon : Option Nat) (cur : Str) (w : Nat) (hw : w < 65536)
    (r : Str) : ∃ k, 0 < k ∧ inetPton6Go tp colon cur 0 0 (fmtHexRaw 0 w ++ r) =
      inetPton6Go tp colon cur k w r := by
  have hs := digitsOf_spec 16 w (by omega)
  have hl := digitsOf_length_le w hw
  refine ⟨(digitsOf 16 w).length, List.length_pos_iff.2 hs.1, ?_⟩
  rw [fmtHexRaw_zero, pton6_digits _ _ _ _ _ _ _ hs.2.1 (by omega)]
  have : (digitsOf 16 w).foldl (fun a d => a * 16 + d) 0 = w := hs.2.2.1
  rw [this]
  simp

/-- Words printed with a colon before each. -/
def colonHex : List Nat → Str
  | [] => []
  | w :: ws => ':' :: (fmtHexRaw 0 w ++ colonHex ws)

theorem digitVal_colon : digitVal ':' = none := by decide

theorem pton6_colonHex (ws : List Nat) (hws : ∀ w ∈ ws, w < 65536) (tp : List Nat)
    (colon : Option Nat) (cur : Str) (k v : Nat) (hk : 0 < k) (r : Str)
    (hl : tp.length + ws.length ≤ 8) :
    ∃ cur' k', 0 < k' ∧ inetPton6Go tp colon cur k v (colonHex ws ++ r) =
      inetPton6Go (tp ++ (v :: ws).dropLast) colon cur' k' ((v :: ws).getLast (by simp)) r := by
  induction ws generalizing tp cur k v with
  | nil => exact ⟨cur, k, hk, by simp [colonHex]⟩
  | cons w ws ih =>
    simp only [colonHex, List.cons_append, List.append_assoc, List.length_cons] at hl ⊢
    have hne : (fmtHexRaw 0 w ++ (colonHex ws ++ r)).isEmpty = false := by
      simp [fmtHexRaw_ne_nil]
    have hk0 : (k == 0) = false := by simp; omega
    rw [inetPton6Go, digitVal_colon]
    simp only [beq_self_eq_true, if_true, hk0, hne]
    rw [if_neg (by simp), if_neg (by simp), if_neg (by omega)]
    obtain ⟨k', hk', hg⟩ := pton6_group (tp ++ [v]) colon (fmtHexRaw 0 w ++ (colonHex ws ++ r)) w
      (hws w (by simp)) (colonHex ws ++ r)
    rw [hg]
    obtain ⟨cur2, k2, hk2, h2⟩ := ih (fun x hx => hws x (by simp [hx])) (tp ++ [v]) _ k' w hk'
      (by simp; omega)
    refine ⟨cur2, k2, hk2, ?_⟩
    rw [h2]
    simp

/-- Words joined with colons. -/
def joinHex : List Nat → Str
  | [] => []
  | w :: ws => fmtHexRaw 0 w ++ colonHex ws

/-- The end of the text after at least one group. -/
theorem pton6_end (tp : List Nat) (colon : Option Nat) (cur : Str) (k v : Nat) (hk : 0 < k)
    (hl : tp.length < 8) : inetPton6Go tp colon cur k v [] = some (tp ++ [v], colon) := by
  rw [inetPton6Go]
  simp [hk]
  omega

theorem pton6_joinHex_end (ws : List Nat) (hws : ∀ w ∈ ws, w < 65536) (hn : ws ≠ []) (tp : List Nat)
    (colon : Option Nat) (cur : Str) (hl : tp.length + ws.length ≤ 8) :
    inetPton6Go tp colon cur 0 0 (joinHex ws) = some (tp ++ ws, colon) := by
  cases ws with
  | nil => exact absurd rfl hn
  | cons w ws =>
    simp only [List.length_cons] at hl
    obtain ⟨k, hk, hg⟩ := pton6_group tp colon cur w (hws w (by simp)) (colonHex ws)
    obtain ⟨cur2, k2, hk2, h2⟩ := pton6_colonHex ws (fun x hx => hws x (by simp [hx])) tp colon cur k
      w hk [] (by omega)
    rw [List.append_nil] at h2
    rw [joinHex, hg, h2, pton6_end _ _ _ _ _ hk2 (by simp; omega)]
    simp only [List.append_assoc]
    rw [List.dropLast_append_getLast]

/-- Groups followed by `::`. -/
theorem pton6_joinHex_colons (ws : List Nat) (hws : ∀ w ∈ ws, w < 65536) (hn : ws ≠ []) (cur : Str)
    (r : Str) (hl : ws.length ≤ 8) :
    inetPton6Go [] none cur 0 0 (joinHex ws ++ ':' :: ':' :: r) =
      inetPton6Go ws (some ws.length) r 0 0 r := by
  cases ws with
  | nil => exact absurd rfl hn
  | cons w ws =>
    simp only [List.length_cons] at hl
    simp only [joinHex, List.append_assoc]
    obtain ⟨k, hk, hg⟩ := pton6_group [] none cur w (hws w (by simp)) (colonHex ws ++ ':' :: ':' :: r)
    obtain ⟨cur2, k2, hk2, h2⟩ := pton6_colonHex ws (fun x hx => hws x (by simp [hx])) [] none cur k
      w hk (':' :: ':' :: r) (by simp; omega)
    rw [hg, h2, inetPton6Go, digitVal_colon]
    have hk0 : (k2 == 0) = false := by simp; omega
    simp only [beq_self_eq_true, if_true, hk0]
    rw [if_neg (by simp), if_neg (by simp), if_neg (by simp; omega)]
    have hd : [] ++ (w :: ws).dropLast ++ [(w :: ws).getLast (by simp)] = w :: ws := by
      rw [List.nil_append, List.dropLast_append_getLast]
    rw [hd, inetPton6Go, digitVal_colon]
    simp

/-! ## embedded dotted part -/

theorem pton4_digits (done : List Nat) (ds : List Nat) (v : Nat) (r : Str)
    (hd : ∀ d ∈ ds, d < 10) (hv : v ≠ 0)
    (hle : ds.foldl (fun a d => a * 10 + d) v < 256) :
    inetPton4Go done (some v) (ds.map digitChar ++ r) =
      inetPton4Go done (some (ds.foldl (fun a d => a * 10 + d) v)) r := by
  induction ds generalizing v with
  | nil => simp
  | cons d ds ih =>
    have hd0 := hd d (by simp)
    simp only [List.map_cons, List.cons_append, List.foldl_cons] at hle ⊢
    rw [inetPton4Go, isDec_digitChar d hd0, digitVal_digitChar d (by omega)]
    have hmono : ∀ ds : List Nat, ∀ a, a ≤ ds.foldl (fun a d => a * 10 + d) a := by
      intro ds
      induction ds with
      | nil => intro a; simp
      | cons d ds ih => intro a; have := ih (a * 10 + d); simp only [List.foldl_cons]; omega
    have := hmono ds (v * 10 + d)
    have h0 : (v == 0) = false := by simp [hv]
    simp only [if_true, h0, Option.getD_some]
    rw [if_neg (by simp), if_neg (by omega)]
    exact ih (v * 10 + d) (fun x hx => hd x (by simp [hx])) (by omega) hle

theorem pton4_fmtD (done : List Nat) (n : Nat) (hn : n < 256) (r : Str) (hl : done.length < 4) :
    inetPton4Go done none (fmtD n ++ r) = inetPton4Go done (some n) r := by
  have hs := digitsOf_spec 10 n (by omega)
  have hhead : ∀ d, d < 10 → ∀ t, inetPton4Go done none (digitChar d :: t) =
      inetPton4Go done (some d) t := by
    intro d hd t
    rw [inetPton4Go, isDec_digitChar d hd, digitVal_digitChar d (by omega)]
    simp
    omega
  by_cases hz : n = 0
  · subst hz
    rw [show fmtD 0 = [digitChar 0] by decide]
    exact hhead 0 (by omega) r
  · unfold fmtD
    have hh := hs.2.2.2.2 hz
    have hv := hs.2.2.1
    have hd := hs.2.1
    cases hds : digitsOf 10 n with
    | nil => exact absurd hds hs.1
    | cons d ds =>
      rw [hds] at hh hv hd
      simp at hh
      have hfold : ds.foldl (fun a d => a * 10 + d) d = n := by
        rw [← hv]; simp [ofDigits]
      rw [List.map_cons, List.cons_append, hhead d (hd d (by simp)),
        pton4_digits done ds d r (fun x hx => hd x (by simp [hx])) hh (by omega), hfold]

theorem pton4_dotted (a b c d : UInt8) :
    inetPton4Go [] none (dotted [a, b, c, d]) =
      some [a.toNat, b.toNat, c.toNat, d.toNat] := by
  have ha := a.toNat_lt
  have hb := b.toNat_lt
  have hc := c.toNat_lt
  have hd := d.toNat_lt
  have hdot : isDec '.' = false := by decide
  rw [dotted_four, pton4_fmtD _ _ ha _ (by simp)]
  rw [inetPton4Go, hdot]
  simp only [beq_self_eq_true, if_true, List.length_nil]
  rw [if_neg (by simp), if_neg (by simp), pton4_fmtD _ _ hb _ (by simp), inetPton4Go, hdot]
  simp only [beq_self_eq_true, if_true, List.length_cons, List.length_nil]
  rw [if_neg (by simp), if_neg (by simp), pton4_fmtD _ _ hc _ (by simp), inetPton4Go, hdot]
  simp only [beq_self_eq_true, if_true, List.length_cons, List.length_nil]
  rw [if_neg (by simp), if_neg (by simp)]
  have := pton4_fmtD [c.toNat, b.toNat, a.toNat] d.toNat hd [] (by simp)
  rw [List.append_nil] at this
  rw [this, inetPton4Go]
  simp

/-- Digits of the first octet are first taken as hexadecimal digits; then the dot makes the reader
start over at `curtok`. -/
theorem pton6_v4 (tp : List Nat) (colon : Option Nat) (a b c d : UInt8) (hl : tp.length ≤ 6) :
    inetPton6Go tp colon (dotted [a, b, c, d]) 0 0 (dotted [a, b, c, d]) =
      some (tp ++ [a.toNat * 256 + b.toNat, c.toNat * 256 + d.toNat], colon) := by
  have ha := a.toNat_lt
  have hs := digitsOf_spec 10 a.toNat (by omega)
  have hlen : (digitsOf 10 a.toNat).length ≤ 4 := by
    have h256 : ∀ n, n < 256 → (digitsOf 10 n).length ≤ 4 := by decide +kernel
    exact h256 _ ha
  generalize hcur : dotted [a, b, c, d] = cur
  have hp4 := pton4_dotted a b c d
  rw [hcur] at hp4
  conv => lhs; arg 6; rw [← hcur, dotted_four]
  rw [fmtD, pton6_digits _ _ _ _ _ _ _ (fun x hx => by have := hs.2.1 x hx; omega) (by omega)]
  have hdot : digitVal '.' = none := by decide
  rw [inetPton6Go, hdot]
  have h2 : tp.length + 2 ≤ 8 := by omega
  simp [hp4, h2]

/-! ## IPv6: writing -/

/-- A run of zero words inside `all`. -/
def ZeroRun (all : List Nat) (r : Nat × Nat) : Prop :=
  ∃ pre suf, all = pre ++ (List.replicate r.2 0 ++ suf) ∧ pre.length = r.1

theorem betterRun_good {P : Nat × Nat → Prop} {best cur : Option (Nat × Nat)}
    (hb : ∀ r, best = some r → P r) (hc : ∀ r, cur = some r → P r) :
    ∀ r, betterRun best cur = some r → P r := by
  intro r h
  unfold betterRun at h
  split at h
  · exact hb r h
  · exact hc r h
  · split at h
    · exact hc r h
    · exact hb r h

theorem bestRunGo_good (all : List Nat) : ∀ (ws done : List Nat) (i : Nat)
    (best cur : Option (Nat × Nat)), all = done ++ ws → done.length = i →
    (∀ r, best = some r → ZeroRun all r) →
    (∀ r, cur = some r → ∃ pre, done = pre ++ List.replicate r.2 0 ∧ pre.length = r.1) →
    ∀ r, bestRunGo i best cur ws = some r → ZeroRun all r
  | [], done, i, best, cur, hall, hi, hb, hc => by
    show ∀ r, betterRun best cur = some r → _
    apply betterRun_good hb
    intro r hr
    obtain ⟨pre, h1, h2⟩ := hc r hr
    exact ⟨pre, [], by simp [hall, h1], h2⟩
  | w :: ws, done, i, best, cur, hall, hi, hb, hc => by
    rw [bestRunGo.eq_def]; dsimp only
    split
    · rename_i hw
      have hw : w = 0 := by simpa using hw
      subst hw
      split
      · apply bestRunGo_good all ws (done ++ [0]) (i + 1) best _ (by simp [hall]) (by simp [hi]) hb
        intro r hr
        cases hr
        exact ⟨done, by simp, hi⟩
      · rename_i b l
        apply bestRunGo_good all ws (done ++ [0]) (i + 1) best _ (by simp [hall]) (by simp [hi]) hb
        intro r hr
        cases hr
        obtain ⟨pre, h1, h2⟩ := hc (b, l) rfl
        refine ⟨pre, ?_, h2⟩
        simp only at h1
        rw [h1, List.replicate_succ']
        simp
    · apply bestRunGo_good all ws (done ++ [w]) (i + 1) _ none (by simp [hall]) (by simp [hi])
      · apply betterRun_good hb
        intro r hr
        obtain ⟨pre, h1, h2⟩ := hc r hr
        exact ⟨pre, w :: ws, by simp [hall, h1], h2⟩
      · intro r hr; cases hr

theorem bestRun_good (all : List Nat) (b l : Nat) (h : bestRun all = some (b, l)) :
    2 ≤ l ∧ ZeroRun all (b, l) := by
  unfold bestRun at h
  cases hg : bestRunGo 0 none none all with
  | none => rw [hg] at h; simp at h
  | some r =>
    obtain ⟨b', l'⟩ := r
    rw [hg] at h
    simp only at h
    split at h
    · cases h
    · cases h
      refine ⟨by omega, ?_⟩
      exact bestRunGo_good all all [] 0 none none (by simp) rfl (by intro r hr; cases hr)
        (by intro r hr; cases hr) _ hg

/-- Without a run all words are printed. -/
theorem ntop6Go_none (all : List Nat) (ws : List Nat) (i : Nat) :
    ntop6Go all none i ws = if i = 0 then joinHex ws else colonHex ws := by
  induction ws generalizing i with
  | nil => simp [ntop6Go, joinHex, colonHex]
  | cons w ws ih =>
    rw [ntop6Go, ih]
    by_cases h : i = 0 <;> simp [h, joinHex, colonHex]

/-- The words before the run. -/
theorem ntop6Go_pre (all : List Nat) (b l : Nat) (ws : List Nat) (r : List Nat) (i : Nat)
    (h : i + ws.length = b) :
    ntop6Go all (some (b, l)) i (ws ++ r) =
      (if i = 0 then joinHex ws else colonHex ws) ++ ntop6Go all (some (b, l)) b r := by
  induction ws generalizing i with
  | nil => simp at h; subst h; simp [joinHex, colonHex]
  | cons w ws ih =>
    simp only [List.length_cons] at h
    rw [List.cons_append, ntop6Go, ih (i + 1) (by omega)]
    have h1 : ¬ b ≤ i := by omega
    have h2 : b ≠ 0 := by omega
    by_cases h : i = 0 <;> simp [h, joinHex, colonHex, h1, h2]

/-- The words of the run after its first one. -/
theorem ntop6Go_run (all : List Nat) (b l : Nat) (k : Nat) (r : List Nat) (i : Nat)
    (h : i + k = b + l) (hb : b < i) :
    ntop6Go all (some (b, l)) i (List.replicate k 0 ++ r) = ntop6Go all (some (b, l)) (b + l) r := by
  induction k generalizing i with
  | zero => simp at h; subst h; simp
  | succ k ih =>
    rw [List.replicate_succ, List.cons_append, ntop6Go, ih (i + 1) (by omega) (by omega)]
    have h1 : b ≤ i := by omega
    have h2 : i < b + l := by omega
    have h3 : i ≠ b := by omega
    simp [h1, h2, h3]

/-- The words after the run, when no dotted form is used. -/
theorem ntop6Go_suf (all : List Nat) (b l : Nat) (ws : List Nat) (i : Nat) (h : b + l ≤ i)
    (hi : 0 < i) (hv : ¬ (b = 0 ∧ (l = 6 ∨ (l = 5 ∧ all.getD 5 0 = 0xffff)))) :
    ntop6Go all (some (b, l)) i ws = colonHex ws := by
  induction ws generalizing i with
  | nil => simp [ntop6Go, colonHex]
  | cons w ws ih =>
    rw [ntop6Go, ih (i + 1) (by omega) (by omega)]
    have h2 : ¬ i < b + l := by omega
    have h3 : i ≠ 0 := by omega
    have h4 : (i == 6 && (b == 0 && (l == 6 || (l == 5 && all.getD 5 0 == 0xffff)))) = false := by
      rw [← Bool.not_eq_true]
      intro hc
      simp only [Bool.and_eq_true, Bool.or_eq_true, beq_iff_eq] at hc
      exact hv hc.2
    simp only [h4]
    simp [h2, h3, colonHex]

theorem beBytes2 (w : Nat) : beBytes 2 w = [UInt8.ofNat (w / 256), UInt8.ofNat w] := by
  simp [beBytes]

theorem word_join (w : Nat) (h : w < 65536) :
    (UInt8.ofNat (w / 256)).toNat * 256 + (UInt8.ofNat w).toNat = w := by
  simp
  omega

/-- What `inet_ntop6` prints, in one of its four forms. -/
theorem ntop6_forms (ws : List Nat) (hl : ws.length = 8) (hw : ∀ w ∈ ws, w < 65536) :
    (inetNtop6 ws = joinHex ws) ∨
    (∃ pre l suf, ws = pre ++ (List.replicate l 0 ++ suf) ∧ 2 ≤ l ∧
      inetNtop6 ws = joinHex pre ++ ':' :: ':' :: joinHex suf) ∨
    (∃ a b c d, ws = List.replicate 6 0 ++
        [UInt8.toNat a * 256 + UInt8.toNat b, UInt8.toNat c * 256 + UInt8.toNat d] ∧
      inetNtop6 ws = ':' :: ':' :: dotted [a, b, c, d]) ∨
    (∃ a b c d, ws = List.replicate 5 0 ++ [0xffff,
        UInt8.toNat a * 256 + UInt8.toNat b, UInt8.toNat c * 256 + UInt8.toNat d] ∧
      inetNtop6 ws = ':' :: ':' :: (fmtHexRaw 0 0xffff ++ ':' :: dotted [a, b, c, d])) := by
  unfold inetNtop6
  cases hb : bestRun ws with
  | none =>
    left
    simp [ntop6Go_none]
  | some r =>
    right
    obtain ⟨b, l⟩ := r
    obtain ⟨hl2, pre, suf, hws, hpre⟩ := bestRun_good ws b l hb
    simp only at hws hpre
    have hlen : b + l + suf.length = 8 := by
      rw [hws] at hl; simp [hpre] at hl; omega
    have hstart : ntop6Go ws (some (b, l)) 0 ws =
        joinHex pre ++ ':' :: ntop6Go ws (some (b, l)) (b + l) suf := by
      have h1 : ntop6Go ws (some (b, l)) 0 (pre ++ (List.replicate l 0 ++ suf)) = _ :=
        ntop6Go_pre ws b l pre (List.replicate l 0 ++ suf) 0 (by omega)
      rw [← hws] at h1
      rw [h1, if_pos rfl]
      obtain ⟨k, rfl⟩ : ∃ k, l = k + 1 := ⟨l - 1, by omega⟩
      rw [List.replicate_succ, List.cons_append, ntop6Go,
        ntop6Go_run ws b (k + 1) k suf (b + 1) (by omega) (by omega)]
      simp
    by_cases hv : b = 0 ∧ (l = 6 ∨ (l = 5 ∧ ws.getD 5 0 = 0xffff))
    · right
      obtain ⟨hb0, hv⟩ := hv
      subst hb0
      have hpre : pre = [] := List.length_eq_zero_iff.1 hpre
      subst hpre
      rcases hv with h6 | ⟨h5, hf⟩
      · left
        subst h6
        obtain ⟨w6, w7, rfl⟩ := List.length_eq_two.1 (show suf.length = 2 by omega)
        · have h6 : w6 < 65536 := hw w6 (by rw [hws]; simp)
          have h7 : w7 < 65536 := hw w7 (by rw [hws]; simp)
          refine ⟨UInt8.ofNat (w6 / 256), UInt8.ofNat w6, UInt8.ofNat (w7 / 256), UInt8.ofNat w7,
            ?_, ?_⟩
          · rw [word_join _ h6, word_join _ h7, hws]; simp
          · dsimp only; rw [hstart]
            simp [ntop6Go, joinHex, beBytes2]
      · right
        subst h5
        obtain ⟨w5, w6, w7, rfl⟩ := List.length_eq_three.1 (show suf.length = 3 by omega)
        · have h6 : w6 < 65536 := hw w6 (by rw [hws]; simp)
          have h7 : w7 < 65536 := hw w7 (by rw [hws]; simp)
          have h5 : w5 = 0xffff := by rw [hws] at hf; simpa using hf
          subst h5
          refine ⟨UInt8.ofNat (w6 / 256), UInt8.ofNat w6, UInt8.ofNat (w7 / 256), UInt8.ofNat w7,
            ?_, ?_⟩
          · rw [word_join _ h6, word_join _ h7, hws]; simp
          · dsimp only; rw [hstart]
            have hf' : ws[5]?.getD 0 = 0xffff := by simpa using hf
            simp [ntop6Go, joinHex, beBytes2, hf']
    · left
      refine ⟨pre, l, suf, hws, hl2, ?_⟩
      dsimp only
      rw [hstart, ntop6Go_suf ws b l suf (b + l) (Nat.le_refl _) (by omega) hv]
      cases suf with
      | nil =>
        have : b + l = 8 := by simpa using hlen
        simp [this, colonHex, joinHex]
      | cons w suf =>
        have : b + l ≠ 8 := by simp at hlen; omega
        simp [this, colonHex, joinHex]

theorem joinHex_head (ws : List Nat) (hn : ws ≠ []) : ∃ c t, joinHex ws = c :: t ∧ isHex c = true := by
  cases ws with
  | nil => exact absurd rfl hn
  | cons w ws =>
    cases h : fmtHexRaw 0 w with
    | nil => exact absurd h (fmtHexRaw_ne_nil 0 w)
    | cons c t =>
      exact ⟨c, t ++ colonHex ws, by simp [joinHex, h], fmtHexRaw_isHex 0 w c (by simp [h])⟩

theorem inetPton6_noColon (c : Char) (t : Str) (h : c ≠ ':') :
    inetPton6 (c :: t) = (inetPton6Go [] none (c :: t) 0 0 (c :: t)).bind inetPton6Fin := by
  unfold inetPton6
  split
  · cases ‹c :: t = []›
  · rename_i heq; cases heq; exact absurd rfl h
  · rfl

theorem inetPton6_colons (t : Str) :
    inetPton6 (':' :: ':' :: t) = (inetPton6Go [] (some 0) t 0 0 t).bind inetPton6Fin := by
  unfold inetPton6
  simp only
  rw [inetPton6Go, digitVal_colon]
  simp

theorem inetPton6_ntop6 (ws : List Nat) (hl : ws.length = 8) (hw : ∀ w ∈ ws, w < 65536) :
    inetPton6 (inetNtop6 ws) = some ws := by
  rcases ntop6_forms ws hl hw with h | ⟨pre, l, suf, hws, hl2, h⟩ | ⟨a, b, c, d, hws, h⟩ |
    ⟨a, b, c, d, hws, h⟩
  · rw [h]
    have hn : ws ≠ [] := by intro h; rw [h] at hl; simp at hl
    obtain ⟨c, t, hc, hh⟩ := joinHex_head ws hn
    rw [hc, inetPton6_noColon c t (isHex_ne hh).2.1, ← hc,
      pton6_joinHex_end ws hw hn [] none _ (by simp; omega)]
    simp [inetPton6Fin, hl]
  · have hlen : pre.length + l + suf.length = 8 := by
      rw [hws] at hl; simp at hl; omega
    have hwp : ∀ w ∈ pre, w < 65536 := fun w hm => hw w (by rw [hws]; simp [hm])
    have hwsu : ∀ w ∈ suf, w < 65536 := fun w hm => hw w (by rw [hws]; simp [hm])
    have hfin : inetPton6Fin (pre ++ suf, some pre.length) = some ws := by
      have h1 : ¬ (pre.length + suf.length = 8) := by omega
      have h2 : 8 - (pre.length + suf.length) = l := by omega
      simp [inetPton6Fin, h1, h2, hws]
    have hend : ∀ cur, inetPton6Go pre (some pre.length) cur 0 0 (joinHex suf) =
        some (pre ++ suf, some pre.length) := by
      intro cur
      by_cases hs : suf = []
      · subst hs; simp [joinHex, inetPton6Go]
      · exact pton6_joinHex_end suf hwsu hs pre _ cur (by omega)
    rw [h]
    by_cases hp : pre = []
    · subst hp
      simp only [joinHex, List.nil_append, List.length_nil] at *
      rw [inetPton6_colons, hend]
      exact hfin
    · obtain ⟨c, t, hc, hh⟩ := joinHex_head pre hp
      have hj := pton6_joinHex_colons pre hwp hp (joinHex pre ++ ':' :: ':' :: joinHex suf)
        (joinHex suf) (by omega)
      rw [hc, List.cons_append, inetPton6_noColon c _ (isHex_ne hh).2.1, ← List.cons_append, ← hc,
        hj, hend]
      exact hfin
  · rw [h, inetPton6_colons, pton6_v4 [] _ a b c d (by simp)]
    simp [inetPton6Fin, hws]
  · rw [h, inetPton6_colons]
    obtain ⟨k, hk, hg⟩ := pton6_group [] (some 0)
      (fmtHexRaw 0 0xffff ++ ':' :: dotted [a, b, c, d]) 0xffff (by omega)
      (':' :: dotted [a, b, c, d])
    rw [hg, inetPton6Go, digitVal_colon]
    have hk0 : (k == 0) = false := by simp; omega
    have hne : (dotted [a, b, c, d]).isEmpty = false := by
      rw [dotted_four]; simp
    simp only [beq_self_eq_true, if_true, hk0, hne]
    rw [if_neg (by simp), if_neg (by simp), if_neg (by simp), pton6_v4 _ _ a b c d (by simp)]
    simp [inetPton6Fin, hws]

theorem words16_spec : ∀ (n : Nat) (b : Bytes), b.length = 2 * n →
    (words16 b).length = n ∧ (∀ w ∈ words16 b, w < 65536) ∧ (words16 b).flatMap (beBytes 2) = b
  | 0, b, h => by
    have : b = [] := List.length_eq_zero_iff.1 (by omega)
    subst this; simp [words16]
  | n + 1, [], h => by simp at h
  | n + 1, [_], h => by simp at h; omega
  | n + 1, a :: c :: rest, h => by
    obtain ⟨h1, h2, h3⟩ := words16_spec n rest (by simp at h; omega)
    have ha := a.toNat_lt
    have hc := c.toNat_lt
    refine ⟨by simp [words16, h1], ?_, ?_⟩
    · intro w hw
      simp only [words16, List.mem_cons] at hw
      rcases hw with rfl | hw
      · omega
      · exact h2 w hw
    · simp only [words16, List.flatMap_cons, h3, beBytes2]
      have e1 : (a.toNat * 256 + c.toNat) / 256 = a.toNat := by omega
      have e2 : UInt8.ofNat (a.toNat * 256 + c.toNat) = c := by
        apply UInt8.toNat_inj.1
        simp
      rw [e1, e2]
      simp

theorem colonHex_chars (ws : List Nat) : ∀ c ∈ colonHex ws, isHex c = true ∨ c = ':' := by
  induction ws with
  | nil => intro c hc; simp [colonHex] at hc
  | cons w ws ih =>
    intro c hc
    simp only [colonHex, List.mem_cons, List.mem_append] at hc
    rcases hc with h | h | h
    · exact Or.inr h
    · exact Or.inl (fmtHexRaw_isHex 0 w c h)
    · exact ih c h

theorem joinHex_chars (ws : List Nat) : ∀ c ∈ joinHex ws, isHex c = true ∨ c = ':' := by
  cases ws with
  | nil => intro c hc; simp [joinHex] at hc
  | cons w ws =>
    intro c hc
    simp only [joinHex, List.mem_append] at hc
    rcases hc with h | h
    · exact Or.inl (fmtHexRaw_isHex 0 w c h)
    · exact colonHex_chars ws c h

theorem ntop6_chars (ws : List Nat) (hl : ws.length = 8) (hw : ∀ w ∈ ws, w < 65536) :
    inetNtop6 ws ≠ [] ∧ ∀ c ∈ inetNtop6 ws, isHex c = true ∨ c = ':' ∨ c = '.' := by
  have hd : ∀ b : Bytes, ∀ c ∈ dotted b, isHex c = true ∨ c = ':' ∨ c = '.' := by
    intro b c hc
    rcases dotted_chars b c hc with h | h
    · exact Or.inl (isDec_isHex h)
    · exact Or.inr (Or.inr h)
  have hj : ∀ ws, ∀ c ∈ joinHex ws, isHex c = true ∨ c = ':' ∨ c = '.' := by
    intro ws c hc
    rcases joinHex_chars ws c hc with h | h
    · exact Or.inl h
    · exact Or.inr (Or.inl h)
  rcases ntop6_forms ws hl hw with h | ⟨pre, l, suf, hws, hl2, h⟩ | ⟨a, b, c, d, hws, h⟩ |
    ⟨a, b, c, d, hws, h⟩
  · rw [h]
    have hn : ws ≠ [] := by intro h; rw [h] at hl; simp at hl
    obtain ⟨c, t, hc, hh⟩ := joinHex_head ws hn
    exact ⟨by simp [hc], hj ws⟩
  · rw [h]
    refine ⟨by simp, ?_⟩
    intro x hx
    simp only [List.mem_append, List.mem_cons] at hx
    rcases hx with hx | hx | hx | hx
    · exact hj _ x hx
    · exact Or.inr (Or.inl hx)
    · exact Or.inr (Or.inl hx)
    · exact hj _ x hx
  · rw [h]
    refine ⟨by simp, ?_⟩
    intro x hx
    simp only [List.mem_cons] at hx
    rcases hx with hx | hx | hx
    · exact Or.inr (Or.inl hx)
    · exact Or.inr (Or.inl hx)
    · exact hd _ x hx
  · rw [h]
    refine ⟨by simp, ?_⟩
    intro x hx
    simp only [List.mem_cons, List.mem_append] at hx
    rcases hx with hx | hx | hx | hx | hx
    · exact Or.inr (Or.inl hx)
    · exact Or.inr (Or.inl hx)
    · exact Or.inl (fmtHexRaw_isHex 0 _ x hx)
    · exact Or.inr (Or.inl hx)
    · exact hd _ x hx

/-- `inet_pton(AF_INET6, inet_ntop(AF_INET6, b)) == b`; and the text is plain. -/
theorem inetNtop_spec (b : Bytes) (h : b.length = 16) : ∃ s, inetNtop b = .ok s ∧ s ≠ [] ∧
    Clean s ∧ (∀ c ∈ s, c ≠ '/') ∧ inetPton s = .ok b := by
  obtain ⟨h1, h2, h3⟩ := words16_spec 8 b h
  refine ⟨inetNtop6 (words16 b), by simp [inetNtop, h], ?_⟩
  obtain ⟨hne, hch⟩ := ntop6_chars _ h1 h2
  have hc : ∀ c ∈ inetNtop6 (words16 b), c ≠ '/' ∧ c ≠ '\x00' ∧ CleanChar c := by
    intro c hc
    rcases hch c hc with h | rfl | rfl
    · exact ⟨(isHex_ne h).1, (isHex_ne h).2.2.2.2.2.2, isHex_clean h⟩
    · decide
    · decide
  refine ⟨hne, fun c h => (hc c h).2.2, fun c h => (hc c h).1, ?_⟩
  unfold inetPton
  rw [contains_false_of (fun x hx => (hc x hx).2.1), inetPton6_ntop6 _ h1 h2]
  simp [h3]

end Ofpstr
