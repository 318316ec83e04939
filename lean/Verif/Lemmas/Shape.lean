import Verif.Lemmas.Enc

/-!
# The bytes every field encoder returns: header, value, mask
-/

namespace Ofpstr
open Spec

/-- Header and body, the body as long as the header was told. -/
def Shaped (key : Key) (bin : Bytes) (P : Nat → Bool → Prop) : Prop :=
  ∃ n hm body, bin = header key n hm ++ body ∧ body.length = (if hm then 2 * n else n) ∧ P n hm

theorem intBE_length (k : Nat) (v : Int) : (intBE k v).length = k := by simp [intBE]
theorem intLE_length (k : Nat) (v : Int) : (intLE k v).length = k := by simp [intLE]

theorem packU_length {k : Nat} {v : Int} {b : Bytes} (h : packU k v = .ok b) : b.length = k := by
  obtain ⟨n, _, _, rfl⟩ := (packU_iff k v b).1 h
  simp

theorem packAll_length {l : List (Nat × Int)} {b : Bytes} (h : packAll l = .ok b) :
    b.length = (l.map (·.1)).sum := by
  induction l generalizing b with
  | nil => cases h; rfl
  | cons x l ih =>
    rw [packAll] at h
    obtain ⟨a, ha, h⟩ := bind_ok h
    obtain ⟨c, hc, h⟩ := bind_ok h
    cases h
    simp [packU_length ha, ih hc]

theorem packLE_length {k : Nat} {v : Int} {b : Bytes} (h : packLE k v = .ok b) : b.length = k := by
  unfold packLE at h
  split at h
  · cases h; simp
  · cases h

theorem packSizesLE_length {s : List Nat} {l : List Int} {b : Bytes} (h : packSizesLE s l = .ok b) :
    b.length = s.sum := by
  induction s generalizing l b with
  | nil =>
    cases l with
    | nil => cases h; rfl
    | cons x l => cases h
  | cons k s ih =>
    cases l with
    | nil => cases h
    | cons x l =>
      rw [packSizesLE] at h
      obtain ⟨a, ha, h⟩ := bind_ok h
      obtain ⟨c, hc, h⟩ := bind_ok h
      cases h
      simp [packLE_length ha, ih hc]

theorem a2bHex_length (s : Str) (b : Bytes) (h : a2bHex s = .ok b) : s.length = 2 * b.length := by
  have key : ∀ n (s : Str) (b : Bytes), s.length ≤ n → a2bHex s = .ok b →
      s.length = 2 * b.length := by
    intro n
    induction n with
    | zero =>
      intro s b hl h
      cases s with
      | nil => cases h; rfl
      | cons _ _ => simp at hl
    | succ n ih =>
      intro s b hl h
      match s, hl, h with
      | [], _, h => cases h; rfl
      | [_], _, h => cases h
      | x :: y :: rest, hl, h =>
        rw [a2bHex] at h
        split at h
        · obtain ⟨r, hr, h⟩ := bind_ok h
          cases h
          have := ih rest r (by simp at hl; omega) hr
          simp [this]; omega
        · cases h
  exact key _ s b (Nat.le_refl _) h

theorem hexRun_length {n : Nat} {s g r : Str} (h : hexRun n s = some (g, r)) : g.length = n := by
  unfold hexRun at h
  split at h
  · rename_i hc
    simp only [Option.some.injEq, Prod.mk.injEq] at h
    rw [← h.1]
    simp only [Bool.and_eq_true, beq_iff_eq] at hc
    exact hc.1
  · cases h

theorem hexGroups_length (n : Nat) (sep : Char → Bool) (k : Nat) (s g : Str)
    (h : hexGroups n sep k s = some g) : g.length = n * k := by
  induction k generalizing s g with
  | zero => simp [hexGroups] at h; simp [h]
  | succ k ih =>
    cases k with
    | zero =>
      simp only [hexGroups, Option.map_eq_some_iff] at h
      obtain ⟨⟨a, b⟩, hr, rfl⟩ := h
      simp [hexRun_length hr]
    | succ k =>
      rw [hexGroups] at h
      split at h
      · rename_i g1 c rest hr
        split at h
        · simp only [Option.map_eq_some_iff] at h
          obtain ⟨a, ha, rfl⟩ := h
          have := ih rest a ha
          simp [hexRun_length hr, this]
          ring
        · cases h
      · cases h

theorem macScan_length {u v : Str} {l : Nat} (h : macScan u = .ok (v, l)) : v.length = 12 := by
  unfold macScan at h
  split at h
  · rename_i g hg; cases h; exact hexGroups_length _ _ _ _ _ hg
  · split at h
    · rename_i g hg; cases h; exact hexGroups_length _ _ _ _ _ hg
    · split at h
      · rename_i g hg; cases h; exact hexGroups_length _ _ _ _ _ hg
      · split at h
        · rename_i g hg; cases h; exact hexGroups_length _ _ _ _ _ hg
        · cases h

theorem inetAtonGo_parts (f : Nat) (ps : List Nat) (s : Str) (r : List Nat × Nat)
    (hp : ps.length ≤ 3) (h : inetAtonGo f ps s = some r) : r.1.length ≤ 3 := by
  induction f generalizing ps s with
  | zero => cases h
  | succ f ih =>
    cases s with
    | nil => cases h
    | cons c cs =>
      rw [inetAtonGo] at h
      dsimp only at h
      split at h
      · cases h
      · split at h
        · cases h
        · split at h
          · split at h
            · cases h
            · rename_i hc
              simp only [Bool.or_eq_true, decide_eq_true_eq, not_or] at hc
              exact ih _ _ (by simp; omega) h
          · split at h
            · cases h; exact hp
            · cases h
          · cases h; exact hp

theorem inetAton_length {s : Str} {b : Bytes} (h : inetAton s = .ok b) : b.length = 4 := by
  unfold inetAton at h
  split at h
  · cases h
  · split at h
    · cases h
    · rename_i ps v hg
      have := inetAtonGo_parts _ _ _ _ (by simp) hg
      dsimp only at h this
      split at h
      · cases h; simp; omega
      · cases h

theorem inetPton6Go_len (s : Str) (tp : List Nat) (colon : Option Nat) (cur : Str) (seen val : Nat)
    (r : List Nat × Option Nat) (ht : tp.length ≤ 8)
    (h : inetPton6Go tp colon cur seen val s = some r) : r.1.length ≤ 8 := by
  induction s generalizing tp colon cur seen val with
  | nil =>
    rw [inetPton6Go] at h
    split at h
    · split at h
      · cases h
      · cases h; simp; omega
    · cases h; exact ht
  | cons c cs ih =>
    rw [inetPton6Go] at h
    split at h
    · split at h
      · cases h
      · exact ih _ _ _ _ _ ht h
    · split at h
      · split at h
        · split at h
          · cases h
          · exact ih _ _ _ _ _ ht h
        · split at h
          · cases h
          · split at h
            · cases h
            · exact ih _ _ _ _ _ (by simp; omega) h
      · split at h
        · rename_i hc
          simp only [Bool.and_eq_true, decide_eq_true_eq] at hc
          split at h
          · cases h; simp; omega
          · cases h
        · cases h

theorem inetPton6Fin_len {x : List Nat × Option Nat} {w : List Nat} (hx : x.1.length ≤ 8)
    (h : inetPton6Fin x = some w) : w.length = 8 := by
  rcases x with ⟨tp, _ | k⟩
  · simp only [inetPton6Fin] at h
    split at h
    · rename_i hl; cases h; simpa using hl
    · cases h
  · simp only [inetPton6Fin] at h
    dsimp only at hx
    split at h
    · cases h
    · cases h; simp; omega

theorem words_length (w : List Nat) : (w.flatMap (beBytes 2)).length = 2 * w.length := by
  induction w with
  | nil => rfl
  | cons x w ih => simp only [List.flatMap_cons, List.length_append, beBytes_length, ih,
      List.length_cons]; omega

theorem inetPton_length {s : Str} {b : Bytes} (h : inetPton s = .ok b) : b.length = 16 := by
  unfold inetPton at h
  split at h
  · cases h
  · split at h
    · cases h
    · rename_i ws hw
      cases h
      have h8 : ws.length = 8 := by
        unfold inetPton6 at hw
        split at hw
        · cases hw
        · split at hw
          · obtain ⟨x, hx, hw⟩ := Option.bind_eq_some_iff.1 hw
            exact inetPton6Fin_len (inetPton6Go_len _ _ _ _ _ _ _ (by simp) hx) hw
          · cases hw
        · obtain ⟨x, hx, hw⟩ := Option.bind_eq_some_iff.1 hw
          exact inetPton6Fin_len (inetPton6Go_len _ _ _ _ _ _ _ (by simp) hx) hw
      rw [words_length, h8]

theorem ipv4Mask_length {s : Str} {b : Bytes} (h : ipv4Mask s = .ok b) : b.length = 4 := by
  unfold ipv4Mask at h
  split at h
  · rename_i hb; cases h; exact inetAton_length hb
  · obtain ⟨n, _, h⟩ := bind_ok h
    split at h
    · cases h
    · exact packU_length h
  · cases h

theorem ipv6Mask_length {s : Str} {b : Bytes} (h : ipv6Mask s = .ok b) : b.length = 16 := by
  unfold ipv6Mask at h
  split at h
  · rename_i hb; cases h; exact inetPton_length hb
  · obtain ⟨n, _, h⟩ := bind_ok h
    split at h
    · cases h
    · exact packAll_length h

theorem compCollect_length {s : List Nat} {u : Str} {b : Bytes} (h : compCollect s u = .ok b) :
    b.length = s.sum := by
  obtain ⟨_, _, h⟩ := bind_ok h
  exact packSizesLE_length h

theorem vhtCollect_length {u : Str} {b : Bytes} (h : vhtCollect u = .ok b) :
    b.length = vhtSizes.sum := by
  obtain ⟨_, _, h⟩ := bind_ok h
  exact packSizesLE_length h

theorem padMask_length (p m : Bytes) : (padMask p m).1.length = 2 * (padMask p m).2 := by
  unfold padMask
  dsimp only
  split
  · simp; omega
  · simp; omega

theorem portNames_length (size : Nat) (u : Str) (h : (portNames size u).2.isEmpty = false) :
    (portNames size u).2.length = size := by
  have key : ∀ (l : List (Nat × Str)) (st : Nat × Bytes), (st.2 = [] ∨ st.2.length = size) →
      ((l.foldl (init := st) fun st (v, name) =>
        if startsWith u (lowerStr name) || startsWith u (upperStr name) then
          (name.length, beBytes size (v % 256 ^ size)) else st).2 = [] ∨
      (l.foldl (init := st) fun st (v, name) =>
        if startsWith u (lowerStr name) || startsWith u (upperStr name) then
          (name.length, beBytes size (v % 256 ^ size)) else st).2.length = size) := by
    intro l
    induction l with
    | nil => intro st h; exact h
    | cons x l ih =>
      intro st h
      rw [List.foldl_cons]
      apply ih
      dsimp only
      split
      · right; simp
      · exact h
  rcases key ofpp (0, []) (Or.inl rfl) with h' | h'
  · unfold portNames at h; rw [h'] at h; simp at h
  · exact h'

/-- The number of value bytes a field encoder writes, if it is fixed. -/
def encSize : Enc → Option Nat
  | .uint n => some n
  | .port n => some n
  | .mac => some 6
  | .ipv4 => some 4
  | .ipv6 => some 16
  | .pkt => some 4
  | .hex => none
  | .ssid => none
  | .le n => some n
  | .rate => some 1
  | .ch => some 4
  | .comp s => some s.sum
  | .vht => some 12
  | .s8 => some 1

theorem shaped_plain (key : Key) (n : Nat) (body : Bytes) (P : Nat → Bool → Prop)
    (hb : body.length = n) (hP : P n false) : Shaped key (header key n false ++ body) P :=
  ⟨n, false, body, rfl, hb, hP⟩

theorem shaped_mask (key : Key) (n : Nat) (body : Bytes) (P : Nat → Bool → Prop)
    (hb : body.length = 2 * n) (hP : P n true) : Shaped key (header key n true ++ body) P :=
  ⟨n, true, body, rfl, hb, hP⟩

/-- Whatever the text, an encoder that returns writes a header with the length of what follows. -/
theorem encText_shape (key : Key) (k : Enc) (u : Str) (bin : Bytes) (l : Nat)
    (h : encText key k u = .ok (bin, l)) :
    Shaped key bin fun n _ => ∀ m, encSize k = some m → n = m := by
  cases k <;> simp only [encText] at h
  case uint n =>
    obtain ⟨⟨num, rlen⟩, _, h⟩ := bind_ok h
    dsimp only at h
    split at h
    · obtain ⟨⟨m, e⟩, _, h⟩ := bind_ok h
      cases h
      exact shaped_mask _ _ _ _ (by simp [intBE_length]; omega) (by simp [encSize])
    · cases h
      exact shaped_plain _ _ _ _ (by simp [intBE_length]) (by simp [encSize])
  case port n =>
    unfold portStr2bin at h
    dsimp only at h
    split at h
    · obtain ⟨⟨num, rlen⟩, _, h⟩ := bind_ok h
      obtain ⟨p, hp, h⟩ := bind_ok h
      cases h
      exact shaped_plain _ _ _ _ (packU_length hp) (by simp [encSize])
    · rename_i he
      cases h
      exact shaped_plain _ _ _ _ (portNames_length _ _ (by simpa using he)) (by simp [encSize])
  case mac =>
    obtain ⟨⟨v, rlen⟩, hv, h⟩ := bind_ok h
    have hv := macScan_length hv
    dsimp only at h
    split at h
    · obtain ⟨⟨m, e⟩, hm, h⟩ := bind_ok h
      have hm := macScan_length hm
      obtain ⟨p, hp, h⟩ := bind_ok h
      cases h
      have := a2bHex_length _ _ hp
      exact shaped_mask _ _ _ _ (by simp [hv, hm] at this; omega) (by simp [encSize])
    · obtain ⟨p, hp, h⟩ := bind_ok h
      cases h
      have := a2bHex_length _ _ hp
      exact shaped_plain _ _ _ _ (by omega) (by simp [encSize])
  case ipv4 =>
    unfold ipv4Str2bin at h
    dsimp only at h
    obtain ⟨p, hp, h⟩ := bind_ok h
    have hp := inetAton_length hp
    split at h
    · obtain ⟨m, hm, h⟩ := bind_ok h
      have hm := ipv4Mask_length hm
      cases h
      exact shaped_mask _ _ _ _ (by simp [hp, hm]) (by simp [encSize])
    · cases h
      exact shaped_plain _ _ _ _ hp (by simp [encSize])
  case ipv6 =>
    unfold ipv6Str2bin at h
    dsimp only at h
    obtain ⟨p, hp, h⟩ := bind_ok h
    have hp := inetPton_length hp
    split at h
    · obtain ⟨m, hm, h⟩ := bind_ok h
      have hm := ipv6Mask_length hm
      cases h
      exact shaped_mask _ _ _ _ (by simp [hp, hm]) (by simp [encSize])
    · cases h
      exact shaped_plain _ _ _ _ hp (by simp [encSize])
  case pkt =>
    obtain ⟨_, _, h⟩ := bind_ok h
    obtain ⟨_, _, h⟩ := bind_ok h
    obtain ⟨_, _, h⟩ := bind_ok h
    obtain ⟨p, hp, h⟩ := bind_ok h
    cases h
    exact shaped_plain _ _ _ _ (packAll_length hp) (by simp [encSize])
  case hex =>
    unfold hexStr2bin at h
    dsimp only at h
    obtain ⟨p, hp, h⟩ := bind_ok h
    split at h
    · obtain ⟨m, hm, h⟩ := bind_ok h
      cases h
      exact shaped_mask _ _ _ _ (padMask_length _ _) (by simp [encSize])
    · cases h
      exact shaped_plain _ _ _ _ rfl (by simp [encSize])
  case ssid =>
    unfold ssidStr2bin at h
    dsimp only at h
    split at h
    · cases h
    · obtain ⟨p, hp, h⟩ := bind_ok h
      split at h
      · obtain ⟨m, hm, h⟩ := bind_ok h
        cases h
        exact shaped_mask _ _ _ _ (padMask_length _ _) (by simp [encSize])
      · cases h
        exact shaped_plain _ _ _ _ rfl (by simp [encSize])
  case le n =>
    obtain ⟨⟨num, rlen⟩, _, h⟩ := bind_ok h
    dsimp only at h
    split at h
    · obtain ⟨_, _, h⟩ := bind_ok h
      cases h
    · cases h
      exact shaped_plain _ _ _ _ (by simp [intLE_length]) (by simp [encSize])
  case rate =>
    obtain ⟨⟨⟨num, den⟩, rlen⟩, _, h⟩ := bind_ok h
    dsimp only at h
    split at h
    · cases h
    · split at h
      · obtain ⟨p, hp, h⟩ := bind_ok h
        cases h
        exact shaped_plain _ _ _ _ (packU_length hp) (by simp [encSize])
      · split at h
        · obtain ⟨p, hp, h⟩ := bind_ok h
          cases h
          exact shaped_plain _ _ _ _ (packU_length hp) (by simp [encSize])
        · cases h
  case ch =>
    unfold chStr2bin at h
    obtain ⟨⟨v1, l1⟩, _, h⟩ := bind_ok h
    obtain ⟨_, _, h⟩ := bind_ok h
    obtain ⟨⟨v2, l2⟩, _, h⟩ := bind_ok h
    obtain ⟨p, hp, h⟩ := bind_ok h
    have hp := packAll_length hp
    dsimp only at h
    split at h
    · split at h
      all_goals
        obtain ⟨⟨m1, l3⟩, _, h⟩ := bind_ok h
        dsimp only at h
        split at h
        · obtain ⟨⟨m2, l4⟩, _, h⟩ := bind_ok h
          obtain ⟨m, hm, h⟩ := bind_ok h
          have hm := packAll_length hm
          cases h
          exact shaped_mask _ _ _ _ (by simp at hp hm; simp [hp, hm]) (by simp [encSize])
        · obtain ⟨m, hm, h⟩ := bind_ok h
          have hm := packAll_length hm
          cases h
          exact shaped_mask _ _ _ _ (by simp at hp hm; simp [hp, hm]) (by simp [encSize])
    · cases h
      exact shaped_plain _ _ _ _ hp (by simp [encSize])
  case comp s =>
    unfold compStr2bin at h
    dsimp only at h
    obtain ⟨p, hp, h⟩ := bind_ok h
    have hp := compCollect_length hp
    split at h
    · obtain ⟨m, hm, h⟩ := bind_ok h
      have hm := compCollect_length hm
      cases h
      exact shaped_mask _ _ _ _ (by simp [hp, hm]; omega) (by simp [encSize])
    · cases h
      exact shaped_plain _ _ _ _ hp (by simp [encSize])
  case vht =>
    unfold vhtStr2bin at h
    dsimp only at h
    obtain ⟨p, hp, h⟩ := bind_ok h
    have hp := vhtCollect_length hp
    split at h
    · obtain ⟨m, hm, h⟩ := bind_ok h
      have hm := vhtCollect_length hm
      cases h
      exact shaped_mask _ _ _ _ (by simp [hp, hm]; omega) (by simp [encSize, vhtSizes])
    · cases h
      exact shaped_plain _ _ _ _ hp (by simp [encSize, vhtSizes])
  case s8 =>
    obtain ⟨⟨num, rlen⟩, _, h⟩ := bind_ok h
    obtain ⟨p, hp, h⟩ := bind_ok h
    cases h
    refine shaped_plain _ _ _ _ ?_ (by simp [encSize])
    unfold packS8 at hp
    split at hp
    · cases hp; rfl
    · cases hp

end Ofpstr
