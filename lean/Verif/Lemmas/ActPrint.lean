import Verif.Lemmas.NxPrint
import Verif.Lemmas.ActEnds

/-!
# Printed actions

Every body of a Nicira action is printed or refused, and so is every list of actions.
-/

namespace Ofpstr
open Spec

set_option linter.unusedSimpArgs false

theorem head_total (b : Bytes) (h : 4 ≤ b.length) : (∃ s r, HeadShown b s r) ∨ ∃ e, HeadFails b e := by
  match b, h with
  | a :: b :: c :: l :: r, _ => exact id_all a b c l r

theorem move_all (p : Bytes) : (∃ s, NxText 6 p s) ∨ ∃ e, NxFails 6 p e := by
  by_cases hl : p.length < 6
  · exact Or.inr ⟨_, .short 6 6 p (by decide) hl⟩
  obtain ⟨p, q, hp, rfl⟩ := cut_list 6 p (by omega)
  by_cases hq : q.length < 4
  · exact Or.inr ⟨_, .moveShort p q hp hq⟩
  rcases head_total q (by omega) with ⟨s, r, hs⟩ | ⟨e, he⟩
  · by_cases hr : r.length < 4
    · exact Or.inr ⟨_, .moveDestShort p q s r hp hs hr⟩
    rcases head_total r (by omega) with ⟨d, r', hd⟩ | ⟨e, he⟩
    · left
      obtain ⟨a, b, c, ha, hb, hc, hw⟩ := cut_six p hp
      rw [hw]
      match q, Nat.le_of_not_lt hq with
      | x :: y :: z :: l :: q', _ =>
        exact ⟨_, .regMove a b c _ s l r d r' _ _ ha hb hc hs rfl hd ((bitsShown_iff _ _ _ _ _).2 rfl)
          ((bitsShown_iff _ _ _ _ _).2 rfl)⟩
    · exact Or.inr ⟨e, .moveDest p q s r e hp hs he⟩
  · exact Or.inr ⟨e, .moveSource p q e hp he⟩

theorem load_all (p : Bytes) : (∃ s, NxText 7 p s) ∨ ∃ e, NxFails 7 p e := by
  by_cases hl : p.length < 14
  · exact Or.inr ⟨_, .short 7 14 p (by decide) hl⟩
  obtain ⟨on, r, ho, rfl⟩ := cut16 p (by omega)
  rw [List.length_append, u16_length] at hl
  obtain ⟨id, r, hi, rfl⟩ := cut_list 4 r (by omega)
  rw [List.length_append, hi] at hl
  rcases head_total id (by omega) with ⟨s, r', hs⟩ | ⟨e, he⟩
  · obtain ⟨v, r, hv, rfl⟩ := cut64 r (by omega)
    cases hs with
    | field f hm l r'' h1 h2 =>
      have : r' = [] := by
        rw [List.length_append, u16_length] at hi
        simp [fieldByte, u8_length] at hi
        exact List.eq_nil_of_length_eq_zero (by omega)
      subst this
      obtain ⟨g, hg, hn⟩ := shown_named f h1
      have hw : (u16 f.cls ++ (fieldByte f hm ++ [l])) ++ (u64 v ++ r) =
          u16 f.cls ++ (fieldByte f hm ++ l :: (u64 v ++ r)) := by simp
      rw [hw]
      by_cases hb : ∃ b, LoadShown f g on v b
      · obtain ⟨b, hb⟩ := hb
        rcases go_all b with ⟨ss, h⟩ | ⟨e, h⟩
        · exact Or.inl ⟨_, .regLoad f g hm on l v r b ss h1 h2 hg hn ho hv hb h⟩
        · exact Or.inr ⟨_, .load f g hm on l v r b e h1 h2 hg hn ho hv hb h⟩
      · exact Or.inr ⟨_, .loadLong f g hm on l v r h1 h2 hg hn ho hv fun b h => hb ⟨b, h⟩⟩
    | exp f hm l r'' h1 h2 =>
      rw [List.length_append, u16_length] at hi
      simp [fieldByte, u8_length, u32_length] at hi
      omega
    | otherExp x l i r'' h1 h2 =>
      rw [List.length_append, u16_length] at hi
      simp [u32_length] at hi
      omega
    | otherClass c x l r'' h1 h2 =>
      have : r' = [] := by
        rw [List.length_append, u16_length] at hi
        simp at hi
        exact List.eq_nil_of_length_eq_zero (by omega)
      subst this
      have hw : (u16 c ++ [x, l]) ++ (u64 v ++ r) = u16 c ++ x :: l :: (u64 v ++ r) := by simp
      rw [hw]
      exact Or.inr ⟨_, .loadClass (u16 on) c x l _ (u16_length on) (by simp [u64_length]) h1 h2⟩
  · exact Or.inr ⟨e, .loadField (u16 on) id r e (u16_length on) hi (by omega) he⟩

theorem multipath_either (p : Bytes) : (∃ s, NxText 10 p s) ∨ ∃ e, NxFails 10 p e := by
  by_cases hl : p.length < 18
  · exact Or.inr ⟨_, .short 10 18 p (by decide) hl⟩
  obtain ⟨p, q, hp, rfl⟩ := cut_list 18 p (by omega)
  by_cases hf : ∃ e, HeadFails q e
  · obtain ⟨e, he⟩ := hf
    exact Or.inr ⟨e, .multipathField p q e hp he⟩
  obtain ⟨hash, r, hh, rfl⟩ := cut16 p (by omega)
  rw [List.length_append, u16_length] at hp
  obtain ⟨basis, r, hb, rfl⟩ := cut16 r (by omega)
  rw [List.length_append, u16_length] at hp
  obtain ⟨x, r, hx, rfl⟩ := cut_list 2 r (by omega)
  rw [List.length_append, hx] at hp
  obtain ⟨alg, r, ha, rfl⟩ := cut16 r (by omega)
  rw [List.length_append, u16_length] at hp
  by_cases hc : 2 ≤ hash ∨ 4 ≤ alg
  · have := NxFails.multipathName hash basis x alg r q hh hb hx ha (by omega) (fun e he => hf ⟨e, he⟩) hc
    simp only [List.append_assoc]
    exact Or.inr ⟨_, this⟩
  · obtain ⟨s, hs⟩ := name_of_not fun e he => hf ⟨e, he⟩
    obtain ⟨link, r, hk, rfl⟩ := cut16 r (by omega)
    rw [List.length_append, u16_length] at hp
    obtain ⟨arg, r, hg, rfl⟩ := cut32 r (by omega)
    rw [List.length_append, u32_length] at hp
    obtain ⟨y, r, hy, rfl⟩ := cut_list 2 r (by omega)
    rw [List.length_append, hy] at hp
    obtain ⟨on, r, ho, rfl⟩ := cut16 r (by omega)
    rw [List.length_append, u16_length] at hp
    obtain rfl : r = [] := List.eq_nil_of_length_eq_zero (by omega)
    rcases get_total hashWords hash with ⟨w, hw⟩ | hw
    · rcases get_total mpAlgWords alg with ⟨w', hw'⟩ | hw'
      · have := NxText.multipath hash basis x alg link arg y on q w w' s _ _ _ _ hh hb hx ha hk hg hy ho hw hw'
          ((nameShown_iff _ _).2 hs) (decimal_fmtD _) (decimal_fmtD _) ((hexShown_iff _ _ _).2 rfl)
          ((rangeShown_iff _ _ _ _).2 rfl)
        simp only [List.append_assoc, List.nil_append]
        exact Or.inl ⟨_, this⟩
      · exact absurd (show (4 : Nat) ≤ alg from hw') (by omega)
    · exact absurd (show (2 : Nat) ≤ hash from hw) (by omega)

/-- The fixed part of `bundle` and `bundle_load`. -/
theorem bundle_cut (p : Bytes) (hl : 22 ≤ p.length) : ∃ alg hash basis id n x q, alg < 65536 ∧ hash < 65536 ∧ basis < 65536 ∧
    id.length = 4 ∧ n < 65536 ∧ x.length = 10 ∧ p = u16 alg ++ (u16 hash ++ (u16 basis ++ (id ++ (u16 n ++ (x ++ q))))) := by
  obtain ⟨alg, r, h1, rfl⟩ := cut16 p (by omega)
  rw [List.length_append, u16_length] at hl
  obtain ⟨hash, r, h2, rfl⟩ := cut16 r (by omega)
  rw [List.length_append, u16_length] at hl
  obtain ⟨basis, r, h3, rfl⟩ := cut16 r (by omega)
  rw [List.length_append, u16_length] at hl
  obtain ⟨id, r, h4, rfl⟩ := cut_list 4 r (by omega)
  rw [List.length_append, h4] at hl
  obtain ⟨n, r, h5, rfl⟩ := cut16 r (by omega)
  rw [List.length_append, u16_length] at hl
  obtain ⟨x, q, h6, rfl⟩ := cut_list 10 r (by omega)
  exact ⟨alg, hash, basis, id, n, x, q, h1, h2, h3, h4, h5, h6, rfl⟩

theorem bundles_all (t : Nat) (ht : t ∈ [12, 13]) (p : Bytes) : (∃ s, NxText t p s) ∨ ∃ e, NxFails t p e := by
  by_cases hl : p.length < 22
  · refine Or.inr ⟨_, .short t 22 p ?_ hl⟩
    simp only [List.mem_cons, List.not_mem_nil, or_false] at ht
    rcases ht with rfl | rfl <;> decide
  obtain ⟨alg, hash, basis, id, n, x, q, h1, h2, h3, h4, h5, h6, rfl⟩ := bundle_cut p (by omega)
  by_cases hq : q.length < 2 * n
  · have := NxFails.slaves t (u16 alg ++ (u16 hash ++ (u16 basis ++ id))) n x q ht (by simp [u16_length, h4]) h5 h6 hq
    simp only [List.append_assoc] at this
    exact Or.inr ⟨_, this⟩
  by_cases hc : 2 ≤ alg ∨ 2 ≤ hash
  · have := NxFails.bundleName t alg hash (u16 basis ++ id) n x q ht h1 h2 (by simp [u16_length, h4]) h5 h6 (by omega) hc
    simp only [List.append_assoc] at this
    exact Or.inr ⟨_, this⟩
  rcases get_total hashWords hash with ⟨w, hw⟩ | hw
  swap
  · exact absurd (show (2 : Nat) ≤ hash from hw) (by omega)
  rcases get_total bdAlgWords alg with ⟨w', hw'⟩ | hw'
  swap
  · exact absurd (show (2 : Nat) ≤ alg from hw') (by omega)
  by_cases hf : ∃ e, HeadFails id e
  · obtain ⟨e, he⟩ := hf
    exact Or.inr ⟨e, .bundleField t alg hash basis id n x q e ht (by omega) (by omega) h3 h4 h5 h6 (by omega) he⟩
  obtain ⟨s, hs⟩ := name_of_not fun e he => hf ⟨e, he⟩
  obtain ⟨ns, r, hn, hi, rfl⟩ := cut_words n q (by omega)
  subst hn
  have hts := (numsShown_iff slaveShown_iff (ns.map bundlePortText) ns).2 ⟨hi, rfl⟩
  simp only [List.mem_cons, List.not_mem_nil, or_false] at ht
  rcases ht with rfl | rfl
  · exact Or.inl ⟨_, .bundle alg hash basis id x ns r w' w s _ _ h1 h2 h3 h4 h5 h6 hw' hw ((nameShown_iff _ _).2 hs)
      (decimal_fmtD _) hts⟩
  · obtain ⟨on, y, ho, rfl⟩ := cut16 x (by omega)
    rw [List.length_append, u16_length] at h6
    obtain ⟨id', x, hi', rfl⟩ := cut_list 4 y (by omega)
    rw [List.length_append, hi'] at h6
    simp only [List.append_assoc]
    rcases name_total id' with ⟨s', hs'⟩ | ⟨e, he⟩
    · exact Or.inl ⟨_, .bundleLoad alg hash basis id ns on id' x r w' w s s' _ _ _ h1 h2 h3 h4 h5 ho hi' (by omega) hw' hw
        ((nameShown_iff _ _).2 hs) hs' (decimal_fmtD _) ((rangeShown_iff _ _ _ _).2 rfl) hts⟩
    · exact Or.inr ⟨e, .bundleDest alg hash basis id ns.length on id' x (wordsOf ns ++ r) e (by omega) (by omega) h3 h4 h5 ho
        hi' (by omega) (by omega) (fun e he => hf ⟨e, he⟩) he⟩

theorem table_text (y : UInt8) : ∃ t, (y = 255 ∧ t = t!"all") ∨ (y ≠ 255 ∧ Decimal t y.toNat) := by
  by_cases h : y = 255
  · exact ⟨_, Or.inl ⟨h, rfl⟩⟩
  · exact ⟨_, Or.inr ⟨h, decimal_fmtD _⟩⟩

theorem nx_all (t : Nat) (p : Bytes) (ht : ∃ a ∈ nxActs, a.2 = t) : (∃ s, NxText t p s) ∨ ∃ e, NxFails t p e := by
  obtain ⟨a, ha, rfl⟩ := ht
  simp only [nxActs, List.mem_cons, List.not_mem_nil, or_false] at ha
  rcases ha with rfl | rfl | rfl | rfl | rfl | rfl | rfl | rfl | rfl | rfl | rfl | rfl | rfl | rfl | rfl | rfl | rfl
  · show (∃ s, NxText 1 p s) ∨ _
    by_cases hl : p.length < 2
    · exact Or.inr ⟨_, .short 1 2 p (by decide) hl⟩
    · obtain ⟨n, r, hn, rfl⟩ := cut16 p (by omega)
      exact Or.inl ⟨_, .resubmit n r _ hn ((resubmitShown_iff _ _).2 rfl)⟩
  · show (∃ s, NxText 2 p s) ∨ _
    by_cases hl : p.length < 4
    · exact Or.inr ⟨_, .short 2 4 p (by decide) hl⟩
    · obtain ⟨n, r, hn, rfl⟩ := cut32 p (by omega)
      exact Or.inl ⟨_, .tunnel n r _ hn ((hexShown_iff _ _ _).2 rfl)⟩
  · exact Or.inl ⟨_, .popQueue p⟩
  · exact move_all p
  · exact load_all p
  · exact Or.inl ⟨_, .note p⟩
  · show (∃ s, NxText 9 p s) ∨ _
    by_cases hl : p.length < 8
    · exact Or.inr ⟨_, .short 9 8 p (by decide) hl⟩
    · obtain ⟨n, r, hn, rfl⟩ := cut64 p (by omega)
      exact Or.inl ⟨_, .tunnel64 n r _ hn ((hexShown_iff _ _ _).2 rfl)⟩
  · exact multipath_either p
  · exact bundles_all 12 (by decide) p
  · exact bundles_all 13 (by decide) p
  · show (∃ s, NxText 14 p s) ∨ _
    by_cases hl : p.length < 3
    · exact Or.inr ⟨_, .short 14 3 p (by decide) hl⟩
    · obtain ⟨n, r, hn, rfl⟩ := cut16 p (by omega)
      rw [List.length_append, u16_length] at hl
      obtain ⟨y, r, rfl⟩ := cut_byte r (by omega)
      obtain ⟨t, ht⟩ := table_text y
      exact Or.inl ⟨_, .resubmitTable n y r _ t hn ((resubmitShown_iff _ _).2 rfl) ht⟩
  · show (∃ s, NxText 15 p s) ∨ _
    by_cases hl : p.length < 14
    · exact Or.inr ⟨_, .short 15 14 p (by decide) hl⟩
    · obtain ⟨on, r, ho, rfl⟩ := cut16 p (by omega)
      rw [List.length_append, u16_length] at hl
      obtain ⟨id, r, hi, rfl⟩ := cut_list 4 r (by omega)
      rw [List.length_append, hi] at hl
      rcases name_total id with ⟨s, hs⟩ | ⟨e, he⟩
      · obtain ⟨a, b, c, l, rfl⟩ := cut_four id hi
        exact Or.inl ⟨_, .outputReg on a b c l r s _ ho (by omega) hs ((bitsShown_iff _ _ _ _ _).2 rfl)⟩
      · exact Or.inr ⟨e, .outputField (u16 on) id r e (u16_length on) hi (by omega) he⟩
  · show (∃ s, NxText 16 p s) ∨ _
    by_cases hl : p.length < 22
    · exact Or.inr ⟨_, .short 16 22 p (by decide) hl⟩
    · by_cases hp : ∃ y r, p = pad 17 ++ y :: (pad 4 ++ r)
      · obtain ⟨y, r, rfl⟩ := hp
        rcases specs_all (r.length + 1) none r (by omega) with ⟨ss, h⟩ | ⟨e, h⟩
        · exact Or.inl ⟨_, .learn y r ss h⟩
        · exact Or.inr ⟨_, .learn y r e h⟩
      · exact Or.inr ⟨_, .learnFixed p (by omega) fun y r h => hp ⟨y, r, h⟩⟩
  · exact Or.inl ⟨_, .exit p⟩
  · show (∃ s, NxText 21 p s) ∨ _
    by_cases hl : p.length < 2
    · exact Or.inr ⟨_, .short 21 2 p (by decide) hl⟩
    · obtain ⟨n, q, hn, rfl⟩ := cut16 p (by omega)
      by_cases hq : q.length < 4 + 2 * n
      · exact Or.inr ⟨_, .ids n q hn hq⟩
      · obtain ⟨x, q, hx, rfl⟩ := cut_list 4 q (by omega)
        rw [List.length_append, hx] at hq
        obtain ⟨ns, r, rfl, hi, rfl⟩ := cut_words n q (by omega)
        exact Or.inl ⟨_, .cntIds x ns r _ hx hn ((numsShown_iff (hexShown_iff 0) _ ns).2 ⟨hi, rfl⟩)⟩
  · show (∃ s, NxText 32 p s) ∨ _
    by_cases hl : p.length < 8
    · exact Or.inr ⟨_, .short 32 8 p (by decide) hl⟩
    · obtain ⟨on, r, ho, rfl⟩ := cut16 p (by omega)
      rw [List.length_append, u16_length] at hl
      obtain ⟨x, r, hx, rfl⟩ := cut_list 2 r (by omega)
      rw [List.length_append, hx] at hl
      match r, (show 4 ≤ r.length by omega) with
      | a :: b :: c :: l :: r, _ =>
        rcases id_all a b c l r with ⟨s, r', hs⟩ | ⟨e, he⟩
        · exact Or.inl ⟨_, .outputReg2 on x a b c l r s r' _ ho hx hs ((bitsShown_iff _ _ _ _ _).2 rfl)⟩
        · have := NxFails.output2Field (u16 on ++ x) (a :: b :: c :: l :: r) e (by simp [u16_length, hx]) he
          rw [List.append_assoc] at this
          exact Or.inr ⟨e, this⟩
  · show (∃ s, NxText 33 p s) ∨ _
    rcases (outcome_match1 p).2.2 with ⟨s, ⟨hl, _⟩ | hs⟩ | ⟨e, he⟩
    · exact Or.inl ⟨_, .regLoad2Short p hl⟩
    · exact Or.inl ⟨_, .regLoad2 p s hs⟩
    · exact Or.inr ⟨e, .regLoad2 p e he⟩

/-! ## One action -/

theorem nx_types : ∀ n, lookupActDec (.nx n) ≠ none → ∃ a ∈ nxActs, a.2 = n := by
  intro n h
  unfold lookupActDec at h
  cases hf : act2strTable.find? (fun e => e.1 == .nx n) with
  | none => rw [hf] at h; exact absurd rfl h
  | some e =>
    have h1 := List.mem_of_find?_eq_some hf
    have h2 : e.1 = .nx n := by simpa using List.find?_some hf
    have key : ∀ e ∈ act2strTable, ∀ k, e.1 = ActKey.nx k → ∃ a ∈ nxActs, a.2 = k := by
      have : ∀ e ∈ act2strTable, (match e.1 with | .nx k => decide (∃ a ∈ nxActs, a.2 = k) | .std _ => true) = true := by
        decide +kernel
      intro e he k hk
      have := this e he
      rw [hk] at this
      exact of_decide_eq_true this
    exact key e h1 n h2

theorem std_types : ∀ n, lookupActDec (.std n) ≠ none → n = 0 ∨ ∃ a ∈ stdActs, a.type = n := by
  intro n h
  unfold lookupActDec at h
  cases hf : act2strTable.find? (fun e => e.1 == .std n) with
  | none => rw [hf] at h; exact absurd rfl h
  | some e =>
    have h1 := List.mem_of_find?_eq_some hf
    have h2 : e.1 = .std n := by simpa using List.find?_some hf
    have key : ∀ e ∈ act2strTable, ∀ k, e.1 = ActKey.std k → k = 0 ∨ ∃ a ∈ stdActs, a.type = k := by
      have : ∀ e ∈ act2strTable, (match e.1 with
          | .std k => decide (k = 0 ∨ ∃ a ∈ stdActs, a.type = k)
          | .nx _ => true) = true := by
        decide +kernel
      intro e he k hk
      have := this e he
      rw [hk] at this
      exact of_decide_eq_true this
    exact key e h1 n h2

/-- `act2strOne` on the parts of an action that is not of an experimenter. -/
theorem one_std (t l : Nat) (r : Bytes) (ht : t < 65536) (hl : l < 65536) (hx : t ≠ 0xffff) :
    act2strOne (u16 t ++ (u16 l ++ r)) = if t = 25 then (do
        let s ← oxm2str1 r
        .ok (t!"set_" ++ s))
      else match lookupActDec (.std t) with
        | some d => runActDec d (r.take (l - 4))
        | none => .ok t!"?" := by
  generalize hw : u16 t ++ (u16 l ++ r) = w
  have e0 : uAt w 0 2 = t := by rw [← hw]; uat
  have e2 : uAt w 2 2 = l := by rw [← hw]; uat
  have hc : u16 t ++ (u16 l ++ r) = (u16 t ++ u16 l) ++ r := by simp only [List.append_assoc]
  have ed : w.drop 4 = r := by rw [← hw, hc]; exact drop_pre _ _ 4 (by simp [u16_length])
  have es : slice w 4 l = r.take (l - 4) := by
    unfold slice
    rw [List.drop_take, ed]
  have ek : actKey w = .ok (.std t, 4) := by
    unfold actKey
    dsimp only
    rw [e0, if_neg]
    rw [beq_iff_eq]
    exact hx
  unfold act2strOne
  dsimp only
  rw [e2, ek, ok_bind, ed]
  dsimp only
  rw [es]
  by_cases c : t = 25
  · rw [if_pos c, if_pos (show ((ActKey.std t).num == OFPAT_SET_FIELD) = true by rw [beq_iff_eq]; exact c)]
  · rw [if_neg c, if_neg (show ¬ ((ActKey.std t).num == OFPAT_SET_FIELD) = true by rw [beq_iff_eq]; exact c)]
    rfl

/-- The same for the actions of an experimenter. -/
theorem one_nx (l t : Nat) (r : Bytes) (hl : l < 65536) (ht : t < 65536) :
    act2strOne (u16 0xffff ++ (u16 l ++ (u32 0x2320 ++ (u16 t ++ r)))) = if t = 25 then (do
        let s ← oxm2str1 (u32 0x2320 ++ (u16 t ++ r))
        .ok (t!"set_" ++ s))
      else match lookupActDec (.nx t) with
        | some d => runActDec d (r.take (l - 10))
        | none => .ok t!"?" := by
  generalize hw : u16 0xffff ++ (u16 l ++ (u32 0x2320 ++ (u16 t ++ r))) = w
  have e0 : uAt w 0 2 = 0xffff := by rw [← hw]; uat
  have e2 : uAt w 2 2 = l := by rw [← hw]; uat
  have e4 : uAt w 4 4 = 0x2320 := by rw [← hw]; uat
  have e8 : uAt w 8 2 = t := by rw [← hw]; uat
  have el : 10 ≤ w.length := by rw [← hw]; simp [u16_length, u32_length]; omega
  have ed : w.drop 4 = u32 0x2320 ++ (u16 t ++ r) := by
    rw [← hw, show u16 0xffff ++ (u16 l ++ (u32 0x2320 ++ (u16 t ++ r))) = (u16 0xffff ++ u16 l) ++ (u32 0x2320 ++ (u16 t ++ r)) by
      simp only [List.append_assoc]]
    exact drop_pre _ _ 4 (by simp [u16_length])
  have ed' : w.drop 10 = r := by
    rw [← hw, show u16 0xffff ++ (u16 l ++ (u32 0x2320 ++ (u16 t ++ r))) = (u16 0xffff ++ (u16 l ++ (u32 0x2320 ++ u16 t))) ++ r by
      simp only [List.append_assoc]]
    exact drop_pre _ _ 10 (by simp [u16_length, u32_length])
  have es : slice w 10 l = r.take (l - 10) := by
    unfold slice
    rw [List.drop_take, ed']
  have ek : actKey w = .ok (.nx t, 10) := by
    unfold actKey
    dsimp only
    rw [e0, if_pos (by rfl), need_ok _ _ _ (by omega), ok_bind, e4, if_pos (by rfl), need_ok _ _ _ (by omega), ok_bind, e8]
  unfold act2strOne
  dsimp only
  rw [e2, ek, ok_bind, ed]
  dsimp only
  rw [es]
  by_cases c : t = 25
  · rw [if_pos c, if_pos (show ((ActKey.nx t).num == OFPAT_SET_FIELD) = true by rw [beq_iff_eq]; exact c)]
  · rw [if_neg c, if_neg (show ¬ ((ActKey.nx t).num == OFPAT_SET_FIELD) = true by rw [beq_iff_eq]; exact c)]
    rfl

theorem one_vendor (l id : Nat) (r : Bytes) (hl : l < 65536) (hi : id < 2 ^ 32) (hn : id ≠ 0x2320) :
    act2strOne (u16 0xffff ++ (u16 l ++ (u32 id ++ r))) = .ok t!"?" := by
  generalize hw : u16 0xffff ++ (u16 l ++ (u32 id ++ r)) = w
  have e0 : uAt w 0 2 = 0xffff := by rw [← hw]; uat
  have e4 : uAt w 4 4 = id := by rw [← hw]; uat
  have el : 8 ≤ w.length := by rw [← hw]; simp [u16_length, u32_length]; omega
  have ek : actKey w = .ok (.std 0xffff, 4) := by
    unfold actKey
    dsimp only
    rw [e0, if_pos (by rfl), need_ok _ _ _ (by omega), ok_bind, e4, if_neg]
    rw [beq_iff_eq]
    exact hn
  unfold act2strOne
  dsimp only
  rw [ek, ok_bind]
  rfl

theorem one_noVendor (l : Nat) (r : Bytes) (hr : r.length < 4) :
    act2strOne (u16 0xffff ++ (u16 l ++ r)) = .error .structError := by
  generalize hw : u16 0xffff ++ (u16 l ++ r) = w
  have e0 : uAt w 0 2 = 0xffff := by rw [← hw]; uat
  have el : w.length < 8 := by rw [← hw]; simp [u16_length, u32_length]; omega
  have ek : actKey w = .error .structError := by
    unfold actKey
    dsimp only
    rw [e0, if_pos (by rfl), need_err _ _ _ (by omega), err_bind]
  unfold act2strOne
  dsimp only
  rw [ek, err_bind]

theorem one_noType (l : Nat) (r : Bytes) (hr : r.length < 2) :
    act2strOne (u16 0xffff ++ (u16 l ++ (u32 0x2320 ++ r))) = .error .structError := by
  generalize hw : u16 0xffff ++ (u16 l ++ (u32 0x2320 ++ r)) = w
  have e0 : uAt w 0 2 = 0xffff := by rw [← hw]; uat
  have e4 : uAt w 4 4 = 0x2320 := by rw [← hw]; uat
  have el : w.length = 8 + r.length := by rw [← hw]; simp [u16_length, u32_length]; omega
  have ek : actKey w = .error .structError := by
    unfold actKey
    dsimp only
    rw [e0, if_pos (by rfl), need_ok _ _ _ (by omega), ok_bind, e4, if_pos (by rfl), need_err _ _ _ (by omega), err_bind]
  unfold act2strOne
  dsimp only
  rw [ek, err_bind]

theorem action_shown {b : Bytes} {s : Str} (h : ActionText b s) : act2strOne b = .ok s := by
  cases h with
  | output t l r _ h1 h2 h3 h4 h5 =>
    obtain ⟨d, e1, e2⟩ := std_shown h5
    rw [one_std t l r h1 h2 h4, if_neg h3, e1]
    exact e2
  | nx l t r _ h1 h2 h3 h4 =>
    obtain ⟨d, e1, e2⟩ := nx_shown h4
    rw [one_nx l t r h1 h2, if_neg h3, e1]
    exact e2
  | setField l r s h1 h2 =>
    rw [one_std 25 l r (by omega) h1 (by omega), if_pos rfl, (outcome_match1 _).1 _ (Or.inr h2), ok_bind]
  | setShort l r h1 h2 =>
    rw [one_std 25 l r (by omega) h1 (by omega), if_pos rfl, (outcome_match1 _).1 _ (Or.inl ⟨h2, rfl⟩), ok_bind]
    rfl
  | setNx l r s h1 h2 =>
    rw [one_nx l 25 r h1 (by omega), if_pos rfl, (outcome_match1 _).1 _ (Or.inr h2), ok_bind]
  | unknown t l r h1 h2 h3 h4 =>
    simp only [List.mem_cons, List.not_mem_nil, or_false, not_or] at h3
    rw [one_std t l r h1 h2 h3.2.2, if_neg h3.2.1]
    cases hl : lookupActDec (.std t) with
    | none => rfl
    | some d =>
      rcases std_types t (by rw [hl]; simp) with h | ⟨a, ha, h⟩
      · exact absurd h h3.1
      · exact absurd h (h4 a ha)
  | unknownNx l t r h1 h2 h3 h4 =>
    rw [one_nx l t r h1 h2, if_neg h3]
    cases hl : lookupActDec (.nx t) with
    | none => rfl
    | some d =>
      obtain ⟨a, ha, h⟩ := nx_types t (by rw [hl]; simp)
      exact absurd h (h4 a ha)
  | vendor l id r h1 h2 h3 => exact one_vendor l id r h1 h2 h3

theorem action_fails {b : Bytes} {e : Err} (h : ActionFails b e) : act2strOne b = .error e := by
  cases h with
  | output t l r _ h1 h2 h3 h4 h5 =>
    obtain ⟨d, e1, e2⟩ := std_fails h5
    rw [one_std t l r h1 h2 h4, if_neg h3, e1]
    exact e2
  | nx l t r _ h1 h2 h3 h4 =>
    obtain ⟨d, e1, e2⟩ := nx_fails h4
    rw [one_nx l t r h1 h2, if_neg h3, e1]
    exact e2
  | setField l r _ h1 h2 =>
    rw [one_std 25 l r (by omega) h1 (by omega), if_pos rfl, (outcome_match1 _).2.1 _ h2, err_bind]
  | setNx l r _ h1 h2 =>
    rw [one_nx l 25 r h1 (by omega), if_pos rfl, (outcome_match1 _).2.1 _ h2, err_bind]
  | noVendor l r h1 h2 => exact one_noVendor l r h2
  | noType l r h1 h2 => exact one_noType l r h2

theorem action_all (b : Bytes) (h : 4 ≤ b.length) : (∃ s, ActionText b s) ∨ ∃ e, ActionFails b e := by
  obtain ⟨t, r, ht, rfl⟩ := cut16 b (by omega)
  rw [List.length_append, u16_length] at h
  obtain ⟨l, r, hl, rfl⟩ := cut16 r (by omega)
  by_cases hx : t = 0xffff
  · subst hx
    by_cases hr : r.length < 4
    · exact Or.inr ⟨_, .noVendor l r hl hr⟩
    obtain ⟨id, r, hi, rfl⟩ := cut32 r (by omega)
    by_cases hv : id = 0x2320
    · subst hv
      by_cases hr2 : r.length < 2
      · exact Or.inr ⟨_, .noType l r hl hr2⟩
      obtain ⟨t, r, ht, rfl⟩ := cut16 r (by omega)
      by_cases h25 : t = 25
      · subst h25
        rcases (outcome_match1 (u32 0x2320 ++ (u16 25 ++ r))).2.2 with ⟨s, ⟨hs, _⟩ | hs⟩ | ⟨e, he⟩
        · simp [u32_length] at hs
        · exact Or.inl ⟨_, .setNx l r s hl hs⟩
        · exact Or.inr ⟨_, .setNx l r e hl he⟩
      · by_cases hk : ∃ a ∈ nxActs, a.2 = t
        · rcases nx_all t (r.take (l - 10)) hk with ⟨s, hs⟩ | ⟨e, he⟩
          · exact Or.inl ⟨_, .nx l t r s hl ht h25 hs⟩
          · exact Or.inr ⟨_, .nx l t r e hl ht h25 he⟩
        · exact Or.inl ⟨_, .unknownNx l t r hl ht h25 fun a ha h => hk ⟨a, ha, h⟩⟩
    · exact Or.inl ⟨_, .vendor l id r hl hi hv⟩
  · by_cases h25 : t = 25
    · subst h25
      rcases (outcome_match1 r).2.2 with ⟨s, ⟨hs, _⟩ | hs⟩ | ⟨e, he⟩
      · exact Or.inl ⟨_, .setShort l r hl hs⟩
      · exact Or.inl ⟨_, .setField l r s hl hs⟩
      · exact Or.inr ⟨_, .setField l r e hl he⟩
    · by_cases hk : t = 0 ∨ ∃ a ∈ stdActs, a.type = t
      · rcases std_all t (r.take (l - 4)) hk with ⟨s, hs⟩ | ⟨e, he⟩
        · exact Or.inl ⟨_, .output t l r s ht hl h25 hx hs⟩
        · exact Or.inr ⟨_, .output t l r e ht hl h25 hx he⟩
      · refine Or.inl ⟨_, .unknown t l r ht hl ?_ fun a ha h => hk (Or.inr ⟨a, ha, h⟩)⟩
        simp only [List.mem_cons, List.not_mem_nil, or_false, not_or]
        exact ⟨fun h => hk (Or.inl h), h25, hx⟩

theorem outcome_action (b : Bytes) (h : 4 ≤ b.length) : Outcome (act2strOne b) (ActionText b) (ActionFails b) :=
  ⟨fun _ => action_shown, fun _ => action_fails, action_all b h⟩

theorem outcome_action1 (b : Bytes) :
    Outcome (act2str1 b) (fun s => (b.length ≤ 4 ∧ s = []) ∨ (4 < b.length ∧ ActionText b s))
      (fun e => 4 < b.length ∧ ActionFails b e) := by
  unfold act2str1
  by_cases hl : b.length ≤ 4
  · rw [if_pos hl]
    refine ⟨?_, ?_, Or.inl ⟨_, Or.inl ⟨hl, rfl⟩⟩⟩
    · rintro s (⟨_, rfl⟩ | ⟨h, _⟩)
      · rfl
      · omega
    · rintro e ⟨h, _⟩
      omega
  · rw [if_neg hl]
    refine ⟨?_, fun e h => action_fails h.2, ?_⟩
    · rintro s (⟨h, _⟩ | ⟨_, h⟩)
      · omega
      · exact action_shown h
    · rcases action_all b (by omega) with ⟨s, hs⟩ | ⟨e, he⟩
      · exact Or.inl ⟨s, Or.inr ⟨by omega, hs⟩⟩
      · exact Or.inr ⟨e, by omega, he⟩

/-! ## Lists of actions -/

theorem actions_shown : ∀ (fuel : Nat) (b : Bytes) (ss : List Str), b.length < fuel → ActionsShown b ss →
    act2strGo fuel b = .ok ss := by
  intro fuel
  induction fuel with
  | zero => intro b ss h; omega
  | succ fuel ih =>
    intro b ss hl h
    unfold act2strGo
    cases h with
    | done _ h => rw [if_pos h]
    | more _ s ss h1 h2 h3 h4 =>
      rw [lenField_uAt b (by omega)] at h3 h4
      rw [if_neg (by omega), action_shown h2, ok_bind, ih _ _ (by rw [List.length_drop]; omega) h4, ok_bind]

theorem stuck_loops (b : Bytes) (s : Str) (h1 : 4 < b.length) (h2 : ActionText b s) (h3 : lenField b = 0) :
    ∀ fuel, act2strGo fuel b = .error .loops := by
  intro fuel
  induction fuel with
  | zero => rfl
  | succ fuel ih =>
    unfold act2strGo
    rw [lenField_uAt b (by omega)] at h3
    rw [if_neg (by omega), action_shown h2, ok_bind, h3, List.drop_zero, ih, err_bind]

theorem actions_fail : ∀ (fuel : Nat) (b : Bytes) (e : Err), b.length < fuel → ActionsFail b e →
    act2strGo fuel b = .error e := by
  intro fuel
  induction fuel with
  | zero => intro b e h; omega
  | succ fuel ih =>
    intro b e hl h
    cases h with
    | now _ _ h1 h2 =>
      unfold act2strGo
      rw [if_neg (by omega), action_fails h2, err_bind]
    | stuck _ s h1 h2 h3 => exact stuck_loops b s h1 h2 h3 _
    | later _ s _ h1 h2 h3 h4 =>
      unfold act2strGo
      rw [lenField_uAt b (by omega)] at h3 h4
      rw [if_neg (by omega), action_shown h2, ok_bind, ih _ _ (by rw [List.length_drop]; omega) h4, err_bind]

theorem actions_all : ∀ (n : Nat) (b : Bytes), b.length < n → (∃ ss, ActionsShown b ss) ∨ ∃ e, ActionsFail b e := by
  intro n
  induction n with
  | zero => intro b h; omega
  | succ n ih =>
    intro b hl
    by_cases h : b.length ≤ 4
    · exact Or.inl ⟨_, .done _ h⟩
    · rcases action_all b (by omega) with ⟨s, hs⟩ | ⟨e, he⟩
      · by_cases h0 : lenField b = 0
        · exact Or.inr ⟨_, .stuck b s (by omega) hs h0⟩
        · rcases ih (b.drop (lenField b)) (by rw [List.length_drop]; omega) with ⟨ss, h'⟩ | ⟨e, h'⟩
          · exact Or.inl ⟨_, .more b s ss (by omega) hs h0 h'⟩
          · exact Or.inr ⟨_, .later b s e (by omega) hs h0 h'⟩
      · exact Or.inr ⟨_, .now b e (by omega) he⟩

theorem outcome_actions (b : Bytes) :
    Outcome (act2str b) (fun s => ∃ ss, ActionsShown b ss ∧ s = joinStr t!"," ss) (ActionsFail b) := by
  unfold act2str
  refine ⟨?_, ?_, ?_⟩
  · rintro s ⟨ss, h, rfl⟩
    rw [actions_shown _ b ss (by omega) h, ok_bind]
  · intro e h
    rw [actions_fail _ b e (by omega) h, err_bind]
  · rcases actions_all (b.length + 1) b (by omega) with ⟨ss, h⟩ | h
    · exact Or.inl ⟨_, ss, h, rfl⟩
    · exact Or.inr h

end Ofpstr
