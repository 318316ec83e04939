import Verif.Lemmas.NxShown

/-!
# Printed actions: all Nicira actions
-/

namespace Ofpstr
open Spec

set_option linter.unusedSimpArgs false

theorem drop_pre (p q : Bytes) (k : Nat) (h : p.length = k) : (p ++ q).drop k = q := List.drop_left' h

theorem head_exp {q : Bytes} {s r} (h : HeadShown q s r) : r = q.drop (if uAt q 0 2 == 0xffff then 8 else 4) := by
  cases h with
  | field f hm l r h1 h2 =>
    obtain ⟨y, e, _⟩ := field_byte f h1 hm
    rw [e, uAt_u16_here _ _ (field_short f h1).1, if_neg (by rw [beq_iff_eq]; exact h2)]
    exact (drop_head4 f.cls y l r).symm
  | exp f hm l r h1 h2 =>
    obtain ⟨y, e, _⟩ := field_byte f h1 hm
    rw [e, uAt_u16_here _ _ (field_short f h1).1, if_pos (by rw [beq_iff_eq]; exact h2)]
    exact (drop_head8 f.cls _ y l r).symm
  | otherExp x l id r h1 h2 =>
    rw [uAt_u16_here _ _ (by omega), if_pos (by rfl)]
    exact (drop_head8 _ id x l r).symm
  | otherClass c x l r h1 h2 =>
    have h3 : c ≠ 0xffff := by rintro rfl; simp at h2
    rw [uAt_u16_here _ _ h1, if_neg (by rw [beq_iff_eq]; exact h3)]
    exact (drop_head4 c x l r).symm

theorem regMove_eq (n so d_o : Nat) (q : Bytes) (h1 : n < 65536) (h2 : so < 65536) (h3 : d_o < 65536) :
    regMoveAct2str (u16 n ++ (u16 so ++ (u16 d_o ++ q))) = (do
      let src ← oxmid2str1 q
      needBytes q 0 4
      let r := q.drop (if uAt q 0 2 == 0xffff then 8 else 4)
      let dst ← oxmid2str1 r
      needBytes r 0 4
      .ok (t!"reg_move(" ++ (rangeText dst (uAt q 3 1) d_o n ++ '=' :: (rangeText src (uAt q 3 1) so n ++ t!")")))) := by
  generalize hw : u16 n ++ (u16 so ++ (u16 d_o ++ q)) = w
  have e0 : uAt w 0 2 = n := by rw [← hw]; uat
  have e2 : uAt w 2 2 = so := by rw [← hw]; uat
  have e4 : uAt w 4 2 = d_o := by rw [← hw]; uat
  have e9 : uAt w 9 1 = uAt q 3 1 := by
    rw [← hw, uAt_u16 _ _ _ _ (by omega), uAt_u16 _ _ _ _ (by omega), uAt_u16 _ _ _ _ (by omega)]
  have e6 : uAt w 6 2 = uAt q 0 2 := by
    rw [← hw, uAt_u16 _ _ _ _ (by omega), uAt_u16 _ _ _ _ (by omega), uAt_u16 _ _ _ _ (by omega)]
  have el : w.length = 6 + q.length := by rw [← hw]; simp [u16_length]; omega
  have ed : ∀ k, w.drop (6 + k) = q.drop k := by
    intro k
    rw [← List.drop_drop, ← hw, show u16 n ++ (u16 so ++ (u16 d_o ++ q)) = (u16 n ++ (u16 so ++ u16 d_o)) ++ q by
      simp only [List.append_assoc], drop_pre _ _ 6 (by simp [u16_length])]
  unfold regMoveAct2str
  rw [need_ok _ _ _ (by omega), ok_bind]
  dsimp only
  rw [e0, e2, e4, e9, e6, show w.drop 6 = q from ed 0]
  cases h : oxmid2str1 q with
  | error e => rw [err_bind, err_bind]
  | ok src =>
    rw [ok_bind, ok_bind]
    have hn : needBytes w 6 4 = needBytes q 0 4 := by
      unfold needBytes
      rw [el]
      by_cases hc : 4 ≤ q.length
      · rw [if_pos (by omega), if_pos (by omega)]
      · rw [if_neg (by omega), if_neg (by omega)]
    rw [hn]
    cases hq : needBytes q 0 4 with
    | error e => rw [err_bind, err_bind]
    | ok u =>
      rw [ok_bind, ok_bind]
      have hq4 : 4 ≤ q.length := by
        unfold needBytes at hq
        split at hq
        · omega
        · cases hq
      have key : ∀ k, 4 ≤ k → (do
          let dst ← oxmid2str1 (w.drop (6 + k))
          needBytes w (6 + k) 4
          .ok (t!"reg_move(" ++ ((if (d_o == 0 && n == uAt q 3 1 * 8) = true then
            dst ++ '=' :: (if (so == 0 && n == uAt q 3 1 * 8) = true then src else fmtRange src so (so + n))
            else fmtRange dst d_o (d_o + n) ++ '=' :: (if (so == 0 && n == uAt q 3 1 * 8) = true then src
              else fmtRange src so (so + n))) ++ t!")")) : Py Str) = (do
          let dst ← oxmid2str1 (q.drop k)
          needBytes (q.drop k) 0 4
          .ok (t!"reg_move(" ++ (rangeText dst (uAt q 3 1) d_o n ++ '=' :: (rangeText src (uAt q 3 1) so n ++ t!")")))) := by
        intro k hk
        rw [ed k]
        cases h : oxmid2str1 (q.drop k) with
        | error e => rw [err_bind, err_bind]
        | ok dst =>
          rw [ok_bind, ok_bind]
          have hn : needBytes w (6 + k) 4 = needBytes (q.drop k) 0 4 := by
            unfold needBytes
            rw [el, List.length_drop]
            by_cases hc : k + 4 ≤ q.length
            · rw [if_pos (by omega), if_pos (by omega)]
            · rw [if_neg (by omega), if_neg (by omega)]
          rw [hn]
          cases needBytes (q.drop k) 0 4 with
          | error e => rw [err_bind, err_bind]
          | ok u =>
            rw [ok_bind, ok_bind]
            unfold rangeText
            by_cases c : (d_o == 0 && n == uAt q 3 1 * 8) = true
            · rw [if_pos c, if_pos c]; simp
            · rw [if_neg c, if_neg c]; simp
      by_cases hc : (uAt q 0 2 == 0xffff) = true
      · rw [if_pos hc, if_pos hc]; exact key 8 (by omega)
      · rw [if_neg hc, if_neg hc]; exact key 4 (by omega)

theorem uAt_three (q : Bytes) (l : UInt8) (h : q[3]? = some l) : uAt q 3 1 = l.toNat := by
  match q, h with
  | a :: b :: c :: d :: r, h =>
    have : d = l := by simpa using h
    rw [← this]
    exact len_byte a b c d r

theorem learn_eq (y : UInt8) (r : Bytes) : learnAct2str (pad 17 ++ y :: (pad 4 ++ r)) = (do
    let specs ← learnSpecs ((pad 17 ++ y :: (pad 4 ++ r)).length + 1) none r
    .ok (t!"learn(" ++ (joinStr t!"," specs ++ t!")"))) := by
  unfold learnAct2str
  have e1 : ∀ i k : Nat, i + k ≤ 17 → uAt (pad 17 ++ y :: (pad 4 ++ r)) i k = uAt (pad 17) i k := fun i k h =>
    uAt_left _ _ _ _ (by rw [pad_length]; exact h)
  have e2 : ∀ i k : Nat, 18 ≤ i → i + k ≤ 22 → uAt (pad 17 ++ y :: (pad 4 ++ r)) i k = uAt (pad 4) (i - 18) k := by
    intro i k h h'
    rw [uAt_skip_pad _ _ _ _ (by omega), uAt_cons _ _ _ _ (by omega), uAt_left _ _ _ _ (by rw [pad_length]; omega),
      Nat.sub_sub]
  have ed : (pad 17 ++ y :: (pad 4 ++ r)).drop 22 = r := by
    rw [show pad 17 ++ y :: (pad 4 ++ r) = (pad 17 ++ y :: pad 4) ++ r by simp]
    exact drop_pre _ _ 22 (by simp [pad_length])
  rw [need_ok _ _ _ (by simp [pad_length]; omega), ok_bind, if_neg]
  · rw [ed]
  · rw [e1 0 2 (by omega), e1 2 2 (by omega), e1 4 2 (by omega), e1 6 8 (by omega), e1 14 2 (by omega),
      e1 16 1 (by omega), e2 18 2 (by omega) (by omega), e2 20 2 (by omega) (by omega)]
    decide

theorem nx_shown {t : Nat} {p : Bytes} {s : Str} (h : NxText t p s) :
    ∃ d, lookupActDec (.nx t) = some d ∧ runActDec d p = .ok s := by
  cases h with
  | resubmit n r s h1 h2 =>
    refine ⟨.resubmit, rfl, ?_⟩
    show resubmitAct2str _ = _
    unfold resubmitAct2str
    rw [need_ok _ _ _ (by simp [u16_length]), ok_bind, uAt_u16_here _ _ h1, (resubmitShown_iff _ _).1 h2]
  | tunnel n r s h1 h2 =>
    refine ⟨.setTunnel t!"set_tunnel" 4, rfl, ?_⟩
    show setTunnelAct2str _ _ _ = _
    unfold setTunnelAct2str
    rw [need_ok _ _ _ (by simp [u32_length]), ok_bind, uAt_u32_here _ _ (by omega), (hexShown_iff _ _ _).1 h2]
    rfl
  | popQueue => exact ⟨.null t!"pop_queue", rfl, rfl⟩
  | regMove n so d_o q s l r d r' x y h1 h2 h3 h4 h5 h6 h7 h8 =>
    refine ⟨.regMove, rfl, ?_⟩
    show regMoveAct2str _ = _
    have hr := head_exp h4
    rw [regMove_eq n so d_o q h1 h2 h3, (nameShown_iff _ _).1 (.head _ _ _ h4), ok_bind,
      need_ok _ _ _ (by have := head_long h4; omega), ok_bind]
    dsimp only
    rw [← hr, (nameShown_iff _ _).1 (.head _ _ _ h6), ok_bind, need_ok _ _ _ (by have := head_long h6; omega), ok_bind,
      uAt_three q l h5, (bitsShown_iff _ _ _ _ _).1 h7, (bitsShown_iff _ _ _ _ _).1 h8]
  | regLoad f g hm on l v r b ss h1 h2 h3 h4 h5 h6 h7 h8 =>
    refine ⟨.regLoad, rfl, ?_⟩
    show regLoadAct2str _ = _
    obtain ⟨y, e1, _, _⟩ := field_byte f h1 hm
    have hh : HeadShown (u16 f.cls ++ [y, l]) f.shownName [] := by
      have := HeadShown.field f hm l [] h1 h2
      rwa [e1] at this
    have hb := (outcome_match b).1 _ ⟨ss, h8, rfl⟩
    rw [e1]
    show regLoadAct2str (u16 on ++ (u16 f.cls ++ y :: l :: (u64 v ++ r))) = _
    rw [regLoad_eq on f.cls y l v r h5 (field_short f h1).1 h6, ids_one _ _ _ _ hh, load_eq f g hm on y v h1 h2 h3 h4 e1]
    cases h7 with
    | whole c1 c2 => rw [if_pos ⟨c1, c2⟩, hb, ok_bind]
    | bits c1 c2 => rw [if_neg c1, if_pos c2, hb, ok_bind]
  | note => exact ⟨.note, rfl, rfl⟩
  | tunnel64 n r s h1 h2 =>
    refine ⟨.setTunnel t!"set_tunnel64" 8, rfl, ?_⟩
    show setTunnelAct2str _ _ _ = _
    unfold setTunnelAct2str
    rw [need_ok _ _ _ (by simp [u64_length]), ok_bind, uAt_u64_here _ _ (by omega), (hexShown_iff _ _ _).1 h2]
    rfl
  | multipath hash basis x alg link arg y on q h a d tb tl ta td h1 h2 h3 h4 h5 h6 h7 h8 h9 h10 h11 h12 h13 h14 h15 =>
    refine ⟨.multipath, rfl, ?_⟩
    show multipathAct2str _ = _
    rw [multipath_eq hash basis alg link arg on x y q h1 h2 h3 h4 h5 h6 h7 h8, (nameShown_iff _ _).1 h11, ok_bind,
      tupleGet_some _ _ _ h9, ok_bind, tupleGet_some _ _ _ h10, ok_bind, decimal_eq h12, decimal_eq h13,
      (hexShown_iff _ _ _).1 h14, (rangeShown_iff _ _ _ _).1 h15]
  | bundle alg hash basis id x ns r a h d tb ts h1 h2 h3 h4 h5 h6 h7 h8 h9 h10 h11 =>
    refine ⟨.bundle, rfl, ?_⟩
    show bundleAct2str _ = _
    have hh := bundleHead alg hash basis id ns.length x (wordsOf ns ++ r) h1 h2 h3 h4 h5 h6
    obtain ⟨hn, ht⟩ := (numsShown_iff slaveShown_iff ts ns).1 h11
    rw [bundle_eq hh (by rw [List.length_append, wordsOf_length]; omega), tupleGet_some _ _ _ h8, ok_bind,
      tupleGet_some _ _ _ h7, ok_bind, (nameShown_iff _ _).1 h9, ok_bind, hh.words ns r rfl rfl hn, decimal_eq h10, ht]
  | bundleLoad alg hash basis id ns on id' x r a h d d' tb td ts h1 h2 h3 h4 h5 h6 h7 h8 h9 h10 h11 h12 h13 h14 h15 =>
    refine ⟨.bundleLoad, rfl, ?_⟩
    show bundleLoadAct2str _ = _
    obtain ⟨k1, k2⟩ := bundleLoad_dest alg hash basis id ns.length on id' x (wordsOf ns ++ r) h4 h6 h7
    have hh := bundleHead alg hash basis id ns.length (u16 on ++ (id' ++ x)) (wordsOf ns ++ r) h1 h2 h3 h4 h5
      (by simp [u16_length, h7, h8])
    rw [List.append_assoc, List.append_assoc] at hh
    obtain ⟨hn, ht⟩ := (numsShown_iff slaveShown_iff ts ns).1 h15
    rw [bundleLoad_eq hh (by rw [List.length_append, wordsOf_length]; omega), tupleGet_some _ _ _ h10, ok_bind,
      tupleGet_some _ _ _ h9, ok_bind, (nameShown_iff _ _).1 h11, ok_bind, k2, (nameShown_iff _ _).1 h12, ok_bind,
      hh.words ns r rfl rfl hn, k1, decimal_eq h13, (rangeShown_iff _ _ _ _).1 h14, ht]
  | resubmitTable n y r s t h1 h2 h3 =>
    refine ⟨.resubmitTable, rfl, ?_⟩
    show resubmitTableAct2str _ = _
    unfold resubmitTableAct2str
    have e2 : uAt (u16 n ++ y :: r) 2 1 = y.toNat := by
      rw [uAt_u16 _ _ _ _ (by omega)]; exact uAt_cons0 _ _
    rw [need_ok _ _ _ (by simp [u16_length]; omega), ok_bind]
    dsimp only
    rw [uAt_u16_here _ _ h1, e2, (resubmitShown_iff _ _).1 h2]
    rcases h3 with ⟨rfl, rfl⟩ | ⟨h3, h4⟩
    · rfl
    · rw [if_neg, decimal_eq h4]
      rw [beq_iff_eq]
      intro hc
      exact h3 (UInt8.toNat_inj.1 hc)
  | outputReg on a b c l r d s h1 h2 h3 h4 =>
    refine ⟨.outputReg, rfl, ?_⟩
    show outputRegAct2str _ = _
    unfold outputRegAct2str
    have e5 : uAt (u16 on ++ a :: b :: c :: l :: r) 5 1 = l.toNat := by
      rw [uAt_u16 _ _ _ _ (by omega)]; exact len_byte a b c l r
    have es : slice (u16 on ++ a :: b :: c :: l :: r) 2 6 = [a, b, c, l] :=
      slice_middle (u16 on) [a, b, c, l] r 2 6 (u16_length on) (by simp [u16_length])
    rw [need_ok _ _ _ (by simp [u16_length]; omega), ok_bind]
    dsimp only
    rw [es, e5, uAt_u16_here _ _ h1, (nameShown_iff _ _).1 h3, ok_bind, (bitsShown_iff _ _ _ _ _).1 h4]
  | learn y r ss h1 =>
    refine ⟨.learn, rfl, ?_⟩
    show learnAct2str _ = _
    rw [learn_eq, specs_ok _ _ _ _ (by simp [pad_length]; omega) h1, ok_bind]
  | exit => exact ⟨.null t!"exit", rfl, rfl⟩
  | cntIds x ns r ts h1 h2 h3 =>
    refine ⟨.cntIds, rfl, ?_⟩
    show cntIdsAct2str _ = _
    unfold cntIdsAct2str
    obtain ⟨hn, ht⟩ := (numsShown_iff (hexShown_iff 0) ts ns).1 h3
    have hs := hsAt_flat ns hn (u16 ns.length ++ x) r 6 (by simp [u16_length, h1])
    rw [List.append_assoc] at hs
    have hs' : hsAt (u16 ns.length ++ (x ++ (wordsOf ns ++ r))) 6 ns.length = ns := hs
    rw [need_ok _ _ _ (by simp [u16_length]), ok_bind]
    dsimp only
    rw [uAt_u16_here _ _ h2, need_ok _ _ _ (by simp [u16_length, h1, wordsOf_length]; omega), ok_bind, hs', ht]
  | outputReg2 on x a b c l r d r' s h1 h2 h3 h4 =>
    refine ⟨.outputReg2, rfl, ?_⟩
    show outputReg2Act2str _ = _
    unfold outputReg2Act2str
    have e0 : uAt (u16 on ++ (x ++ a :: b :: c :: l :: r)) 0 2 = on := uAt_u16_here _ _ h1
    have e7 : uAt (u16 on ++ (x ++ a :: b :: c :: l :: r)) 7 1 = l.toNat := by
      rw [uAt_u16 _ _ _ _ (by omega), uAt_right _ _ _ _ (by omega), h2]
      exact len_byte a b c l r
    have ed : (u16 on ++ (x ++ a :: b :: c :: l :: r)).drop 4 = a :: b :: c :: l :: r := by
      rw [← List.append_assoc]
      exact drop_pre _ _ 4 (by simp [u16_length, h2])
    rw [need_ok _ _ _ (by simp [u16_length, h2]; omega), ok_bind]
    dsimp only
    rw [ed, e7, e0, (nameShown_iff _ _).1 (.head _ _ _ h3), ok_bind, (bitsShown_iff _ _ _ _ _).1 h4]
  | regLoad2 _ s h1 =>
    refine ⟨.regLoad2, rfl, ?_⟩
    show regLoad2Act2str _ = _
    unfold regLoad2Act2str
    rw [(outcome_match1 p).1 _ (Or.inr h1), ok_bind]
  | regLoad2Short _ h1 =>
    refine ⟨.regLoad2, rfl, ?_⟩
    show regLoad2Act2str _ = _
    unfold regLoad2Act2str
    rw [(outcome_match1 p).1 _ (Or.inl ⟨h1, rfl⟩), ok_bind]
    rfl


theorem nx_short {t k : Nat} {p : Bytes} (h : (t, k) ∈ nxSizes) (hl : p.length < k) :
    ∃ d, lookupActDec (.nx t) = some d ∧ runActDec d p = .error .structError := by
  simp only [nxSizes, List.mem_cons, Prod.mk.injEq, List.not_mem_nil, or_false] at h
  have ne : ∀ k, p.length < k → needBytes p 0 k = .error .structError := fun k h => need_err _ _ _ (by omega)
  rcases h with ⟨rfl, rfl⟩ | ⟨rfl, rfl⟩ | ⟨rfl, rfl⟩ | ⟨rfl, rfl⟩ | ⟨rfl, rfl⟩ | ⟨rfl, rfl⟩ | ⟨rfl, rfl⟩ | ⟨rfl, rfl⟩ |
    ⟨rfl, rfl⟩ | ⟨rfl, rfl⟩ | ⟨rfl, rfl⟩ | ⟨rfl, rfl⟩ | ⟨rfl, rfl⟩
  · exact ⟨.resubmit, rfl, by show resubmitAct2str p = _; unfold resubmitAct2str; rw [ne _ hl, err_bind]⟩
  · exact ⟨.setTunnel t!"set_tunnel" 4, rfl, by
      show setTunnelAct2str _ _ p = _; unfold setTunnelAct2str; rw [ne _ hl, err_bind]⟩
  · exact ⟨.regMove, rfl, by show regMoveAct2str p = _; unfold regMoveAct2str; rw [ne _ hl, err_bind]⟩
  · exact ⟨.regLoad, rfl, by show regLoadAct2str p = _; unfold regLoadAct2str; rw [ne _ hl, err_bind]⟩
  · exact ⟨.setTunnel t!"set_tunnel64" 8, rfl, by
      show setTunnelAct2str _ _ p = _; unfold setTunnelAct2str; rw [ne _ hl, err_bind]⟩
  · exact ⟨.multipath, rfl, by show multipathAct2str p = _; unfold multipathAct2str; rw [ne _ hl, err_bind]⟩
  · exact ⟨.bundle, rfl, by show bundleAct2str p = _; unfold bundleAct2str; rw [ne _ hl, err_bind]⟩
  · exact ⟨.bundleLoad, rfl, by show bundleLoadAct2str p = _; unfold bundleLoadAct2str; rw [ne _ hl, err_bind]⟩
  · exact ⟨.resubmitTable, rfl, by show resubmitTableAct2str p = _; unfold resubmitTableAct2str; rw [ne _ hl, err_bind]⟩
  · exact ⟨.outputReg, rfl, by show outputRegAct2str p = _; unfold outputRegAct2str; rw [ne _ hl, err_bind]⟩
  · exact ⟨.learn, rfl, by show learnAct2str p = _; unfold learnAct2str; rw [ne _ hl, err_bind]⟩
  · exact ⟨.cntIds, rfl, by show cntIdsAct2str p = _; unfold cntIdsAct2str; rw [ne _ hl, err_bind]⟩
  · exact ⟨.outputReg2, rfl, by show outputReg2Act2str p = _; unfold outputReg2Act2str; rw [ne _ hl, err_bind]⟩

/-- Six bytes are three numbers. -/
theorem cut_six (p : Bytes) (h : p.length = 6) :
    ∃ a b c, a < 65536 ∧ b < 65536 ∧ c < 65536 ∧ ∀ q, p ++ q = u16 a ++ (u16 b ++ (u16 c ++ q)) := by
  obtain ⟨a, r, ha, rfl⟩ := cut16 p (by omega)
  rw [List.length_append, u16_length] at h
  obtain ⟨b, r, hb, rfl⟩ := cut16 r (by omega)
  rw [List.length_append, u16_length] at h
  obtain ⟨c, r, hc, rfl⟩ := cut16 r (by omega)
  rw [List.length_append, u16_length] at h
  obtain rfl : r = [] := List.eq_nil_of_length_eq_zero (by omega)
  exact ⟨a, b, c, ha, hb, hc, fun q => by simp⟩

theorem short_name {b : Bytes} (h : b.length < 4) : oxmid2str1 b = .ok [] := (nameShown_iff _ _).1 (.short _ h)

theorem name_of_not {b : Bytes} (h : ∀ e, ¬ HeadFails b e) : ∃ s, oxmid2str1 b = .ok s := by
  rcases name_total b with ⟨s, hs⟩ | ⟨e, he⟩
  · exact ⟨s, (nameShown_iff _ _).1 hs⟩
  · exact absurd he (h e)

theorem cut_four (id : Bytes) (h : id.length = 4) : ∃ a b c l : UInt8, id = [a, b, c, l] := by
  match id, h with
  | [a, b, c, l], _ => exact ⟨a, b, c, l, rfl⟩

theorem loads_err (p id r : Bytes) (e : Err) (h1 : p.length = 2) (h2 : id.length = 4) (h3 : 8 ≤ r.length)
    (he : ∀ on c y v, p = u16 on → id = u16 c ++ [y, (id.getD 3 0)] → on < 65536 → v < 2 ^ 64 →
      loadText on c y.toNat v (oxmid2str id) = .error e) : regLoadAct2str (p ++ (id ++ r)) = .error e := by
  obtain ⟨on, q, ho, rfl⟩ := cut16 p (by omega)
  rw [List.length_append, u16_length] at h1
  obtain rfl : q = [] := List.eq_nil_of_length_eq_zero (by omega)
  obtain ⟨c, q, hc, rfl⟩ := cut16 id (by omega)
  rw [List.length_append, u16_length] at h2
  have h2' : q.length = 2 := by omega
  match q, h2' with
  | [y, l], _ =>
    obtain ⟨v, r, hv, rfl⟩ := cut64 r h3
    have hl : (u16 c ++ [y, l]).getD 3 0 = l := by
      rw [List.getD_eq_getElem?_getD, List.getElem?_append_right (by rw [u16_length]; omega), u16_length]
      rfl
    have := he on c y v (List.append_nil _) (by rw [hl]) ho hv
    rw [List.append_nil]
    have hw : u16 on ++ (u16 c ++ [y, l] ++ (u64 v ++ r)) = u16 on ++ (u16 c ++ y :: l :: (u64 v ++ r)) := by simp
    rw [hw, regLoad_eq on c y l v r ho hc hv]
    exact this

theorem ids_head_err {b : Bytes} {e : Err} (h : HeadFails b e) : oxmid2str b = .error e := (outcome_ids _).2.1 e (.now _ _ h)

theorem learn_fixed (p : Bytes) (hl : 22 ≤ p.length) (h : ∀ y r, p ≠ pad 17 ++ y :: (pad 4 ++ r)) :
    learnAct2str p = .error .typeError := by
  unfold learnAct2str
  rw [need_ok _ _ _ (by omega), ok_bind, if_pos]
  by_contra hc
  simp only [Bool.or_eq_true, bne_iff_ne, not_or, not_not] at hc
  obtain ⟨⟨⟨⟨⟨⟨⟨c1, c2⟩, c3⟩, c4⟩, c5⟩, c6⟩, c7⟩, c8⟩ := hc
  obtain ⟨n1, r, h1, rfl⟩ := cut16 p (by omega)
  rw [List.length_append, u16_length] at hl
  obtain ⟨n2, r, h2, rfl⟩ := cut16 r (by omega)
  rw [List.length_append, u16_length] at hl
  obtain ⟨n3, r, h3, rfl⟩ := cut16 r (by omega)
  rw [List.length_append, u16_length] at hl
  obtain ⟨n4, r, h4, rfl⟩ := cut64 r (by omega)
  rw [List.length_append, u64_length] at hl
  obtain ⟨n5, r, h5, rfl⟩ := cut16 r (by omega)
  rw [List.length_append, u16_length] at hl
  obtain ⟨y6, r, rfl⟩ := cut_byte r (by omega)
  rw [List.length_cons] at hl
  obtain ⟨y, r, rfl⟩ := cut_byte r (by omega)
  rw [List.length_cons] at hl
  obtain ⟨n7, r, h7, rfl⟩ := cut16 r (by omega)
  rw [List.length_append, u16_length] at hl
  obtain ⟨n8, r, h8, rfl⟩ := cut16 r (by omega)
  have e1 : n1 = 0 := by rw [← c1]; symm; uat
  have e2 : n2 = 0 := by rw [← c2]; symm; uat
  have e3 : n3 = 0 := by rw [← c3]; symm; uat
  have e4 : n4 = 0 := by rw [← c4]; symm; uat
  have e5 : n5 = 0 := by rw [← c5]; symm; uat
  have e6 : y6 = 0 := by
    rw [uAt_u16 _ _ _ _ (by omega), uAt_u16 _ _ _ _ (by omega), uAt_u16 _ _ _ _ (by omega), uAt_u64 _ _ _ _ (by omega),
      uAt_u16 _ _ _ _ (by omega), uAt_cons0] at c6
    exact UInt8.toNat_inj.1 c6
  have e7 : n7 = 0 := by
    rw [uAt_u16 _ _ _ _ (by omega), uAt_u16 _ _ _ _ (by omega), uAt_u16 _ _ _ _ (by omega), uAt_u64 _ _ _ _ (by omega),
      uAt_u16 _ _ _ _ (by omega), uAt_cons _ _ _ _ (by omega), uAt_cons _ _ _ _ (by omega)] at c7
    rw [← c7]; symm; uat
  have e8 : n8 = 0 := by
    rw [uAt_u16 _ _ _ _ (by omega), uAt_u16 _ _ _ _ (by omega), uAt_u16 _ _ _ _ (by omega), uAt_u64 _ _ _ _ (by omega),
      uAt_u16 _ _ _ _ (by omega), uAt_cons _ _ _ _ (by omega), uAt_cons _ _ _ _ (by omega)] at c8
    rw [← c8]; symm; uat
  subst e1 e2 e3 e4 e5 e6 e7 e8
  exact h y r rfl


theorem nx_fails {t : Nat} {p : Bytes} {e : Err} (h : NxFails t p e) :
    ∃ d, lookupActDec (.nx t) = some d ∧ runActDec d p = .error e := by
  cases h with
  | short _ k _ h1 h2 => exact nx_short h1 h2
  | moveSource p q _ h1 h2 =>
    refine ⟨.regMove, rfl, ?_⟩
    show regMoveAct2str _ = _
    obtain ⟨a, b, c, ha, hb, hc, hq⟩ := cut_six p h1
    rw [hq, regMove_eq a b c q ha hb hc, (headFails_iff _ _).1 h2, err_bind]
  | moveShort p q h1 h2 =>
    refine ⟨.regMove, rfl, ?_⟩
    show regMoveAct2str _ = _
    obtain ⟨a, b, c, ha, hb, hc, hq⟩ := cut_six p h1
    rw [hq, regMove_eq a b c q ha hb hc, short_name h2, ok_bind, need_err _ _ _ (by omega), err_bind]
  | moveDest p q s r _ h1 h2 h3 =>
    refine ⟨.regMove, rfl, ?_⟩
    show regMoveAct2str _ = _
    obtain ⟨a, b, c, ha, hb, hc, hq⟩ := cut_six p h1
    rw [hq, regMove_eq a b c q ha hb hc, (nameShown_iff _ _).1 (.head _ _ _ h2), ok_bind,
      need_ok _ _ _ (by have := head_long h2; omega), ok_bind]
    dsimp only
    rw [← head_exp h2, (headFails_iff _ _).1 h3, err_bind]
  | moveDestShort p q s r h1 h2 h3 =>
    refine ⟨.regMove, rfl, ?_⟩
    show regMoveAct2str _ = _
    obtain ⟨a, b, c, ha, hb, hc, hq⟩ := cut_six p h1
    rw [hq, regMove_eq a b c q ha hb hc, (nameShown_iff _ _).1 (.head _ _ _ h2), ok_bind,
      need_ok _ _ _ (by have := head_long h2; omega), ok_bind]
    dsimp only
    rw [← head_exp h2, short_name h3, ok_bind, need_err _ _ _ (by omega), err_bind]
  | loadField p id r _ h1 h2 h3 h4 =>
    refine ⟨.regLoad, rfl, loads_err p id r e h1 h2 h3 ?_⟩
    intro on c y v _ _ _ _
    unfold loadText
    rw [ids_head_err h4, err_bind]
  | loadClass p c x l r h1 h2 h3 h4 =>
    refine ⟨.regLoad, rfl, ?_⟩
    show regLoadAct2str _ = _
    have hw : p ++ (u16 c ++ x :: l :: r) = p ++ ((u16 c ++ [x, l]) ++ r) := by simp
    rw [hw]
    refine loads_err p _ r _ h1 (by simp [u16_length]) h2 ?_
    intro on c' y v _ _ _ _
    rw [ids_one c x l _ (.otherClass c x l [] h3 h4)]
    unfold loadText
    rw [ok_bind, show str2oxmid false t!"?" = .ok [] from by decide +kernel, ok_bind]
    rfl
  | load f g hm on l v r b _ h1 h2 h3 h4 h5 h6 h7 h8 =>
    refine ⟨.regLoad, rfl, ?_⟩
    show regLoadAct2str _ = _
    obtain ⟨y, e1, _, _⟩ := field_byte f h1 hm
    have hh : HeadShown (u16 f.cls ++ [y, l]) f.shownName [] := by
      have := HeadShown.field f hm l [] h1 h2
      rwa [e1] at this
    have hb := (outcome_match b).2.1 _ h8
    rw [e1]
    show regLoadAct2str (u16 on ++ (u16 f.cls ++ y :: l :: (u64 v ++ r))) = _
    rw [regLoad_eq on f.cls y l v r h5 (field_short f h1).1 h6, ids_one _ _ _ _ hh, load_eq f g hm on y v h1 h2 h3 h4 e1]
    cases h7 with
    | whole c1 c2 => rw [if_pos ⟨c1, c2⟩, hb, err_bind]
    | bits c1 c2 => rw [if_neg c1, if_pos c2, hb, err_bind]
  | loadLong f g hm on l v r h1 h2 h3 h4 h5 h6 h7 =>
    refine ⟨.regLoad, rfl, ?_⟩
    show regLoadAct2str _ = _
    obtain ⟨y, e1, _, _⟩ := field_byte f h1 hm
    have hh : HeadShown (u16 f.cls ++ [y, l]) f.shownName [] := by
      have := HeadShown.field f hm l [] h1 h2
      rwa [e1] at this
    rw [e1]
    show regLoadAct2str (u16 on ++ (u16 f.cls ++ y :: l :: (u64 v ++ r))) = _
    rw [regLoad_eq on f.cls y l v r h5 (field_short f h1).1 h6, ids_one _ _ _ _ hh, load_eq f g hm on y v h1 h2 h3 h4 e1]
    by_cases c1 : on / 64 = 0 ∧ on % 64 + 1 = 8 * g.nameLen false
    · exact absurd (.whole c1.1 c1.2) (h7 _)
    · by_cases c2 : 2 * g.nameLen false < 256
      · exact absurd (.bits c1 c2) (h7 _)
      · rw [if_neg c1, if_neg c2]
  | multipathField p q _ h1 h2 =>
    refine ⟨.multipath, rfl, ?_⟩
    show multipathAct2str _ = _
    unfold multipathAct2str
    rw [need_ok _ _ _ (by simp [h1]), ok_bind]
    dsimp only
    rw [drop_pre _ _ 18 h1, (headFails_iff _ _).1 h2, err_bind]
  | multipathName hash basis x alg r q h1 h2 h3 h4 h5 h6 h7 =>
    refine ⟨.multipath, rfl, ?_⟩
    show multipathAct2str _ = _
    obtain ⟨s, hs⟩ := name_of_not h6
    obtain ⟨link, r, hl, rfl⟩ := cut16 r (by omega)
    rw [List.length_append, u16_length] at h5
    obtain ⟨arg, r, ha, rfl⟩ := cut32 r (by omega)
    rw [List.length_append, u32_length] at h5
    obtain ⟨y, r, hy, rfl⟩ := cut_list 2 r (by omega)
    rw [List.length_append, hy] at h5
    obtain ⟨on, r, ho, rfl⟩ := cut16 r (by omega)
    rw [List.length_append, u16_length] at h5
    obtain rfl : r = [] := List.eq_nil_of_length_eq_zero (by omega)
    simp only [List.append_assoc, List.nil_append]
    rw [multipath_eq hash basis alg link arg on x y q h1 h2 h3 h4 hl ha hy ho, hs, ok_bind]
    rcases get_total hashWords hash with ⟨w, hw⟩ | hw
    · rw [tupleGet_some _ _ _ hw, ok_bind]
      have : mpAlgWords.length ≤ alg := by
        rcases h7 with h7 | h7
        · rw [List.getElem?_eq_none (show hashWords.length ≤ hash from h7)] at hw
          cases hw
        · exact h7
      rw [tupleGet_none _ _ this, err_bind]
    · rw [tupleGet_none _ _ hw, err_bind]
  | slaves _ p n x q h1 h2 h3 h4 h5 =>
    obtain ⟨alg, r, ha, rfl⟩ := cut16 p (by omega)
    rw [List.length_append, u16_length] at h2
    obtain ⟨hash, r, hh, rfl⟩ := cut16 r (by omega)
    rw [List.length_append, u16_length] at h2
    obtain ⟨basis, r, hb, rfl⟩ := cut16 r (by omega)
    rw [List.length_append, u16_length] at h2
    have hw := bundle_short (bundleHead alg hash basis r n x q ha hh hb (by omega) h3 h4) h5
    simp only [List.append_assoc]
    simp only [List.mem_cons, List.not_mem_nil, or_false] at h1
    rcases h1 with rfl | rfl
    · exact ⟨.bundle, rfl, hw.1⟩
    · exact ⟨.bundleLoad, rfl, hw.2⟩
  | bundleName _ alg hash y n x q h1 h2 h3 h4 h5 h6 h7 h8 =>
    obtain ⟨basis, r, hb, rfl⟩ := cut16 y (by omega)
    rw [List.length_append, u16_length] at h4
    have hd := bundleHead alg hash basis r n x q h2 h3 hb (by omega) h5 h6
    simp only [List.append_assoc]
    have key : ∀ (k : Str → Str → Py Str), (do
        let h ← tupleGet hashWords hash
        let a ← tupleGet bdAlgWords alg
        k h a) = .error .indexError := by
      intro k
      rcases get_total hashWords hash with ⟨w, hw⟩ | hw
      · rw [tupleGet_some _ _ _ hw, ok_bind]
        have : bdAlgWords.length ≤ alg := by
          rcases h8 with h8 | h8
          · exact h8
          · rw [List.getElem?_eq_none (show hashWords.length ≤ hash from h8)] at hw
            cases hw
        rw [tupleGet_none _ _ this, err_bind]
      · rw [tupleGet_none _ _ hw, err_bind]
    simp only [List.mem_cons, List.not_mem_nil, or_false] at h1
    rcases h1 with rfl | rfl
    · refine ⟨.bundle, rfl, ?_⟩
      show bundleAct2str _ = _
      rw [bundle_eq hd h7]
      exact key _
    · refine ⟨.bundleLoad, rfl, ?_⟩
      show bundleLoadAct2str _ = _
      rw [bundleLoad_eq hd h7]
      exact key _
  | bundleField _ alg hash basis id n x q _ h1 h2 h3 h4 h5 h6 h7 h8 h9 =>
    have hd := bundleHead alg hash basis id n x q (by omega) (by omega) h4 h5 h6 h7
    rcases get_total hashWords hash with ⟨w, hw⟩ | hw
    · rcases get_total bdAlgWords alg with ⟨w', hw'⟩ | hw'
      · simp only [List.mem_cons, List.not_mem_nil, or_false] at h1
        rcases h1 with rfl | rfl
        · refine ⟨.bundle, rfl, ?_⟩
          show bundleAct2str _ = _
          rw [bundle_eq hd h8, tupleGet_some _ _ _ hw, ok_bind, tupleGet_some _ _ _ hw', ok_bind, (headFails_iff _ _).1 h9,
            err_bind]
        · refine ⟨.bundleLoad, rfl, ?_⟩
          show bundleLoadAct2str _ = _
          rw [bundleLoad_eq hd h8, tupleGet_some _ _ _ hw, ok_bind, tupleGet_some _ _ _ hw', ok_bind, (headFails_iff _ _).1 h9,
            err_bind]
      · exact absurd (show (2 : Nat) ≤ alg from hw') (by omega)
    · exact absurd (show (2 : Nat) ≤ hash from hw) (by omega)
  | bundleDest alg hash basis id n on id' x q _ h1 h2 h3 h4 h5 h6 h7 h8 h9 h10 h11 =>
    obtain ⟨k1, k2⟩ := bundleLoad_dest alg hash basis id n on id' x q h4 h6 h7
    have hd := bundleHead alg hash basis id n (u16 on ++ (id' ++ x)) q (by omega) (by omega) h3 h4 h5
      (by simp [u16_length, h7, h8])
    rw [List.append_assoc, List.append_assoc] at hd
    obtain ⟨s, hs⟩ := name_of_not h10
    refine ⟨.bundleLoad, rfl, ?_⟩
    show bundleLoadAct2str _ = _
    rcases get_total hashWords hash with ⟨w, hw⟩ | hw
    · rcases get_total bdAlgWords alg with ⟨w', hw'⟩ | hw'
      · rw [bundleLoad_eq hd h9, tupleGet_some _ _ _ hw, ok_bind, tupleGet_some _ _ _ hw', ok_bind, hs, ok_bind, k2,
          (headFails_iff _ _).1 h11, err_bind]
      · exact absurd (show (2 : Nat) ≤ alg from hw') (by omega)
    · exact absurd (show (2 : Nat) ≤ hash from hw) (by omega)
  | outputField p id r _ h1 h2 h3 h4 =>
    refine ⟨.outputReg, rfl, ?_⟩
    show outputRegAct2str _ = _
    unfold outputRegAct2str
    rw [need_ok _ _ _ (by simp; omega), ok_bind]
    dsimp only
    rw [slice_middle p id r 2 6 h1 (by omega), (headFails_iff _ _).1 h4, err_bind]
  | learnFixed _ h1 h2 => exact ⟨.learn, rfl, learn_fixed _ h1 h2⟩
  | learn y r _ h1 =>
    refine ⟨.learn, rfl, ?_⟩
    show learnAct2str _ = _
    rw [learn_eq, specs_err _ _ _ _ (by simp [pad_length]; omega) h1, err_bind]
  | ids n q h1 h2 =>
    refine ⟨.cntIds, rfl, ?_⟩
    show cntIdsAct2str _ = _
    unfold cntIdsAct2str
    rw [need_ok _ _ _ (by simp [u16_length]), ok_bind]
    dsimp only
    rw [uAt_u16_here _ _ h1, need_err _ _ _ (by simp [u16_length]; omega), err_bind]
  | output2Field p q _ h1 h2 =>
    refine ⟨.outputReg2, rfl, ?_⟩
    show outputReg2Act2str _ = _
    unfold outputReg2Act2str
    have := headFails_long h2
    rw [need_ok _ _ _ (by simp; omega), ok_bind]
    dsimp only
    rw [drop_pre _ _ 4 h1, (headFails_iff _ _).1 h2, err_bind]
  | regLoad2 _ _ h1 =>
    refine ⟨.regLoad2, rfl, ?_⟩
    show regLoad2Act2str _ = _
    unfold regLoad2Act2str
    rw [(outcome_match1 _).2.1 _ h1, err_bind]

end Ofpstr
