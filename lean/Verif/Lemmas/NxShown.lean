import Verif.Lemmas.LearnShown

/-!
# Printed actions: Nicira actions
-/

namespace Ofpstr
open Spec

set_option linter.unusedSimpArgs false

theorem uAt_cons0 (y : UInt8) (r : Bytes) : uAt (y :: r) 0 1 = y.toNat := by simp [uAt, slice, beVal]

theorem uAt_cons (y : UInt8) (r : Bytes) (i k : Nat) (h : 1 ≤ i) : uAt (y :: r) i k = uAt r (i - 1) k :=
  uAt_right [y] r i k h

theorem single_join (s : Str) : joinStr t!"," [s] = s := by simp [joinStr]

/-! ## `reg_load` -/

/-- `regLoadAct2str` when the fixed part has been read. -/
def loadText (on c y v : Nat) (name : Py Str) : Py Str := do
  let name ← name
  let oxmid ← str2oxmid false name
  needBytes oxmid 0 4
  let size := uAt oxmid 3 1
  if on / 64 == 0 && on % 64 + 1 == size * 8 then
    let arg ← oxm2str (oxmid ++ intBE size v)
    .ok (t!"reg_load(" ++ (arg ++ t!")"))
  else
    let h ← packAll [(2, c), (1, if y % 2 == 1 then y else y + 1), (1, size * 2)]
    let arg ← oxm2str (h ++ (intBE size (v * 2 ^ (on / 64)) ++ intBE size ((2 ^ (on % 64 + 1) - 1) * 2 ^ (on / 64))))
    .ok (t!"reg_load(" ++ (arg ++ t!")"))

theorem regLoad_eq (on c : Nat) (y l : UInt8) (v : Nat) (r : Bytes) (h1 : on < 65536) (h2 : c < 65536) (h3 : v < 2 ^ 64) :
    regLoadAct2str (u16 on ++ (u16 c ++ y :: l :: (u64 v ++ r))) =
      loadText on c y.toNat v (oxmid2str (u16 c ++ [y, l])) := by
  have e0 : uAt (u16 on ++ (u16 c ++ y :: l :: (u64 v ++ r))) 0 2 = on := by uat
  have e2 : uAt (u16 on ++ (u16 c ++ y :: l :: (u64 v ++ r))) 2 2 = c := by uat
  have e4 : uAt (u16 on ++ (u16 c ++ y :: l :: (u64 v ++ r))) 4 1 = y.toNat := by
    rw [uAt_u16 _ _ _ _ (by omega), uAt_u16 _ _ _ _ (by omega)]
    exact uAt_cons0 _ _
  have e6 : uAt (u16 on ++ (u16 c ++ y :: l :: (u64 v ++ r))) 6 8 = v := by
    rw [uAt_u16 _ _ _ _ (by omega), uAt_u16 _ _ _ _ (by omega), uAt_cons _ _ _ _ (by omega), uAt_cons _ _ _ _ (by omega)]
    exact uAt_u64_here v r (by omega)
  have es : slice (u16 on ++ (u16 c ++ y :: l :: (u64 v ++ r))) 2 6 = u16 c ++ [y, l] := by
    rw [show u16 on ++ (u16 c ++ y :: l :: (u64 v ++ r)) = u16 on ++ ((u16 c ++ [y, l]) ++ (u64 v ++ r)) by simp]
    exact slice_middle _ _ _ 2 6 (u16_length on) (by simp [u16_length])
  have el : 14 ≤ (u16 on ++ (u16 c ++ y :: l :: (u64 v ++ r))).length := by
    simp [u16_length, u64_length]
    omega
  generalize u16 on ++ (u16 c ++ y :: l :: (u64 v ++ r)) = w at *
  unfold regLoadAct2str loadText
  rw [need_ok _ _ _ (by omega), ok_bind]
  dsimp only
  rw [e0, e2, e4, e6, es]

theorem shown_token : ∀ f ∈ fields, getToken f.shownName = ([], f.shownName, []) := by decide +kernel

theorem shown_class : ∀ f ∈ fields, f.cls ≠ 0xffff → ∀ g ∈ fields, g.name = f.shownName → g.extra = 0 := by decide +kernel

theorem shown_named : ∀ f ∈ fields, ∃ g ∈ fields, g.name = f.shownName := by decide +kernel

theorem ids_one (c : Nat) (y l : UInt8) (s : Str) (h : HeadShown (u16 c ++ [y, l]) s []) :
    oxmid2str (u16 c ++ [y, l]) = .ok s :=
  (outcome_ids _).1 s ⟨[s], .more _ _ _ _ h (.done _ (by simp)), (single_join s).symm⟩

theorem ids_one_err (c : Nat) (y l : UInt8) (e : Err) (h : HeadFails (u16 c ++ [y, l]) e) :
    oxmid2str (u16 c ++ [y, l]) = .error e := (outcome_ids _).2.1 e (.now _ _ h)

theorem pack_head (f : Field) (hf : f ∈ fields) (hm : Bool) (y : UInt8) (hy : fieldByte f hm = [y]) (k : Nat) :
    packAll [(2, (f.cls : Int)), (1, if y.toNat % 2 == 1 then (y.toNat : Int) else y.toNat + 1), (1, (k : Int) * 2)] =
      if 2 * k < 256 then .ok (u16 f.cls ++ (fieldByte f true ++ u8 (2 * k))) else .error .structError := by
  obtain ⟨y', e1, e2, e3⟩ := field_byte f hf hm
  rw [hy] at e1
  obtain rfl : y = y' := by simpa using e1
  have hs := field_short f hf
  have hv : (if y.toNat % 2 == 1 then (y.toNat : Int) else y.toNat + 1) = ((2 * f.num + 1 : Nat) : Int) := by
    split
    · rename_i hc; rw [beq_iff_eq] at hc; omega
    · rename_i hc; rw [beq_iff_eq] at hc; omega
  rw [hv, show ((k : Int) * 2) = ((2 * k : Nat) : Int) by omega]
  split
  · rename_i hk
    refine packAll_nat 2 f.cls hs.1 _ _ (packAll_nat 1 (2 * f.num + 1) (by omega) _ _ ?_)
    have := packAll_nat 1 (2 * k) (by omega) [] [] rfl
    rwa [List.append_nil] at this
  · rename_i hk
    rw [packAll_eq, if_neg]
    intro h
    have := h (1, ((2 * k : Nat) : Int)) (by simp)
    unfold FitsIn at this
    simp at this
    omega

theorem load_eq (f g : Field) (hm : Bool) (on : Nat) (y : UInt8) (v : Nat) (hf : f ∈ fields) (hc : f.cls ≠ 0xffff)
    (hg : g ∈ fields) (hn : g.name = f.shownName) (hy : fieldByte f hm = [y]) :
    loadText on f.cls y.toNat v (.ok f.shownName) =
      if on / 64 = 0 ∧ on % 64 + 1 = 8 * g.nameLen false then (do
        let arg ← oxm2str (g.nameId false ++ be (g.nameLen false) v)
        .ok (t!"reg_load(" ++ (arg ++ t!")")))
      else if 2 * g.nameLen false < 256 then (do
        let arg ← oxm2str (u16 f.cls ++ (fieldByte f true ++ (u8 (2 * g.nameLen false) ++
          (be (g.nameLen false) (v * 2 ^ (on / 64)) ++ be (g.nameLen false) ((2 ^ (on % 64 + 1) - 1) * 2 ^ (on / 64))))))
        .ok (t!"reg_load(" ++ (arg ++ t!")")))
      else .error .structError := by
  have h1 : str2oxmid false f.shownName = .ok (g.nameId false) :=
    (oxmid_iff false _ (shown_token f hf) _).2 (hn ▸ IdText.known g hg)
  obtain ⟨p1, p2, _, _, _⟩ := nameId_parts g hg false
  rw [shown_class f hf hc g hg hn, Nat.add_zero] at p2
  unfold loadText
  rw [ok_bind, h1, ok_bind, p1, ok_bind]
  dsimp only
  rw [p2]
  by_cases c1 : on / 64 = 0 ∧ on % 64 + 1 = 8 * g.nameLen false
  · rw [if_pos c1, if_pos (by simp only [Bool.and_eq_true, beq_iff_eq]; omega), intBE_nat, spec_be]
  · rw [if_neg c1, if_neg (by simp only [Bool.and_eq_true, beq_iff_eq]; omega), pack_head f hf hm y hy]
    by_cases c2 : 2 * g.nameLen false < 256
    · rw [if_pos c2, if_pos c2, ok_bind, spec_be, spec_be]
      rw [show ((v : Int) * 2 ^ (on / 64)) = ((v * 2 ^ (on / 64) : Nat) : Int) by push_cast; rfl]
      rw [show (((2 : Int) ^ (on % 64 + 1) - 1) * 2 ^ (on / 64)) = (((2 ^ (on % 64 + 1) - 1) * 2 ^ (on / 64) : Nat) : Int) by
        rw [Int.natCast_mul, Int.natCast_sub Nat.one_le_two_pow]; push_cast; rfl]
      rw [intBE_nat, intBE_nat]
      simp only [List.append_assoc]
    · rw [if_neg c2, if_neg c2, err_bind]

/-! ## `multipath` and `bundle` -/

theorem multipath_eq (hash basis alg link arg on : Nat) (x y q : Bytes) (h1 : hash < 65536) (h2 : basis < 65536)
    (hx : x.length = 2) (h3 : alg < 65536) (h4 : link < 65536) (h5 : arg < 2 ^ 32) (hy : y.length = 2) (h6 : on < 65536) :
    multipathAct2str (u16 hash ++ (u16 basis ++ (x ++ (u16 alg ++ (u16 link ++ (u32 arg ++ (y ++ (u16 on ++ q)))))))) = (do
      let dst ← oxmid2str1 q
      let h ← tupleGet hashWords hash
      let a ← tupleGet mpAlgWords alg
      .ok (t!"multipath(" ++ (h ++ ',' :: (fmtD basis ++ ',' :: (a ++ ',' :: (fmtD link ++ ',' :: (fmtX 0 arg ++ ',' ::
        (fmtRange dst (on / 64) (on / 64 + (on % 64 + 1)) ++ t!")")))))))) := by
  obtain ⟨m, _, rfl⟩ := as_be x 2 hx
  obtain ⟨m', _, rfl⟩ := as_be y 2 hy
  generalize hw : u16 hash ++ (u16 basis ++ (be 2 m ++ (u16 alg ++ (u16 link ++ (u32 arg ++ (be 2 m' ++ (u16 on ++ q))))))) = w
  have e0 : uAt w 0 2 = hash := by rw [← hw]; uat
  have e2 : uAt w 2 2 = basis := by rw [← hw]; uat
  have e6 : uAt w 6 2 = alg := by rw [← hw]; uat
  have e8 : uAt w 8 2 = link := by rw [← hw]; uat
  have e10 : uAt w 10 4 = arg := by rw [← hw]; uat
  have e16 : uAt w 16 2 = on := by rw [← hw]; uat
  have ed : w.drop 18 = q := by
    rw [← hw, show u16 hash ++ (u16 basis ++ (be 2 m ++ (u16 alg ++ (u16 link ++ (u32 arg ++ (be 2 m' ++ (u16 on ++ q))))))) =
      (u16 hash ++ (u16 basis ++ (be 2 m ++ (u16 alg ++ (u16 link ++ (u32 arg ++ (be 2 m' ++ u16 on))))))) ++ q by
        simp only [List.append_assoc]]
    exact List.drop_left' (by simp [u16_length, u32_length, be_length])
  have el : 18 ≤ w.length := by rw [← hw]; simp [u16_length, u32_length, be_length]; omega
  unfold multipathAct2str
  rw [need_ok _ _ _ (by omega), ok_bind]
  dsimp only
  rw [e0, e2, e6, e8, e10, e16, ed, hash_words, mpAlg_words]

/-- The fixed part of `bundle` and `bundle_load`. -/
structure BundleHead (w : Bytes) (alg hash basis : Nat) (id : Bytes) (n : Nat) (x q : Bytes) : Prop where
  long : w.length = 22 + q.length
  alg : uAt w 0 2 = alg
  hash : uAt w 2 2 = hash
  basis : uAt w 4 2 = basis
  n : uAt w 10 2 = n
  id : slice w 6 10 = id
  body : ∃ a : Bytes, a.length = 22 ∧ w = a ++ q

theorem bundleHead (alg hash basis : Nat) (id : Bytes) (n : Nat) (x q : Bytes) (h1 : alg < 65536) (h2 : hash < 65536)
    (h3 : basis < 65536) (hi : id.length = 4) (hn : n < 65536) (hx : x.length = 10) :
    BundleHead (u16 alg ++ (u16 hash ++ (u16 basis ++ (id ++ (u16 n ++ (x ++ q)))))) alg hash basis id n x q := by
  obtain ⟨m, hm, rfl⟩ := as_be id 4 hi
  refine ⟨?_, ?_, ?_, ?_, ?_, ?_, ?_⟩
  · simp [u16_length, be_length, hx]; omega
  · uat
  · uat
  · uat
  · uat
  · rw [show u16 alg ++ (u16 hash ++ (u16 basis ++ (be 4 m ++ (u16 n ++ (x ++ q))))) =
      (u16 alg ++ (u16 hash ++ u16 basis)) ++ (be 4 m ++ (u16 n ++ (x ++ q))) by simp only [List.append_assoc]]
    exact slice_middle _ _ _ 6 10 (by simp [u16_length]) (by simp [u16_length, be_length])
  · refine ⟨u16 alg ++ (u16 hash ++ (u16 basis ++ (be 4 m ++ (u16 n ++ x)))), ?_, by simp only [List.append_assoc]⟩
    simp [u16_length, be_length, hx]

theorem BundleHead.words {w : Bytes} {alg hash basis : Nat} {id : Bytes} {n : Nat} {x q : Bytes}
    (h : BundleHead w alg hash basis id n x q) (ns : List Nat) (r : Bytes) (hq : q = wordsOf ns ++ r) (hn : n = ns.length)
    (hl : ∀ i ∈ ns, i < 65536) : hsAt w 22 n = ns := by
  obtain ⟨a, ha, rfl⟩ := h.body
  rw [hq, hn]
  exact hsAt_flat ns hl a r 22 ha

theorem bundle_eq {w : Bytes} {alg hash basis : Nat} {id : Bytes} {n : Nat} {x q : Bytes}
    (h : BundleHead w alg hash basis id n x q) (hq : 2 * n ≤ q.length) : bundleAct2str w = (do
      let h ← tupleGet hashWords hash
      let a ← tupleGet bdAlgWords alg
      let st ← oxmid2str1 id
      .ok (t!"bundle(" ++ (h ++ ',' :: (fmtD basis ++ ',' :: (a ++ ',' :: (st ++ t!",slaves(" ++
        (joinStr t!"," ((hsAt w 22 n).map bundlePortText) ++ t!"))"))))))) := by
  unfold bundleAct2str
  rw [need_ok _ _ _ (by rw [h.long]; omega), ok_bind]
  dsimp only
  rw [h.n, need_ok _ _ _ (by rw [h.long]; omega), ok_bind, h.hash, h.alg, h.basis, h.id, hash_words, bdAlg_words]

theorem bundleLoad_eq {w : Bytes} {alg hash basis : Nat} {id : Bytes} {n : Nat} {x q : Bytes}
    (h : BundleHead w alg hash basis id n x q) (hq : 2 * n ≤ q.length) : bundleLoadAct2str w = (do
      let h ← tupleGet hashWords hash
      let a ← tupleGet bdAlgWords alg
      let st ← oxmid2str1 id
      let dst ← oxmid2str1 (slice w 14 18)
      .ok (t!"bundle_load(" ++ (h ++ ',' :: (fmtD basis ++ ',' :: (a ++ ',' :: (st ++ ',' ::
        (fmtRange dst (uAt w 12 2 / 64) (uAt w 12 2 / 64 + (uAt w 12 2 % 64 + 1)) ++ (t!",slaves(" ++
        (joinStr t!"," ((hsAt w 22 n).map bundlePortText) ++ t!"))"))))))))) := by
  unfold bundleLoadAct2str
  rw [need_ok _ _ _ (by rw [h.long]; omega), ok_bind]
  dsimp only
  rw [h.n, need_ok _ _ _ (by rw [h.long]; omega), ok_bind, h.hash, h.alg, h.basis, h.id, hash_words, bdAlg_words]

theorem bundle_short {w : Bytes} {alg hash basis : Nat} {id : Bytes} {n : Nat} {x q : Bytes}
    (h : BundleHead w alg hash basis id n x q) (hq : q.length < 2 * n) :
    bundleAct2str w = .error .structError ∧ bundleLoadAct2str w = .error .structError := by
  constructor
  · unfold bundleAct2str
    rw [need_ok _ _ _ (by rw [h.long]; omega), ok_bind]
    dsimp only
    rw [h.n, need_err _ _ _ (by rw [h.long]; omega), err_bind]
  · unfold bundleLoadAct2str
    rw [need_ok _ _ _ (by rw [h.long]; omega), ok_bind]
    dsimp only
    rw [h.n, need_err _ _ _ (by rw [h.long]; omega), err_bind]

/-- The field and the bits in `bundle_load`. -/
theorem bundleLoad_dest (alg hash basis : Nat) (id : Bytes) (n on : Nat) (id' x q : Bytes) (hi : id.length = 4)
    (ho : on < 65536) (hi' : id'.length = 4) :
    uAt (u16 alg ++ (u16 hash ++ (u16 basis ++ (id ++ (u16 n ++ (u16 on ++ (id' ++ (x ++ q)))))))) 12 2 = on ∧
    slice (u16 alg ++ (u16 hash ++ (u16 basis ++ (id ++ (u16 n ++ (u16 on ++ (id' ++ (x ++ q)))))))) 14 18 = id' := by
  obtain ⟨m, hm, rfl⟩ := as_be id 4 hi
  constructor
  · uat
  · rw [show u16 alg ++ (u16 hash ++ (u16 basis ++ (be 4 m ++ (u16 n ++ (u16 on ++ (id' ++ (x ++ q))))))) =
      (u16 alg ++ (u16 hash ++ (u16 basis ++ (be 4 m ++ (u16 n ++ u16 on))))) ++ (id' ++ (x ++ q)) by
        simp only [List.append_assoc]]
    exact slice_middle _ _ _ 14 18 (by simp [u16_length, be_length]) (by simp [u16_length, be_length, hi'])

end Ofpstr
