import Verif.Lemmas.LostRange

/-!
# `reg_load` actions that do not survive printing
-/

set_option linter.unusedSimpArgs false

namespace Ofpstr
open Spec

/-- `str2oxm(…, loop=False)` of one item. -/
theorem str2oxm1_item_inv {name v : Str} {key : Key} {k : Enc} (hc : Clean name) (hn : name ≠ []) (hv : Clean v)
    (hl : lookupEnc name = some (key, k)) {b : Bytes} {l : Nat} (h : str2oxm1 (name ++ '=' :: v) = .ok (b, l)) :
    b = [] ∨ ∃ l', encText key k v = .ok (b, l') := by
  have h1 := getToken_clean hc hn (atEnd_eq v)
  have h2 : getToken ('=' :: v) = (['='], v, []) := by
    by_cases hvn : v = []
    · subst hvn; exact getToken_empty [] (Or.inl rfl)
    · have := getToken_eq hv.token atEnd_nil hv.plainStart hvn
      rwa [List.append_nil] at this
  unfold str2oxm1 str2oxmL at h
  obtain ⟨⟨m, rest⟩, h3, h4⟩ := bind_ok h
  simp only [Except.ok.injEq, Prod.mk.injEq] at h4
  obtain ⟨rfl, -⟩ := h4
  rw [str2oxmGo, if_neg (by simp)] at h3
  obtain ⟨⟨bin, l1, p1, r1⟩, h5, h3⟩ := bind_ok h3
  unfold str2oxmOne at h5
  rw [h1] at h5
  dsimp only at h5
  rw [h2] at h5
  dsimp only at h5
  obtain ⟨_, _, h5⟩ := bind_ok h5
  rw [hl] at h5
  dsimp only at h5
  obtain ⟨⟨out, l'⟩, heo, h5⟩ := bind_ok h5
  simp only [Except.ok.injEq, Prod.mk.injEq] at h5
  obtain ⟨rfl, rfl, rfl, rfl⟩ := h5
  dsimp only at h3
  split at h3
  · simp only [Except.ok.injEq, Prod.mk.injEq] at h3; exact Or.inl h3.1.symm
  · obtain ⟨_, _, h3⟩ := bind_ok h3
    simp only [Bool.false_eq_true, if_false, Except.ok.injEq, Prod.mk.injEq] at h3
    obtain ⟨rfl, -⟩ := h3
    exact Or.inr ⟨_, heo⟩

/-- A name alone is not an item. -/
theorem str2oxm1_name {name : Str} (hc : Clean name) (hn : name ≠ []) {b : Bytes} {l : Nat}
    (h : str2oxm1 name = .ok (b, l)) : False := by
  unfold str2oxm1 str2oxmL at h
  obtain ⟨⟨m, rest⟩, h3, h4⟩ := bind_ok h
  rw [str2oxmGo, if_neg (by simpa using hn)] at h3
  obtain ⟨⟨bin, l1, p1, r1⟩, h5, h3⟩ := bind_ok h3
  have := getToken_clean hc hn atEnd_nil
  rw [List.append_nil] at this
  unfold str2oxmOne at h5
  rw [this] at h5
  dsimp only at h5
  rw [show getToken [] = ([], [], []) by decide] at h5
  simp [hasChar, pyAssert, bind, Except.bind] at h5

/-- The bytes that `reg_load` makes of one match. -/
theorem regLoad_inv {u : Str} {c : Bytes} {l : Nat} (h : regLoadStr2act u false = .ok (c, l)) :
    ∃ (oxm : Bytes) (rlen q sz val : Nat), str2oxm1 u = .ok (oxm, rlen) ∧ 4 ≤ oxm.length ∧ q < 256 ^ 2 ∧ sz < 256 ∧
      c = nxWire 7 (be 2 q ++ (be 2 (uAt oxm 0 2) ++ (be 1 (uAt oxm 2 1 / 2 * 2) ++ (be 1 sz ++ be 8 val)))) ∧
      sz = (if uAt oxm 0 2 == 0xffff then oxm.drop 6 else oxm.drop 4).length / (if uAt oxm 2 1 % 2 == 1 then 2 else 1) ∧
      (uAt oxm 2 1 % 2 = 0 → (q : Int) = (sz : Int) * 8 - 1) := by
  unfold regLoadStr2act at h
  rw [if_neg (by simp)] at h
  obtain ⟨bin, h1, h2⟩ := nxWrap_inv h
  obtain ⟨⟨oxm, rl⟩, h3, h1⟩ := bind_ok h1
  dsimp only at h1
  split at h1
  · cases h1
  · obtain ⟨_, hnb, h1⟩ := bind_ok h1
    have h4 : 4 ≤ oxm.length := by
      by_contra hc
      unfold needBytes at hnb
      split at hnb
      · omega
      · cases hnb
    generalize hp : (if uAt oxm 0 2 == 0xffff then oxm.drop 6 else oxm.drop 4) = p at *
    split at h1
    · next hodd =>
      split at h1
      · cases h1
      · next _ nb _ =>
        obtain ⟨b, hb, h1⟩ := bind_ok h1
        simp only [Except.ok.injEq, Prod.mk.injEq] at h1
        obtain ⟨rfl, rfl⟩ := h1
        obtain ⟨b1, q0, q1, hb1, rfl⟩ := packAll_cons_inv hb
        obtain ⟨b2, _, _, hb2, rfl⟩ := packAll_cons_inv hb1
        obtain ⟨b3, _, _, hb3, rfl⟩ := packAll_cons_inv hb2
        obtain ⟨b4, _, s1, hb4, rfl⟩ := packAll_cons_inv hb3
        obtain ⟨b5, _, _, hb5, rfl⟩ := packAll_cons_inv hb4
        cases hb5
        refine ⟨oxm, rl, (((maskScan (p.drop (p.length / 2))).1 * 64 : Int) + ((nb : Int) - 1)).toNat, p.length / 2,
          (beVal (p.take (p.length / 2)) / 2 ^ (maskScan (p.drop (p.length / 2))).1), h3, h4, by omega, by omega, ?_,
          by rw [if_pos hodd, hp], fun he => ?_⟩
        · rw [nxWrap_hdr_inv (t := 7) h2]
          simp only [List.append_nil, Int.toNat_natCast]
          rw [show ((((uAt oxm 2 1 : Nat) : Int)) / 2 * 2).toNat = uAt oxm 2 1 / 2 * 2 by omega]
        · simp only [beq_iff_eq] at hodd; omega
    · next hodd =>
      obtain ⟨b, hb, h1⟩ := bind_ok h1
      simp only [Except.ok.injEq, Prod.mk.injEq] at h1
      obtain ⟨rfl, rfl⟩ := h1
      obtain ⟨b1, q0, q1, hb1, rfl⟩ := packAll_cons_inv hb
      obtain ⟨b2, _, _, hb2, rfl⟩ := packAll_cons_inv hb1
      obtain ⟨b3, _, _, hb3, rfl⟩ := packAll_cons_inv hb2
      obtain ⟨b4, _, s1, hb4, rfl⟩ := packAll_cons_inv hb3
      obtain ⟨b5, _, _, hb5, rfl⟩ := packAll_cons_inv hb4
      cases hb5
      refine ⟨oxm, rl, ((p.length : Int) * 8 - 1).toNat, p.length, beVal p, h3, h4, by omega, by omega, ?_,
        by rw [if_neg hodd, hp]; omega, fun he => ?_⟩
      · rw [nxWrap_hdr_inv (t := 7) h2]
        simp only [List.append_nil, Int.toNat_natCast]
        rw [show ((((uAt oxm 2 1 : Nat) : Int)) / 2 * 2).toNat = uAt oxm 2 1 / 2 * 2 by omega]
      · omega

/-- How `reg_load` is printed: the match whose text is in the brackets. -/
theorem regLoad_dec {f : Field} {n : Nat} (id : IdShape f n) (ofs nbits value : Nat) (hpos : 0 < nbits)
    (he : ofs + nbits ≤ f.bits) (h64 : nbits ≤ 64) (hx : f.experimenter = false) (hval : value < 2 ^ nbits)
    {x : Bytes} (hid : str2oxmid false (shownName f) = .ok x) (hxl : x.length = 4) (z : Bytes) :
    runActDec .regLoad (u16 (ofsNbits ofs nbits) ++ (f.id ++ u64 value) ++ z) =
      (if (ofs == 0 && nbits == uAt x 3 1 * 8) = true then do
        let arg ← oxm2str (x ++ intBE (uAt x 3 1) value)
        .ok (t!"reg_load(" ++ (arg ++ t!")"))
      else do
        let h ← packAll [(2, f.cls), (1, ((2 * f.num : Nat) : Int) + 1), (1, (uAt x 3 1 : Int) * 2)]
        let arg ← oxm2str (h ++ (intBE (uAt x 3 1) (value * 2 ^ ofs) ++ intBE (uAt x 3 1) ((2 ^ nbits - 1) * 2 ^ ofs)))
        .ok (t!"reg_load(" ++ (arg ++ t!")")) : Py Str) := by
  have hon := range_fits id hpos he h64
  obtain ⟨hof, hnb⟩ := ofsNbits_facts ofs nbits hpos h64
  have hlen0 := id.length
  rw [hx] at hlen0
  simp only [Bool.false_eq_true, if_false, Nat.add_zero] at hlen0
  have hv64 : value < 256 ^ 8 := by
    have : 2 ^ nbits ≤ 2 ^ 64 := Nat.pow_le_pow_right (by decide) h64
    have h2 : (2 : Nat) ^ 64 = 256 ^ 8 := by decide
    omega
  generalize hbody : u16 (ofsNbits ofs nbits) ++ (f.id ++ u64 value) = body
  have hlen : body.length = 14 := by
    rw [← hbody]; simp only [List.length_append, u16_length, hlen0]; rfl
  simp only [runActDec, regLoadAct2str]
  have hp : body ++ z = u16 (ofsNbits ofs nbits) ++ (f.id ++ (u64 value ++ z)) := by
    rw [← hbody]; simp only [List.append_assoc]
  have e0 : uAt (body ++ z) 0 2 = ofsNbits ofs nbits := by rw [hp]; exact uAt_u16_here _ _ hon
  have e1 : uAt (body ++ z) 2 2 = f.cls := by rw [hp, uAt_u16 _ _ _ _ (by omega)]; exact id.cls _
  have e2 : uAt (body ++ z) 4 1 = 2 * f.num := by rw [hp, uAt_u16 _ _ _ _ (by omega)]; exact id.num _
  have e3 : uAt (body ++ z) 6 8 = value := by
    rw [hp, uAt_u16 _ _ _ _ (by omega), uAt_right _ _ _ _ (by omega), hlen0]
    exact uAt_here 8 _ _ hv64
  have e4 : slice (body ++ z) 2 6 = f.id := by
    rw [hp]; exact slice_append_left _ _ _ _ _ (by rw [u16_length]) (by rw [u16_length, hlen0])
  rw [needBytes_ok _ 0 14 (by rw [List.length_append]; omega), ok_bind, e0, e1, e2, e3, e4, id.decodeAll,
    ok_bind, hid, ok_bind, needBytes_ok _ 0 4 (by omega), ok_bind, hof, hnb]
  rw [if_neg (show ¬ ((2 * f.num % 2 == 1) = true) by simp)]

/-- `oxm2str` of one match. -/
theorem oxm2str_header (key : Key) (n : Nat) (hm : Bool) (d : Dec) (body : Bytes)
    (hk : key.num < 128) (hd : lookupDec key = some d)
    (hb : body.length = if hm then 2 * n else n) (hf : body.length + extra key.cls < 256) :
    oxm2str (header key n hm ++ body) = (decText d body hm).bind fun s => .ok s := by
  obtain ⟨h1, h2⟩ := oxm2strOne_tlv key n hm d body [] hk hd hb hf
  rw [List.append_nil] at h1 h2
  have hl := header_length key n hm
  unfold oxm2str
  rw [oxm2strGo, if_neg (by rw [List.length_append]; omega), h1]
  cases hdt : decText d body hm with
  | error e => rfl
  | ok s =>
    rw [ok_bind, h2, List.drop_eq_nil_of_le (by rw [List.length_append, hl]; omega)]
    have : oxm2strGo (header key n hm ++ body).length [] = .ok [] := by
      rw [List.length_append, show (header key n hm).length + body.length =
        ((header key n hm).length + body.length - 1) + 1 by omega, oxm2strGo, if_pos (by simp)]
    rw [this, ok_bind, ok_bind]
    rfl

/-- The text of a number field read as another field or size. -/
theorem lost_regLoad_item {body : Bytes} {name v : Str} {key : Key} {n : Nat}
    (hfit : (nxWire 7 body).length < 65536) (hc : Clean name) (hn : name ≠ []) (hnp : NP name) (hv : Clean v) (hvn : NP v)
    (hl : lookupEnc name = some (key, .uint n))
    (hdec : runActDec .regLoad (body ++ fill (10 + body.length)) = .ok (t!"reg_load(" ++ (name ++ '=' :: v ++ t!")")))
    (hne : ∀ hm pl, pl.length = (if hm then 2 * n else n) → ∀ q sz val : Nat, sz < 256 →
      sz = (if uAt (header key n hm ++ pl) 0 2 == 0xffff then (header key n hm ++ pl).drop 6 else
        (header key n hm ++ pl).drop 4).length / (if uAt (header key n hm ++ pl) 2 1 % 2 == 1 then 2 else 1) →
      nxWire 7 (be 2 q ++ (be 2 (uAt (header key n hm ++ pl) 0 2) ++ (be 1 (uAt (header key n hm ++ pl) 2 1 / 2 * 2) ++
        (be 1 sz ++ be 8 val)))) ≠ nxWire 7 body) : ActLost (nxWire 7 body) := by
  refine nx_lost 7 body t!"reg_load" (name ++ '=' :: v) .regLoad .regLoad (by decide) (by decide) hfit (by decide)
    (by decide) (by decide) (by decide) (inside_append (inside_clean hc hnp)
      (inside_cons (by decide) (by decide) (inside_clean hv hvn))) (by simp) (by rw [hdec]; simp) ?_
  intro c l hc' he
  simp only [runActEnc] at hc'
  obtain ⟨oxm, rl, q, sz, val, h1, h2, h3, h4, h5, h6, h7⟩ := regLoad_inv hc'
  rcases str2oxm1_item_inv hc hn hv hl h1 with rfl | ⟨l', h8⟩
  · simp at h2
  · simp only [encText] at h8
    unfold uintStr2bin at h8
    obtain ⟨⟨num, rlen⟩, _, h8⟩ := bind_ok h8
    dsimp only at h8
    split at h8
    · obtain ⟨⟨m, e⟩, _, h8⟩ := bind_ok h8
      simp only [Except.ok.injEq, Prod.mk.injEq] at h8
      obtain ⟨rfl, -⟩ := h8
      exact hne true (intBE n num ++ intBE n m) (by simp [intBE_length]; omega) q sz val h4 h6 (by rw [← h5, he])
    · simp only [Except.ok.injEq, Prod.mk.injEq] at h8
      obtain ⟨rfl, -⟩ := h8
      exact hne false (intBE n num) (by simp [intBE_length]) q sz val h4 h6 (by rw [← h5, he])

theorem pack_header {f : Field} {n : Nat} (id : IdShape f n) (hx : f.experimenter = false) :
    packAll [(2, (f.cls : Int)), (1, ((2 * f.num : Nat) : Int) + 1), (1, (n : Int) * 2)] =
      .ok (header (fieldKey f) n true) := by
  have hsm := id.small
  rw [hx] at hsm
  simp only [Bool.false_eq_true, if_false, Nat.add_zero] at hsm
  have hnum : f.num < 128 := (field_name f id.mem).2.2
  have hcls : f.cls < 256 ^ 2 := by rw [← field_cls f id.mem]; exact cls_code_lt _
  have h1 : ((2 * f.num : Nat) : Int) + 1 = ((2 * f.num + 1 : Nat) : Int) := by push_cast; rfl
  have h2 : (n : Int) * 2 = ((2 * n : Nat) : Int) := by push_cast; omega
  rw [h1, h2, packAll_nat 2 f.cls hcls _ _ (packAll_nat 1 _ (by omega) _ _
        (packAll_nat 1 _ (by omega) [] [] rfl)), header_four id hx]
  simp

theorem IdShape.extra {f : Field} {n : Nat} (id : IdShape f n) (hx : f.experimenter = false) :
    extra (fieldKey f).cls = 0 := by
  rw [fieldKey_extra f (field_cls f id.mem), hx]; rfl

/-- The registers are printed without their value. -/
theorem lost_regLoad_reg (f : Field) (n ofs nbits value : Nat) (id : IdShape f n) (hpos : 0 < nbits)
    (he : ofs + nbits ≤ f.bits) (h64 : nbits ≤ 64)
    (hx : f.experimenter = false) (hval : value < 2 ^ nbits)
    (hd : lookupDec (fieldKey f) = some (.uint ⟨f.name, none, none⟩)) (hb : f.name ∉ badIds) :
    ActLost (nxWire 7 (u16 (ofsNbits ofs nbits) ++ (f.id ++ u64 value))) := by
  have hlen0 := id.length
  rw [hx] at hlen0
  simp only [Bool.false_eq_true, if_false, Nat.add_zero] at hlen0
  have hsm := id.small
  rw [hx] at hsm
  simp only [Bool.false_eq_true, if_false, Nat.add_zero] at hsm
  have hidf : IdField f n := ⟨id, hb⟩
  obtain ⟨n1, n2, n3⟩ := field_name f id.mem
  have hfit := nxWire_fits 7 _ (show (u16 (ofsNbits ofs nbits) ++ (f.id ++ u64 value)).length < 65500 by
    simp only [List.length_append, u16_length, hlen0]; simp [u64, be_length])
  have hlb := id.lenByte []
  rw [List.append_nil, hx] at hlb
  simp only [Bool.false_eq_true, if_false, Nat.add_zero] at hlb
  have hdec := fun z => regLoad_dec id ofs nbits value hpos he h64 hx hval hidf.encode hlen0 z
  rw [hlb, pack_header id hx] at hdec
  have hex := id.extra hx
  have hkn : (fieldKey f).num < 128 := n3
  have o1 := oxm2str_header (fieldKey f) n false _ (intBE n value) hkn hd (by simp [intBE_length])
    (by rw [intBE_length]; omega)
  have o2 := oxm2str_header (fieldKey f) n true _ (intBE n (value * 2 ^ ofs) ++ intBE n ((2 ^ nbits - 1) * 2 ^ ofs)) hkn hd
    (by simp [intBE_length]; omega) (by rw [List.length_append, intBE_length, intBE_length]; omega)
  rw [id.id] at hdec ⊢
  have e1 : decText (.uint ⟨f.name, none, none⟩) (intBE n value) false = .ok f.name := by
    simp [decText, uintBin2str, fmtField]
  have e2 : decText (.uint ⟨f.name, none, none⟩)
      (intBE n (value * 2 ^ ofs) ++ intBE n ((2 ^ nbits - 1) * 2 ^ ofs)) true = .ok f.name := by
    simp [decText, uintBin2str, fmtField]
  rw [e1] at o1
  rw [e2] at o2
  refine nx_lost 7 _ t!"reg_load" f.name .regLoad .regLoad (by decide) (by decide) (by rw [← id.id]; exact hfit)
    (by decide) (by decide) (by decide) (by decide) (inside_clean n1 (fields_np _ id.mem)) n2 ?_ ?_
  · rw [hdec]
    split
    · rw [o1]; simp [Except.bind, bind]
    · rw [ok_bind, o2]; simp [Except.bind, bind]
  · intro c l hc _
    simp only [runActEnc] at hc
    obtain ⟨oxm, rl, q, sz, val, h1, -⟩ := regLoad_inv hc
    exact str2oxm1_name n1 n2 h1

/-- A field of `badIds` is read as another field or size. -/
theorem lost_regLoad_bad (f : Field) (n ofs nbits value : Nat) (id : IdShape f n) (hpos : 0 < nbits)
    (he : ofs + nbits ≤ f.bits) (h64 : nbits ≤ 64) (hx : f.experimenter = false) (hval : value < 2 ^ nbits)
    (key : Key) (m : Nat) (nm : Str) (vf mf : IFmt) (hid : str2oxmid false (shownName f) = .ok (header key m false))
    (hd : lookupDec (fieldKey f) = some (.uint ⟨nm, some vf, some mf⟩))
    (hd' : lookupDec key = some (.uint ⟨nm, some vf, some mf⟩)) (hl : lookupEnc nm = some (key, .uint m))
    (hc : Clean nm) (hn : nm ≠ []) (hnp : NP nm) (hk : key.num < 128) (hke : extra key.cls = 0)
    (hkc : key.cls.code ≠ 0xffff) (hm : m < 100)
    (hp : packAll [(2, (f.cls : Int)), (1, ((2 * f.num : Nat) : Int) + 1), (1, (m : Int) * 2)] =
      .ok (header (fieldKey f) m true))
    (hdiff : be 2 key.cls.code ++ (be 1 (2 * key.num) ++ be 1 m) ≠ be 2 f.cls ++ (be 1 (2 * f.num) ++ be 1 n)) :
    ActLost (nxWire 7 (u16 (ofsNbits ofs nbits) ++ (f.id ++ u64 value))) := by
  have hlen0 := id.length
  rw [hx] at hlen0
  simp only [Bool.false_eq_true, if_false, Nat.add_zero] at hlen0
  have hidw : f.id = be 2 f.cls ++ (be 1 (2 * f.num) ++ be 1 n) := by
    rw [id.id, header_four id hx false]; simp
  have hfit := nxWire_fits 7 _ (show (u16 (ofsNbits ofs nbits) ++ (f.id ++ u64 value)).length < 65500 by
    simp only [List.length_append, u16_length, hlen0]; simp [u64, be_length])
  have hxl : (header key m false).length = 4 := by rw [header_length, hke]
  have hlb := (header_nums key m false [] hk).2.2
  rw [List.append_nil, hke] at hlb
  simp only [Bool.false_eq_true, if_false, Nat.add_zero] at hlb
  have hlb : uAt (header key m false) 3 1 = m := by rw [hlb]; omega
  have hdec := fun z => regLoad_dec id ofs nbits value hpos he h64 hx hval hid hxl z
  rw [hlb, hp] at hdec
  have hex := id.extra hx
  have hkn : (fieldKey f).num < 128 := (field_name f id.mem).2.2
  have o1 := oxm2str_header key m false _ (intBE m value) hk hd' (by simp [intBE_length])
    (by rw [intBE_length]; omega)
  have o2 := oxm2str_header (fieldKey f) m true _ (intBE m (value * 2 ^ ofs) ++ intBE m ((2 ^ nbits - 1) * 2 ^ ofs)) hkn hd
    (by simp [intBE_length]; omega) (by rw [List.length_append, intBE_length, intBE_length]; omega)
  have htext : ∃ v, Clean v ∧ NP v ∧ ∀ z, runActDec .regLoad (u16 (ofsNbits ofs nbits) ++ (f.id ++ u64 value) ++ z) =
      .ok (t!"reg_load(" ++ (nm ++ '=' :: v ++ t!")")) := by
    by_cases hw : (ofs == 0 && nbits == m * 8) = true
    · obtain ⟨v, h1, h2⟩ := uintBin2str_text ⟨nm, some vf, some mf⟩ _ _ rfl rfl (intBE m value) false
      have h3 : NP (nm ++ '=' :: v) := decText_np (d := .uint ⟨nm, some vf, some mf⟩) h1 (by simp) hnp
      refine ⟨v, h2, fun c hc => h3 c (by simp [hc]), fun z => ?_⟩
      rw [hdec, if_pos hw, o1, show decText (.uint ⟨nm, some vf, some mf⟩) (intBE m value) false =
        .ok (nm ++ '=' :: v) from h1]
      rfl
    · obtain ⟨v, h1, h2⟩ := uintBin2str_text ⟨nm, some vf, some mf⟩ _ _ rfl rfl
        (intBE m (value * 2 ^ ofs) ++ intBE m ((2 ^ nbits - 1) * 2 ^ ofs)) true
      have h3 : NP (nm ++ '=' :: v) := decText_np (d := .uint ⟨nm, some vf, some mf⟩) h1 (by simp) hnp
      refine ⟨v, h2, fun c hc => h3 c (by simp [hc]), fun z => ?_⟩
      rw [hdec, if_neg hw, ok_bind, o2, show decText (.uint ⟨nm, some vf, some mf⟩)
        (intBE m (value * 2 ^ ofs) ++ intBE m ((2 ^ nbits - 1) * 2 ^ ofs)) true = .ok (nm ++ '=' :: v) from h1]
      rfl
  obtain ⟨v, hv, hvn, ht⟩ := htext
  refine lost_regLoad_item hfit hc hn hnp hv hvn hl (ht _) ?_
  intro hm' pl hpl q sz val hsz hsz' hew
  obtain ⟨c1, c2, -⟩ := header_nums key m hm' pl hk
  have c3 : ((header key m hm' ++ pl).drop 4).length = pl.length := by
    rw [List.length_drop, List.length_append, header_length, hke]; omega
  rw [c1, c2, if_neg (by simpa using hkc), c3, hpl] at hsz'
  have hszm : sz = m := by
    cases hm'
    · simpa using hsz'
    · simp at hsz'; omega
  rw [c1, c2, show (2 * key.num + if hm' = true then 1 else 0) / 2 * 2 = 2 * key.num by split <;> omega,
    hszm] at hew
  have := nxWire_part (a := be 2 q) (x := be 2 key.cls.code ++ (be 1 (2 * key.num) ++ be 1 m)) (r := be 8 val)
    (a' := u16 (ofsNbits ofs nbits)) (x' := f.id) (r' := u64 value) (t := 7) (t' := 7) (by rw [← hew]; simp)
    (by simp [be_length, u16_length]) (by rw [hlen0]; simp [be_length])
  exact hdiff (this.2.trans hidw)

/-- A part of a number field that has no mask is printed as if it were the whole field. -/
theorem lost_regLoad_part (f : Field) (n ofs nbits value : Nat) (id : IdField f n) (hpos : 0 < nbits)
    (he : ofs + nbits ≤ f.bits) (h64 : nbits ≤ 64) (hx : f.experimenter = false) (hval : value < 2 ^ nbits)
    (hl : f.name ∉ lossyNames) (vf : IFmt) (hd : lookupDec (fieldKey f) = some (.uint ⟨f.name, some vf, none⟩))
    (hn : n ≤ 8) (hw : ¬ (ofs = 0 ∧ nbits = f.bits)) :
    ActLost (nxWire 7 (u16 (ofsNbits ofs nbits) ++ (f.id ++ u64 value))) := by
  have hbits := id.bits
  have hlen0 := id.length
  rw [hx] at hlen0
  simp only [Bool.false_eq_true, if_false, Nat.add_zero] at hlen0
  have hfit := nxWire_fits 7 _ (show (u16 (ofsNbits ofs nbits) ++ (f.id ++ u64 value)).length < 65500 by
    simp only [List.length_append, u16_length, hlen0]; simp [u64, be_length])
  have hlb := id.lenByte []
  rw [List.append_nil, hx] at hlb
  simp only [Bool.false_eq_true, if_false, Nat.add_zero] at hlb
  have hdec := fun z => regLoad_dec id.toIdShape ofs nbits value hpos he h64 hx hval id.encode hlen0 z
  rw [hlb, pack_header id.toIdShape hx, if_neg (by
    intro h
    simp only [Bool.and_eq_true, beq_iff_eq] at h
    exact hw ⟨h.1, by omega⟩)] at hdec
  have hex := id.toIdShape.extra hx
  have hkn : (fieldKey f).num < 128 := (field_name f id.mem).2.2
  have o2 := oxm2str_header (fieldKey f) n true _ (intBE n (value * 2 ^ ofs) ++ intBE n ((2 ^ nbits - 1) * 2 ^ ofs)) hkn hd
    (by simp [intBE_length]; omega) (by rw [List.length_append, intBE_length, intBE_length]; omega)
  obtain ⟨tv, tl, ts, tw⟩ := loadTlv id hl hx (intBE n (value * 2 ^ ofs)) none (intBE_length n _) (by simp)
  obtain ⟨d, hd2, -, hdt, -⟩ := tlvText_spec _ tv tl
  rw [show (Tlv.mk f (intBE n (value * 2 ^ ofs)) none).field = f from rfl, hd] at hd2
  cases hd2
  have hsame : decText (.uint ⟨f.name, some vf, none⟩) (intBE n (value * 2 ^ ofs) ++ intBE n ((2 ^ nbits - 1) * 2 ^ ofs)) true
      = .ok (tlvText ⟨f, intBE n (value * 2 ^ ofs), none⟩) := by
    rw [← hdt]
    simp only [decText, uintBin2str, if_true, Tlv.body, Option.isSome_none, Bool.false_eq_true, if_false,
      Option.getD_none, List.append_nil]
    rw [List.take_left' (by rw [List.length_append, intBE_length, intBE_length]; omega)]
    simp [fmtField]
  generalize hT : Tlv.mk f (intBE n (value * 2 ^ ofs)) none = T at *
  have hne : tlvText T ≠ [] := by simp [tlvText]
  refine nx_lost 7 _ t!"reg_load" (tlvText T) .regLoad .regLoad (by decide) (by decide) hfit (by decide)
    (by decide) (by decide) (by decide) (tlvText_inside T tv tl (by rw [← hT]; exact ts)) hne ?_ ?_
  · rw [hdec, ok_bind, o2, hsame]; simp [Except.bind, bind]
  · intro c l hc' hew
    simp only [runActEnc] at hc'
    obtain ⟨oxm, rl, q, sz, val, h1, h2, h3, h4, h5, h6, h7⟩ := regLoad_inv hc'
    rw [str2oxm1_tlv T tv tl] at h1
    simp only [Except.ok.injEq, Prod.mk.injEq] at h1
    obtain ⟨rfl, -⟩ := h1
    simp only [Option.isSome_none, Option.getD_none, List.append_nil] at tw
    rw [← id.id] at tw
    have e1 : uAt T.wire 2 1 = 2 * f.num := by rw [tw]; exact id.num _
    have e0 : uAt T.wire 0 2 = f.cls := by rw [tw]; exact id.cls _
    have hclsx : (f.cls == 0xffff) = false := hx
    have e2 : T.wire.drop 4 = intBE n (value * 2 ^ ofs) := by rw [tw]; exact drop_app hlen0
    rw [e0, e1, hclsx, e2] at h6
    simp only [Bool.false_eq_true, if_false, intBE_length] at h6
    rw [if_neg (by simp), Nat.div_one] at h6
    have h8 := h7 (by rw [e1]; omega)
    rw [hew] at h5
    have h9 := nxWire_part (a := []) (x := u16 (ofsNbits ofs nbits)) (r := f.id ++ u64 value) (a' := [])
      (x' := be 2 q) (r' := be 2 (uAt T.wire 0 2) ++ (be 1 (uAt T.wire 2 1 / 2 * 2) ++ (be 1 sz ++ be 8 val)))
      (t := 7) (t' := 7) h5 rfl (by simp [u16_length, be_length])
    have h10 := be_inj (range_fits id.toIdShape hpos he h64) h3 h9.2
    unfold ofsNbits at h10
    exact hw ⟨by omega, by omega⟩

theorem part_fields : ∀ f ∈ fields, f.experimenter = false → f.maskable = false → f.name ∉ lossyNames →
    f.kind.size ≠ none → (f.kind.size.getD 0 ≤ 8 ∧ ((∃ vf, lookupDec (fieldKey f) = some (.uint ⟨f.name, some vf, none⟩)) ∨
      (∃ n, lookupDec (fieldKey f) = some (.port f.name n)) ∨ lookupDec (fieldKey f) = some .pkt)) := by
  have key : ∀ f ∈ fields, f.experimenter = false → f.maskable = false → f.name ∉ lossyNames →
    f.kind.size ≠ none → (decide (f.kind.size.getD 0 ≤ 8) && (match lookupDec (fieldKey f) with
      | some (.uint g) => g.name == f.name && g.val.isSome && g.mask.isNone
      | some (.port nm _) => nm == f.name
      | some .pkt => true
      | _ => false)) = true := by decide +kernel
  intro f h1 h2 h3 h4 h5
  have := key f h1 h2 h3 h4 h5
  simp only [Bool.and_eq_true, decide_eq_true_eq] at this
  refine ⟨this.1, ?_⟩
  have h6 := this.2
  split at h6
  · next g hg =>
    obtain ⟨nm, v, m⟩ := g
    simp only [Bool.and_eq_true, beq_iff_eq] at h6
    obtain ⟨⟨rfl, h7⟩, h8⟩ := h6
    cases v with
    | none => simp at h7
    | some v =>
      cases m with
      | some m => simp at h8
      | none => exact Or.inl ⟨v, hg⟩
  · next nm n hg =>
    simp only [beq_iff_eq] at h6
    subst h6
    exact Or.inr (Or.inl ⟨n, hg⟩)
  · next hg => exact Or.inr (Or.inr hg)
  · cases h6

theorem lost_regLoad (f : Field) (ofs nbits value : Nat) (hr : Range f ofs nbits) (h64 : nbits ≤ 64)
    (hx : f.experimenter = false) (hval : value < 2 ^ nbits)
    (hl : ¬ (f.name ∉ lossyNames ∧ ((ofs = 0 ∧ nbits = f.bits) ∨ f.maskable = true))) :
    ActLost (nxWire 7 (u16 (ofsNbits ofs nbits) ++ (f.id ++ u64 value))) := by
  obtain ⟨n, id⟩ := range_shape hr
  obtain ⟨hmem, hsz, hpos, he⟩ := hr
  by_cases hb : f.name ∈ lossyNames
  · rcases lossy_regs f hmem hb with h | h | h
    · by_cases hbad : f.name ∈ badIds
      · exfalso
        have key : ∀ f ∈ fields, f.name ∈ badIds → lookupDec (fieldKey f) ≠ some (.uint ⟨f.name, none, none⟩) := by
          decide +kernel
        exact key f hmem hbad h
      · exact lost_regLoad_reg f n ofs nbits value id hpos he h64 hx hval h hbad
    · subst h
      have hn : n = 1 := (Option.some.inj id.size).symm
      subst hn
      exact lost_regLoad_bad _ 1 ofs nbits value id hpos he h64 hx hval ⟨.nxm0, 13⟩ 1 t!"nxm_icmp_type" .dec .dec
        (by decide +kernel) (by decide +kernel) (by decide +kernel) (by decide +kernel) (by decide) (by decide)
        (by decide) (by decide) (by decide) (by decide) (by decide) (by decide) (by decide)
    · subst h
      have hn : n = 16 := (Option.some.inj id.size).symm
      subst hn
      exact lost_regLoad_bad _ 16 ofs nbits value id hpos he h64 hx hval ⟨.nxm1, 108⟩ 4 t!"nxm_ct_label" (.hex 0) (.hex 0)
        (by decide +kernel) (by decide +kernel) (by decide +kernel) (by decide +kernel) (by decide) (by decide)
        (by decide) (by decide) (by decide) (by decide) (by decide) (by decide) (by decide)
  · have hw : ¬ (ofs = 0 ∧ nbits = f.bits) := fun h => hl ⟨hb, Or.inl h⟩
    have hmk : f.maskable = false := by
      cases h : f.maskable with
      | false => rfl
      | true => exact absurd ⟨hb, Or.inr h⟩ hl
    have hbad : f.name ∉ badIds := by
      intro h; apply hb
      have key : ∀ s ∈ badIds, s ∈ lossyNames := by decide
      exact key _ h
    have idf : IdField f n := ⟨id, hbad⟩
    obtain ⟨h8, hcase⟩ := part_fields f hmem hx hmk hb hsz
    have hn8 : n ≤ 8 := by rw [id.size] at h8; simpa using h8
    rcases hcase with ⟨vf, hd⟩ | hcase
    · exact lost_regLoad_part f n ofs nbits value idf hpos he h64 hx hval hb vf hd hn8 hw
    · -- the decoders of ports and packet types refuse the mask
      have hlen0 := id.length
      rw [hx] at hlen0
      simp only [Bool.false_eq_true, if_false, Nat.add_zero] at hlen0
      have hbits := id.bits
      have hfit := nxWire_fits 7 _ (show (u16 (ofsNbits ofs nbits) ++ (f.id ++ u64 value)).length < 65500 by
        simp only [List.length_append, u16_length, hlen0]; simp [u64, be_length])
      have hlb := id.lenByte []
      rw [List.append_nil, hx] at hlb
      simp only [Bool.false_eq_true, if_false, Nat.add_zero] at hlb
      have hdec := fun z => regLoad_dec id ofs nbits value hpos he h64 hx hval idf.encode hlen0 z
      rw [hlb, pack_header id hx, if_neg (by
        intro h
        simp only [Bool.and_eq_true, beq_iff_eq] at h
        exact hw ⟨h.1, by omega⟩)] at hdec
      have hex := id.extra hx
      have hkn : (fieldKey f).num < 128 := (field_name f id.mem).2.2
      have o2 := fun d hd => oxm2str_header (fieldKey f) n true d
        (intBE n (value * 2 ^ ofs) ++ intBE n ((2 ^ nbits - 1) * 2 ^ ofs)) hkn hd
        (by simp [intBE_length]; omega) (by rw [List.length_append, intBE_length, intBE_length]; omega)
      refine nx_silent 7 _ .regLoad .assertionError (by decide) (by decide) hfit (by decide) (by decide) ?_
      rcases hcase with ⟨k, hd⟩ | hd
      · rw [hdec, ok_bind, o2 _ hd]; rfl
      · rw [hdec, ok_bind, o2 _ hd]; rfl

end Ofpstr
