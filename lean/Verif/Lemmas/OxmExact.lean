import Verif.Lemmas.Match
import Verif.Lemmas.OxmList

/-!
# Matches that do not survive printing

For every well-formed TLV that is not `Lossless` (SSIDs apart): what it prints, and that reading the text
never gives its bytes back, whatever stands before and after.
-/

set_option linter.unusedSimpArgs false

namespace Ofpstr
open Spec

/-! ## Reading an item -/

theorem str2oxmGo_one {loop : Bool} {fuel : Nat} {u : Str} {b : Bytes} {rest : Str}
    (h : str2oxmGo loop fuel u = .ok (b, rest)) (hu : u ≠ []) :
    ∃ bin l p r, str2oxmOne u = .ok (bin, l, p, r) ∧ ((l = 0 ∧ b = []) ∨ (l ≠ 0 ∧ ∃ msg, b = bin ++ msg)) := by
  cases fuel with
  | zero => cases h
  | succ fuel =>
    rw [str2oxmGo, if_neg (by simpa using hu)] at h
    obtain ⟨⟨bin, l, p, r⟩, hone, h⟩ := bind_ok h
    refine ⟨bin, l, p, r, hone, ?_⟩
    dsimp only at h
    split at h
    · rename_i hl
      cases h
      exact Or.inl ⟨by simpa using hl, rfl⟩
    · rename_i hl
      obtain ⟨_, _, h⟩ := bind_ok h
      split at h
      · obtain ⟨⟨msg, rest'⟩, _, h⟩ := bind_ok h
        cases h
        exact Or.inr ⟨by simpa using hl, msg, rfl⟩
      · cases h
        exact Or.inr ⟨by simpa using hl, [], by simp⟩

/-- The item `s`, after nothing or a comma and before nothing or a comma, is refused, is empty or gives
bytes that do not go together with `w`. -/
def NeverReads (s : Str) (w : Bytes) : Prop :=
  ∀ (h r : Str) (bin : Bytes) (l : Nat) (p r' : Str), (h = [] ∨ h = [',']) → (r = [] ∨ ∃ r', r = ',' :: r') →
    str2oxmOne (h ++ (s ++ r)) = .ok (bin, l, p, r') → l = 0 ∨ ∀ msg, ¬ w <+: bin ++ msg

theorem not_prefix_pad {w : Bytes} (hw : ∃ x ∈ w, x ≠ 0) (k : Nat) : ¬ w <+: pad k := by
  rintro ⟨t, ht⟩
  obtain ⟨x, hx, hne⟩ := hw
  have hm : x ∈ pad k := by rw [← ht]; simp [hx]
  exact hne (by simp [pad] at hm; exact hm.2)

/-- The bytes read do not start with `w`, even when padded. -/
theorem NeverReads.go {s : Str} {w : Bytes} (hn : NeverReads s w) (hs : s ≠ []) (hw : ∃ x ∈ w, x ≠ 0)
    {loop : Bool} {h r : Str} {fuel : Nat} {b : Bytes} {rest : Str} (hh : h = [] ∨ h = [','])
    (hr : r = [] ∨ ∃ r', r = ',' :: r') (hgo : str2oxmGo loop fuel (h ++ (s ++ r)) = .ok (b, rest)) (z : Bytes)
    (hz : ∃ k, z = pad k) : ¬ w <+: b ++ z := by
  obtain ⟨bin, l, p, r', hone, hb⟩ := str2oxmGo_one hgo (by simp [hs])
  rcases hb with ⟨rfl, rfl⟩ | ⟨hl0, msg, rfl⟩
  · obtain ⟨k, rfl⟩ := hz
    exact not_prefix_pad hw k
  · rcases hn h r bin l p r' hh hr hone with h0 | h0
    · exact absurd h0 hl0
    · rw [List.append_assoc]; exact h0 _

theorem comma_head (r : Str) (hr : r = [] ∨ ∃ r', r = ',' :: r') : hasChar (getToken r).1 '=' = false := by
  have hho := tokenHead_headOf r
  rw [← getToken_fst] at hho
  rcases hg : getToken r with ⟨h, b, t⟩
  rw [hg] at hho
  dsimp only at hho
  rw [← Bool.not_eq_true, hasChar, List.contains_iff_mem]
  intro hc
  cases hho with
  | eq w1 w2 r2 h1 h2 h3 =>
    rcases hr with hr | ⟨r', hr⟩
    · simp at hr
    · cases w1 with
      | nil => simp at hr
      | cons c w1 =>
        simp at hr
        have := h1 c (by simp)
        rw [hr.1] at this
        revert this; decide
  | run h r2 h1 h2 h3 =>
    have := h2 '=' hc
    revert this; decide

theorem atEnd_of {r : Str} (hr : r = [] ∨ ∃ r', r = ',' :: r') : AtEnd r := by
  rcases hr with rfl | ⟨r', rfl⟩
  · exact atEnd_nil
  · exact atEnd_comma _

/-- The name alone cannot be read. -/
theorem neverReads_name (name : Str) (w : Bytes) (hc : Clean name) (hn : name ≠ []) : NeverReads name w := by
  intro h r bin l p r' hh hr hone
  have hhd : Head h := by rcases hh with rfl | rfl; exacts [head_nil, head_comma]
  exfalso
  unfold str2oxmOne at hone
  rw [getToken_head hhd hc.token (atEnd_of hr) hc.plainStart hn] at hone
  have h2 := comma_head r hr
  dsimp only at hone
  rcases hg : getToken r with ⟨op, p', r1⟩
  rw [hg] at hone h2
  dsimp only at hone h2
  rw [h2] at hone
  simp [pyAssert, bind, Except.bind] at hone

theorem getToken_empty (r : Str) (hr : r = [] ∨ ∃ r', r = ',' :: r') :
    getToken ('=' :: r) = (['='], [], r) := by
  have hh : tokenHead ('=' :: r) = ['='] := by
    apply tokenHead_eq
    intro c t h
    rcases hr with rfl | ⟨r', rfl⟩
    · cases h
    · cases h; decide
  rcases hr with rfl | ⟨r', rfl⟩
  · unfold getToken
    rw [hh]
    simp [tokenBody]
  · unfold getToken
    rw [hh]
    simp [tokenBody, isDelimiter]

/-- An item whose value is refused, is empty, or gives other bytes. -/
theorem neverReads_item (name v : Str) (key : Key) (k : Enc) (w : Bytes) (hc : Clean name) (hn : name ≠ [])
    (hv : Clean v) (hl : lookupEnc name = some (key, k))
    (he : ∀ out l, encText key k v = .ok (out, l) → l = 0 ∨ ∀ msg, ¬ w <+: out ++ msg) :
    NeverReads (name ++ '=' :: v) w := by
  intro h r bin l p r' hh hr hone
  have hhd : Head h := by rcases hh with rfl | rfl; exacts [head_nil, head_comma]
  have h1 := getToken_head hhd hc.token (atEnd_eq (v ++ r)) hc.plainStart hn
  have h2 : getToken ('=' :: (v ++ r)) = (['='], v, r) := by
    by_cases hvn : v = []
    · subst hvn; exact getToken_empty r hr
    · exact getToken_eq hv.token (atEnd_of hr) hv.plainStart hvn
  unfold str2oxmOne at hone
  rw [show h ++ (name ++ '=' :: v ++ r) = h ++ (name ++ '=' :: (v ++ r)) by simp, h1] at hone
  dsimp only at hone
  rw [h2] at hone
  dsimp only at hone
  obtain ⟨_, _, hone⟩ := bind_ok hone
  rw [hl] at hone
  dsimp only at hone
  obtain ⟨⟨out, l'⟩, heo, hone⟩ := bind_ok hone
  simp only [Except.ok.injEq, Prod.mk.injEq] at hone
  obtain ⟨rfl, rfl, rfl, rfl⟩ := hone
  exact he _ _ heo

/-- How the printed text of a lossy TLV with bytes `w` looks: a name alone, or an item that does not give
the bytes. -/
inductive LossyText (w : Bytes) : Str → Prop
  | name (f : Field) : f ∈ fields → LossyText w f.name
  | item (f : Field) (v : Str) (key : Key) (k : Enc) : f ∈ fields → Clean v → lookupEnc f.name = some (key, k) →
      (∀ out l, encText key k v = .ok (out, l) → l = 0 ∨ ∀ msg, ¬ w <+: out ++ msg) →
      LossyText w (f.name ++ '=' :: v)

theorem LossyText.never {w : Bytes} {s : Str} (h : LossyText w s) : NeverReads s w := by
  cases h with
  | name f hf => exact neverReads_name _ _ (field_name _ hf).1 (field_name _ hf).2.1
  | item f v key k hf hv hl he =>
    exact neverReads_item _ v key k w (field_name _ hf).1 (field_name _ hf).2.1 hv hl he

theorem LossyText.ne {w : Bytes} {s : Str} (h : LossyText w s) : s ≠ [] := by
  cases h with
  | name f hf => exact (field_name _ hf).2.1
  | item f v key k hf hv hl he => simp

/-! ## The headers -/

theorem prefix_four {w b : Bytes} (h : w <+: b) : w.take 4 <+: b := (List.take_prefix 4 w).trans h

theorem not_prefix_header {w out msg : Bytes} (hl : 4 ≤ w.length) (ho : 4 ≤ out.length)
    (hne : w.take 4 ≠ out.take 4) : ¬ w <+: out ++ msg := by
  rintro ⟨t, ht⟩
  apply hne
  have := congrArg (List.take 4) ht
  rwa [List.take_append_of_le_length hl, List.take_append_of_le_length ho] at this

theorem uintStr2bin_header {key : Key} {n : Nat} {u : Str} {out : Bytes} {l : Nat}
    (h : uintStr2bin key n u = .ok (out, l)) : ∃ hm body, out = header key n hm ++ body := by
  unfold uintStr2bin at h
  obtain ⟨⟨num, rlen⟩, _, h⟩ := bind_ok h
  dsimp only at h
  split at h
  · obtain ⟨⟨m, e⟩, _, h⟩ := bind_ok h
    cases h
    exact ⟨true, _, rfl⟩
  · cases h
    exact ⟨false, _, rfl⟩

theorem header_take (key : Key) (n : Nat) (hm : Bool) (x : Bytes) :
    (header key n hm ++ x).take 4 = (header key n hm).take 4 := by
  rw [List.take_append_of_le_length]
  rw [header_length]; omega

/-! ## The lossy values -/

theorem vhtShow_zero (a b c d j k l o : UInt8) (r : Bytes) :
    vhtShow ([a, b, c, d, 0, 0, 0, 0, j, k, l, o] ++ r) =
      .ok (vhtText (leVal [a, b]) c.toNat d.toNat [] j.toNat k.toNat (leVal [l, o])) := by
  have hn : needBytes ([a, b, c, d, 0, 0, 0, 0, j, k, l, o] ++ r) 0 vhtSizes.sum = .ok () := by
    unfold needBytes; rw [if_pos (by simp [vhtSizes])]
  have hu : unpackSizesLE vhtSizes ([a, b, c, d, 0, 0, 0, 0, j, k, l, o] ++ r) =
      [leVal [a, b], c.toNat, d.toNat, 0, 0, 0, 0, j.toNat, k.toNat, leVal [l, o]] := by
    rw [unpackSizesLE_append vhtSizes _ r (Nat.le_of_eq rfl)]
    simp [vhtSizes, unpackSizesLE, leVal]
  have ho : ∀ (w n : Nat), (if n > 0 then fmtX w n else []) = optI (.hex w) n := by
    intro w n
    unfold optI fmtI
    by_cases hn : n = 0
    · simp [hn]
    · have : n > 0 := by omega
      simp [hn, this]
  unfold vhtShow
  rw [hn, hu]
  simp only [bind, Except.bind, ho]
  simp [vhtText, joinStr, fmtI, b2aHex]

theorem vhtCollect_short (n0 n1 n2 n7 n8 n9 : Nat) :
    ∃ e, vhtCollect (vhtText n0 n1 n2 [] n7 n8 n9) = .error e := by
  have h := vhtNums_text n0 n1 n2 [] n7 n8 n9
  cases hc : vhtCollect (vhtText n0 n1 n2 [] n7 n8 n9) with
  | error e => exact ⟨e, rfl⟩
  | ok b =>
    exfalso
    unfold vhtCollect at hc
    rw [h] at hc
    obtain ⟨l, hl, hc⟩ := bind_ok hc
    cases hl
    revert hc
    simp only [List.map_nil, List.nil_append, List.cons_append, vhtSizes]
    intro hc
    rw [packSizesLE] at hc; obtain ⟨_, _, hc⟩ := bind_ok hc
    obtain ⟨_, hc, _⟩ := bind_ok hc
    rw [packSizesLE] at hc; obtain ⟨_, _, hc⟩ := bind_ok hc
    obtain ⟨_, hc, _⟩ := bind_ok hc
    rw [packSizesLE] at hc; obtain ⟨_, _, hc⟩ := bind_ok hc
    obtain ⟨_, hc, _⟩ := bind_ok hc
    rw [packSizesLE] at hc; obtain ⟨_, _, hc⟩ := bind_ok hc
    obtain ⟨_, hc, _⟩ := bind_ok hc
    rw [packSizesLE] at hc; obtain ⟨_, _, hc⟩ := bind_ok hc
    obtain ⟨_, hc, _⟩ := bind_ok hc
    rw [packSizesLE] at hc; obtain ⟨_, _, hc⟩ := bind_ok hc
    obtain ⟨_, hc, _⟩ := bind_ok hc
    rw [packSizesLE] at hc
    · cases hc
    · simp
    · simp

/-- Every VHT value prints; if its user part is zero the text cannot be read. -/
theorem vht_any (p : Bytes) (h : p.length = 12) :
    ∃ T, (∀ r, vhtShow (p ++ r) = .ok T) ∧ (∀ c ∈ T, c ≠ '/' ∧ CleanChar c) ∧ T ≠ [] ∧
      (vhtUsers p = [0, 0, 0, 0] → ∃ e, vhtCollect T = .error e) := by
  by_cases hz : vhtUsers p = [0, 0, 0, 0]
  · match p, h with
    | [a, b, c, d, e, f, g, i, j, k, l, o], _ =>
      simp [vhtUsers] at hz
      obtain ⟨rfl, rfl, rfl, rfl⟩ := hz
      exact ⟨_, vhtShow_zero a b c d j k l o, vhtText_chars _ _ _ _ _ _ _, vhtText_ne_nil _ _ _ _ _ _ _,
        fun _ => vhtCollect_short _ _ _ _ _ _⟩
  · obtain ⟨T, h1, h2, h3, h4⟩ := vht_split p h hz
    exact ⟨T, h1, h2, h3, fun h => absurd h hz⟩

/-- A VHT match prints; if a user part is zero the text cannot be read. -/
theorem vht_lossy (key : Key) (p : Bytes) (mask : Option Bytes) (h : p.length = 12)
    (hm : ∀ m, mask = some m → m.length = 12) :
    ∃ v, vhtBin2str (p ++ mask.getD []) mask.isSome = .ok (t!"radiotap_vht=" ++ v) ∧ Clean v ∧
      ((vhtUsers p = [0, 0, 0, 0] ∨ ∃ m, mask = some m ∧ vhtUsers m = [0, 0, 0, 0]) →
        ∀ x, vhtStr2bin key v ≠ .ok x) := by
  obtain ⟨T, h1, h2, h3, h4⟩ := vht_any p h
  cases mask with
  | none =>
    have hc : Clean T := fun c hc => (h2 c hc).2
    have h1' := h1 []
    refine ⟨T, by simp only [Option.getD_none, Option.isSome_none]; simp only [vhtBin2str, h1', bind, Except.bind]; simp, hc, ?_⟩
    rintro (hz | ⟨m, hm, _⟩)
    · obtain ⟨e, he⟩ := h4 hz
      intro x
      unfold vhtStr2bin
      simp only [getToken_clean_all hc, bind, Except.bind, split1_none '/' _ (fun c hc => (h2 c hc).1), he]
      simp
    · cases hm
  | some m =>
    obtain ⟨T', h1', h2', h3', h4'⟩ := vht_any m (hm m rfl)
    have hc : Clean (T ++ '/' :: T') :=
      clean_append (fun c hc => (h2 c hc).2) (clean_cons clean_slash (fun c hc => (h2' c hc).2))
    have hd : (p ++ m).drop vhtSizes.sum = m := by
      have : vhtSizes.sum = p.length := by rw [h]; rfl
      rw [this]; exact List.drop_left
    have h1'' := h1' []
    rw [List.append_nil] at h1''
    refine ⟨T ++ '/' :: T', ?_, hc, ?_⟩
    · simp only [Option.getD_some, Option.isSome_some]
      unfold vhtBin2str
      rw [h1, hd, h1'']
      simp [bind, Except.bind]
    · intro hz x
      unfold vhtStr2bin
      simp only [getToken_clean_all hc, bind, Except.bind, split1_some '/' _ _ (fun c hc => (h2 c hc).1)]
      rcases hz with hz | ⟨m', hm', hz⟩
      · obtain ⟨e, he⟩ := h4 hz
        simp [he]
      · cases hm'
        obtain ⟨e, he⟩ := h4' hz
        simp only [he]
        split
        · simp
        · simp

/-! ## TLVs -/

theorem uintBin2str_text (f : Fmt) (vf mf : IFmt) (hf : f.val = some vf) (hm : f.mask = some mf) (p : Bytes)
    (b : Bool) : ∃ v, uintBin2str f p b = .ok (f.name ++ '=' :: v) ∧ Clean v := by
  unfold uintBin2str fmtField
  cases b
  · exact ⟨fmtI vf (beVal p), by simp [hf], fmtI_clean _ _⟩
  · refine ⟨fmtI vf (beVal (p.take (p.length / 2))) ++ '/' :: fmtI mf (beVal (p.drop (p.length / 2))),
      by simp [hf, hm], clean_append (fmtI_clean _ _) (clean_cons clean_slash (fmtI_clean _ _))⟩

theorem wire_ne (t : Tlv) : t.wire ≠ [] := by
  simp [Tlv.wire, Field.header, u16, be]

theorem be_nonzero {k n : Nat} (hn : n ≠ 0) (hlt : n < 256 ^ k) : ∃ x ∈ be k n, x ≠ 0 := by
  by_contra hc
  push Not at hc
  have h1 : ∀ i < k, n / 256 ^ i % 256 = 0 := by
    intro i hi
    have := hc (UInt8.ofNat (n / 256 ^ i % 256)) (by
      simp only [be, List.mem_reverse, List.mem_map, List.mem_range]; exact ⟨i, hi, rfl⟩)
    have h2 := congrArg UInt8.toNat this
    simpa [UInt8.toNat_ofNat'] using h2
  have h2 : ∀ i ≤ k, 256 ^ i ∣ n := by
    intro i
    induction i with
    | zero => intro _; simp
    | succ i ih =>
      intro hi
      obtain ⟨c, rfl⟩ := ih (by omega)
      have := h1 i (by omega)
      rw [Nat.mul_div_cancel_left _ (Nat.pow_pos (by omega))] at this
      obtain ⟨d, rfl⟩ := Nat.dvd_of_mod_eq_zero this
      exact ⟨d, by rw [pow_succ, Nat.mul_assoc]⟩
  exact hn (Nat.eq_zero_of_dvd_of_lt (h2 k (Nat.le_refl _)) hlt)

/-- The bytes of a field are not all zero. -/
theorem wire_nonzero (t : Tlv) (hv : t.Valid) : ∃ x ∈ t.wire, x ≠ 0 := by
  have key : ∀ f ∈ fields, f.cls < 256 ^ 2 ∧ 2 * f.num + 1 < 256 ^ 1 ∧ (f.cls ≠ 0 ∨ f.num ≠ 0 ∨ f.kind = .port 2) := by
    decide +kernel
  obtain ⟨h1, h2, h3⟩ := key _ hv.mem
  unfold Tlv.wire Field.header
  rcases h3 with h | h | h
  · obtain ⟨x, hx, hne⟩ := be_nonzero h h1
    exact ⟨x, by simp [u16, hx], hne⟩
  · obtain ⟨x, hx, hne⟩ := be_nonzero (k := 1) (n := 2 * t.field.num + if t.mask.isSome then 1 else 0)
      (by omega) (by split <;> omega)
    exact ⟨x, by simp only [u8, List.mem_append]; exact Or.inl (Or.inl (Or.inl (Or.inr hx))), hne⟩
  · have hb := hv.size 2 (by rw [h]; rfl)
    obtain ⟨x, hx, hne⟩ := be_nonzero (k := 1) (n := t.body.length + if t.field.experimenter then 4 else 0)
      (by simp only [Tlv.body, List.length_append]; omega) (by simpa using hv.fits)
    exact ⟨x, by simp only [u8, List.mem_append]; exact Or.inl (Or.inl (Or.inr hx)), hne⟩

/-- Ways not to survive, other than by an SSID. -/
theorem lossy_cases (t : Tlv) (hl : ¬ t.Lossless) (hs : t.field.kind ≠ .ssid) :
    t.field.name ∈ lossyNames ∨ (t.field.name ∉ lossyNames ∧
      ((t.field.kind = .bytes ∧ t.mask = none ∧ t.value = []) ∨ (t.field.kind = .vht ∧
      (vhtUsers t.value = [0, 0, 0, 0] ∨ ∃ m, t.mask = some m ∧ vhtUsers m = [0, 0, 0, 0])))) := by
  by_contra hc
  push Not at hc
  obtain ⟨h1, h2⟩ := hc
  obtain ⟨h3, h4⟩ := h2 h1
  exact hl ⟨h1, h3, fun h => absurd h hs, fun h => absurd h hs, fun h => (h4 h).1, fun h => (h4 h).2⟩

theorem lossy_regs : ∀ f ∈ fields, f.name ∈ lossyNames → lookupDec (fieldKey f) = some (.uint ⟨f.name, none, none⟩) ∨
    f = ⟨t!"nxm_ip_frag", 1, 26, .uint 1, true⟩ ∨ f = ⟨t!"nxm_ct_label", 1, 108, .uint 16, true⟩ := by
  decide +kernel

theorem tlv_lossy (t : Tlv) (hv : t.Valid) (hl : ¬ t.Lossless) (hs : t.field.kind ≠ .ssid) :
    ∃ d s, lookupDec (fieldKey t.field) = some d ∧ decText d t.body t.mask.isSome = .ok s ∧ LossyText t.wire s := by
  obtain ⟨n1, n2, -⟩ := field_name _ hv.mem
  obtain ⟨hw, -, -⟩ := tlv_wire t hv _ rfl
  have hwl : 4 ≤ t.wire.length := by rw [hw]; simp [header_length]; omega
  rcases lossy_cases t hl hs with hn | ⟨hn, ⟨hk, hm, hval⟩ | ⟨hk, hz⟩⟩
  · rcases lossy_regs _ hv.mem hn with h | h | h
    · refine ⟨_, t.field.name, h, ?_, .name _ hv.mem⟩
      cases t.mask <;> simp [decText, uintBin2str, fmtField]
    · obtain ⟨v, h1, h2⟩ := uintBin2str_text ⟨t!"nxm_icmp_type", some .dec, some .dec⟩ _ _ rfl rfl t.body
        t.mask.isSome
      refine ⟨.uint ⟨t!"nxm_icmp_type", some .dec, some .dec⟩, _, by rw [h]; decide +kernel, h1, ?_⟩
      refine .item ⟨t!"nxm_icmp_type", 0, 13, .uint 1, true⟩ v ⟨.nxm0, 13⟩ (.uint 1) (by decide +kernel) h2 (by decide +kernel) ?_
      intro out l he
      right
      intro msg
      obtain ⟨hm, body, rfl⟩ := uintStr2bin_header he
      apply not_prefix_header hwl (by simp [header_length]; omega)
      have hlen : t.value.length = 1 := hv.size 1 (by rw [h]; rfl)
      rw [hw, header_take, header_take, h, hlen]
      generalize t.mask.isSome = q
      cases hm <;> cases q <;> decide +kernel
    · obtain ⟨v, h1, h2⟩ := uintBin2str_text ⟨t!"nxm_ct_label", some (.hex 0), some (.hex 0)⟩ _ _ rfl rfl t.body
        t.mask.isSome
      refine ⟨.uint ⟨t!"nxm_ct_label", some (.hex 0), some (.hex 0)⟩, _, by rw [h]; decide +kernel, h1, ?_⟩
      refine .item ⟨t!"nxm_ct_label", 1, 108, .uint 16, true⟩ v ⟨.nxm1, 108⟩ (.uint 4) (by decide +kernel) h2 (by decide +kernel) ?_
      intro out l he
      right
      intro msg
      obtain ⟨hm, body, rfl⟩ := uintStr2bin_header he
      apply not_prefix_header hwl (by simp [header_length]; omega)
      have hlen : t.value.length = 16 := hv.size 16 (by rw [h]; rfl)
      rw [hw, header_take, header_take, h, hlen]
      generalize t.mask.isSome = q
      cases hm <;> cases q <;> decide +kernel
  · have hdec := table_dec _ hv.mem hn
    have henc := table_enc _ hv.mem (by intro h; apply hn; rw [h]; decide)
    unfold linkedEnc at henc
    unfold linkedDec at hdec
    cases hd : lookupDec (fieldKey t.field) with
    | none => simp [hd] at hdec
    | some d =>
      rw [hd] at hdec
      cases d <;> simp [decFits, hk] at hdec
      rename_i nm
      subst hdec
      refine ⟨_, t.field.name ++ '=' :: [], rfl, ?_, ?_⟩
      · simp [decText, hexBin2str, Tlv.body, hm, hval, b2aHex]
      · refine .item t.field [] _ _ hv.mem (by intro c hc; cases hc) (by simpa using henc) ?_
        intro out l he
        left
        rw [hk] at he
        simp [kindEnc, encText, hexStr2bin, getToken, tokenHead, tokenBody, split1, a2bHex, bind, Except.bind] at he
        exact he.2.symm
  · have hdec := table_dec _ hv.mem hn
    have henc := table_enc _ hv.mem (by intro h; apply hn; rw [h]; decide)
    unfold linkedEnc at henc
    unfold linkedDec at hdec
    cases hd : lookupDec (fieldKey t.field) with
    | none => simp [hd] at hdec
    | some d =>
      rw [hd] at hdec
      cases d <;> simp [decFits, hk] at hdec
      have hlen : t.value.length = 12 := hv.size 12 (by rw [hk]; rfl)
      obtain ⟨v, h1, h2, h3⟩ := vht_lossy (fieldKey t.field) t.value t.mask hlen
        (fun m hm => by rw [(hv.mask m hm).2, hlen])
      have hb : t.body = t.value ++ t.mask.getD [] := by
        unfold Tlv.body; cases t.mask <;> simp
      refine ⟨_, t.field.name ++ '=' :: v, rfl, by rw [hb, hdec]; exact h1, ?_⟩
      refine .item t.field v _ _ hv.mem h2 (by simpa using henc) ?_
      intro out l he
      rw [hk] at he
      exact absurd he (h3 hz _)

/-! ## Printing never fails, but for masked SSIDs of zero bytes -/

theorem dropWhile_zero (b : Bytes) : b.dropWhile (· == 0) = [] ↔ ∀ x ∈ b, x = 0 := by
  induction b with
  | nil => simp
  | cons x b ih =>
    rw [List.dropWhile_cons]
    by_cases hx : x = 0
    · simp only [hx, beq_self_eq_true, if_true, ih, List.mem_cons, forall_eq_or_imp, true_and]
    · simp [hx]

theorem stripZeros_ok (b : Bytes) (h : ∃ x ∈ b, x ≠ 0) : ∃ r, stripZeros b = .ok r := by
  unfold stripZeros
  dsimp only
  split
  · rename_i he
    exfalso
    rw [List.isEmpty_iff, List.reverse_eq_nil_iff, dropWhile_zero] at he
    obtain ⟨x, hx, hne⟩ := h
    exact hne (he x (by simpa using hx))
  · exact ⟨_, rfl⟩

theorem stripZeros_fail (b : Bytes) (h : ∀ x ∈ b, x = 0) : stripZeros b = .error .indexError := by
  unfold stripZeros
  dsimp only
  rw [if_pos]
  rw [List.isEmpty_iff, List.reverse_eq_nil_iff, dropWhile_zero]
  intro x hx
  exact h x (by simpa using hx)

theorem ssid_dec : ∀ f ∈ fields, f.kind = .ssid → lookupDec (fieldKey f) = some .ssid := by decide +kernel

theorem tlv_prints (t : Tlv) (hv : t.Valid)
    (hs : t.field.kind = .ssid → t.mask ≠ none → ∃ x ∈ t.value, x ≠ 0) :
    ∃ d s, lookupDec (fieldKey t.field) = some d ∧ decText d t.body t.mask.isSome = .ok s ∧ s ≠ [] := by
  by_cases hk : t.field.kind = .ssid
  · refine ⟨.ssid, ?_⟩
    rw [ssid_dec _ hv.mem hk]
    cases hm : t.mask with
    | none => exact ⟨_, rfl, by simp [decText, ssidBin2str]; rfl, by simp⟩
    | some m =>
      obtain ⟨r, hr⟩ := stripZeros_ok _ (hs hk (by simp [hm]))
      have hml := (hv.mask m hm).2
      have hb : t.body = t.value ++ m := by simp [Tlv.body, hm]
      have hsl : (t.value ++ m).length / 2 = t.value.length := by simp [hml]; omega
      refine ⟨t!"dot11_ssid=" ++ (b2aQp r ++ '/' :: b2aHex m), rfl, ?_, ?_⟩
      · rw [hb]
        simp only [decText, ssidBin2str, Option.isSome_some, if_true, hsl, List.take_left, List.drop_left, hr,
          bind, Except.bind]
      · simp
  · by_cases hl : t.Lossless
    · obtain ⟨d, h1, -, h3, -⟩ := tlvText_spec t hv hl
      exact ⟨d, _, h1, h3, by simp [tlvText]⟩
    · obtain ⟨d, s, h1, h2, h3⟩ := tlv_lossy t hv hl hk
      exact ⟨d, s, h1, h2, h3.ne⟩

/-- What a TLV prints (any text if it does not print). -/
def tlvPrint (t : Tlv) : Str :=
  match lookupDec (fieldKey t.field) with
  | some d => match decText d t.body t.mask.isSome with
    | .ok s => s
    | .error _ => []
  | none => []

theorem tlvPrint_eq (t : Tlv) {d : Dec} {s : Str} (h1 : lookupDec (fieldKey t.field) = some d)
    (h2 : decText d t.body t.mask.isSome = .ok s) : tlvPrint t = s := by
  unfold tlvPrint
  simp only [h1, h2]

theorem oxm2str_print (ts : List Tlv) (hv : ∀ t ∈ ts, t.Valid)
    (hs : ∀ t ∈ ts, t.field.kind = .ssid → t.mask ≠ none → ∃ x ∈ t.value, x ≠ 0) :
    oxm2str (wireAll ts) = .ok (joinStr t!"," (ts.map tlvPrint)) := by
  apply oxm2str_tlvs ts tlvPrint hv
  intro t ht
  obtain ⟨d, s, h1, h2, -⟩ := tlv_prints t (hv t ht) (hs t ht)
  exact ⟨d, h1, by rw [tlvPrint_eq t h1 h2]; exact h2⟩

/-- A masked SSID of zero bytes raises, wherever it stands. -/
theorem oxm2strGo_zero (ts : List Tlv) (hv : ∀ t ∈ ts, t.Valid)
    (hs : ∃ t ∈ ts, t.field.kind = .ssid ∧ t.mask ≠ none ∧ ∀ x ∈ t.value, x = 0) (fuel : Nat)
    (hf : (wireAll ts).length < fuel) : oxm2strGo fuel (wireAll ts) = .error .indexError := by
  induction ts generalizing fuel with
  | nil => obtain ⟨t, ht, _⟩ := hs; cases ht
  | cons t ts ih =>
    cases fuel with
    | zero => simp at hf
    | succ f =>
      have hvt := hv t (by simp)
      obtain ⟨hw, hb, hfit⟩ := tlv_wire t hvt _ rfl
      have hok := table_fields _ hvt.mem
      simp only [fieldOk, Bool.and_eq_true, decide_eq_true_eq] at hok
      have hwa : wireAll (t :: ts) =
          header (fieldKey t.field) t.value.length t.mask.isSome ++ (t.body ++ wireAll ts) := by
        simp [wireAll, hw]
      have hl := header_length (fieldKey t.field) t.value.length t.mask.isSome
      rw [hwa] at hf ⊢
      have hlt : ¬ (header (fieldKey t.field) t.value.length t.mask.isSome ++
          (t.body ++ wireAll ts)).length < 4 := by
        simp [hl]; omega
      by_cases hz : t.field.kind = .ssid ∧ t.mask ≠ none ∧ ∀ x ∈ t.value, x = 0
      · obtain ⟨hk, hm, hx⟩ := hz
        obtain ⟨h1, h2⟩ := oxm2strOne_tlv (fieldKey t.field) t.value.length t.mask.isSome .ssid t.body
          (wireAll ts) hok.1.1.1 (ssid_dec _ hvt.mem hk) hb hfit
        have hdt : decText .ssid t.body t.mask.isSome = .error .indexError := by
          cases hm' : t.mask with
          | none => exact absurd hm' hm
          | some m =>
            have hml := (hvt.mask m hm').2
            have hb : t.body = t.value ++ m := by simp [Tlv.body, hm']
            have hsl : (t.value ++ m).length / 2 = t.value.length := by simp [hml]; omega
            rw [hb]
            simp only [decText, ssidBin2str, Option.isSome_some, if_true, hsl, List.take_left,
              stripZeros_fail _ hx, bind, Except.bind]
        simp only [oxm2strGo, hlt, if_false, h1, hdt, bind, Except.bind]
      · have hs' : ∃ t ∈ ts, t.field.kind = .ssid ∧ t.mask ≠ none ∧ ∀ x ∈ t.value, x = 0 := by
          obtain ⟨t', ht', h'⟩ := hs
          rcases List.mem_cons.1 ht' with rfl | ht'
          · exact absurd h' hz
          · exact ⟨t', ht', h'⟩
        push Not at hz
        obtain ⟨d, s, hd, htx, -⟩ := tlv_prints t hvt hz
        obtain ⟨h1, h2⟩ := oxm2strOne_tlv (fieldKey t.field) t.value.length t.mask.isSome d t.body
          (wireAll ts) hok.1.1.1 hd hb hfit
        have hdrop : (header (fieldKey t.field) t.value.length t.mask.isSome ++
            (t.body ++ wireAll ts)).drop (4 + (t.body.length + extra (fieldKey t.field).cls)) =
            wireAll ts := by
          rw [← List.append_assoc]
          apply List.drop_left'
          simp [hl]; omega
        have hrec := ih (fun x hx => hv x (by simp [hx])) hs' f (by simp [hl] at hf; omega)
        simp only [oxm2strGo, hlt, if_false, h1, htx, h2, hdrop, hrec, bind, Except.bind]

/-! ## Reading the printed texts -/

theorem join_split (x : Str) (xs : List Str) : ∃ r, joinStr t!"," (x :: xs) = x ++ r ∧
    (r = [] ∨ ∃ r', r = ',' :: r') ∧ r = (if xs = [] then [] else t!",") ++ joinStr t!"," xs := by
  cases xs with
  | nil => exact ⟨[], by simp [joinStr], Or.inl rfl, by simp [joinStr]⟩
  | cons y ys => exact ⟨',' :: joinStr t!"," (y :: ys), by simp [joinStr], Or.inr ⟨_, rfl⟩, by simp⟩

theorem reads_lossless (ts : List Tlv) (hv : ∀ t ∈ ts, t.Valid)
    (hs : ∀ t ∈ ts, t.field.kind = .ssid → t.Lossless) (h : Str) (hh : h = [] ∨ h = [',']) (fuel : Nat)
    (rest : Str) (hgo : str2oxmGo true fuel (h ++ joinStr t!"," (ts.map tlvPrint)) = .ok (wireAll ts, rest)) :
    ∀ t ∈ ts, t.Lossless := by
  induction ts generalizing h fuel with
  | nil => intro t ht; cases ht
  | cons t ts ih =>
    have hvt := hv t (by simp)
    obtain ⟨r, hj, hr, hre⟩ := join_split (tlvPrint t) (ts.map tlvPrint)
    rw [List.map_cons, hj] at hgo
    by_cases hl : t.Lossless
    · obtain ⟨d, h1, h2, h3, h4, h5, h6⟩ := tlvText_spec t hvt hl
      obtain ⟨n1, n2, -⟩ := field_name _ hvt.mem
      rw [tlvPrint_eq t h1 h3, tlvText] at hgo
      have hhd : Head h := by rcases hh with rfl | rfl; exacts [head_nil, head_comma]
      have hhe : hasChar h '=' = false := by rcases hh with rfl | rfl <;> decide
      have hone := str2oxmOne_item h _ _ r _ _ _ hhd hhe n1 n2 h4 h5 (atEnd_of hr) h2 h6
      cases fuel with
      | zero => cases hgo
      | succ fuel =>
        rw [str2oxmGo, if_neg (by simp), show h ++ (t.field.name ++ '=' :: tlvValue t ++ r) =
          h ++ (t.field.name ++ '=' :: (tlvValue t ++ r)) by simp, hone] at hgo
        have hnz : ((tlvValue t).length == 0) = false := by
          cases hx : tlvValue t with
          | nil => exact absurd hx h5
          | cons c v => simp
        obtain ⟨x, hx, hgo⟩ := bind_ok hgo
        cases hx
        dsimp only at hgo
        rw [hnz, if_neg (by simp)] at hgo
        obtain ⟨_, _, hgo⟩ := bind_ok hgo
        rw [if_pos rfl] at hgo
        obtain ⟨⟨msg, rest'⟩, hrec, hgo⟩ := bind_ok hgo
        simp only [Except.ok.injEq, Prod.mk.injEq] at hgo
        obtain ⟨hb, rfl⟩ := hgo
        have hmsg : msg = wireAll ts := by
          rw [show wireAll (t :: ts) = t.wire ++ wireAll ts by simp [wireAll]] at hb
          exact List.append_cancel_left hb
        rw [hre, hmsg] at hrec
        have := ih (fun x hx => hv x (by simp [hx])) (fun x hx => hs x (by simp [hx]))
          (if ts.map tlvPrint = [] then [] else t!",") (by split <;> simp) fuel hrec
        intro t' ht'
        rcases List.mem_cons.1 ht' with rfl | ht'
        · exact hl
        · exact this t' ht'
    · exfalso
      obtain ⟨d, s, h1, h2, h4⟩ := tlv_lossy t hvt hl (fun hk => hl (hs t (by simp) hk))
      rw [tlvPrint_eq t h1 h2] at hgo
      exact h4.never.go h4.ne (wire_nonzero t hvt) hh hr hgo [] ⟨0, rfl⟩ ⟨wireAll ts, by simp [wireAll]⟩

end Ofpstr
