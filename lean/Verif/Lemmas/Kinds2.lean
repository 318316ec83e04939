import Verif.Lemmas.Kinds
import Verif.Spec.Oxm

/-!
# Print and parse of the composite radiotap fields and of SSIDs
-/

namespace Ofpstr
open Spec

/-! ## `comp` fields -/

theorem unpackSizesLE_append (sizes : List Nat) (p m : Bytes) (h : sizes.sum ≤ p.length) :
    unpackSizesLE sizes (p ++ m) = unpackSizesLE sizes p := by
  induction sizes generalizing p with
  | nil => rfl
  | cons s ss ih =>
    simp only [List.sum_cons] at h
    simp only [unpackSizesLE]
    rw [List.take_append_of_le_length (by omega), List.drop_append_of_le_length (by omega),
      ih (p.drop s) (by simp; omega)]

theorem unpackSizesLE_length (sizes : List Nat) (p : Bytes) :
    (unpackSizesLE sizes p).length = sizes.length := by
  induction sizes generalizing p with
  | nil => rfl
  | cons s ss ih => simp [unpackSizesLE, ih]

theorem packSizesLE_unpack (sizes : List Nat) (p : Bytes) (h : p.length = sizes.sum) :
    packSizesLE sizes ((unpackSizesLE sizes p).map fun n : Nat => ((n : Nat) : Int)) = .ok p := by
  induction sizes generalizing p with
  | nil =>
    have : p = [] := List.length_eq_zero_iff.1 (by simpa using h)
    subst this; rfl
  | cons s ss ih =>
    simp only [List.sum_cons] at h
    have hl : (p.take s).length = s := by simp; omega
    have hlt : leVal (p.take s) < 256 ^ s := by
      have := leVal_lt (p.take s); rw [hl] at this; exact this
    simp only [unpackSizesLE, List.map_cons, packSizesLE]
    rw [packLE_ok s _ hlt, ih (p.drop s) (by simp; omega), leBytes_leVal' s _ hl]
    simp [bind, Except.bind]

/-- A number of a composite field: nothing for zero. -/
def optI (f : IFmt) (n : Nat) : Str := if n == 0 then [] else fmtI f n

theorem optI_clean (f : IFmt) (n : Nat) : Clean (optI f n) := by
  unfold optI; split
  · exact clean_nil
  · exact fmtI_clean f n

theorem optI_chars (f : IFmt) (n : Nat) : ∀ c ∈ optI f n, c ≠ '/' ∧ c ≠ ':' := by
  unfold optI; split
  · intro c h; cases h
  · exact fmtI_chars f n

theorem compNums_optI (l : List (Nat × IFmt)) :
    compNums (l.map fun x => optI x.2 x.1) = .ok (l.map fun x => ((x.1 : Nat) : Int)) := by
  induction l with
  | nil => rfl
  | cons x l ih =>
    simp only [List.map_cons, compNums, ih]
    by_cases h : x.1 = 0
    · simp [optI, h, bind, Except.bind]
    · have hne : (fmtI x.2 x.1).isEmpty = false := by
        cases hf : fmtI x.2 x.1 with
        | nil => exact absurd hf (fmtI_ne_nil _ _)
        | cons c t => rfl
      have h0 : (x.1 == 0) = false := by simp [h]
      simp only [optI, h0, hne, parseInt_fmtI_all, bind, Except.bind]
      simp [hne, pyAssert, parseInt_fmtI_all]

/-- The text of a composite field. -/
def compText (sizes : List Nat) (fmts : List IFmt) (p : Bytes) : Str :=
  joinStr t!":" ((List.zip (unpackSizesLE sizes p) fmts).map fun x => optI x.2 x.1)

theorem compShow_eq (sizes : List Nat) (fmts : List IFmt) (p r : Bytes) (h : p.length = sizes.sum) :
    compShow sizes fmts (p ++ r) = .ok (compText sizes fmts p) := by
  unfold compShow
  simp only [needBytes, bind, Except.bind]
  rw [if_pos (by simp; omega), unpackSizesLE_append sizes p r (by omega)]
  rfl

theorem compText_chars (sizes : List Nat) (fmts : List IFmt) (p : Bytes) :
    ∀ c ∈ compText sizes fmts p, c ≠ '/' ∧ CleanChar c := by
  apply joinStr_chars
  · intro c hc; simp at hc; subst hc; decide
  · intro q hq c hc
    simp only [List.mem_map] at hq
    obtain ⟨x, _, rfl⟩ := hq
    exact ⟨(optI_chars _ _ c hc).1, optI_clean _ _ c hc⟩

theorem compCollect_text (sizes : List Nat) (fmts : List IFmt) (p : Bytes) (h : p.length = sizes.sum)
    (hf : fmts.length = sizes.length) (hs : sizes ≠ []) :
    compCollect sizes (compText sizes fmts p) = .ok p := by
  unfold compCollect compText
  rw [splitAll_join ':' _ _ _]
  · rw [compNums_optI]
    have hm : (List.zip (unpackSizesLE sizes p) fmts).map (fun x => ((x.1 : Nat) : Int)) =
        (unpackSizesLE sizes p).map (fun n : Nat => ((n : Nat) : Int)) := by
      have : (fun x : Nat × IFmt => ((x.1 : Nat) : Int)) = (fun n : Nat => (n : Int)) ∘ Prod.fst := rfl
      rw [this, ← List.map_map, List.map_fst_zip]
      rw [unpackSizesLE_length]; omega
    rw [hm]
    simp [bind, Except.bind, packSizesLE_unpack sizes p h]
  · intro hc
    have : (List.zip (unpackSizesLE sizes p) fmts).length = 0 := by
      rw [← List.length_map (f := fun x : Nat × IFmt => optI x.2 x.1), hc]; rfl
    simp only [List.length_zip, unpackSizesLE_length, hf, Nat.min_self] at this
    exact hs (List.length_eq_zero_iff.1 this)
  · intro q hq c hc
    simp only [List.mem_map] at hq
    obtain ⟨x, _, rfl⟩ := hq
    exact (optI_chars _ _ c hc).2

theorem joinStr_two_ne (sep : Str) (hs : sep ≠ []) (a b : Str) (l : List Str) :
    joinStr sep (a :: b :: l) ≠ [] := by
  simp [joinStr, hs]

theorem compText_ne_nil (sizes : List Nat) (fmts : List IFmt) (p : Bytes)
    (hf : fmts.length = sizes.length) (hs : 2 ≤ sizes.length) : compText sizes fmts p ≠ [] := by
  unfold compText
  have hl : ((List.zip (unpackSizesLE sizes p) fmts).map fun x => optI x.2 x.1).length =
      sizes.length := by
    simp [unpackSizesLE_length, hf]
  generalize (List.zip (unpackSizesLE sizes p) fmts).map (fun x => optI x.2 x.1) = l at hl
  match l, hl with
  | [], hl => simp at hl; omega
  | [_], hl => simp at hl; omega
  | a :: b :: l, _ => exact joinStr_two_ne _ (by simp) a b l

theorem trip_comp (key : Key) (name : Str) (sizes : List Nat) (fmts : List IFmt) (p : Bytes)
    (h : p.length = sizes.sum) (hf : fmts.length = sizes.length) (hs : 2 ≤ sizes.length) :
    Trip (compBin2str name sizes fmts p false) (compStr2bin key sizes) name
      (header key sizes.sum false ++ p) := by
  have hc : Clean (compText sizes fmts p) := fun c hc => (compText_chars _ _ _ c hc).2
  have hne : sizes ≠ [] := by intro h; rw [h] at hs; simp at hs
  refine ⟨compText sizes fmts p, ?_, hc, compText_ne_nil _ _ _ hf hs, ?_⟩
  · have := compShow_eq sizes fmts p [] h
    rw [List.append_nil] at this
    simp [compBin2str, this, bind, Except.bind]
  · unfold compStr2bin
    simp only [getToken_clean_all hc, bind, Except.bind,
      split1_none '/' _ (fun c hc => (compText_chars _ _ _ c hc).1),
      compCollect_text sizes fmts p h hf hne]
    simp

theorem trip_comp_mask (key : Key) (name : Str) (sizes : List Nat) (fmts : List IFmt) (p m : Bytes)
    (h : p.length = sizes.sum) (hm : m.length = sizes.sum) (hf : fmts.length = sizes.length)
    (hs : 2 ≤ sizes.length) :
    Trip (compBin2str name sizes fmts (p ++ m) true) (compStr2bin key sizes) name
      (header key sizes.sum true ++ (p ++ m)) := by
  have hc1 : Clean (compText sizes fmts p) := fun c hc => (compText_chars _ _ _ c hc).2
  have hc2 : Clean (compText sizes fmts m) := fun c hc => (compText_chars _ _ _ c hc).2
  have hc : Clean (compText sizes fmts p ++ '/' :: compText sizes fmts m) :=
    clean_append hc1 (clean_cons clean_slash hc2)
  have hne : sizes ≠ [] := by intro h; rw [h] at hs; simp at hs
  refine ⟨compText sizes fmts p ++ '/' :: compText sizes fmts m, ?_, hc, by simp, ?_⟩
  · have h1 := compShow_eq sizes fmts p m h
    have h2 := compShow_eq sizes fmts m [] hm
    rw [List.append_nil] at h2
    have hd : (p ++ m).drop sizes.sum = m := by rw [← h]; exact List.drop_left
    simp [compBin2str, h1, hd, h2, bind, Except.bind]
  · unfold compStr2bin
    simp only [getToken_clean_all hc, bind, Except.bind,
      split1_some '/' _ _ (fun c hc => (compText_chars _ _ _ c hc).1),
      compCollect_text sizes fmts p h hf hne, compCollect_text sizes fmts m hm hf hne]
    simp

/-! ## `vht` -/

theorem fmtHexRaw_two (x : UInt8) : fmtHexRaw 2 x.toNat = hex2 x := by
  have key : ∀ n : Fin 256, fmtHexRaw 2 n.val = hex2 (UInt8.ofNat n.val) := by decide +kernel
  have h := key ⟨x.toNat, x.toNat_lt⟩
  rw [h]
  simp

/-- The text of a VHT value given its ten numbers. -/
def vhtText (n0 n1 n2 : Nat) (h : Bytes) (n7 n8 n9 : Nat) : Str :=
  joinStr t!":" [optI (.hex 6) n0, optI (.hex 4) n1, fmtI .dec n2, b2aHex h, optI (.hex 4) n7,
    fmtI .dec n8, fmtI (.hex 6) n9]

theorem vhtNums_opt (i : Nat) (hi : i ≠ 3) (f : IFmt) (n : Nat) (ts : List Str) (r : List Int)
    (h : vhtNums (i + 1) ts = .ok r) :
    vhtNums i (optI f n :: ts) = .ok ((n : Int) :: r) := by
  have hi' : (i == 3) = false := by simp [hi]
  by_cases h0 : n = 0
  · simp [vhtNums, hi', optI, h0, h, bind, Except.bind]
  · have hne : (fmtI f n).isEmpty = false := by
      cases hf : fmtI f n with
      | nil => exact absurd hf (fmtI_ne_nil _ _)
      | cons c t => rfl
    have h0' : (n == 0) = false := by simp [h0]
    simp only [vhtNums, hi', optI, h0', h, bind, Except.bind]
    simp [hne, parseInt_fmtI_all]

theorem vhtNums_fmt (i : Nat) (hi : i ≠ 3) (f : IFmt) (n : Nat) (ts : List Str) (r : List Int)
    (h : vhtNums (i + 1) ts = .ok r) :
    vhtNums i (fmtI f n :: ts) = .ok ((n : Int) :: r) := by
  have hi' : (i == 3) = false := by simp [hi]
  have hne : (fmtI f n).isEmpty = false := by
    cases hf : fmtI f n with
    | nil => exact absurd hf (fmtI_ne_nil _ _)
    | cons c t => rfl
  simp only [vhtNums, hi', h, bind, Except.bind]
  simp [hne, parseInt_fmtI_all]

theorem vhtNums_hex (b : Bytes) (ts : List Str) (r : List Int) (h : vhtNums 4 ts = .ok r) :
    vhtNums 3 (b2aHex b :: ts) = .ok (b.map (fun x => (x.toNat : Int)) ++ r) := by
  simp [vhtNums, a2bHex_b2aHex, h, bind, Except.bind]

theorem vhtNums_text (n0 n1 n2 : Nat) (h : Bytes) (n7 n8 n9 : Nat) :
    vhtNums 0 (splitAll ':' (vhtText n0 n1 n2 h n7 n8 n9)) =
      .ok ([(n0 : Int), n1, n2] ++ (h.map (fun x => (x.toNat : Int)) ++ [(n7 : Int), n8, n9])) := by
  unfold vhtText
  rw [splitAll_join ':' _ (by simp)]
  · exact vhtNums_opt 0 (by omega) _ _ _ _ (vhtNums_opt 1 (by omega) _ _ _ _
      (vhtNums_fmt 2 (by omega) _ _ _ _ (vhtNums_hex _ _ _ (vhtNums_opt 4 (by omega) _ _ _ _
      (vhtNums_fmt 5 (by omega) _ _ _ _ (vhtNums_fmt 6 (by omega) _ _ _ _ rfl))))))
  · intro q hq c hc
    simp only [List.mem_cons, List.not_mem_nil, or_false] at hq
    rcases hq with rfl | rfl | rfl | rfl | rfl | rfl | rfl
    · exact (optI_chars _ _ c hc).2
    · exact (optI_chars _ _ c hc).2
    · exact (fmtI_chars _ _ c hc).2
    · exact (isHex_ne (b2aHex_isHex _ c hc)).2.1
    · exact (optI_chars _ _ c hc).2
    · exact (fmtI_chars _ _ c hc).2
    · exact (fmtI_chars _ _ c hc).2

theorem vhtText_chars (n0 n1 n2 : Nat) (h : Bytes) (n7 n8 n9 : Nat) :
    ∀ c ∈ vhtText n0 n1 n2 h n7 n8 n9, c ≠ '/' ∧ CleanChar c := by
  unfold vhtText
  apply joinStr_chars
  · intro c hc; simp at hc; subst hc; decide
  · intro q hq c hc
    simp only [List.mem_cons, List.not_mem_nil, or_false] at hq
    rcases hq with rfl | rfl | rfl | rfl | rfl | rfl | rfl
    · exact ⟨(optI_chars _ _ c hc).1, optI_clean _ _ c hc⟩
    · exact ⟨(optI_chars _ _ c hc).1, optI_clean _ _ c hc⟩
    · exact ⟨(fmtI_chars _ _ c hc).1, fmtI_clean _ _ c hc⟩
    · exact ⟨(isHex_ne (b2aHex_isHex _ c hc)).1, isHex_clean (b2aHex_isHex _ c hc)⟩
    · exact ⟨(optI_chars _ _ c hc).1, optI_clean _ _ c hc⟩
    · exact ⟨(fmtI_chars _ _ c hc).1, fmtI_clean _ _ c hc⟩
    · exact ⟨(fmtI_chars _ _ c hc).1, fmtI_clean _ _ c hc⟩

theorem vhtText_ne_nil (n0 n1 n2 : Nat) (h : Bytes) (n7 n8 n9 : Nat) :
    vhtText n0 n1 n2 h n7 n8 n9 ≠ [] := by
  unfold vhtText
  exact joinStr_two_ne _ (by simp) _ _ _

theorem vhtShow_nums (data : Bytes) (n0 n1 n2 n3 n4 n5 n6 n7 n8 n9 : Nat) (hl : 12 ≤ data.length)
    (hu : unpackSizesLE vhtSizes data = [n0, n1, n2, n3, n4, n5, n6, n7, n8, n9]) (h : Bytes)
    (hh : fmtHexRaw 2 n3 ++ (fmtHexRaw 2 n4 ++ (fmtHexRaw 2 n5 ++ fmtHexRaw 2 n6)) = b2aHex h)
    (hs : n3 + n4 + n5 + n6 ≠ 0) :
    vhtShow data = .ok (vhtText n0 n1 n2 h n7 n8 n9) := by
  have hn : needBytes data 0 vhtSizes.sum = .ok () := by
    unfold needBytes; rw [if_pos (by simpa [vhtSizes] using hl)]
  have hs' : (n3 + n4 + n5 + n6 != 0) = true := by simp; omega
  have ho : ∀ (w n : Nat), (if n > 0 then fmtX w n else []) = optI (.hex w) n := by
    intro w n
    unfold optI fmtI
    by_cases hn : n = 0
    · simp [hn]
    · have : n > 0 := by omega
      simp [hn, this]
  unfold vhtShow
  rw [hn, hu]
  simp only [bind, Except.bind, hs', if_true, ho, hh]
  simp [vhtText, joinStr, fmtI]

theorem vhtCollect_of (T : Str) (l : List Int) (p : Bytes)
    (h1 : vhtNums 0 (splitAll ':' T) = .ok l) (h2 : packSizesLE vhtSizes l = .ok p) :
    vhtCollect T = .ok p := by
  unfold vhtCollect
  rw [h1]
  simp only [bind, Except.bind]
  exact h2

theorem vhtCollect_nums (n0 n1 n2 : Nat) (h : Bytes) (n7 n8 n9 : Nat) (p : Bytes)
    (hp : packSizesLE vhtSizes
      ([(n0 : Int), n1, n2] ++ (h.map (fun x => (x.toNat : Int)) ++ [(n7 : Int), n8, n9])) = .ok p) :
    vhtCollect (vhtText n0 n1 n2 h n7 n8 n9) = .ok p := by
  exact vhtCollect_of _ _ _ (vhtNums_text _ _ _ _ _ _ _) hp

theorem vht_twelve (a b c d e f g i j k l o : UInt8) (hz : [e, f, g, i] ≠ [0, 0, 0, 0]) :
    ∃ T, (∀ r, vhtShow ([a, b, c, d, e, f, g, i, j, k, l, o] ++ r) = .ok T) ∧
      (∀ c ∈ T, c ≠ '/' ∧ CleanChar c) ∧ T ≠ [] ∧
      vhtCollect T = .ok [a, b, c, d, e, f, g, i, j, k, l, o] := by
  have hun : unpackSizesLE vhtSizes [a, b, c, d, e, f, g, i, j, k, l, o] =
      [leVal [a, b], c.toNat, d.toNat, e.toNat, f.toNat, g.toNat, i.toNat, j.toNat, k.toNat,
        leVal [l, o]] := by
    simp [vhtSizes, unpackSizesLE, leVal]
  have hsum : e.toNat + f.toNat + g.toNat + i.toNat ≠ 0 := by
    intro hs
    apply hz
    have he : e = 0 := UInt8.toNat_inj.1 (by simp; omega)
    have hf : f = 0 := UInt8.toNat_inj.1 (by simp; omega)
    have hg : g = 0 := UInt8.toNat_inj.1 (by simp; omega)
    have hi : i = 0 := UInt8.toNat_inj.1 (by simp; omega)
    simp [he, hf, hg, hi]
  have hhex : fmtHexRaw 2 e.toNat ++ (fmtHexRaw 2 f.toNat ++ (fmtHexRaw 2 g.toNat ++
      fmtHexRaw 2 i.toNat)) = b2aHex [e, f, g, i] := by
    rw [fmtHexRaw_two e, fmtHexRaw_two f, fmtHexRaw_two g, fmtHexRaw_two i]
    simp [b2aHex]
  have hlen : ([a, b, c, d, e, f, g, i, j, k, l, o] : Bytes).length = vhtSizes.sum := rfl
  have hpk : packSizesLE vhtSizes ([((leVal [a, b] : Nat) : Int), c.toNat, d.toNat] ++
      ([e, f, g, i].map (fun x => (x.toNat : Int)) ++ [(j.toNat : Int), k.toNat, (leVal [l, o] : Nat)])) =
      .ok [a, b, c, d, e, f, g, i, j, k, l, o] := by
    rw [← packSizesLE_unpack vhtSizes _ hlen, hun]
    simp only [List.map_cons, List.map_nil, List.cons_append, List.nil_append]
  refine ⟨vhtText (leVal [a, b]) c.toNat d.toNat [e, f, g, i] j.toNat k.toNat (leVal [l, o]),
    ?_, vhtText_chars _ _ _ _ _ _ _, ?_, ?_⟩
  · intro r
    refine vhtShow_nums _ _ _ _ _ _ _ _ _ _ _ ?_ ?_ _ hhex hsum
    · simp only [List.length_append, List.length_cons]; omega
    · rw [unpackSizesLE_append vhtSizes _ r (Nat.le_of_eq hlen.symm)]
      exact hun
  · exact vhtText_ne_nil _ _ _ _ _ _ _
  · exact vhtCollect_nums _ _ _ _ _ _ _ _ hpk

theorem vht_split (p : Bytes) (h : p.length = 12) (hz : vhtUsers p ≠ [0, 0, 0, 0]) :
    ∃ T, (∀ r, vhtShow (p ++ r) = .ok T) ∧ (∀ c ∈ T, c ≠ '/' ∧ CleanChar c) ∧ T ≠ [] ∧
      vhtCollect T = .ok p := by
  match p, h with
  | [a, b, c, d, e, f, g, i, j, k, l, o], _ =>
    exact vht_twelve a b c d e f g i j k l o hz

theorem trip_vht (key : Key) (p : Bytes) (h : p.length = 12) (hz : vhtUsers p ≠ [0, 0, 0, 0]) :
    Trip (vhtBin2str p false) (vhtStr2bin key) t!"radiotap_vht" (header key 12 false ++ p) := by
  obtain ⟨T, h1, h2, h3, h4⟩ := vht_split p h hz
  have hc : Clean T := fun c hc => (h2 c hc).2
  have h1' := h1 []
  rw [List.append_nil] at h1'
  refine ⟨T, by simp [vhtBin2str, h1', bind, Except.bind], hc, h3, ?_⟩
  unfold vhtStr2bin
  simp only [getToken_clean_all hc, bind, Except.bind, split1_none '/' _ (fun c hc => (h2 c hc).1), h4]
  simp [vhtSizes]

theorem trip_vht_mask (key : Key) (p m : Bytes) (h : p.length = 12) (hm : m.length = 12)
    (hz : vhtUsers p ≠ [0, 0, 0, 0]) (hzm : vhtUsers m ≠ [0, 0, 0, 0]) :
    Trip (vhtBin2str (p ++ m) true) (vhtStr2bin key) t!"radiotap_vht"
      (header key 12 true ++ (p ++ m)) := by
  obtain ⟨T, h1, h2, h3, h4⟩ := vht_split p h hz
  obtain ⟨T', h1', h2', h3', h4'⟩ := vht_split m hm hzm
  have hc : Clean (T ++ '/' :: T') :=
    clean_append (fun c hc => (h2 c hc).2) (clean_cons clean_slash (fun c hc => (h2' c hc).2))
  have hd : (p ++ m).drop vhtSizes.sum = m := by
    have : vhtSizes.sum = p.length := by rw [h]; rfl
    rw [this]; exact List.drop_left
  have h1'' := h1' []
  rw [List.append_nil] at h1''
  refine ⟨T ++ '/' :: T', ?_, hc, by simp, ?_⟩
  · unfold vhtBin2str
    rw [h1, hd, h1'']
    simp [bind, Except.bind]
  · unfold vhtStr2bin
    simp only [getToken_clean_all hc, bind, Except.bind,
      split1_some '/' _ _ (fun c hc => (h2 c hc).1), h4, h4']
    simp [vhtSizes]

/-! ## SSID -/

theorem ssidByte_facts (b : UInt8) (h : SsidByte b) :
    CleanChar (chr b) ∧ chr b ≠ '/' ∧ chr b ≠ '=' ∧ (chr b).toNat = b.toNat ∧
      ∀ next linelen, (b.toNat = 46 → linelen = 0 → next ≠ none ∧
        ∀ m, next = some m → SsidByte m) → qpMustQuote b next linelen = false := by
  have key : ∀ n : Fin 127, 33 ≤ n.val → n.val ∉ [40, 44, 47, 60, 61, 91, 123] →
      CleanChar (Char.ofNat n.val) ∧ Char.ofNat n.val ≠ '/' ∧ Char.ofNat n.val ≠ '=' ∧
        (Char.ofNat n.val).toNat = n.val := by decide +kernel
  obtain ⟨h1, h2, h3⟩ := h
  have hk := key ⟨b.toNat, by omega⟩ h1 h3
  refine ⟨hk.1, hk.2.1, hk.2.2.1, hk.2.2.2, ?_⟩
  intro next linelen hn
  unfold qpMustQuote
  have e1 : ¬ b.toNat > 126 := by omega
  have e2 : b.toNat ≠ 61 := by intro h; apply h3; simp [h]
  have e3 : b.toNat ≠ 9 := by omega
  have e4 : b.toNat ≠ 32 := by omega
  have e5 : ¬ b.toNat < 33 := by omega
  cases next with
  | none =>
    have e6 : ¬ (b.toNat = 46 ∧ linelen = 0) := fun h => (hn h.1 h.2).1 rfl
    have e6' : (b.toNat == 46 && linelen == 0) = false := by
      rw [← Bool.not_eq_true]; simpa using e6
    simp [e1, e2, e3, e4, e5, e6']
  | some m =>
    have e6 : (b.toNat == 46 && linelen == 0 && (m == 10 || m == 13 || m == 0)) = false := by
      rw [← Bool.not_eq_true]
      intro hc
      simp only [Bool.and_eq_true, beq_iff_eq, Bool.or_eq_true] at hc
      have hm := (hn hc.1.1 hc.1.2).2 m rfl
      rcases hc.2 with (h | h) | h <;> subst h <;> revert hm <;> decide
    simp [e1, e2, e3, e4, e5, e6]

theorem b2aQpGo_plain (crlf : Bool) : ∀ (b : Bytes) (fuel linelen : Nat) (out : Str),
    (∀ x ∈ b, SsidByte x) → b.length < fuel → linelen + b.length ≤ 76 →
    (linelen = 0 → b ≠ [46]) →
    b2aQpGo crlf fuel linelen out b = out.reverse ++ b.map chr
  | [], fuel, linelen, out, _, hf, _, _ => by
    cases fuel with
    | zero => simp at hf
    | succ f => simp [b2aQpGo]
  | x :: b, fuel, linelen, out, hb, hf, hl, hdot => by
    cases fuel with
    | zero => simp at hf
    | succ f =>
      simp only [List.length_cons] at hf hl
      have hx := hb x (by simp)
      obtain ⟨_, _, _, _, hq⟩ := ssidByte_facts x hx
      have hq' : qpMustQuote x b.head? linelen = false := by
        apply hq
        intro h46 h0
        constructor
        · intro hn
          have : b = [] := by cases b with
            | nil => rfl
            | cons y b => simp at hn
          subst this
          apply hdot h0
          have : x = 46 := UInt8.toNat_inj.1 (by simp [h46])
          rw [this]
        · intro m hm
          apply hb
          cases b with
          | nil => simp at hm
          | cons y b => simp at hm; simp [hm]
      have h10 : (x == 10) = false := by
        rw [← Bool.not_eq_true]; intro h
        have : x = 10 := by simpa using h
        subst this; revert hx; decide
      have h13 : (x == 13) = false := by
        rw [← Bool.not_eq_true]; intro h
        have : x = 13 := by simpa using h
        subst this; revert hx; decide
      have hbr : (b.head?.isSome && b.head? != some 10 && decide (linelen + 1 ≥ 76)) = false := by
        cases b with
        | nil => simp
        | cons y b =>
          simp only [List.length_cons] at hl
          have : ¬ (linelen + 1 ≥ 76) := by omega
          simp [this]
      rw [b2aQpGo.eq_def]
      dsimp only
      simp only [hq', h10, h13, hbr]
      simp only [Bool.false_and, Bool.or_false, if_false, Bool.false_eq_true]
      rw [b2aQpGo_plain crlf b f (linelen + 1) _ (fun y hy => hb y (by simp [hy])) (by omega) (by omega)
        (by intro h; omega)]
      simp

theorem b2aQp_plain (b : Bytes) (hb : ∀ x ∈ b, SsidByte x) (hl : b.length ≤ 76) (hd : b ≠ [46]) :
    b2aQp b = b.map chr := by
  unfold b2aQp
  rw [b2aQpGo_plain _ b _ 0 [] hb (by omega) (by omega) (fun _ => hd)]
  simp

theorem a2bQp_plain (b : Bytes) (hb : ∀ x ∈ b, SsidByte x) : a2bQp (b.map chr) = .ok b := by
  have hall : (b.map chr).all (fun c => c.toNat < 128) = true := by
    simp only [List.all_eq_true, List.mem_map]
    rintro c ⟨x, hx, rfl⟩
    have h := hb x hx
    rw [(ssidByte_facts x h).2.2.2.1]
    simp
    have := h.2.1
    omega
  have hgo : ∀ (b : Bytes) (fuel : Nat), (∀ x ∈ b, SsidByte x) → b.length < fuel →
      a2bQpGo fuel (b.map chr) = b := by
    intro b
    induction b with
    | nil =>
      intro fuel _ hf
      cases fuel with
      | zero => simp at hf
      | succ f => simp [a2bQpGo]
    | cons x b ih =>
      intro fuel hb hf
      cases fuel with
      | zero => simp at hf
      | succ f =>
        simp only [List.length_cons] at hf
        have h := ssidByte_facts x (hb x (by simp))
        have he : (chr x == '=') = false := by simp [h.2.2.1]
        simp only [List.map_cons, a2bQpGo, he]
        rw [if_neg (by simp), ih f (fun y hy => hb y (by simp [hy])) (by omega), h.2.2.2.1]
        simp
  unfold a2bQp
  rw [if_pos hall, hgo b _ hb (by simp)]

theorem ssidMap_clean (b : Bytes) (hb : ∀ x ∈ b, SsidByte x) :
    ∀ c ∈ b.map chr, c ≠ '/' ∧ CleanChar c := by
  intro c hc
  simp only [List.mem_map] at hc
  obtain ⟨x, hx, rfl⟩ := hc
  have h := ssidByte_facts x (hb x hx)
  exact ⟨h.2.1, h.1⟩

theorem trip_ssid (key : Key) (p : Bytes) (hb : ∀ x ∈ p, SsidByte x) (hl : p.length ≤ 76)
    (hd : p ≠ [46]) (hn : p ≠ []) :
    Trip (ssidBin2str p false) (ssidStr2bin key) t!"dot11_ssid" (header key p.length false ++ p) := by
  have hch := ssidMap_clean p hb
  have hc : Clean (p.map chr) := fun c hc => (hch c hc).2
  refine ⟨p.map chr, by simp [ssidBin2str, b2aQp_plain p hb hl hd], hc, by simp [hn], ?_⟩
  unfold ssidStr2bin
  simp only [getToken_clean_all hc, splitAll_none '/' _ (fun c hc => (hch c hc).1), a2bQp_plain p hb,
    bind, Except.bind]
  simp

theorem stripZeros_pad (p : Bytes) (k : Nat) (hb : ∀ x ∈ p, x ≠ 0) (hn : p ≠ []) :
    stripZeros (p ++ zeros k) = .ok p := by
  have h0 : ∀ x ∈ (zeros k).reverse, (x == 0) = true := by
    intro x hx
    simp [zeros] at hx
    simp [hx.2]
  have h1 : ((p ++ zeros k).reverse.dropWhile (· == 0)) = p.reverse := by
    rw [List.reverse_append]
    apply dropWhile_append_stop h0
    intro c t hc
    have : c ∈ p := by
      have : c ∈ p.reverse := by rw [hc]; simp
      simpa using this
    simp [hb c this]
  unfold stripZeros
  simp only [h1, List.reverse_reverse]
  cases p with
  | nil => exact absurd rfl hn
  | cons x p => simp

theorem trip_ssid_mask (key : Key) (p m : Bytes) (k : Nat) (hb : ∀ x ∈ p, SsidByte x)
    (hl : p.length ≤ 76) (hd : p ≠ [46]) (hn : p ≠ []) (hm : m.length = p.length + k) :
    Trip (ssidBin2str ((p ++ zeros k) ++ m) true) (ssidStr2bin key) t!"dot11_ssid"
      (header key m.length true ++ ((p ++ zeros k) ++ m)) := by
  have hch := ssidMap_clean p hb
  have hc : Clean (p.map chr ++ '/' :: b2aHex m) :=
    clean_append (fun c hc => (hch c hc).2) (clean_cons clean_slash (b2aHex_clean m))
  have hs : ((p ++ zeros k) ++ m).length / 2 = (p ++ zeros k).length := by
    simp [hm]; omega
  have hnz : ∀ x ∈ p, x ≠ 0 := by
    intro x hx h
    subst h
    exact absurd (hb 0 hx) (by decide)
  refine ⟨p.map chr ++ '/' :: b2aHex m, ?_, hc, by simp, ?_⟩
  · simp only [ssidBin2str, hs, if_true, List.take_left, List.drop_left, stripZeros_pad p k hnz hn,
      bind, Except.bind, b2aQp_plain p hb hl hd]
    rfl
  · unfold ssidStr2bin
    have hsp : splitAll '/' (p.map chr ++ '/' :: b2aHex m) = [p.map chr, b2aHex m] := by
      rw [splitAll_some '/' _ _ (fun c hc => (hch c hc).1),
        splitAll_none '/' _ (fun c hc => (isHex_ne (b2aHex_isHex m c hc)).1)]
    have hpad : padMask p m = ((p ++ zeros k) ++ m, m.length) := by
      unfold padMask
      have h1 : max m.length p.length = m.length := by omega
      have h2 : min m.length p.length = p.length := by omega
      have h3 : m.length - p.length = k := by omega
      rw [h1, h2, h3]
      by_cases hk : k = 0
      · have : ¬ p.length < m.length := by omega
        have h4 : m.length = p.length := by omega
        simp [hk, zeros, h4]
      · have : p.length < m.length := by omega
        simp [this]
    simp only [getToken_clean_all hc, hsp, a2bQp_plain p hb, bind, Except.bind, a2bHex_b2aHex, hpad]
    simp

end Ofpstr
