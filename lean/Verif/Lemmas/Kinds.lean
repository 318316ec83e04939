import Verif.Lemmas.Inet

/-!
# Print and parse of one field value, kind by kind
-/

namespace Ofpstr
open Spec

/-- The decoder prints `name=v` with a plain `v`, and the encoder reads `v` back completely, giving
`out`. -/
def Trip (dec : Py Str) (enc : Str → Py (Bytes × Nat)) (name : Str) (out : Bytes) : Prop :=
  ∃ v, dec = .ok (name ++ '=' :: v) ∧ Clean v ∧ v ≠ [] ∧ enc v = .ok (out, v.length)

theorem clean_slash : CleanChar '/' := by decide
theorem clean_colon : CleanChar ':' := by decide

theorem drop_sep (a b : Str) (c : Char) : (a ++ c :: b).drop (a.length + 1) = b := by
  rw [show a ++ c :: b = (a ++ [c]) ++ b by simp, show a.length + 1 = (a ++ [c]).length by simp]
  exact List.drop_left

theorem startsWith_slash (b : Str) : startsWith ('/' :: b) t!"/" = true := by
  simp [startsWith]

theorem startsWith_nil_slash : startsWith [] t!"/" = false := by decide

theorem intLE_nat (size n : Nat) : intLE size (n : Int) = leBytes size n := by
  induction size generalizing n with
  | zero => rfl
  | succ k ih =>
    have h := ih (n / 256)
    unfold intLE at *
    rw [List.range_succ_eq_map, List.map_cons, leBytes, ← h, List.map_map]
    congr 1
    · apply UInt8.toNat_inj.1
      simp
      have : (((n : Int) % 256).toNat : Int) = (n : Int) % 256 :=
        Int.toNat_of_nonneg (Int.emod_nonneg _ (by omega))
      omega
    · apply List.map_congr_left
      intro s _
      simp only [Function.comp]
      have : (n : Int) / 256 ^ (s + 1) = (((n / 256 : Nat) : Int)) / 256 ^ s := by
        push_cast
        rw [Int.ediv_ediv_of_nonneg (by omega), pow_succ, mul_comm]
      rw [this]

/-! ## Integers -/

theorem trip_uint (key : Key) (n : Nat) (f : Fmt) (vf : IFmt) (hf : f.val = some vf) (p : Bytes)
    (hp : p.length = n) :
    Trip (uintBin2str f p false) (uintStr2bin key n) f.name (header key n false ++ p) := by
  refine ⟨fmtI vf (beVal p), by simp [uintBin2str, fmtField, hf], fmtI_clean _ _, fmtI_ne_nil _ _, ?_⟩
  unfold uintStr2bin
  rw [parseInt_fmtI_all]
  simp [bind, Except.bind, List.drop_length, startsWith_nil_slash, intBE_nat, beBytes_beVal' n p hp]

theorem trip_uint_mask (key : Key) (n : Nat) (f : Fmt) (vf mf : IFmt) (hf : f.val = some vf)
    (hm : f.mask = some mf) (p m : Bytes) (hp : p.length = n) (hml : m.length = n) :
    Trip (uintBin2str f (p ++ m) true) (uintStr2bin key n) f.name (header key n true ++ (p ++ m)) := by
  have hs : (p ++ m).length / 2 = p.length := by simp [hp, hml]; omega
  refine ⟨fmtI vf (beVal p) ++ '/' :: fmtI mf (beVal m), ?_, ?_, by simp, ?_⟩
  · simp only [uintBin2str, hs, fmtField, hf, hm, if_true, List.take_left, List.drop_left]
    simp
  · exact clean_append (fmtI_clean _ _) (clean_cons clean_slash (fmtI_clean _ _))
  · unfold uintStr2bin
    rw [parseInt_fmtI _ _ _ (stop_slash _)]
    simp only [bind, Except.bind, List.drop_left, startsWith_slash, if_true, drop_sep,
      parseInt_fmtI_all]
    simp only [intBE_nat, beBytes_beVal' n p hp, beBytes_beVal' n m hml]
    simp [Nat.add_comm]

theorem trip_le (key : Key) (n : Nat) (f : Fmt) (vf : IFmt) (hf : f.val = some vf) (p : Bytes)
    (hp : p.length = n) :
    Trip (leBin2str f p false) (leStr2bin key n) f.name (header key n false ++ p) := by
  refine ⟨fmtI vf (leVal p), by simp [leBin2str, fmtField, hf], fmtI_clean _ _, fmtI_ne_nil _ _, ?_⟩
  unfold leStr2bin
  rw [parseInt_fmtI_all]
  simp [bind, Except.bind, List.drop_length, startsWith_nil_slash, intLE_nat, leBytes_leVal' n p hp]

/-! ## Signed bytes -/

theorem fmtInt_clean (n : Int) : Clean (fmtInt n) := by
  unfold fmtInt
  split
  · exact clean_cons (by decide) (fmtD_clean _)
  · exact fmtD_clean _

theorem fmtInt_ne_nil (n : Int) : fmtInt n ≠ [] := by
  unfold fmtInt
  split
  · simp
  · exact fmtD_ne_nil _

theorem packS8_s8Val (x : UInt8) : packS8 (s8Val x) = .ok [x] := by
  have hx := x.toNat_lt
  unfold packS8 s8Val
  split
  · rename_i h
    rw [if_pos (by omega)]
    have : (((x.toNat : Int)) % 256).toNat = x.toNat := by omega
    rw [this]; simp
  · rename_i h
    rw [if_pos (by omega)]
    have : (((x.toNat : Int) - 256) % 256).toNat = x.toNat := by omega
    rw [this]; simp

theorem trip_s8 (key : Key) (name : Str) (p : Bytes) (hp : p.length = 1) :
    Trip (s8Bin2str name p false) (s8Str2bin key) name (header key 1 false ++ p) := by
  match p, hp with
  | [x], _ =>
    refine ⟨fmtInt (s8Val x), by simp [s8Bin2str, pyAssert, bind, Except.bind], fmtInt_clean _,
      fmtInt_ne_nil _, ?_⟩
    have h := parseInt_fmtInt (s8Val x) [] (by intro c t h; cases h) (by intro c t h; cases h)
    rw [List.append_nil] at h
    unfold s8Str2bin
    simp [h, bind, Except.bind, packS8_s8Val]

/-! ## Ports -/

theorem foldl_keep {α β : Type} (l : List α) (f : β → α → β) (s : β) (h : ∀ a ∈ l, ∀ s, f s a = s) :
    l.foldl f s = s := by
  induction l generalizing s with
  | nil => rfl
  | cons a l ih =>
    rw [List.foldl_cons, h a (by simp)]
    exact ih s (fun x hx => h x (by simp [hx]))

theorem startsWith_false {c d : Char} (s p : Str) (h : d ≠ c) : startsWith (c :: s) (d :: p) = false := by
  simp [startsWith, List.isPrefixOf, h]

/-- A text starting with something else than a letter is no port name. -/
theorem portNames_other (size : Nat) (c : Char) (t : Str)
    (h : ∀ d ∈ t!"mitnfaclMITNFACL", d ≠ c) : portNames size (c :: t) = (0, []) := by
  unfold portNames
  apply foldl_keep
  intro a ha s
  have key : ∀ a ∈ ofpp, ∃ d p d' p', lowerStr a.2 = d :: p ∧ upperStr a.2 = d' :: p' ∧
      d ∈ t!"mitnfaclMITNFACL" ∧ d' ∈ t!"mitnfaclMITNFACL" := by
    intro a ha
    simp only [ofpp, List.mem_cons, List.not_mem_nil, or_false] at ha
    rcases ha with rfl | rfl | rfl | rfl | rfl | rfl | rfl | rfl | rfl <;>
      exact ⟨_, _, _, _, rfl, rfl, by decide, by decide⟩
  obtain ⟨d, p, d', p', h1, h2, h3, h4⟩ := key a ha
  obtain ⟨v, nm⟩ := a
  simp only at h1 h2
  simp [h1, h2, startsWith_false _ _ (h d h3), startsWith_false _ _ (h d' h4)]

theorem portNames_num (size n : Nat) : portNames size (fmtD n) = (0, []) := by
  cases h : fmtD n with
  | nil => exact absurd h (fmtD_ne_nil n)
  | cons c t =>
    have hc : isDec c = true := fmtD_isDec n c (by simp [h])
    apply portNames_other
    intro d hd he
    subst he
    simp only [List.mem_cons, List.not_mem_nil, or_false] at hd
    rcases hd with rfl | rfl | rfl | rfl | rfl | rfl | rfl | rfl | rfl | rfl | rfl | rfl | rfl |
      rfl | rfl | rfl <;> revert hc <;> decide

theorem portNames_name (size : Nat) (hsz : size = 2 ∨ size = 4) (e : Nat × Str) (he : e ∈ ofpp) :
    portNames size e.2 = (e.2.length, beBytes size (e.1 % 256 ^ size)) := by
  rcases hsz with rfl | rfl
  · have : ∀ e ∈ ofpp, portNames 2 e.2 = (e.2.length, beBytes 2 (e.1 % 256 ^ 2)) := by decide +kernel
    exact this e he
  · have : ∀ e ∈ ofpp, portNames 4 e.2 = (e.2.length, beBytes 4 (e.1 % 256 ^ 4)) := by decide +kernel
    exact this e he

theorem ofpp_clean : ∀ e ∈ ofpp, Clean e.2 ∧ e.2 ≠ [] := by decide +kernel

theorem portStr2bin_portName (key : Key) (size num : Nat) (hsz : size = 2 ∨ size = 4)
    (hn : num < 256 ^ size) : Clean (portName size num) ∧ portName size num ≠ [] ∧
      portStr2bin key size (portName size num) =
        .ok (header key size false ++ beBytes size num, (portName size num).length) := by
  unfold portName
  cases hf : ofpp.find? (fun e => e.1 % 256 ^ size == num) with
  | none =>
    refine ⟨fmtD_clean _, fmtD_ne_nil _, ?_⟩
    have h := parseInt_fmtD num [] (by intro c t h; cases h) (by intro c t h; cases h)
    rw [List.append_nil] at h
    simp [portStr2bin, portNames_num, h, packU_ok size num hn, bind, Except.bind]
  | some e =>
    have hmem := List.mem_of_find?_eq_some hf
    have hv := List.find?_some hf
    simp only [beq_iff_eq] at hv
    refine ⟨(ofpp_clean e hmem).1, (ofpp_clean e hmem).2, ?_⟩
    have hne : (beBytes size (e.1 % 256 ^ size)).isEmpty = false := by
      rcases hsz with rfl | rfl <;> simp [beBytes]
    simp only [portStr2bin, portNames_name size hsz e hmem, hne]
    simp [hv]

theorem trip_port (key : Key) (name : Str) (size : Nat) (hsz : size = 2 ∨ size = 4) (p : Bytes)
    (hp : p.length = size) :
    Trip (portBin2str name size p false) (portStr2bin key size) name (header key size false ++ p) := by
  have hlt : beVal p < 256 ^ size := by rw [← hp]; exact beVal_lt p
  obtain ⟨h1, h2, h3⟩ := portStr2bin_portName key size (beVal p) hsz hlt
  refine ⟨portName size (beVal p), by simp [portBin2str, pyAssert, bind, Except.bind, hp], h1, h2, ?_⟩
  rw [h3, beBytes_beVal' size p hp]

/-! ## MAC addresses -/

theorem hexRun_two (x y : Char) (r : Str) (hx : isHex x = true) (hy : isHex y = true) :
    hexRun 2 (x :: y :: r) = some ([x, y], r) := by
  simp [hexRun, hx, hy]

theorem hexRun_bad (n : Nat) (s t : Str) (c : Char) (hn : s.length < n) (hc : isHex c = false) :
    hexRun n (s ++ c :: t) = none := by
  unfold hexRun
  rw [if_neg]
  intro h
  simp only [Bool.and_eq_true, List.all_eq_true] at h
  have : c ∈ (s ++ c :: t).take n := by
    rw [List.take_append]
    obtain ⟨k, hk⟩ : ∃ k, n - s.length = k + 1 := ⟨n - s.length - 1, by omega⟩
    simp [hk]
  rw [h.2 c this] at hc
  cases hc

theorem hexGroups_bad (n : Nat) (sep : Char → Bool) (k : Nat) (s t : Str) (c : Char)
    (hn : s.length < n) (hc : isHex c = false) : hexGroups n sep (k + 1) (s ++ c :: t) = none := by
  cases k with
  | zero => simp [hexGroups, hexRun_bad n s t c hn hc]
  | succ k => simp [hexGroups, hexRun_bad n s t c hn hc]

/-- Six pairs of hexadecimal digits separated by `c`. -/
def macForm (c : Char) (ps : List (Char × Char)) : Str :=
  joinStr [c] (ps.map fun p => [p.1, p.2])

theorem macForm_scan (sep : Char) (p1 p2 p3 p4 p5 p6 : Char × Char)
    (h : ∀ p ∈ [p1, p2, p3, p4, p5, p6], isHex p.1 = true ∧ isHex p.2 = true)
    (hs : sep = ':' ∨ sep = '-') (r : Str) :
    macScan (macForm sep [p1, p2, p3, p4, p5, p6] ++ r) =
      .ok ([p1.1, p1.2, p2.1, p2.2, p3.1, p3.2, p4.1, p4.2, p5.1, p5.2, p6.1, p6.2], 17) := by
  have hh1 := h p1 (by simp)
  have hh2 := h p2 (by simp)
  have hh3 := h p3 (by simp)
  have hh4 := h p4 (by simp)
  have hh5 := h p5 (by simp)
  have hh6 := h p6 (by simp)
  have hsep : isHex sep = false := by rcases hs with rfl | rfl <;> decide
  have hform : macForm sep [p1, p2, p3, p4, p5, p6] ++ r = [p1.1, p1.2] ++ sep :: (p2.1 :: p2.2 ::
    sep :: p3.1 :: p3.2 :: sep :: p4.1 :: p4.2 :: sep :: p5.1 :: p5.2 :: sep :: p6.1 :: p6.2 :: r) := by
    simp [macForm, joinStr]
  unfold macScan
  rw [hform, hexGroups_bad 12 _ 0 _ _ _ (by simp) hsep, hexGroups_bad 4 _ 2 _ _ _ (by simp) hsep]
  simp only [List.cons_append, List.nil_append]
  rcases hs with rfl | rfl
  · simp [hexGroups, hexRun_two, hh1, hh2, hh3, hh4, hh5, hh6]
  · simp [hexGroups, hexRun_two, hh1, hh2, hh3, hh4, hh5, hh6]

theorem macForm_length (sep : Char) (p1 p2 p3 p4 p5 p6 : Char × Char) :
    (macForm sep [p1, p2, p3, p4, p5, p6]).length = 17 := by
  simp [macForm, joinStr]

def hexPair (b : UInt8) : Char × Char := (digitChar (b.toNat / 16), digitChar (b.toNat % 16))

theorem macText_form (b : Bytes) : macText b = macForm ':' (b.map hexPair) := by
  unfold macText macForm
  rw [List.map_map]
  rfl

theorem hexPair_isHex (b : UInt8) : isHex (hexPair b).1 = true ∧ isHex (hexPair b).2 = true :=
  ⟨hex2_isHex b _ (by simp [hexPair, hex2]), hex2_isHex b _ (by simp [hexPair, hex2])⟩

theorem macText_scan (b : Bytes) (h : b.length = 6) (r : Str) :
    macScan (macText b ++ r) = .ok (b2aHex b, 17) ∧ (macText b).length = 17 := by
  match b, h with
  | [a, b, c, d, e, f], _ =>
    rw [macText_form]
    constructor
    · rw [List.map_cons, List.map_cons, List.map_cons, List.map_cons, List.map_cons, List.map_cons,
        List.map_nil, macForm_scan ':' _ _ _ _ _ _ _ (Or.inl rfl)]
      · simp [b2aHex, hex2, hexPair]
      · intro p hp
        simp only [List.mem_cons, List.not_mem_nil, or_false] at hp
        rcases hp with rfl | rfl | rfl | rfl | rfl | rfl <;> exact hexPair_isHex _
    · exact macForm_length _ _ _ _ _ _ _

theorem joinStr_chars (P : Char → Prop) (sep : Str) (hs : ∀ c ∈ sep, P c) (ps : List Str)
    (h : ∀ p ∈ ps, ∀ c ∈ p, P c) : ∀ c ∈ joinStr sep ps, P c := by
  induction ps with
  | nil => intro c hc; simp [joinStr] at hc
  | cons p ps ih =>
    intro c hc
    cases ps with
    | nil => simp [joinStr] at hc; exact h p (by simp) c hc
    | cons q ps =>
      simp only [joinStr, List.mem_append] at hc
      rcases hc with (hc | hc) | hc
      · exact h p (by simp) c hc
      · exact hs c hc
      · exact ih (fun p hp => h p (by simp [hp])) c hc

theorem macText_clean (b : Bytes) : Clean (macText b) := by
  apply joinStr_chars
  · intro c hc; simp at hc; subst hc; decide
  · intro p hp c hc
    simp at hp
    obtain ⟨x, _, rfl⟩ := hp
    exact isHex_clean (hex2_isHex x c hc)

theorem trip_mac (key : Key) (name : Str) (p : Bytes) (hp : p.length = 6) :
    Trip (macBin2str name p false) (macStr2bin key) name (header key 6 false ++ p) := by
  have hs := macText_scan p hp []
  rw [List.append_nil] at hs
  have hl : (macText p).length = 17 := (macText_scan p hp []).2
  refine ⟨macText p, ?_, macText_clean p, ?_, ?_⟩
  · have ht : p.take 6 = p := by rw [← hp]; exact List.take_length
    simp [macBin2str, hp, pyAssert, bind, Except.bind, ht]
  · intro h; rw [h] at hl; simp at hl
  · have hd : (macText p).drop 17 = [] := by rw [← hl]; exact List.drop_length
    simp [macStr2bin, hs.1, bind, Except.bind, hd, startsWith_nil_slash, a2bHex_b2aHex, hl]

theorem trip_mac_mask (key : Key) (name : Str) (p m : Bytes) (hp : p.length = 6) (hm : m.length = 6) :
    Trip (macBin2str name (p ++ m) true) (macStr2bin key) name (header key 6 true ++ (p ++ m)) := by
  have hs := macText_scan p hp ('/' :: macText m)
  have hs2 := macText_scan m hm []
  rw [List.append_nil] at hs2
  refine ⟨macText p ++ '/' :: macText m, ?_, ?_, by simp, ?_⟩
  · have ht : (p ++ m).take 6 = p := by rw [← hp]; exact List.take_left
    have hd : (p ++ m).drop 6 = m := by rw [← hp]; exact List.drop_left
    unfold macBin2str
    rw [if_neg (by simp [hp, hm]), ht, hd]
    simp [hp, hm, pyAssert, bind, Except.bind]
  · exact clean_append (macText_clean p) (clean_cons clean_slash (macText_clean m))
  · have hd : (macText p ++ '/' :: macText m).drop 17 = '/' :: macText m := by
      rw [← hs.2]; exact List.drop_left
    have hd2 : (macText p ++ '/' :: macText m).drop (17 + 1) = macText m := by
      rw [← hs.2]; exact drop_sep _ _ _
    unfold macStr2bin
    simp only [hs.1, bind, Except.bind, hd, startsWith_slash, if_true, hd2, hs2.1]
    rw [← b2aHex_append, a2bHex_b2aHex]
    simp [hs.2, hs2.2]

/-! ## IP addresses -/

theorem trip_ipv4 (key : Key) (name : Str) (p : Bytes) (hp : p.length = 4) :
    Trip (ipv4Bin2str name p false) (ipv4Str2bin key) name (header key 4 false ++ p) := by
  refine ⟨dotted p, ?_, dotted_clean p, ?_, ?_⟩
  · have ht : p.take 4 = p := by rw [← hp]; exact List.take_length
    simp [ipv4Bin2str, inetNtoa, hp, pyAssert, bind, Except.bind, ht]
  · match p, hp with
    | [a, b, c, d], _ => rw [dotted_four]; simp
  · unfold ipv4Str2bin
    simp only [getToken_clean_all (dotted_clean p), bind, Except.bind,
      split1_none '/' _ (fun c hc => (dotted_no p c hc).1), inetAton_dotted p hp]
    simp

theorem trip_ipv4_mask (key : Key) (name : Str) (p m : Bytes) (hp : p.length = 4)
    (hm : m.length = 4) :
    Trip (ipv4Bin2str name (p ++ m) true) (ipv4Str2bin key) name (header key 4 true ++ (p ++ m)) := by
  have hc : Clean (dotted p ++ '/' :: dotted m) :=
    clean_append (dotted_clean p) (clean_cons clean_slash (dotted_clean m))
  refine ⟨dotted p ++ '/' :: dotted m, ?_, hc, by simp, ?_⟩
  · have ht : (p ++ m).take 4 = p := by rw [← hp]; exact List.take_left
    have hd : (p ++ m).drop 4 = m := by rw [← hp]; exact List.drop_left
    unfold ipv4Bin2str
    rw [ht, hd]
    simp [inetNtoa, hp, hm, pyAssert, bind, Except.bind]
  · unfold ipv4Str2bin
    simp only [getToken_clean_all hc, bind, Except.bind,
      split1_some '/' _ _ (fun c hc => (dotted_no p c hc).1), inetAton_dotted p hp, ipv4Mask,
      inetAton_dotted m hm]
    simp

theorem trip_ipv6 (key : Key) (name : Str) (p : Bytes) (hp : p.length = 16) :
    Trip (ipv6Bin2str name p false) (ipv6Str2bin key) name (header key 16 false ++ p) := by
  obtain ⟨s, h1, h2, h3, h4, h5⟩ := inetNtop_spec p hp
  refine ⟨s, ?_, h3, h2, ?_⟩
  · have ht : p.take 16 = p := by rw [← hp]; exact List.take_length
    simp [ipv6Bin2str, ht, h1, hp, pyAssert, bind, Except.bind]
  · unfold ipv6Str2bin
    simp only [getToken_clean_all h3, bind, Except.bind, split1_none '/' _ h4, h5]
    simp

theorem trip_ipv6_mask (key : Key) (name : Str) (p m : Bytes) (hp : p.length = 16)
    (hm : m.length = 16) :
    Trip (ipv6Bin2str name (p ++ m) true) (ipv6Str2bin key) name
      (header key 16 true ++ (p ++ m)) := by
  obtain ⟨s, h1, h2, h3, h4, h5⟩ := inetNtop_spec p hp
  obtain ⟨s', h1', h2', h3', h4', h5'⟩ := inetNtop_spec m hm
  have hc : Clean (s ++ '/' :: s') := clean_append h3 (clean_cons clean_slash h3')
  refine ⟨s ++ '/' :: s', ?_, hc, by simp, ?_⟩
  · have ht : (p ++ m).take 16 = p := by rw [← hp]; exact List.take_left
    have hd : (p ++ m).drop 16 = m := by rw [← hp]; exact List.drop_left
    unfold ipv6Bin2str
    rw [ht, hd]
    simp [h1, h1', hp, hm, pyAssert, bind, Except.bind]
  · unfold ipv6Str2bin
    simp only [getToken_clean_all hc, bind, Except.bind, split1_some '/' _ _ h4, h5, ipv6Mask, h5']
    simp

/-! ## Packet type -/

theorem packAll_two (a b : Nat) (ha : a < 256 ^ 2) (hb : b < 256 ^ 2) :
    packAll [(2, (a : Int)), (2, (b : Int))] = .ok (beBytes 2 a ++ beBytes 2 b) := by
  have h1 := packU_ok 2 a ha
  have h2 := packU_ok 2 b hb
  unfold packAll; rw [h1]
  unfold packAll; rw [h2]
  simp [packAll, bind, Except.bind]

theorem uAt_lt (p : Bytes) (i k : Nat) : uAt p i k < 256 ^ k := by
  unfold uAt
  refine Nat.lt_of_lt_of_le (beVal_lt _) (Nat.pow_le_pow_right (by omega) ?_)
  simp [slice]
  omega

theorem beBytes_uAt (p : Bytes) (i k : Nat) (h : i + k ≤ p.length) :
    beBytes k (uAt p i k) = slice p i (i + k) := by
  unfold uAt
  apply beBytes_beVal'
  simp [slice]
  omega

theorem slice_join {α : Type} (p : List α) (i j k : Nat) (h : i ≤ j) (hk : j ≤ k) :
    slice p i j ++ slice p j k = slice p i k := by
  unfold slice
  rcases Nat.le_total p.length j with hj | hj
  · rw [List.take_of_length_le hj, List.take_of_length_le (Nat.le_trans hj hk),
      List.drop_of_length_le hj, List.append_nil]
  · obtain ⟨a, b, rfl, hl⟩ : ∃ a b, p = a ++ b ∧ a.length = j :=
      ⟨p.take j, p.drop j, (List.take_append_drop j p).symm, by simp; exact hj⟩
    subst hl
    rw [List.take_left, List.take_append, List.take_of_length_le hk, List.drop_left,
      List.drop_append_of_le_length h]

theorem assertColon_ok (a b : Str) (n : Nat) (h : a.length = n) : assertColon (a ++ ':' :: b) n = .ok () := by
  subst h
  simp [assertColon, pyAssert]

theorem beBytes_join4 (p : Bytes) (i : Nat) (h : i + 4 ≤ p.length) :
    beBytes 2 (uAt p i 2) ++ beBytes 2 (uAt p (i + 2) 2) = slice p i (i + 4) := by
  rw [beBytes_uAt p i 2 (by omega), beBytes_uAt p (i + 2) 2 (by omega),
    slice_join p i (i + 2) (i + 4) (by omega) (by omega)]

theorem packAll_uAt (p : Bytes) (hp : p.length = 4) :
    packAll [(2, ((uAt p 0 2 : Nat) : Int)), (2, ((uAt p 2 2 : Nat) : Int))] = .ok p := by
  have h := packAll_two _ _ (uAt_lt p 0 2) (uAt_lt p 2 2)
  rw [beBytes_join4 p 0 (by omega), slice_all p (0 + 4) hp] at h
  exact h

theorem pktStr2bin_two (key : Key) (A B : Str) (a b : Int) (out : Bytes)
    (hA : parseInt (A ++ ':' :: B) = .ok (a, A.length)) (hB : parseInt B = .ok (b, B.length))
    (hp : packAll [(2, a), (2, b)] = .ok out) :
    pktStr2bin key (A ++ ':' :: B) = .ok (header key 4 false ++ out, (A ++ ':' :: B).length) := by
  unfold pktStr2bin
  simp only [hA, bind, Except.bind, assertColon_ok _ _ _ rfl, drop_sep, hB, hp]
  simp
  omega

theorem trip_pkt (key : Key) (p : Bytes) (hp : p.length = 4) :
    Trip (pktBin2str p false) (pktStr2bin key) t!"packet_type" (header key 4 false ++ p) := by
  refine ⟨fmtX 0 (uAt p 0 2) ++ ':' :: fmtX 0 (uAt p 2 2), ?_, ?_, by simp, ?_⟩
  · simp [pktBin2str, hp, pyAssert, bind, Except.bind]
  · exact clean_append (fmtX_clean _ _) (clean_cons clean_colon (fmtX_clean _ _))
  · exact pktStr2bin_two key _ _ _ _ p
      (parseInt_fmtI (.hex 0) (uAt p 0 2) (':' :: fmtX 0 (uAt p 2 2)) (stop_colon _))
      (parseInt_fmtI_all (.hex 0) (uAt p 2 2)) (packAll_uAt p hp)

/-! ## Hexadecimal bytes -/

theorem trip_hex (key : Key) (name : Str) (p : Bytes) (hp : p ≠ []) :
    Trip (hexBin2str name p false) (hexStr2bin key) name (header key p.length false ++ p) := by
  refine ⟨b2aHex p, by simp [hexBin2str], b2aHex_clean p, ?_, ?_⟩
  · intro h
    have := b2aHex_length p
    rw [h] at this
    simp at this
    exact hp this
  · unfold hexStr2bin
    simp only [getToken_clean_all (b2aHex_clean p), bind, Except.bind,
      split1_none '/' _ (fun c hc => (isHex_ne (b2aHex_isHex p c hc)).1), a2bHex_b2aHex]
    simp

theorem padMask_same (p m : Bytes) (h : m.length = p.length) : padMask p m = (p ++ m, p.length) := by
  simp [padMask, h, zeros]

theorem trip_hex_mask (key : Key) (name : Str) (p m : Bytes) (h : m.length = p.length) :
    Trip (hexBin2str name (p ++ m) true) (hexStr2bin key) name
      (header key p.length true ++ (p ++ m)) := by
  have hc : Clean (b2aHex p ++ '/' :: b2aHex m) :=
    clean_append (b2aHex_clean p) (clean_cons clean_slash (b2aHex_clean m))
  have hs : (p ++ m).length / 2 = p.length := by simp [h]; omega
  refine ⟨b2aHex p ++ '/' :: b2aHex m, ?_, hc, by simp, ?_⟩
  · simp only [hexBin2str, hs, if_true, List.take_left, List.drop_left]
  · unfold hexStr2bin
    simp only [getToken_clean_all hc, bind, Except.bind,
      split1_some '/' _ _ (fun c hc => (isHex_ne (b2aHex_isHex p c hc)).1), a2bHex_b2aHex,
      padMask_same p m h]
    simp

/-! ## Rate -/

theorem parseFloat_tenths (a : Nat) (d u : Char) (hd : isDec d = true) (hu : isDec u = false) :
    parseFloat (fmtD a ++ ['.', d, u]) =
      .ok ((a * 10 + (digitVal d).getD 0, 10), (fmtD a).length + 2) := by
  have hdot : isDec '.' = false := by decide
  have hneg : startsWith (fmtD a ++ ['.', d, u]) t!"-" = false := by
    cases hf : fmtD a with
    | nil => exact absurd hf (fmtD_ne_nil a)
    | cons c t =>
      have : isDec c = true := fmtD_isDec a c (by simp [hf])
      rw [List.cons_append]
      apply startsWith_false
      intro he; subst he; revert this; decide
  have hl : longest isDec (fmtD a ++ ['.', d, u]) = (fmtD a).length :=
    longest_append isDec _ _ (fmtD_isDec a) (by intro c t h; cases h; exact hdot)
  have hl2 : longest isDec [d, u] = 1 := by
    simp [longest, List.takeWhile, hd, hu]
  have hdr : (fmtD a ++ ['.', d, u]).drop ((fmtD a).length + 1) = [d, u] := drop_sep _ _ _
  have hsl : slice (fmtD a ++ ['.', d, u]) ((fmtD a).length + 1) ((fmtD a).length + 1 + 1) = [d] := by
    have : fmtD a ++ ['.', d, u] = (fmtD a ++ ['.']) ++ ([d] ++ [u]) := by simp
    rw [this, slice_right _ _ _ _ (by simp)]
    simp [slice]
  unfold parseFloat
  simp only [hneg]
  rw [if_neg (by simp)]
  simp only [hl, List.take_left, intOfDigits_fmtD, bind, Except.bind, List.drop_left, hdr, hl2, hsl]
  simp [startsWith, intOfDigits, ofDigits]

theorem rateStr2bin_K (key : Key) (n : Nat) (hn : n < 256) :
    rateStr2bin key (fmtD (n * 500) ++ ['.', '0', 'K']) =
      .ok (header key 1 false ++ beBytes 1 n, (fmtD (n * 500) ++ ['.', '0', 'K']).length) := by
  have hd : (fmtD (n * 500) ++ ['.', '0', 'K']).drop ((fmtD (n * 500)).length + 2) = ['K'] := by
    rw [show fmtD (n * 500) ++ ['.', '0', 'K'] = (fmtD (n * 500) ++ ['.', '0']) ++ ['K'] by simp,
      show (fmtD (n * 500)).length + 2 = (fmtD (n * 500) ++ ['.', '0']).length by simp]
    exact List.drop_left
  have h0 : (digitVal '0').getD 0 = 0 := by decide
  unfold rateStr2bin
  simp only [parseFloat_tenths _ '0' 'K' (by decide) (by decide), bind, Except.bind, hd, h0]
  have : (n * 500 * 10 + 0) / (10 * 500) = n := by omega
  simp only [this, beq_self_eq_true, if_true, packU_ok 1 n (by omega)]
  simp

theorem rateStr2bin_M (key : Key) (n : Nat) (hn : n < 256) (d : Char)
    (hd : d = if n % 2 == 1 then '5' else '0') :
    rateStr2bin key (fmtD (n / 2) ++ ['.', d, 'M']) =
      .ok (header key 1 false ++ beBytes 1 n, (fmtD (n / 2) ++ ['.', d, 'M']).length) := by
  have hdr : (fmtD (n / 2) ++ ['.', d, 'M']).drop ((fmtD (n / 2)).length + 2) = ['M'] := by
    rw [show fmtD (n / 2) ++ ['.', d, 'M'] = (fmtD (n / 2) ++ ['.', d]) ++ ['M'] by simp,
      show (fmtD (n / 2)).length + 2 = (fmtD (n / 2) ++ ['.', d]).length by simp]
    exact List.drop_left
  have hdec : isDec d = true := by rw [hd]; split <;> decide
  have hv : (digitVal d).getD 0 = 5 * (n % 2) := by
    rw [hd]
    split
    · rename_i h; simp at h; rw [h]; decide
    · rename_i h; simp at h; rw [h]; decide
  have hK : ('M' == 'K') = false := by decide
  unfold rateStr2bin
  simp only [parseFloat_tenths _ d 'M' hdec (by decide), bind, Except.bind, hdr, hv, hK]
  have : (n / 2 * 10 + 5 * (n % 2)) * 2 / 10 = n := by omega
  simp only [this, beq_self_eq_true, if_true, packU_ok 1 n (by omega)]
  simp

theorem beBytes_one (x : UInt8) : beBytes 1 x.toNat = [x] := by simp [beBytes]

theorem trip_rate (key : Key) (p : Bytes) (hp : p.length = 1) :
    Trip (rateBin2str p false) (rateStr2bin key) t!"radiotap_rate" (header key 1 false ++ p) := by
  match p, hp with
  | [x], _ =>
    have hx := x.toNat_lt
    by_cases h2 : x.toNat < 2
    · refine ⟨fmtD (x.toNat * 500) ++ ['.', '0', 'K'], ?_, ?_, by simp, ?_⟩
      · simp [rateBin2str, pyAssert, bind, Except.bind, h2]
      · exact clean_append (fmtD_clean _) (by decide)
      · rw [rateStr2bin_K key _ hx, beBytes_one]
    · refine ⟨fmtD (x.toNat / 2) ++ ['.', if x.toNat % 2 == 1 then '5' else '0', 'M'], ?_, ?_, by simp, ?_⟩
      · simp only [rateBin2str, pyAssert, bind, Except.bind, h2]
        by_cases h1 : x.toNat % 2 = 1 <;> simp [h1]
      · apply clean_append (fmtD_clean _)
        split <;> decide
      · rw [rateStr2bin_M key _ hx _ rfl, beBytes_one]

/-! ## Channel -/

theorem chStr2bin_two (key : Key) (A B : Str) (a b : Int) (out : Bytes)
    (hA : parseInt (A ++ ':' :: B) = .ok (a, A.length)) (hB : parseInt B = .ok (b, B.length))
    (hp : packAll [(2, a), (2, b)] = .ok out) :
    chStr2bin key (A ++ ':' :: B) = .ok (header key 4 false ++ out, (A ++ ':' :: B).length) := by
  have hl : (A ++ ':' :: B).length = A.length + 1 + B.length := by simp; omega
  unfold chStr2bin
  simp only [hA, bind, Except.bind, assertColon_ok _ _ _ rfl, drop_sep, hB, hp, ← hl,
    List.drop_length, startsWith_nil_slash]
  simp

/-- With a mask: `C` is the text of the first mask word, or empty for zero. -/
theorem chStr2bin_four (key : Key) (A B C D : Str) (a b c d : Int) (out mout : Bytes)
    (hA : parseInt (A ++ ':' :: (B ++ '/' :: (C ++ ':' :: D))) = .ok (a, A.length))
    (hB : parseInt (B ++ '/' :: (C ++ ':' :: D)) = .ok (b, B.length))
    (hC : (C = [] ∧ c = 0) ∨ (startsWith (C ++ ':' :: D) t!":" = false ∧
      parseInt (C ++ ':' :: D) = .ok (c, C.length)))
    (hD : parseInt D = .ok (d, D.length))
    (hp : packAll [(2, a), (2, b)] = .ok out) (hm : packAll [(2, c), (2, d)] = .ok mout) :
    chStr2bin key (A ++ ':' :: (B ++ '/' :: (C ++ ':' :: D))) =
      .ok (header key 4 true ++ (out ++ mout), (A ++ ':' :: (B ++ '/' :: (C ++ ':' :: D))).length) := by
  generalize hU : A ++ ':' :: (B ++ '/' :: (C ++ ':' :: D)) = U at *
  have hac : assertColon U A.length = .ok () := by rw [← hU]; exact assertColon_ok _ _ _ rfl
  have d1 : U.drop (A.length + 1) = B ++ '/' :: (C ++ ':' :: D) := by rw [← hU]; exact drop_sep _ _ _
  have hU2 : U = (A ++ ':' :: B) ++ '/' :: (C ++ ':' :: D) := by rw [← hU]; simp
  have hU3 : U = (A ++ ':' :: (B ++ '/' :: C)) ++ ':' :: D := by rw [← hU]; simp
  have l2 : A.length + 1 + B.length = (A ++ ':' :: B).length := by simp; omega
  have l3 : A.length + 1 + B.length + 1 + C.length = (A ++ ':' :: (B ++ '/' :: C)).length := by
    simp; omega
  have d2 : U.drop (A.length + 1 + B.length) = '/' :: (C ++ ':' :: D) := by
    rw [hU2, l2]; exact List.drop_left
  have d3 : U.drop (A.length + 1 + B.length + 1) = C ++ ':' :: D := by
    rw [hU2, l2]; exact drop_sep _ _ _
  have d4 : U.drop (A.length + 1 + B.length + 1 + C.length) = ':' :: D := by
    rw [hU3, l3]; exact List.drop_left
  have d5 : U.drop (A.length + 1 + B.length + 1 + C.length + 1) = D := by
    rw [hU3, l3]; exact drop_sep _ _ _
  have hl : U.length = A.length + 1 + B.length + (1 + C.length + 1 + D.length) := by
    rw [← hU]; simp; omega
  have hcol : ∀ t, startsWith (':' :: t) t!":" = true := by intro t; simp [startsWith]
  unfold chStr2bin
  simp only [hA, bind, Except.bind, hac, d1, hB, hp, d2, startsWith_slash, if_true, d3]
  rcases hC with ⟨rfl, rfl⟩ | ⟨hs, hc⟩
  · simp only [List.nil_append, hcol, if_true]
    simp only [List.length_nil] at d4 d5 hl
    simp only [d4, d5, hcol, if_true, hD, hm, hl]
  · simp only [hs, hc, d4, d5, hcol, if_true, hD, hm, hl]
    simp

theorem trip_ch (key : Key) (p : Bytes) (hp : p.length = 4) :
    Trip (chBin2str p false) (chStr2bin key) t!"radiotap_channel" (header key 4 false ++ p) := by
  refine ⟨fmtD (uAt p 0 2) ++ ':' :: fmtX 6 (uAt p 2 2), ?_, ?_, by simp, ?_⟩
  · simp [chBin2str, hp, pyAssert, bind, Except.bind]
  · exact clean_append (fmtD_clean _) (clean_cons clean_colon (fmtX_clean _ _))
  · exact chStr2bin_two key _ _ _ _ p
      (parseInt_fmtI .dec (uAt p 0 2) (':' :: fmtX 6 (uAt p 2 2)) (stop_colon _))
      (parseInt_fmtI_all (.hex 6) (uAt p 2 2)) (packAll_uAt p hp)

/-- The first mask word of a channel: nothing when it is zero. -/
def chMaskText (m1 : Nat) : Str := if m1 = 0 then [] else fmtX 6 m1

theorem trip_ch_mask (key : Key) (p m : Bytes) (hp : p.length = 4) (hm : m.length = 4) :
    Trip (chBin2str (p ++ m) true) (chStr2bin key) t!"radiotap_channel"
      (header key 4 true ++ (p ++ m)) := by
  have e0 : uAt (p ++ m) (2 * 0) 2 = uAt p 0 2 := uAt_left p m 0 2 (by omega)
  have e1 : uAt (p ++ m) (2 * 1) 2 = uAt p 2 2 := uAt_left p m 2 2 (by omega)
  have e2 : uAt (p ++ m) (2 * 2) 2 = uAt m 0 2 := by
    rw [uAt_right p m _ 2 (by omega), hp]
  have e3 : uAt (p ++ m) (2 * 3) 2 = uAt m 2 2 := by
    rw [uAt_right p m _ 2 (by omega), hp]
  refine ⟨fmtD (uAt p 0 2) ++ ':' :: (fmtX 6 (uAt p 2 2) ++ '/' ::
    (chMaskText (uAt m 0 2) ++ ':' :: fmtX 6 (uAt m 2 2))), ?_, ?_, by simp, ?_⟩
  · simp only [chBin2str, e0, e1, e2, e3, pyAssert, bind, Except.bind, if_true]
    rw [if_pos (by simp [hp, hm])]
    by_cases h : uAt m 0 2 = 0 <;> simp [h, chMaskText]
  · refine clean_append (fmtD_clean _) (clean_cons clean_colon (clean_append (fmtX_clean _ _)
      (clean_cons clean_slash (clean_append ?_ (clean_cons clean_colon (fmtX_clean _ _))))))
    unfold chMaskText
    split
    · exact clean_nil
    · exact fmtX_clean _ _
  · refine chStr2bin_four key _ _ _ _ _ _ ((uAt m 0 2 : Nat) : Int) _ p m
      (parseInt_fmtI .dec (uAt p 0 2) _ (stop_colon _))
      (parseInt_fmtI (.hex 6) (uAt p 2 2) _ (stop_slash _)) ?_
      (parseInt_fmtI_all (.hex 6) (uAt m 2 2)) (packAll_uAt p hp) (packAll_uAt m hm)
    unfold chMaskText
    split
    · rename_i h
      exact Or.inl ⟨rfl, by simp [h]⟩
    · exact Or.inr ⟨startsWith_false _ _ (by decide),
        parseInt_fmtI (.hex 6) (uAt m 0 2) _ (stop_colon _)⟩

end Ofpstr
