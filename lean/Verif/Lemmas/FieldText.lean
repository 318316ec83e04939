import Verif.Lemmas.Match

/-!
# Texts of the single kinds of fields
-/

namespace Ofpstr
open Spec

theorem enc_kind (f : Field) (hf : f ∈ fields) (hk : ∀ n, f.kind ≠ .uint n) :
    lookupEnc f.name = some (fieldKey f, kindEnc f.kind) := by
  obtain ⟨k, hl, hk'⟩ := lookupEnc_of_field f hf
  have hne : f.name ≠ t!"nxm_ct_label" := by
    intro h
    have : ∀ f ∈ fields, f.name = t!"nxm_ct_label" → f.kind = .uint 16 := by decide +kernel
    exact hk 16 (this f hf h)
  rw [hl, hk' hne]

theorem oxm2str_one (t : Tlv) (hv : t.Valid) (d : Dec) (s : Str)
    (hd : lookupDec (fieldKey t.field) = some d) (h : decText d t.body t.mask.isSome = .ok s) :
    oxm2str t.wire = .ok s := by
  have := oxm2str_tlvs [t] (fun _ => s) (by simpa using hv) (by
    intro t' ht'
    simp only [List.mem_singleton] at ht'
    subst ht'
    exact ⟨d, hd, h⟩)
  simpa [wireAll, joinStr] using this

theorem dec_ipv4 : ∀ f ∈ fields, f.kind = .ipv4 → f.maskable = true ∧
    lookupDec (fieldKey f) = some (.ipv4 f.name) := by decide +kernel
theorem dec_ipv6 : ∀ f ∈ fields, f.kind = .ipv6 → f.maskable = true ∧
    lookupDec (fieldKey f) = some (.ipv6 f.name) := by decide +kernel
theorem dec_mac : ∀ f ∈ fields, f.kind = .mac → f.maskable = true ∧
    lookupDec (fieldKey f) = some (.mac f.name) := by decide +kernel
def kind_isPort : Kind → Bool
  | .port _ => true
  | _ => false

theorem dec_port (f : Field) (hf : f ∈ fields) (n : Nat) (h : f.kind = .port n) :
    (n = 2 ∨ n = 4) ∧ lookupDec (fieldKey f) = some (.port f.name n) := by
  have hn : ∀ f ∈ fields, ∀ n, f.kind = .port n → n = 2 ∨ n = 4 := by
    have k : ∀ f ∈ fields, kindEnc f.kind = .port 2 ∨ kindEnc f.kind = .port 4 ∨
        (∀ n < 5, f.kind ≠ .port n) ∧ (kind_isPort f.kind = false) := by decide +kernel
    intro f hf n hn
    rcases k f hf with h | h | h
    · rw [hn] at h; simp [kindEnc] at h; omega
    · rw [hn] at h; simp [kindEnc] at h; omega
    · rw [hn] at h; simp [kind_isPort] at h
  have h2 : ∀ f ∈ fields, f.kind = .port 2 → lookupDec (fieldKey f) = some (.port f.name 2) := by
    decide +kernel
  have h4 : ∀ f ∈ fields, f.kind = .port 4 → lookupDec (fieldKey f) = some (.port f.name 4) := by
    decide +kernel
  refine ⟨hn f hf n h, ?_⟩
  rcases hn f hf n h with rfl | rfl
  · exact h2 f hf h
  · exact h4 f hf h
theorem dec_hex : ∀ f ∈ fields, f.kind = .bytes → f.maskable = true ∧
    lookupDec (fieldKey f) = some (.hex f.name) := by decide +kernel
theorem dec_s8 : ∀ f ∈ fields, f.kind = .signed →
    lookupDec (fieldKey f) = some (.s8 f.name) := by decide +kernel

theorem quad_dotted {s : Str} {p : Bytes} (h : DottedQuad s p) : s = dotted p ∧ p.length = 4 := by
  cases h with
  | mk sa sb sc sd a b c d h1 h2 h3 h4 =>
    rw [dotted_four, decimal_eq h1, decimal_eq h2, decimal_eq h3, decimal_eq h4]
    exact ⟨rfl, rfl⟩

theorem quad_exists (p : Bytes) (h : p.length = 4) : DottedQuad (dotted p) p := by
  match p, h with
  | [a, b, c, d], _ =>
    rw [dotted_four]
    exact DottedQuad.mk _ _ _ _ a b c d (decimal_fmtD _) (decimal_fmtD _) (decimal_fmtD _) (decimal_fmtD _)

theorem hexText_a2b {s : Str} {b : Bytes} (h : HexText s b) :
    a2bHex s = .ok b ∧ (∀ c ∈ s, isHex c = true) ∧ s.length = 2 * b.length := by
  induction h with
  | nil => exact ⟨rfl, by simp, rfl⟩
  | cons x y i j s b hx hy _ ih =>
    obtain ⟨h1, h2, h3⟩ := ih
    have hx' := (digitVal_iff x i).2 hx
    have hy' := (digitVal_iff y j).2 hy
    refine ⟨by simp [a2bHex, hx', hy', h1, bind, Except.bind], ?_, by simp [h3]; omega⟩
    intro c hc
    simp only [List.mem_cons] at hc
    rcases hc with rfl | rfl | hc
    · simp [isHex, hx']
    · simp [isHex, hy']
    · exact h2 c hc

theorem a2b_hexText (s : Str) (b : Bytes) (h : a2bHex s = .ok b) : HexText s b := by
  induction s using a2bHex.induct generalizing b with
  | case1 => cases h; exact HexText.nil
  | case2 x => cases h
  | case3 x y rest i j hx hy ih =>
    rw [a2bHex] at h
    simp only [hx, hy] at h
    obtain ⟨r, hr, h⟩ := bind_ok h
    cases h
    exact HexText.cons x y i j rest r ((digitVal_iff _ _).1 hy) ((digitVal_iff _ _).1 hx) (ih r hr)
  | case4 x y rest hno =>
    rw [a2bHex] at h
    split at h
    · rename_i i j hx hy
      exact absurd hy (hno i j hx)
    · cases h

theorem hexText_append {s t : Str} {a b : Bytes} (h : HexText s a) (h' : HexText t b) :
    HexText (s ++ t) (a ++ b) := by
  induction h with
  | nil => exact h'
  | cons x y i j s b hx hy _ ih => exact HexText.cons x y i j _ _ hx hy ih

theorem hexRun_exact (g r : Str) (n : Nat) (hn : g.length = n) (h : ∀ c ∈ g, isHex c = true) :
    hexRun n (g ++ r) = some (g, r) := by
  unfold hexRun
  subst hn
  rw [List.take_left, List.drop_left, if_pos]
  simpa using h

/-- Every notation is scanned, whatever follows. -/
theorem macScan_text {s : Str} {b : Bytes} (h : MacText s b) (r : Str) :
    ∃ g, macScan (s ++ r) = .ok (g, s.length) ∧ HexText g b := by
  cases h with
  | bare _ _ hg hb =>
    obtain ⟨h1, h2, h3⟩ := hexText_a2b hg
    refine ⟨s, ?_, hg⟩
    unfold macScan
    rw [hexGroups, hexRun_exact s r 12 (by omega) h2]
    simp; omega
  | dots g1 g2 g3 _ hg hb hl1 hl2 =>
    obtain ⟨h1, h2, h3⟩ := hexText_a2b hg
    have hl3 : g3.length = 4 := by simp at h3; omega
    have hx1 : ∀ c ∈ g1, isHex c = true := fun c hc => h2 c (by simp [hc])
    have hx2 : ∀ c ∈ g2, isHex c = true := fun c hc => h2 c (by simp [hc])
    have hx3 : ∀ c ∈ g3, isHex c = true := fun c hc => h2 c (by simp [hc])
    refine ⟨g1 ++ (g2 ++ g3), ?_, hg⟩
    have e : (g1 ++ '.' :: (g2 ++ '.' :: g3)) ++ r = g1 ++ '.' :: (g2 ++ '.' :: (g3 ++ r)) := by simp
    unfold macScan
    rw [e, hexGroups_bad 12 _ 0 g1 _ '.' (by omega) (by decide)]
    dsimp only
    rw [hexGroups, hexRun_exact g1 _ 4 hl1 hx1]
    dsimp only
    rw [hexGroups, hexRun_exact g2 _ 4 hl2 hx2]
    dsimp only
    rw [hexGroups, hexRun_exact g3 _ 4 hl3 hx3]
    simp [hl1, hl2, hl3]
  | pairs c x1 y1 x2 y2 x3 y3 x4 y4 x5 y5 x6 y6 _ hc hg =>
    obtain ⟨h1, h2, h3⟩ := hexText_a2b hg
    refine ⟨_, ?_, hg⟩
    have := macForm_scan c (x1, y1) (x2, y2) (x3, y3) (x4, y4) (x5, y5) (x6, y6) (by
      intro p hp
      simp only [List.mem_cons, List.not_mem_nil, or_false] at hp
      rcases hp with rfl | rfl | rfl | rfl | rfl | rfl <;> exact ⟨h2 _ (by simp), h2 _ (by simp)⟩) hc r
    simpa [macForm, joinStr] using this

theorem macText_plain {s : Str} {b : Bytes} (h : MacText s b) : Clean s ∧ s ≠ [] ∧ b.length = 6 := by
  cases h with
  | bare _ _ hg hb =>
    obtain ⟨h1, h2, h3⟩ := hexText_a2b hg
    refine ⟨fun c hc => isHex_clean (h2 c hc), ?_, hb⟩
    rintro rfl
    rw [hb] at h3
    cases h3
  | dots g1 g2 g3 _ hg hb hl1 hl2 =>
    obtain ⟨h1, h2, h3⟩ := hexText_a2b hg
    refine ⟨?_, by simp, hb⟩
    intro c hc
    simp only [List.mem_append, List.mem_cons] at hc
    rcases hc with hc | rfl | hc | rfl | hc
    · exact isHex_clean (h2 c (by simp [hc]))
    · decide
    · exact isHex_clean (h2 c (by simp [hc]))
    · decide
    · exact isHex_clean (h2 c (by simp [hc]))
  | pairs c x1 y1 x2 y2 x3 y3 x4 y4 x5 y5 x6 y6 _ hc hg =>
    obtain ⟨h1, h2, h3⟩ := hexText_a2b hg
    refine ⟨?_, by simp, by simp at h3; omega⟩
    have hcc : CleanChar c := by rcases hc with rfl | rfl <;> decide
    intro d hd
    simp only [List.mem_cons, List.not_mem_nil, or_false] at hd
    have key : d = c ∨ d ∈ [x1, y1, x2, y2, x3, y3, x4, y4, x5, y5, x6, y6] := by
      simp only [List.mem_cons, List.not_mem_nil, or_false]
      tauto
    rcases key with rfl | hd
    · exact hcc
    · exact isHex_clean (h2 d hd)

theorem macStr2bin_plain (key : Key) {s : Str} {b : Bytes} (h : MacText s b) :
    macStr2bin key s = .ok (header key 6 false ++ b, s.length) := by
  obtain ⟨g, hs, hg⟩ := macScan_text h []
  rw [List.append_nil] at hs
  unfold macStr2bin
  simp [hs, bind, Except.bind, startsWith_nil_slash, (hexText_a2b hg).1]

theorem macStr2bin_mask (key : Key) {s t : Str} {b m : Bytes} (h : MacText s b) (h' : MacText t m) :
    macStr2bin key (s ++ '/' :: t) = .ok (header key 6 true ++ (b ++ m), (s ++ '/' :: t).length) := by
  obtain ⟨g, hs, hg⟩ := macScan_text h ('/' :: t)
  obtain ⟨g', hs', hg'⟩ := macScan_text h' []
  rw [List.append_nil] at hs'
  unfold macStr2bin
  simp only [hs, bind, Except.bind, List.drop_left, startsWith_slash, if_true, drop_sep, hs',
    (hexText_a2b (hexText_append hg hg')).1]
  congr 2
  simp; omega

/-- The printed form is the colon notation. -/
theorem macText_colon (b : Bytes) (h : b.length = 6) : MacText (macText b) b ∧ macText b ≠ [] := by
  match b, h with
  | [a, b, c, d, e, f], _ =>
    have hg : HexText (b2aHex [a, b, c, d, e, f]) [a, b, c, d, e, f] := a2b_hexText _ _ (a2bHex_b2aHex _)
    constructor
    · have := MacText.pairs ':' _ _ _ _ _ _ _ _ _ _ _ _ _ (Or.inl rfl) hg
      simpa [macText, joinStr, hex2] using this
    · simp [macText, joinStr, hex2]

/-! ## ports -/

theorem portNames_table (n : Nat) (hn : n = 2 ∨ n = 4) (e : Nat × Str)
    (he : e ∈ reservedPorts ∨ e ∈ reservedPortsUpper) :
    portNames n e.2 = (e.2.length, beBytes n (e.1 % 256 ^ n)) := by
  have k2 : ∀ e ∈ reservedPorts ++ reservedPortsUpper, portNames 2 e.2 =
    (e.2.length, beBytes 2 (e.1 % 256 ^ 2)) := by decide +kernel
  have k4 : ∀ e ∈ reservedPorts ++ reservedPortsUpper, portNames 4 e.2 =
    (e.2.length, beBytes 4 (e.1 % 256 ^ 4)) := by decide +kernel
  have he' : e ∈ reservedPorts ++ reservedPortsUpper := by simpa using he
  rcases hn with rfl | rfl
  · exact k2 e he'
  · exact k4 e he'

theorem reserved_clean (e : Nat × Str) (he : e ∈ reservedPorts ∨ e ∈ reservedPortsUpper) :
    Clean e.2 ∧ e.2 ≠ [] := by
  have : ∀ e ∈ reservedPorts ++ reservedPortsUpper, Clean e.2 ∧ e.2 ≠ [] := by decide +kernel
  exact this e (by simpa using he)

theorem portStr2bin_reserved (key : Key) (n : Nat) (hn : n = 2 ∨ n = 4) (e : Nat × Str)
    (he : e ∈ reservedPorts ∨ e ∈ reservedPortsUpper) :
    portStr2bin key n e.2 = .ok (header key n false ++ be n e.1, e.2.length) := by
  unfold portStr2bin
  rw [portNames_table n hn e he, beBytes_mod]
  have : (beBytes n e.1).isEmpty = false := by
    rw [List.isEmpty_eq_false_iff]
    intro h
    have := congrArg List.length h
    simp at this
    omega
  simp [this, spec_be]

theorem intSyntax_start {s : Str} {v : Int} {l : Nat} (h : IntSyntax s v l) :
    ∃ c t, s = c :: t ∧ (c = '-' ∨ isDec c = true) := by
  have hn : ∀ b ds n, b ≤ 10 → Numeral b ds n → ∃ c t, ds = c :: t ∧ isDec c = true := by
    intro b ds n hb h
    obtain ⟨h1, h2, _⟩ := (numeral_iff b (by omega) _ _).1 h
    cases ds with
    | nil => exact absurd rfl h1
    | cons c t =>
      obtain ⟨d, hd⟩ := h2 c (by simp)
      exact ⟨c, t, rfl, (isDec_iff c).2 ⟨d, hd.mono (by have := hd.lt; omega)⟩⟩
  cases h with
  | neg ds r n h1 _ => exact ⟨'-', _, rfl, Or.inl rfl⟩
  | hex x ds r n h0 h1 _ => exact ⟨'0', _, rfl, Or.inr (by decide)⟩
  | oct ds r n h1 _ _ => exact ⟨'0', _, rfl, Or.inr (by decide)⟩
  | dec ds r n h1 _ _ _ =>
    obtain ⟨c, t, rfl, hc⟩ := hn 10 ds n (by omega) h1
    exact ⟨c, _, rfl, Or.inr hc⟩

theorem portNames_int {s : Str} {v : Int} {l : Nat} (h : IntSyntax s v l) (n : Nat) :
    portNames n s = (0, []) := by
  obtain ⟨c, t, rfl, hc⟩ := intSyntax_start h
  apply portNames_other
  intro d hd he
  subst he
  rcases hc with rfl | hc
  · revert hd; decide
  · have : ∀ d ∈ t!"mitnfaclMITNFACL", isDec d = false := by decide
    rw [this d hd] at hc; cases hc

theorem portStr2bin_num (key : Key) (n : Nat) (s : Str) (v : Int) (h : IntSyntax s v s.length) :
    portStr2bin key n s = if 0 ≤ v ∧ v < (256 ^ n : Nat) then
      .ok (header key n false ++ be n v.toNat, s.length) else .error .structError := by
  unfold portStr2bin
  rw [portNames_int h]
  simp only [List.isEmpty_nil, if_true, (parseInt_iff _ _ _).2 h, bind, Except.bind]
  by_cases hv : 0 ≤ v ∧ v < (256 ^ n : Nat)
  · rw [if_pos hv]
    obtain ⟨k, rfl⟩ := Int.eq_ofNat_of_zero_le hv.1
    have hk : k < 256 ^ n := by have := hv.2; omega
    rw [packU_ok n k hk]
    simp [spec_be]
  · rw [if_neg hv]
    cases hp : packU n v with
    | ok b =>
      obtain ⟨k, rfl, hk, _⟩ := (packU_iff _ _ _).1 hp
      exact absurd ⟨by omega, by omega⟩ hv
    | error e =>
      unfold packU at hp
      split at hp
      · cases hp
      · cases hp; rfl

theorem portName_cases (n num : Nat) :
    (∃ e ∈ reservedPorts, e.1 % 256 ^ n = num ∧ portName n num = e.2) ∨
    ((∀ e ∈ reservedPorts, e.1 % 256 ^ n ≠ num) ∧ portName n num = fmtD num) := by
  have hof : ofpp = reservedPorts := by decide
  unfold portName
  rw [hof]
  cases h : reservedPorts.find? (fun e => e.1 % 256 ^ n == num) with
  | some e =>
    left
    exact ⟨e, List.mem_of_find?_eq_some h, by simpa using List.find?_some h, rfl⟩
  | none =>
    right
    refine ⟨fun e he => ?_, rfl⟩
    have := List.find?_eq_none.1 h e he
    simpa using this

end Ofpstr
