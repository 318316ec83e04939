import Verif.Lemmas.Ipv6Text
import Verif.Props.Oxm

/-!
# Properties C18-C24: the kinds of match fields (`ofpstr/oxm.py`)
-/

namespace Ofpstr
open Spec

/-! ## C18 -/

/-- C18: the dotted text of an address (and mask) is encoded as these bytes, and the bytes are
printed as that text. -/
theorem C18_ipv4 (f : Field) (hf : f ∈ fields) (hk : f.kind = .ipv4) (s : Str) (p : Bytes)
    (hs : DottedQuad s p) :
    str2oxm (f.name ++ '=' :: s) = .ok (f.header false 4 ++ p, (f.name ++ '=' :: s).length) ∧
    oxm2str (f.header false 4 ++ p) = .ok (f.name ++ '=' :: s) ∧
    ∀ t m, DottedQuad t m →
      str2oxm (f.name ++ '=' :: (s ++ '/' :: t)) =
        .ok (f.header true 8 ++ (p ++ m), (f.name ++ '=' :: (s ++ '/' :: t)).length) ∧
      oxm2str (f.header true 8 ++ (p ++ m)) = .ok (f.name ++ '=' :: (s ++ '/' :: t)) := by
  obtain ⟨rfl, hp⟩ := quad_dotted hs
  obtain ⟨hmk, hd⟩ := dec_ipv4 f hf hk
  have hl := enc_kind f hf (by simp [hk])
  rw [hk] at hl
  have hlim := kind_sizes f hf 4 (by rw [hk]; rfl)
  have hne : dotted p ≠ [] := by
    match p, hp with
    | [a, b, c, d], _ => rw [dotted_four]; simp
  have hno : ∀ c ∈ dotted p, c ≠ '/' := fun c hc => (dotted_no p c hc).1
  refine ⟨?_, ?_, ?_⟩
  · apply str2oxm_single f hf _ _ _ hl (dotted_clean p) hne
    rw [← header_plain f hf 4 hlim]
    simp [kindEnc, encText, ipv4Str2bin, getToken_clean_all (dotted_clean p), split1_none '/' _ hno,
      inetAton_dotted p hp, bind, Except.bind]
  · have ht : p.take 4 = p := by rw [← hp]; exact List.take_length
    have := oxm2str_one ⟨f, p, none⟩ ⟨hf, by simp [hk, Kind.size, hp], by simp, by
      simp [Tlv.body, hp]; omega⟩ _ _ hd (by
      simp only [Tlv.body, Option.getD_none, List.append_nil, Option.isSome_none, decText, ipv4Bin2str, ht]
      simp [inetNtoa, hp, pyAssert, bind, Except.bind]
      rfl)
    simpa [Tlv.wire, Tlv.body, hp] using this
  · intro t m ht
    obtain ⟨rfl, hm⟩ := quad_dotted ht
    have hc : Clean (dotted p ++ '/' :: dotted m) :=
      clean_append (dotted_clean p) (clean_cons clean_slash (dotted_clean m))
    constructor
    · apply str2oxm_single f hf _ _ _ hl hc (by simp)
      rw [← header_masked f hf 4 hlim]
      simp [kindEnc, encText, ipv4Str2bin, getToken_clean_all hc, split1_some '/' _ _ hno,
        inetAton_dotted p hp, inetAton_dotted m hm, ipv4Mask, bind, Except.bind]
    · have ht : (p ++ m).take 4 = p := by rw [← hp]; exact List.take_left
      have hdr : (p ++ m).drop 4 = m := by rw [← hp]; exact List.drop_left
      have := oxm2str_one ⟨f, p, some m⟩ ⟨hf, by simp [hk, Kind.size, hp], by simp [hmk, hp, hm], by
        simp [Tlv.body, hp, hm]; omega⟩ _ _ hd (by
        simp only [Tlv.body, Option.getD_some, Option.isSome_some, decText, ipv4Bin2str, ht, hdr]
        simp [inetNtoa, hp, hm, pyAssert, bind, Except.bind]
        rfl)
      simpa [Tlv.wire, Tlv.body, hp, hm] using this

/-- C18: every address has a dotted text. -/
theorem C18_every_address (p : Bytes) (hp : p.length = 4) : ∃ s, DottedQuad s p :=
  ⟨_, quad_exists p hp⟩

example : DottedQuad t!"10.0.200.3" [10, 0, 200, 3] := quad_exists [10, 0, 200, 3] rfl
example : str2oxm t!"arp_spa=10.0.200.3/255.0.255.1" =
    .ok ([128, 0, 45, 8, 10, 0, 200, 3, 255, 0, 255, 1], 30) := by decide +kernel

/-! ## C19 -/

/-- C19: every IPv6 match, with and without mask, is printed as a text that parses back to the
same bytes. -/
theorem C19_ipv6_roundtrip (t : Tlv) (hv : t.Valid) (hk : t.field.kind = .ipv6) :
    ∃ text, oxm2str t.wire = .ok text ∧ str2oxm text = .ok (t.wire, text.length) := by
  have hn : ∀ f ∈ fields, f.kind = .ipv6 → f.name ∉ lossyNames := by decide +kernel
  have := C12_oxm_roundtrip_partial [t] (by simpa using hv) (by
    intro t' ht'
    simp only [List.mem_singleton] at ht'
    subst ht'
    exact ⟨hn _ hv.mem hk, by simp [hk], by simp [hk], by simp [hk], by simp [hk], by simp [hk]⟩)
  simpa [wireAll] using this

/-- C19: the meaning of the texts, with and without `::`: the groups are the 16-bit words of the
address. -/
theorem C19_ipv6_text (f : Field) (hf : f ∈ fields) (hk : f.kind = .ipv6) (s : Str) (ws : List Nat)
    (hs : Ipv6Text s ws) :
    str2oxm (f.name ++ '=' :: s) =
      .ok (f.header false 16 ++ ws.flatMap (be 2), (f.name ++ '=' :: s).length) ∧
    ∀ t ms, Ipv6Text t ms → str2oxm (f.name ++ '=' :: (s ++ '/' :: t)) =
      .ok (f.header true 32 ++ (ws.flatMap (be 2) ++ ms.flatMap (be 2)),
        (f.name ++ '=' :: (s ++ '/' :: t)).length) := by
  obtain ⟨h1, h2, h3, h4, h5⟩ := ipv6Text_facts hs
  have hl := enc_kind f hf (by simp [hk])
  rw [hk] at hl
  have hlim := kind_sizes f hf 16 (by rw [hk]; rfl)
  refine ⟨?_, ?_⟩
  · apply str2oxm_single f hf _ _ _ hl h1 h2
    rw [← header_plain f hf 16 hlim]
    simp [kindEnc, encText, ipv6Str2bin, getToken_clean_all h1, split1_none '/' _ h3, h5, bind, Except.bind]
  · intro t ms ht
    obtain ⟨g1, g2, g3, g4, g5⟩ := ipv6Text_facts ht
    have hc : Clean (s ++ '/' :: t) := clean_append h1 (clean_cons clean_slash g1)
    apply str2oxm_single f hf _ _ _ hl hc (by simp)
    rw [← header_masked f hf 16 hlim]
    simp [kindEnc, encText, ipv6Str2bin, getToken_clean_all hc, split1_some '/' _ _ h3, h5, ipv6Mask, g5,
      bind, Except.bind]

example : Ipv6Text t!"20aB::1" [0x20ab, 0, 0, 0, 0, 0, 0, 1] :=
  .short t!"20aB" t!"1" [0x20ab] [1]
    (.inr (.one _ _ ((numeral_iff 16 (by omega) _ _).2 ⟨by simp, by
      intro c hc
      exact (isHex_iff c).1 (by revert c; decide), by decide⟩) (by decide)))
    (.inr (.one _ _ (.one _ _ (.mk _ _ _ (by decide) (by decide))) (by decide))) (by decide)
example : str2oxm t!"ipv6_src=20aB::1" =
    .ok ([128, 0, 52, 16, 0x20, 0xab, 0, 0, 0, 0, 0, 0, 0, 0, 0, 0, 0, 0, 0, 1], 16) ∧
    oxm2str [128, 0, 52, 16, 0, 0, 0, 0, 0, 0, 0, 0, 0, 0, 255, 255, 10, 0, 0, 1] =
      .ok t!"ipv6_src=::ffff:10.0.0.1" := by decide +kernel

/-! ## C20 -/

/-- C20: every notation of a MAC address gives its six bytes; value and mask may use different
notations. -/
theorem C20_mac_notations (f : Field) (hf : f ∈ fields) (hk : f.kind = .mac) (s : Str) (p : Bytes)
    (hs : MacText s p) :
    str2oxm (f.name ++ '=' :: s) = .ok (f.header false 6 ++ p, (f.name ++ '=' :: s).length) ∧
    ∀ t m, MacText t m → str2oxm (f.name ++ '=' :: (s ++ '/' :: t)) =
      .ok (f.header true 12 ++ (p ++ m), (f.name ++ '=' :: (s ++ '/' :: t)).length) := by
  have hl := enc_kind f hf (by simp [hk])
  rw [hk] at hl
  have hlim := kind_sizes f hf 6 (by rw [hk]; rfl)
  obtain ⟨h1, h2, h3⟩ := macText_plain hs
  constructor
  · apply str2oxm_single f hf _ _ _ hl h1 h2
    rw [← header_plain f hf 6 hlim]
    exact macStr2bin_plain _ hs
  · intro t m ht
    obtain ⟨g1, g2, g3⟩ := macText_plain ht
    apply str2oxm_single f hf _ _ _ hl (clean_append h1 (clean_cons clean_slash g1)) (by simp)
    rw [← header_masked f hf 6 hlim]
    exact macStr2bin_mask _ hs ht

/-- The colon form in lower case. -/
def Colon (s : Str) (p : Bytes) : Prop := MacText s p ∧ s.length = 17 ∧ '-' ∉ s ∧
  ∀ c ∈ s, c ∈ t!"0123456789abcdef:"

/-- C20: the printed form is the colon form. -/
theorem C20_mac_printed (f : Field) (hf : f ∈ fields) (hk : f.kind = .mac) (p : Bytes) (hp : p.length = 6) :
    ∃ s, Colon s p ∧ oxm2str (f.header false 6 ++ p) = .ok (f.name ++ '=' :: s) ∧
      ∀ m, m.length = 6 → ∃ t, Colon t m ∧
        oxm2str (f.header true 12 ++ (p ++ m)) = .ok (f.name ++ '=' :: (s ++ '/' :: t)) := by
  have hcol : ∀ p : Bytes, p.length = 6 → Colon (macText p) p := by
    intro p hp
    have hch : ∀ c ∈ macText p, c ∈ t!"0123456789abcdef:" := by
      apply joinStr_chars (· ∈ t!"0123456789abcdef:") t!":" (by decide)
      intro s hs c hc
      simp only [List.mem_map] at hs
      obtain ⟨x, _, rfl⟩ := hs
      have key : ∀ n < 16, digitChar n ∈ t!"0123456789abcdef:" := by decide
      have := x.toNat_lt
      simp only [hex2, List.mem_cons, List.not_mem_nil, or_false] at hc
      rcases hc with rfl | rfl <;> apply key <;> omega
    refine ⟨(macText_colon p hp).1, (macText_scan p hp []).2, ?_, hch⟩
    intro h
    have := hch _ h
    revert this; decide
  obtain ⟨hmk, hd⟩ := dec_mac f hf hk
  have hlim := kind_sizes f hf 6 (by rw [hk]; rfl)
  refine ⟨macText p, hcol p hp, ?_, ?_⟩
  · have ht : p.take 6 = p := by rw [← hp]; exact List.take_length
    have := oxm2str_one ⟨f, p, none⟩ ⟨hf, by simp [hk, Kind.size, hp], by simp, by
      simp [Tlv.body, hp]; omega⟩ _ _ hd (by
      simp only [Tlv.body, Option.getD_none, List.append_nil, Option.isSome_none, decText, macBin2str, ht]
      simp [hp, pyAssert, bind, Except.bind]
      rfl)
    simpa [Tlv.wire, Tlv.body, hp] using this
  · intro m hm
    refine ⟨macText m, hcol m hm, ?_⟩
    have ht : (p ++ m).take 6 = p := by rw [← hp]; exact List.take_left
    have hdr : (p ++ m).drop 6 = m := by rw [← hp]; exact List.drop_left
    have := oxm2str_one ⟨f, p, some m⟩ ⟨hf, by simp [hk, Kind.size, hp], by simp [hmk, hp, hm], by
      simp [Tlv.body, hp, hm]; omega⟩ _ _ hd (by
      simp only [Tlv.body, Option.getD_some, Option.isSome_some, decText, macBin2str, ht, hdr]
      rw [if_neg (by simp [hp, hm])]
      simp [hp, hm, pyAssert, bind, Except.bind]
      rfl)
    simpa [Tlv.wire, Tlv.body, hp, hm] using this

example : MacText t!"00aA.bBcc.1234" [0, 0xaa, 0xbb, 0xcc, 0x12, 0x34] :=
  .dots t!"00aA" t!"bBcc" t!"1234" _ (a2b_hexText _ _ (by decide +kernel)) (by decide) (by decide) (by decide)
example : str2oxm t!"eth_dst=00aA.bBcc.1234/FF-ff-ff-00-00-00" =
    .ok ([128, 0, 7, 12, 0, 0xaa, 0xbb, 0xcc, 0x12, 0x34, 255, 255, 255, 0, 0, 0], 40) := by decide +kernel

/-! ## C21 -/

/-- C21: reserved names in lower and upper case, numbers that fit, and numbers that do not. -/
theorem C21_port_text (f : Field) (hf : f ∈ fields) (n : Nat) (hk : f.kind = .port n) :
    (∀ e, e ∈ reservedPorts ∨ e ∈ reservedPortsUpper → str2oxm (f.name ++ '=' :: e.2) =
      .ok (f.header false n ++ be n e.1, (f.name ++ '=' :: e.2).length)) ∧
    (∀ s v, IntSyntax s v s.length → str2oxm (f.name ++ '=' :: s) =
      if 0 ≤ v ∧ v < (256 ^ n : Nat) then
        .ok (f.header false n ++ be n v.toNat, (f.name ++ '=' :: s).length)
      else .error .structError) := by
  have hl := enc_kind f hf (by simp [hk])
  rw [hk] at hl
  have hlim := kind_sizes f hf n (by rw [hk]; rfl)
  obtain ⟨hn, hd⟩ := dec_port f hf n hk
  constructor
  · intro e he
    obtain ⟨h1, h2⟩ := reserved_clean e he
    apply str2oxm_single f hf _ _ _ hl h1 h2
    rw [← header_plain f hf n hlim]
    exact portStr2bin_reserved _ n hn e he
  · intro s v hs
    obtain ⟨h1, h2, _⟩ := intSyntax_clean hs
    have := portStr2bin_num (fieldKey f) n s v hs
    by_cases hv : 0 ≤ v ∧ v < (256 ^ n : Nat)
    · rw [if_pos hv] at this ⊢
      rw [header_plain f hf n hlim] at this
      exact str2oxm_single f hf _ _ _ hl h1 h2 this
    · rw [if_neg hv] at this ⊢
      exact str2oxm_single_err f hf _ _ _ hl h1 h2 this

/-- C21: a port is printed by name exactly if its number is a reserved one (cut to the size of the
field), otherwise in decimal. -/
theorem C21_port_printed (f : Field) (hf : f ∈ fields) (n : Nat) (hk : f.kind = .port n) (num : Nat)
    (hnum : num < 256 ^ n) : ∃ s, oxm2str (f.header false n ++ be n num) = .ok (f.name ++ '=' :: s) ∧
      ((∃ e ∈ reservedPorts, e.1 % 256 ^ n = num ∧ s = e.2) ∨
       ((∀ e ∈ reservedPorts, e.1 % 256 ^ n ≠ num) ∧ Decimal s num)) := by
  have hlim := kind_sizes f hf n (by rw [hk]; rfl)
  obtain ⟨hn, hd⟩ := dec_port f hf n hk
  refine ⟨portName n num, ?_, ?_⟩
  · have hbl : (be n num).length = n := by rw [spec_be, beBytes_length]
    have := oxm2str_one ⟨f, be n num, none⟩ ⟨hf, by simp [hk, Kind.size, hbl], by simp, by
      simp [Tlv.body, hbl]; omega⟩ _ (f.name ++ '=' :: portName n num) hd (by
      simp [Tlv.body, decText, portBin2str, hbl, pyAssert, bind, Except.bind, spec_be, beVal_beBytes,
        Nat.mod_eq_of_lt hnum])
    simpa [Tlv.wire, Tlv.body, hbl] using this
  · rcases portName_cases n num with h | ⟨h1, h2⟩
    · exact Or.inl h
    · exact Or.inr ⟨h1, by rw [h2]; exact decimal_fmtD num⟩

example : str2oxm t!"nxm_in_port=LOCAL" = .ok ([0, 0, 0, 2, 255, 254], 17) ∧
    str2oxm t!"in_port=0xfffffffd" = .ok ([128, 0, 0, 4, 255, 255, 255, 253], 18) ∧
    oxm2str [128, 0, 0, 4, 255, 255, 255, 253] = .ok t!"in_port=controller" ∧
    str2oxm t!"nxm_in_port=65536" = .error .structError := by decide +kernel

/-! ## C22 -/

/-- C22: value and mask of a byte-string field; the shorter one is padded at its end, and the length
counts both. -/
theorem C22_hex (f : Field) (hf : f ∈ fields) (hk : f.kind = .bytes) (s : Str) (p : Bytes)
    (hs : HexText s p) :
    (p ≠ [] → p.length + f.extra < 256 → str2oxm (f.name ++ '=' :: s) =
      .ok (f.header false p.length ++ p, (f.name ++ '=' :: s).length)) ∧
    ∀ t m n, HexText t m → n = max p.length m.length → 2 * n + f.extra < 256 →
      str2oxm (f.name ++ '=' :: (s ++ '/' :: t)) =
        .ok (f.header true (2 * n) ++ ((p ++ pad (n - p.length)) ++ (m ++ pad (n - m.length))),
          (f.name ++ '=' :: (s ++ '/' :: t)).length) := by
  have hl := enc_kind f hf (by simp [hk])
  rw [hk] at hl
  obtain ⟨h1, h2, h3⟩ := hexText_a2b hs
  have hc : Clean s := fun c hc => isHex_clean (h2 c hc)
  have hno : ∀ c ∈ s, c ≠ '/' := fun c hc => (isHex_ne (h2 c hc)).1
  constructor
  · intro hp hfit
    have hsn : s ≠ [] := by
      rintro rfl
      apply hp
      apply List.length_eq_zero_iff.1
      simp only [List.length_nil] at h3
      omega
    apply str2oxm_single f hf _ _ _ hl hc hsn
    have := field_header f hf p.length false (by unfold Field.extra at hfit; simpa using hfit)
    simp only [Bool.false_eq_true, if_false] at this
    rw [← this]
    simp [kindEnc, encText, hexStr2bin, getToken_clean_all hc, split1_none '/' _ hno, h1, bind, Except.bind]
  · intro t m n ht hn hfit
    obtain ⟨g1, g2, g3⟩ := hexText_a2b ht
    have hct : Clean t := fun c hc => isHex_clean (g2 c hc)
    have hcc : Clean (s ++ '/' :: t) := clean_append hc (clean_cons clean_slash hct)
    apply str2oxm_single f hf _ _ _ hl hcc (by simp)
    have := field_header f hf n true (by unfold Field.extra at hfit; simpa using hfit)
    simp only [if_true] at this
    rw [← this]
    have hpm : padMask p m = ((p ++ pad (n - p.length)) ++ (m ++ pad (n - m.length)), n) := by
      unfold padMask zeros pad
      by_cases h : p.length < m.length
      · have e1 : max m.length p.length - min m.length p.length = n - p.length := by omega
        have e2 : n - m.length = 0 := by omega
        have e3 : m.length = n := by omega
        rw [e1, e2]
        simp [h]
        exact e3
      · have e1 : max m.length p.length - min m.length p.length = n - m.length := by omega
        have e2 : n - p.length = 0 := by omega
        have e3 : p.length = n := by omega
        rw [e1, e2]
        simp [h]
        exact e3
    simp [kindEnc, encText, hexStr2bin, getToken_clean_all hcc, split1_some '/' _ _ hno, h1, g1, hpm,
      bind, Except.bind]

example : HexText t!"0aFf" [10, 255] := a2b_hexText _ _ (by decide)
example : str2oxm t!"dot11_tag_vendor=0aFf/ffffff" =
    .ok ([255, 255, 25, 10, 255, 0, 224, 77, 10, 255, 0, 255, 255, 255], 28) ∧
    str2oxm t!"dot11_tag_vendor=0aFf01/ff" =
    .ok ([255, 255, 25, 10, 255, 0, 224, 77, 10, 255, 1, 255, 0, 0], 26) := by decide +kernel

/-! ## C23 -/

/-- C23: an SSID of plain characters, up to 76 of them, survives printing; with a mask it may have
zero bytes at its end.  Missing: SSIDs with blanks, control characters, non-ASCII bytes, or
`( , / < = [ {`; see `C23_ssid_refuted`. -/
theorem C23_ssid_roundtrip_partial (t : Tlv) (hv : t.Valid) (hk : t.field.kind = .ssid)
    (h : (t.mask = none ∧ PlainSsid t.value) ∨ (t.mask ≠ none ∧ ∃ p k, PlainSsid p ∧ t.value = p ++ pad k)) :
    ∃ text, oxm2str t.wire = .ok text ∧ str2oxm text = .ok (t.wire, text.length) := by
  have hn : ∀ f ∈ fields, f.kind = .ssid → f.name ∉ lossyNames := by decide +kernel
  have := C12_oxm_roundtrip_partial [t] (by simpa using hv) (by
    intro t' ht'
    simp only [List.mem_singleton] at ht'
    subst ht'
    refine ⟨hn _ hv.mem hk, by simp [hk], ?_, ?_, by simp [hk], by simp [hk]⟩
    · intro _ hm
      rcases h with h | h
      · exact h.2
      · exact absurd hm h.1
    · intro _ hm
      rcases h with h | h
      · exact absurd h.1 hm
      · exact h.2)
  simpa [wireAll] using this

/-- C23 fails for each of these bytes in an SSID: control characters, blank, `( , / < = [ {`, DEL and
everything above; the SSID is `a?a` with `?` the byte. -/
theorem C23_ssid_refuted (b : UInt8) (hb : ¬ SsidByte b) (hx : b.toNat ∉ [40, 60, 91, 123]) :
    let t : Tlv := ⟨⟨t!"dot11_ssid", 0xffff, 8, .ssid, true⟩, [97, b, 97], none⟩
    t.Valid ∧ ¬ ∃ text, oxm2str t.wire = .ok text ∧ str2oxm text = .ok (t.wire, text.length) := by
  have key : ∀ n < 256, ¬ SsidByte (UInt8.ofNat n) → n ∉ [40, 60, 91, 123] →
      tripBack (Tlv.wire ⟨⟨t!"dot11_ssid", 0xffff, 8, .ssid, true⟩, [97, UInt8.ofNat n, 97], none⟩) = false := by
    decide +kernel
  have hmem : (⟨t!"dot11_ssid", 0xffff, 8, .ssid, true⟩ : Field) ∈ fields := by decide +kernel
  have hexp : (⟨t!"dot11_ssid", 0xffff, 8, .ssid, true⟩ : Field).experimenter = true := by decide
  refine ⟨⟨hmem, by simp [Kind.size], by simp, by simp [Tlv.body, hexp]⟩, ?_⟩
  rw [← tripBack_iff]
  have := key b.toNat b.toNat_lt (by simpa using hb) hx
  rw [UInt8.ofNat_toNat] at this
  simp [this]

/-- C23: an opening bracket survives alone, but swallows the matches that follow. -/
theorem C23_bracket_refuted : ∀ b ∈ [(40 : UInt8), 60, 91, 123],
    let ts : List Tlv := [⟨⟨t!"dot11_ssid", 0xffff, 8, .ssid, true⟩, [97, b, 97], none⟩,
      ⟨⟨t!"in_port", 0x8000, 0, .port 4, false⟩, [0, 0, 0, 1], none⟩]
    ¬ ∃ text, oxm2str (wireAll ts) = .ok text ∧ str2oxm text = .ok (wireAll ts, text.length) := by
  intro b hb
  have key : ∀ b ∈ [(40 : UInt8), 60, 91, 123], tripBack (wireAll
      [⟨⟨t!"dot11_ssid", 0xffff, 8, .ssid, true⟩, [97, b, 97], none⟩,
      ⟨⟨t!"in_port", 0x8000, 0, .port 4, false⟩, [0, 0, 0, 1], none⟩]) = false := by decide +kernel
  dsimp only
  rw [← tripBack_iff, key b hb]
  simp

example : PlainSsid [97, 98, 45, 51] := by decide
example : oxm2str [255, 255, 17, 8, 255, 0, 224, 77, 97, 0, 255, 240] = .ok t!"dot11_ssid=a/fff0" ∧
    str2oxm t!"dot11_ssid=a/fff0" = .ok ([255, 255, 17, 8, 255, 0, 224, 77, 97, 0, 255, 240], 17) := by
  decide +kernel

/-! ## C24 -/

/-- The radiotap fields. -/
def radiotap (f : Field) : Prop := ∃ r, f.name = t!"radiotap_" ++ r

/-- C24: every radiotap match parses back to the same bytes.  Missing: VHT values or masks whose four
user bytes are zero, and an empty `radiotap_fhss`; see `C24_vht_refuted`. -/
theorem C24_radiotap_roundtrip_partial (t : Tlv) (hv : t.Valid) (hr : radiotap t.field)
    (hb : t.field.kind = .bytes → t.value ≠ [])
    (h1 : t.field.kind = .vht → vhtUsers t.value ≠ [0, 0, 0, 0])
    (h2 : t.field.kind = .vht → ∀ m, t.mask = some m → vhtUsers m ≠ [0, 0, 0, 0]) :
    ∃ text, oxm2str t.wire = .ok text ∧ str2oxm text = .ok (t.wire, text.length) := by
  have hn : ∀ f ∈ fields, f.name.take 9 = t!"radiotap_" → f.name ∉ lossyNames ∧ f.kind ≠ .ssid := by
    decide +kernel
  have hr9 : t.field.name.take 9 = t!"radiotap_" := by
    obtain ⟨r, hr⟩ := hr
    rw [hr]; rfl
  obtain ⟨hn1, hn2⟩ := hn _ hv.mem hr9
  have := C12_oxm_roundtrip_partial [t] (by simpa using hv) (by
    intro t' ht'
    simp only [List.mem_singleton] at ht'
    subst ht'
    exact ⟨hn1, fun h _ => hb h, fun h => absurd h hn2, fun h => absurd h hn2, h1, h2⟩)
  simpa [wireAll] using this

/-- C24 fails for a VHT value whose user part is zero: the printed text is not accepted. -/
theorem C24_vht_refuted : ∃ t : Tlv, t.Valid ∧ radiotap t.field ∧
    ∃ text, oxm2str t.wire = .ok text ∧ str2oxm text = .error .structError := by
  refine ⟨⟨⟨t!"radiotap_vht", 0xffff, 37, .vht, true⟩, [1, 0, 2, 3, 0, 0, 0, 0, 4, 5, 6, 0], none⟩,
    ⟨by decide +kernel, ?_, by simp, by simp [Tlv.body]; decide⟩, ⟨t!"vht", by decide⟩,
    t!"radiotap_vht=0x0001:0x02:3::0x04:5:0x0006", by decide +kernel⟩
  intro n hn; cases hn; rfl

/-- C24: numbers of little-endian fields are stored least significant byte first, cut to the size. -/
theorem C24_le_value (f : Field) (hf : f ∈ fields) (n : Nat) (hk : f.kind = .le n) (s : Str) (v : Int)
    (hs : IntSyntax s v s.length) : str2oxm (f.name ++ '=' :: s) =
      .ok (f.header false n ++ le n (v % (256 ^ n : Nat)).toNat, (f.name ++ '=' :: s).length) := by
  have hl := enc_kind f hf (by simp [hk])
  rw [hk] at hl
  have hlim := kind_sizes f hf n (by rw [hk]; rfl)
  obtain ⟨h1, h2, _⟩ := intSyntax_clean hs
  apply str2oxm_single f hf _ _ _ hl h1 h2
  rw [← header_plain f hf n hlim]
  simp only [kindEnc, encText, leStr2bin, (parseInt_iff _ _ _).2 hs, bind, Except.bind, List.drop_length,
    startsWith_nil_slash, Bool.false_eq_true, if_false, Except.ok.injEq, Prod.mk.injEq, and_true,
    List.append_cancel_left_eq]
  have e1 : intLE n v = (intBE n v).reverse := by simp [intLE, intBE, ← List.map_reverse]
  rw [e1, intBE_eq, ← spec_be]
  simp [be, le]

/-- C24: a signed value is stored as one byte in two's complement, other values are refused. -/
theorem C24_signed_value (f : Field) (hf : f ∈ fields) (hk : f.kind = .signed) (s : Str) (v : Int)
    (hs : IntSyntax s v s.length) : str2oxm (f.name ++ '=' :: s) =
      if -128 ≤ v ∧ v ≤ 127 then
        .ok (f.header false 1 ++ [UInt8.ofNat (v % 256).toNat], (f.name ++ '=' :: s).length)
      else .error .structError := by
  have hl := enc_kind f hf (by simp [hk])
  rw [hk] at hl
  have hlim := kind_sizes f hf 1 (by rw [hk]; rfl)
  obtain ⟨h1, h2, _⟩ := intSyntax_clean hs
  by_cases hv : -128 ≤ v ∧ v ≤ 127
  · rw [if_pos hv]
    apply str2oxm_single f hf _ _ _ hl h1 h2
    rw [← header_plain f hf 1 hlim]
    have hp : packS8 v = .ok [UInt8.ofNat (v % 256).toNat] := if_pos (by omega)
    simp [kindEnc, encText, s8Str2bin, (parseInt_iff _ _ _).2 hs, hp, bind, Except.bind]
  · rw [if_neg hv]
    apply str2oxm_single_err f hf _ _ _ hl h1 h2
    have hp : packS8 v = .error .structError := if_neg (by omega)
    simp [kindEnc, encText, s8Str2bin, (parseInt_iff _ _ _).2 hs, hp, bind, Except.bind]

example : str2oxm t!"radiotap_lock_quality=0x10203" =
    .ok ([255, 255, 46, 6, 255, 0, 224, 77, 3, 2], 29) ∧
    str2oxm t!"radiotap_dbm_antsignal=-70" = .ok ([255, 255, 42, 5, 255, 0, 224, 77, 186], 26) ∧
    oxm2str [255, 255, 42, 5, 255, 0, 224, 77, 186] = .ok t!"radiotap_dbm_antsignal=-70" := by
  decide +kernel

end Ofpstr
