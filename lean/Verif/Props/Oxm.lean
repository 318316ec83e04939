import Verif.Lemmas.Match

/-!
# Properties C09-C17, C25 and the match part of C04: matches (`ofpstr/oxm.py`)
-/

namespace Ofpstr
open Spec

/-! ## C04, match parsers -/

/-- C04: the match parsers finish on every text. -/
theorem C04_match_parsers_end (u : Str) (hm : Bool) :
    str2oxm u ≠ .error .loops ∧ str2oxm1 u ≠ .error .loops ∧ str2oxmid hm u ≠ .error .loops :=
  ⟨ends_str2oxmL true u, ends_str2oxmL false u, ends_str2oxmid hm u⟩

example : str2oxm t!"in_port=1,,=" = .error .keyError := by decide +kernel

/-! ## C09 -/

/-- C09: the header of every field of the list but one.  Fields of variable length have the length
byte 255.  Missing: `nxm_ct_label`, see `C09_ct_label_refuted`. -/
theorem C09_field_header_partial (f : Field) (hf : f ∈ fields) (hn : f.name ≠ t!"nxm_ct_label") :
    str2oxmid false f.name =
      .ok (f.header false (match f.kind.size with | some n => n | none => 255 - f.extra)) := by
  obtain ⟨k, hl, hk⟩ := lookupEnc_of_field f hf
  have hk := hk hn
  subst hk
  have h := str2oxmidGo_names false [f] [] (Or.inl rfl) (by simp [hf]) (by simp) (f.name.length + 1)
    (by simp [joinStr])
  simp only [List.map_cons, List.map_nil, joinStr, List.nil_append, List.flatMap_cons, List.flatMap_nil,
    List.append_nil, hl] at h
  unfold str2oxmid
  rw [h]
  congr 1
  have h255 := field_header_255 f hf
  have hsz := kind_sizes f hf
  cases hkd : f.kind <;> simp only [kindEnc, encId, Kind.size]
  case bytes => exact h255
  case ssid => exact h255
  case vht =>
    have := hsz 12 (by rw [hkd]; rfl)
    exact (field_header f hf 12 false (by simp only [Bool.false_eq_true, if_false]; omega)).trans rfl
  all_goals
    have := hsz _ (by rw [hkd]; rfl)
    exact (field_header f hf _ false (by simp only [Bool.false_eq_true, if_false]; omega)).trans rfl

/-- C09 fails for the connection-tracking label: 16 bytes in Open vSwitch, 4 here. -/
theorem C09_ct_label_refuted : ∃ f ∈ fields, f.kind.size = some 16 ∧
    str2oxmid false f.name = .ok (f.header false 4) ∧ str2oxmid false f.name ≠ .ok (f.header false 16) :=
  ⟨⟨t!"nxm_ct_label", 0x0001, 108, .uint 16, true⟩, by decide +kernel⟩

example : str2oxmid false t!"radiotap_rate" = .ok [255, 255, 36, 5, 255, 0, 224, 77] := by decide +kernel

/-! ## C10 -/

/-- C10: `oxmid2str` inverts `str2oxmid` on lists of field names, with and without the mask bit.
Missing: `nxm_ip_frag`, see `C10_ip_frag_refuted`. -/
theorem C10_ids_inverse_partial (hm : Bool) (fs : List Field) (hf : ∀ f ∈ fs, f ∈ fields)
    (hn : ∀ f ∈ fs, f.name ≠ t!"nxm_ip_frag") :
    ∃ b, str2oxmid hm (joinStr t!"," (fs.map (·.name))) = .ok b ∧
      oxmid2str b = .ok (joinStr t!"," (fs.map (·.name))) := by
  refine ⟨_, str2oxmidGo_names hm fs [] (Or.inl rfl) hf (fun _ => rfl) _ (by simp), ?_⟩
  unfold oxmid2str
  rw [oxmid2strGo_names hm fs hf hn _ (by omega)]
  rfl

/-- C10 fails for `nxm_ip_frag`, which is printed under another name. -/
theorem C10_ip_frag_refuted : ∃ f ∈ fields, ∃ b, str2oxmid false f.name = .ok b ∧
    oxmid2str b = .ok t!"nxm_icmp_type" ∧ oxmid2str b ≠ .ok f.name :=
  ⟨⟨t!"nxm_ip_frag", 0x0001, 26, .uint 1, true⟩, by decide +kernel, [0, 1, 52, 1], by decide +kernel⟩

example : str2oxmid true t!"in_port,ipv4_src,dot11_ssid" =
    .ok [128, 0, 0, 4, 128, 0, 23, 8, 255, 255, 17, 255, 255, 0, 224, 77] ∧
    oxmid2str [128, 0, 0, 4, 128, 0, 23, 8, 255, 255, 17, 255, 255, 0, 224, 77] =
      .ok t!"in_port,ipv4_src,dot11_ssid" := by decide +kernel

/-! ## C11 -/

/-- C11: an integer field has one size `n` (the one its header announces, and but for
`nxm_ct_label` the one of its definition); `name=v` and `name=v/m` give `v` and `m` modulo `256 ^ n`
in `n` bytes, big endian, after the header. -/
theorem C11_uint_value (f : Field) (hf : f ∈ fields) (m : Nat) (hk : f.kind = .uint m) :
    ∃ n, str2oxmid false f.name = .ok (f.header false n) ∧ (f.name ≠ t!"nxm_ct_label" → n = m) ∧
      (∀ s v, IntSyntax s v s.length → str2oxm (f.name ++ '=' :: s) =
        .ok (f.header false n ++ be n (v % (256 ^ n : Nat)).toNat, (f.name ++ '=' :: s).length)) ∧
      (∀ s v t w, IntSyntax s v s.length → IntSyntax t w t.length →
        str2oxm (f.name ++ '=' :: (s ++ '/' :: t)) =
          .ok (f.header true (2 * n) ++ (be n (v % (256 ^ n : Nat)).toNat ++
            be n (w % (256 ^ n : Nat)).toNat), (f.name ++ '=' :: (s ++ '/' :: t)).length)) := by
  obtain ⟨n, hl, hlim, hnm⟩ := lookupEnc_uint f hf m hk
  refine ⟨n, ?_, hnm, ?_, ?_⟩
  · rw [str2oxmid_one false f hf _ hl, ← header_plain f hf n hlim]; rfl
  · intro s v hs
    obtain ⟨h1, h2, _⟩ := intSyntax_clean hs
    have := uintStr2bin_plain (fieldKey f) n s v hs
    rw [header_plain f hf n hlim] at this
    exact str2oxm_single f hf s _ _ hl h1 h2 this
  · intro s v t w hs ht
    obtain ⟨h1, h2, _⟩ := intSyntax_clean hs
    obtain ⟨h3, _, _⟩ := intSyntax_clean ht
    have := uintStr2bin_mask (fieldKey f) n s t v w hs ht
    rw [header_masked f hf n hlim] at this
    exact str2oxm_single f hf _ _ _ hl (clean_append h1 (clean_cons clean_slash h3)) (by simp) this

example : str2oxm t!"vlan_vid=0x1fff5/-1" = .ok ([128, 0, 13, 4, 0xff, 0xf5, 0xff, 0xff], 19) := by
  decide +kernel
example : IntSyntax t!"0x1fff5" 0x1fff5 7 :=
  (parseInt_iff _ _ _).1 (by decide +kernel)

/-! ## C12 -/

/-- C12: every list of well-formed matches of supported fields that is printable without loss is the
same after printing and parsing, and the text is consumed.  Missing: `lossyNames` (registers,
`nxm_ip_frag`, `nxm_ct_label`), empty byte strings, SSIDs with special characters, VHT values without
user part; see the refutations. -/
theorem C12_oxm_roundtrip_partial (ts : List Tlv) (hv : ∀ t ∈ ts, t.Valid) (hl : ∀ t ∈ ts, t.Lossless) :
    ∃ text, oxm2str (wireAll ts) = .ok text ∧ str2oxm text = .ok (wireAll ts, text.length) :=
  ⟨_, oxm_list ts fun t ht => ⟨hv t ht, hl t ht⟩⟩

/-- The round trip of one match, as a computation. -/
def tripBack (b : Bytes) : Bool :=
  match oxm2str b with
  | .ok s => decide (str2oxm s = .ok (b, s.length))
  | .error _ => false

theorem tripBack_iff (b : Bytes) :
    tripBack b = true ↔ ∃ text, oxm2str b = .ok text ∧ str2oxm text = .ok (b, text.length) := by
  unfold tripBack
  split
  · rename_i s hs; simp [hs]
  · rename_i e hs; simp [hs]

/-- A value of ones. -/
def onesTlv (f : Field) : Tlv := ⟨f, List.replicate (f.kind.size.getD 0) 1, none⟩

/-- C12 fails for each field of `lossyNames`, already for the value of all ones. -/
theorem C12_lossy_refuted (f : Field) (hf : f ∈ fields) (hl : f.name ∈ lossyNames) :
    ∃ t : Tlv, t.field = f ∧ t.Valid ∧
      ¬ ∃ text, oxm2str t.wire = .ok text ∧ str2oxm text = .ok (t.wire, text.length) := by
  have key : ∀ f ∈ fields, f.name ∈ lossyNames → f.kind.size ≠ none ∧
      (onesTlv f).body.length + (if f.experimenter then 4 else 0) < 256 ∧
      tripBack (onesTlv f).wire = false := by decide +kernel
  obtain ⟨h1, h2, h3⟩ := key f hf hl
  refine ⟨onesTlv f, rfl, ⟨hf, ?_, ?_, h2⟩, ?_⟩
  · intro n hn
    unfold onesTlv at *
    dsimp only at *
    rw [hn]; simp
  · intro m hm; cases hm
  · rw [← tripBack_iff, h3]; simp

/-- C12: all eight registers are printed without their value and mask, whatever they are, and the
text is not accepted. -/
theorem C12_registers_refuted (t : Tlv) (hv : t.Valid) (hr : t.field.name ∈ [t!"nxm_reg0", t!"nxm_reg1",
    t!"nxm_reg2", t!"nxm_reg3", t!"nxm_reg4", t!"nxm_reg5", t!"nxm_reg6", t!"nxm_reg7"]) :
    oxm2str t.wire = .ok t.field.name ∧ str2oxm t.field.name = .error .assertionError := by
  have key : ∀ f ∈ fields, f.name ∈ [t!"nxm_reg0", t!"nxm_reg1", t!"nxm_reg2", t!"nxm_reg3",
      t!"nxm_reg4", t!"nxm_reg5", t!"nxm_reg6", t!"nxm_reg7"] →
      lookupDec (fieldKey f) = some (.uint ⟨f.name, none, none⟩) := by decide +kernel
  have h := oxm2str_tlvs [t] (fun t => t.field.name) (by simpa using hv) (by
    intro t' ht'
    simp only [List.mem_singleton] at ht'
    subst ht'
    refine ⟨_, key _ hv.mem hr, ?_⟩
    cases t'.mask <;> simp [decText, uintBin2str, fmtField])
  refine ⟨by simpa [wireAll, joinStr] using h, ?_⟩
  apply str2oxm_no_eq _ (field_name _ hv.mem).2.1
  intro hc
  exact ((field_name _ hv.mem).1 _ hc).2.2.1 rfl

/-- C12 fails for an empty byte string, for SSIDs with a blank, a comma, a slash, an equals sign, a
line feed or an unclosed bracket, and for a VHT value without user part. -/
theorem C12_values_refuted : ∀ t ∈ [
    (⟨⟨t!"dot11_tag_vendor", 0xffff, 12, .bytes, true⟩, [], none⟩ : Tlv),
    ⟨⟨t!"dot11_ssid", 0xffff, 8, .ssid, true⟩, [97, 32, 98], none⟩,
    ⟨⟨t!"dot11_ssid", 0xffff, 8, .ssid, true⟩, [97, 44, 98], none⟩,
    ⟨⟨t!"dot11_ssid", 0xffff, 8, .ssid, true⟩, [97, 47, 98], none⟩,
    ⟨⟨t!"dot11_ssid", 0xffff, 8, .ssid, true⟩, [97, 61, 98], none⟩,
    ⟨⟨t!"dot11_ssid", 0xffff, 8, .ssid, true⟩, [97, 10, 98], none⟩,
    ⟨⟨t!"dot11_ssid", 0xffff, 8, .ssid, true⟩, [0, 0], some [255, 255]⟩,
    ⟨⟨t!"radiotap_vht", 0xffff, 37, .vht, true⟩, [1, 0, 0, 0, 0, 0, 0, 0, 0, 0, 0, 0], none⟩],
    t.field ∈ fields ∧
      ¬ ∃ text, oxm2str t.wire = .ok text ∧ str2oxm text = .ok (t.wire, text.length) := by
  have key : ∀ t ∈ [
      (⟨⟨t!"dot11_tag_vendor", 0xffff, 12, .bytes, true⟩, [], none⟩ : Tlv),
      ⟨⟨t!"dot11_ssid", 0xffff, 8, .ssid, true⟩, [97, 32, 98], none⟩,
      ⟨⟨t!"dot11_ssid", 0xffff, 8, .ssid, true⟩, [97, 44, 98], none⟩,
      ⟨⟨t!"dot11_ssid", 0xffff, 8, .ssid, true⟩, [97, 47, 98], none⟩,
      ⟨⟨t!"dot11_ssid", 0xffff, 8, .ssid, true⟩, [97, 61, 98], none⟩,
      ⟨⟨t!"dot11_ssid", 0xffff, 8, .ssid, true⟩, [97, 10, 98], none⟩,
      ⟨⟨t!"dot11_ssid", 0xffff, 8, .ssid, true⟩, [0, 0], some [255, 255]⟩,
      ⟨⟨t!"radiotap_vht", 0xffff, 37, .vht, true⟩, [1, 0, 0, 0, 0, 0, 0, 0, 0, 0, 0, 0], none⟩],
      t.field ∈ fields ∧ tripBack t.wire = false := by decide +kernel
  intro t ht
  obtain ⟨h1, h2⟩ := key t ht
  exact ⟨h1, by rw [← tripBack_iff, h2]; simp⟩

/-- A match of three fields that meets the hypotheses of C12. -/
def tlvSample : List Tlv := [
  ⟨⟨t!"in_port", 0x8000, 0, .port 4, false⟩, [255, 255, 255, 253], none⟩,
  ⟨⟨t!"ipv4_dst", 0x8000, 12, .ipv4, true⟩, [10, 1, 2, 3], some [255, 0, 255, 0]⟩,
  ⟨⟨t!"dot11_ssid", 0xffff, 8, .ssid, true⟩, [97, 98], none⟩]

example : ∀ t ∈ tlvSample, t.Valid ∧ t.Lossless := by
  intro t ht
  have ht' : t = tlvSample[0] ∨ t = tlvSample[1] ∨ t = tlvSample[2] := by
    simpa [tlvSample] using ht
  rcases ht' with rfl | rfl | rfl <;>
  · refine ⟨⟨by decide +kernel, ?_, ?_, by decide⟩, ⟨by decide, by decide, by decide, ?_, by decide, ?_⟩⟩
    · intro n hn; cases hn <;> rfl
    · intro m hm; cases hm <;> exact ⟨rfl, rfl⟩
    · intro h; cases h <;> exact fun h => absurd rfl h
    · intro h; cases h
example : oxm2str (wireAll tlvSample) =
    .ok t!"in_port=controller,ipv4_dst=10.1.2.3/255.0.255.0,dot11_ssid=ab" := by decide +kernel

/-! ## C13 -/

/-- C13: match texts compose.  Missing: the first text must have all brackets closed (a closing one may
be in the second text), must not end in an empty value, and both must not be empty; see the
refutations. -/
theorem C13_match_concat_partial (a b : Str) (ba bb : Bytes) (l : Nat)
    (ha : str2oxm a = .ok (ba, a.length)) (hb : str2oxm b = .ok (bb, l))
    (hcl : ∀ x y, a = x ++ y → ¬ OpenToken y) (hend : ∀ x c, a = x ++ [c] → c ≠ '=' ∧ ¬ Space c)
    (han : a ≠ []) (hbn : b ≠ []) :
    str2oxm (a ++ ',' :: b) = .ok (ba ++ bb, a.length + 1 + l) := by
  unfold str2oxm str2oxmL at ha hb ⊢
  obtain ⟨⟨ma, ra⟩, hga, ha⟩ := bind_ok ha
  obtain ⟨⟨mb, rb⟩, hgb, hb⟩ := bind_ok hb
  simp only [Except.ok.injEq, Prod.mk.injEq] at ha hb
  obtain ⟨rfl, hla⟩ := ha
  obtain ⟨rfl, hlb⟩ := hb
  have hra := str2oxmGo_rest _ _ _ _ hga
  have hrb := str2oxmGo_rest _ _ _ _ hgb
  have hra0 : ra = [] := by
    apply List.length_eq_zero_iff.1
    have : 0 < a.length := List.length_pos_iff.2 han
    omega
  subst hra0
  rw [str2oxmGo_concat a b ma mb rb _ _ hga hcl hend hgb hbn (by omega) _ (by omega) han]
  simp only [bind, Except.bind, Except.ok.injEq, Prod.mk.injEq, true_and]
  simp
  omega

/-- C13 fails for an empty second text. -/
theorem C13_trailing_comma_refuted : ∃ a ba, str2oxm a = .ok (ba, a.length) ∧
    str2oxm [] = .ok ([], 0) ∧ str2oxm (a ++ ',' :: []) = .error .assertionError :=
  ⟨t!"in_port=1", [128, 0, 0, 4, 0, 0, 0, 1], by decide +kernel⟩

/-- C13 fails for an unclosed bracket. -/
theorem C13_open_bracket_refuted : ∃ a b ba bb, str2oxm a = .ok (ba, a.length) ∧
    str2oxm b = .ok (bb, b.length) ∧ str2oxm (a ++ ',' :: b) ≠ .ok (ba ++ bb, a.length + 1 + b.length) :=
  ⟨t!"dot11_ssid=a(b", t!"in_port=1", [255, 255, 16, 7, 255, 0, 224, 77, 97, 40, 98],
    [128, 0, 0, 4, 0, 0, 0, 1], by decide +kernel⟩

/-- C13 fails after an empty value: the second text is not read. -/
theorem C13_empty_value_refuted : ∃ a b bb, str2oxm a = .ok ([], a.length) ∧
    str2oxm b = .ok (bb, b.length) ∧ str2oxm (a ++ ',' :: b) = .ok ([], a.length) :=
  ⟨t!"dot11_ssid=", t!"in_port=1", [128, 0, 0, 4, 0, 0, 0, 1], by decide +kernel⟩

example : str2oxm t!"in_port=1" = .ok ([128, 0, 0, 4, 0, 0, 0, 1], 9) ∧
    str2oxm t!"vlan_pcp=2, eth_type=0x800" = .ok ([128, 0, 14, 1, 2, 128, 0, 10, 2, 8, 0], 26) := by
  decide +kernel

/-! ## C14 -/

/-- C14: whatever `str2oxm` returns is a sequence of TLVs of known fields with the right length
byte; only byte strings and SSIDs that are too long have a wrong one (255). -/
theorem C14_match_tlvs (u : Str) (b : Bytes) (l : Nat) (h : str2oxm u = .ok (b, l)) : TlvSeq b := by
  unfold str2oxm str2oxmL at h
  obtain ⟨⟨m, r⟩, hg, h⟩ := bind_ok h
  simp only [Except.ok.injEq, Prod.mk.injEq] at h
  rw [← h.1]
  exact str2oxmGo_tlvs _ _ _ _ hg

/-- C14: a match of less than 260 bytes can be walked by its length bytes. -/
theorem C14_match_walk (u : Str) (b : Bytes) (l : Nat) (h : str2oxm u = .ok (b, l))
    (hb : b.length < 260) : Walk b :=
  tlvSeq_walk b (C14_match_tlvs u b l h) hb

/-- C14: the exception is real. -/
theorem C14_long_value : ∃ u b l, str2oxm u = .ok (b, l) ∧ ¬ Walk b := by
  refine ⟨t!"nxm_tun_metadata0=" ++ List.replicate 512 '0',
    [0, 1, 80, 255] ++ List.replicate 256 0, 530, by decide +kernel, ?_⟩
  intro h
  have := walk_cons h
  have h1 : (List.replicate 256 (0 : UInt8)).drop (255 : UInt8).toNat = [0] := by decide
  have h2 : Walk [0] := h1 ▸ this
  cases h2

example : str2oxm t!"dot11_ssid=ab,in_port=1" =
    .ok ([255, 255, 16, 6, 255, 0, 224, 77, 97, 98, 128, 0, 0, 4, 0, 0, 0, 1], 23) := by decide +kernel

/-! ## C15 -/

/-- C15: an accepted text is a list of `name=value` items of known fields, each of whose values is
read to its end; the returned length says where reading ended, and the bytes are those of the
items. -/
theorem C15_match_read (u : Str) (b : Bytes) (l : Nat) (h : str2oxm u = .ok (b, l)) :
    ∃ rest, l + rest.length = u.length ∧
      Reads (fun f v bin => str2oxm1 (f.name ++ '=' :: v) = .ok (bin, (f.name ++ '=' :: v).length))
        u b rest := by
  unfold str2oxm str2oxmL at h
  obtain ⟨⟨m, r⟩, hg, h⟩ := bind_ok h
  simp only [Except.ok.injEq, Prod.mk.injEq] at h
  obtain ⟨rfl, rfl⟩ := h
  have := str2oxmGo_rest _ _ _ _ hg
  exact ⟨r, by omega, str2oxmGo_reads _ _ _ _ hg⟩

/-- C15: text without `=` is rejected. -/
theorem C15_no_equals (u : Str) (hu : u ≠ []) (h : '=' ∉ u) : str2oxm u = .error .assertionError :=
  str2oxm_no_eq u hu h

/-- C15: an unknown field name is rejected, whatever follows. -/
theorem C15_unknown_field (name r : Str) (hp : PlainText name) (hn : name ≠ [])
    (h : ∀ f ∈ fields, f.name ≠ name) : str2oxm (name ++ '=' :: r) = .error .keyError :=
  str2oxm_unknown name r hp hn h

/-- C15: characters after an integer value are rejected. -/
theorem C15_unread_value (f : Field) (hf : f ∈ fields) (m : Nat) (hk : f.kind = .uint m) (s x : Str)
    (v : Int) (hs : IntSyntax (s ++ x) v s.length) (hx : x ≠ []) (hp : PlainText x)
    (hsl : ∀ t, x ≠ '/' :: t) : str2oxm (f.name ++ '=' :: (s ++ x)) = .error .assertionError := by
  obtain ⟨n, hl, hlim, hnm⟩ := lookupEnc_uint f hf m hk
  obtain ⟨h1, h2⟩ := intSyntax_clean_front hs
  have hc : Clean (s ++ x) := clean_append h1 hp
  have he : encText (fieldKey f) (.uint n) (s ++ x) =
      .ok (header (fieldKey f) n false ++ intBE n v, s.length) := by
    have hsw : startsWith x t!"/" = false := by
      cases x with
      | nil => exact absurd rfl hx
      | cons c t =>
        rw [startsWith_false t [] (fun h => hsl t (by rw [h]))]
    simp [encText, uintStr2bin, (parseInt_iff _ _ _).2 hs, bind, Except.bind, hsw]
  refine str2oxm_single_short f hf _ _ _ _ hl hc (by simp [h2]) he ?_ ?_
  · intro h; exact h2 (List.length_eq_zero_iff.1 h)
  · simp [hx]

example : str2oxm t!"vlan_vid=1z" = .error .assertionError ∧
    str2oxm t!"vlan=1" = .error .keyError ∧ str2oxm t!"vlan_vid" = .error .assertionError := by
  decide +kernel

/-! ## C16 -/

theorem ipv4_accepted (f : Field) (hf : f ∈ fields) (hk : f.kind = .ipv4) (A : Str) (p : Bytes)
    (hA : PlainText A) (hs : '/' ∉ A) (hn : A ≠ [])
    (h : str2oxm (f.name ++ '=' :: A) = .ok (f.header false 4 ++ p, (f.name ++ '=' :: A).length)) :
    lookupEnc f.name = some (fieldKey f, .ipv4) ∧ 2 * 4 + f.extra < 256 ∧ inetAton A = .ok p := by
  have hlim := kind_sizes f hf 4 (by rw [hk]; rfl)
  obtain ⟨k, hl, hk'⟩ := lookupEnc_of_field f hf
  have hne : f.name ≠ t!"nxm_ct_label" := by
    have : ∀ f ∈ fields, f.kind = .ipv4 → f.name ≠ t!"nxm_ct_label" := by decide +kernel
    exact this f hf hk
  have := hk' hne
  rw [hk] at this
  subst this
  have hc : Clean A := hA
  have g := getToken_plain hc.token atEnd_nil hc.plainStart hn
  rw [List.append_nil] at g
  refine ⟨hl, hlim, ?_⟩
  have hsp := split1_none '/' A (fun x hx he => hs (he ▸ hx))
  cases ha : inetAton A with
  | error e =>
    have he : encText (fieldKey f) (kindEnc .ipv4) A = .error e := by
      simp [kindEnc, encText, ipv4Str2bin, g, hsp, ha, bind, Except.bind]
    rw [str2oxm_single_err f hf A _ e hl hc hn he] at h
    cases h
  | ok q =>
    have he : encText (fieldKey f) (kindEnc .ipv4) A =
        .ok (header (fieldKey f) 4 false ++ q, A.length) := by
      simp [kindEnc, encText, ipv4Str2bin, g, hsp, ha, bind, Except.bind]
    rw [str2oxm_single f hf A _ _ hl hc hn he, header_plain f hf 4 hlim] at h
    simp only [Except.ok.injEq, Prod.mk.injEq, List.append_cancel_left_eq, and_true] at h
    rw [h]

/-- What `address/n` means for an IPv4 field: the mask `0.0.0.n`. -/
theorem C16_prefix_meaning (f : Field) (hf : f ∈ fields) (hk : f.kind = .ipv4) (A : Str) (p : Bytes)
    (hA : PlainText A) (hs : '/' ∉ A) (hn : A ≠ [])
    (h : str2oxm (f.name ++ '=' :: A) = .ok (f.header false 4 ++ p, (f.name ++ '=' :: A).length))
    (s : Str) (n : Nat) (hsn : Decimal s n) (hn32 : n ≤ 32) :
    str2oxm (f.name ++ '=' :: (A ++ '/' :: s)) =
      .ok (f.header true 8 ++ (p ++ [0, 0, 0, UInt8.ofNat n]), (f.name ++ '=' :: (A ++ '/' :: s)).length) := by
  obtain ⟨hl, hlim, ha⟩ := ipv4_accepted f hf hk A p hA hs hn h
  rw [decimal_eq hsn]
  have hc : Clean (A ++ '/' :: fmtD n) := clean_append hA (clean_cons clean_slash (fmtD_clean n))
  have g := getToken_plain hc.token atEnd_nil hc.plainStart (by simp)
  rw [List.append_nil] at g
  apply str2oxm_single f hf _ _ _ hl hc (by simp)
  have hsp := split1_some '/' A (fmtD n) (fun x hx he => hs (he ▸ hx))
  rw [← header_masked f hf 4 hlim]
  simp [encText, ipv4Str2bin, g, hsp, ha, ipv4Mask, inetAton_fmtD n (by omega), bind, Except.bind]

/-- C16: only the prefix length 0 gives the prefix mask.  Missing: every other length, see
`C16_prefix_refuted`. -/
theorem C16_prefix_zero_partial (f : Field) (hf : f ∈ fields) (hk : f.kind = .ipv4) (A : Str) (p : Bytes)
    (hA : PlainText A) (hs : '/' ∉ A) (hn : A ≠ [])
    (h : str2oxm (f.name ++ '=' :: A) = .ok (f.header false 4 ++ p, (f.name ++ '=' :: A).length)) :
    str2oxm (f.name ++ '=' :: (A ++ '/' :: t!"0")) =
      .ok (f.header true 8 ++ (p ++ prefixMask 4 0), (f.name ++ '=' :: (A ++ '/' :: t!"0")).length) :=
  C16_prefix_meaning f hf hk A p hA hs hn h t!"0" 0 ((decimal_iff _ _).2 (by decide)) (by omega)

/-- C16 fails: `address/n` never gives the prefix mask for `n` from 1 to 32 (README:
`ipv4_src=192.168.1.0/24`). -/
theorem C16_prefix_refuted (f : Field) (hf : f ∈ fields) (hk : f.kind = .ipv4) (A : Str) (p : Bytes)
    (hA : PlainText A) (hs : '/' ∉ A) (hn : A ≠ [])
    (h : str2oxm (f.name ++ '=' :: A) = .ok (f.header false 4 ++ p, (f.name ++ '=' :: A).length))
    (s : Str) (n : Nat) (hsn : Decimal s n) (h1 : 1 ≤ n) (hn32 : n ≤ 32) (l : Nat) :
    str2oxm (f.name ++ '=' :: (A ++ '/' :: s)) ≠ .ok (f.header true 8 ++ (p ++ prefixMask 4 n), l) := by
  rw [C16_prefix_meaning f hf hk A p hA hs hn h s n hsn hn32]
  intro he
  simp only [Except.ok.injEq, Prod.mk.injEq, List.append_cancel_left_eq] at he
  have key : ∀ n ≤ 32, 1 ≤ n → [0, 0, 0, UInt8.ofNat n] ≠ prefixMask 4 n := by decide +kernel
  exact key n hn32 h1 he.1

example : str2oxm t!"ipv4_src=192.168.1.0/24" =
    .ok ([128, 0, 23, 8, 192, 168, 1, 0, 0, 0, 0, 24], 23) := by decide +kernel

/-! ## C17 -/

theorem ipv6_accepted (f : Field) (hf : f ∈ fields) (hk : f.kind = .ipv6) (A : Str) (p : Bytes)
    (hA : PlainText A) (hs : '/' ∉ A) (hn : A ≠ [])
    (h : str2oxm (f.name ++ '=' :: A) = .ok (f.header false 16 ++ p, (f.name ++ '=' :: A).length)) :
    lookupEnc f.name = some (fieldKey f, .ipv6) ∧ 2 * 16 + f.extra < 256 ∧ inetPton A = .ok p := by
  have hlim := kind_sizes f hf 16 (by rw [hk]; rfl)
  obtain ⟨k, hl, hk'⟩ := lookupEnc_of_field f hf
  have hne : f.name ≠ t!"nxm_ct_label" := by
    have : ∀ f ∈ fields, f.kind = .ipv6 → f.name ≠ t!"nxm_ct_label" := by decide +kernel
    exact this f hf hk
  have := hk' hne
  rw [hk] at this
  subst this
  have hc : Clean A := hA
  have g := getToken_plain hc.token atEnd_nil hc.plainStart hn
  rw [List.append_nil] at g
  refine ⟨hl, hlim, ?_⟩
  have hsp := split1_none '/' A (fun x hx he => hs (he ▸ hx))
  cases ha : inetPton A with
  | error e =>
    have he : encText (fieldKey f) (kindEnc .ipv6) A = .error e := by
      simp [kindEnc, encText, ipv6Str2bin, g, hsp, ha, bind, Except.bind]
    rw [str2oxm_single_err f hf A _ e hl hc hn he] at h
    cases h
  | ok q =>
    have he : encText (fieldKey f) (kindEnc .ipv6) A =
        .ok (header (fieldKey f) 16 false ++ q, A.length) := by
      simp [kindEnc, encText, ipv6Str2bin, g, hsp, ha, bind, Except.bind]
    rw [str2oxm_single f hf A _ _ hl hc hn he, header_plain f hf 16 hlim] at h
    simp only [Except.ok.injEq, Prod.mk.injEq, List.append_cancel_left_eq, and_true] at h
    rw [h]

theorem ipv6_with_mask (f : Field) (hf : f ∈ fields) (hk : f.kind = .ipv6) (A : Str) (p : Bytes)
    (hA : PlainText A) (hs : '/' ∉ A) (hn : A ≠ [])
    (h : str2oxm (f.name ++ '=' :: A) = .ok (f.header false 16 ++ p, (f.name ++ '=' :: A).length))
    (n : Nat) :
    (∀ m, ipv6Mask (fmtD n) = .ok m → str2oxm (f.name ++ '=' :: (A ++ '/' :: fmtD n)) =
      .ok (f.header true 32 ++ (p ++ m), (f.name ++ '=' :: (A ++ '/' :: fmtD n)).length)) ∧
    (∀ e, ipv6Mask (fmtD n) = .error e → str2oxm (f.name ++ '=' :: (A ++ '/' :: fmtD n)) = .error e) := by
  obtain ⟨hl, hlim, ha⟩ := ipv6_accepted f hf hk A p hA hs hn h
  have hc : Clean (A ++ '/' :: fmtD n) := clean_append hA (clean_cons clean_slash (fmtD_clean n))
  have g := getToken_plain hc.token atEnd_nil hc.plainStart (by simp)
  rw [List.append_nil] at g
  have hsp := split1_some '/' A (fmtD n) (fun x hx he => hs (he ▸ hx))
  constructor
  · intro m hm
    apply str2oxm_single f hf _ _ _ hl hc (by simp)
    rw [← header_masked f hf 16 hlim]
    simp [encText, ipv6Str2bin, g, hsp, ha, hm, bind, Except.bind]
  · intro e hm
    apply str2oxm_single_err f hf _ _ _ hl hc (by simp)
    simp [encText, ipv6Str2bin, g, hsp, ha, hm, bind, Except.bind]

/-- C17: only the prefix length 128 works.  Missing: every other length, see
`C17_prefix_refuted`. -/
theorem C17_prefix_full_partial (f : Field) (hf : f ∈ fields) (hk : f.kind = .ipv6) (A : Str) (p : Bytes)
    (hA : PlainText A) (hs : '/' ∉ A) (hn : A ≠ [])
    (h : str2oxm (f.name ++ '=' :: A) = .ok (f.header false 16 ++ p, (f.name ++ '=' :: A).length)) :
    str2oxm (f.name ++ '=' :: (A ++ '/' :: t!"128")) =
      .ok (f.header true 32 ++ (p ++ prefixMask 16 128), (f.name ++ '=' :: (A ++ '/' :: t!"128")).length) :=
  (ipv6_with_mask f hf hk A p hA hs hn h 128).1 (prefixMask 16 128) (by decide +kernel)

/-- C17 fails: a shorter prefix length is never accepted (`struct.error`), a longer one rightly
not. -/
theorem C17_prefix_refuted (f : Field) (hf : f ∈ fields) (hk : f.kind = .ipv6) (A : Str) (p : Bytes)
    (hA : PlainText A) (hs : '/' ∉ A) (hn : A ≠ [])
    (h : str2oxm (f.name ++ '=' :: A) = .ok (f.header false 16 ++ p, (f.name ++ '=' :: A).length))
    (s : Str) (n : Nat) (hsn : Decimal s n) :
    (n < 128 → str2oxm (f.name ++ '=' :: (A ++ '/' :: s)) = .error .structError) ∧
    (128 < n → str2oxm (f.name ++ '=' :: (A ++ '/' :: s)) = .error .valueError) := by
  rw [decimal_eq hsn]
  constructor
  · intro hlt
    apply (ipv6_with_mask f hf hk A p hA hs hn h n).2
    have key : ∀ n < 128, ipv6Mask (fmtD n) = .error .structError := by decide +kernel
    exact key n hlt
  · intro hlt
    apply (ipv6_with_mask f hf hk A p hA hs hn h n).2
    unfold ipv6Mask
    rw [inetPton_fmtD, pyInt_fmtD]
    have : (128 : Int) - n < 0 := by omega
    simp [bind, Except.bind, this]

example : str2oxm t!"ipv6_dst=2001:db8::1" = .ok ([128, 0, 54, 16, 32, 1, 13, 184, 0, 0, 0, 0, 0, 0, 0,
    0, 0, 0, 0, 1], 20) ∧ str2oxm t!"ipv6_dst=2001:db8::1/64" = .error .structError := by decide +kernel

/-! ## C25 -/

/-- C25: the decoders finish on every byte string. -/
theorem C25_decoders_end (b : Bytes) : oxm2str b ≠ .error .loops ∧ oxmid2str b ≠ .error .loops :=
  ⟨ends_oxm2str b, ends_oxmid2str b⟩

/-- C25: a TLV of an unknown class is printed as `?` and skipped by its length. -/
theorem C25_unknown_class (a b c l : UInt8) (body rest : Bytes)
    (h : a.toNat * 256 + b.toNat ∉ [0, 1, 0x8000, 0xffff]) (hl : body.length = l.toNat) :
    oxm2str (a :: b :: c :: l :: (body ++ rest)) =
      if rest.length < 4 then .ok t!"?" else (oxm2str rest).map (t!"?," ++ ·) :=
  oxm2str_question a b c l body rest hl (oxm2strOne_unknown_class a b c l _ h)

/-- C25: the same for an unknown experimenter. -/
theorem C25_unknown_experimenter (c l e1 e2 e3 e4 : UInt8) (body rest : Bytes)
    (h : [e1, e2, e3, e4] ≠ u32 0xff00e04d) (hl : 4 + body.length = l.toNat) :
    oxm2str (255 :: 255 :: c :: l :: e1 :: e2 :: e3 :: e4 :: (body ++ rest)) =
      if rest.length < 4 then .ok t!"?" else (oxm2str rest).map (t!"?," ++ ·) := by
  have := oxm2str_question 255 255 c l (e1 :: e2 :: e3 :: e4 :: body) rest (by simp; omega)
    (oxm2strOne_unknown_exp c l e1 e2 e3 e4 (body ++ rest) h)
  simpa using this

/-- C25: an experimenter TLV cut off before the experimenter id raises `struct.error`. -/
theorem C25_short_experimenter (c l : UInt8) (x : Bytes) (h : x.length < 4) :
    oxm2str (255 :: 255 :: c :: l :: x) = .error .structError := by
  have h0 : uAt (255 :: 255 :: c :: l :: x) 0 2 = 0xffff := by simp [uAt, slice, beVal]
  unfold oxm2str
  rw [oxm2strGo, if_neg (by simp)]
  unfold oxm2strOne
  have hn : needBytes (255 :: 255 :: c :: l :: x) 4 4 = .error .structError := by
    unfold needBytes
    rw [if_neg]
    simp
    omega
  simp [h0, OFPXMC_EXPERIMENTER, hn, bind, Except.bind]

example : oxm2str [128, 1, 0, 2, 9, 9, 128, 0, 14, 1, 2] = .ok t!"?,vlan_pcp=2" := by decide +kernel

end Ofpstr
