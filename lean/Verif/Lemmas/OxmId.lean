import Verif.Lemmas.Items

/-!
# OXM ids, integer texts, single items
-/

namespace Ofpstr
open Spec

/-! ## ids -/

def idOk (f : Field) : Bool :=
  match lookupEnc f.name with
  | some (key, k) => key == fieldKey f && (k == kindEnc f.kind || f.name == t!"nxm_ct_label")
  | none => false

theorem table_ids : ∀ f ∈ fields, idOk f = true := by decide +kernel

def idNameOk (f : Field) : Bool :=
  match lookupDec (fieldKey f) with
  | some d => decId d == f.name
  | none => false

theorem table_id_names : ∀ f ∈ fields, f.name ≠ t!"nxm_ip_frag" → idNameOk f = true := by
  decide +kernel

theorem fields_underscore : ∀ f ∈ fields, f.name ≠ t!"_" := by decide +kernel

theorem lookupEnc_of_field (f : Field) (h : f ∈ fields) :
    ∃ k, lookupEnc f.name = some (fieldKey f, k) ∧ (f.name ≠ t!"nxm_ct_label" → k = kindEnc f.kind) := by
  have := table_ids f h
  unfold idOk at this
  split at this
  · rename_i key k hl
    simp only [Bool.and_eq_true, beq_iff_eq, Bool.or_eq_true] at this
    refine ⟨k, by rw [hl, this.1], fun hn => ?_⟩
    rcases this.2 with h | h
    · exact h
    · exact absurd h hn
  · cases this

/-- An id is a header. -/
theorem encId_header (key : Key) (k : Enc) (hm : Bool) :
    ∃ n hm', encId key k hm = header key n hm' := by
  cases k <;> exact ⟨_, _, rfl⟩

theorem str2oxmidGo_names (hm : Bool) (fs : List Field) (h : Str) (hh : h = [] ∨ h = [','])
    (hfs : ∀ f ∈ fs, f ∈ fields) (hne : fs = [] → h = []) (fuel : Nat)
    (hf : (h ++ joinStr t!"," (fs.map (·.name))).length < fuel) :
    str2oxmidGo hm fuel (h ++ joinStr t!"," (fs.map (·.name))) =
      .ok (fs.flatMap fun f => match lookupEnc f.name with
        | some (key, k) => encId key k hm
        | none => []) := by
  induction fs generalizing h fuel with
  | nil =>
    cases fuel with
    | zero => simp at hf
    | succ fuel => simp [hne rfl, joinStr, str2oxmidGo]
  | cons f fs ih =>
    cases fuel with
    | zero => simp at hf
    | succ fuel =>
      have hff := hfs f (by simp)
      obtain ⟨hc, hn, _⟩ := field_name f hff
      have hhd : Head h := by rcases hh with rfl | rfl; exacts [head_nil, head_comma]
      have hsplit : ∃ r, h ++ joinStr t!"," ((f :: fs).map (·.name)) = h ++ (f.name ++ r) ∧ AtEnd r ∧
          r = (if fs = [] then [] else t!",") ++ joinStr t!"," (fs.map (·.name)) := by
        cases fs with
        | nil => exact ⟨[], by simp [joinStr], atEnd_nil, by simp [joinStr]⟩
        | cons y fs =>
          exact ⟨',' :: joinStr t!"," ((y :: fs).map (·.name)), by simp [joinStr], atEnd_comma _, by simp⟩
      obtain ⟨r, hs, hr, hre⟩ := hsplit
      rw [hs] at hf ⊢
      have hg := getToken_head hhd hc.token hr hc.plainStart hn
      have hemp : (h ++ (f.name ++ r)).isEmpty = false := by
        cases hfn : f.name with
        | nil => exact absurd hfn hn
        | cons c t => simp
      have hlen : r.length < fuel := by
        have : 0 < f.name.length := List.length_pos_iff.2 hn
        simp at hf; omega
      have hrec := ih (if fs = [] then [] else t!",") (by split <;> simp)
        (fun y hy => hfs y (by simp [hy])) (by intro h; simp [h]) fuel (by rw [← hre]; exact hlen)
      rw [← hre] at hrec
      have hu : (f.name == t!"_") = false := by simpa using fields_underscore f hff
      rw [str2oxmidGo]
      simp only [hemp, hg, hu, hrec, bind, Except.bind]
      simp
      rfl

theorem oxmid2strOne_header (key : Key) (n : Nat) (hm : Bool) (d : Dec) (rest : Bytes)
    (hk : key.num < 128) (hd : lookupDec key = some d) :
    oxmid2strOne (header key n hm ++ rest) = .ok (decId d, 4 + extra key.cls) := by
  obtain ⟨h1, h2, _⟩ := header_nums key n hm rest hk
  have hlen := header_length key n hm
  have hnum : (2 * key.num + if hm then 1 else 0) / 2 = key.num := by
    cases hm <;> simp
    omega
  have hget : getDec key = .ok d := by simp [getDec, hd]
  rcases key with ⟨c, num⟩
  unfold oxmid2strOne
  simp only [h1, h2, hnum]
  cases c with
  | stratos =>
    have h4 := header_exp ⟨.stratos, num⟩ n hm rest rfl
    have hnb : needBytes (header ⟨.stratos, num⟩ n hm ++ rest) 4 4 = .ok () := by
      unfold needBytes
      rw [if_pos]
      rw [List.length_append, hlen]; simp [extra]
    simp only [Cls.code, hnb, h4, hget, bind, Except.bind]
    simp [OFPXMC_EXPERIMENTER, extra]
  | basic =>
    simp only [Cls.code, hget, bind, Except.bind]
    simp [OFPXMC_EXPERIMENTER, OFPXMC_OPENFLOW_BASIC, extra]
  | nxm0 =>
    simp only [Cls.code, hget, bind, Except.bind]
    simp [OFPXMC_EXPERIMENTER, OFPXMC_OPENFLOW_BASIC, OFPXMC_NXM_0, extra]
  | nxm1 =>
    simp only [Cls.code, hget, bind, Except.bind]
    simp [OFPXMC_EXPERIMENTER, OFPXMC_OPENFLOW_BASIC, OFPXMC_NXM_0, OFPXMC_NXM_1, extra]

theorem oxmid2strGo_names (hm : Bool) (fs : List Field) (hfs : ∀ f ∈ fs, f ∈ fields)
    (hfr : ∀ f ∈ fs, f.name ≠ t!"nxm_ip_frag") (fuel : Nat)
    (hf : (fs.flatMap fun f => match lookupEnc f.name with
        | some (key, k) => encId key k hm
        | none => []).length < fuel) :
    oxmid2strGo fuel (fs.flatMap fun f => match lookupEnc f.name with
        | some (key, k) => encId key k hm
        | none => []) = .ok (fs.map (·.name)) := by
  induction fs generalizing fuel with
  | nil =>
    cases fuel with
    | zero => simp at hf
    | succ fuel => simp [oxmid2strGo]
  | cons f fs ih =>
    cases fuel with
    | zero => simp at hf
    | succ fuel =>
      have hff := hfs f (by simp)
      obtain ⟨_, _, hnum⟩ := field_name f hff
      obtain ⟨k, hl, _⟩ := lookupEnc_of_field f hff
      obtain ⟨n, hm', he⟩ := encId_header (fieldKey f) k hm
      have hid := table_id_names f hff (hfr f (by simp))
      unfold idNameOk at hid
      cases hd : lookupDec (fieldKey f) with
      | none => simp [hd] at hid
      | some d =>
        simp [hd] at hid
        simp only [List.flatMap_cons, hl, he] at hf ⊢
        have hlen := header_length (fieldKey f) n hm'
        have hone := oxmid2strOne_header (fieldKey f) n hm' d
          (fs.flatMap fun f => match lookupEnc f.name with
            | some (key, k) => encId key k hm
            | none => []) hnum hd
        have hrec := ih (fun x hx => hfs x (by simp [hx])) (fun x hx => hfr x (by simp [hx])) fuel
          (by simp only [List.length_append, hlen] at hf; omega)
        rw [oxmid2strGo, if_neg (by simp only [List.length_append, hlen]; omega)]
        simp only [hone, bind, Except.bind]
        rw [List.drop_left' hlen, hrec]
        simp [hid]

/-! ## integer texts -/

theorem numeral_hex {b : Nat} (hb : b ≤ 16) {ds : Str} {n : Nat} (h : Numeral b ds n) :
    ∀ c ∈ ds, isHex c = true := by
  intro c hc
  obtain ⟨d, hd⟩ := ((numeral_iff b hb ds n).1 h).2.1 c hc
  exact (isHex_iff c).2 ⟨d, hd.mono hd.lt16⟩

/-- The characters of an integer text. -/
theorem intSyntax_chars {u : Str} {v : Int} {l : Nat} (h : IntSyntax u v l) :
    l ≤ u.length ∧ 0 < l ∧ ∀ c ∈ u.take l, CleanChar c ∧ c ≠ '/' ∧ c ≠ ':' := by
  have hx : ∀ c, isHex c = true → CleanChar c ∧ c ≠ '/' ∧ c ≠ ':' := fun c hc =>
    ⟨isHex_clean hc, (isHex_ne hc).1, (isHex_ne hc).2.1⟩
  have hn : ∀ b ds n, Numeral b ds n → 0 < ds.length := by
    intro b ds n h
    cases h <;> simp
  cases h with
  | neg ds r n h1 _ =>
    refine ⟨by simp; omega, by omega, ?_⟩
    intro c hc
    have e : ('-' :: ds ++ r).take (1 + ds.length) = '-' :: ds := by
      rw [Nat.add_comm]; exact List.take_left' (by simp)
    rw [e] at hc
    rcases List.mem_cons.1 hc with rfl | hc
    · decide
    · exact hx c (numeral_hex (by omega) h1 c hc)
  | hex x ds r n h0 h1 _ =>
    refine ⟨by simp; omega, by omega, ?_⟩
    intro c hc
    have e : ('0' :: x :: ds ++ r).take (2 + ds.length) = '0' :: x :: ds := by
      rw [Nat.add_comm]; exact List.take_left' (by simp)
    rw [e] at hc
    rcases List.mem_cons.1 hc with rfl | hc
    · decide
    · rcases List.mem_cons.1 hc with rfl | hc
      · rcases h0 with rfl | rfl <;> decide
      · exact hx c (numeral_hex (by omega) h1 c hc)
  | oct ds r n h1 _ _ =>
    refine ⟨by simp; omega, by omega, ?_⟩
    intro c hc
    have e : ('0' :: ds ++ r).take (1 + ds.length) = '0' :: ds := by
      rw [Nat.add_comm]; exact List.take_left' (by simp)
    rw [e] at hc
    rcases List.mem_cons.1 hc with rfl | hc
    · decide
    · exact hx c (numeral_hex (by omega) h1 c hc)
  | dec ds r n h1 _ _ _ =>
    refine ⟨by simp, hn _ _ _ h1, ?_⟩
    intro c hc
    rw [List.take_left] at hc
    exact hx c (numeral_hex (by omega) h1 c hc)

theorem intSyntax_clean {s : Str} {v : Int} (h : IntSyntax s v s.length) :
    Clean s ∧ s ≠ [] ∧ ∀ c ∈ s, c ≠ '/' ∧ c ≠ ':' := by
  obtain ⟨_, h2, h3⟩ := intSyntax_chars h
  rw [List.take_length] at h3
  exact ⟨fun c hc => (h3 c hc).1, List.length_pos_iff.1 h2, fun c hc => (h3 c hc).2⟩

theorem intSyntax_clean_front {s r : Str} {v : Int} (h : IntSyntax (s ++ r) v s.length) :
    Clean s ∧ s ≠ [] := by
  obtain ⟨_, h2, h3⟩ := intSyntax_chars h
  rw [List.take_left] at h3
  exact ⟨fun c hc => (h3 c hc).1, List.length_pos_iff.1 h2⟩

/-! ## single items -/

/-- A single `name=value` text, when the encoder reads the value. -/
theorem str2oxm_single (f : Field) (hf : f ∈ fields) (v : Str) (k : Enc) (out : Bytes)
    (hl : lookupEnc f.name = some (fieldKey f, k)) (hv : Clean v) (hvn : v ≠ [])
    (he : encText (fieldKey f) k v = .ok (out, v.length)) :
    str2oxm (f.name ++ '=' :: v) = .ok (out, (f.name ++ '=' :: v).length) := by
  obtain ⟨n1, n2, _⟩ := field_name f hf
  have := str2oxm_items [(f.name ++ '=' :: v, out)] (by
    intro x hx
    simp only [List.mem_singleton] at hx
    subst hx
    exact ⟨f.name, v, _, _, rfl, n1, n2, hv, hvn, hl, he⟩)
  simpa [joinStr] using this

/-- A single `name=value` text, when the encoder fails. -/
theorem str2oxm_single_err (f : Field) (hf : f ∈ fields) (v : Str) (k : Enc) (e : Err)
    (hl : lookupEnc f.name = some (fieldKey f, k)) (hv : Clean v) (hvn : v ≠ [])
    (he : encText (fieldKey f) k v = .error e) :
    str2oxm (f.name ++ '=' :: v) = .error e := by
  obtain ⟨n1, n2, _⟩ := field_name f hf
  have g1 := getToken_plain n1.token (atEnd_eq v) n1.plainStart n2
  have g2 := getToken_eq hv.token atEnd_nil hv.plainStart hvn
  rw [List.append_nil] at g2
  unfold str2oxm str2oxmL
  rw [str2oxmGo, if_neg (by simp)]
  unfold str2oxmOne
  simp only [g1, g2, hl, he, bind, Except.bind]
  simp [pyAssert, hasChar]

/-- A single `name=value` text, when the encoder stops inside the value. -/
theorem str2oxm_single_short (f : Field) (hf : f ∈ fields) (v : Str) (k : Enc) (out : Bytes) (l : Nat)
    (hl : lookupEnc f.name = some (fieldKey f, k)) (hv : Clean v) (hvn : v ≠ [])
    (he : encText (fieldKey f) k v = .ok (out, l)) (h0 : l ≠ 0) (h1 : l ≠ v.length) :
    str2oxm (f.name ++ '=' :: v) = .error .assertionError := by
  obtain ⟨n1, n2, _⟩ := field_name f hf
  have g1 := getToken_plain n1.token (atEnd_eq v) n1.plainStart n2
  have g2 := getToken_eq hv.token atEnd_nil hv.plainStart hvn
  rw [List.append_nil] at g2
  unfold str2oxm str2oxmL
  rw [str2oxmGo, if_neg (by simp)]
  unfold str2oxmOne
  simp only [g1, g2, hl, he, bind, Except.bind]
  simp [pyAssert, hasChar, h0, h1]

/-- The header of the specification, as the library writes it. -/
theorem field_header (f : Field) (hf : f ∈ fields) (n : Nat) (hm : Bool)
    (hfit : (if hm then 2 * n else n) + (if f.experimenter then 4 else 0) < 256) :
    header (fieldKey f) n hm = f.header hm (if hm then 2 * n else n) := by
  have hok := table_fields _ hf
  simp only [fieldOk, Bool.and_eq_true, decide_eq_true_eq] at hok
  obtain ⟨⟨⟨h1, h2⟩, h3⟩, h4⟩ := hok
  have hx := fieldKey_extra f h2
  unfold Field.header u16 u8 u32
  rw [header_eq, h2, hx, show min 255 ((if hm = true then 2 * n else n) + if f.experimenter = true then 4 else 0)
    = (if hm then 2 * n else n) + (if f.experimenter then 4 else 0) by omega]
  simp only [spec_be, List.append_assoc]
  have he : expId (fieldKey f).cls = if f.experimenter then beBytes 4 4278247501 else [] := by
    unfold expId Field.experimenter
    rw [← h2]
    cases (fieldKey f).cls <;> simp [Cls.code, STRATOS_EXPERIMENTER_ID]
  have hnum : (fieldKey f).num = f.num := rfl
  rw [hnum, he]

/-- A header with the length byte at its limit. -/
theorem field_header_255 (f : Field) (hf : f ∈ fields) :
    header (fieldKey f) 255 false = f.header false (255 - if f.experimenter then 4 else 0) := by
  have hok := table_fields _ hf
  simp only [fieldOk, Bool.and_eq_true, decide_eq_true_eq] at hok
  obtain ⟨⟨⟨h1, h2⟩, h3⟩, h4⟩ := hok
  have hx := fieldKey_extra f h2
  unfold Field.header u16 u8 u32
  have hl : (255 - if f.experimenter = true then 4 else 0) + (if f.experimenter = true then 4 else 0) = 255 := by
    split <;> omega
  rw [header_eq, h2, hx, hl]
  simp only [spec_be, List.append_assoc]
  have he : expId (fieldKey f).cls = if f.experimenter then beBytes 4 4278247501 else [] := by
    unfold expId Field.experimenter
    rw [← h2]
    cases (fieldKey f).cls <;> simp [Cls.code, STRATOS_EXPERIMENTER_ID]
  have hnum : (fieldKey f).num = f.num := rfl
  rw [hnum, he]
  congr 3
  simp

theorem kind_sizes : ∀ f ∈ fields, ∀ n, f.kind.size = some n →
    2 * n + (if f.experimenter then 4 else 0) < 256 := by
  have key : ∀ f ∈ fields, (match f.kind.size with
      | some n => decide (2 * n + (if f.experimenter then 4 else 0) < 256)
      | none => true) = true := by decide +kernel
  intro f hf n hn
  have := key f hf
  rw [hn] at this
  simpa using this

end Ofpstr
