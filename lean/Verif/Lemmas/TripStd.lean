import Verif.Lemmas.ActTrip
import Verif.Props.Act

/-!
# Printing and parsing the standard actions and the simple Nicira actions
-/

namespace Ofpstr
open Spec

theorem intSyntax_fmtI (f : IFmt) (n : Nat) : IntSyntax (fmtI f n) n (fmtI f n).length :=
  (parseInt_iff _ _ _).1 (parseInt_fmtI_all f n)

theorem intSyntax_fmtD (n : Nat) : IntSyntax (fmtD n) n (fmtD n).length := intSyntax_fmtI .dec n
theorem intSyntax_fmtX (w n : Nat) : IntSyntax (fmtX w n) n (fmtX w n).length := intSyntax_fmtI (.hex w) n

theorem fmtX_ne_nil (w n : Nat) : fmtX w n ≠ [] := fmtI_ne_nil (.hex w) n

theorem plainStart_append {s t : Str} (h : PlainStart s) (hn : s ≠ []) : PlainStart (s ++ t) := by
  cases s with
  | nil => exact absurd rfl hn
  | cons c s =>
    intro x y hx
    simp only [List.cons_append, List.cons.injEq] at hx
    exact h x s (by rw [hx.1])

theorem head_append {s t : Str} (c : Char) (h : s.head? ≠ some c) (hn : s ≠ []) :
    (s ++ t).head? ≠ some c := by
  cases s with
  | nil => exact absurd rfl hn
  | cons x s => simpa using h

/-! ## Standard actions -/

/-- A standard action from its parts. -/
theorem std_trip (t : Nat) (body : Bytes) (text : Str) (d : ActDec) (ht : t < 65536) (h1 : t ≠ 25)
    (h2 : t ≠ 0xffff) (hl : 4 + body.length < 65536) (hb : 0 < body.length)
    (hd : lookupActDec (.std t) = some d) (hp : runActDec d body = .ok text) (hn : text ≠ [])
    (hs : PlainStart text) (hat : text.head? ≠ some '@') (hli : '\n' ∉ text)
    (hr : ∀ h r, Head h → AtEnd r → str2act (h ++ (text ++ r)) =
      .ok (u16 t ++ (u16 (4 + body.length) ++ body), h.length + text.length)) :
    ActTrip (u16 t ++ (u16 (4 + body.length) ++ body)) text := by
  have hlen : (u16 t ++ (u16 (4 + body.length) ++ body)).length = 4 + body.length := by
    simp [u16_length]; omega
  have hd' := fun rest => std_prints t body rest d ht h1 h2 hl hd
  exact ⟨by omega, by omega, fun rest => by rw [(hd' rest).2, hlen],
    fun rest => by rw [(hd' rest).1, hp], hn, hs, hat, hli, hr⟩

/-- The decoder of a standard action. -/
def stdDec (a : StdAct) : ActDec :=
  match a.arg with
  | .none => .generic a.name
  | .ttl => .uint a.name 1 3
  | .word => .uint a.name 4 0
  | .ether => .push a.name

theorem std_lookup_dec : ∀ a ∈ stdActs, a.name ≠ t!"set_nw_ttl" →
    lookupActDec (.std a.type) = some (stdDec a) ∧ a.type ≠ 25 ∧ a.type ≠ 0xffff ∧
    a.name.head? ≠ some '@' := by decide +kernel

/-- The text of the argument. -/
def stdArgText : ActArg → Nat → Str
  | .none, _ => []
  | .ttl, n => '=' :: fmtD n
  | .word, n => '=' :: fmtD n
  | .ether, n => '=' :: fmtX 6 n

theorem stdArgText_line (a : ActArg) (n : Nat) : '\n' ∉ stdArgText a n := by
  cases a with
  | none => exact List.not_mem_nil
  | ttl => exact line_cons (by decide) (line_clean (fmtD_clean n))
  | word => exact line_cons (by decide) (line_clean (fmtD_clean n))
  | ether => exact line_cons (by decide) (line_clean (fmtX_clean 6 n))

theorem body_length (a : ActArg) (n : Nat) : (a.body n).length = 4 := by
  cases a <;> simp [ActArg.body, u8_length, u16_length, u32_length, pad_length]

theorem std_prints_arg (a : StdAct) (n : Nat) (hn : n < 256 ^ a.arg.size) :
    runActDec (stdDec a) (a.arg.body n) = .ok (a.name ++ stdArgText a.arg n) := by
  unfold stdDec
  cases h : a.arg with
  | none =>
    simp only [runActDec, genericAct2str, ActArg.body, stdArgText, List.append_nil]
    rfl
  | ttl =>
    rw [h] at hn
    simp only [runActDec, uintAct2str, ActArg.body, stdArgText]
    rw [needBytes_ok _ _ _ (by simp [u8_length, pad_length]), show u8 n ++ pad 3 = be 1 n ++ pad 3 from rfl,
      uAt_here 1 n _ (by simpa [ActArg.size] using hn)]
    rfl
  | word =>
    rw [h] at hn
    simp only [runActDec, uintAct2str, ActArg.body, stdArgText]
    rw [needBytes_ok _ _ _ (by simp [u32_length]), show u32 n = be 4 n from rfl,
      uAt_here' 4 n (by simpa [ActArg.size] using hn)]
    rfl
  | ether =>
    rw [h] at hn
    simp only [runActDec, pushAct2str, ActArg.body, stdArgText]
    rw [needBytes_ok _ _ _ (by simp [u16_length, pad_length]), show u16 n ++ pad 2 = be 2 n ++ pad 2 from rfl,
      uAt_here 2 n _ (by simpa [ActArg.size] using hn)]
    rfl

theorem trip_std (a : StdAct) (n : Nat) (ha : a ∈ stdActs) (hn : n < 256 ^ a.arg.size)
    (hne : a.name ≠ t!"set_nw_ttl") : ∃ text, ActTrip (a.wire n) text := by
  obtain ⟨h1, h2, h3, h4⟩ := std_lookup a ha
  obtain ⟨g1, g2, g3, g4⟩ := std_lookup_dec a ha hne
  refine ⟨a.name ++ stdArgText a.arg n, ?_⟩
  have hw : a.wire n = u16 a.type ++ (u16 (4 + (a.arg.body n).length) ++ a.arg.body n) := by
    rw [body_length]; rfl
  have hr : ∀ h r, Head h → AtEnd r → str2act (h ++ (a.name ++ stdArgText a.arg n ++ r)) =
      .ok (a.wire n, h.length + (a.name ++ stdArgText a.arg n).length) := by
    intro h r hh hr
    by_cases harg : a.arg = .none
    · have := C26_no_argument a ha harg h r hh hr
      have hz : n = 0 := by rw [harg] at hn; simpa [ActArg.size] using hn
      rw [harg, hz]
      simpa [stdArgText] using this
    · have key : ∃ f, stdArgText a.arg n = '=' :: fmtI f n := by
        cases h : a.arg with
        | none => exact absurd h harg
        | ttl => exact ⟨.dec, rfl⟩
        | word => exact ⟨.dec, rfl⟩
        | ether => exact ⟨.hex 6, rfl⟩
      obtain ⟨f, hf⟩ := key
      rw [hf]
      have := (C26_argument_partial a ha harg hne h r (fmtI f n) (a.name ++ '=' :: fmtI f n) n hh hr
        (intSyntax_fmtI f n) .eq).1 ⟨by omega, by exact_mod_cast hn⟩
      simpa using this
  rw [hw] at hr ⊢
  exact std_trip a.type _ _ (stdDec a) h4 g2 g3 (by rw [body_length]; omega) (by rw [body_length]; omega)
    g1 (std_prints_arg a n hn) (by simp [h3]) (plainStart_append h2.plainStart h3) (head_append _ g4 h3)
    (line_append (line_clean h2) (stdArgText_line _ _)) hr

theorem nameOrD_port (n : Nat) : PortText (nameOrD ofpp n) n := by
  unfold nameOrD
  cases h : ofpp.find? (fun e => e.1 == n) with
  | none => exact .num _ _ (intSyntax_fmtD n)
  | some e =>
    have h1 := List.mem_of_find?_eq_some h
    have h2 := List.find?_some h
    have h3 : e.1 = n := by simpa using h2
    have key : ∀ e ∈ ofpp, (e.1, e.2) ∈ reservedPorts := by decide
    rw [← h3]
    exact .name e.1 e.2 (key e h1)

theorem trip_output (port maxLen : Nat) (hp : port < 256 ^ 4) (hm : maxLen < 256 ^ 2)
    (hl : port = 0xfffffffd ∨ maxLen = 0xffff) : ∃ text, ActTrip (outputWire port maxLen) text := by
  have hw : outputWire port maxLen = u16 0 ++ (u16 (4 + (u32 port ++ (u16 maxLen ++ pad 6)).length) ++
      (u32 port ++ (u16 maxLen ++ pad 6))) := by
    simp [outputWire, u32_length, u16_length, pad_length]
  have hlen : (u32 port ++ (u16 maxLen ++ pad 6)).length = 12 := by
    simp [u32_length, u16_length, pad_length]
  have e1 : uAt (u32 port ++ (u16 maxLen ++ pad 6)) 0 4 = port := uAt_here 4 port _ hp
  have e2 : uAt (u32 port ++ (u16 maxLen ++ pad 6)) 4 2 = maxLen := by
    unfold u32
    rw [uAt_skip _ _ _ _ _ (by omega)]
    exact uAt_here 2 maxLen _ hm
  have hd : lookupActDec (.std 0) = some .output := by decide
  have hprint : runActDec .output (u32 port ++ (u16 maxLen ++ pad 6)) =
      .ok (t!"output=" ++ (nameOrD ofpp port ++ (if maxLen = 0xffff then [] else ':' :: fmtX 0 maxLen))) := by
    simp only [runActDec, outputAct2str]
    rw [if_neg (by simp [hlen]), e1, e2]
    by_cases h : maxLen = 0xffff
    · rw [if_pos h, if_neg (by simp [h, OFPCML_NO_BUFFER]), List.append_nil]
    · have hp : port = 0xfffffffd := by
        rcases hl with hl | hl
        · exact hl
        · exact absurd hl h
      rw [if_neg h, if_pos (by simp [h, hp, OFPCML_NO_BUFFER, OFPP_CONTROLLER])]
  refine ⟨t!"output=" ++ (nameOrD ofpp port ++ (if maxLen = 0xffff then [] else ':' :: fmtX 0 maxLen)), ?_⟩
  have hport := nameOrD_port port
  have hr : ∀ h r, Head h → AtEnd r → str2act (h ++ (t!"output=" ++ (nameOrD ofpp port ++
      (if maxLen = 0xffff then [] else ':' :: fmtX 0 maxLen)) ++ r)) =
      .ok (outputWire port maxLen, h.length + (t!"output=" ++ (nameOrD ofpp port ++
      (if maxLen = 0xffff then [] else ':' :: fmtX 0 maxLen))).length) := by
    intro h r hh hr
    have key := C26_output h r (nameOrD ofpp port)
    by_cases hx : maxLen = 0xffff
    · have := ((key (t!"output" ++ '=' :: nameOrD ofpp port) port hh hr hport).1 .eq).1
        ⟨by omega, by exact_mod_cast hp⟩
      rw [if_pos hx, hx]
      simpa using this
    · have := ((key (t!"output" ++ '=' :: (nameOrD ofpp port ++ ':' :: fmtX 0 maxLen)) port hh hr hport).2
        (fmtX 0 maxLen) maxLen (intSyntax_fmtX 0 maxLen) .eq).1
        ⟨⟨by omega, by exact_mod_cast hp⟩, by omega, by exact_mod_cast hm⟩
      rw [if_neg hx]
      simpa using this
  rw [hw] at hr ⊢
  exact std_trip 0 _ _ .output (by omega) (by omega) (by omega) (by omega) (by omega) hd hprint (by simp)
    (plainStart_cons (by decide) _) (by simp) (line_append (by decide) (line_append (line_clean (portText_clean hport).1) (by
      split
      · exact List.not_mem_nil
      · exact line_cons (by decide) (line_clean (fmtX_clean 0 maxLen))))) hr

/-! ## `set_field` -/

theorem tlvText_line (t : Tlv) (hv : t.Valid) (hl : t.Lossless) : '\n' ∉ tlvText t := by
  obtain ⟨d, hd, hk, hdec, c1, c2, henc⟩ := tlvText_spec t hv hl
  obtain ⟨n1, n2, _⟩ := field_name _ hv.mem
  exact line_append (line_clean n1) (line_cons (by decide) (line_clean c1))

theorem oxm2str1_tlv (t : Tlv) (hv : t.Valid) (hl : t.Lossless) (rest : Bytes) :
    oxm2str1 (t.wire ++ rest) = .ok (tlvText t) := by
  obtain ⟨d, hd, _, hdec, _⟩ := tlvText_spec t hv hl
  obtain ⟨w1, w2, w3⟩ := tlv_wire t hv t.value.length rfl
  have hk : (fieldKey t.field).num < 128 := (field_name _ hv.mem).2.2
  have := (oxm2strOne_tlv (fieldKey t.field) t.value.length t.mask.isSome d t.body rest hk hd w2 w3).1
  unfold oxm2str1
  rw [w1, List.append_assoc, if_neg, this, hdec]
  simp only [List.length_append, header_length]
  omega

theorem str2oxm_tlv (t : Tlv) (hv : t.Valid) (hl : t.Lossless) :
    str2oxm (tlvText t) = .ok (t.wire, (tlvText t).length) := by
  have key := (oxm_list [t] (by simpa using ⟨hv, hl⟩)).2
  simpa [wireAll, joinStr] using key

theorem tlv_length (t : Tlv) (hv : t.Valid) : 4 ≤ t.wire.length ∧ t.wire.length < 264 := by
  obtain ⟨w1, w2, w3⟩ := tlv_wire t hv t.value.length rfl
  rw [w1]
  have : extra (fieldKey t.field).cls ≤ 4 := by
    unfold extra
    cases (fieldKey t.field).cls <;> simp
  simp only [List.length_append, header_length]
  omega

theorem setField_prints (oxm rest : Bytes) (hl : (setFieldWire oxm).length < 65536) :
    act2strOne (setFieldWire oxm ++ rest) =
      (oxm2str1 (oxm ++ (fill (4 + oxm.length) ++ rest))).bind (fun s => .ok (t!"set_" ++ s)) ∧
    uAt (setFieldWire oxm ++ rest) 2 2 = (setFieldWire oxm).length := by
  obtain ⟨l1, _⟩ := setFieldWire_length oxm
  rw [l1] at hl ⊢
  have e1 : uAt (setFieldWire oxm ++ rest) 0 2 = 25 := by
    unfold setFieldWire
    simp only [List.append_assoc]
    exact uAt_here 2 _ _ (by decide)
  have e2 : uAt (setFieldWire oxm ++ rest) 2 2 = 4 + oxm.length + (fill (4 + oxm.length)).length := by
    unfold setFieldWire u16
    simp only [List.append_assoc]
    rw [uAt_skip _ _ _ _ _ (by omega)]
    exact uAt_here 2 _ _ hl
  have e3 : (setFieldWire oxm ++ rest).drop 4 = oxm ++ (fill (4 + oxm.length) ++ rest) := by
    unfold setFieldWire
    rw [← List.append_assoc, List.append_assoc, List.drop_append_of_le_length]
    · rw [List.drop_of_length_le (by simp [u16_length])]; simp
    · simp [u16_length]
  refine ⟨?_, e2⟩
  have hk : actKey (setFieldWire oxm ++ rest) = .ok (.std 25, 4) := by
    unfold actKey
    simp only [e1]
    rw [if_neg (by decide)]
  unfold act2strOne
  simp only [hk, e2, e3, bind, Except.bind, ActKey.num]
  rw [if_pos (by decide)]

theorem trip_setField (t : Tlv) (hv : t.Valid) (hl : t.Lossless) :
    ∃ text, ActTrip (setFieldWire t.wire) text := by
  obtain ⟨d, hd, hk, hdec, c1, c2, henc⟩ := tlvText_spec t hv hl
  obtain ⟨n1, n2, _⟩ := field_name _ hv.mem
  obtain ⟨l1, l2⟩ := tlv_length t hv
  obtain ⟨m1, m2⟩ := setFieldWire_length t.wire
  have hlen : (setFieldWire t.wire).length < 65536 := by
    have := align8_facts (4 + t.wire.length)
    rw [m1, fill_length]; omega
  have hp := fun rest => setField_prints t.wire rest hlen
  refine ⟨t!"set_" ++ tlvText t, ?_⟩
  refine ⟨by omega, hlen, fun rest => (hp rest).2, fun rest => ?_, by simp,
    plainStart_cons (by decide) _, by simp, line_append (by decide) (tlvText_line t hv hl), ?_⟩
  · rw [(hp rest).1, oxm2str1_tlv t hv hl]; rfl
  · intro h r hh hr
    rw [str2act_set t.field hv.mem h (tlvValue t) r (t!"set_" ++ tlvText t) hh c1.token c1.plainStart c2 hr
      (Or.inl (by simp [tlvText]))]
    rw [show t.field.name ++ '=' :: tlvValue t = tlvText t from rfl, str2oxm_tlv t hv hl]
    simp only [Except.bind]
    rw [if_pos hlen]

end Ofpstr
