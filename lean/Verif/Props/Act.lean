import Verif.Lemmas.ActEnds

/-!
# Properties C26-C31: actions (`str2act`, `act2str`)
-/

namespace Ofpstr
open Spec

/-! ## C26 -/

/-- Both styles of an argument go to the encoder. -/
theorem str2act_arg (h name s r t : Str) (k : ActEnc) (out : Py Bytes) (hh : Head h) (hc : Clean name)
    (hn : name ≠ []) (hs : Clean s) (hsn : s ≠ []) (hsp : ∀ c ∈ s, c ≠ ')') (hr : Boundary r)
    (hl : lookupAct name = some k) (ht : ArgText name s t)
    (he : ∀ u h' r' b, (h' = [] ∨ h' = ['=']) → getToken u = (h', s, r') →
      runActEnc k u b = out.bind fun x => .ok (x, h'.length + s.length)) :
    str2act (h ++ (t ++ r)) = out.bind fun x => .ok (x, h.length + t.length) := by
  cases ht with
  | eq =>
    have := str2act_word h name ('=' :: (s ++ r)) k hh hc hn (atEnd_eq _) hl
    rw [show h ++ (name ++ '=' :: s ++ r) = h ++ (name ++ '=' :: (s ++ r)) by simp, this,
      he _ ['='] r true (Or.inr rfl) (getToken_eq hs.token hr hs.plainStart hsn)]
    cases out with
    | error e => rfl
    | ok x => simp [Except.bind]; omega
  | call =>
    rw [str2act_call h name s r k hh hc hn (clean_inside _ hs hsp) hsn hr hl,
      he s [] [] false (Or.inl rfl) (getToken_clean_all hs)]
    cases out with
    | error e => rfl
    | ok x => simp [Except.bind]

/-- C26: an action without argument. -/
theorem C26_no_argument (a : StdAct) (ha : a ∈ stdActs) (harg : a.arg = .none) (h r : Str) (hh : Head h)
    (hr : Boundary r) :
    str2act (h ++ (a.name ++ r)) = .ok (a.wire 0, h.length + a.name.length) := by
  obtain ⟨h1, h2, h3, _⟩ := std_lookup a ha
  rw [str2act_word h a.name r _ hh h2 h3 hr h1]
  simp only [stdEnc, harg, runActEnc, genericStr2act, Except.bind, StdAct.wire, ActArg.body, spec_u16,
    spec_pad, Nat.add_zero]

example : (⟨t!"pop_vlan", 18, .none⟩ : StdAct) ∈ stdActs ∧
    str2act t!", pop_vlan,output=1" = .ok ([0, 18, 0, 8, 0, 0, 0, 0], 10) := by decide +kernel

/-- C26 except `set_nw_ttl` (see `C26_set_nw_ttl_refuted`): an action with a number as argument has
the number in its place when it fits, and is an error when it does not. -/
theorem C26_argument_partial (a : StdAct) (ha : a ∈ stdActs) (harg : a.arg ≠ .none)
    (hne : a.name ≠ t!"set_nw_ttl") (h r s t : Str) (v : Int) (hh : Head h) (hr : Boundary r)
    (hs : IntSyntax s v s.length) (ht : ArgText a.name s t) :
    (0 ≤ v ∧ v < (256 ^ a.arg.size : Nat) →
      str2act (h ++ (t ++ r)) = .ok (a.wire v.toNat, h.length + t.length)) ∧
    (¬ (0 ≤ v ∧ v < (256 ^ a.arg.size : Nat)) → str2act (h ++ (t ++ r)) = .error .structError) := by
  obtain ⟨h1, h2, h3, _⟩ := std_lookup a ha
  obtain ⟨c1, c2, _⟩ := intSyntax_clean hs
  have hp := (portText_clean (.num s v hs)).2.2
  have key := str2act_arg h a.name s r t _
    (if 0 ≤ v ∧ v < (256 ^ a.arg.size : Nat) then .ok (a.wire v.toNat) else .error .structError)
    hh h2 h3 c1 c2 (fun c hc => (hp c hc).2.2) hr h1 ht (by
      intro u h' r' b _ hg
      rw [runStd_int a ha harg hne u h' s r' v hg hs b]
      split <;> rfl)
  constructor
  · intro hv; rw [key, if_pos hv]; rfl
  · intro hv; rw [key, if_neg hv]; rfl

example : (⟨t!"group", 22, .word⟩ : StdAct) ∈ stdActs ∧ ArgText t!"group" t!"0x10" t!"group=0x10" ∧
    IntSyntax t!"0x10" 16 4 ∧ str2act t!"group=0x10" = .ok ([0, 22, 0, 8, 0, 0, 0, 16], 10) :=
  ⟨by decide, .eq, (parseInt_iff _ _ _).1 (by decide), by decide +kernel⟩
example : ArgText t!"push_vlan" t!"33024" t!"push_vlan(33024)" ∧
    str2act t!"push_vlan(33024)" = .ok ([0, 17, 0, 8, 0x81, 0, 0, 0], 16) :=
  ⟨.call, by decide +kernel⟩
example : str2act t!"set_mpls_ttl=256" = .error .structError := by decide +kernel

/-- C26: `output`, with or without the number of bytes for the controller. -/
theorem C26_output (h r p t : Str) (v : Int) (hh : Head h) (hr : Boundary r) (hp : PortText p v) :
    (ArgText t!"output" p t →
      (0 ≤ v ∧ v < (256 ^ 4 : Nat) →
        str2act (h ++ (t ++ r)) = .ok (outputWire v.toNat 0xffff, h.length + t.length)) ∧
      (¬ (0 ≤ v ∧ v < (256 ^ 4 : Nat)) → str2act (h ++ (t ++ r)) = .error .structError)) ∧
    (∀ (m : Str) (w : Int), IntSyntax m w m.length → ArgText t!"output" (p ++ ':' :: m) t →
      ((0 ≤ v ∧ v < (256 ^ 4 : Nat)) ∧ 0 ≤ w ∧ w < (256 ^ 2 : Nat) →
        str2act (h ++ (t ++ r)) = .ok (outputWire v.toNat w.toNat, h.length + t.length)) ∧
      (¬ ((0 ≤ v ∧ v < (256 ^ 4 : Nat)) ∧ 0 ≤ w ∧ w < (256 ^ 2 : Nat)) →
        str2act (h ++ (t ++ r)) = .error .structError)) := by
  obtain ⟨c1, c2, c3⟩ := portText_clean hp
  have hl : lookupAct t!"output" = some .output := by decide
  have hc : Clean t!"output" := by decide
  constructor
  · intro ht
    have key := str2act_arg h t!"output" p r t _
      (if 0 ≤ v ∧ v < (256 ^ 4 : Nat) then .ok (outputWire v.toNat 0xffff) else .error .structError)
      hh hc (by simp) c1 c2 (fun c hc => (c3 c hc).2.2) hr hl ht (by
        intro u h' r' b _ hg
        rw [runActEnc, outputStr2act_port u h' p r' v hg hp]
        split <;> rfl)
    constructor
    · intro hv; rw [key, if_pos hv]; rfl
    · intro hv; rw [key, if_neg hv]; rfl
  · intro m w hm ht
    obtain ⟨d1, d2, d3⟩ := portText_clean (.num m w hm)
    have key := str2act_arg h t!"output" (p ++ ':' :: m) r t _
      (if (0 ≤ v ∧ v < (256 ^ 4 : Nat)) ∧ 0 ≤ w ∧ w < (256 ^ 2 : Nat) then
        .ok (outputWire v.toNat w.toNat) else .error .structError)
      hh hc (by simp) (clean_append c1 (clean_cons (by decide) d1)) (by simp) (by
        intro c hc
        simp only [List.mem_append, List.mem_cons] at hc
        rcases hc with hc | rfl | hc
        · exact (c3 c hc).2.2
        · decide
        · exact (d3 c hc).2.2) hr hl ht (by
        intro u h' r' b _ hg
        rw [runActEnc, outputStr2act_max u h' p m r' v w hg hp hm]
        split <;> rfl)
    constructor
    · intro hv; rw [key, if_pos hv]; rfl
    · intro hv; rw [key, if_neg hv]; rfl

example : PortText t!"controller" 0xfffffffd ∧
    ArgText t!"output" t!"controller:128" t!"output=controller:128" ∧
    str2act t!"output=controller:128" =
      .ok ([0, 0, 0, 16, 255, 255, 255, 253, 0, 128, 0, 0, 0, 0, 0, 0], 21) :=
  ⟨.name _ _ (by decide), .eq, by decide +kernel⟩
example : str2act t!"output=4294967296" = .error .structError := by decide +kernel

/-- C26 is false for `set_nw_ttl`: the three pad bytes are missing (ofp4.py:186), so the action is
five bytes long. -/
theorem C26_set_nw_ttl_refuted (h r s t : Str) (v : Int) (hh : Head h) (hr : Boundary r)
    (hs : IntSyntax s v s.length) (hv : 0 ≤ v ∧ v < 256) (ht : ArgText t!"set_nw_ttl" s t) :
    str2act (h ++ (t ++ r)) = .ok (u16 23 ++ (u16 5 ++ u8 v.toNat), h.length + t.length) ∧
    ∃ a ∈ stdActs, a.name = t!"set_nw_ttl" ∧ u16 23 ++ (u16 5 ++ u8 v.toNat) ≠ a.wire v.toNat := by
  obtain ⟨c1, c2, _⟩ := intSyntax_clean hs
  have hp := (portText_clean (.num s v hs)).2.2
  have hl : lookupAct t!"set_nw_ttl" = some (.uint 23 1 0) := by decide
  constructor
  · exact str2act_arg h t!"set_nw_ttl" s r t _ (.ok (u16 23 ++ (u16 5 ++ u8 v.toNat))) hh (by decide)
      (by simp) c1 c2 (fun c hc => (hp c hc).2.2) hr hl ht (by
        intro u h' r' b _ hg
        rw [runActEnc, uintStr2act_int 23 1 0 u h' s r' v hg hs, if_pos (by simpa using hv)]
        simp [pad, u8, Except.bind])
  · refine ⟨⟨t!"set_nw_ttl", 23, .ttl⟩, by decide, rfl, ?_⟩
    intro he
    have := congrArg List.length he
    simp [StdAct.wire, ActArg.body, u16_length, u8_length, pad_length] at this

example : str2act t!"set_nw_ttl=64" = .ok ([0, 23, 0, 5, 64], 13) := by decide +kernel

/-- C26: text after the number is an error for `set_queue`, `group` and the TTL actions. -/
theorem C26_junk_rejected (a : StdAct) (ha : a ∈ stdActs) (harg : a.arg = .ttl ∨ a.arg = .word)
    (h r s : Str) (v : Int) (l : Nat) (hh : Head h) (hr : Boundary r) (hp : PlainText s)
    (hs : IntSyntax s v l) (hl : l ≠ s.length) :
    str2act (h ++ (a.name ++ '=' :: (s ++ r))) = .error .assertionError := by
  obtain ⟨h1, h2, h3, _⟩ := std_lookup a ha
  have hsn : s ≠ [] := by
    rintro rfl
    have := (parseInt_iff _ _ _).2 hs
    rw [show parseInt [] = .error .valueError by decide] at this
    cases this
  have hc : Clean s := hp
  rw [str2act_word h a.name ('=' :: (s ++ r)) _ hh h2 h3 (atEnd_eq _) h1]
  have hg := getToken_eq hc.token hr hc.plainStart hsn
  unfold stdEnc
  rcases harg with ha | ha <;> rw [ha] <;> dsimp only <;>
    rw [runActEnc, uintStr2act_junk _ _ _ _ _ _ _ _ _ hg hs hl] <;> rfl

example : IntSyntax t!"12z" 12 2 ∧ str2act t!"group=12z" = .error .assertionError :=
  ⟨(parseInt_iff _ _ _).1 (by decide), by decide +kernel⟩

/-- C26 is false of text after the number of a push or pop action: it is dropped silently
(ofp4.py:141 does not check the length). -/
theorem C26_push_junk_refuted (a : StdAct) (ha : a ∈ stdActs) (harg : a.arg = .ether)
    (h r s : Str) (v : Int) (l : Nat) (hh : Head h) (hr : Boundary r) (hp : PlainText s)
    (hs : IntSyntax s v l) (hv : 0 ≤ v ∧ v < 65536) :
    str2act (h ++ (a.name ++ '=' :: (s ++ r))) =
      .ok (a.wire v.toNat, h.length + a.name.length + 1 + s.length) := by
  obtain ⟨h1, h2, h3, _⟩ := std_lookup a ha
  have hsn : s ≠ [] := by
    rintro rfl
    have := (parseInt_iff _ _ _).2 hs
    rw [show parseInt [] = .error .valueError by decide] at this
    cases this
  have hc : Clean s := hp
  rw [str2act_word h a.name ('=' :: (s ++ r)) _ hh h2 h3 (atEnd_eq _) h1]
  have hg := getToken_eq hc.token hr hc.plainStart hsn
  unfold stdEnc
  rw [harg]
  dsimp only
  rw [runActEnc, pushStr2act_int _ _ _ _ _ _ _ hg hs, if_pos hv]
  simp only [Except.bind, StdAct.wire, harg, ActArg.body]
  simp
  omega

example : str2act t!"push_vlan=0x8100z" = .ok ([0, 17, 0, 8, 0x81, 0, 0, 0], 17) := by decide +kernel

/-! ## C27 -/

/-- C27 but for `set_nw_ttl` and `note` (see below): whatever `str2act` accepts, the length field is
the number of bytes, and that is a multiple of eight.  (Nothing is emitted for an unknown word.) -/
theorem C27_length_true_partial (s : Str) (b : Bytes) (l : Nat) (hs : str2act s = .ok (b, l)) :
    b = [] ∨ ∃ t, ActHead t b ∧ (8 ∣ b.length ∨ (t = 23 ∧ b.length = 5) ∨ NxHead 8 b) :=
  str2act_good s b l hs

example : str2act t!"set_eth_dst=01:02:03:04:05:06" =
    .ok ([0, 25, 0, 16, 0x80, 0, 6, 6, 1, 2, 3, 4, 5, 6, 0, 0], 29) := by decide +kernel

/-- C27 is false of `set_nw_ttl` and of `note`, which the code does not pad. -/
theorem C27_alignment_refuted :
    (∃ b l, str2act t!"set_nw_ttl=64" = .ok (b, l) ∧ ¬ 8 ∣ b.length) ∧
    (∃ b l, str2act t!"note(abc)" = .ok (b, l) ∧ ¬ 8 ∣ b.length) :=
  ⟨⟨[0, 23, 0, 5, 64], 13, by decide +kernel, by decide⟩,
   ⟨[255, 255, 0, 13, 0, 0, 0x23, 0x20, 0, 8, 97, 98, 99], 9, by decide +kernel, by decide⟩⟩

/-! ## C29 -/

/-- C29: for any field and any value text (one token), `set_<field>=v` and `set_<field>(v)` fail as
`<field>=v` fails in a match, and else give the set-field action around the same bytes, if its length
fits into the length field. -/
theorem C29_set_field (f : Field) (hf : f ∈ fields) (h v r t : Str) (hh : Head h) (hr : Boundary r)
    (hv : Token v) (hne : v ≠ []) (hp : ∀ c u, v = c :: u → ¬ Space c)
    (ht : t = t!"set_" ++ f.name ++ '=' :: v ∨
      (t = t!"set_" ++ f.name ++ '(' :: v ++ [')'] ∧ Inside ')' v)) :
    (∀ e, str2oxm (f.name ++ '=' :: v) = .error e → str2act (h ++ (t ++ r)) = .error e) ∧
    (∀ oxm l, str2oxm (f.name ++ '=' :: v) = .ok (oxm, l) →
      ((setFieldWire oxm).length < 65536 →
        str2act (h ++ (t ++ r)) = .ok (setFieldWire oxm, h.length + t.length)) ∧
      (¬ (setFieldWire oxm).length < 65536 → str2act (h ++ (t ++ r)) = .error .structError)) := by
  have key := str2act_set f hf h v r t hh hv (by
    intro c u hcu
    refine ⟨hp c u hcu, ?_⟩
    subst hcu
    cases hv with
    | char _ _ h1 h2 h3 _ => exact ⟨fun h => h1 (Or.inl h), h2⟩
    | group o e p s hpr _ _ => cases hpr <;> decide) hne hr ht
  refine ⟨?_, ?_⟩
  · intro e he
    rw [key, he]; rfl
  · intro oxm l ho
    rw [ho] at key
    constructor
    · intro hl
      rw [key]
      exact if_pos hl
    · intro hl
      rw [key]
      exact if_neg hl

example : (∃ f ∈ fields, f.name = t!"ipv4_dst") ∧ Token t!"10.0.0.1" ∧
    str2oxm t!"ipv4_dst=10.0.0.1" = .ok ([0x80, 0, 24, 4, 10, 0, 0, 1], 17) ∧
    str2act t!" set_ipv4_dst(10.0.0.1),x" =
      .ok ([0, 25, 0, 16, 0x80, 0, 24, 4, 10, 0, 0, 1, 0, 0, 0, 0], 23) :=
  ⟨by decide, Clean.token (by decide), by decide +kernel, by decide +kernel⟩
example : str2oxm t!"ipv4_dst=300.1.1.1" = .error .osError ∧
    str2act t!"set_ipv4_dst=300.1.1.1" = .error .osError := by decide +kernel

/-! ## C30 -/

/-- C30: when no action has length zero, decoding of actions ends (with a text or an exception). -/
theorem C30_actions_end (b : Bytes) (h : LenWalk b) : act2str b ≠ .error .loops := ends_act2str b h

/-- C30: when no instruction, and no action in one, has length zero, decoding ends. -/
theorem C30_instructions_end (b : Bytes) (h : InstWalk b) : inst2str b ≠ .error .loops :=
  ends_inst2str b h

example : LenWalk [0, 18, 0, 8, 0, 0, 0, 0, 0, 99, 0, 3, 7, 7, 7, 7, 7] :=
  .step _ (by decide) (by decide) (.step _ (by decide) (by decide) (.step _ (by decide) (by decide)
    (.done _ (by decide))))
example : InstWalk [0, 4, 0, 16, 0, 0, 0, 0, 0, 18, 0, 8, 0, 0, 0, 0] :=
  .step _ (by decide) (by decide) (fun _ => .step _ (by decide) (by decide) (.done _ (by decide)))
    (.done _ (by decide))

/-- C30: an unknown action of length zero is read for ever. -/
theorem C30_zero_length_action (b : Bytes) (h4 : 4 < b.length) (h0 : lenField b = 0)
    (ht : typeField b ∉ [0, 11, 12, 15, 16, 17, 18, 19, 20, 21, 22, 23, 24, 25, 26, 27, 0xffff]) :
    act2str b = .error .loops := by
  rw [lenField_uAt b (by omega)] at h0
  rw [uAt0_type b (by omega)] at ht
  unfold act2str
  rw [act2strGo_stuck b _ h4 h0 (act2strOne_unknown b ht)]
  rfl

example : act2str [0, 99, 0, 0, 0, 0, 0, 0] = .error .loops := by decide +kernel

/-- C30: an instruction of length zero is read for ever, if it is an unknown one or has actions. -/
theorem C30_zero_length_instruction (b : Bytes) (h4 : 4 < b.length) (h0 : lenField b = 0)
    (ht : typeField b ∉ [1, 2, 5, 6]) : inst2str b = .error .loops := by
  rw [lenField_uAt b (by omega)] at h0
  rw [uAt0_type b (by omega)] at ht
  have hone : ∃ t, inst2strOne b = .ok t := by
    simp only [List.mem_cons, List.not_mem_nil, not_or, or_false] at ht
    obtain ⟨h1, h2, h5, h6⟩ := ht
    have hi : ∀ n, instActions n b 0 = .ok [n] := by
      intro n
      simp [instActions, slice, act2str, act2strGo, joinStr, pyAssert, bind, Except.bind]
    unfold inst2strOne
    dsimp only
    rw [h0, hi, hi]
    rw [if_neg (by simpa [OFPIT_GOTO_TABLE] using h1),
      if_neg (by simpa [OFPIT_WRITE_METADATA] using h2)]
    split
    · exact ⟨_, rfl⟩
    split
    · exact ⟨_, rfl⟩
    rw [if_neg (by simpa [OFPIT_CLEAR_ACTIONS] using h5), if_neg (by simpa [OFPIT_METER] using h6)]
    exact ⟨_, rfl⟩
  obtain ⟨t, hone⟩ := hone
  unfold inst2str
  rw [inst2strGo_stuck b t h4 h0 hone]
  rfl

example : inst2str [0, 4, 0, 0, 0, 0, 0, 0] = .error .loops := by decide +kernel

/-! ## C31 -/

/-- C31 for the names without brackets: a bare word is the action without argument. -/
theorem C31_bare_word_partial (h r : Str) (hh : Head h) (hr : Boundary r) :
    (∀ a ∈ stdActs, a.arg = .none →
      str2act (h ++ (a.name ++ r)) = .ok (a.wire 0, h.length + a.name.length)) ∧
    str2act (h ++ (t!"pop_queue" ++ r)) = .ok (nxWire 5 [], h.length + 9) ∧
    str2act (h ++ (t!"exit" ++ r)) = .ok (nxWire 17 [], h.length + 4) := by
  refine ⟨fun a ha harg => C26_no_argument a ha harg h r hh hr, ?_, ?_⟩
  · rw [str2act_word h t!"pop_queue" r (.null 5) hh (by decide) (by simp) hr (by decide)]
    have := nxWrap_hdr 5 [] 0
    rw [List.append_nil, if_pos (by decide)] at this
    rw [runActEnc, nullStr2act, this]
    rfl
  · rw [str2act_word h t!"exit" r (.null 17) hh (by decide) (by simp) hr (by decide)]
    have := nxWrap_hdr 17 [] 0
    rw [List.append_nil, if_pos (by decide)] at this
    rw [runActEnc, nullStr2act, this]
    rfl

example : str2act t!"exit,output=1" =
    .ok ([255, 255, 0, 16, 0, 0, 0x23, 0x20, 0, 17, 0, 0, 0, 0, 0, 0], 4) := by decide +kernel

/-- C31 is false: `name()` is not understood for any action whose name does not begin with `set_`;
no bytes are emitted and nothing but the separator before it is consumed (ofp4.py:209-214 treats the
empty argument as no call, and then looks for an action called `name()`). -/
theorem C31_empty_call_refuted (name h r : Str) (hh : Head h) (hr : Boundary r)
    (hn : (∃ a ∈ stdActs, a.name = name) ∨ (∃ n, (name, n) ∈ nxActs) ∨ name = t!"output")
    (hs : ¬ ∃ t, name = t!"set_" ++ t) :
    str2act (h ++ ((name ++ t!"()") ++ r)) = .ok ([], h.length) := by
  have key : Clean name ∧ 4 ≤ name.length := by
    rcases hn with ⟨a, ha, rfl⟩ | ⟨n, hn⟩ | rfl
    · exact (by decide +kernel : ∀ a ∈ stdActs, Clean a.name ∧ 4 ≤ a.name.length) a ha
    · exact (by decide +kernel : ∀ a ∈ nxActs, Clean a.1 ∧ 4 ≤ a.1.length) _ hn
    · decide
  refine str2act_empty_call h name r hh key.1 ?_ hr ?_ key.2
  · rintro rfl; simp at key
  · cases hb : startsWith name t!"set_" with
    | false => rfl
    | true =>
      obtain ⟨t, ht⟩ := List.isPrefixOf_iff_prefix.1 hb
      exact absurd ⟨t, ht.symm⟩ hs

example : (t!"pop_queue", 5) ∈ nxActs ∧ str2act t!"pop_queue()" = .ok ([], 0) := by decide +kernel
/-- The rule the README suggests is refused. -/
example : str2mod t!"@apply,pop_queue()" 0 0 = .error .valueError := by decide +kernel

/-! ## C48 -/

/-- C48: whatever follows the name of a Nicira action, if `str2act` accepts it then it has emitted
the action header with the sub-type of the name and the true length (a tunnel id of more than 32 bits
turns `set_tunnel` into the 64-bit action, an experimenter field `output_reg` into `output_reg2`),
padded to eight bytes except for `note`; or nothing, which happens only when an opening bracket
follows the name (see C31). -/
theorem C48_header (name : Str) (sub : Nat) (hm : (name, sub) ∈ nxActs) (h rest : Str) (hh : Head h)
    (hr : ∀ c t, rest = c :: t → SepChar c ∨ c = '=' ∨ ¬ NotOpen c) (b : Bytes) (l : Nat)
    (hs : str2act (h ++ (name ++ rest)) = .ok (b, l)) :
    (∃ t, (t = sub ∨ (name = t!"set_tunnel" ∧ t = 9) ∨ (name = t!"output_reg" ∧ t = 32)) ∧
      NxHead t b ∧ (name ≠ t!"note" → 8 ∣ b.length)) ∨ (b = [] ∧ ¬ Boundary rest) := by
  obtain ⟨h1, h2, h3, h4⟩ := nx_lookup _ hm
  cases hl : lookupAct name with
  | none => simp [hl] at h4
  | some k =>
    simp only [hl, Option.any_some, Bool.and_eq_true, beq_iff_eq, List.all_eq_true,
      Bool.or_eq_true] at h4
    obtain ⟨⟨h5, h6⟩, h7⟩ := h4
    rcases str2act_prefix h name rest k b l hh h1 h3 h2 hl hr hs with ⟨u, ra, p, hk⟩ | ⟨h8, _, h9⟩
    · left
      have hne : encSubs k ≠ [] := by intro h; rw [h] at h5; cases h5
      by_cases hnote : k = .note
      · subst hnote
        obtain ⟨body, hb1, hb2⟩ := qp_nx 8 u ra _ hk
        dsimp only at hb1 hb2
        have he : 8 = sub := by simpa [encSubs] using h5
        refine ⟨8, Or.inl he, ?_, ?_⟩
        · rw [hb1] at hb2 ⊢; exact nxRaw_head 8 body hb2
        · intro hnn
          exact absurd (by simpa using h6.symm) hnn
      · obtain ⟨t, ht, body, hb1, hb2⟩ := runActEnc_nx k hne hnote u ra _ hk
        dsimp only at hb1 hb2
        rw [hb1] at hb2 ⊢
        refine ⟨t, ?_, nxRaw_head t _ hb2, fun _ => (nxWire_length t body).1⟩
        rcases h7 t ht with (h | h) | h
        · exact Or.inl h
        · exact Or.inr (Or.inl h)
        · exact Or.inr (Or.inr h)
    · exact Or.inr ⟨h8, h9⟩

example : str2act t!"resubmit(3)" =
    .ok ([255, 255, 0, 16, 0, 0, 0x23, 0x20, 0, 1, 0, 3, 255, 0, 0, 0], 11) := by decide +kernel
example : (t!"set_tunnel", 2) ∈ nxActs ∧ str2act t!"set_tunnel=0x100000000" =
    .ok ([255, 255, 0, 24, 0, 0, 0x23, 0x20, 0, 9, 0, 0, 0, 1, 0, 0, 0, 0, 0, 0, 0, 0, 0, 0], 22) := by
  decide +kernel

end Ofpstr
