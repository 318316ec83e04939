import Verif.Lemmas.FlowTrip

/-!
# Properties C04 (flow rules), C32-C38 and C51 (flow rules)

`oxmP` and `actP` say what `str2oxm(…, loop=False)` and `str2act` read; what these are is the subject
of C06-C25 and of C26-C31.
-/

namespace Ofpstr
open Spec

/-- An exception, not an endless loop. -/
def Raises {α : Type} (x : Py α) : Prop := ∃ e, x = .error e ∧ e ≠ .loops

theorem raises_of {α : Type} {x : Py α} (he : Ends x) (h : ∃ e, x = .error e) : Raises x := by
  obtain ⟨e, rfl⟩ := h
  exact ⟨e, rfl, fun hl => he (by rw [hl])⟩

theorem raises_mod {s : Str} (h : Raises (str2dict s)) (c x : Int) : Raises (str2mod s c x) := by
  obtain ⟨e, he, hne⟩ := h
  exact ⟨e, by rw [str2mod_pack, he]; rfl, hne⟩

/-! ## C04 -/

/-- C04 for flow rules: parsing ends on every text. -/
theorem C04_rules_end (s : Str) (c x : Int) : str2dict s ≠ .error .loops ∧ str2mod s c x ≠ .error .loops :=
  ⟨ends_str2dict s, ends_str2mod s c x⟩

/-! ## C32 -/

/-- C32: an accepted rule gives version 4, type 14, the length of the whole, the xid and the command. -/
theorem C32_header (s : Str) (c x : Int) (b : Bytes) (h : str2mod s c x = .ok b) :
    b.take 8 = u8 4 ++ (u8 14 ++ (u16 b.length ++ u32 x.toNat)) ∧ b.length < 65536 ∧
    FitsIn 4 x ∧ FitsIn 1 c ∧ (b.drop 25).take 1 = u8 c.toNat := by
  obtain ⟨ws, -, -, ⟨hf, -, hl⟩, rfl⟩ := str2mod_inv h
  have hlen : (flowOf c x ws).length = 8 + ((headOf c x ws).body (oxmOf ws) (instBytes ws)).length := by
    unfold flowOf
    rw [flowWire_split]; simp only [List.length_append, u8_length, u16_length, u32_length]; omega
  have hx : (headOf c x ws).xid = x := rfl
  have hc : (headOf c x ws).command = c := rfl
  refine ⟨?_, by omega, by have := hf.1; rwa [hx] at this, by have := hf.2.1; rwa [hc] at this, ?_⟩
  · rw [hlen]
    unfold flowOf
    rw [flowWire_split, hx]
    have e : ∀ (a b c d r : Bytes), a ++ (b ++ (c ++ (d ++ r))) = (a ++ (b ++ (c ++ d))) ++ r := by simp
    rw [e, List.take_left' (by simp [u8_length, u16_length, u32_length])]
  · unfold flowOf
    rw [flowWire_split]
    have e : ∀ (v t l y r : Bytes), v ++ (t ++ (l ++ (y ++ r))) = (v ++ (t ++ (l ++ y))) ++ r := by simp
    rw [e]
    unfold FlowHead.body
    rw [hc]
    have e : ∀ (p k m t r : Bytes), p ++ (k ++ (m ++ (t ++ r))) = (p ++ (k ++ (m ++ t))) ++ r := by simp
    rw [e, List.drop_left' (by simp [u8_length, u16_length, u32_length, u64_length]),
      List.take_left' (u8_length _)]

example : ∃ b, str2mod t!"in_port=1,@apply,output=2" 0 5 = .ok b ∧
    b.take 8 = [4, 14, 0, 88, 0, 0, 0, 5] ∧ b.length = 88 := by
  have h : str2mod t!"in_port=1,@apply,output=2" 0 5 = .ok ([4, 14, 0, 88, 0, 0, 0, 5] ++
    ([0, 0, 0, 0, 0, 0, 0, 0, 0, 0, 0, 0, 0, 0, 0, 0, 0, 0, 0, 0, 0, 0, 0x80, 0, 255, 255, 255, 255, 0, 0, 0, 0,
      0, 0, 0, 0, 0, 0, 0, 0] ++ ([0, 1, 0, 12, 0x80, 0, 0, 4, 0, 0, 0, 1, 0, 0, 0, 0] ++
      [0, 4, 0, 24, 0, 0, 0, 0, 0, 0, 0, 16, 0, 0, 0, 2, 255, 255, 0, 0, 0, 0, 0, 0]))) := by decide +kernel
  exact ⟨_, h, by decide, by decide⟩

/-! ## C33 -/

/-- C33: `str2mod` accepts a text exactly if it is a sequence of words, each in a place where it may
stand, whose numbers fit; the message is the one these words stand for: each number is the last one
given in the text or the default of the command, the flags are the union of the flag words, the match
is the match items in order, the instructions are those written. -/
theorem C33_fields (s : Str) (c x : Int) (b : Bytes) :
    str2mod s c x = .ok b ↔ ∃ ws, ReadsWords oxmP actP ws s [] ∧ placeAfter .start ws ≠ none ∧
      FlowFits c x ws ∧ b = flowOf c x ws := by
  constructor
  · exact str2mod_inv
  · rintro ⟨ws, h1, h2, h3, rfl⟩
    exact (str2mod_words h1 h2 c x).1 h3

/-- C33 on texts: any keys, flags and match items with commas between them. -/
theorem C33_keys (ks : List (Word × Str)) (hk : ∀ e ∈ ks, StartWord e.1 ∧ IsWord oxmP actP e.1 e.2) (c x : Int)
    (hf : (headOf c x (ks.map (·.1))).Fits)
    (hlen : ((headOf c x (ks.map (·.1))).wire (oxmOf (ks.map (·.1))) []).length < 65536) :
    str2mod (commaList (ks.map (·.2))) c x = .ok ((headOf c x (ks.map (·.1))).wire (oxmOf (ks.map (·.1))) []) := by
  have := str2mod_rule ks hk [] (by simp) c x (by simp) hf (by simpa using hlen)
  simpa using this

/-- The keys in their written form are such words. -/
theorem C33_key_texts {w : Word} {t : Str} (h : KeyText w t) : StartWord w ∧ IsWord oxmP actP w t :=
  ⟨by cases h <;> trivial, keyText_isWord h⟩

example : KeyText (.key .priority 16) t!"priority=0x10" ∧ KeyText (.key .outPort 0xffffffff) t!"out_port=any" ∧
    KeyText (.cookie 1 (some 3)) t!"cookie=1/3" :=
  ⟨.key .priority t!"0x10" 16 ((parseInt_iff t!"0x10" 16 4).1 (by decide)),
   .key .outPort t!"any" _ (.name 0xffffffff t!"any" (by decide)),
   .cookieMask t!"1" t!"3" 1 3 ((parseInt_iff _ _ _).1 (by decide)) ((parseInt_iff _ _ _).1 (by decide))⟩
/-- The last value counts; delete has other defaults. -/
example : (headOf 0 0 [.key .priority 1, .key .table 2, .key .priority 7]).priority = 7 ∧
    (headOf 0 0 [.key .priority 1]).outPort = 0 ∧ (headOf 3 0 [.key .priority 1]).outPort = 0xffffffff := by decide

/-! ## C34 -/

/-- C34 for the flow-mods that survive printing (see the refutations for others): printing and parsing
with the extra arguments gives the same message. -/
theorem C34_roundtrip_partial (m : FlowMod) (hv : m.Valid) (hl : m.Lossless) :
    ∃ text e, mod2str m.wire = .ok text ∧ mod2extra m.wire = .ok e ∧ str2modX text e = .ok m.wire := by
  have := flow_trip m hv hl.2
  rwa [knownFlags_same m hv hl.1] at this

/-- Such a flow-mod: delete in table 1, cookie with mask, two match items, four instructions. -/
def sampleFlow : FlowMod :=
  ⟨⟨7, 3, 0x10, 0xff, 1, 10, 20, 100, 0, 0xfffffffd, 0xffffffff, 5⟩,
   [⟨⟨t!"in_port", 0x8000, 0, .port 4, false⟩, [0, 0, 0, 1], none⟩,
    ⟨⟨t!"ipv4_dst", 0x8000, 12, .ipv4, true⟩, [10, 0, 0, 0], some [255, 255, 0, 0]⟩],
   [.metadata 1 0xff, .apply [.output 1 0xffff, .std ⟨t!"pop_vlan", 18, .none⟩ 0], .clear, .goto 4]⟩

theorem sampleFlow_ok : sampleFlow.Valid ∧ sampleFlow.Lossless := by
  refine ⟨⟨?_, ?_, ?_, by decide +kernel⟩, by decide, ?_, ?_⟩
  · unfold FlowHead.Fits
    decide
  · intro t ht
    simp only [sampleFlow, List.mem_cons, List.not_mem_nil, or_false] at ht
    rcases ht with rfl | rfl
    · exact ⟨by decide, by decide, by simp, by decide⟩
    · exact ⟨by decide, by decide, by simp, by decide⟩
  · intro i hi
    simp only [sampleFlow, List.mem_cons, List.not_mem_nil, or_false] at hi
    rcases hi with rfl | rfl | rfl | rfl
    · exact ⟨⟨by decide, by decide⟩, by simp [FInst.actions], by decide⟩
    · refine ⟨by decide, ?_, by decide⟩
      intro a ha
      simp only [FInst.actions, List.mem_cons, List.not_mem_nil, or_false] at ha
      rcases ha with rfl | rfl
      · exact ⟨by decide, by decide⟩
      · exact ⟨by decide, by decide⟩
    · exact ⟨trivial, by simp [FInst.actions], by decide⟩
    · exact ⟨by decide, by simp [FInst.actions], by decide⟩
  · intro t ht
    simp only [sampleFlow, List.mem_cons, List.not_mem_nil, or_false] at ht
    rcases ht with rfl | rfl
    · exact ⟨by decide, by simp, by simp, by simp, by simp, by simp⟩
    · exact ⟨by decide, by simp, by simp, by simp, by simp, by simp⟩
  · intro i hi
    simp only [sampleFlow, List.mem_cons, List.not_mem_nil, or_false] at hi
    rcases hi with rfl | rfl | rfl | rfl
    · simp [FInst.actions]
    · intro a ha
      simp only [FInst.actions, List.mem_cons, List.not_mem_nil, or_false] at ha
      rcases ha with rfl | rfl
      · exact Or.inr rfl
      · show t!"pop_vlan" ≠ t!"set_nw_ttl"
        decide
    · simp [FInst.actions]
    · simp [FInst.actions]

example : mod2str sampleFlow.wire = .ok (t!"cookie=0x10/0xff,table=1,priority=100,out_port=controller," ++
    (t!"idle_timeout=10,hard_timeout=20,send_flow_rem,reset_counts,in_port=1,ipv4_dst=10.0.0.0/255.255.0.0," ++
      t!"@metadata=0x1/0xff,@apply,output=1,pop_vlan,@clear,@goto=4")) := by decide +kernel

/-- C34 is false of every flow-mod with flags above the five: they are not printed (ofp4.py:480-485), so
the message comes back without them. -/
theorem C34_flags_refuted (m : FlowMod) (hv : m.Valid) (hl : m.PartsLossless) (hf : 32 ≤ m.head.flags) :
    ∃ text e b, mod2str m.wire = .ok text ∧ mod2extra m.wire = .ok e ∧ str2modX text e = .ok b ∧ b ≠ m.wire := by
  obtain ⟨text, e, h1, h2, h3⟩ := flow_trip m hv hl
  refine ⟨text, e, _, h1, h2, h3, ?_⟩
  intro he
  have hv' : m.knownFlags.head.Fits := by
    obtain ⟨⟨f1, f2, f3, f4, f5, f6, f7, f8, f9, f10, f11, f12⟩, -⟩ := hv
    refine ⟨f1, f2, f3, f4, f5, f6, f7, f8, f9, f10, f11, ?_⟩
    show FitsIn 2 (m.head.flags % 32)
    exact ⟨by omega, Int.lt_of_lt_of_le (show m.head.flags % 32 < 32 by omega) (by decide)⟩
  have hlen : m.knownFlags.wire.length < 65536 := by rw [knownFlags_length]; exact hv.2.2.2
  have n1 := (flowWire_nums m.head hv.1 _ _ hv.2.2.2).2.2.2.2.2.2.2.2.2.2.2.2.1
  have n2 := (flowWire_nums m.knownFlags.head hv' _ _ hlen).2.2.2.2.2.2.2.2.2.2.2.2.1
  have e1 : m.head.flags.toNat = (m.head.flags % 32).toNat := by
    have : uAt m.knownFlags.wire 44 2 = uAt m.wire 44 2 := by rw [he]
    unfold FlowMod.wire at this
    rw [n1, n2] at this
    exact this.symm
  omega

example : str2mod t!"@goto=1" 0 0 ≠ str2mod t!"send_flow_rem,@goto=1" 0 0 ∧
    mod2str ((FlowHead.wire { defaults 0 0 with flags := 33 } [] [])) = .ok t!"send_flow_rem" := by decide +kernel

/-! ## C35 -/

/-- C35: a rule of keys and match items followed by instructions, with commas between all of them, gives
the OpenFlow structures of the instructions in the order written, each with the actions written after
it, as long as the numbers fit and the message is shorter than 65536 bytes; else it is an error. -/
theorem C35_instructions (ks : List (Word × Str)) (hk : ∀ e ∈ ks, StartWord e.1 ∧ IsWord oxmP actP e.1 e.2)
    (l : List (Inst × List Str)) (hl : ∀ e ∈ l, InstText oxmP actP e.1 e.2) (c x : Int) :
    ((headOf c x (ks.map (·.1))).Fits ∧ (∀ e ∈ l, e.1.Fits) ∧
        ((headOf c x (ks.map (·.1))).wire (oxmOf (ks.map (·.1))) (l.flatMap (·.1.wire))).length < 65536 →
      str2mod (commaList (ks.map (·.2) ++ l.flatMap (·.2))) c x =
        .ok ((headOf c x (ks.map (·.1))).wire (oxmOf (ks.map (·.1))) (l.flatMap (·.1.wire)))) ∧
    (¬ ((headOf c x (ks.map (·.1))).Fits ∧ (∀ e ∈ l, e.1.Fits) ∧
        ((headOf c x (ks.map (·.1))).wire (oxmOf (ks.map (·.1))) (l.flatMap (·.1.wire))).length < 65536) →
      str2mod (commaList (ks.map (·.2) ++ l.flatMap (·.2))) c x = .error .structError) :=
  str2mod_rule' ks hk l hl c x

/-- C35: match items and actions in their written form are such words: any text of one token for a
known field that `str2oxm` reads, any action of C26 and C49. -/
theorem C35_words : (∀ (f : Field) (v : Str) (b : Bytes), f ∈ fields → Token v → v ≠ [] → PlainStart v →
      str2oxm1 (f.name ++ '=' :: v) = .ok (b, (f.name ++ '=' :: v).length) →
      IsWord oxmP actP (.oxm b) (f.name ++ '=' :: v)) ∧
    (∀ (a : Act), a.Valid → a.Lossless → ∃ t, act2str a.wire = .ok t ∧ IsWord oxmP actP (.act a.wire) t) := by
  refine ⟨fun f v b hf hv hn hp h => isWord_oxm f hf v hv hn hp b h, fun a hv hl => ?_⟩
  obtain ⟨t, ht⟩ := act_trip a hv hl
  refine ⟨t, ?_, isWord_act ht⟩
  have := act2str_list [(a.wire, t)] (by simpa using ht)
  simpa [commaList] using this

example : InstText oxmP actP (.goto 3) [t!"@goto_table=3"] ∧
    InstText oxmP actP (.metadata 5 0xf) [t!"@metadata=5/0xf"] ∧ InstText oxmP actP .clear [t!"@clear"] :=
  ⟨.goto t!"@goto_table" t!"3" 3 (by decide) ((parseInt_iff _ _ _).1 (by decide)),
   .metadataMask t!"@metadata" t!"5" t!"0xf" 5 15 (by decide) ((parseInt_iff _ _ _).1 (by decide))
     ((parseInt_iff t!"0xf" 15 3).1 (by decide)), .clear _ (by decide)⟩
example : Inst.wire (.apply (u16 18 ++ (u16 8 ++ pad 4))) = [0, 4, 0, 16, 0, 0, 0, 0, 0, 18, 0, 8, 0, 0, 0, 0] := by
  decide

/-! ## C36 -/

/-- C36: exchanging independent keys, flags and match items does not change the message, nor whether
there is one, whatever follows them. -/
theorem C36_order (ks ks' : List (Word × Str)) (hk : ∀ e ∈ ks, StartWord e.1 ∧ IsWord oxmP actP e.1 e.2)
    (h : Reorder ks ks') (r : Str) (hr : Boundary r) (c x : Int) :
    str2mod (commaList (ks.map (·.2)) ++ r) c x = str2mod (commaList (ks'.map (·.2)) ++ r) c x := by
  rw [str2mod_pack, str2mod_pack, str2dict_reorder hk h r hr]

/-- C36: any permutation of keys for different numbers, flags and at most one match item. -/
theorem C36_permutation (ks ks' : List (Word × Str)) (hk : ∀ e ∈ ks, StartWord e.1 ∧ IsWord oxmP actP e.1 e.2)
    (h : ks.Perm ks') (hi : ks.Pairwise fun a b => Indep a.1 b.1) (r : Str) (hr : Boundary r) (c x : Int) :
    str2mod (commaList (ks.map (·.2)) ++ r) c x = str2mod (commaList (ks'.map (·.2)) ++ r) c x :=
  C36_order ks ks' hk (reorder_perm h hi) r hr c x

example : [(Word.key .table 1, t!"table=1"), (.cookie 2 none, t!"cookie=2"), (.flag 1, t!"check_overlap"),
      (.flag 0, t!"send_flow_rem"), (.oxm [0x80, 0, 0, 4, 0, 0, 0, 9], t!"in_port=9")].Pairwise
        (fun a b => Indep a.1 b.1) ∧
    str2mod t!"table=1,cookie=2,check_overlap,in_port=9,@goto=3" 0 0 =
      str2mod t!"in_port=9,check_overlap,cookie=2,table=1,@goto=3" 0 0 := by
  refine ⟨?_, by decide +kernel⟩
  simp [Indep]
/-- The same key twice is not independent. -/
example : str2mod t!"table=1,table=2" 0 0 ≠ str2mod t!"table=2,table=1" 0 0 := by decide +kernel

/-! ## C37 -/

/-- C37: after `@goto`, `@metadata`, `@clear` or `@meter` there must be another instruction word. -/
theorem C37_after_instruction (ws : List Word) (s r h name t : Str) (hr : ReadsWords oxmP actP ws s r)
    (hp : placeAfter .start ws = some .done) (hn : r ≠ []) (ht : Tok r h name t) (hat : name.head? ≠ some '@') :
    Raises (str2dict s) := by
  refine raises_of (ends_str2dict s) (str2dict_stop hr hp hn ?_)
  intro h' name' t' w q u h1 _ h3 h4
  obtain ⟨rfl, rfl, rfl⟩ := tok_unique ht h1
  rcases body_noat h3 hat with hs | ⟨b, l, rfl, _⟩
  · exact absurd (startWord_next hs h4) (by decide)
  · exact absurd (act_next h4) (by decide)

/-- C37: a match item or a key after `@apply` or `@write`. -/
theorem C37_match_after_actions (ws : List Word) (s r h name t : Str) (hr : ReadsWords oxmP actP ws s r)
    (hp : placeAfter .start ws = some .acts) (hn : r ≠ []) (ht : Tok r h name t)
    (hm : name ∈ matchKeys ++ fields.map (·.name)) : Raises (str2dict s) := by
  have key : Clean name ∧ name ≠ [] ∧ name ∉ actNames ∧ name.head? ≠ some '@' ∧ startsWith name t!"set_" = false :=
    (by decide +kernel : ∀ n ∈ matchKeys ++ fields.map (·.name), Clean n ∧ n ≠ [] ∧ n ∉ actNames ∧
      n.head? ≠ some '@' ∧ startsWith n t!"set_" = false) name hm
  obtain ⟨k1, k2, k3, k4, k5⟩ := key
  refine raises_of (ends_str2dict s) (str2dict_stop hr hp hn ?_)
  intro h' name' t' w q u h1 _ h3 h4
  obtain ⟨rfl, rfl, rfl⟩ := tok_unique ht h1
  rcases body_noat h3 k4 with hs | ⟨b, l, rfl, h5, h6⟩
  · exact absurd (startWord_next hs h4) (by decide)
  · have := str2act_unknown name name t k1 k2 (tok_boundary ht) k3 (by
      rw [← startsWith_iff, k5]; decide) (Or.inl rfl)
    unfold actP at h5
    rw [this] at h5
    simp only [Except.ok.injEq, Prod.mk.injEq] at h5
    exact h6 h5.2.symm

/-- C37: an unknown instruction word, anywhere. -/
theorem C37_unknown_instruction (ws : List Word) (s r h name t : Str) (hr : ReadsWords oxmP actP ws s r)
    (hp : placeAfter .start ws ≠ none) (hn : r ≠ []) (ht : Tok r h name t) (hat : name.head? = some '@')
    (hi : name ∉ instNames) : Raises (str2dict s) := by
  cases hq : placeAfter .start ws with
  | none => exact absurd hq hp
  | some p =>
    refine raises_of (ends_str2dict s) (str2dict_stop hr hq hn ?_)
    intro h' name' t' w q u h1 _ h3 h4
    obtain ⟨rfl, rfl, rfl⟩ := tok_unique ht h1
    exact hi (body_at h3 hat)

/-- C37: an unknown action, as a word or with arguments. -/
theorem C37_unknown_action (ws : List Word) (s r h f name t : Str) (hr : ReadsWords oxmP actP ws s r)
    (hp : placeAfter .start ws = some .acts) (hn : r ≠ []) (ht : Tok r h name t) (hc : PlainText f) (hne : f ≠ [])
    (hf : f ∉ actNames) (hs : ¬ ∃ u, f = t!"set_" ++ u) (hat : f.head? ≠ some '@')
    (hname : name = f ∨ ∃ a, Inside ')' a ∧ name = f ++ '(' :: a ++ [')']) : Raises (str2dict s) := by
  refine raises_of (ends_str2dict s) (str2dict_stop hr hp hn ?_)
  intro h' name' t' w q u h1 _ h3 h4
  obtain ⟨rfl, rfl, rfl⟩ := tok_unique ht h1
  have hat' : name.head? ≠ some '@' := by
    rcases hname with rfl | ⟨a, _, rfl⟩
    · exact hat
    · cases f with
      | nil => exact absurd rfl hne
      | cons c f => simpa using hat
  rcases body_noat h3 hat' with hst | ⟨b, l, rfl, h5, h6⟩
  · exact absurd (startWord_next hst h4) (by decide)
  · have := str2act_unknown f name t hc hne (tok_boundary ht) hf hs hname
    unfold actP at h5
    rw [this] at h5
    simp only [Except.ok.injEq, Prod.mk.injEq] at h5
    exact h6 h5.2.symm

/-- C37: an equals sign before a word. -/
theorem C37_stray_equals (ws : List Word) (s r h name t : Str) (hr : ReadsWords oxmP actP ws s r)
    (hp : placeAfter .start ws ≠ none) (hn : r ≠ []) (ht : Tok r h name t) (he : '=' ∈ h) : Raises (str2dict s) := by
  cases hq : placeAfter .start ws with
  | none => exact absurd hq hp
  | some p =>
    refine raises_of (ends_str2dict s) (str2dict_stop hr hq hn ?_)
    intro h' name' t' w q u h1 h2 h3 h4
    obtain ⟨rfl, rfl, rfl⟩ := tok_unique ht h1
    exact h2 he

/-- C37: before the instructions, a word that is neither a key nor a field. -/
theorem C37_unknown_key (ws : List Word) (s r h name t : Str) (hr : ReadsWords oxmP actP ws s r)
    (hp : placeAfter .start ws = some .start) (ht : Tok r h name t) (hne : name ≠ []) (hc : Token name)
    (hps : PlainStart name) (hat : name.head? ≠ some '@') (hm : name ∉ matchKeys ++ fields.map (·.name)) :
    Raises (str2dict s) := by
  have hn : r ≠ [] := by
    intro h0
    have := ht.1
    rw [h0] at this
    have := congrArg List.length this
    simp only [List.length_nil, List.length_append] at this
    exact hne (List.eq_nil_of_length_eq_zero (by omega))
  have hm' : name ∉ matchKeys ∧ ∀ f ∈ fields, f.name ≠ name := by
    simp only [List.mem_append, List.mem_map, not_or, not_exists, not_and] at hm
    exact hm
  have hk : ∀ k : FKey, k.name ∈ matchKeys := by intro k; cases k <;> decide
  have hi : ∀ n ∈ instNames, n.head? = some '@' := by decide
  refine raises_of (ends_str2dict s) (str2dict_stop hr hp hn ?_)
  intro h' name' t' w q u h1 _ h3 h4
  obtain ⟨rfl, rfl, rfl⟩ := tok_unique ht h1
  cases h3 with
  | key k => exact hm'.1 (hk k)
  | cookie => exact hm'.1 (by decide)
  | cookieMask => exact hm'.1 (by decide)
  | flag _ _ _ hb =>
    exact hm'.1 ((by decide : ∀ e ∈ flagWords, e.1 ∈ matchKeys) _ hb)
  | oxm _ _ b l _ _ ho _ =>
    obtain ⟨f, hf, hfn⟩ := oxm1_field hc hps hne (tok_boundary ht) ho
    exact hm'.2 f hf hfn
  | goto _ _ _ _ _ _ hg => exact hat (hi _ ((by decide : ∀ n ∈ [t!"@goto", t!"@goto_table"], n ∈ instNames) _ hg))
  | metadata _ _ _ _ _ _ hg =>
    exact hat (hi _ ((by decide : ∀ n ∈ [t!"@metadata", t!"@write_metadata"], n ∈ instNames) _ hg))
  | metadataMask _ _ _ _ _ _ _ _ hg =>
    exact hat (hi _ ((by decide : ∀ n ∈ [t!"@metadata", t!"@write_metadata"], n ∈ instNames) _ hg))
  | apply _ _ hg => exact hat (hi _ ((by decide : ∀ n ∈ [t!"@apply", t!"@apply_actions"], n ∈ instNames) _ hg))
  | write _ _ hg => exact hat (hi _ ((by decide : ∀ n ∈ [t!"@write", t!"@write_actions"], n ∈ instNames) _ hg))
  | clear _ _ hg => exact hat (hi _ ((by decide : ∀ n ∈ [t!"@clear", t!"@clear_actions"], n ∈ instNames) _ hg))
  | meter => exact hat (by decide)
  | act _ _ b l _ _ _ => exact absurd (act_next h4) (by decide)

/-- C37 for texts with closed brackets (see the refutation): separators after the last word. -/
theorem C37_trailing_separator_partial (ws : List Word) (s r : Str) (hr : ReadsWords oxmP actP ws s r)
    (hp : placeAfter .start ws ≠ none) (hn : r ≠ []) (hs : ∀ c ∈ r, Space c ∨ c = ',') : Raises (str2dict s) := by
  cases hq : placeAfter .start ws with
  | none => exact absurd hq hp
  | some p =>
    refine raises_of (ends_str2dict s) (str2dict_stop hr hq hn ?_)
    intro h' name' t' w q u h1 _ h3 _
    obtain ⟨rfl, rfl, rfl⟩ := tok_unique (tok_seps hs) h1
    exact body_empty h3

/-- C37: a whole rule, as in C35, followed by separators. -/
theorem C37_rule_separator (ks : List (Word × Str)) (hk : ∀ e ∈ ks, StartWord e.1 ∧ IsWord oxmP actP e.1 e.2)
    (l : List (Inst × List Str)) (hl : ∀ e ∈ l, InstText oxmP actP e.1 e.2) (hne : ks ≠ [] ∨ l ≠ []) (r : Str)
    (hn : r ≠ []) (hs : ∀ c ∈ r, Space c ∨ c = ',') (hb : Boundary r) :
    Raises (str2dict (commaList (ks.map (·.2) ++ l.flatMap (·.2)) ++ r)) := by
  obtain ⟨ws, h1, h2, -⟩ := rule_words ks hk l hl 0 0 [] r (by simp) hb (by tauto)
  exact C37_trailing_separator_partial ws _ r (by simpa using h1) h2 hn hs

/-- C37 is false inside an open bracket: there the separator belongs to the argument. -/
theorem C37_trailing_separator_refuted :
    (∃ i, str2dict t!"@apply,output(1," = .ok i) ∧ (∃ i, str2dict t!"dot11_ssid=(a " = .ok i) := by
  exact ⟨⟨{ inst := [0, 4, 0, 24, 0, 0, 0, 0, 0, 0, 0, 16, 0, 0, 0, 1, 255, 255, 0, 0, 0, 0, 0, 0] },
    by decide +kernel⟩, ⟨{ mtch := [255, 255, 16, 7, 255, 0, 224, 77, 40, 97, 32] }, by decide +kernel⟩⟩

example : ReadsWords oxmP actP [.goto 1] t!"@goto=1,output=2" t!",output=2" ∧
    placeAfter .start [.goto 1] = some .done ∧ Tok t!",output=2" t!"," t!"output" t!"=2" :=
  ⟨.cons _ [] t!"@goto" t!"=1,output=2" _ t!",output=2" [] _ (by decide) ((getToken_iff _ _ _ _).1 (by decide +kernel))
    (by decide) (.goto _ _ t!"=" t!"1" 1 _ (by decide) ((getToken_iff _ _ _ _).1 (by decide +kernel)) (by decide)
      ((parseInt_iff _ _ _).1 (by decide))) (.nil _), rfl, (getToken_iff _ _ _ _).1 (by decide +kernel)⟩
example : str2dict t!"@goto=1,output=2" = .error .valueError ∧ str2dict t!"@goto=1,in_port=2" = .error .valueError ∧
    str2dict t!"@apply,in_port=2" = .error .valueError ∧ str2dict t!"@foo" = .error .valueError ∧
    str2dict t!"@apply,foo(1)" = .error .valueError ∧ str2dict t!"in_port=1,=@clear" = .error .assertionError ∧
    str2dict t!"foo=1" = .error .keyError ∧ str2dict t!"in_port=1, " = .error .valueError ∧
    str2dict t!"@apply,output=1," = .error .valueError := by decide +kernel

/-! ## C38 -/

theorem flagsOf_bit (ws : List Word) (i : Nat) : (flagsOf ws).testBit i = true ↔ i < 5 ∧ Word.flag i ∈ ws := by
  by_cases hi : i < 5
  · rw [flagsOf_testBit ws i hi]
    simp [hi]
  · have : (flagsOf ws).testBit i = false :=
      Nat.testBit_lt_two_pow (Nat.lt_of_lt_of_le (flagsOf_lt ws) (Nat.pow_le_pow_right (n := 2) (by omega) (by omega : 5 ≤ i)))
    simp [this, hi]

theorem defaults_fits (c x : Int) (hc : FitsIn 1 c) (hx : FitsIn 4 x) (n : Nat) (hn : n < 65536) :
    FlowHead.Fits { defaults c x with flags := n } := by
  have key : ∀ t b p g : Int, FitsIn 1 t → FitsIn 4 b → FitsIn 4 p → FitsIn 4 g →
      FlowHead.Fits ⟨x, c, 0, 0, t, 0, 0, 0x8000, b, p, g, n⟩ :=
    fun t b p g h1 h2 h3 h4 => ⟨hx, hc, (by decide : FitsIn 8 0), (by decide : FitsIn 8 0), h1, (by decide : FitsIn 2 0),
      (by decide : FitsIn 2 0), (by decide : FitsIn 2 0x8000), h2, h3, h4, (by
        show FitsIn 2 (n : Int)
        exact ⟨by omega, by simp; omega⟩)⟩
  unfold defaults
  split
  · exact key 255 0 0xffffffff 0xffffffff (by decide) (by decide) (by decide) (by decide)
  · exact key 0 0xffffffff 0 0 (by decide) (by decide) (by decide) (by decide)

/-- C38: any list of flag words sets exactly the bits of the words. -/
theorem C38_words (fs : List (Str × Nat)) (h : ∀ e ∈ fs, e ∈ flagWords) (c x : Int) (hc : FitsIn 1 c)
    (hx : FitsIn 4 x) : ∃ n : Nat, (∀ i, n.testBit i = true ↔ ∃ e ∈ fs, e.2 = i) ∧
      str2mod (commaList (fs.map (·.1))) c x = .ok (FlowHead.wire { defaults c x with flags := n } [] []) := by
  have hw : (fs.map fun e => (Word.flag e.2, e.1)).map (·.1) = fs.map fun e => Word.flag e.2 := by
    rw [List.map_map]; rfl
  have hx2 : (fs.map fun e => (Word.flag e.2, e.1)).map (·.2) = fs.map (·.1) := by
    rw [List.map_map]; rfl
  have hfm : ∀ f : Word → Option Int, (∀ i, f (.flag i) = none) → lastOf f (fs.map fun e => Word.flag e.2) = none := by
    intro f hf
    unfold lastOf
    rw [filterMap_none]
    · rfl
    · intro w hw
      obtain ⟨e, _, rfl⟩ := List.mem_map.1 hw
      exact hf e.2
  have hh : headOf c x (fs.map fun e => Word.flag e.2) =
      { defaults c x with flags := flagsOf (fs.map fun e => Word.flag e.2) } := by
    unfold headOf
    dsimp only
    rw [hfm _ (fun _ => rfl), hfm _ (fun _ => rfl), hfm _ (fun _ => rfl), hfm _ (fun _ => rfl), hfm _ (fun _ => rfl),
      hfm _ (fun _ => rfl), hfm _ (fun _ => rfl), hfm _ (fun _ => rfl), hfm _ (fun _ => rfl)]
    unfold defaults
    split <;> rfl
  have ho : oxmOf (fs.map fun e => Word.flag e.2) = [] := by
    unfold oxmOf
    rw [List.flatMap_eq_nil_iff]
    intro w hw
    obtain ⟨e, _, rfl⟩ := List.mem_map.1 hw
    rfl
  have key := C33_keys (fs.map fun e => (Word.flag e.2, e.1)) (by
    intro e he
    obtain ⟨g, hg, rfl⟩ := List.mem_map.1 he
    exact C33_key_texts (.flag _ _ (h g hg))) c x
  rw [hw, hx2, hh, ho] at key
  refine ⟨_, ?_, key (defaults_fits c x hc hx _ (Nat.lt_trans (flagsOf_lt _) (by decide))) ?_⟩
  · intro i
    rw [flagsOf_bit]
    constructor
    · rintro ⟨_, hm⟩
      obtain ⟨e, he, hi⟩ := List.mem_map.1 hm
      exact ⟨e, he, by simpa using hi⟩
    · rintro ⟨e, he, rfl⟩
      exact ⟨(by decide : ∀ e ∈ flagWords, e.2 < 5) e (h e he), List.mem_map.2 ⟨e, he, rfl⟩⟩
  · rw [flowWire_length]
    decide

example : str2mod t!"check_overlap,send_flow_rem,check_overlap" 0 0 =
    .ok (FlowHead.wire { defaults 0 0 with flags := 3 } [] []) := by decide +kernel

/-- C38: the five known flags of a message are printed as exactly the words of the bits that are set,
and no other item of the text is one of these words. -/
theorem C38_printed (m : FlowMod) (hv : m.Valid) (hl : m.PartsLossless) : ∃ a b : List Str,
    mod2str m.wire = .ok (commaList (a ++
      ((flagWords.filter fun e => m.head.flags.toNat.testBit e.2).map (·.1) ++ b))) ∧
    ∀ t ∈ a ++ b, t ∉ flagWords.map (·.1) := by
  have hfl : (flagItems m.head.flags.toNat).map (·.2) =
      (flagWords.filter fun e => m.head.flags.toNat.testBit e.2).map (·.1) := by
    unfold flagItems
    rw [List.map_map]
    have : ofpff = flagWords := by decide
    rw [this]
    congr 1
    apply List.filter_congr
    intro e _
    rw [Nat.testBit_eq_decide_div_mod_eq]
    rfl
  have noeq : ∀ u v : Str, u ++ '=' :: v ∉ flagWords.map (·.1) := by
    intro u v hm
    have := (by decide : ∀ t ∈ flagWords.map (·.1), '=' ∉ t) _ hm
    exact this (by simp)
  have noat : ∀ v : Str, '@' :: v ∉ flagWords.map (·.1) := by
    intro v hm
    have := (by decide : ∀ t ∈ flagWords.map (·.1), t.head? ≠ some '@') _ hm
    exact this rfl
  have opt : ∀ k n d t, ∀ e ∈ (optItem k n d t).map (·.2), e ∉ flagWords.map (·.1) := by
    intro k n d t e he
    unfold optItem at he
    split at he
    · simp at he
    · simp only [List.map_cons, List.map_nil, List.mem_singleton] at he
      subst he
      exact noeq _ _
  have act : ∀ a : Act, a.Valid → a.Lossless → actText a ∉ flagWords.map (·.1) := by
    intro a h1 h2 hm
    have ht := actText_trip a h1 h2
    have hr := ht.reads [] [] head_nil atEnd_nil
    simp only [List.nil_append, List.append_nil] at hr
    have hu := str2act_unknown (actText a) (actText a) [] ((by decide : ∀ t ∈ flagWords.map (·.1), Clean t) _ hm) ht.ne
      atEnd_nil ((by decide +kernel : ∀ t ∈ flagWords.map (·.1), t ∉ actNames) _ hm) (by
        rw [← startsWith_iff, (by decide : ∀ t ∈ flagWords.map (·.1), startsWith t t!"set_" = false) _ hm]; decide)
      (Or.inl rfl)
    rw [List.append_nil, hr] at hu
    simp only [Except.ok.injEq, Prod.mk.injEq] at hu
    have := hu.2
    have := ht.ne
    simp_all
  have hh := flow_prints m hv hl
  unfold flowItems headItems at hh
  simp only [List.map_append, List.append_assoc, hfl, List.map_map] at hh
  have hh' : mod2str m.wire = .ok (commaList (((headItems (defaults m.head.command m.head.xid)
      { m.head with flags := 0 }).map (·.2)) ++ ((flagWords.filter fun e => m.head.flags.toNat.testBit e.2).map (·.1) ++
      (m.mtch.map tlvText ++ m.insts.flatMap instTexts)))) := by
    rw [hh]
    unfold headItems
    have h0 : flagItems (Int.toNat 0) = [] := by decide
    dsimp only
    rw [h0]
    simp only [List.map_append, List.append_assoc, List.map_nil, List.append_nil]
    rfl
  refine ⟨_, _, hh', ?_⟩
  intro t ht
  simp only [List.mem_append] at ht
  rcases ht with ht | ht | ht
  · unfold headItems at ht
    have h0 : flagItems (Int.toNat 0) = [] := by decide
    dsimp only at ht
    rw [h0] at ht
    simp only [List.map_append, List.mem_append, List.map_nil, List.not_mem_nil, or_false] at ht
    rcases ht with ht | ht | ht | ht | ht | ht | ht | ht
    · unfold cookieItem at ht
      split at ht
      · split at ht
        · simp at ht
        · simp only [List.map_cons, List.map_nil, List.mem_singleton] at ht
          subst ht
          exact noeq t!"cookie" _
      · simp only [List.map_cons, List.map_nil, List.mem_singleton] at ht
        subst ht
        exact noeq t!"cookie" _
    all_goals exact opt _ _ _ _ t ht
  · obtain ⟨x, _, rfl⟩ := List.mem_map.1 ht
    exact noeq _ _
  · obtain ⟨i, hi, ht⟩ := List.mem_flatMap.1 ht
    have hvi := hv.2.2.1 i hi
    have hli := hl.2 i hi
    cases i with
    | goto n => simp only [instTexts, List.mem_singleton] at ht; subst ht; exact noat _
    | metadata n k =>
      simp only [instTexts] at ht
      split at ht <;> (simp only [List.mem_singleton] at ht; subst ht; exact noat _)
    | write as =>
      simp only [instTexts, List.mem_cons, List.mem_map] at ht
      rcases ht with rfl | ⟨a, ha, rfl⟩
      · exact noat _
      · exact act a (hvi.2.1 a ha) (hli a ha)
    | apply as =>
      simp only [instTexts, List.mem_cons, List.mem_map] at ht
      rcases ht with rfl | ⟨a, ha, rfl⟩
      · exact noat _
      · exact act a (hvi.2.1 a ha) (hli a ha)
    | clear => simp only [instTexts, List.mem_singleton] at ht; subst ht; exact noat _
    | meter n => simp only [instTexts, List.mem_singleton] at ht; subst ht; exact noat _

example : mod2str (FlowHead.wire { defaults 3 0 with flags := 18 } [] []) = .ok t!"check_overlap,no_byt_counts" := by
  decide +kernel

/-! ## C51 -/

theorem not_fits {ws : List Word} {s : Str} (hr : ReadsWords oxmP actP ws s []) (hp : placeAfter .start ws ≠ none)
    (c x : Int) (h : ¬ FlowFits c x ws) : str2mod s c x = .error .structError := (str2mod_words hr hp c x).2 h

/-- C51 for the keys of a rule: if the last number given for a key does not fit, the rule is an error. -/
theorem C51_key (ws : List Word) (s : Str) (c x : Int) (hr : ReadsWords oxmP actP ws s [])
    (hp : placeAfter .start ws ≠ none) (k : FKey) (n : Int) (hk : lastOf (Word.keyArg k) ws = some n)
    (hn : ¬ FitsIn k.size n) : str2mod s c x = .error .structError := by
  apply not_fits hr hp
  rintro ⟨⟨f1, f2, f3, f4, f5, f6, f7, f8, f9, f10, f11, f12⟩, -⟩
  apply hn
  unfold headOf at f5 f6 f7 f8 f9 f10 f11
  dsimp only at f5 f6 f7 f8 f9 f10 f11
  cases k
  · rw [hk] at f5; exact f5
  · rw [hk] at f8; exact f8
  · rw [hk] at f6; exact f6
  · rw [hk] at f7; exact f7
  · rw [hk] at f9; exact f9
  · rw [hk] at f10; exact f10
  · rw [hk] at f11; exact f11

/-- C51 for the cookie and its mask. -/
theorem C51_cookie (ws : List Word) (s : Str) (c x : Int) (hr : ReadsWords oxmP actP ws s [])
    (hp : placeAfter .start ws ≠ none) (n : Int)
    (hk : lastOf Word.cookieArg ws = some n ∨ lastOf Word.maskArg ws = some n)
    (hn : ¬ FitsIn 8 n) : str2mod s c x = .error .structError := by
  apply not_fits hr hp
  rintro ⟨⟨f1, f2, f3, f4, f5, f6, f7, f8, f9, f10, f11, f12⟩, -⟩
  apply hn
  unfold headOf at f3 f4
  dsimp only at f3 f4
  rcases hk with hk | hk
  · rw [hk] at f3; exact f3
  · rw [hk] at f4; exact f4

/-- C51 for `@goto`, `@metadata` and `@meter`, and for actions that are too long. -/
theorem C51_instruction (ws : List Word) (s : Str) (c x : Int) (hr : ReadsWords oxmP actP ws s [])
    (hp : placeAfter .start ws ≠ none) (i : Inst) (hi : i ∈ instsOf ws) (hn : ¬ i.Fits) :
    str2mod s c x = .error .structError := by
  apply not_fits hr hp
  rintro ⟨-, h, -⟩
  exact hn (h i hi)

/-- C51 for the xid and the command. -/
theorem C51_arguments (s : Str) (c x : Int) (h : ¬ FitsIn 4 x ∨ ¬ FitsIn 1 c) : Raises (str2mod s c x) := by
  refine raises_of (ends_str2mod s c x) ?_
  cases he : str2mod s c x with
  | error e => exact ⟨e, rfl⟩
  | ok b =>
    obtain ⟨-, -, h1, h2, -⟩ := C32_header s c x b he
    exact absurd h (by simp [h1, h2])

/-- C51 is false of a number that is not the last for its key: it is dropped without a check. -/
theorem C51_overwritten_refuted :
    str2mod t!"table=256" 0 0 = .error .structError ∧ str2mod t!"table=256,table=1" 0 0 = str2mod t!"table=1" 0 0 ∧
    ∃ b, str2mod t!"table=1" 0 0 = .ok b := by
  refine ⟨by decide +kernel, by decide +kernel, ?_⟩
  exact ⟨_, (C33_keys [(.key .table 1, t!"table=1")] (by
    intro e he
    simp only [List.mem_singleton] at he
    subst he
    exact C33_key_texts (.key .table t!"1" 1 ((parseInt_iff _ _ _).1 (by decide)))) 0 0
    (by unfold FlowHead.Fits; decide) (by decide +kernel))⟩

example : lastOf (Word.keyArg .table) [.key .table 1, .key .table (-1)] = some (-1) ∧ ¬ FitsIn 1 (-1) ∧
    ¬ (Inst.goto 256).Fits := by decide
example : str2mod t!"table=256" 0 0 = .error .structError ∧ str2mod t!"priority=65536" 0 0 = .error .structError ∧
    str2mod t!"idle_timeout=-1" 0 0 = .error .structError ∧ str2mod t!"cookie=0x10000000000000000" 0 0 = .error .structError ∧
    str2mod t!"@goto=256" 0 0 = .error .structError ∧ str2mod t!"@meter=-1" 0 0 = .error .structError ∧
    str2mod t!"@metadata=1/-2" 0 0 = .error .structError ∧ str2mod t!"" 256 0 = .error .structError := by decide +kernel

end Ofpstr
