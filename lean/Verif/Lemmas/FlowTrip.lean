import Verif.Lemmas.ActAll
import Verif.Lemmas.TripLearn

/-!
# Printing and parsing flow-mods
-/

namespace Ofpstr
open Spec

/-! ## Instructions -/

theorem inst_uAt0 (t l : Nat) (b rest : Bytes) (ht : t < 65536) :
    uAt ((u16 t ++ (u16 l ++ b)) ++ rest) 0 2 = t := by
  rw [List.append_assoc]; exact uAt_u16_here _ _ ht

theorem inst_uAt2 (t l : Nat) (b rest : Bytes) (hl : l < 65536) :
    uAt ((u16 t ++ (u16 l ++ b)) ++ rest) 2 2 = l := by
  rw [List.append_assoc, uAt_u16 _ _ _ _ (by omega), List.append_assoc]; exact uAt_u16_here _ _ hl

theorem inst_uAt (t l : Nat) (b rest : Bytes) (o k : Nat) (h : 4 ≤ o) :
    uAt ((u16 t ++ (u16 l ++ b)) ++ rest) o k = uAt (b ++ rest) (o - 4) k := by
  rw [List.append_assoc, uAt_u16 _ _ _ _ (by omega), List.append_assoc, uAt_u16 _ _ _ _ (by omega)]
  congr 1

/-- The words of an instruction with actions. -/
theorem instActions_list (name : Str) (hn : name ≠ []) (t : Nat) (as : List (Bytes × Str)) (ha : ∀ e ∈ as, ActTrip e.1 e.2)
    (hd : 8 ∣ (as.flatMap (·.1)).length) (rest : Bytes) :
    ∃ toks, instActions name ((u16 t ++ (u16 (8 + (as.flatMap (·.1)).length) ++ (pad 4 ++ as.flatMap (·.1)))) ++ rest)
      (8 + (as.flatMap (·.1)).length) = .ok toks ∧ SameText toks (name :: as.map (·.2)) := by
  have hs : slice ((u16 t ++ (u16 (8 + (as.flatMap (·.1)).length) ++ (pad 4 ++ as.flatMap (·.1)))) ++ rest) 8
      (8 + (as.flatMap (·.1)).length) = as.flatMap (·.1) := by
    have e : (u16 t ++ (u16 (8 + (as.flatMap (·.1)).length) ++ (pad 4 ++ as.flatMap (·.1)))) ++ rest =
        (u16 t ++ (u16 (8 + (as.flatMap (·.1)).length) ++ pad 4)) ++ (as.flatMap (·.1) ++ rest) := by simp
    rw [e]
    apply slice_middle
    · simp [u16_length, pad_length]
    · simp [u16_length, pad_length]
  have hm : ((8 + (as.flatMap (·.1)).length) % 8 == 0) = true := by
    simp only [beq_iff_eq]; omega
  have hne : ∀ t ∈ as.map (·.2), t ≠ [] := by
    intro t ht
    obtain ⟨e, he, rfl⟩ := List.mem_map.1 ht
    exact (ha e he).ne
  refine ⟨name :: optTok (commaList (as.map (·.2))), ?_, ?_⟩
  · unfold instActions
    rw [hm, pyAssert_ok, ok_bind, hs, act2str_list as ha, ok_bind]
    unfold optTok
    split <;> rfl
  · exact sameText_append (sameText_refl [name]) (sameText_opt hne)

/-- The text of an action that survives printing. -/
noncomputable def actText (a : Act) : Str :=
  open Classical in if h : a.Valid ∧ a.Lossless then (act_trip a h.1 h.2).choose else []

theorem actText_trip (a : Act) (hv : a.Valid) (hl : a.Lossless) : ActTrip a.wire (actText a) := by
  unfold actText
  rw [dif_pos ⟨hv, hl⟩]
  exact (act_trip a hv hl).choose_spec

/-- The texts of an instruction. -/
noncomputable def instTexts : FInst → List Str
  | .goto n => [t!"@goto=" ++ fmtD n]
  | .metadata n m => if m = 0 then [t!"@metadata=" ++ fmtX 0 n] else [t!"@metadata=" ++ (fmtX 0 n ++ '/' :: fmtX 0 m)]
  | .write as => t!"@write" :: as.map actText
  | .apply as => t!"@apply" :: as.map actText
  | .clear => [t!"@clear"]
  | .meter n => [t!"@meter=" ++ fmtD n]

theorem instTexts_text (i : FInst) (hv : i.Valid) (hl : ∀ a ∈ i.actions, a.Lossless) :
    InstText oxmP actP i.inst (instTexts i) := by
  have acts : ∀ as : List Act, (∀ a ∈ as, a.Valid) → (∀ a ∈ as, a.Lossless) →
      ∀ e ∈ as.map (fun a => (a.wire, actText a)), IsWord oxmP actP (.act e.1) e.2 := by
    intro as h1 h2 e he
    obtain ⟨a, ha, rfl⟩ := List.mem_map.1 he
    exact isWord_act (actText_trip a (h1 a ha) (h2 a ha))
  cases i with
  | goto n => exact .goto t!"@goto" _ _ (by decide) (intSyntax_fmtD n)
  | metadata n m =>
    rw [instTexts.eq_def]
    dsimp only
    by_cases hm : m = 0
    · subst hm
      rw [if_pos rfl]
      exact .metadata t!"@metadata" _ _ (by decide) (intSyntax_fmtX 0 n)
    · rw [if_neg hm]
      exact .metadataMask t!"@metadata" _ _ _ _ (by decide) (intSyntax_fmtX 0 n) (intSyntax_fmtX 0 m)
  | write as =>
    have := InstText.write t!"@write" (as.map fun a => (a.wire, actText a)) (by decide) (acts as hv.2.1 hl)
    simp only [List.flatMap_map, List.map_map] at this
    exact this
  | apply as =>
    have := InstText.apply t!"@apply" (as.map fun a => (a.wire, actText a)) (by decide) (acts as hv.2.1 hl)
    simp only [List.flatMap_map, List.map_map] at this
    exact this
  | clear => exact .clear t!"@clear" (by decide)
  | meter n => exact .meter _ _ (intSyntax_fmtD n)

theorem instTexts_prints (i : FInst) (hv : i.Valid) (hl : ∀ a ∈ i.actions, a.Lossless) :
    InstPrints i.inst (instTexts i) := by
  have acts : ∀ as : List Act, (∀ a ∈ as, a.Valid) → (∀ a ∈ as, a.Lossless) →
      ∀ e ∈ as.map (fun a => (a.wire, actText a)), ActTrip e.1 e.2 := by
    intro as h1 h2 e he
    obtain ⟨a, ha, rfl⟩ := List.mem_map.1 he
    exact actText_trip a (h1 a ha) (h2 a ha)
  have len : ∀ (t l : Nat) (b : Bytes), l < 65536 → l = 4 + b.length → (u16 t ++ (u16 l ++ b)).length = l := by
    intro t l b _ h
    simp only [List.length_append, u16_length]; omega
  cases i with
  | goto n =>
    have hn : n < 256 := by have := hv.1.2; simp at this; omega
    have hw : (FInst.goto n).inst.wire = u16 1 ++ (u16 8 ++ (u8 n ++ pad 3)) := rfl
    have hL := len 1 8 (u8 n ++ pad 3) (by omega) (by simp [u8_length, pad_length])
    refine ⟨by rw [hw, hL]; omega, fun rest => by rw [hw, inst_uAt2 _ _ _ _ (by omega), hL], fun rest => ?_⟩
    refine ⟨_, ?_, sameText_refl _⟩
    rw [hw]
    unfold inst2strOne
    rw [inst_uAt0 _ _ _ _ (by omega), inst_uAt2 _ _ _ _ (by omega), inst_uAt _ _ _ _ _ _ (by omega)]
    rw [List.append_assoc, show uAt (u8 n ++ (pad 3 ++ rest)) (4 - 4) 1 = n from uAt_here 1 n _ hn]
    rfl
  | metadata n m =>
    have hn : n < 256 ^ 8 := by have := hv.1.1.2; simp at this; omega
    have hm : m < 256 ^ 8 := by have := hv.1.2.2; simp at this; omega
    have hw : (FInst.metadata n m).inst.wire = u16 2 ++ (u16 24 ++ (pad 4 ++ (u64 n ++ u64 m))) := rfl
    have hL := len 2 24 (pad 4 ++ (u64 n ++ u64 m)) (by omega) (by simp [u64_length, pad_length])
    refine ⟨by rw [hw, hL]; omega, fun rest => by rw [hw, inst_uAt2 _ _ _ _ (by omega), hL], fun rest => ?_⟩
    refine ⟨_, ?_, sameText_refl _⟩
    rw [hw]
    unfold inst2strOne
    have hnb : 8 + 16 ≤ ((u16 2 ++ (u16 24 ++ (pad 4 ++ (u64 n ++ u64 m)))) ++ rest).length := by
      rw [List.length_append, hL]; omega
    rw [inst_uAt0 _ _ _ _ (by omega), inst_uAt2 _ _ _ _ (by omega), inst_uAt _ _ _ _ 8 8 (by omega),
      inst_uAt _ _ _ _ 16 8 (by omega), needBytes_ok _ _ _ hnb]
    have e1 : uAt ((pad 4 ++ (u64 n ++ u64 m)) ++ rest) (8 - 4) 8 = n := by
      rw [List.append_assoc, uAt_skip_pad _ _ _ _ (by omega), List.append_assoc]; exact uAt_here 8 n _ hn
    have e2 : uAt ((pad 4 ++ (u64 n ++ u64 m)) ++ rest) (16 - 4) 8 = m := by
      rw [List.append_assoc, uAt_skip_pad _ _ _ _ (by omega), List.append_assoc,
        show u64 n = be 8 n from rfl, uAt_skip 8 _ _ _ _ (by omega)]; exact uAt_here 8 m _ hm
    rw [e1, e2]
    dsimp only
    rw [show (2 == OFPIT_GOTO_TABLE) = false from rfl, show (2 == OFPIT_WRITE_METADATA) = true from rfl,
      if_neg (by decide), if_pos (by decide), show ((24 : Nat) == 24) = true from rfl, pyAssert_ok, ok_bind, ok_bind]
    rw [instTexts.eq_def]
    dsimp only
    by_cases hz : m = 0
    · rw [if_pos (by simpa using hz), if_pos hz]
    · rw [if_neg (by simpa using hz), if_neg hz]
  | write as =>
    have he : (FInst.write as).inst.wire = u16 3 ++ (u16 (8 + ((as.map fun a => (a.wire, actText a)).flatMap (·.1)).length) ++
        (pad 4 ++ (as.map fun a => (a.wire, actText a)).flatMap (·.1))) := by
      rw [List.flatMap_map]; rfl
    have ht : instTexts (FInst.write as) = t!"@write" :: (as.map fun a => (a.wire, actText a)).map (·.2) := by
      rw [List.map_map]; rfl
    have hd : 8 ∣ ((as.map fun a => (a.wire, actText a)).flatMap (·.1)).length := by
      rw [List.flatMap_map]; exact hv.2.2
    have hlt : 8 + ((as.map fun a => (a.wire, actText a)).flatMap (·.1)).length < 65536 := by
      rw [List.flatMap_map]; exact hv.1
    have ha := acts as hv.2.1 hl
    rw [ht]
    generalize (as.map fun a => (a.wire, actText a)) = L at *
    have hL := len 3 _ (pad 4 ++ L.flatMap (·.1)) hlt (by simp [pad_length]; omega)
    refine ⟨by rw [he, hL]; omega, fun rest => by rw [he, inst_uAt2 _ _ _ _ hlt, hL], fun rest => ?_⟩
    obtain ⟨toks, h1, h2⟩ := instActions_list t!"@write" (by decide) 3 L ha hd rest
    refine ⟨toks, ?_, h2⟩
    rw [he]
    unfold inst2strOne
    rw [inst_uAt0 _ _ _ _ (by omega), inst_uAt2 _ _ _ _ hlt]
    exact h1
  | apply as =>
    have he : (FInst.apply as).inst.wire = u16 4 ++ (u16 (8 + ((as.map fun a => (a.wire, actText a)).flatMap (·.1)).length) ++
        (pad 4 ++ (as.map fun a => (a.wire, actText a)).flatMap (·.1))) := by
      rw [List.flatMap_map]; rfl
    have ht : instTexts (FInst.apply as) = t!"@apply" :: (as.map fun a => (a.wire, actText a)).map (·.2) := by
      rw [List.map_map]; rfl
    have hd : 8 ∣ ((as.map fun a => (a.wire, actText a)).flatMap (·.1)).length := by
      rw [List.flatMap_map]; exact hv.2.2
    have hlt : 8 + ((as.map fun a => (a.wire, actText a)).flatMap (·.1)).length < 65536 := by
      rw [List.flatMap_map]; exact hv.1
    have ha := acts as hv.2.1 hl
    rw [ht]
    generalize (as.map fun a => (a.wire, actText a)) = L at *
    have hL := len 4 _ (pad 4 ++ L.flatMap (·.1)) hlt (by simp [pad_length]; omega)
    refine ⟨by rw [he, hL]; omega, fun rest => by rw [he, inst_uAt2 _ _ _ _ hlt, hL], fun rest => ?_⟩
    obtain ⟨toks, h1, h2⟩ := instActions_list t!"@apply" (by decide) 4 L ha hd rest
    refine ⟨toks, ?_, h2⟩
    rw [he]
    unfold inst2strOne
    rw [inst_uAt0 _ _ _ _ (by omega), inst_uAt2 _ _ _ _ hlt]
    exact h1
  | clear =>
    have hw : FInst.clear.inst.wire = u16 5 ++ (u16 8 ++ pad 4) := rfl
    have hL := len 5 8 (pad 4) (by omega) (by simp [pad_length])
    refine ⟨by rw [hw, hL]; omega, fun rest => by rw [hw, inst_uAt2 _ _ _ _ (by omega), hL], fun rest => ?_⟩
    refine ⟨_, ?_, sameText_refl _⟩
    rw [hw]
    unfold inst2strOne
    rw [inst_uAt0 _ _ _ _ (by omega), inst_uAt2 _ _ _ _ (by omega)]
    rfl
  | meter n =>
    have hn : n < 256 ^ 4 := by have := hv.1.2; simp at this; omega
    have hw : (FInst.meter n).inst.wire = u16 6 ++ (u16 8 ++ u32 n) := rfl
    have hL := len 6 8 (u32 n) (by omega) (by simp [u32_length])
    refine ⟨by rw [hw, hL]; omega, fun rest => by rw [hw, inst_uAt2 _ _ _ _ (by omega), hL], fun rest => ?_⟩
    refine ⟨_, ?_, sameText_refl _⟩
    rw [hw]
    unfold inst2strOne
    have hnb : 4 + 4 ≤ ((u16 6 ++ (u16 8 ++ u32 n)) ++ rest).length := by
      rw [List.length_append, hL]; omega
    rw [inst_uAt0 _ _ _ _ (by omega), inst_uAt2 _ _ _ _ (by omega), inst_uAt _ _ _ _ 4 4 (by omega), needBytes_ok _ _ _ hnb,
      show uAt (u32 n ++ rest) (4 - 4) 4 = n from uAt_here 4 n _ hn]
    rfl

theorem fInsts_trip (l : List FInst) (hv : ∀ i ∈ l, i.Valid) (hl : ∀ i ∈ l, ∀ a ∈ i.actions, a.Lossless) :
    inst2str (l.flatMap fun i => i.inst.wire) = .ok (commaList (l.flatMap instTexts)) := by
  have := inst2str_list (l.map fun i => (i.inst, instTexts i)) (by
    intro e he
    obtain ⟨i, hi, rfl⟩ := List.mem_map.1 he
    exact instTexts_prints i (hv i hi) (hl i hi))
  simpa only [List.flatMap_map] using this

/-! ## The numbers of the head -/

/-- The item of a number: none if it is the default. -/
def optItem (k : FKey) (n d : Int) (t : Str) : List (Word × Str) :=
  if n = d then [] else [(.key k n, k.name ++ '=' :: t)]

theorem emit_opt (k : FKey) (n : Int) (d : Nat) (g : Nat → Str) (hn : 0 ≤ n) :
    emitF (some n.toNat) (some d) (fun m => k.name ++ '=' :: g m) = (optItem k n d (g n.toNat)).map (·.2) := by
  unfold emitF optItem
  dsimp only
  by_cases h : n = d
  · subst h; simp
  · rw [if_neg h, if_neg (by simp; omega)]; rfl

/-- The item of the cookie. -/
def cookieItem (c m dc dm : Int) : List (Word × Str) :=
  if m = dm then (if c = dc then [] else [(.cookie c none, t!"cookie=" ++ fmtX 0 c.toNat)])
  else [(.cookie c (some m), t!"cookie=" ++ (fmtX 0 c.toNat ++ '/' :: fmtX 0 m.toNat))]

/-- The items of the flags. -/
def flagItems (f : Nat) : List (Word × Str) :=
  (ofpff.filter fun e => (f / 2 ^ e.2) % 2 == 1).map fun e => (.flag e.2, e.1)

/-- The items before the match. -/
def headItems (d h : FlowHead) : List (Word × Str) :=
  cookieItem h.cookie h.cookieMask d.cookie d.cookieMask ++
  (optItem .table h.table d.table (fmtD h.table.toNat) ++
  (optItem .priority h.priority d.priority (fmtD h.priority.toNat) ++
  (optItem .buffer h.buffer d.buffer (fmtX 0 h.buffer.toNat) ++
  (optItem .outPort h.outPort d.outPort (nameOrD ofpp h.outPort.toNat) ++
  (optItem .outGroup h.outGroup d.outGroup (nameOrD ofpg h.outGroup.toNat) ++
  (optItem .idle h.idle d.idle (fmtD h.idle.toNat) ++
  (optItem .hard h.hard d.hard (fmtD h.hard.toNat) ++ flagItems h.flags.toNat)))))))

/-- The arguments of `_fixed`. -/
def headFixed (h : FlowHead) : Fixed :=
  ⟨some h.cookie.toNat, some h.cookieMask.toNat, some h.table.toNat, some h.priority.toNat, some h.buffer.toNat,
    some h.outPort.toNat, some h.outGroup.toNat, some h.idle.toNat, some h.hard.toNat, some h.flags.toNat⟩

theorem fixedText_head (h : FlowHead) (hf : h.Fits) (x : Int) :
    fixedText (modDefault h.command) (headFixed h) =
    (headItems (defaults h.command x) h).map (·.2) := by
  obtain ⟨_, _, f3, f4, f5, f6, f7, f8, f9, f10, f11, f12⟩ := hf
  have hc : ∀ (c m : Int) (dc dm : Nat), 0 ≤ c → 0 ≤ m →
      (if some m.toNat == some dm then emitF (some c.toNat) (some dc) (fun c => t!"cookie=" ++ fmtX 0 c)
      else [t!"cookie=" ++ (fmtX 0 ((some c.toNat).getD 0) ++ '/' :: fmtX 0 m.toNat)]) =
      (cookieItem c m dc dm).map (·.2) := by
    intro c m dc dm h1 h2
    unfold cookieItem
    by_cases hm : m = dm
    · subst hm
      rw [if_pos (by simp), if_pos rfl]
      unfold emitF
      dsimp only
      by_cases h : c = dc
      · subst h; simp
      · rw [if_neg h, if_neg (by simp; omega)]; rfl
    · rw [if_neg (by simp; omega), if_neg hm]; rfl
  have hff : ∀ (f : Nat), (if some f == some 0 then [] else (ofpff.filter fun e => (f / 2 ^ e.2) % 2 == 1).map (·.1)) =
      (flagItems f).map (·.2) := by
    intro f
    by_cases h : f = 0
    · subst h; decide
    · rw [if_neg (by simpa using h)]
      unfold flagItems
      rw [List.map_map]; rfl
  have key : ∀ (dt db dp dg : Nat), fixedText ⟨some 0, some 0, some dt, some 0x8000, some db, some dp, some dg, some 0, some 0, some 0⟩ (headFixed h) =
      (headItems ⟨x, h.command, 0, 0, dt, 0, 0, 0x8000, db, dp, dg, 0⟩ h).map (·.2) := by
    intro dt db dp dg
    unfold fixedText headItems headFixed
    dsimp only
    simp only [List.map_append]
    rw [hc _ _ 0 0 f3.1 f4.1, hff]
    congr 1
    congr 1
    · exact emit_opt .table h.table dt fmtD f5.1
    congr 1
    · exact emit_opt .priority h.priority 0x8000 fmtD f8.1
    congr 1
    · exact emit_opt .buffer h.buffer db (fmtX 0) f9.1
    congr 1
    · exact emit_opt .outPort h.outPort dp (nameOrD ofpp) f10.1
    congr 1
    · exact emit_opt .outGroup h.outGroup dg (nameOrD ofpg) f11.1
    congr 1
    · exact emit_opt .idle h.idle 0 fmtD f6.1
    congr 1
    · exact emit_opt .hard h.hard 0 fmtD f7.1
  unfold modDefault defaults
  by_cases h34 : h.command = 3 ∨ h.command = 4
  · rw [if_pos h34, if_pos (by simpa using h34)]
    exact key 255 0 0xffffffff 0xffffffff
  · rw [if_neg h34, if_neg (by simpa using h34)]
    exact key 0 0xffffffff 0 0

theorem nameOrD_group (n : Nat) : GroupText (nameOrD ofpg n) n := by
  unfold nameOrD
  cases h : ofpg.find? (fun e => e.1 == n) with
  | none => exact .num _ _ (intSyntax_fmtD n)
  | some e =>
    have h1 := List.mem_of_find?_eq_some h
    have h2 := List.find?_some h
    simp only [beq_iff_eq] at h2
    have : e ∈ reservedGroups := (by decide : ∀ e ∈ ofpg, e ∈ reservedGroups) e h1
    rw [← h2]
    exact .name e.1 e.2 this

theorem headItems_keys (d h : FlowHead) (hf : h.Fits) :
    ∀ e ∈ headItems d h, StartWord e.1 ∧ KeyText e.1 e.2 := by
  obtain ⟨_, _, f3, f4, f5, f6, f7, f8, f9, f10, f11, f12⟩ := hf
  have hk : ∀ (k : FKey) (n d : Int) (t : Str), k.Arg t n → ∀ e ∈ optItem k n d t, StartWord e.1 ∧ KeyText e.1 e.2 := by
    intro k n d t ha e he
    unfold optItem at he
    split at he
    · simp at he
    · simp only [List.mem_singleton] at he
      subst he
      exact ⟨trivial, .key k t n ha⟩
  have nat : ∀ {n : Int}, 0 ≤ n → ((n.toNat : Nat) : Int) = n := fun h => Int.toNat_of_nonneg h
  have fD : ∀ {n : Int}, 0 ≤ n → IntSyntax (fmtD n.toNat) n (fmtD n.toNat).length := by
    intro n h; have := intSyntax_fmtD n.toNat; rwa [nat h] at this
  have fX : ∀ {n : Int}, 0 ≤ n → IntSyntax (fmtX 0 n.toNat) n (fmtX 0 n.toNat).length := by
    intro n h; have := intSyntax_fmtX 0 n.toNat; rwa [nat h] at this
  have fP : ∀ {n : Int}, 0 ≤ n → PortText (nameOrD ofpp n.toNat) n := by
    intro n h; have := nameOrD_port n.toNat; rwa [nat h] at this
  have fG : ∀ {n : Int}, 0 ≤ n → GroupText (nameOrD ofpg n.toNat) n := by
    intro n h; have := nameOrD_group n.toNat; rwa [nat h] at this
  intro e he
  unfold headItems at he
  simp only [List.mem_append] at he
  rcases he with he | he | he | he | he | he | he | he | he
  · unfold cookieItem at he
    split at he
    · split at he
      · simp at he
      · simp only [List.mem_singleton] at he
        subst he
        exact ⟨trivial, .cookie _ _ (fX f3.1)⟩
    · simp only [List.mem_singleton] at he
      subst he
      exact ⟨trivial, .cookieMask _ _ _ _ (fX f3.1) (fX f4.1)⟩
  · exact hk .table _ _ _ (fD f5.1) e he
  · exact hk .priority _ _ _ (fD f8.1) e he
  · exact hk .buffer _ _ _ (fX f9.1) e he
  · exact hk .outPort _ _ _ (fP f10.1) e he
  · exact hk .outGroup _ _ _ (fG f11.1) e he
  · exact hk .idle _ _ _ (fD f6.1) e he
  · exact hk .hard _ _ _ (fD f7.1) e he
  · unfold flagItems at he
    obtain ⟨g, hg, rfl⟩ := List.mem_map.1 he
    have hg' : g ∈ flagWords := (by decide : ∀ g ∈ ofpff, g ∈ flagWords) g (List.mem_of_mem_filter hg)
    exact ⟨trivial, .flag _ _ hg'⟩

theorem headItems_words (d h : FlowHead) (hf : h.Fits) :
    ∀ e ∈ headItems d h, StartWord e.1 ∧ IsWord oxmP actP e.1 e.2 :=
  fun e he => ⟨(headItems_keys d h hf e he).1, keyText_isWord (headItems_keys d h hf e he).2⟩

/-! ### What the items say -/

theorem optItem_words (k : FKey) (n d : Int) (t : Str) :
    (optItem k n d t).map (·.1) = if n = d then [] else [.key k n] := by
  unfold optItem; split <;> rfl

theorem cookieItem_words (c m dc dm : Int) : (cookieItem c m dc dm).map (·.1) =
    if m = dm then (if c = dc then [] else [.cookie c none]) else [.cookie c (some m)] := by
  unfold cookieItem; split
  · split <;> rfl
  · rfl

theorem flagItems_words (f : Nat) : ∃ bs : List Nat, (flagItems f).map (·.1) = bs.map Word.flag := by
  refine ⟨(ofpff.filter fun e => (f / 2 ^ e.2) % 2 == 1).map (·.2), ?_⟩
  unfold flagItems
  rw [List.map_map, List.map_map]; rfl

theorem flagItems_sum : ∀ f < 32, flagsOf ((flagItems f).map (·.1)) = f := by decide +kernel

theorem flagItems_mod (f : Nat) : flagItems (f % 32) = flagItems f := by
  unfold flagItems
  congr 1
  apply List.filter_congr
  intro e he
  have : e.2 < 5 := (by decide : ∀ e ∈ ofpff, e.2 < 5) e he
  have h5 : e.2 = 0 ∨ e.2 = 1 ∨ e.2 = 2 ∨ e.2 = 3 ∨ e.2 = 4 := by omega
  rcases h5 with h | h | h | h | h <;> rw [h] <;> congr 1 <;> norm_num <;> omega

theorem flagsOf_append (a b : List Word) (h : ∀ w ∈ b, ∀ i, w ≠ .flag i) : flagsOf (a ++ b) = flagsOf a := by
  unfold flagsOf
  congr 1
  apply List.map_congr_left
  intro i _
  have : Word.flag i ∈ a ++ b ↔ Word.flag i ∈ a := by
    rw [List.mem_append]
    exact ⟨fun hh => hh.resolve_right fun hb => h _ hb i rfl, Or.inl⟩
  simp only [this]

theorem flagsOf_append_left (a b : List Word) (h : ∀ w ∈ a, ∀ i, w ≠ .flag i) : flagsOf (a ++ b) = flagsOf b := by
  unfold flagsOf
  congr 1
  apply List.map_congr_left
  intro i _
  have : Word.flag i ∈ a ++ b ↔ Word.flag i ∈ b := by
    rw [List.mem_append]
    exact ⟨fun hh => hh.resolve_left fun hb => h _ hb i rfl, Or.inr⟩
  simp only [this]

/-- The words before the match. -/
def headWords (d h : FlowHead) : List Word :=
  (if h.cookieMask = d.cookieMask then (if h.cookie = d.cookie then [] else [.cookie h.cookie none])
    else [.cookie h.cookie (some h.cookieMask)]) ++
  ((if h.table = d.table then [] else [.key .table h.table]) ++
  ((if h.priority = d.priority then [] else [.key .priority h.priority]) ++
  ((if h.buffer = d.buffer then [] else [.key .buffer h.buffer]) ++
  ((if h.outPort = d.outPort then [] else [.key .outPort h.outPort]) ++
  ((if h.outGroup = d.outGroup then [] else [.key .outGroup h.outGroup]) ++
  ((if h.idle = d.idle then [] else [.key .idle h.idle]) ++
  (if h.hard = d.hard then [] else [.key .hard h.hard])))))))

theorem headItems_map (d h : FlowHead) : (headItems d h).map (·.1) =
    headWords d h ++ (flagItems h.flags.toNat).map (·.1) := by
  unfold headItems headWords
  simp only [List.map_append, optItem_words, cookieItem_words, List.append_assoc]

theorem filterMap_none {f : Word → Option Int} {l : List Word} (h : ∀ w ∈ l, f w = none) : l.filterMap f = [] :=
  List.filterMap_eq_nil_iff.2 h

theorem opt_self (n d : Int) (k : FKey) : (if n = d then [] else [Word.key k n]).filterMap (Word.keyArg k) =
    if n = d then [] else [n] := by
  split
  · rfl
  · simp [Word.keyArg]

theorem opt_other (n d : Int) (k k' : FKey) (h : k' ≠ k) :
    (if n = d then [] else [Word.key k' n]).filterMap (Word.keyArg k) = [] := by
  split
  · rfl
  · simp [Word.keyArg, h]

theorem opt_cookieArg (n d : Int) (k : FKey) : (if n = d then [] else [Word.key k n]).filterMap Word.cookieArg = [] := by
  split <;> rfl

theorem opt_maskArg (n d : Int) (k : FKey) : (if n = d then [] else [Word.key k n]).filterMap Word.maskArg = [] := by
  split <;> rfl

theorem cookie_keyArg (c m dc dm : Int) (k : FKey) : (if m = dm then (if c = dc then [] else [Word.cookie c none])
    else [.cookie c (some m)]).filterMap (Word.keyArg k) = [] := by
  split
  · split <;> rfl
  · rfl

theorem last_getD (n d : Int) : ((if n = d then [] else [n]).getLast?).getD d = n := by
  split
  · next h => exact h.symm
  · rfl

theorem headOf_items (c x : Int) (h : FlowHead) (hx : h.xid = x) (hc : h.command = c) (hf : 0 ≤ h.flags)
    (ws : List Word) (hw : ∀ w ∈ ws, ∃ b, w = .oxm b) :
    headOf c x ((headItems (defaults c x) h).map (·.1) ++ ws) = { h with flags := h.flags % 32 } := by
  have hfl : flagsOf ((flagItems h.flags.toNat).map (·.1)) = h.flags.toNat % 32 := by
    rw [← flagItems_mod]
    exact flagItems_sum _ (by omega)
  obtain ⟨bs, hbs⟩ := flagItems_words h.flags.toNat
  rw [hbs] at hfl
  rw [headItems_map, hbs]
  have hd : (defaults c x).flags = 0 := by unfold defaults; split <;> rfl
  have tail : ∀ f : Word → Option Int, (∀ b, f (.oxm b) = none) → (∀ i, f (.flag i) = none) →
      lastOf f ((headWords (defaults c x) h ++ bs.map Word.flag) ++ ws) =
        ((headWords (defaults c x) h).filterMap f).getLast? := by
    intro f h1 h2
    unfold lastOf
    rw [List.filterMap_append, List.filterMap_append, filterMap_none (l := ws), filterMap_none (l := bs.map Word.flag),
      List.append_nil, List.append_nil]
    · intro w hw; obtain ⟨i, _, rfl⟩ := List.mem_map.1 hw; exact h2 i
    · intro w hm; obtain ⟨b, rfl⟩ := hw w hm; exact h1 b
  have noflag : ∀ w ∈ headWords (defaults c x) h, ∀ i, w ≠ .flag i := by
    intro w hm i
    unfold headWords at hm
    simp only [List.mem_append] at hm
    rcases hm with hm | hm | hm | hm | hm | hm | hm | hm <;>
      (repeat' split at hm) <;> simp at hm <;> subst hm <;> simp
  have hflags : flagsOf ((headWords (defaults c x) h ++ bs.map Word.flag) ++ ws) = h.flags.toNat % 32 := by
    rw [flagsOf_append _ _ (by intro w hm i; obtain ⟨b, rfl⟩ := hw w hm; simp), flagsOf_append_left _ _ noflag, hfl]
  unfold headOf
  dsimp only
  rw [hflags]
  rw [tail _ (fun _ => rfl) (fun _ => rfl), tail _ (fun _ => rfl) (fun _ => rfl), tail _ (fun _ => rfl) (fun _ => rfl),
    tail _ (fun _ => rfl) (fun _ => rfl), tail _ (fun _ => rfl) (fun _ => rfl), tail _ (fun _ => rfl) (fun _ => rfl),
    tail _ (fun _ => rfl) (fun _ => rfl), tail _ (fun _ => rfl) (fun _ => rfl), tail _ (fun _ => rfl) (fun _ => rfl)]
  have k1 : (((headWords (defaults c x) h).filterMap (Word.keyArg .table)).getLast?).getD (defaults c x).table = h.table := by
    unfold headWords
    simp only [List.filterMap_append, cookie_keyArg, opt_self,
      ne_eq, reduceCtorEq, not_false_eq_true, opt_other, List.nil_append, List.append_nil, last_getD]
  have k2 : (((headWords (defaults c x) h).filterMap (Word.keyArg .priority)).getLast?).getD (defaults c x).priority = h.priority := by
    unfold headWords
    simp only [List.filterMap_append, cookie_keyArg, opt_self,
      ne_eq, reduceCtorEq, not_false_eq_true, opt_other, List.nil_append, List.append_nil, last_getD]
  have k3 : (((headWords (defaults c x) h).filterMap (Word.keyArg .buffer)).getLast?).getD (defaults c x).buffer = h.buffer := by
    unfold headWords
    simp only [List.filterMap_append, cookie_keyArg, opt_self,
      ne_eq, reduceCtorEq, not_false_eq_true, opt_other, List.nil_append, List.append_nil, last_getD]
  have k4 : (((headWords (defaults c x) h).filterMap (Word.keyArg .outPort)).getLast?).getD (defaults c x).outPort = h.outPort := by
    unfold headWords
    simp only [List.filterMap_append, cookie_keyArg, opt_self,
      ne_eq, reduceCtorEq, not_false_eq_true, opt_other, List.nil_append, List.append_nil, last_getD]
  have k5 : (((headWords (defaults c x) h).filterMap (Word.keyArg .outGroup)).getLast?).getD (defaults c x).outGroup = h.outGroup := by
    unfold headWords
    simp only [List.filterMap_append, cookie_keyArg, opt_self,
      ne_eq, reduceCtorEq, not_false_eq_true, opt_other, List.nil_append, List.append_nil, last_getD]
  have k6 : (((headWords (defaults c x) h).filterMap (Word.keyArg .idle)).getLast?).getD (defaults c x).idle = h.idle := by
    unfold headWords
    simp only [List.filterMap_append, cookie_keyArg, opt_self,
      ne_eq, reduceCtorEq, not_false_eq_true, opt_other, List.nil_append, List.append_nil, last_getD]
  have k7 : (((headWords (defaults c x) h).filterMap (Word.keyArg .hard)).getLast?).getD (defaults c x).hard = h.hard := by
    unfold headWords
    simp only [List.filterMap_append, cookie_keyArg, opt_self,
      ne_eq, reduceCtorEq, not_false_eq_true, opt_other, List.nil_append, List.append_nil, last_getD]
  have k8 : (((headWords (defaults c x) h).filterMap Word.cookieArg).getLast?).getD (defaults c x).cookie = h.cookie := by
    unfold headWords
    simp only [List.filterMap_append, opt_cookieArg, List.append_nil]
    split
    · split
      · next h => exact h.symm
      · rfl
    · rfl
  have k9 : (((headWords (defaults c x) h).filterMap Word.maskArg).getLast?).getD (defaults c x).cookieMask = h.cookieMask := by
    unfold headWords
    simp only [List.filterMap_append, opt_maskArg, List.append_nil]
    split
    · next h =>
      split <;> exact h.symm
    · rfl
  rw [k1, k2, k3, k4, k5, k6, k7, k8, k9, ← hx, ← hc]
  have : ((h.flags.toNat % 32 : Nat) : Int) = h.flags % 32 := by omega
  rw [this]

theorem oxmOf_items (d h : FlowHead) (ts : List Tlv) :
    oxmOf ((headItems d h).map (·.1) ++ ts.map fun t => Word.oxm t.wire) = ts.flatMap Tlv.wire := by
  have h1 : ∀ w ∈ (headItems d h).map (·.1), Word.oxmBytes w = [] := by
    intro w hm
    rw [headItems_map] at hm
    obtain ⟨bs, hbs⟩ := flagItems_words h.flags.toNat
    rw [hbs] at hm
    unfold headWords at hm
    simp only [List.mem_append] at hm
    rcases hm with (hm | hm | hm | hm | hm | hm | hm | hm) | hm
    · repeat' split at hm
      all_goals simp at hm
      all_goals subst hm
      all_goals rfl
    any_goals
      split at hm
      · simp at hm
      · simp only [List.mem_singleton] at hm; subst hm; rfl
    · obtain ⟨i, _, rfl⟩ := List.mem_map.1 hm; rfl
  unfold oxmOf
  rw [List.flatMap_append, List.flatMap_eq_nil_iff.2 h1, List.nil_append, List.flatMap_map]
  rfl

/-! ## The message -/

theorem flowWire_split (h : FlowHead) (oxm inst : Bytes) : h.wire oxm inst =
    u8 4 ++ (u8 14 ++ (u16 (8 + (h.body oxm inst).length) ++ (u32 h.xid.toNat ++ h.body oxm inst))) := rfl

theorem uAt_u8 (m : Nat) (r : Bytes) (off size : Nat) (h : 1 ≤ off) :
    uAt (u8 m ++ r) off size = uAt r (off - 1) size := uAt_skip 1 m r off size h

theorem uAt_u64 (m : Nat) (r : Bytes) (off size : Nat) (h : 8 ≤ off) :
    uAt (u64 m ++ r) off size = uAt r (off - 8) size := uAt_skip 8 m r off size h

theorem uAt_u8_here (n : Nat) (r : Bytes) (h : n < 256 ^ 1) : uAt (u8 n ++ r) 0 1 = n := uAt_here 1 n r h
theorem uAt_u32_here (n : Nat) (r : Bytes) (h : n < 256 ^ 4) : uAt (u32 n ++ r) 0 4 = n := uAt_here 4 n r h
theorem uAt_u64_here (n : Nat) (r : Bytes) (h : n < 256 ^ 8) : uAt (u64 n ++ r) 0 8 = n := uAt_here 8 n r h

theorem fitsIn_nat {k : Nat} {n : Int} (h : FitsIn k n) : n.toNat < 256 ^ k := by
  have := h.1; have := h.2; omega

/-- The numbers of a flow-mod where `mod2str` looks for them. -/
theorem flowWire_nums (h : FlowHead) (hf : h.Fits) (oxm inst : Bytes) (hl : (h.wire oxm inst).length < 65536) :
    uAt (h.wire oxm inst) 2 2 = (h.wire oxm inst).length ∧ uAt (h.wire oxm inst) 4 4 = h.xid.toNat ∧
    uAt (h.wire oxm inst) 8 8 = h.cookie.toNat ∧ uAt (h.wire oxm inst) 16 8 = h.cookieMask.toNat ∧
    uAt (h.wire oxm inst) 24 1 = h.table.toNat ∧ uAt (h.wire oxm inst) 25 1 = h.command.toNat ∧
    uAt (h.wire oxm inst) 26 2 = h.idle.toNat ∧ uAt (h.wire oxm inst) 28 2 = h.hard.toNat ∧
    uAt (h.wire oxm inst) 30 2 = h.priority.toNat ∧ uAt (h.wire oxm inst) 32 4 = h.buffer.toNat ∧
    uAt (h.wire oxm inst) 36 4 = h.outPort.toNat ∧ uAt (h.wire oxm inst) 40 4 = h.outGroup.toNat ∧
    uAt (h.wire oxm inst) 44 2 = h.flags.toNat ∧ uAt (h.wire oxm inst) 48 2 = 1 ∧
    uAt (h.wire oxm inst) 50 2 = 4 + oxm.length := by
  obtain ⟨f1, f2, f3, f4, f5, f6, f7, f8, f9, f10, f11, f12⟩ := hf
  have hlen : (h.wire oxm inst).length = 8 + (h.body oxm inst).length := by
    rw [flowWire_split]; simp only [List.length_append, u8_length, u16_length, u32_length]; omega
  have hb := flowBody_length h oxm inst
  have ha := align8_facts (4 + oxm.length)
  rw [hlen]
  rw [hlen] at hl
  rw [flowWire_split]
  simp only [FlowHead.body, matchWire, List.append_assoc]
  refine ⟨?_, ?_, ?_, ?_, ?_, ?_, ?_, ?_, ?_, ?_, ?_, ?_, ?_, ?_, ?_⟩
  all_goals simp only [uAt_u8, uAt_u16, uAt_u32, uAt_u64, uAt_skip_pad, Nat.reduceLeDiff, Nat.reduceSub, Nat.sub_self,
    Nat.le_refl]
  · refine uAt_u16_here _ _ ?_
    simp only [FlowHead.body, matchWire, List.append_assoc] at hl
    exact hl
  · exact uAt_u32_here _ _ (fitsIn_nat f1)
  · exact uAt_u64_here _ _ (fitsIn_nat f3)
  · exact uAt_u64_here _ _ (fitsIn_nat f4)
  · exact uAt_u8_here _ _ (fitsIn_nat f5)
  · exact uAt_u8_here _ _ (fitsIn_nat f2)
  · exact uAt_u16_here _ _ (fitsIn_nat f6)
  · exact uAt_u16_here _ _ (fitsIn_nat f7)
  · exact uAt_u16_here _ _ (fitsIn_nat f8)
  · exact uAt_u32_here _ _ (fitsIn_nat f9)
  · exact uAt_u32_here _ _ (fitsIn_nat f10)
  · exact uAt_u32_here _ _ (fitsIn_nat f11)
  · exact uAt_u16_here _ _ (fitsIn_nat f12)
  · exact uAt_u16_here _ _ (by omega)
  · exact uAt_u16_here _ _ (by omega)

/-- The bytes of a flow-mod before the match items. -/
def flowFront (h : FlowHead) (len olen : Nat) : Bytes :=
  u8 4 ++ (u8 14 ++ (u16 len ++ (u32 h.xid.toNat ++
  (u64 h.cookie.toNat ++ (u64 h.cookieMask.toNat ++ (u8 h.table.toNat ++ (u8 h.command.toNat ++
  (u16 h.idle.toNat ++ (u16 h.hard.toNat ++ (u16 h.priority.toNat ++ (u32 h.buffer.toNat ++
  (u32 h.outPort.toNat ++ (u32 h.outGroup.toNat ++ (u16 h.flags.toNat ++ (pad 2 ++ (u16 1 ++
  u16 olen))))))))))))))))

theorem flowFront_length (h : FlowHead) (len olen : Nat) : (flowFront h len olen).length = 52 := by
  unfold flowFront
  simp only [List.length_append, u8_length, u16_length, u32_length, u64_length, pad_length]

theorem flowWire_front (h : FlowHead) (oxm inst : Bytes) : h.wire oxm inst =
    flowFront h (8 + (h.body oxm inst).length) (4 + oxm.length) ++ (oxm ++ (fill (4 + oxm.length) ++ inst)) := by
  rw [flowWire_split]
  generalize 8 + (h.body oxm inst).length = L
  simp only [flowFront, FlowHead.body, matchWire, List.append_assoc]

theorem flowWire_length (h : FlowHead) (oxm inst : Bytes) :
    (h.wire oxm inst).length = 48 + align8 (4 + oxm.length) + inst.length := by
  rw [flowWire_split]
  simp only [List.length_append, u8_length, u16_length, u32_length, flowBody_length]; omega

theorem flowWire_slices (h : FlowHead) (oxm inst : Bytes) :
    slice (h.wire oxm inst) 52 (52 + (4 + oxm.length) - 4) = oxm ∧
    slice (h.wire oxm inst) (48 + align8 (4 + oxm.length)) (h.wire oxm inst).length = inst := by
  have ha := align8_facts (4 + oxm.length)
  have hF := flowFront_length h (8 + (h.body oxm inst).length) (4 + oxm.length)
  constructor
  · rw [flowWire_front]
    generalize flowFront h (8 + (h.body oxm inst).length) (4 + oxm.length) = F at *
    apply slice_middle
    · exact hF
    · omega
  · rw [flowWire_length, flowWire_front]
    generalize flowFront h (8 + (h.body oxm inst).length) (4 + oxm.length) = F at *
    have hfl := fill_length (4 + oxm.length)
    generalize fill (4 + oxm.length) = P at *
    have e : F ++ (oxm ++ (P ++ inst)) = (F ++ (oxm ++ P)) ++ (inst ++ []) := by simp
    rw [e]
    apply slice_middle
    · simp only [List.length_append]; omega
    · simp only [List.length_append]; omega

/-- The items of a flow-mod before the instructions. -/
noncomputable def flowItems (m : FlowMod) : List (Word × Str) :=
  headItems (defaults m.head.command m.head.xid) m.head ++ m.mtch.map fun t => (.oxm t.wire, tlvText t)

theorem flow_prints (m : FlowMod) (hv : m.Valid) (hl : m.PartsLossless) :
    mod2str m.wire = .ok (commaList ((flowItems m).map (·.2) ++ m.insts.flatMap instTexts)) := by
  obtain ⟨hf, hm, hi, hlen⟩ := hv
  obtain ⟨l2, l3⟩ := hl
  unfold FlowMod.wire at hlen ⊢
  obtain ⟨n1, n2, n3, n4, n5, n6, n7, n8, n9, n10, n11, n12, n13, n14, n15⟩ := flowWire_nums _ hf _ _ hlen
  obtain ⟨s1, s2⟩ := flowWire_slices m.head (m.mtch.flatMap Tlv.wire) (m.insts.flatMap fun i => i.inst.wire)
  have h52 : 0 + 52 ≤ (m.head.wire (m.mtch.flatMap Tlv.wire) (m.insts.flatMap fun i => i.inst.wire)).length := by
    have ha := align8_facts (4 + (m.mtch.flatMap Tlv.wire).length)
    rw [flowWire_split]
    simp only [List.length_append, u8_length, u16_length, u32_length, flowBody_length]; omega
  have htx := (oxm_list m.mtch (fun t ht => ⟨hm t ht, l2 t ht⟩)).1
  have htx' : oxm2str (m.mtch.flatMap Tlv.wire) = .ok (commaList (m.mtch.map tlvText)) := by
    rw [← joinStr_commaList]; exact htx
  have hin := fInsts_trip m.insts hi l3
  have hcmd : ((m.head.command.toNat : Nat) : Int) = m.head.command := by
    exact Int.toNat_of_nonneg hf.2.1.1
  unfold mod2str
  rw [needBytes_ok _ _ _ h52, ok_bind]
  dsimp only
  rw [n1, n3, n4, n5, n6, n7, n8, n9, n10, n11, n12, n13, n14, n15, s1, s2, htx', ok_bind, hin, ok_bind, hcmd]
  have hfx := fixedText_head m.head hf m.head.xid
  unfold headFixed at hfx
  rw [hfx, if_pos (by decide), joinStr_commaList]
  have hne1 : ∀ t ∈ m.mtch.map tlvText, t ≠ [] := by
    intro t ht
    obtain ⟨x, _, rfl⟩ := List.mem_map.1 ht
    simp [tlvText]
  have hne2 : ∀ t ∈ m.insts.flatMap instTexts, t ≠ [] := by
    intro t ht
    obtain ⟨i, hi', ht⟩ := List.mem_flatMap.1 ht
    have hit := instTexts_text i (hi i hi') (l3 i hi')
    obtain ⟨items, h1, h2, _⟩ := instText_words hit
    rw [← h1] at ht
    obtain ⟨e, he, rfl⟩ := List.mem_map.1 ht
    exact (h2 e he).1
  have h1 := sameText_opt hne1
  have h2 := sameText_opt hne2
  have := sameText_append h1 h2 ((headItems (defaults m.head.command m.head.xid) m.head).map (·.2)) []
  simp only [List.append_nil] at this
  rw [this]
  unfold flowItems
  simp only [List.map_append, List.map_map, List.append_assoc]
  rfl

theorem knownFlags_length (m : FlowMod) : m.knownFlags.wire.length = m.wire.length := by
  unfold FlowMod.wire
  rw [flowWire_length, flowWire_length]; rfl

theorem flow_reads (m : FlowMod) (hv : m.Valid) (hl : m.PartsLossless) :
    str2mod (commaList ((flowItems m).map (·.2) ++ m.insts.flatMap instTexts)) m.head.command m.head.xid =
      .ok m.knownFlags.wire := by
  obtain ⟨hf, hm, hi, hlen⟩ := hv
  obtain ⟨l2, l3⟩ := hl
  have hwords : (flowItems m).map (·.1) = (headItems (defaults m.head.command m.head.xid) m.head).map (·.1) ++
      m.mtch.map fun t => Word.oxm t.wire := by
    unfold flowItems
    rw [List.map_append, List.map_map]; rfl
  have hh : headOf m.head.command m.head.xid ((flowItems m).map (·.1)) = m.knownFlags.head := by
    rw [hwords]
    refine headOf_items _ _ m.head rfl rfl hf.2.2.2.2.2.2.2.2.2.2.2.1 _ ?_
    intro w hw
    obtain ⟨t, _, rfl⟩ := List.mem_map.1 hw
    exact ⟨_, rfl⟩
  have ho : oxmOf ((flowItems m).map (·.1)) = m.mtch.flatMap Tlv.wire := by
    rw [hwords, oxmOf_items]
  have key := str2mod_rule (flowItems m) (by
      intro e he
      unfold flowItems at he
      rcases List.mem_append.1 he with he | he
      · exact headItems_words _ _ hf e he
      · obtain ⟨t, ht, rfl⟩ := List.mem_map.1 he
        exact ⟨trivial, isWord_tlv t (hm t ht) (l2 t ht)⟩)
    (m.insts.map fun i => (i.inst, instTexts i)) (by
      intro e he
      obtain ⟨i, hi', rfl⟩ := List.mem_map.1 he
      exact instTexts_text i (hi i hi') (l3 i hi'))
    m.head.command m.head.xid (by
      intro e he
      obtain ⟨i, hi', rfl⟩ := List.mem_map.1 he
      exact (hi i hi').1)
    (by
      rw [hh]
      obtain ⟨f1, f2, f3, f4, f5, f6, f7, f8, f9, f10, f11, f12⟩ := hf
      refine ⟨f1, f2, f3, f4, f5, f6, f7, f8, f9, f10, f11, ?_⟩
      show FitsIn 2 (m.head.flags % 32)
      refine ⟨by omega, ?_⟩
      have : m.head.flags % 32 < 32 := by omega
      exact Int.lt_of_lt_of_le this (by decide))
    (by
      rw [hh, ho, List.flatMap_map]
      have := knownFlags_length m
      unfold FlowMod.wire at this
      exact lt_of_eq_of_lt this hlen)
  rw [hh, ho, List.flatMap_map, List.flatMap_map] at key
  exact key

theorem flow_extra (m : FlowMod) (hv : m.Valid) : ∃ e, mod2extra m.wire = .ok e ∧
    ∀ s, str2modX s e = str2mod s m.head.command m.head.xid := by
  obtain ⟨hf, hm, hi, hlen⟩ := hv
  unfold FlowMod.wire at hlen ⊢
  obtain ⟨n1, n2, n3, n4, n5, n6, _⟩ := flowWire_nums _ hf _ _ hlen
  have h26 : 0 + 26 ≤ (m.head.wire (m.mtch.flatMap Tlv.wire) (m.insts.flatMap fun i => i.inst.wire)).length := by
    have ha := align8_facts (4 + (m.mtch.flatMap Tlv.wire).length)
    rw [flowWire_split]
    simp only [List.length_append, u8_length, u16_length, u32_length, flowBody_length]; omega
  unfold mod2extra
  rw [needBytes_ok _ _ _ h26, ok_bind, n2, n6]
  have hcmd : ((m.head.command.toNat : Nat) : Int) = m.head.command := by
    exact Int.toNat_of_nonneg hf.2.1.1
  have hxid : ((m.head.xid.toNat : Nat) : Int) = m.head.xid := by
    exact Int.toNat_of_nonneg hf.1.1
  refine ⟨_, rfl, ?_⟩
  intro s
  unfold str2modX
  dsimp only
  by_cases hz : m.head.command.toNat = 0
  · have : (m.head.command.toNat != 0) = false := by simp [hz]
    rw [this, if_neg (by decide)]
    dsimp only
    rw [hxid, show m.head.command = 0 by omega]
  · have : (m.head.command.toNat != 0) = true := by simp [hz]
    rw [this, if_pos (by decide)]
    dsimp only
    rw [hxid, hcmd]

theorem knownFlags_same (m : FlowMod) (hv : m.Valid) (h : m.head.flags < 32) : m.knownFlags = m := by
  obtain ⟨⟨x1, x2, x3, x4, x5, x6, x7, x8, x9, x10, x11, x12⟩, m2, m3⟩ := m
  have h0 : 0 ≤ x12 := hv.1.2.2.2.2.2.2.2.2.2.2.2.1
  unfold FlowMod.knownFlags
  dsimp only at h ⊢
  rw [Int.emod_eq_of_lt h0 h]

theorem flow_trip (m : FlowMod) (hv : m.Valid) (hl : m.PartsLossless) :
    ∃ text e, mod2str m.wire = .ok text ∧ mod2extra m.wire = .ok e ∧ str2modX text e = .ok m.knownFlags.wire := by
  obtain ⟨e, h1, h2⟩ := flow_extra m hv
  exact ⟨_, e, flow_prints m hv hl, h1, by rw [h2]; exact flow_reads m hv hl⟩

end Ofpstr
