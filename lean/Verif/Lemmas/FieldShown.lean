import Verif.Lemmas.AddrShown

/-!
# Printed fields

For every field and every body: the text and the exceptions of `Spec/MatchPrint.lean` are those of the model.
-/

namespace Ofpstr
open Spec

set_option linter.unusedSimpArgs false

/-- The entry of a field in the table of printers. -/
def decOf (f : Field) : Dec :=
  match f.kind with
  | .uint _ => if f.name ∈ registerNames then .uint ⟨f.name, none, none⟩
      else .uint ⟨f.shownName, some (styleFmt f.valueStyle), f.maskStyle.map styleFmt⟩
  | .port n => .port f.name n
  | .mac => .mac f.name
  | .ipv4 => .ipv4 f.name
  | .ipv6 => .ipv6 f.name
  | .packetType => .pkt
  | .bytes => .hex f.name
  | .ssid => .ssid
  | .le _ => .le ⟨f.name, some (styleFmt f.valueStyle), f.maskStyle.map styleFmt⟩
  | .rate => .rate
  | .channel => .ch
  | .parts sizes => .comp f.name sizes (f.partStyles.map fun e => styleFmt e.2)
  | .vht => .vht
  | .signed => .s8 f.name

theorem lookup_decOf : ∀ f ∈ fields, lookupDec (fieldKey f) = some (decOf f) := by decide +kernel

/-- Names of the fields with a printer of their own, and other facts of the table. -/
def namesOk (f : Field) : Bool :=
  match f.kind with
  | .uint _ => true
  | .packetType => f.name == t!"packet_type"
  | .ssid => f.name == t!"dot11_ssid"
  | .rate => f.name == t!"radiotap_rate"
  | .channel => f.name == t!"radiotap_channel"
  | .vht => f.name == t!"radiotap_vht"
  | .parts sizes => sizes == f.partStyles.map (·.1) && !f.partStyles.isEmpty
  | _ => true

def kindPlain (f : Field) : Bool :=
  match f.kind with
  | .uint _ => true
  | _ => decide (f.name ∉ registerNames) && f.shownName == f.name

theorem names_table : ∀ f ∈ fields, namesOk f = true ∧ kindPlain f = true := by decide +kernel

/-- The outcome of printing is the one the relations say. -/
def Outcome (x : Py Str) (S : Str → Prop) (R : Err → Prop) : Prop :=
  (∀ s, S s → x = .ok s) ∧ (∀ e, R e → x = .error e) ∧ ((∃ s, S s) ∨ ∃ e, R e)

theorem Outcome.ok {x : Py Str} {S : Str → Prop} {R : Err → Prop} (h : Outcome x S R) (s : Str) :
    x = .ok s ↔ S s := by
  refine ⟨fun hx => ?_, h.1 s⟩
  rcases h.2.2 with ⟨t, ht⟩ | ⟨e, he⟩
  · have := h.1 t ht
    rw [hx] at this
    rw [Except.ok.inj this]; exact ht
  · have := h.2.1 e he
    rw [hx] at this
    cases this

theorem Outcome.error {x : Py Str} {S : Str → Prop} {R : Err → Prop} (h : Outcome x S R) (e : Err) :
    x = .error e ↔ R e := by
  refine ⟨fun hx => ?_, h.2.1 e⟩
  rcases h.2.2 with ⟨t, ht⟩ | ⟨e', he⟩
  · have := h.1 t ht
    rw [hx] at this
    cases this
  · have := h.2.1 e' he
    rw [hx] at this
    rw [Except.error.inj this]; exact he

theorem half_split (b : Bytes) : b = b.take (b.length / 2) ++ b.drop (b.length / 2) ∧
    ((b.drop (b.length / 2)).length = (b.take (b.length / 2)).length ∨
      (b.drop (b.length / 2)).length = (b.take (b.length / 2)).length + 1) := by
  refine ⟨(List.take_append_drop _ _).symm, ?_⟩
  simp
  omega

theorem half_back {p m : Bytes} (h : m.length = p.length ∨ m.length = p.length + 1) :
    (p ++ m).take ((p ++ m).length / 2) = p ∧ (p ++ m).drop ((p ++ m).length / 2) = m := by
  have : (p ++ m).length / 2 = p.length := by rw [List.length_append]; omega
  rw [this]
  exact ⟨List.take_left, List.drop_left⟩

/-- The suffix printed for a mask. -/
def maskSuffix (st : Option NumStyle) (v : Nat) : Str :=
  match st with
  | none => []
  | some st => '/' :: fmtI (styleFmt st) v

theorem maskText_be (st : Option NumStyle) (s : Str) (m : Bytes) :
    MaskText be st s m ↔ s = maskSuffix st (beVal m) := by
  cases st with
  | none => rfl
  | some st =>
    unfold MaskText maskSuffix
    simp only [numText_be]
    constructor
    · rintro ⟨t, rfl, rfl⟩; rfl
    · rintro rfl; exact ⟨_, rfl, rfl⟩

theorem maskText_le (st : Option NumStyle) (s : Str) (m : Bytes) :
    MaskText le st s m ↔ s = maskSuffix st (leVal m) := by
  cases st with
  | none => rfl
  | some st =>
    unfold MaskText maskSuffix
    simp only [numText_le]
    constructor
    · rintro ⟨t, rfl, rfl⟩; rfl
    · rintro rfl; exact ⟨_, rfl, rfl⟩

theorem fmtField_mask (name : Str) (st : NumStyle) (ms : Option NumStyle) (v m : Nat) :
    fmtField ⟨name, some (styleFmt st), ms.map styleFmt⟩ v (some m) =
      name ++ '=' :: (fmtI (styleFmt st) v ++ maskSuffix ms m) := by
  cases ms with
  | none => simp [fmtField, maskSuffix]
  | some ms => simp [fmtField, maskSuffix]

theorem fmtField_plain (name : Str) (st : NumStyle) (ms : Option NumStyle) (v : Nat) :
    fmtField ⟨name, some (styleFmt st), ms.map styleFmt⟩ v none = name ++ '=' :: fmtI (styleFmt st) v := by
  simp [fmtField]

/-- Kinds cut in the middle that never fail. -/
theorem outcome_body {P P' Q : Str → Bytes → Prop} {x : Py Str} {hm : Bool} {b : Bytes} (name : Str)
    (g g' q : Bytes → Str) (hP : ∀ t p, P t p ↔ t = g p) (hP' : ∀ t p, P' t p ↔ t = g' p)
    (hQ : ∀ t p, Q t p ↔ t = q p)
    (h1 : hm = false → x = .ok (name ++ '=' :: g b))
    (h2 : hm = true → x = .ok (name ++ '=' :: (g' (b.take (b.length / 2)) ++ q (b.drop (b.length / 2))))) :
    Outcome x (fun s => ∃ t, BodyShown P P' Q hm b t ∧ s = name ++ '=' :: t) (fun _ => False) := by
  refine ⟨?_, fun e h => h.elim, ?_⟩
  · rintro s ⟨t, h, rfl⟩
    cases h with
    | plain p t hp => rw [h1 rfl, (hP _ _).1 hp]
    | masked p m t u hl hp hq =>
      rw [h2 rfl, (half_back hl).1, (half_back hl).2, (hP' _ _).1 hp, (hQ _ _).1 hq]
  · left
    cases hm with
    | false => exact ⟨_, _, .plain _ _ ((hP _ _).2 rfl), rfl⟩
    | true =>
      have := BodyShown.masked (P := P) _ _ _ _ (half_split b).2 ((hP' _ _).2 rfl) ((hQ _ _).2 rfl)
      rw [← (half_split b).1] at this
      exact ⟨_, _, this, rfl⟩

theorem outcome_uint (f : Field) (hm : Bool) (b : Bytes) (n : Nat) (hk : f.kind = .uint n)
    (hr : f.name ∉ registerNames) :
    Outcome (decText (decOf f) b hm) (f.Shows hm b) (f.kind.Refuses hm b) := by
  have hd : decOf f = .uint ⟨f.shownName, some (styleFmt f.valueStyle), f.maskStyle.map styleFmt⟩ := by
    unfold decOf
    rw [hk]
    dsimp only
    rw [if_neg hr]
  have hS : f.Shows hm b = fun s => ∃ t, BodyShown (NumText be f.valueStyle) (NumText be f.valueStyle)
      (MaskText be f.maskStyle) hm b t ∧ s = f.shownName ++ '=' :: t := by
    funext s
    unfold Field.Shows ValueShown
    rw [if_neg hr, hk]
  have hR : f.kind.Refuses hm b = fun _ => False := by
    rw [hk]
    funext e
    rfl
  rw [hS, hR, hd]
  refine outcome_body _ (fun p => fmtI (styleFmt f.valueStyle) (beVal p)) (fun p => fmtI (styleFmt f.valueStyle) (beVal p))
    (fun p => maskSuffix f.maskStyle (beVal p)) (numText_be _) (numText_be _) (maskText_be _) ?_ ?_
  · rintro rfl
    show uintBin2str _ _ _ = _
    unfold uintBin2str
    rw [if_neg (by simp), fmtField_plain]
  · rintro rfl
    show uintBin2str _ _ _ = _
    unfold uintBin2str
    rw [if_pos rfl]
    dsimp only
    rw [fmtField_mask]

theorem outcome_reg (f : Field) (hm : Bool) (b : Bytes) (n : Nat) (hk : f.kind = .uint n)
    (hr : f.name ∈ registerNames) :
    Outcome (decText (decOf f) b hm) (f.Shows hm b) (f.kind.Refuses hm b) := by
  have hd : decOf f = .uint ⟨f.name, none, none⟩ := by
    unfold decOf
    rw [hk]
    dsimp only
    rw [if_pos hr]
  have hx : decText (decOf f) b hm = .ok f.name := by
    rw [hd]
    show uintBin2str _ _ _ = _
    unfold uintBin2str
    split <;> rfl
  have hS : f.Shows hm b = fun s => s = f.name := by
    funext s
    unfold Field.Shows
    rw [if_pos hr]
  have hR : f.kind.Refuses hm b = fun _ => False := by
    rw [hk]
    funext e
    rfl
  rw [hx, hS, hR]
  exact ⟨fun s h => by rw [h], fun e h => h.elim, Or.inl ⟨_, rfl⟩⟩

/-- The fields that are no numbers. -/
theorem shows_eq (f : Field) (hf : f ∈ fields) (hk : ∀ n, f.kind ≠ .uint n) (hm : Bool) (b : Bytes) :
    f.Shows hm b = fun s => ∃ t, ValueShown f hm b t ∧ s = f.name ++ '=' :: t := by
  have h := (names_table f hf).2
  unfold kindPlain at h
  split at h
  · rename_i n hn
    exact absurd hn (hk n)
  · rw [Bool.and_eq_true] at h
    have h1 : f.name ∉ registerNames := by simpa using h.1
    have h2 : f.shownName = f.name := by simpa using h.2
    funext s
    unfold Field.Shows
    rw [if_neg h1, h2]

/-- Kinds of a fixed size with value and mask of it. -/
theorem outcome_fixed {P Q : Str → Bytes → Prop} {x : Py Str} {hm : Bool} {b : Bytes} {R : Err → Prop} (name : Str)
    (k : Nat) (hk : 0 < k) (g q : Bytes → Str) (hP : ∀ t p, P t p ↔ p.length = k ∧ t = g p)
    (hQ : ∀ t p, Q t p ↔ p.length = k ∧ t = q p)
    (h1 : hm = false → b.length = k → x = .ok (name ++ '=' :: g b))
    (h2 : hm = true → b.length = 2 * k → x = .ok (name ++ '=' :: (g (b.take k) ++ '/' :: q (b.drop k))))
    (hR : ∀ e, R e → x = .error e) (hT : b.length ≠ (if hm then 2 * k else k) → ∃ e, R e) :
    Outcome x (fun s => ∃ t, BodyShown P P (Slash Q) hm b t ∧ s = name ++ '=' :: t) R := by
  refine ⟨?_, hR, ?_⟩
  · rintro s ⟨t, h, rfl⟩
    cases h with
    | plain p t hp =>
      obtain ⟨g1, rfl⟩ := (hP _ _).1 hp
      exact h1 rfl g1
    | masked p m t u hl hp hq =>
      obtain ⟨u', rfl, hq⟩ := hq
      obtain ⟨g1, rfl⟩ := (hP _ _).1 hp
      obtain ⟨g2, rfl⟩ := (hQ _ _).1 hq
      rw [h2 rfl (by rw [List.length_append]; omega), ← g1, List.take_left, List.drop_left]
  · by_cases hl : b.length = if hm then 2 * k else k
    · left
      cases hm with
      | false => exact ⟨_, _, .plain _ _ ((hP _ _).2 ⟨by simpa using hl, rfl⟩), rfl⟩
      | true =>
        have hl : b.length = 2 * k := by simpa using hl
        have := BodyShown.masked (P := P) (P' := P) (Q := Slash Q) (b.take k) (b.drop k) _ _ (by simp; omega)
          ((hP _ _).2 ⟨by simp; omega, rfl⟩) ⟨_, rfl, (hQ _ _).2 ⟨by simp; omega, rfl⟩⟩
        rw [List.take_append_drop] at this
        exact ⟨_, _, this, rfl⟩
    · exact Or.inr (hT hl)

/-- Kinds that may be followed by bytes that are ignored. -/
theorem outcome_loose {P : Str → Bytes → Prop} {x : Py Str} {hm : Bool} {b : Bytes} (name : Str)
    (k : Nat) (g : Bytes → Py Str) (hP : ∀ t p, P t p → p.length = k ∧ ∀ r, g (p ++ r) = .ok t)
    (hE : ∀ b : Bytes, k ≤ b.length → ∃ t, P t (b.take k)) (hF : ∀ b : Bytes, b.length < k → g b = .error .structError)
    (hx : x = (do
      let v ← g b
      if hm then do
        let m ← g (b.drop k)
        .ok (name ++ '=' :: (v ++ '/' :: m))
      else .ok (name ++ '=' :: v))) :
    Outcome x (fun s => ∃ t, LooseShown P hm b t ∧ s = name ++ '=' :: t)
      (fun e => b.length < (if hm then 2 * k else k) ∧ e = .structError) := by
  subst hx
  refine ⟨?_, ?_, ?_⟩
  · rintro s ⟨t, h, rfl⟩
    cases h with
    | plain p r t hp =>
      rw [(hP _ _ hp).2 r, ok_bind]
      rfl
    | masked p m r t u hp hq =>
      rw [(hP _ _ hp).2 (m ++ r), ok_bind, if_pos rfl, ← (hP _ _ hp).1, List.drop_left, (hP _ _ hq).2 r, ok_bind]
  · rintro e ⟨hl, rfl⟩
    by_cases hk : b.length < k
    · rw [hF b hk]; rfl
    · cases hm with
      | false => simp at hl; omega
      | true =>
        obtain ⟨t, ht⟩ := hE b (by omega)
        have := (hP _ _ ht).2 (b.drop k)
        rw [List.take_append_drop] at this
        rw [this, ok_bind, if_pos rfl, hF (b.drop k) (by simp at hl ⊢; omega)]
        rfl
  · by_cases hl : b.length < if hm then 2 * k else k
    · exact Or.inr ⟨_, hl, rfl⟩
    · left
      cases hm with
      | false =>
        obtain ⟨t, ht⟩ := hE b (by simpa using hl)
        have := LooseShown.plain _ (b.drop k) _ ht
        rw [List.take_append_drop] at this
        exact ⟨_, _, this, rfl⟩
      | true =>
        have hl : 2 * k ≤ b.length := by simpa using hl
        obtain ⟨t, ht⟩ := hE b (by omega)
        obtain ⟨u, hu⟩ := hE (b.drop k) (by simp; omega)
        have := LooseShown.masked _ _ ((b.drop k).drop k) _ _ ht hu
        rw [List.take_append_drop, List.take_append_drop] at this
        exact ⟨_, _, this, rfl⟩

theorem assert_false {b : Bool} (h : b = false) : pyAssert b = .error .assertionError := by
  rw [h]; rfl

theorem assert_true {b : Bool} (h : b = true) : pyAssert b = .ok () := by
  rw [h]; rfl

theorem err_bind {α β : Type} (e : Err) (f : α → Py β) : ((.error e : Py α) >>= f) = .error e := rfl

theorem shown_kind (f : Field) (hf : f ∈ fields) (hk : ∀ n, f.kind ≠ .uint n) (hm : Bool) (b : Bytes) (x : Py Str)
    (S : Str → Prop) (R : Err → Prop)
    (hS : ValueShown f hm b = S) (hR : f.kind.Refuses hm b = R)
    (h : Outcome x (fun s => ∃ t, S t ∧ s = f.name ++ '=' :: t) R) :
    Outcome x (f.Shows hm b) (f.kind.Refuses hm b) := by
  rw [shows_eq f hf hk, hS, hR]
  exact h

theorem outcome_mac (f : Field) (hf : f ∈ fields) (hm : Bool) (b : Bytes) (hk : f.kind = .mac) :
    Outcome (decText (decOf f) b hm) (f.Shows hm b) (f.kind.Refuses hm b) := by
  refine shown_kind f hf (by simp [hk]) hm b _ (BodyShown MacShown MacShown (Slash MacShown) hm b) _
    (by unfold ValueShown; rw [hk]) rfl ?_
  have hd : decOf f = .mac f.name := by unfold decOf; rw [hk]
  rw [hd, hk]
  show Outcome (macBin2str f.name b hm) _ _
  unfold macBin2str
  refine outcome_fixed f.name 6 (by omega) macText macText macShown_iff macShown_iff ?_ ?_ ?_ ?_
  · rintro rfl hl
    rw [if_neg (by omega), if_neg (by simp), assert_true (by simp [hl]), ok_bind, List.take_of_length_le (by omega)]
  · rintro rfl hl
    rw [if_neg (by omega), if_pos rfl, assert_true (by simp [hl]), ok_bind]
  · rintro e (⟨hl, rfl⟩ | ⟨h1, h2, rfl⟩)
    · rw [if_pos hl]
    · rw [if_neg (by omega)]
      cases hm with
      | false => rw [if_neg (by simp), assert_false (by simpa using h2), err_bind]
      | true => rw [if_pos rfl, assert_false (by simpa using h2), err_bind]
  · intro hl
    by_cases h6 : b.length < 6
    · exact ⟨_, Or.inl ⟨h6, rfl⟩⟩
    · exact ⟨_, Or.inr ⟨by omega, hl, rfl⟩⟩

theorem ntoa_ok (b : Bytes) (h : b.length = 4) : inetNtoa b = .ok (dotted b) := by
  unfold inetNtoa; rw [if_pos (by simp [h])]

theorem ntoa_err (b : Bytes) (h : b.length ≠ 4) : inetNtoa b = .error .osError := by
  unfold inetNtoa; rw [if_neg (by simp [h])]

theorem ntop_ok (b : Bytes) (h : b.length = 16) : inetNtop b = .ok (inetNtop6 (words16 b)) := by
  unfold inetNtop; rw [if_pos (by simp [h])]

theorem ntop_err (b : Bytes) (h : b.length ≠ 16) : inetNtop b = .error .valueError := by
  unfold inetNtop; rw [if_neg (by simp [h])]

theorem outcome_ipv4 (f : Field) (hf : f ∈ fields) (hm : Bool) (b : Bytes) (hk : f.kind = .ipv4) :
    Outcome (decText (decOf f) b hm) (f.Shows hm b) (f.kind.Refuses hm b) := by
  refine shown_kind f hf (by simp [hk]) hm b _ (BodyShown DottedQuad DottedQuad (Slash DottedQuad) hm b) _
    (by unfold ValueShown; rw [hk]) rfl ?_
  have hd : decOf f = .ipv4 f.name := by unfold decOf; rw [hk]
  rw [hd, hk]
  show Outcome (ipv4Bin2str f.name b hm) _ _
  unfold ipv4Bin2str
  refine outcome_fixed f.name 4 (by omega) dotted dotted quadShown_iff quadShown_iff ?_ ?_ ?_ ?_
  · rintro rfl hl
    rw [ntoa_ok _ (by simp; omega), ok_bind, if_neg (by simp), assert_true (by simp [hl]), ok_bind,
      List.take_of_length_le (by omega)]
  · rintro rfl hl
    rw [ntoa_ok _ (by simp; omega), ok_bind, if_pos rfl, assert_true (by simp [hl]), ok_bind, ntoa_ok _ (by simp; omega),
      ok_bind]
  · rintro e (⟨hl, rfl⟩ | ⟨h1, h2, rfl⟩)
    · rw [ntoa_err _ (by simp; omega), err_bind]
    · rw [ntoa_ok _ (by simp; omega), ok_bind]
      cases hm with
      | false => rw [if_neg (by simp), assert_false (by simpa using h2), err_bind]
      | true => rw [if_pos rfl, assert_false (by simpa using h2), err_bind]
  · intro hl
    by_cases h6 : b.length < 4
    · exact ⟨_, Or.inl ⟨h6, rfl⟩⟩
    · exact ⟨_, Or.inr ⟨by omega, hl, rfl⟩⟩

theorem outcome_ipv6 (f : Field) (hf : f ∈ fields) (hm : Bool) (b : Bytes) (hk : f.kind = .ipv6) :
    Outcome (decText (decOf f) b hm) (f.Shows hm b) (f.kind.Refuses hm b) := by
  refine shown_kind f hf (by simp [hk]) hm b _ (BodyShown Ipv6Shown Ipv6Shown (Slash Ipv6Shown) hm b) _
    (by unfold ValueShown; rw [hk]) rfl ?_
  have hd : decOf f = .ipv6 f.name := by unfold decOf; rw [hk]
  rw [hd, hk]
  show Outcome (ipv6Bin2str f.name b hm) _ _
  unfold ipv6Bin2str
  refine outcome_fixed f.name 16 (by omega) (fun b => inetNtop6 (words16 b)) (fun b => inetNtop6 (words16 b))
    ipv6Shown_iff ipv6Shown_iff ?_ ?_ ?_ ?_
  · rintro rfl hl
    rw [ntop_ok _ (by simp; omega), ok_bind, if_neg (by simp), assert_true (by simp [hl]), ok_bind,
      List.take_of_length_le (by omega)]
  · rintro rfl hl
    rw [ntop_ok _ (by simp; omega), ok_bind, if_pos rfl, assert_true (by simp [hl]), ok_bind, ntop_ok _ (by simp; omega),
      ok_bind]
  · rintro e (⟨hl, rfl⟩ | ⟨h1, h2, rfl⟩)
    · rw [ntop_err _ (by simp; omega), err_bind]
    · rw [ntop_ok _ (by simp; omega), ok_bind]
      cases hm with
      | false => rw [if_neg (by simp), assert_false (by simpa using h2), err_bind]
      | true => rw [if_pos rfl, assert_false (by simpa using h2), err_bind]
  · intro hl
    by_cases h6 : b.length < 16
    · exact ⟨_, Or.inl ⟨h6, rfl⟩⟩
    · exact ⟨_, Or.inr ⟨by omega, hl, rfl⟩⟩

theorem uAt_take4 (b : Bytes) (i : Nat) (hi : i + 2 ≤ 4) : uAt (b.take 4) i 2 = uAt b i 2 := by
  unfold uAt slice
  rw [List.take_take, Nat.min_eq_left (by omega)]

theorem uAt_drop4 (b : Bytes) (i : Nat) : uAt (b.drop 4) i 2 = uAt b (4 + i) 2 := by
  unfold uAt slice
  rw [List.take_drop, List.drop_drop, Nat.add_assoc]

theorem outcome_channel (f : Field) (hf : f ∈ fields) (hm : Bool) (b : Bytes) (hk : f.kind = .channel) :
    Outcome (decText (decOf f) b hm) (f.Shows hm b) (f.kind.Refuses hm b) := by
  refine shown_kind f hf (by simp [hk]) hm b _ (BodyShown (TwoShown .dec (.hex 6)) (TwoShown .dec (.hex 6))
    (Slash ChannelMaskShown) hm b) _ (by unfold ValueShown; rw [hk]) rfl ?_
  have hd : decOf f = .ch := by unfold decOf; rw [hk]
  have hn : f.name = t!"radiotap_channel" := by
    have := (names_table f hf).1
    unfold namesOk at this
    rw [hk] at this
    simpa using this
  rw [hd, hk, hn]
  show Outcome (chBin2str b hm) _ _
  unfold chBin2str
  refine outcome_fixed _ 4 (by omega) _ _ (twoShown_iff .dec (.hex 6)) channelMask_iff ?_ ?_ ?_ ?_
  · rintro rfl hl
    rw [if_neg (by simp), assert_true (by simp [hl]), ok_bind]
    rfl
  · rintro rfl hl
    rw [if_pos rfl, assert_true (by simp [hl]), ok_bind]
    dsimp only
    rw [uAt_take4 _ _ (by omega), uAt_take4 _ _ (by omega), uAt_drop4, uAt_drop4]
    unfold chMaskText
    by_cases hz : uAt b 4 2 = 0
    · rw [if_pos (by simpa using hz), if_pos (by simpa using hz)]
      simp [styleFmt, fmtI]
    · rw [if_neg (by simpa using hz), if_neg (by simpa using hz)]
      simp [styleFmt, fmtI]
  · rintro e ⟨h2, rfl⟩
    cases hm with
    | false => rw [if_neg (by simp), assert_false (by simpa using h2), err_bind]
    | true => rw [if_pos rfl, assert_false (by simpa using h2), err_bind]
  · intro hl
    exact ⟨_, hl, rfl⟩

theorem outcome_bytes (f : Field) (hf : f ∈ fields) (hm : Bool) (b : Bytes) (hk : f.kind = .bytes) :
    Outcome (decText (decOf f) b hm) (f.Shows hm b) (f.kind.Refuses hm b) := by
  refine shown_kind f hf (by simp [hk]) hm b _ (BodyShown LowerPairs LowerPairs (Slash LowerPairs) hm b)
    (fun _ => False) (by unfold ValueShown; rw [hk]) (by rw [hk]; funext e; rfl) ?_
  have hd : decOf f = .hex f.name := by unfold decOf; rw [hk]
  rw [hd]
  show Outcome (hexBin2str f.name b hm) _ _
  unfold hexBin2str
  refine outcome_body _ b2aHex b2aHex (fun b => '/' :: b2aHex b) lowerPairs_iff lowerPairs_iff ?_ ?_ ?_
  · intro t p
    unfold Slash
    constructor
    · rintro ⟨u, rfl, h⟩
      rw [(lowerPairs_iff _ _).1 h]
    · rintro rfl
      exact ⟨_, rfl, (lowerPairs_iff _ _).2 rfl⟩
  · rintro rfl
    rfl
  · rintro rfl
    rfl

theorem outcome_le (f : Field) (hf : f ∈ fields) (hm : Bool) (b : Bytes) (n : Nat) (hk : f.kind = .le n) :
    Outcome (decText (decOf f) b hm) (f.Shows hm b) (f.kind.Refuses hm b) := by
  refine shown_kind f hf (by simp [hk]) hm b _ (BodyShown (NumText le f.valueStyle) (NumText le f.valueStyle)
    (MaskText le f.maskStyle) hm b) (fun _ => False) (by unfold ValueShown; rw [hk]) (by rw [hk]; funext e; rfl) ?_
  have hd : decOf f = .le ⟨f.name, some (styleFmt f.valueStyle), f.maskStyle.map styleFmt⟩ := by
    unfold decOf; rw [hk]
  rw [hd]
  show Outcome (leBin2str _ b hm) _ _
  unfold leBin2str
  refine outcome_body _ (fun p => fmtI (styleFmt f.valueStyle) (leVal p)) (fun p => fmtI (styleFmt f.valueStyle) (leVal p))
    (fun p => maskSuffix f.maskStyle (leVal p)) (numText_le _) (numText_le _) (maskText_le _) ?_ ?_
  · rintro rfl
    rw [if_neg (by simp), fmtField_plain]
  · rintro rfl
    rw [if_pos rfl]
    dsimp only
    rw [fmtField_mask]

theorem zeros_split (p : Bytes) : ∃ q k, p = q ++ pad k ∧ q.getLast? ≠ some 0 := by
  rcases List.eq_nil_or_concat p with rfl | ⟨l, x, rfl⟩
  · exact ⟨[], 0, rfl, by simp⟩
  · by_cases hx : x = 0
    · have : l.length < (l.concat x).length := by simp
      obtain ⟨q, k, h1, h2⟩ := zeros_split l
      refine ⟨q, k + 1, ?_, h2⟩
      rw [List.concat_eq_append, h1, hx, List.append_assoc]
      congr 1
      exact (List.replicate_succ' (n := k) (a := (0 : UInt8))).symm
    · refine ⟨l.concat x, 0, by simp [pad], ?_⟩
      simpa using hx
termination_by p.length

theorem stripZeros_tail (q : Bytes) (k : Nat) (hq : q ≠ []) (hl : q.getLast? ≠ some 0) :
    stripZeros (q ++ pad k) = .ok q := by
  rcases List.eq_nil_or_concat q with rfl | ⟨l, x, rfl⟩
  · exact absurd rfl hq
  · have hx : x ≠ 0 := by simpa using hl
    unfold stripZeros
    have : ((l.concat x ++ pad k).reverse.dropWhile (· == 0)).reverse = l.concat x := by
      have h1 : (l.concat x ++ pad k).reverse = List.replicate k 0 ++ (x :: l.reverse) := by
        simp [pad, List.concat_eq_append]
      have h2 : ∀ k, (List.replicate k (0 : UInt8) ++ (x :: l.reverse)).dropWhile (· == 0) = x :: l.reverse := by
        intro k
        induction k with
        | zero => simp [hx]
        | succ k ih => rw [List.replicate_succ, List.cons_append, List.dropWhile_cons_of_pos (by simp), ih]
      rw [h1, h2]
      simp
    dsimp only
    rw [this, if_neg (by simp)]

theorem outcome_ssid (f : Field) (hf : f ∈ fields) (hm : Bool) (b : Bytes) (hk : f.kind = .ssid) :
    Outcome (decText (decOf f) b hm) (f.Shows hm b) (f.kind.Refuses hm b) := by
  refine shown_kind f hf (by simp [hk]) hm b _ (BodyShown (fun t p => t = b2aQp p) SsidStripped (Slash LowerPairs) hm b)
    _ (by unfold ValueShown; rw [hk]) rfl ?_
  have hd : decOf f = .ssid := by unfold decOf; rw [hk]
  have hn : f.name = t!"dot11_ssid" := by
    have := (names_table f hf).1
    unfold namesOk at this
    rw [hk] at this
    simpa using this
  rw [hd, hk, hn]
  show Outcome (ssidBin2str b hm) _ _
  unfold ssidBin2str
  refine ⟨?_, ?_, ?_⟩
  · rintro s ⟨t, h, rfl⟩
    cases h with
    | plain p t hp =>
      rw [if_neg (by simp), hp]
      rfl
    | masked p m t u hl hp hq =>
      obtain ⟨q, k, h1, h2, h3, rfl⟩ := hp
      obtain ⟨u', rfl, hu⟩ := hq
      rw [if_pos rfl]
      dsimp only
      rw [(half_back hl).1, (half_back hl).2, h1, stripZeros_tail q k h2 h3, ok_bind, (lowerPairs_iff _ _).1 hu]
      rfl
  · rintro e ⟨rfl, hz, rfl⟩
    rw [if_pos rfl]
    dsimp only
    rw [stripZeros_fail _ hz, err_bind]
  · cases hm with
    | false => exact Or.inl ⟨_, _, .plain _ _ rfl, rfl⟩
    | true =>
      obtain ⟨q, k, h1, h2⟩ := zeros_split (b.take (b.length / 2))
      by_cases hq : q = []
      · refine Or.inr ⟨_, rfl, ?_, rfl⟩
        rw [h1, hq]
        intro x hx
        simp [pad] at hx
        exact hx.2
      · left
        have := BodyShown.masked (P := fun t p => t = b2aQp p) (P' := SsidStripped) (Q := Slash LowerPairs) _ _ _ _
          (half_split b).2 ⟨q, k, h1, hq, h2, rfl⟩ ⟨_, rfl, (lowerPairs_iff _ _).2 rfl⟩
        rw [← (half_split b).1] at this
        exact ⟨_, _, this, rfl⟩

theorem outcome_port (f : Field) (hf : f ∈ fields) (hm : Bool) (b : Bytes) (n : Nat) (hk : f.kind = .port n) :
    Outcome (decText (decOf f) b hm) (f.Shows hm b) (f.kind.Refuses hm b) := by
  have hn := (dec_port f hf n hk).1
  refine shown_kind f hf (by simp [hk]) hm b _ (fun s => hm = false ∧ PortShown n s b) _
    (by unfold ValueShown; rw [hk]) rfl ?_
  have hd : decOf f = .port f.name n := by unfold decOf; rw [hk]
  rw [hd, hk]
  show Outcome (portBin2str f.name n b hm) _ _
  unfold portBin2str
  refine ⟨?_, ?_, ?_⟩
  · rintro s ⟨t, ⟨rfl, h⟩, rfl⟩
    obtain ⟨h1, rfl⟩ := (portShown_iff n hn _ _).1 h
    rw [assert_true (b := !false) rfl, ok_bind, assert_true (by simp [h1]), ok_bind]
  · rintro e ⟨h, rfl⟩
    cases hm with
    | true => rw [assert_false (b := !true) rfl, err_bind]
    | false =>
      have h : b.length ≠ n := by simpa using h
      rw [assert_true (b := !false) rfl, ok_bind, assert_false (by simpa using h), err_bind]
  · by_cases h : hm = true ∨ b.length ≠ n
    · exact Or.inr ⟨_, h, rfl⟩
    · rw [not_or, not_not] at h
      exact Or.inl ⟨_, _, ⟨by simpa using h.1, (portShown_iff n hn _ _).2 ⟨h.2, rfl⟩⟩, rfl⟩

theorem outcome_pkt (f : Field) (hf : f ∈ fields) (hm : Bool) (b : Bytes) (hk : f.kind = .packetType) :
    Outcome (decText (decOf f) b hm) (f.Shows hm b) (f.kind.Refuses hm b) := by
  refine shown_kind f hf (by simp [hk]) hm b _ (fun s => hm = false ∧ TwoShown (.hex 0) (.hex 0) s b) _
    (by unfold ValueShown; rw [hk]) rfl ?_
  have hd : decOf f = .pkt := by unfold decOf; rw [hk]
  have hn : f.name = t!"packet_type" := by
    have := (names_table f hf).1
    unfold namesOk at this
    rw [hk] at this
    simpa using this
  rw [hd, hk, hn]
  show Outcome (pktBin2str b hm) _ _
  unfold pktBin2str
  refine ⟨?_, ?_, ?_⟩
  · rintro s ⟨t, ⟨rfl, h⟩, rfl⟩
    obtain ⟨h1, rfl⟩ := (twoShown_iff _ _ _ _).1 h
    rw [assert_true (b := !false) rfl, ok_bind, assert_true (by simp [h1]), ok_bind]
    rfl
  · rintro e ⟨h, rfl⟩
    cases hm with
    | true => rw [assert_false (b := !true) rfl, err_bind]
    | false =>
      have h : b.length ≠ 4 := by simpa using h
      rw [assert_true (b := !false) rfl, ok_bind, assert_false (by simpa using h), err_bind]
  · by_cases h : hm = true ∨ b.length ≠ 4
    · exact Or.inr ⟨_, h, rfl⟩
    · rw [not_or, not_not] at h
      exact Or.inl ⟨_, _, ⟨by simpa using h.1, (twoShown_iff _ _ _ _).2 ⟨h.2, rfl⟩⟩, rfl⟩

theorem outcome_rate (f : Field) (hf : f ∈ fields) (hm : Bool) (b : Bytes) (hk : f.kind = .rate) :
    Outcome (decText (decOf f) b hm) (f.Shows hm b) (f.kind.Refuses hm b) := by
  refine shown_kind f hf (by simp [hk]) hm b _ (fun s => hm = false ∧ ∃ x r, b = x :: r ∧ RateShown s x.toNat) _
    (by unfold ValueShown; rw [hk]) rfl ?_
  have hd : decOf f = .rate := by unfold decOf; rw [hk]
  have hn : f.name = t!"radiotap_rate" := by
    have := (names_table f hf).1
    unfold namesOk at this
    rw [hk] at this
    simpa using this
  rw [hd, hk, hn]
  show Outcome (rateBin2str b hm) _ _
  unfold rateBin2str
  refine ⟨?_, ?_, ?_⟩
  · rintro s ⟨t, ⟨rfl, x, r, rfl, h⟩, rfl⟩
    rw [(rateShown_iff _ _).1 h, assert_true (b := !false) rfl, ok_bind]
    unfold rateText
    dsimp only
    split <;> rfl
  · rintro e (⟨rfl, rfl⟩ | ⟨rfl, rfl, rfl⟩)
    · rw [assert_false (b := !true) rfl, err_bind]
    · rw [assert_true (b := !false) rfl, ok_bind]
  · cases hm with
    | true => exact Or.inr ⟨_, Or.inl ⟨rfl, rfl⟩⟩
    | false =>
      cases b with
      | nil => exact Or.inr ⟨_, Or.inr ⟨rfl, rfl, rfl⟩⟩
      | cons x r => exact Or.inl ⟨_, _, ⟨rfl, x, r, rfl, (rateShown_iff _ _).2 rfl⟩, rfl⟩

theorem outcome_signed (f : Field) (hf : f ∈ fields) (hm : Bool) (b : Bytes) (hk : f.kind = .signed) :
    Outcome (decText (decOf f) b hm) (f.Shows hm b) (f.kind.Refuses hm b) := by
  refine shown_kind f hf (by simp [hk]) hm b _ (fun s => hm = false ∧ ∃ x, b = [x] ∧ SignedShown s x) _
    (by unfold ValueShown; rw [hk]) rfl ?_
  have hd : decOf f = .s8 f.name := by unfold decOf; rw [hk]
  rw [hd, hk]
  show Outcome (s8Bin2str f.name b hm) _ _
  unfold s8Bin2str
  refine ⟨?_, ?_, ?_⟩
  · rintro s ⟨t, ⟨rfl, x, rfl, h⟩, rfl⟩
    rw [(signedShown_iff _ _).1 h, assert_true (b := !false) rfl, ok_bind]
  · rintro e (⟨rfl, rfl⟩ | ⟨rfl, h, rfl⟩)
    · rw [assert_false (b := !true) rfl, err_bind]
    · rw [assert_true (b := !false) rfl, ok_bind]
      match b, h with
      | [], _ => rfl
      | _ :: _ :: _, _ => rfl
  · cases hm with
    | true => exact Or.inr ⟨_, Or.inl ⟨rfl, rfl⟩⟩
    | false =>
      by_cases h : b.length = 1
      · obtain ⟨x, rfl⟩ := List.length_eq_one_iff.1 h
        exact Or.inl ⟨_, _, ⟨rfl, x, rfl, (signedShown_iff _ _).2 rfl⟩, rfl⟩
      · exact Or.inr ⟨_, Or.inr ⟨rfl, h, rfl⟩⟩

theorem need_ok (b : Bytes) (i n : Nat) (h : i + n ≤ b.length) : needBytes b i n = .ok () := by
  unfold needBytes; rw [if_pos h]

theorem need_err (b : Bytes) (i n : Nat) (h : ¬ i + n ≤ b.length) : needBytes b i n = .error .structError := by
  unfold needBytes; rw [if_neg h]

theorem outcome_parts (f : Field) (hf : f ∈ fields) (hm : Bool) (b : Bytes) (sizes : List Nat)
    (hk : f.kind = .parts sizes) :
    Outcome (decText (decOf f) b hm) (f.Shows hm b) (f.kind.Refuses hm b) := by
  refine shown_kind f hf (by simp [hk]) hm b _ (LooseShown (PartsShown f.partStyles) hm b) _
    (by unfold ValueShown; rw [hk]) rfl ?_
  have hd : decOf f = .comp f.name sizes (f.partStyles.map fun e => styleFmt e.2) := by unfold decOf; rw [hk]
  have hn := (names_table f hf).1
  unfold namesOk at hn
  rw [hk] at hn
  dsimp only at hn
  rw [Bool.and_eq_true] at hn
  have hs : sizes = f.partStyles.map (·.1) := by simpa using hn.1
  have hne : f.partStyles ≠ [] := by simpa using hn.2
  rw [hd, hk]
  show Outcome (compBin2str f.name sizes _ b hm) _ _
  refine outcome_loose f.name sizes.sum (compShow sizes (f.partStyles.map fun e => styleFmt e.2)) ?_ ?_ ?_ rfl
  · intro t p h
    obtain ⟨h1, _, h2⟩ := partsShown_sound h
    rw [← hs] at h1
    refine ⟨h1, fun r => ?_⟩
    unfold compShow
    rw [need_ok _ _ _ (by rw [List.length_append]; omega), ok_bind, h2 r, hs]
    rfl
  · intro b hb
    have := partsShown_of f.partStyles hne b (by rw [← hs]; exact hb)
    rw [← hs] at this
    exact ⟨_, this⟩
  · intro b hb
    unfold compShow
    rw [need_err _ _ _ (by omega), err_bind]

theorem outcome_vht (f : Field) (hf : f ∈ fields) (hm : Bool) (b : Bytes) (hk : f.kind = .vht) :
    Outcome (decText (decOf f) b hm) (f.Shows hm b) (f.kind.Refuses hm b) := by
  refine shown_kind f hf (by simp [hk]) hm b _ (LooseShown VhtShown hm b) _
    (by unfold ValueShown; rw [hk]) rfl ?_
  have hd : decOf f = .vht := by unfold decOf; rw [hk]
  have hn : f.name = t!"radiotap_vht" := by
    have := (names_table f hf).1
    unfold namesOk at this
    rw [hk] at this
    simpa using this
  rw [hd, hk, hn]
  show Outcome (vhtBin2str b hm) _ _
  refine outcome_loose _ 12 vhtShow (fun t p => vhtShown_sound) vhtShown_of ?_ rfl
  intro b hb
  unfold vhtShow
  rw [need_err _ _ _ (by simp [vhtSizes]; omega), err_bind]

/-- The printed text of a field, or its exception, for every body. -/
theorem outcome_field (f : Field) (hf : f ∈ fields) (hm : Bool) (b : Bytes) :
    Outcome (decText (decOf f) b hm) (f.Shows hm b) (f.kind.Refuses hm b) := by
  cases hk : f.kind with
  | uint n =>
    rw [← hk]
    by_cases hr : f.name ∈ registerNames
    · exact outcome_reg f hm b n hk hr
    · exact outcome_uint f hm b n hk hr
  | port n => rw [← hk]; exact outcome_port f hf hm b n hk
  | mac => rw [← hk]; exact outcome_mac f hf hm b hk
  | ipv4 => rw [← hk]; exact outcome_ipv4 f hf hm b hk
  | ipv6 => rw [← hk]; exact outcome_ipv6 f hf hm b hk
  | packetType => rw [← hk]; exact outcome_pkt f hf hm b hk
  | bytes => rw [← hk]; exact outcome_bytes f hf hm b hk
  | ssid => rw [← hk]; exact outcome_ssid f hf hm b hk
  | le n => rw [← hk]; exact outcome_le f hf hm b n hk
  | rate => rw [← hk]; exact outcome_rate f hf hm b hk
  | channel => rw [← hk]; exact outcome_channel f hf hm b hk
  | parts s => rw [← hk]; exact outcome_parts f hf hm b s hk
  | vht => rw [← hk]; exact outcome_vht f hf hm b hk
  | signed => rw [← hk]; exact outcome_signed f hf hm b hk

end Ofpstr
