import Verif.Spec.Built
import Verif.Lemmas.OxmExact

/-!
# The matches that texts build
-/

set_option linter.unusedSimpArgs false

namespace Ofpstr
open Spec

theorem header_cut (f : Field) (hf : f ∈ fields) (n : Nat) (hm : Bool) :
    header (fieldKey f) n hm = f.header hm (min (if hm then 2 * n else n) (255 - f.extra)) := by
  have hx : f.extra = 0 ∨ f.extra = 4 := by unfold Field.extra; split <;> simp
  by_cases h : (if hm then 2 * n else n) + f.extra < 256
  · rw [field_header f hf n hm h]
    congr 1
    generalize (if hm then 2 * n else n) = k at *
    omega
  · rw [field_header_max f hf n hm (by omega)]
    congr 1
    generalize (if hm then 2 * n else n) = k at *
    omega

/-- The kinds without masks: the encoders never write one. -/
theorem encText_nomask (key : Key) (k : Enc) (u : Str) (bin : Bytes) (l : Nat)
    (h : encText key k u = .ok (bin, l))
    (hk : (∃ n, k = .port n) ∨ k = .pkt ∨ (∃ n, k = .le n) ∨ k = .rate ∨ k = .s8) :
    ∃ n body, bin = header key n false ++ body ∧ body.length = n ∧ ∀ m, encSize k = some m → n = m := by
  rcases hk with ⟨n, rfl⟩ | rfl | ⟨n, rfl⟩ | rfl | rfl <;> simp only [encText] at h
  · unfold portStr2bin at h
    dsimp only at h
    split at h
    · obtain ⟨⟨num, rlen⟩, _, h⟩ := bind_ok h
      obtain ⟨p, hp, h⟩ := bind_ok h
      cases h
      exact ⟨n, p, rfl, packU_length hp, by simp [encSize]⟩
    · rename_i he
      cases h
      exact ⟨n, _, rfl, portNames_length _ _ (by simpa using he), by simp [encSize]⟩
  · obtain ⟨_, _, h⟩ := bind_ok h
    obtain ⟨_, _, h⟩ := bind_ok h
    obtain ⟨_, _, h⟩ := bind_ok h
    obtain ⟨p, hp, h⟩ := bind_ok h
    cases h
    exact ⟨4, p, rfl, packAll_length hp, by simp [encSize]⟩
  · obtain ⟨⟨num, rlen⟩, _, h⟩ := bind_ok h
    dsimp only at h
    split at h
    · obtain ⟨_, _, h⟩ := bind_ok h
      cases h
    · cases h
      exact ⟨n, _, rfl, by simp [intLE_length], by simp [encSize]⟩
  · obtain ⟨⟨⟨num, den⟩, rlen⟩, _, h⟩ := bind_ok h
    dsimp only at h
    split at h
    · cases h
    · split at h
      · obtain ⟨p, hp, h⟩ := bind_ok h
        cases h
        exact ⟨1, p, rfl, packU_length hp, by simp [encSize]⟩
      · split at h
        · obtain ⟨p, hp, h⟩ := bind_ok h
          cases h
          exact ⟨1, p, rfl, packU_length hp, by simp [encSize]⟩
        · cases h
  · obtain ⟨⟨num, rlen⟩, _, h⟩ := bind_ok h
    obtain ⟨p, hp, h⟩ := bind_ok h
    cases h
    refine ⟨1, p, rfl, ?_, by simp [encSize]⟩
    unfold packS8 at hp
    split at hp
    · cases hp; rfl
    · cases hp

theorem maskable_kinds : ∀ f ∈ fields, f.maskable = true ∨ (match f.kind with
    | .uint _ => true | .port _ => true | .packetType => true | .le _ => true | .rate => true | .signed => true
    | _ => false) = true := by decide +kernel

theorem label_kind : ∀ f ∈ fields, f.name = t!"nxm_ct_label" → f.kind = .uint 16 ∧
    lookupEnc f.name = some (fieldKey f, .uint 4) := by decide +kernel

theorem encText_built {f : Field} {k : Enc} {u : Str} {bin : Bytes} {l : Nat} (hf : f ∈ fields)
    (hl : lookupEnc f.name = some (fieldKey f, k)) (h : encText (fieldKey f) k u = .ok (bin, l)) :
    ∃ t : Tlv, t.field = f ∧ t.Built ∧ bin = t.cut := by
  have hsize : ∀ n, f.kind.size = some n → encSize k = some (if f.name = t!"nxm_ct_label" then 4 else n) := by
    intro n hn
    by_cases hc : f.name = t!"nxm_ct_label"
    · have := (label_kind f hf hc).2
      rw [hl] at this
      cases this
      rw [if_pos hc]
      rfl
    · have := table_enc f hf hc
      unfold linkedEnc at this
      rw [hl] at this
      simp at this
      rw [this, if_neg hc, encSize_kindEnc, hn]
  have hkind : k = kindEnc f.kind ∨ f.kind = .uint 16 := by
    by_cases hc : f.name = t!"nxm_ct_label"
    · exact Or.inr (label_kind f hf hc).1
    · have := table_enc f hf hc
      unfold linkedEnc at this
      rw [hl] at this
      simp at this
      exact Or.inl this
  by_cases hm : f.maskable = true ∨ ∃ n, f.kind = .uint n
  · obtain ⟨n, hmask, body, rfl, hb, hsz⟩ := encText_shape _ _ _ _ _ h
    cases hmask with
    | false =>
      refine ⟨⟨f, body, none⟩, rfl, ⟨hf, ?_, by simp⟩, ?_⟩
      · intro m hm
        simp only [Bool.false_eq_true, if_false] at hb
        dsimp only
        rw [hb]
        exact hsz _ (hsize m hm)
      · rw [header_cut f hf, Tlv.cut]
        simp [Tlv.body, hb]
    | true =>
      simp only [if_true] at hb
      refine ⟨⟨f, body.take n, some (body.drop n)⟩, rfl, ⟨hf, ?_, ?_⟩, ?_⟩
      · intro m hm
        have := hsz _ (hsize m hm)
        dsimp only
        rw [List.length_take, hb, ← this]
        omega
      · intro m hm'
        cases hm'
        refine ⟨?_, hm⟩
        simp [hb]; omega
      · rw [header_cut f hf, Tlv.cut]
        simp [Tlv.body, hb]
  · have hk := maskable_kinds f hf
    have hk' : (∃ n, k = .port n) ∨ k = .pkt ∨ (∃ n, k = .le n) ∨ k = .rate ∨ k = .s8 := by
      push Not at hm
      rcases hkind with rfl | hkind
      · rcases hk with hk | hk
        · exact absurd hk hm.1
        · have h2 := hm.2
          revert hk h2
          cases f.kind <;> simp [kindEnc]
      · exact absurd hkind (hm.2 16)
    obtain ⟨n, body, rfl, hb, hsz⟩ := encText_nomask _ _ _ _ _ h hk'
    refine ⟨⟨f, body, none⟩, rfl, ⟨hf, ?_, by simp⟩, ?_⟩
    · intro m hm
      dsimp only
      rw [hb]
      exact hsz _ (hsize m hm)
    · rw [header_cut f hf, Tlv.cut]
      simp [Tlv.body, hb]

theorem str2oxmGo_built (fuel : Nat) (u : Str) (b : Bytes) (rest : Str)
    (h : str2oxmGo true fuel u = .ok (b, rest)) : ∃ ts : List Tlv, (∀ t ∈ ts, t.Built) ∧ b = ts.flatMap Tlv.cut := by
  induction fuel generalizing u b rest with
  | zero => cases h
  | succ fuel ih =>
    rw [str2oxmGo] at h
    split at h
    · cases h; exact ⟨[], by simp, rfl⟩
    · obtain ⟨⟨bin, l, p, r⟩, hone, h⟩ := bind_ok h
      dsimp only at h
      split at h
      · simp only [Except.ok.injEq, Prod.mk.injEq] at h
        exact ⟨[], by simp, h.1.symm⟩
      · obtain ⟨_, ha, h⟩ := bind_ok h
        rw [if_pos rfl] at h
        obtain ⟨⟨msg, rest'⟩, hrec, h⟩ := bind_ok h
        simp only [Except.ok.injEq, Prod.mk.injEq] at h
        obtain ⟨hd, name, w1, w2, key, k, r1, _, _, _, _, _, _, hlk, he⟩ := str2oxmOne_parts hone
        obtain ⟨f, hf, rfl, rfl, _⟩ := lookupEnc_field hlk
        obtain ⟨t, ht, hb, hw⟩ := encText_built hf hlk he
        obtain ⟨ts, h1, h2⟩ := ih _ _ _ hrec
        refine ⟨t :: ts, by simpa using ⟨hb, h1⟩, ?_⟩
        rw [← h.1, hw, h2]
        simp

/-! ## Printing them -/

theorem cut_short (t : Tlv) (h : t.Short) : t.cut = t.wire := by
  have hx : t.field.extra = 0 ∨ t.field.extra = 4 := by unfold Field.extra; split <;> simp
  unfold Tlv.cut Tlv.wire
  unfold Tlv.Short at h
  rw [Nat.min_eq_left (by omega)]

theorem built_wire (t : Tlv) (hb : t.Built) (hs : t.Short) :
    t.wire = header (fieldKey t.field) t.value.length t.mask.isSome ++ t.body ∧
    t.body.length = (if t.mask.isSome then 2 * t.value.length else t.value.length) ∧
    t.body.length + extra (fieldKey t.field).cls < 256 := by
  have hlen : t.body.length = (if t.mask.isSome then 2 * t.value.length else t.value.length) := by
    unfold Tlv.body
    cases hm : t.mask with
    | none => simp
    | some m =>
      have := (hb.mask m hm).1
      simp; omega
  have hok := table_fields _ hb.mem
  simp only [fieldOk, Bool.and_eq_true, decide_eq_true_eq] at hok
  obtain ⟨⟨⟨h1, h2⟩, h3⟩, h4⟩ := hok
  have hx := fieldKey_extra t.field h2
  unfold Tlv.Short Field.extra at hs
  refine ⟨?_, hlen, by rw [hx]; exact hs⟩
  rw [field_header _ hb.mem _ _ (by rw [← hlen]; exact hs), ← hlen]
  rfl

theorem oxm2strGo_built (ts : List Tlv) (text : Tlv → Str) (hv : ∀ t ∈ ts, t.Built ∧ t.Short)
    (ht : ∀ t ∈ ts, ∃ d, lookupDec (fieldKey t.field) = some d ∧
      decText d t.body t.mask.isSome = .ok (text t)) (fuel : Nat)
    (hf : (wireAll ts).length < fuel) :
    oxm2strGo fuel (wireAll ts) = .ok (ts.map text) := by
  induction ts generalizing fuel with
  | nil =>
    cases fuel with
    | zero => simp at hf
    | succ f => simp [wireAll, oxm2strGo]
  | cons t ts ih =>
    cases fuel with
    | zero => simp at hf
    | succ f =>
      have hvt := hv t (by simp)
      obtain ⟨d, hd, htx⟩ := ht t (by simp)
      obtain ⟨hw, hb, hfit⟩ := built_wire t hvt.1 hvt.2
      have hok := table_fields _ hvt.1.mem
      simp only [fieldOk, Bool.and_eq_true, decide_eq_true_eq] at hok
      have hwa : wireAll (t :: ts) =
          header (fieldKey t.field) t.value.length t.mask.isSome ++ (t.body ++ wireAll ts) := by
        simp [wireAll, hw]
      obtain ⟨h1, h2⟩ := oxm2strOne_tlv (fieldKey t.field) t.value.length t.mask.isSome d t.body
        (wireAll ts) hok.1.1.1 hd hb hfit
      have hl := header_length (fieldKey t.field) t.value.length t.mask.isSome
      rw [hwa] at hf ⊢
      have hlt : ¬ (header (fieldKey t.field) t.value.length t.mask.isSome ++
          (t.body ++ wireAll ts)).length < 4 := by
        simp [hl]; omega
      have hdrop : (header (fieldKey t.field) t.value.length t.mask.isSome ++
          (t.body ++ wireAll ts)).drop (4 + (t.body.length + extra (fieldKey t.field).cls)) =
          wireAll ts := by
        rw [← List.append_assoc]
        apply List.drop_left'
        simp [hl]; omega
      have hrec := ih (fun x hx => hv x (by simp [hx])) (fun x hx => ht x (by simp [hx])) f
        (by simp [hl] at hf; omega)
      simp only [oxm2strGo, hlt, if_false, h1, htx, h2, hdrop, hrec, bind, Except.bind]
      simp

theorem unmaskable_dec : ∀ f ∈ fields, f.maskable = false → (match f.kind with | .uint _ => true | _ => false) = true →
    (match lookupDec (fieldKey f) with
    | some (.uint g) => g.mask.isNone && g.val.isSome && g.name == f.name
    | _ => false) = true := by decide +kernel

theorem shown_field (t : Tlv) : t.shown.field = t.field := by
  unfold Tlv.shown; split <;> rfl

/-- Printing a mask that the field does not have leaves it out. -/
theorem shown_dec (t : Tlv) (hb : t.Built) (d : Dec) (hd : lookupDec (fieldKey t.field) = some d) :
    decText d t.body t.mask.isSome = decText d t.shown.body t.shown.mask.isSome := by
  unfold Tlv.shown
  split
  · rfl
  · rename_i hm
    cases hmask : t.mask with
    | none => simp [Tlv.body, hmask]
    | some m =>
      obtain ⟨hl, hk⟩ := hb.mask m hmask
      rcases hk with hk | ⟨n, hk⟩
      · exact absurd hk hm
      · have := unmaskable_dec _ hb.mem (by simpa using hm) (by rw [hk])
        rw [hd] at this
        split at this
        · rename_i g hg
          cases hg
          simp only [Bool.and_eq_true, Option.isNone_iff_eq_none] at this
          have hsp : (t.value ++ m).length / 2 = t.value.length := by simp [hl]; omega
          simp only [decText, uintBin2str, Tlv.body, hmask, Option.getD_some, Option.isSome_some, if_true,
            Option.getD_none, Option.isSome_none, hsp, List.take_left, List.append_nil]
          unfold fmtField
          rw [this.1.1]
          cases g.val <;> simp
        · cases this

theorem shown_valid (t : Tlv) (hb : t.Built) (hs : t.Short) (hn : t.field.name ≠ t!"nxm_ct_label") : t.shown.Valid := by
  unfold Tlv.shown
  unfold Tlv.Short at hs
  split
  · rename_i hm
    exact ⟨hb.mem, fun n h => by rw [hb.size n h, if_neg hn], fun m h => ⟨hm, (hb.mask m h).1⟩, hs⟩
  · refine ⟨hb.mem, fun n h => by rw [hb.size n h, if_neg hn], by simp, ?_⟩
    unfold Field.extra at hs
    simp [Tlv.body] at hs ⊢
    omega

theorem built_reprint (ts : List Tlv) (hb : ∀ t ∈ ts, t.Built ∧ t.Short) (hl : ∀ t ∈ ts, t.shown.Lossless) :
    ∃ text, oxm2str (wireAll ts) = .ok text ∧
      str2oxm text = .ok (wireAll (ts.map Tlv.shown), text.length) := by
  have hn : ∀ t ∈ ts, t.field.name ≠ t!"nxm_ct_label" := by
    intro t ht he
    have := (hl t ht).name
    rw [shown_field, he] at this
    revert this; decide
  have hv : ∀ t ∈ ts, t.shown.Valid := fun t ht => shown_valid t (hb t ht).1 (hb t ht).2 (hn t ht)
  have h2 := (oxm_list (ts.map Tlv.shown) (by
    intro t ht
    rw [List.mem_map] at ht
    obtain ⟨t, ht, rfl⟩ := ht
    exact ⟨hv t ht, hl t ht⟩)).2
  refine ⟨_, ?_, h2⟩
  unfold oxm2str
  rw [oxm2strGo_built ts (fun t => tlvText t.shown) hb (by
    intro t ht
    obtain ⟨d, h1, _, h3, _⟩ := tlvText_spec t.shown (hv t ht) (hl t ht)
    rw [shown_field] at h1
    exact ⟨d, h1, by rw [shown_dec t (hb t ht).1 d h1]; exact h3⟩) _ (by simp)]
  simp only [bind, Except.bind, List.map_map]
  rfl

end Ofpstr
