import Verif.Lemmas.Tlv

/-!
# Lists of TLVs: the loops of `oxm2str` and `str2oxm`
-/

namespace Ofpstr
open Spec

theorem head_nil : Head [] := Or.inl (by intro c h; cases h)
theorem head_comma : Head [','] := Or.inl (by intro c h; simp at h; exact Or.inr h)

/-- One `name=value` item, with separators before it. -/
theorem str2oxmOne_item (h name v r : Str) (key : Key) (k : Enc) (out : Bytes) (hh : Head h)
    (hne : hasChar h '=' = false) (hc : Clean name) (hn : name ≠ []) (hv : Clean v) (hvn : v ≠ [])
    (hr : AtEnd r) (hl : lookupEnc name = some (key, k)) (he : encText key k v = .ok (out, v.length)) :
    str2oxmOne (h ++ (name ++ '=' :: (v ++ r))) = .ok (out, v.length, v, r) := by
  have h1 := getToken_head hh hc.token (atEnd_eq (v ++ r)) hc.plainStart hn
  have h2 := getToken_eq hv.token hr hv.plainStart hvn
  unfold str2oxmOne
  simp only [h1, h2, hl, he, hne, bind, Except.bind]
  simp [pyAssert, hasChar]

/-- The loop over items, the first one after the separators `h`. -/
theorem str2oxmGo_items (items : List (Str × Bytes)) (h : Str) (hh : h = [] ∨ h = [','])
    (hi : ∀ x ∈ items, ∃ name v key k, x.1 = name ++ '=' :: v ∧ Clean name ∧ name ≠ [] ∧ Clean v ∧
      v ≠ [] ∧ lookupEnc name = some (key, k) ∧ encText key k v = .ok (x.2, v.length))
    (hne : items = [] → h = []) (fuel : Nat)
    (hf : (h ++ joinStr t!"," (items.map (·.1))).length < fuel) :
    str2oxmGo true fuel (h ++ joinStr t!"," (items.map (·.1))) =
      .ok (items.flatMap (·.2), []) := by
  induction items generalizing h fuel with
  | nil =>
    cases fuel with
    | zero => simp at hf
    | succ f => simp [hne rfl, joinStr, str2oxmGo]
  | cons x items ih =>
    cases fuel with
    | zero => simp at hf
    | succ f =>
      obtain ⟨name, v, key, k, hx, hc, hn, hv, hvn, hl, he⟩ := hi x (by simp)
      have hhd : Head h := by rcases hh with rfl | rfl; exacts [head_nil, head_comma]
      have hhe : hasChar h '=' = false := by rcases hh with rfl | rfl <;> decide
      have hnz : (v.length == 0) = false := by
        cases v with
        | nil => exact absurd rfl hvn
        | cons c v => simp
      have hsplit : ∃ r, h ++ joinStr t!"," ((x :: items).map (·.1)) =
          h ++ (name ++ '=' :: (v ++ r)) ∧ AtEnd r ∧
          r = (if items = [] then [] else t!",") ++ joinStr t!"," (items.map (·.1)) := by
        cases items with
        | nil => exact ⟨[], by simp [joinStr, hx], atEnd_nil, by simp [joinStr]⟩
        | cons y items =>
          refine ⟨',' :: joinStr t!"," ((y :: items).map (·.1)), ?_, atEnd_comma _, by simp⟩
          simp [joinStr, hx]
      obtain ⟨r, hs, hr, hre⟩ := hsplit
      rw [hs] at hf ⊢
      have hone := str2oxmOne_item h name v r key k x.2 hhd hhe hc hn hv hvn hr hl he
      have hemp : (h ++ (name ++ '=' :: (v ++ r))).isEmpty = false := by
        cases h <;> cases name <;> simp
      have hrec := ih (if items = [] then [] else t!",") (by split <;> simp)
        (fun y hy => hi y (by simp [hy])) (by intro h; simp [h]) f
        (by rw [← hre]; simp at hf; omega)
      rw [← hre] at hrec
      simp only [str2oxmGo, hemp, hone, bind, Except.bind, hnz]
      simp [pyAssert, hrec]

theorem str2oxm_items (items : List (Str × Bytes))
    (hi : ∀ x ∈ items, ∃ name v key k, x.1 = name ++ '=' :: v ∧ Clean name ∧ name ≠ [] ∧ Clean v ∧
      v ≠ [] ∧ lookupEnc name = some (key, k) ∧ encText key k v = .ok (x.2, v.length)) :
    str2oxm (joinStr t!"," (items.map (·.1))) =
      .ok (items.flatMap (·.2), (joinStr t!"," (items.map (·.1))).length) := by
  have := str2oxmGo_items items [] (Or.inl rfl) hi (fun _ => rfl)
    ((joinStr t!"," (items.map (·.1))).length + 1) (by simp)
  rw [List.nil_append] at this
  unfold str2oxm str2oxmL
  simp [this, bind, Except.bind]

/-- The loop of `oxm2str` over well-formed TLVs. -/
theorem oxm2strGo_tlvs (ts : List Tlv) (text : Tlv → Str) (hv : ∀ t ∈ ts, t.Valid)
    (ht : ∀ t ∈ ts, ∃ d, lookupDec (fieldKey t.field) = some d ∧
      decText d t.body t.mask.isSome = .ok (text t)) (fuel : Nat)
    (hf : (wireAll ts).length < fuel) :
    oxm2strGo fuel (wireAll ts) = .ok (ts.map text) := by
  induction ts generalizing fuel with
  | nil =>
    cases fuel with
    | zero => simp at hf
    | succ f => simp [wireAll, oxm2strGo]
  | cons t ts ih =>
    cases fuel with
    | zero => simp at hf
    | succ f =>
      have hvt := hv t (by simp)
      obtain ⟨d, hd, htx⟩ := ht t (by simp)
      obtain ⟨hw, hb, hfit⟩ := tlv_wire t hvt _ rfl
      have hok := table_fields _ hvt.mem
      simp only [fieldOk, Bool.and_eq_true, decide_eq_true_eq] at hok
      have hwa : wireAll (t :: ts) =
          header (fieldKey t.field) t.value.length t.mask.isSome ++ (t.body ++ wireAll ts) := by
        simp [wireAll, hw]
      obtain ⟨h1, h2⟩ := oxm2strOne_tlv (fieldKey t.field) t.value.length t.mask.isSome d t.body
        (wireAll ts) hok.1.1.1 hd hb hfit
      have hl := header_length (fieldKey t.field) t.value.length t.mask.isSome
      rw [hwa] at hf ⊢
      have hlt : ¬ (header (fieldKey t.field) t.value.length t.mask.isSome ++
          (t.body ++ wireAll ts)).length < 4 := by
        simp [hl]; omega
      have hdrop : (header (fieldKey t.field) t.value.length t.mask.isSome ++
          (t.body ++ wireAll ts)).drop (4 + (t.body.length + extra (fieldKey t.field).cls)) =
          wireAll ts := by
        rw [← List.append_assoc]
        apply List.drop_left'
        simp [hl]; omega
      have hrec := ih (fun x hx => hv x (by simp [hx])) (fun x hx => ht x (by simp [hx])) f
        (by simp [hl] at hf; omega)
      simp only [oxm2strGo, hlt, if_false, h1, htx, h2, hdrop, hrec, bind, Except.bind]
      simp

theorem oxm2str_tlvs (ts : List Tlv) (text : Tlv → Str) (hv : ∀ t ∈ ts, t.Valid)
    (ht : ∀ t ∈ ts, ∃ d, lookupDec (fieldKey t.field) = some d ∧
      decText d t.body t.mask.isSome = .ok (text t)) :
    oxm2str (wireAll ts) = .ok (joinStr t!"," (ts.map text)) := by
  unfold oxm2str
  rw [oxm2strGo_tlvs ts text hv ht _ (by simp)]
  simp [bind, Except.bind]

/-- The value text of a TLV that survives printing (any text for others). -/
noncomputable def tlvValue (t : Tlv) : Str :=
  open Classical in if h : t.Valid ∧ t.Lossless then (trip_tlv t h.1 h.2).choose_spec.2.2.choose else []

/-- The text of a TLV. -/
noncomputable def tlvText (t : Tlv) : Str := t.field.name ++ '=' :: tlvValue t

theorem tlvText_spec (t : Tlv) (hv : t.Valid) (hl : t.Lossless) :
    ∃ d, lookupDec (fieldKey t.field) = some d ∧
      lookupEnc t.field.name = some (fieldKey t.field, kindEnc t.field.kind) ∧
      decText d t.body t.mask.isSome = .ok (tlvText t) ∧ Clean (tlvValue t) ∧ tlvValue t ≠ [] ∧
      encText (fieldKey t.field) (kindEnc t.field.kind) (tlvValue t) =
        .ok (t.wire, (tlvValue t).length) := by
  have h : t.Valid ∧ t.Lossless := ⟨hv, hl⟩
  refine ⟨_, (trip_tlv t hv hl).choose_spec.1, (trip_tlv t hv hl).choose_spec.2.1, ?_⟩
  have := (trip_tlv t hv hl).choose_spec.2.2.choose_spec
  unfold tlvText tlvValue
  rw [dif_pos h]
  exact this

theorem field_name (f : Field) (h : f ∈ fields) : Clean f.name ∧ f.name ≠ [] ∧ f.num < 128 := by
  have hok := table_fields _ h
  simp only [fieldOk, Bool.and_eq_true, decide_eq_true_eq] at hok
  refine ⟨hok.1.2, ?_, hok.1.1.1⟩
  intro he
  simp [he] at hok

/-- Both directions on a list. -/
theorem oxm_list (ts : List Tlv) (h : ∀ t ∈ ts, t.Valid ∧ t.Lossless) :
    oxm2str (wireAll ts) = .ok (joinStr t!"," (ts.map tlvText)) ∧
    str2oxm (joinStr t!"," (ts.map tlvText)) =
      .ok (wireAll ts, (joinStr t!"," (ts.map tlvText)).length) := by
  constructor
  · apply oxm2str_tlvs ts tlvText (fun t ht => (h t ht).1)
    intro t ht
    obtain ⟨d, h1, _, h3, _⟩ := tlvText_spec t (h t ht).1 (h t ht).2
    exact ⟨d, h1, h3⟩
  · have := str2oxm_items (ts.map fun t => (tlvText t, t.wire)) (by
      intro x hx
      simp only [List.mem_map] at hx
      obtain ⟨t, ht, rfl⟩ := hx
      obtain ⟨d, h1, h2, h3, h4, h5, h6⟩ := tlvText_spec t (h t ht).1 (h t ht).2
      obtain ⟨n1, n2, _⟩ := field_name _ (h t ht).1.mem
      exact ⟨t.field.name, tlvValue t, _, _, rfl, n1, n2, h4, h5, h2, h6⟩)
    have e1 : (ts.map fun t => (tlvText t, t.wire)).map (·.1) = ts.map tlvText := by simp
    have e2 : (ts.map fun t => (tlvText t, t.wire)).flatMap (·.2) = wireAll ts := by
      simp [wireAll, List.flatMap_map]
    rw [e1, e2] at this
    exact this

end Ofpstr
