import Verif.Lemmas.SsidExact
import Mathlib.Data.List.TakeWhile

/-!
# Matches with any SSIDs

One TLV in a text, then the whole list.
-/

set_option linter.unusedSimpArgs false

namespace Ofpstr
open Spec

theorem survives_plain {t : Tlv} {last : Prop} (hk : t.field.kind ≠ .ssid) : t.Survives last ↔ t.Lossless :=
  ⟨fun h => ⟨h.name, h.bytes, fun h' => absurd h' hk, fun h' => absurd h' hk, h.vht, h.vhtMask⟩,
    fun h => ⟨h.name, h.bytes, fun h' => absurd h' hk, fun h' => absurd h' hk, h.vht, h.vhtMask⟩⟩

theorem ssid_facts : ∀ f ∈ fields, f.kind = .ssid → f = ⟨t!"dot11_ssid", 0xffff, 8, .ssid, true⟩ := by
  decide +kernel

theorem ssid_survives {t : Tlv} {last : Prop} (hk : t.field = ⟨t!"dot11_ssid", 0xffff, 8, .ssid, true⟩) :
    t.Survives last ↔ (t.mask = none → SsidText last t.value) ∧
      (t.mask ≠ none → ∃ p k, SsidText last p ∧ p.getLast? ≠ some 0 ∧ t.value = p ++ pad k) := by
  constructor
  · intro h
    exact ⟨h.ssid (by rw [hk]), h.ssidMask (by rw [hk])⟩
  · rintro ⟨h1, h2⟩
    refine ⟨by rw [hk]; decide, ?_, fun _ => h1, fun _ => h2, ?_, ?_⟩ <;> intro h <;> rw [hk] at h <;> cases h

theorem strip_split (b : Bytes) (h : ∃ x ∈ b, x ≠ 0) :
    ∃ p k, p ≠ [] ∧ p.getLast? ≠ some 0 ∧ b = p ++ zeros k ∧ stripZeros b = .ok p := by
  have hs : b.reverse = b.reverse.takeWhile (· == 0) ++ b.reverse.dropWhile (· == 0) :=
    (List.takeWhile_append_dropWhile).symm
  have hz : b.reverse.takeWhile (· == 0) = zeros (b.reverse.takeWhile (· == 0)).length := by
    unfold zeros
    rw [List.eq_replicate_iff]
    exact ⟨rfl, fun x hx => by simpa using List.mem_takeWhile_imp hx⟩
  have hne : b.reverse.dropWhile (· == 0) ≠ [] := by
    intro he
    rw [dropWhile_zero] at he
    obtain ⟨x, hx, hne⟩ := h
    exact hne (he x (by simpa using hx))
  refine ⟨(b.reverse.dropWhile (· == 0)).reverse, (b.reverse.takeWhile (· == 0)).length, by simpa using hne, ?_, ?_, ?_⟩
  · rw [List.getLast?_reverse]
    cases hd : b.reverse.dropWhile (· == 0) with
    | nil => exact absurd hd hne
    | cons x r =>
      have h0 := List.head_dropWhile_not (· == 0) hne
      simp only [hd, List.head_cons] at h0
      simpa using h0
  · have := congrArg List.reverse hs
    rw [List.reverse_reverse, List.reverse_append] at this
    rw [hz, zeros, List.reverse_replicate] at this
    exact this
  · unfold stripZeros
    dsimp only
    rw [if_neg (by simpa using hne)]

/-- An SSID with a byte that is not zero, or no mask: the text and the bytes. -/
theorem ssid_shape (t : Tlv) (hv : t.Valid) (hk : t.field.kind = .ssid)
    (hz : t.mask ≠ none → ∃ x ∈ t.value, x ≠ 0) :
    (t.mask = none ∧ tlvPrint t = t!"dot11_ssid" ++ '=' :: b2aQp t.value ∧
      t.wire = header ssidKey t.value.length false ++ t.value ∧ t.value.length + 4 < 256) ∨
    (∃ m p k, t.mask = some m ∧ p ≠ [] ∧ p.getLast? ≠ some 0 ∧ t.value = p ++ zeros k ∧
      m.length = (p ++ zeros k).length ∧ 2 * m.length + 4 < 256 ∧
      tlvPrint t = t!"dot11_ssid" ++ '=' :: (b2aQp p ++ '/' :: b2aHex m) ∧
      t.wire = header ssidKey m.length true ++ ((p ++ zeros k) ++ m)) := by
  have hfd := ssid_facts _ hv.mem hk
  have hkey : fieldKey t.field = ssidKey := by rw [hfd]; rfl
  have hd := ssid_dec _ hv.mem hk
  have hex : t.field.experimenter = true := by rw [hfd]; rfl
  have hfit := hv.fits
  rw [hex, if_pos rfl] at hfit
  obtain ⟨hw, -, -⟩ := tlv_wire t hv _ rfl
  rw [hkey] at hw
  cases hm : t.mask with
  | none =>
    left
    have hb : t.body = t.value := by simp [Tlv.body, hm]
    rw [hb] at hfit
    refine ⟨rfl, ?_, by rw [hw, hm, hb]; rfl, hfit⟩
    rw [tlvPrint_eq t hd (s := t!"dot11_ssid=" ++ b2aQp t.value) (by
      rw [hm, hb]; simp [decText, ssidBin2str])]
    rfl
  | some m =>
    right
    obtain ⟨p, k, hp, hpl, hval, hst⟩ := strip_split t.value (hz (by simp [hm]))
    have hml := (hv.mask m hm).2
    have hb : t.body = t.value ++ m := by simp [Tlv.body, hm]
    have hsl : (t.value ++ m).length / 2 = t.value.length := by simp [hml]; omega
    have hml' : m.length = (p ++ zeros k).length := by rw [← hval]; exact hml
    refine ⟨m, p, k, rfl, hp, hpl, hval, hml', ?_, ?_, ?_⟩
    · rw [hb, List.length_append] at hfit; omega
    · rw [tlvPrint_eq t hd (s := t!"dot11_ssid=" ++ (b2aQp p ++ '/' :: b2aHex m)) (by
        rw [hm, hb]
        simp only [decText, ssidBin2str, Option.isSome_some, if_true, hsl, List.take_left, List.drop_left, hst,
          bind, Except.bind])]
      rfl
    · rw [hw, hm, hb, hval, ← hml']; rfl

/-- A TLV that survives is read back, wherever it stands. -/
theorem tlv_fwd (t : Tlv) (hv : t.Valid) {h r : Str} (hh : h = [] ∨ h = [',']) (hr : r = [] ∨ ∃ r', r = ',' :: r')
    (hs : t.Survives (r = [])) :
    ∃ v, v ≠ [] ∧ str2oxmOne (h ++ (tlvPrint t ++ r)) = .ok (t.wire, v.length, v, r) := by
  by_cases hk : t.field.kind = .ssid
  · have hfd := ssid_facts _ hv.mem hk
    rw [ssid_survives hfd] at hs
    have hz : t.mask ≠ none → ∃ x ∈ t.value, x ≠ 0 := by
      intro hm
      obtain ⟨p, k, hp, hpl, hval⟩ := hs.2 hm
      have hne := hp.1
      refine ⟨p.getLast hne, by rw [hval]; simp, ?_⟩
      rw [List.getLast?_eq_some_getLast hne] at hpl
      simpa using hpl
    rcases ssid_shape t hv hk hz with ⟨hm, htx, hw, -⟩ | ⟨m, p, k, hm, hpn, hpl, hval, hml, hfit, htx, hw⟩
    · obtain ⟨h1, h2⟩ := ssid_fwd hh hr (hs.1 hm)
      refine ⟨_, h2, ?_⟩
      rw [htx, hw, ← h1]
      simp
    · obtain ⟨p', k', hp', hpl', hval'⟩ := hs.2 (by simp [hm])
      have hpp : p' = p := by
        have he : p' ++ zeros k' = p ++ zeros k := by rw [← hval]; exact hval'.symm
        obtain ⟨i, hi⟩ := zeros_cut he hpl
        obtain ⟨j, hj⟩ := zeros_cut he.symm hpl'
        have h1 := congrArg List.length hi
        have h2 := congrArg List.length hj
        simp only [List.length_append, zeros, List.length_replicate] at h1 h2
        have : i = 0 := by omega
        rw [hi, this]; simp [zeros]
      subst hpp
      refine ⟨b2aQp p' ++ '/' :: b2aHex m, by simp, ?_⟩
      rw [htx, hw, ← ssid_fwd_mask hh hr hp' hml]
      simp
  · rw [survives_plain hk] at hs
    obtain ⟨d, h1, h2, h3, h4, h5, h6⟩ := tlvText_spec t hv hs
    obtain ⟨n1, n2, -⟩ := field_name _ hv.mem
    have hhd : Head h := by rcases hh with rfl | rfl; exacts [head_nil, head_comma]
    have hhe : hasChar h '=' = false := by rcases hh with rfl | rfl <;> decide
    refine ⟨_, h5, ?_⟩
    rw [tlvPrint_eq t h1 h3, tlvText]
    rw [← str2oxmOne_item h _ _ r _ _ _ hhd hhe n1 n2 h4 h5 (atEnd_of hr) h2 h6]
    simp

/-- A TLV that is read back survives. -/
theorem tlv_back (t : Tlv) (hv : t.Valid) (hz : t.field.kind = .ssid → t.mask ≠ none → ∃ x ∈ t.value, x ≠ 0)
    {h r : Str} (hh : h = [] ∨ h = [',']) (hr : r = [] ∨ ∃ r', r = ',' :: r') {bin : Bytes} {l : Nat}
    {payload r' : Str} (hone : str2oxmOne (h ++ (tlvPrint t ++ r)) = .ok (bin, l, payload, r')) (hl : l ≠ 0)
    {msg x : Bytes} (hx : x.head? ≠ some 44 ∧ x.head? ≠ some 47) (hb : bin ++ msg = t.wire ++ x) :
    t.Survives (r = []) := by
  by_cases hk : t.field.kind = .ssid
  · have hfd := ssid_facts _ hv.mem hk
    rw [ssid_survives hfd]
    rcases ssid_shape t hv hk (hz hk) with ⟨hm, htx, hw, hfit⟩ | ⟨m, p, k, hm, hpn, hpl, hval, hml, hfit, htx, hw⟩
    · refine ⟨fun _ => ?_, fun h => absurd hm h⟩
      rw [htx] at hone
      rw [hw] at hb
      exact (ssid_back hh hr hfit (by rw [← hone]; simp) hl hx hb).1
    · refine ⟨(fun h => by rw [hm] at h; cases h), fun _ => ⟨p, k, ?_, hpl, hval⟩⟩
      rw [htx] at hone
      rw [hw] at hb
      exact (ssid_back_mask hh hr hpn hpl hml hfit (by rw [← hone]; simp) hb).1
  · rw [survives_plain hk]
    by_contra hc
    obtain ⟨d, s, h1, h2, h4⟩ := tlv_lossy t hv hc hk
    rw [tlvPrint_eq t h1 h2] at hone
    rcases h4.never h r bin l payload r' hh hr hone with h0 | h0
    · exact hl h0
    · exact h0 msg ⟨x, hb.symm⟩

theorem wireAll_head (ts : List Tlv) (hv : ∀ t ∈ ts, t.Valid) :
    (wireAll ts).head? ≠ some 44 ∧ (wireAll ts).head? ≠ some 47 := by
  cases ts with
  | nil => simp [wireAll]
  | cons t ts =>
    have key : ∀ f ∈ fields, (u16 f.cls).head? ≠ some 44 ∧ (u16 f.cls).head? ≠ some 47 ∧ u16 f.cls ≠ [] := by
      decide +kernel
    obtain ⟨h1, h2, h3⟩ := key _ (hv t (by simp)).mem
    have : (wireAll (t :: ts)).head? = (u16 t.field.cls).head? := by
      cases hu : u16 t.field.cls with
      | nil => exact absurd hu h3
      | cons c r => simp [wireAll, Tlv.wire, Field.header, hu]
    rw [this]
    exact ⟨h1, h2⟩

/-- Every TLV of a list survives: the last one may have open brackets. -/
def AllSurvive (ts : List Tlv) : Prop := ∀ a t b, ts = a ++ t :: b → t.Survives (b = [])

theorem allSurvive_cons {t : Tlv} {ts : List Tlv} : AllSurvive (t :: ts) ↔ t.Survives (ts = []) ∧ AllSurvive ts := by
  constructor
  · intro h
    refine ⟨h [] t ts rfl, ?_⟩
    rintro a t' b rfl
    exact h (t :: a) t' b rfl
  · rintro ⟨h1, h2⟩ a t' b hab
    cases a with
    | nil =>
      simp only [List.nil_append, List.cons.injEq] at hab
      obtain ⟨rfl, rfl⟩ := hab
      exact h1
    | cons x a =>
      simp only [List.cons_append, List.cons.injEq] at hab
      exact h2 a t' b hab.2

theorem reads_back (ts : List Tlv) (hv : ∀ t ∈ ts, t.Valid)
    (hz : ∀ t ∈ ts, t.field.kind = .ssid → t.mask ≠ none → ∃ x ∈ t.value, x ≠ 0) (h : Str) (hh : h = [] ∨ h = [','])
    (hn : ts = [] → h = []) (fuel : Nat) (hf : (h ++ joinStr t!"," (ts.map tlvPrint)).length < fuel) :
    (∃ rest, str2oxmGo true fuel (h ++ joinStr t!"," (ts.map tlvPrint)) = .ok (wireAll ts, rest)) ↔ AllSurvive ts := by
  induction ts generalizing h fuel with
  | nil =>
    rw [hn rfl]
    cases fuel with
    | zero => simp at hf
    | succ f =>
      simp only [List.map_nil, joinStr, List.append_nil, str2oxmGo]
      constructor
      · rintro - a t b hab; simp at hab
      · intro _; exact ⟨[], by simp [wireAll]⟩
  | cons t ts ih =>
    have hvt := hv t (by simp)
    obtain ⟨r, hj, hr, hre⟩ := join_split (tlvPrint t) (ts.map tlvPrint)
    have hrn : r = [] ↔ ts = [] := by
      rw [hre]
      cases ts with
      | nil => simp [joinStr]
      | cons => simp
    have htn : tlvPrint t ≠ [] := by
      obtain ⟨d, s, h1, h2, h3⟩ := tlv_prints t hvt (hz t (by simp))
      rw [tlvPrint_eq t h1 h2]; exact h3
    rw [List.map_cons, hj] at hf ⊢
    rw [allSurvive_cons, show t.Survives (ts = []) = t.Survives (r = []) by rw [propext hrn]]
    cases fuel with
    | zero => simp at hf
    | succ fuel =>
      have hstep : t.Survives (r = []) →
          ((∃ rest, str2oxmGo true (fuel + 1) (h ++ (tlvPrint t ++ r)) = .ok (wireAll (t :: ts), rest)) ↔ AllSurvive ts) := by
        intro hsv
        obtain ⟨v, hvn, hone⟩ := tlv_fwd t hvt hh hr hsv
        have hnz : (v.length == 0) = false := by
          cases v with
          | nil => exact absurd rfl hvn
          | cons c v => simp
        have hrec := ih (fun x hx => hv x (by simp [hx])) (fun x hx => hz x (by simp [hx]))
          (if ts.map tlvPrint = [] then [] else t!",") (by split <;> simp) (by rintro rfl; simp) fuel (by
            rw [← hre]
            have : 0 < (tlvPrint t).length := List.length_pos_iff.2 htn
            simp only [List.length_append] at hf; omega)
        rw [← hre] at hrec
        rw [← hrec, str2oxmGo, if_neg (by simp [htn]), hone, ok_bind]
        dsimp only
        rw [hnz, if_neg (by simp), show pyAssert (v.length == v.length) = .ok () by simp [pyAssert], ok_bind, if_pos rfl]
        rw [show wireAll (t :: ts) = t.wire ++ wireAll ts by simp [wireAll]]
        constructor
        · rintro ⟨rest, hgo⟩
          obtain ⟨⟨msg, rest'⟩, hg, hgo⟩ := bind_ok hgo
          simp only [Except.ok.injEq, Prod.mk.injEq] at hgo
          obtain ⟨hb, rfl⟩ := hgo
          have := List.append_cancel_left hb
          exact ⟨rest', by rw [hg, this]⟩
        · rintro ⟨rest, hg⟩
          exact ⟨rest, by rw [hg, ok_bind]⟩
      constructor
      · rintro ⟨rest, hgo⟩
        have hsv : t.Survives (r = []) := by
          obtain ⟨bin, l, p, r', hone, hb⟩ := str2oxmGo_one hgo (by simp [htn])
          rw [show wireAll (t :: ts) = t.wire ++ wireAll ts by simp [wireAll]] at hb
          rcases hb with ⟨-, hb⟩ | ⟨hl0, msg, hb⟩
          · exact absurd (List.append_eq_nil_iff.1 hb).1 (wire_ne t)
          · exact tlv_back t hvt (hz t (by simp)) hh hr hone hl0
              (wireAll_head ts fun x hx => hv x (by simp [hx])) hb.symm
        exact ⟨hsv, (hstep hsv).1 ⟨rest, hgo⟩⟩
      · rintro ⟨hsv, hall⟩
        exact (hstep hsv).2 hall

/-- Nothing is left over. -/
theorem reads_fwd (ts : List Tlv) (hv : ∀ t ∈ ts, t.Valid) (hs : AllSurvive ts) (h : Str) (hh : h = [] ∨ h = [','])
    (hn : ts = [] → h = []) (fuel : Nat) (hf : (h ++ joinStr t!"," (ts.map tlvPrint)).length < fuel) :
    str2oxmGo true fuel (h ++ joinStr t!"," (ts.map tlvPrint)) = .ok (wireAll ts, []) := by
  induction ts generalizing h fuel with
  | nil =>
    rw [hn rfl]
    cases fuel with
    | zero => simp at hf
    | succ f => simp [joinStr, str2oxmGo, wireAll]
  | cons t ts ih =>
    have hvt := hv t (by simp)
    rw [allSurvive_cons] at hs
    obtain ⟨r, hj, hr, hre⟩ := join_split (tlvPrint t) (ts.map tlvPrint)
    have hrn : r = [] ↔ ts = [] := by
      rw [hre]
      cases ts with
      | nil => simp [joinStr]
      | cons => simp
    rw [List.map_cons, hj] at hf ⊢
    rw [show t.Survives (ts = []) = t.Survives (r = []) by rw [propext hrn]] at hs
    obtain ⟨v, hvn, hone⟩ := tlv_fwd t hvt hh hr hs.1
    have hun : h ++ (tlvPrint t ++ r) ≠ [] := by
      intro he
      rw [he] at hone
      have hg : str2oxmOne [] ≠ .ok (t.wire, v.length, v, r) := by
        simp [str2oxmOne, getToken, tokenHead, tokenBody, hasChar, pyAssert, bind, Except.bind]
      exact hg hone
    have hnz : (v.length == 0) = false := by
      cases v with
      | nil => exact absurd rfl hvn
      | cons c v => simp
    cases fuel with
    | zero => simp at hf
    | succ fuel =>
      have hlt : r.length < (h ++ (tlvPrint t ++ r)).length := by
        cases hp : h ++ tlvPrint t with
        | nil =>
          exfalso
          obtain ⟨h1, h2⟩ := List.append_eq_nil_iff.1 hp
          rw [h1, h2] at hone
          obtain ⟨d, s, h3, h4, h5⟩ | hbad : (∃ d s, lookupDec (fieldKey t.field) = some d ∧
              decText d t.body t.mask.isSome = .ok s ∧ s ≠ []) ∨ (t.field.kind = .ssid ∧ t.mask ≠ none ∧ ∀ x ∈ t.value, x = 0) := by
            by_cases hz : t.field.kind = .ssid ∧ t.mask ≠ none ∧ ∀ x ∈ t.value, x = 0
            · exact Or.inr hz
            · push Not at hz
              exact Or.inl (tlv_prints t hvt hz)
          · rw [tlvPrint_eq t h3 h4] at h2; exact h5 h2
          · obtain ⟨hk, hm, hz⟩ := hbad
            obtain ⟨p, k, hp, hpl, hval⟩ := hs.1.ssidMask hk hm
            rw [List.getLast?_eq_some_getLast hp.1] at hpl
            exact hpl (by rw [hz (p.getLast hp.1) (by rw [hval]; simp)])
        | cons c q =>
          rw [← List.append_assoc, hp, List.cons_append, List.length_cons, List.length_append]; omega
      have hrec := ih (fun x hx => hv x (by simp [hx])) hs.2
        (if ts.map tlvPrint = [] then [] else t!",") (by split <;> simp) (by rintro rfl; simp) fuel (by
          rw [← hre]; omega)
      rw [← hre] at hrec
      rw [str2oxmGo, if_neg (by simpa using hun), hone, ok_bind]
      dsimp only
      rw [hnz, if_neg (by simp), show pyAssert (v.length == v.length) = .ok () by simp [pyAssert], ok_bind, if_pos rfl,
        hrec, ok_bind]
      simp [wireAll]

end Ofpstr
