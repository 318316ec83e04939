import Verif.Lemmas.TripStd
import Verif.Lemmas.TripNx
import Verif.Lemmas.TripField
import Verif.Lemmas.TripLearn
import Verif.Lemmas.Order

/-!
# Lists of actions and instructions: printing and parsing back
-/

namespace Ofpstr
open Spec

theorem act_trip (a : Act) (hv : a.Valid) (hl : a.Lossless) : ∃ text, ActTrip a.wire text := by
  cases a with
  | output port maxLen => exact trip_output port maxLen hv.1 hv.2 hl
  | std a n => exact trip_std a n hv.1 hv.2 hl
  | setField t => exact trip_setField t hv hl
  | resubmit port => exact trip_resubmit port hl
  | resubmitTable port table => exact trip_resubmitTable port table hl hv.2
  | setTunnel id => exact trip_tunnel 2 4 t!"set_tunnel" id (Or.inl ⟨rfl, rfl, rfl⟩) hv
  | setTunnel64 id => exact trip_tunnel 9 8 t!"set_tunnel64" id (Or.inr ⟨rfl, rfl, rfl, hl⟩) hv
  | popQueue => exact trip_popQueue
  | exit => exact trip_exit
  | note b => exact trip_note b hl.1 hl.2
  | cntIds ids => exact trip_cntIds ids hv.1 hv.2 hl
  | regLoad f ofs nbits value =>
    exact trip_regLoad f ofs nbits value hv.1 hv.2.1 hv.2.2.1 hv.2.2.2 hl.1 hl.2
  | regLoad2 t => exact trip_regLoad2 t hv hl.1 hl.2
  | regMove src srcOfs dst dstOfs nbits =>
    exact trip_regMove src dst srcOfs dstOfs nbits hv.1 hv.2 hl.1 hl.2.1 hl.2.2
  | multipath hash basis alg maxLink arg dst ofs nbits =>
    obtain ⟨h1, h2, h3, h4, h5, h6, h7⟩ := hv
    exact trip_multipath hash basis alg maxLink arg dst ofs nbits h1 h2 h3 h4 h5 h6 h7 hl
  | bundle hash basis alg st slaves =>
    obtain ⟨h1, h2, h3, h4, h5, h6, h7, h8⟩ := hv
    exact trip_bundle hash basis alg st slaves h1 h2 h3 h4 h5 h6 h7 h8 hl.1 hl.2.1 hl.2.2
  | bundleLoad hash basis alg st dst ofs nbits slaves =>
    obtain ⟨h1, h2, h3, h4, h5, h6, h7, h8, h9, h10, h11⟩ := hv
    obtain ⟨g1, g2, g3, g4, rfl, g6⟩ := hl
    exact trip_bundleLoad hash basis alg st dst nbits slaves h1 h2 h3 h4 h5 h6 h7 h8 h9 h10 h11 g1 g2 g3 g4 g6
  | outputReg src ofs nbits maxLen =>
    obtain ⟨g1, g2, g3, rfl⟩ := hl
    exact trip_outputReg src ofs nbits hv.1 g2 g3 hv.2.2.1 g1
  | outputReg2 src ofs nbits maxLen =>
    obtain ⟨g1, g2, g3, rfl⟩ := hl
    exact trip_outputReg2 src ofs nbits hv.1 g2 g3 g1
  | learn fixed specs =>
    obtain ⟨rfl, g2, g3⟩ := hl
    refine trip_learn specs ?_ g2 ?_
    · intro i hi
      obtain ⟨k1, k2⟩ := g3 i hi
      refine goodItem i (hv.2.1 i hi) k1 ?_
      intro f ofs he
      rw [he] at k2
      exact k2
    · have := hv.2.2
      have hf := fill_length (10 + (({} : LearnFixed).wire ++ specs.flatMap LearnItem.wire).length)
      have h22 : ({} : LearnFixed).wire.length = 22 := by decide
      have ha := align8_facts (10 + (({} : LearnFixed).wire ++ specs.flatMap LearnItem.wire).length)
      rw [nxWire, nxRaw_length, List.length_append, hf]
      simp only [List.length_append, h22] at ha ⊢
      omega

/-! ## Comma lists -/

theorem commaList_cons (t : Str) {l : List Str} (h : l ≠ []) : commaList (t :: l) = t ++ ',' :: commaList l := by
  cases l with
  | nil => exact absurd rfl h
  | cons u l => rfl

theorem commaList_append (a : List Str) {b : List Str} (ha : a ≠ []) (hb : b ≠ []) :
    commaList (a ++ b) = commaList a ++ ',' :: commaList b := by
  induction a with
  | nil => exact absurd rfl ha
  | cons t a ih =>
    by_cases h : a = []
    · subst h; exact commaList_cons t hb
    · rw [List.cons_append, commaList_cons t (by simp [h]), ih h, commaList_cons t h]
      simp

/-- The two lists give the same text, wherever they stand. -/
def SameText (x y : List Str) : Prop := ∀ a c, commaList (a ++ (x ++ c)) = commaList (a ++ (y ++ c))

theorem sameText_refl (x : List Str) : SameText x x := fun _ _ => rfl

theorem sameText_append {x y x' y' : List Str} (h : SameText x y) (h' : SameText x' y') :
    SameText (x ++ x') (y ++ y') := by
  intro a c
  rw [List.append_assoc, h a (x' ++ c), ← List.append_assoc a, h' (a ++ y) c]
  simp

theorem sameText_of {x y : List Str} (hx : x ≠ []) (hy : y ≠ []) (h : commaList x = commaList y) : SameText x y := by
  have key : ∀ c, commaList (x ++ c) = commaList (y ++ c) := by
    intro c
    by_cases hc : c = []
    · subst hc; simpa using h
    · rw [commaList_append x hx hc, commaList_append y hy hc, h]
  intro a c
  by_cases ha : a = []
  · subst ha; exact key c
  · rw [commaList_append a ha (by simp [hx]), commaList_append a ha (by simp [hy]), key]

theorem commaList_ne {x : List Str} (hx : x ≠ []) (h : ∀ t ∈ x, t ≠ []) : commaList x ≠ [] := by
  cases x with
  | nil => exact absurd rfl hx
  | cons t x =>
    have := h t (by simp)
    by_cases hz : x = []
    · subst hz; exact this
    · rw [commaList_cons t hz]; simp

theorem sameText_opt {x : List Str} (h : ∀ t ∈ x, t ≠ []) : SameText (optTok (commaList x)) x := by
  by_cases hx : x = []
  · subst hx; exact sameText_refl _
  · have hn := commaList_ne hx h
    have : optTok (commaList x) = [commaList x] := by
      unfold optTok
      rw [if_neg (by simpa using hn)]
    rw [this]
    exact sameText_of (by simp) hx rfl

/-! ## Actions -/

theorem act2strGo_list (as : List (Bytes × Str)) (h : ∀ e ∈ as, ActTrip e.1 e.2) (fuel : Nat)
    (hf : (as.flatMap (·.1)).length < fuel) : act2strGo fuel (as.flatMap (·.1)) = .ok (as.map (·.2)) := by
  induction as generalizing fuel with
  | nil =>
    cases fuel with
    | zero => simp at hf
    | succ f => simp [act2strGo]
  | cons e as ih =>
    have he := h e (by simp)
    have h4 := he.long
    cases fuel with
    | zero => simp at hf
    | succ f =>
      simp only [List.flatMap_cons, List.length_append] at hf ⊢
      rw [act2strGo, if_neg (by simp only [List.length_append]; omega), he.prints, ok_bind, he.lenf, List.drop_left,
        ih (fun x hx => h x (by simp [hx])) f (by omega), ok_bind]
      rfl

theorem act2str_list (as : List (Bytes × Str)) (h : ∀ e ∈ as, ActTrip e.1 e.2) :
    act2str (as.flatMap (·.1)) = .ok (commaList (as.map (·.2))) := by
  unfold act2str
  rw [act2strGo_list as h _ (by omega), ok_bind, joinStr_commaList]

/-- A text that `str2act` reads wherever it stands is a word. -/
theorem isWord_act_of {b : Bytes} {text : Str} (ne : text ≠ []) (start : PlainStart text)
    (noat : text.head? ≠ some '@') (reads : ∀ r, AtEnd r → str2act (text ++ r) = .ok (b, text.length)) :
    IsWord oxmP actP (.act b) text := by
  refine ⟨ne, ?_⟩
  intro h r hh hr
  obtain ⟨c, t, rfl⟩ := List.exists_cons_of_ne_nil ne
  have hth : tokenHead (h ++ (c :: t ++ r)) = h :=
    tokenHead_of_head (Or.inl hh) (plainStart_cons (start c t rfl) _)
  rcases hg : getToken (h ++ (c :: t ++ r)) with ⟨h', name, u⟩
  have ht := (getToken_iff _ _ _ _).1 hg
  have hh' : h' = h := by
    have := getToken_fst (h ++ (c :: t ++ r))
    rw [hg, hth] at this
    exact this
  subst hh'
  have hnu : c :: t ++ r = name ++ u := by
    have := ht.1
    exact List.append_cancel_left this
  have hno : name.head? ≠ some '@' := by
    cases name with
    | nil => simp
    | cons d n =>
      simp only [List.cons_append, List.cons.injEq] at hnu
      rw [← hnu.1]
      exact noat
  refine ⟨name, u, ht, ?_⟩
  have hb := Body.act (oxm := oxmP) (act := actP) name u b (c :: t).length hno
    (by rw [← hnu]; exact reads r hr) (by simp)
  rwa [← hnu, List.drop_left] at hb

theorem isWord_act {b : Bytes} {text : Str} (h : ActTrip b text) : IsWord oxmP actP (.act b) text :=
  isWord_act_of h.ne h.start h.noat fun r hr => by
    have := h.reads [] r head_nil hr
    simpa using this

/-! ## Match items -/

theorem isWord_oxm (f : Field) (hf : f ∈ fields) (v : Str) (hv : Token v) (hvn : v ≠ []) (hp : PlainStart v)
    (b : Bytes) (h : str2oxm1 (f.name ++ '=' :: v) = .ok (b, (f.name ++ '=' :: v).length)) :
    IsWord oxmP actP (.oxm b) (f.name ++ '=' :: v) := by
  obtain ⟨n1, n2, _⟩ := field_name f hf
  have hmk : f.name ∉ matchKeys ∧ f.name.head? ≠ some '@' :=
    (by decide +kernel : ∀ f ∈ fields, f.name ∉ matchKeys ∧ f.name.head? ≠ some '@') f hf
  have key : ∀ r, AtEnd r → str2oxm1 (f.name ++ '=' :: (v ++ r)) = .ok (b, (f.name ++ '=' :: v).length) := by
    intro r hr
    have one : ∀ r, AtEnd r → str2oxmOne (f.name ++ '=' :: (v ++ r)) = (match lookupEnc f.name with
        | none => .error .keyError
        | some (key, k) => do
          let (bin, length) ← encText key k v
          .ok (bin, length, v, r)) := by
      intro r hr
      have h1 := getToken_plain n1.token (atEnd_eq (v ++ r)) n1.plainStart n2
      have h2 := getToken_eq hv hr hp hvn
      unfold str2oxmOne
      rw [h1]
      dsimp only
      rw [h2]
      dsimp only
      rw [show (!hasChar [] '=' && hasChar ['='] '=') = true from rfl, pyAssert_ok, ok_bind]
      rfl
    have go : ∀ r, AtEnd r → str2oxm1 (f.name ++ '=' :: (v ++ r)) = (match lookupEnc f.name with
        | none => .error .keyError
        | some (key, k) => do
          let (bin, length) ← encText key k v
          if length == 0 then .ok ([], (f.name ++ '=' :: v).length)
          else do
            pyAssert (length == v.length)
            .ok (bin, (f.name ++ '=' :: v).length)) := by
      intro r hr
      have hlen : (f.name ++ '=' :: (v ++ r)).length - r.length = (f.name ++ '=' :: v).length := by
        simp only [List.length_append, List.length_cons]; omega
      unfold str2oxm1 str2oxmL
      rw [str2oxmGo, if_neg (by simp), one r hr]
      cases lookupEnc f.name with
      | none => rfl
      | some x =>
        obtain ⟨key, k⟩ := x
        dsimp only
        cases encText key k v with
        | error e => rfl
        | ok y =>
          obtain ⟨bin, l⟩ := y
          rw [ok_bind, ok_bind, ok_bind]
          dsimp only
          by_cases hl : (l == 0) = true
          · rw [if_pos hl, if_pos hl, ok_bind, hlen]
          · rw [if_neg hl, if_neg hl]
            cases hb : (l == v.length) with
            | false => rfl
            | true =>
              rw [pyAssert_ok, ok_bind, ok_bind]
              simp only [Bool.false_eq_true, if_false, ok_bind, hlen]
    have h0 := go [] atEnd_nil
    rw [List.append_nil, h] at h0
    rw [go r hr, ← h0]
  refine ⟨by simp, ?_⟩
  intro h' r hh hr
  refine ⟨f.name, '=' :: (v ++ r), ?_, ?_⟩
  · have := tok_head (Or.inl hh) n1.token (atEnd_eq (v ++ r)) n1.plainStart n2
    simpa using this
  · have := Body.oxm (oxm := oxmP) (act := actP) f.name ('=' :: (v ++ r)) b (f.name ++ '=' :: v).length hmk.1 hmk.2
      (key r hr) (by simp)
    have e : f.name ++ '=' :: (v ++ r) = (f.name ++ '=' :: v) ++ r := by simp
    rwa [e, List.drop_left] at this

theorem isWord_tlv (t : Tlv) (hv : t.Valid) (hl : t.Lossless) : IsWord oxmP actP (.oxm t.wire) (tlvText t) := by
  obtain ⟨d, hd, hk, hdec, c1, c2, henc⟩ := tlvText_spec t hv hl
  exact isWord_oxm t.field hv.mem (tlvValue t) c1.token c2 c1.plainStart t.wire (str2oxm1_tlv t hv hl)

/-! ## Instructions -/

/-- The instruction prints as the texts. -/
structure InstPrints (i : Inst) (ts : List Str) : Prop where
  long : 4 < i.wire.length
  lenf : ∀ rest, uAt (i.wire ++ rest) 2 2 = i.wire.length
  prints : ∀ rest, ∃ toks, inst2strOne (i.wire ++ rest) = .ok toks ∧ SameText toks ts

theorem inst2strGo_list (l : List (Inst × List Str)) (h : ∀ e ∈ l, InstPrints e.1 e.2) (fuel : Nat)
    (hf : (l.flatMap (·.1.wire)).length < fuel) :
    ∃ toks, inst2strGo fuel (l.flatMap (·.1.wire)) = .ok toks ∧ SameText toks (l.flatMap (·.2)) := by
  induction l generalizing fuel with
  | nil =>
    cases fuel with
    | zero => simp at hf
    | succ f => exact ⟨[], by simp [inst2strGo], sameText_refl _⟩
  | cons e l ih =>
    have he := h e (by simp)
    have h4 := he.long
    cases fuel with
    | zero => simp at hf
    | succ f =>
      simp only [List.flatMap_cons, List.length_append] at hf ⊢
      obtain ⟨t1, e1, s1⟩ := he.prints (l.flatMap (·.1.wire))
      obtain ⟨t2, e2, s2⟩ := ih (fun x hx => h x (by simp [hx])) f (by omega)
      refine ⟨t1 ++ t2, ?_, sameText_append s1 s2⟩
      rw [inst2strGo, if_neg (by simp only [List.length_append]; omega), e1, ok_bind, he.lenf, List.drop_left, e2,
        ok_bind]

theorem inst2str_list (l : List (Inst × List Str)) (h : ∀ e ∈ l, InstPrints e.1 e.2) :
    inst2str (l.flatMap (·.1.wire)) = .ok (commaList (l.flatMap (·.2))) := by
  obtain ⟨toks, h1, h2⟩ := inst2strGo_list l h _ (Nat.lt_succ_self _)
  unfold inst2str
  rw [h1, ok_bind, joinStr_commaList]
  have := h2 [] []
  simp only [List.append_nil, List.nil_append] at this
  rw [this]

end Ofpstr
