import Verif.Spec.GroupExact
import Verif.Lemmas.StatExact
import Verif.Lemmas.GroupTrip
import Verif.Lemmas.RuleText

/-!
# Which buckets are read back
-/

set_option linter.unusedSimpArgs false

namespace Ofpstr
open Spec

/-! ## The first letter of an action -/

/-- What is printed does not start with a `w`. -/
def NoW (m : Py Str) : Prop := ∀ t, m = .ok t → t.head? ≠ some 'w'

theorem noW_bind {α : Type} {m : Py α} {f : α → Py Str} (h : ∀ a, NoW (f a)) : NoW (m >>= f) := by
  intro t ht
  obtain ⟨a, -, h2⟩ := bind_iff.1 ht
  exact h a t h2

theorem noW_error (e : Err) : NoW (.error e) := by intro t h; cases h

theorem noW_ok {t : Str} (h : t.head? ≠ some 'w') : NoW (.ok t) := by intro u hu; cases hu; exact h

theorem noW_cons {c : Char} {t : Str} (h : c ≠ 'w') : NoW (.ok (c :: t)) := noW_ok (by simpa using h)

theorem noW_name {n t : Str} (h : n ≠ [] ∧ n.head? ≠ some 'w') : NoW (.ok (n ++ t)) := noW_ok (by
  cases n with
  | nil => exact absurd rfl h.1
  | cons c n => exact h.2)

theorem noW_ite {p : Prop} [Decidable p] {a b : Py Str} (ha : NoW a) (hb : NoW b) : NoW (if p then a else b) := by
  split <;> assumption

macro "nw" : tactic => `(tactic| repeat' (first | exact noW_error _ | exact noW_cons (by decide) | assumption | (refine noW_bind ?_; intro _) | refine noW_ite ?_ ?_ | split | dsimp only))

/-- The name in a decoder. -/
def ActDec.name? : ActDec → Option Str
  | .generic n => some n
  | .uint n _ _ => some n
  | .push n => some n
  | .setTunnel n _ => some n
  | .null n => some n
  | _ => none

theorem runActDec_noW (d : ActDec) (hd : ∀ n, d.name? = some n → n ≠ [] ∧ n.head? ≠ some 'w') (p : Bytes) : NoW (runActDec d p) := by
  cases d <;> unfold runActDec
  case generic n => unfold genericAct2str; exact noW_bind fun _ => noW_ok (hd n rfl).2
  case uint n _ _ => unfold uintAct2str; have h := hd n rfl; nw; all_goals exact noW_name h
  case push n => unfold pushAct2str; have h := hd n rfl; nw; all_goals exact noW_name h
  case setTunnel n _ => unfold setTunnelAct2str; have h := hd n rfl; nw; all_goals exact noW_name h
  case null n => exact noW_ok (hd n rfl).2
  case output => unfold outputAct2str; nw
  case cntIds => unfold cntIdsAct2str; nw
  case regLoad =>
    unfold regLoadAct2str
    refine noW_bind fun _ => noW_bind fun _ => noW_bind fun _ => noW_bind fun _ => ?_
    exact noW_ite (noW_bind fun _ => noW_cons (by decide)) (noW_bind fun _ => noW_bind fun _ => noW_cons (by decide))
  case regLoad2 => unfold regLoad2Act2str; nw
  case regMove => unfold regMoveAct2str; nw
  case resubmit => unfold resubmitAct2str; nw
  case resubmitTable => unfold resubmitTableAct2str; nw
  case note => unfold qpAct2str; nw
  case multipath => unfold multipathAct2str; nw
  case bundle => unfold bundleAct2str; nw
  case bundleLoad => unfold bundleLoadAct2str; nw
  case outputReg => unfold outputRegAct2str; nw
  case outputReg2 => unfold outputReg2Act2str; nw
  case learn => unfold learnAct2str; nw

theorem act2strTable_noW : ∀ e ∈ act2strTable, ∀ n, e.2.name? = some n → n ≠ [] ∧ n.head? ≠ some 'w' := by
  have : ∀ e ∈ act2strTable, ((e.2.name?).all fun n => decide (n ≠ [] ∧ n.head? ≠ some 'w')) = true := by decide +kernel
  intro e he n hn
  have := this e he
  rw [hn] at this
  simpa using this

theorem act2strOne_noW (msg : Bytes) : NoW (act2strOne msg) := by
  unfold act2strOne
  dsimp only
  refine noW_bind fun x => ?_
  obtain ⟨key, offset⟩ := x
  dsimp only
  refine noW_ite (noW_bind fun s => noW_cons (by decide)) ?_
  unfold lookupActDec
  cases hf : act2strTable.find? (fun e => e.1 == key) with
  | none => exact noW_cons (by decide)
  | some e => exact runActDec_noW e.2 (act2strTable_noW e (List.mem_of_find?_eq_some hf)) _

/-- The first word of an action is no key of a bucket. -/
theorem act_nokey {t r name u : Str} (ne : t ≠ []) (hw : t.head? ≠ some 'w') (hnu : t ++ r = name ++ u) : name ∉ bucketKeys := by
  intro hm
  have hk : ∀ n ∈ bucketKeys, n.head? = some 'w' := by decide
  have h1 := hk _ hm
  cases name with
  | nil => cases h1
  | cons c name =>
    cases t with
    | nil => exact absurd rfl ne
    | cons d t =>
      simp only [List.cons_append, List.cons.injEq] at hnu
      rw [hnu.1] at hw
      exact hw h1

/-! ## Separators before an action -/

theorem str2act_shift {h s name arg : Str} (h1 : getToken (h ++ s) = (h, name, arg)) (h2 : getToken s = ([], name, arg)) (b : Bytes) (l : Nat)
    (hs : str2act (h ++ s) = .ok (b, l)) : ∃ l', str2act s = .ok (b, l') ∧ l = h.length + l' := by
  unfold str2act at hs ⊢
  rw [h1] at hs
  rw [h2]
  dsimp only at hs ⊢
  rcases hp : parseFunc name with e | ⟨fname, farg⟩
  · rw [hp] at hs; cases hs
  rw [hp, ok_bind] at hs
  rw [ok_bind]
  dsimp only at hs ⊢
  generalize (match farg with | some (c :: cs) => some (c :: cs) | _ => none : Option Str) = fa at hs ⊢
  simp only [List.length_nil, Nat.zero_add]
  split at hs
  · obtain ⟨⟨c, p⟩, h3, hs⟩ := bind_iff.1 hs
    cases hs
    rw [h3]
    exact ⟨_, rfl, rfl⟩
  · split at hs
    · obtain ⟨⟨c, p⟩, h3, hs⟩ := bind_iff.1 hs
      cases hs
      rw [h3]
      exact ⟨_, rfl, by omega⟩
    · split at hs
      · rw [if_pos (by assumption)]
        split at hs
        · obtain ⟨⟨c, p⟩, h3, hs⟩ := bind_iff.1 hs
          obtain ⟨b', h4, hs⟩ := bind_iff.1 hs
          cases hs
          rw [h3, ok_bind, h4]
          exact ⟨_, rfl, rfl⟩
        · obtain ⟨⟨c, p⟩, h3, hs⟩ := bind_iff.1 hs
          obtain ⟨b', h4, hs⟩ := bind_iff.1 hs
          cases hs
          rw [h3, ok_bind, h4]
          exact ⟨_, rfl, by omega⟩
      · rw [if_neg (by assumption)]
        cases hs
        exact ⟨_, rfl, rfl⟩

/-! ## Words of a bucket -/

theorem bucketText_inv {ws : List BWord} {s u : Str} (h : BucketText actP ws s u) :
    (ws = [] ∧ u = s ∧ NoB actP s) ∨ ∃ w r ws', ws = w :: ws' ∧ s ≠ [] ∧ ReadsB actP s w r ∧ BucketText actP ws' r u := by
  cases h with
  | nil _ h => exact Or.inl ⟨rfl, rfl, h⟩
  | cons _ w r ws' _ h1 h2 h3 => exact Or.inr ⟨w, r, ws', rfl, h1, h2, h3⟩

theorem getToken_skip {h s : Str} (hh : Head h) (hs : PlainStart s) :
    ∃ name q, getToken (h ++ s) = (h, name, q) ∧ getToken s = ([], name, q) := by
  have h1 := tokenHead_of_head hh hs
  have h2 := tokenHead_plain hs
  refine ⟨(getToken s).2.1, (getToken s).2.2, ?_, ?_⟩
  · simp only [getToken, h1, h2, List.drop_left, List.length_nil, List.drop_zero, Nat.zero_add]
    rw [← List.drop_drop, List.drop_left]
  · have := getToken_fst s
    rw [h2] at this
    rw [← this]

/-- What is read at the text of an action: the action, or nothing. -/
theorem act_peelB (a : Act) (hv : a.Valid) {t : Str} (hpr : ∀ rest, act2strOne (a.wire ++ rest) = .ok t)
    {h r : Str} (hh : h = [] ∨ h = [',']) (hr : r = [] ∨ ∃ r', r = ',' :: r') {ws : List BWord} {u : Str}
    (hrd : BucketText actP ws (h ++ (t ++ r)) u) :
    (∃ b ws' u', ws = .act b :: ws' ∧ ActGood b ∧ BucketText actP ws' u' u ∧
      (b = a.wire → a.Survives (r = []) ∧ u' = r)) ∨
    (actsOf ws = [] ∧ (ws = [] ∨ ws = [.act []]) ∧ ∃ hd name q, NoB actP u ∧ u ≠ [] ∧ Tok u hd name q ∧ name ≠ [] ∧ name ≠ t!"@bucket") := by
  have hb := act_back a hv
  rcases hb.back with ⟨e, -, he, -⟩ | ⟨text, hpt, hne, hst, hbr⟩
  · have := hpr []
    rw [he] at this
    cases this
  have ht : text = t := by
    have := hpt []
    rw [hpr] at this
    exact (Except.ok.inj this).symm
  subst ht
  have hw : text.head? ≠ some 'w' := act2strOne_noW _ _ (hpr [])
  have hps : PlainStart (text ++ r) := plainStart_append hst.1 hne
  obtain ⟨name, v, hg1, hg2⟩ := getToken_skip (head_of hh) hps
  have htok := (getToken_iff _ _ _ _).1 hg1
  have htok' := (getToken_iff _ _ _ _).1 hg2
  have hnu : text ++ r = name ++ v := by simpa using htok'.1
  have hkey := act_nokey hne hw hnu
  have hne' : ∀ h, h ++ (text ++ r) ≠ [] := by intro h; simp [hne]
  have hn1 : name ≠ [] := by
    rintro rfl
    have := tok_progress (by simpa using hne' []) htok'
    rw [hnu] at this
    simp at this
  have hn2 : name ≠ t!"@bucket" := by
    rintro rfl
    cases text with
    | nil => exact hne rfl
    | cons c text =>
      simp only [List.cons_append, List.cons.injEq] at hnu
      exact hst.2 (by rw [hnu.1]; rfl)
  rcases bucketText_inv hrd with ⟨rfl, rfl, hno⟩ | ⟨w, r', ws', rfl, -, hrb, hrest⟩
  · exact Or.inr ⟨rfl, Or.inl rfl, h, name, v, hno, hne' h, htok, hn1, hn2⟩
  · have nokey : ∀ {hd k t'}, k ∈ bucketKeys → Tok (h ++ (text ++ r)) hd k t' → False := by
      intro hd k t' hk hT
      rw [← (tok_det htok hT).2.1] at hk
      exact hkey hk
    cases hrb with
    | weight _ _ _ _ _ _ h1 => exact (nokey (by decide) h1).elim
    | port _ _ _ _ _ _ h1 => exact (nokey (by decide) h1).elim
    | group _ _ _ _ _ _ h1 => exact (nokey (by decide) h1).elim
    | act hd nm t' b l h1 h2 h3 h4 h5 h6 =>
      have h5' : str2act (h ++ (text ++ r)) = .ok (b, l) := h5
      obtain ⟨l', h7, h8⟩ := str2act_shift hg1 hg2 b l h5'
      by_cases hl : l' = 0
      · right
        subst hl
        have hb0 : b = [] := by
          rcases str2act_good _ _ _ h7 with h0 | h0
          · exact h0
          · exfalso
            obtain ⟨h1', tok, r1, fname, farg, hgt, hpf, hcs⟩ := str2act_cases _ _ _ h7
            rw [hg2] at hgt
            cases hgt
            have hlen : name.length ≠ 0 := by simpa using hn1
            rcases hcs with ⟨kk, uu, ra, p, hk, ⟨_, _, _, _, _, _, hc⟩ | ⟨_, _, _, hc⟩⟩ |
              ⟨_, _, _, _, _, _, _, ⟨_, _, _, _, _, hc⟩ | ⟨_, _, hc⟩⟩ | ⟨hc, _⟩
            · omega
            · omega
            · omega
            · omega
            · exact (actGood_lenf h0 []).2 hc
        subst hb0
        have hu : (h ++ (text ++ r)).drop l = text ++ r := by rw [h8, Nat.add_zero, List.drop_left]
        rw [hu] at hrest
        have hno : NoB actP (text ++ r) := Or.inr ⟨[], name, v, htok', by simp, Or.inr ⟨hkey, [], h7⟩⟩
        obtain ⟨rfl, rfl⟩ := bucketText_det hrest (.nil _ hno)
        exact ⟨rfl, Or.inr rfl, [], name, v, hno, by simpa using hne' [], htok', hn1, hn2⟩
      · left
        have hgood := act_good_of hne hst h7 hl
        refine ⟨b, ws', _, rfl, hgood, hrest, ?_⟩
        rintro rfl
        have hsv := (hbr h r hh hr).2 l h5'
        refine ⟨hsv, ?_⟩
        have h9 := (hbr h r hh hr).1 hsv
        rw [h5'] at h9
        cases h9
        rw [← List.append_assoc, ← List.length_append, List.drop_left]

/-- The actions of a bucket. -/
theorem acts_peelB (as : List Act) (hv : ∀ a ∈ as, a.Valid) {ts : List Str} (hts : ActTexts as ts) {l : List Str} {s : Str}
    (hs : RestOf s (ts ++ l)) {ws : List BWord} {u : Str} (hrd : BucketText actP ws s u)
    {x : Bytes} (ho : actsOf ws = as.flatMap Act.wire ++ x) :
    ListSurvive (fun a q => Act.Survives q a) (l = []) as ∧ ∃ ws' s', ws = as.map (fun a => .act a.wire) ++ ws' ∧ RestOf s' l ∧
      BucketText actP ws' s' u := by
  induction hts generalizing s ws with
  | nil => exact ⟨listSurvive_nil _ _, ws, s, rfl, hs, hrd⟩
  | @cons a t as ts hpr hrs ih =>
    obtain ⟨h, r, hh, hr, rfl, hrn, hrest⟩ := rest_cons hs
    rw [List.flatMap_cons, List.append_assoc] at ho
    have hb := act_back a (hv a (by simp))
    have hte : ts = [] ↔ as = [] := by
      cases hrs <;> simp
    have hcond : (r = []) = (as = [] ∧ l = []) := by
      rw [propext hrn]
      show (ts ++ l = []) = _
      rw [List.append_eq_nil_iff, propext hte]
    rcases act_peelB a (hv a (by simp)) hpr hh hr hrd with ⟨b, ws', u', rfl, hg, h2, h3⟩ | ⟨h0, -⟩
    · have e : actsOf (.act b :: ws') = b ++ actsOf ws' := by simp [actsOf, BWord.actBytes]
      rw [e] at ho
      have hsame := act_same (actGood_lenf hg (actsOf ws')).1 (hb.lenf _) ho
      obtain ⟨h4, rfl⟩ := h3 hsame
      subst hsame
      have ho' := List.append_cancel_left ho
      obtain ⟨g1, ws2, s2, rfl, g2, g3⟩ := ih (fun x hx => hv x (by simp [hx])) hrest h2 ho'
      refine ⟨listSurvive_cons.2 ⟨?_, g1⟩, ws2, s2, rfl, g2, g3⟩
      rw [← hcond]
      exact h4
    · rw [h0] at ho
      have := congrArg List.length ho
      have := hb.long
      simp only [List.length_nil, List.length_append] at *
      omega

/-- The actions that survive are read. -/
theorem acts_readsB (as : List Act) (hv : ∀ a ∈ as, a.Valid) {ts : List Str} (hts : ActTexts as ts) {l : List Str}
    (hsv : ListSurvive (fun a q => Act.Survives q a) (l = []) as) {s : Str} (hs : RestOf s (ts ++ l)) :
    ∃ s', RestOf s' l ∧ ∀ ws u, BucketText actP ws s' u → BucketText actP ((as.map fun a => .act a.wire) ++ ws) s u := by
  induction hts generalizing s with
  | nil => exact ⟨s, hs, fun _ _ h => h⟩
  | @cons a t as ts hpr hrs ih =>
    obtain ⟨h, r, hh, hr, rfl, hrn, hrest⟩ := rest_cons hs
    obtain ⟨h1, h2⟩ := listSurvive_cons.1 hsv
    obtain ⟨s', h3, h4⟩ := ih (fun x hx => hv x (by simp [hx])) h2 hrest
    have hte : ts = [] ↔ as = [] := by
      cases hrs <;> simp
    have hcond : (r = []) = (as = [] ∧ l = []) := by
      rw [propext hrn]
      show (ts ++ l = []) = _
      rw [List.append_eq_nil_iff, propext hte]
    rw [← hcond] at h1
    refine ⟨s', h3, fun ws u hw => ?_⟩
    have hb := act_back a (hv a (by simp))
    rcases hb.back with ⟨e, -, he, -⟩ | ⟨text, hpt, hne, hst, hbr⟩
    · have := hpr []
      rw [he] at this
      cases this
    have ht : text = t := by
      have := hpt []
      rw [hpr] at this
      exact (Except.ok.inj this).symm
    subst ht
    have hw' : text.head? ≠ some 'w' := act2strOne_noW _ _ (hpr [])
    obtain ⟨name, v, htok, hnu, hat⟩ := act_tok (r := r) hne hst hh
    have h5 := (hbr h r hh hr).1 h1
    have := ReadsB.act (act := actP) _ h name v a.wire _ htok (noeq_of hh) hat (act_nokey hne hw' hnu) h5 (by simp [hne])
    rw [← List.append_assoc, ← List.length_append, List.drop_left, List.append_assoc] at this
    exact .cons _ _ r _ u (by simp [hne]) this (h4 ws u hw)

/-! ## Numbers -/

/-- The numbers that `bucket2str` prints. -/
def bNums (type : Nat) (b : Bucket) : List (BWord × Str) :=
  (if type = 1 ∧ b.weight ≠ 1 then [(BWord.weight b.weight, t!"weight=" ++ fmtD b.weight)] else []) ++
  ((if b.port ≠ 0xffffffff then [(BWord.port b.port, t!"watch_port=" ++ fmtD b.port)] else []) ++
  (if b.group ≠ 0xffffffff then [(BWord.group b.group, t!"watch_group=" ++ fmtD b.group)] else []))

theorem bNums_isB (type : Nat) (b : Bucket) : ∀ e ∈ bNums type b, IsB actP e.1 e.2 ∧ e.1.actBytes = [] := by
  intro e he
  simp only [bNums, List.mem_append] at he
  rcases he with he | he | he <;> split at he
  · rw [List.mem_singleton] at he; subst he
    exact ⟨isB_num (.weight _ _ (intSyntax_fmtD _)), rfl⟩
  · cases he
  · rw [List.mem_singleton] at he; subst he
    exact ⟨isB_num (.port _ _ (intSyntax_fmtD _)), rfl⟩
  · cases he
  · rw [List.mem_singleton] at he; subst he
    exact ⟨isB_num (.group _ _ (intSyntax_fmtD _)), rfl⟩
  · cases he

theorem nums_peelB (ks : List (BWord × Str)) (hk : ∀ e ∈ ks, IsB actP e.1 e.2) {l : List Str} {s : Str}
    (hs : RestOf s (ks.map (·.2) ++ l)) {ws : List BWord} {u : Str} (hrd : BucketText actP ws s u) :
    ∃ ws' s', ws = ks.map (·.1) ++ ws' ∧ RestOf s' l ∧ BucketText actP ws' s' u := by
  induction ks generalizing s ws with
  | nil => exact ⟨ws, s, rfl, hs, hrd⟩
  | cons e ks ih =>
    obtain ⟨h, r, hh, hr, rfl, -, hrest⟩ := rest_cons hs
    obtain ⟨hn, hw⟩ := hk e (by simp)
    have h1 := hw h r (seps_of hh) (atEnd_of hr)
    rcases bucketText_inv hrd with ⟨rfl, rfl, hno⟩ | ⟨w, r', ws', rfl, hne, hrb, hrs⟩
    · exact (noB_readsB (by simp [hn]) hno h1).elim
    · obtain ⟨rfl, rfl⟩ := readsB_det h1 hrb
      obtain ⟨ws2, s2, rfl, g2, g3⟩ := ih (fun x hx => hk x (by simp [hx])) hrest hrs
      exact ⟨ws2, s2, rfl, g2, g3⟩

theorem nums_readsB (ks : List (BWord × Str)) (hk : ∀ e ∈ ks, IsB actP e.1 e.2) {l : List Str} {s : Str}
    (hs : RestOf s (ks.map (·.2) ++ l)) :
    ∃ s', RestOf s' l ∧ ∀ ws u, BucketText actP ws s' u → BucketText actP (ks.map (·.1) ++ ws) s u := by
  induction ks generalizing s with
  | nil => exact ⟨s, hs, fun _ _ h => h⟩
  | cons e ks ih =>
    obtain ⟨h, r, hh, hr, rfl, -, hrest⟩ := rest_cons hs
    obtain ⟨hn, hw⟩ := hk e (by simp)
    obtain ⟨s', h3, h4⟩ := ih (fun x hx => hk x (by simp [hx])) hrest
    exact ⟨s', h3, fun ws u hb => .cons _ _ r _ u (by simp [hn]) (hw h r (seps_of hh) (atEnd_of hr)) (h4 ws u hb)⟩

/-- The words of a bucket that is read back. -/
def wordsB (type : Nat) (b : Bucket) : List BWord := (bNums type b).map (·.1) ++ b.acts.map fun a => .act a.wire

theorem wordsB_eq (type : Nat) (b : Bucket) : wordsB type b = (bItems type b).map (·.1) := by
  unfold wordsB bNums bItems
  simp [Function.comp_def]

theorem wordsB_numbers (type : Nat) (b : Bucket) : weightOf type (wordsB type b) = (if type = 1 then (b.weight : Int) else 0) ∧
    portOf (wordsB type b) = b.port ∧ groupOf (wordsB type b) = b.group ∧ actsOf (wordsB type b) = b.acts.flatMap Act.wire := by
  rw [wordsB_eq]
  refine ⟨?_, bItems_port type b, bItems_group type b, bItems_acts type b⟩
  by_cases h : type = 1
  · rw [if_pos h]
    exact bItems_weight type b (fun h' => absurd h h')
  · rw [if_neg h, bItems_words]
    unfold weightOf lastB defaultWeight
    simp only [List.filterMap_append, filterMap_acts BWord.weightArg (fun _ => rfl)]
    by_cases h3 : b.port = 0xffffffff <;>
      by_cases h4 : b.group = 0xffffffff <;> simp [h, h3, h4, BWord.weightArg, List.filterMap_cons]

theorem bucketWire_inj {w p g w' p' g' : Nat} {a a' : Bytes} (hw : w < 256 ^ 2) (hp : p < 256 ^ 4) (hg : g < 256 ^ 4)
    (ha : 16 + a.length < 65536) (hw' : w' < 256 ^ 2) (hp' : p' < 256 ^ 4) (hg' : g' < 256 ^ 4) (ha' : 16 + a'.length < 65536)
    (h : bucketWire w p g a = bucketWire w' p' g' a') : w = w' ∧ p = p' ∧ g = g' ∧ a = a' := by
  obtain ⟨n1, n2, n3, n4⟩ := bucketWire_nums w p g a [] hw hp hg ha
  obtain ⟨m1, m2, m3, m4⟩ := bucketWire_nums w' p' g' a' [] hw' hp' hg' ha'
  rw [← h] at m1 m2 m3 m4
  have e1 := bucketWire_slice w p g a
  have e2 := bucketWire_slice w' p' g' a'
  rw [← h, ← m1, n1, e1] at e2
  exact ⟨n2.symm.trans m2, n3.symm.trans m3, n4.symm.trans m4, e2⟩

theorem fitsIn_lt {k : Nat} {n : Int} (h : FitsIn k n) : n.toNat < 256 ^ k ∧ (n.toNat : Int) = n := by
  unfold FitsIn at h
  omega

/-- What equal bytes say of the words. -/
theorem bucketOf_same {type : Nat} {ws : List BWord} {b : Bucket} (hv : b.Valid) (hf : BucketFits type ws) (h : bucketOf type ws = b.wire) :
    weightOf type ws = b.weight ∧ portOf ws = b.port ∧ groupOf ws = b.group ∧ actsOf ws = b.acts.flatMap Act.wire := by
  obtain ⟨f1, f2, f3, f4⟩ := hf
  obtain ⟨v1, v2, v3, -, -, v6⟩ := hv
  have hlen := bucketWire_length b.weight b.port b.group (b.acts.flatMap Act.wire)
  unfold bucketOf Bucket.wire at h
  unfold Bucket.wire at v6
  obtain ⟨a1, a2⟩ := fitsIn_lt f2
  obtain ⟨b1, b2⟩ := fitsIn_lt f3
  obtain ⟨c1, c2⟩ := fitsIn_lt f4
  obtain ⟨h1, h2, h3, h4⟩ := bucketWire_inj a1 b1 c1 f1 v1 v2 v3 (by omega) h
  exact ⟨by rw [← a2, h1], by rw [← b2, h2], by rw [← c2, h3], h4⟩

/-! ## Pieces of the text -/

/-- The items of a bucket. -/
def bTexts (type : Nat) (e : Bucket × List Str) : List Str := (bNums type e.1).map (·.2) ++ e.2

/-- What is printed of a bucket, between commas. -/
def pieces (type : Nat) (e : Bucket × List Str) : List Str :=
  t!"@bucket" :: if bTexts type e = [] then [[]] else bTexts type e

theorem actTexts_nil {as : List Act} {ts : List Str} (h : ActTexts as ts) : ts = [] ↔ as = [] := by
  cases h <;> simp

theorem bTexts_nil {type : Nat} {e : Bucket × List Str} (h : ActTexts e.1.acts e.2) : bTexts type e = [] ↔ e.1.Blank type := by
  obtain ⟨b, ts⟩ := e
  have hte : ts = [] ↔ b.acts = [] := actTexts_nil h
  rw [← bItems_nil]
  unfold bTexts bItems bNums
  simp [hte]

/-- The ways to read buckets: those of group-mods and those of group descriptions. -/
structure BRel (R : List (List BWord) → Str → Prop) : Prop where
  nil : R [] []
  mark : ∀ bss s h r, (∀ c ∈ h, Space c ∨ c = ',') → Tok s h t!"@bucket" r → R bss r → R bss s
  bucket : ∀ ws bss s u, ws ≠ [] → BucketText actP ws s u → R bss u → R (ws :: bss) s
  end_inv : ∀ bss, R bss [] → bss = []
  inv : ∀ bss s h name r, s ≠ [] → Tok s h name r → R bss s →
    (name = t!"@bucket" ∧ R bss r) ∨ (∃ ws u bs, ws ≠ [] ∧ bss = ws :: bs ∧ BucketText actP ws s u ∧ R bs u) ∨
    (name ≠ t!"@bucket" ∧ NoB actP s ∧ (name = [] ∨ bss = []))

theorem mark_inv {R : List (List BWord) → Str → Prop} (hR : BRel R) {h r : Str} (hh : ∀ c ∈ h, Space c ∨ c = ',') (hr : AtEnd r)
    {bss : List (List BWord)} (hb : R bss (h ++ (t!"@bucket" ++ r))) : R bss r := by
  have ht := mark_tok hh hr
  rcases hR.inv _ _ _ _ _ (by simp) ht hb with ⟨-, h1⟩ | ⟨ws, u, bs, h1, -, h2, -⟩ | ⟨h1, -⟩
  · exact h1
  · have hno : NoB actP (h ++ (t!"@bucket" ++ r)) := Or.inr ⟨h, _, r, ht, noeq_of_seps hh, Or.inl (by decide)⟩
    exact absurd (bucketText_det h2 (.nil _ hno)).1 h1
  · exact absurd rfl h1

theorem comma_word : BucketText actP [.act []] [','] [] := by
  have ht : Tok [','] [','] [] [] := (getToken_iff _ _ _ _).1 (by decide)
  exact .cons _ _ [] _ _ (by simp) (ReadsB.act (act := actP) [','] [','] [] [] [] 1 ht (by decide) (by decide) (by decide)
    (show str2act [','] = .ok ([], 1) by decide +kernel) (by decide)) (.nil [] (Or.inl rfl))

theorem comma_end {R : List (List BWord) → Str → Prop} (hR : BRel R) {bss : List (List BWord)} (hb : R bss [',']) : bss = [[.act []]] := by
  have ht : Tok [','] [','] [] [] := (getToken_iff _ _ _ _).1 (by decide)
  rcases hR.inv _ _ _ _ _ (by simp) ht hb with ⟨h1, -⟩ | ⟨ws, u, bs, h1, rfl, h2, h3⟩ | ⟨-, hno, -⟩
  · cases h1
  · obtain ⟨rfl, rfl⟩ := bucketText_det h2 comma_word
    rw [hR.end_inv _ h3]
  · rcases bucketText_inv comma_word with ⟨h, -⟩ | ⟨w, r, ws', -, h1, h2, -⟩
    · cases h
    · exact (noB_readsB h1 hno h2).elim

theorem item_tok {t : Str} (ne : t ≠ []) (hst : ActStart t) {h r : Str} (hh : h = [] ∨ h = [',']) :
    ∃ name q, Tok (h ++ (t ++ r)) h name q ∧ name ≠ [] ∧ name ≠ t!"@bucket" := by
  have hps : PlainStart (t ++ r) := plainStart_append hst.1 ne
  obtain ⟨name, v, hg1, hg2⟩ := getToken_skip (head_of hh) hps
  have htok' := (getToken_iff _ _ _ _).1 hg2
  have hnu : t ++ r = name ++ v := by simpa using htok'.1
  refine ⟨name, v, (getToken_iff _ _ _ _).1 hg1, ?_, ?_⟩
  · rintro rfl
    have := tok_progress (by simp [ne]) htok'
    rw [hnu] at this
    simp at this
  · rintro rfl
    cases t with
    | nil => exact ne rfl
    | cons c t =>
      simp only [List.cons_append, List.cons.injEq] at hnu
      exact hst.2 (by rw [hnu.1]; rfl)

theorem items_start {type : Nat} {b : Bucket} {ts : List Str} (hv : b.Valid) (h : ActTexts b.acts ts) :
    ∀ t ∈ bTexts type (b, ts), t ≠ [] ∧ ActStart t := by
  intro t ht
  rcases List.mem_append.1 ht with ht | ht
  · obtain ⟨e, he, rfl⟩ := List.mem_map.1 ht
    simp only [bNums, List.mem_append] at he
    rcases he with he | he | he <;> split at he
    · rw [List.mem_singleton] at he; subst he
      exact ⟨by simp, actStart_append (s := t!"weight") (t := '=' :: _) (by decide) (by decide) (by decide)⟩
    · cases he
    · rw [List.mem_singleton] at he; subst he
      exact ⟨by simp, actStart_append (s := t!"watch_port") (t := '=' :: _) (by decide) (by decide) (by decide)⟩
    · cases he
    · rw [List.mem_singleton] at he; subst he
      exact ⟨by simp, actStart_append (s := t!"watch_group") (t := '=' :: _) (by decide) (by decide) (by decide)⟩
    · cases he
  · obtain ⟨a, ha, hpr⟩ := forall₂_mem_right h t ht
    rcases (act_back a (hv.2.2.2.1 a ha)).back with ⟨e, -, he, -⟩ | ⟨text, hpt, hne, hst, -⟩
    · have := hpr []
      rw [he] at this
      cases this
    · have : text = t := by
        have := hpt []
        rw [hpr] at this
        exact (Except.ok.inj this).symm
      subst this
      exact ⟨hne, hst⟩

/-- All that is printed. -/
def allPieces (type : Nat) (L : List (Bucket × List Str)) : List Str := L.flatMap (pieces type)

/-- After the items of a bucket nothing more is read of it. -/
theorem end_peel {type : Nat} {L : List (Bucket × List Str)} {s u : Str} (hs : RestOf s (allPieces type L)) {ws : List BWord}
    (hbt : BucketText actP ws s u) : ws = [] ∧ u = s := by
  have hno : NoB actP s := by
    cases L with
    | nil => exact Or.inl (rest_nil hs)
    | cons e L =>
      obtain ⟨h, r, hh, hr, rfl, -⟩ := rest_cons (t := t!"@bucket") (l := _) hs
      exact Or.inr ⟨h, _, r, mark_tok (seps_of hh) (atEnd_of hr), noeq_of hh, Or.inl (by decide)⟩
  exact bucketText_det hbt (.nil _ hno)

theorem pieces_split {type : Nat} {e : Bucket × List Str} {L : List (Bucket × List Str)} {s : Str} (hs : RestOf s (allPieces type (e :: L))) :
    ∃ h r, (h = [] ∨ h = [',']) ∧ AtEnd r ∧ s = h ++ (t!"@bucket" ++ r) ∧ r ≠ [] ∧
      RestOf r ((if bTexts type e = [] then [[]] else bTexts type e) ++ allPieces type L) := by
  obtain ⟨h, r, hh, hr, rfl, hn, h3⟩ := rest_cons (t := t!"@bucket") (l := _) hs
  refine ⟨h, r, hh, atEnd_of hr, rfl, fun h0 => ?_, h3⟩
  have := hn.1 h0
  split at this
  · cases this
  · rename_i hne
    exact hne (List.append_eq_nil_iff.1 this).1

/-- After a blank bucket. -/
theorem blank_split {l : List Str} {r : Str} (h : RestOf r ([[]] ++ l)) (hr : r ≠ []) :
    (l = [] ∧ r = [',']) ∨ (l ≠ [] ∧ ∃ g s, (∀ c ∈ g, Space c ∨ c = ',') ∧ r = g ++ s ∧ RestOf s l) := by
  obtain ⟨g, r', hg, -, rfl, hn, h3⟩ := rest_cons (t := []) (l := l) h
  by_cases hl : l = []
  · left
    refine ⟨hl, ?_⟩
    have := hn.2 hl
    subst this
    rcases hg with rfl | rfl
    · exact absurd rfl hr
    · rfl
  · right
    exact ⟨hl, g, r', seps_of hg, rfl, h3⟩

theorem rest_ne {s : Str} {l : List Str} (h : RestOf s l) (hl : ∃ t ∈ l, t ≠ []) : s ≠ [] := by
  obtain ⟨g, -, rfl, -⟩ := h
  obtain ⟨t, ht, hn⟩ := hl
  intro h0
  have h1 := (List.append_eq_nil_iff.1 h0).2
  obtain ⟨a, b, rfl⟩ := List.append_of_mem ht
  by_cases ha : a = []
  · subst ha
    cases b with
    | nil => simp [commaList] at h1; exact hn h1
    | cons c b => rw [List.nil_append, commaList_cons _ (by simp)] at h1; simp at h1
  · rw [commaList_append _ ha (by simp)] at h1
    simp at h1

theorem head_seps {g h : Str} (hg : ∀ c ∈ g, Space c ∨ c = ',') (hh : h = [] ∨ h = [',']) : ∀ c ∈ g ++ h, Space c ∨ c = ',' := by
  intro c hc
  rcases List.mem_append.1 hc with hc | hc
  · exact hg c hc
  · exact seps_of hh c hc

/-- A bucket that is not blank, and the words read there. -/
theorem full_words {R : List (List BWord) → Str → Prop} (hR : BRel R) {type : Nat} {b : Bucket} {ts : List Str} (hv : b.Valid)
    (hts : ActTexts b.acts ts) (hn : bTexts type (b, ts) ≠ []) {l : List Str} {r : Str} (hr : RestOf r (bTexts type (b, ts) ++ l))
    {ws : List BWord} {bss : List (List BWord)} (hb : R (ws :: bss) r) :
    ∃ u ws' s', R bss u ∧ ws = (bNums type b).map (·.1) ++ ws' ∧ RestOf s' (ts ++ l) ∧ BucketText actP ws' s' u := by
  obtain ⟨t, l', hl⟩ := List.exists_cons_of_ne_nil hn
  have hst := items_start hv hts t (by rw [hl]; simp)
  have htok : ∃ h name q, Tok r h name q ∧ name ≠ [] ∧ name ≠ t!"@bucket" := by
    rw [hl] at hr
    obtain ⟨h, r', hh, -, rfl, -⟩ := rest_cons (t := t) hr
    obtain ⟨name, q, h1, h2, h3⟩ := item_tok (r := r') hst.1 hst.2 hh
    exact ⟨h, name, q, h1, h2, h3⟩
  obtain ⟨h, name, q, h1, h2, h3⟩ := htok
  have hrn : r ≠ [] := rest_ne hr ⟨t, by rw [hl]; simp, hst.1⟩
  rcases hR.inv _ _ _ _ _ hrn h1 hb with ⟨h4, -⟩ | ⟨ws0, u, bs, h4, h5, h6, h7⟩ | ⟨-, -, h4 | h4⟩
  · exact absurd h4 h3
  · simp only [List.cons.injEq] at h5
    obtain ⟨rfl, rfl⟩ := h5
    rw [bTexts, List.append_assoc] at hr
    obtain ⟨ws', s', g1, g2, g3⟩ := nums_peelB (bNums type b) (fun e he => (bNums_isB type b e he).1) hr h6
    exact ⟨u, ws', s', h7, g1, g2, g3⟩
  · exact absurd h4 h2
  · cases h4

theorem actsOf_nums (type : Nat) (b : Bucket) (ws : List BWord) : actsOf ((bNums type b).map (·.1) ++ ws) = actsOf ws := by
  have : actsOf ((bNums type b).map (·.1)) = [] := by
    unfold actsOf
    rw [List.flatMap_eq_nil_iff]
    intro w hw
    obtain ⟨e, he, rfl⟩ := List.mem_map.1 hw
    exact (bNums_isB type b e he).2
  rw [actsOf_append, this, List.nil_append]

/-- No bucket comes for a blank one from what stands after it. -/
theorem stale {R : List (List BWord) → Str → Prop} (hR : BRel R) {type : Nat} (L : List (Bucket × List Str))
    (hv : ∀ e ∈ L, e.1.Valid) (hts : ∀ e ∈ L, ActTexts e.1.acts e.2) {b0 : Bucket} (hv0 : b0.Valid) (h0 : b0.Blank type)
    {g s : Str} (hg : ∀ c ∈ g, Space c ∨ c = ',') (hs : RestOf s (allPieces type L)) (hL : L ≠ []) {ws : List BWord}
    {bss : List (List BWord)} (hb : R (ws :: bss) (g ++ s)) (hf : BucketFits type ws) (hw : bucketOf type ws = b0.wire)
    (hlen : L.length ≤ bss.length) : False := by
  induction L generalizing g s with
  | nil => exact hL rfl
  | cons e L ih =>
    obtain ⟨b, ts⟩ := e
    obtain ⟨h, r, hh, hr, rfl, hrn, h3⟩ := pieces_split hs
    rw [← List.append_assoc] at hb
    have hb' := mark_inv hR (head_seps hg hh) hr hb
    have hvb := hv _ (.head _)
    have htb := hts _ (.head _)
    obtain ⟨w1, w2, w3, w4⟩ := bucketOf_same hv0 hf hw
    rw [h0.2.2.2, List.flatMap_nil] at w4
    by_cases hblank : bTexts type (b, ts) = []
    · rw [if_pos hblank] at h3
      rcases blank_split h3 hrn with ⟨h4, rfl⟩ | ⟨h4, g', s', g1, rfl, g2⟩
      · have := comma_end hR hb'
        simp only [List.cons.injEq] at this
        rw [this.2] at hlen
        simp at hlen
      · refine ih (fun x hx => hv x (.tail _ hx)) (fun x hx => hts x (.tail _ hx)) g1 g2 ?_ hb' ?_
        · rintro rfl
          exact h4 rfl
        · simp only [List.length_cons] at hlen
          omega
    · rw [if_neg hblank] at h3
      obtain ⟨u, ws', s', k1, rfl, k3, k4⟩ := full_words hR hvb htb hblank h3 hb'
      rw [actsOf_nums] at w4
      cases hts' : ts with
      | nil =>
        subst hts'
        obtain ⟨rfl, rfl⟩ := end_peel k3 k4
        have hacts : b.acts = [] := (actTexts_nil htb).1 rfl
        have hwe : (bNums type b).map (·.1) ++ [] = wordsB type b := by
          unfold wordsB
          rw [hacts]; rfl
        rw [hwe] at w1 w2 w3
        obtain ⟨n1, n2, n3, -⟩ := wordsB_numbers type b
        rw [n1] at w1
        rw [n2] at w2
        rw [n3] at w3
        apply hblank
        rw [bTexts_nil htb]
        refine ⟨fun h => ?_, ?_, ?_, hacts⟩
        · rw [if_pos h] at w1
          have := h0.1 h
          dsimp only
          omega
        · have := h0.2.1
          dsimp only
          omega
        · have := h0.2.2.1
          dsimp only
          omega
      | cons t ts' =>
        subst hts'
        cases hacts : b.acts with
        | nil =>
          have htb' := (actTexts_nil htb).2 hacts
          cases htb'
        | cons a as =>
          dsimp only at htb
          rw [hacts] at htb
          cases htb with
          | cons hpr hrs =>
            obtain ⟨h5, r5, hh5, hr5, rfl, -⟩ := rest_cons (t := t) k3
            rcases act_peelB a (hvb.2.2.2.1 a (by dsimp only; rw [hacts]; simp)) hpr hh5 hr5 k4 with
              ⟨c, ws2, u', rfl, hg5, -⟩ | ⟨-, -, hd, name, q, q1, q2, q3, q4, q5⟩
            · have e : actsOf (.act c :: ws2) = c ++ actsOf ws2 := by simp [actsOf, BWord.actBytes]
              rw [e] at w4
              exact (actGood_lenf hg5 []).2 (List.append_eq_nil_iff.1 w4).1
            · rcases hR.inv _ _ _ _ _ q2 q3 k1 with ⟨h4, -⟩ | ⟨ws0, u0, bs, h4, -, h6, -⟩ | ⟨-, -, h4 | h4⟩
              · exact q5 h4
              · exact h4 (bucketText_det h6 (.nil _ q1)).1
              · exact q4 h4
              · rw [h4] at hlen
                simp at hlen

/-- A bucket survives and, if nothing is printed of it, it is the last one. -/
def BucketOk (type : Nat) (b : Bucket) (last : Prop) : Prop := (b.Blank type → last) ∧ b.Survives type last

/-- Buckets of which the bytes are read were read back. -/
theorem buckets_back {R : List (List BWord) → Str → Prop} (hR : BRel R) {type : Nat} (L : List (Bucket × List Str))
    (hv : ∀ e ∈ L, e.1.Valid) (hts : ∀ e ∈ L, ActTexts e.1.acts e.2) {extra : List Bytes} {s : Str}
    (hs : RestOf s (allPieces type L)) {bss : List (List BWord)} (hb : R bss s) (hf : ∀ ws ∈ bss, BucketFits type ws)
    (ho : bss.map (bucketOf type) = (L.map fun e => e.1.wire) ++ extra) :
    extra = [] ∧ ListSurvive (BucketOk type) True (L.map (·.1)) := by
  induction L generalizing s bss with
  | nil =>
    rw [rest_nil hs] at hb
    rw [hR.end_inv _ hb] at ho
    exact ⟨by simpa using ho.symm, listSurvive_nil _ _⟩
  | cons e L ih =>
    obtain ⟨b, ts⟩ := e
    obtain ⟨h, r, hh, hr, rfl, hrn, h3⟩ := pieces_split hs
    have hb' := mark_inv hR (seps_of hh) hr hb
    have hvb : b.Valid := hv _ (.head _)
    have htb : ActTexts b.acts ts := hts _ (.head _)
    cases bss with
    | nil => cases ho
    | cons ws bss =>
      rw [List.map_cons, List.map_cons, List.cons_append, List.cons.injEq] at ho
      obtain ⟨ho1, ho2⟩ := ho
      obtain ⟨w1, w2, w3, w4⟩ := bucketOf_same hvb (hf ws (.head _)) ho1
      have hlen := congrArg List.length ho2
      simp only [List.length_map, List.length_append] at hlen
      by_cases hblank : bTexts type (b, ts) = []
      · rw [if_pos hblank] at h3
        have hbl := (bTexts_nil htb).1 hblank
        rcases blank_split h3 hrn with ⟨h4, rfl⟩ | ⟨h4, g', s', g1, rfl, g2⟩
        · have := comma_end hR hb'
          simp only [List.cons.injEq] at this
          obtain ⟨rfl, rfl⟩ := this
          have hL : L = [] := by
            cases L with
            | nil => rfl
            | cons e L => cases h4
          subst hL
          refine ⟨by simpa using ho2.symm, listSurvive_cons.2 ⟨⟨fun _ => ⟨rfl, trivial⟩, ?_, ?_⟩, listSurvive_nil _ _⟩⟩
          · intro ht
            have : weightOf type [.act []] = defaultWeight type := rfl
            rw [this, defaultWeight, if_neg ht] at w1
            dsimp only
            omega
          · have : b.acts = [] := hbl.2.2.2
            dsimp only
            rw [this]
            intro a x c h
            simp at h
        · exfalso
          refine stale hR L (fun x hx => hv x (.tail _ hx)) (fun x hx => hts x (.tail _ hx)) hvb hbl g1 g2 ?_ hb' (hf ws (.head _)) ho1 (by omega)
          rintro rfl
          exact h4 rfl
      · rw [if_neg hblank] at h3
        obtain ⟨u, ws', s', k1, rfl, k3, k4⟩ := full_words hR hvb htb hblank h3 hb'
        rw [actsOf_nums, ← List.append_nil (b.acts.flatMap _)] at w4
        obtain ⟨q1, ws2, s2, rfl, q3, q4⟩ := acts_peelB b.acts hvb.2.2.2.1 htb k3 k4 w4
        obtain ⟨rfl, rfl⟩ := end_peel q3 q4
        rw [List.append_nil] at w1
        have hwe : (bNums type b).map (·.1) ++ (b.acts.map fun a => .act a.wire) = wordsB type b := rfl
        rw [hwe, (wordsB_numbers type b).1] at w1
        obtain ⟨r1, r2⟩ := ih (fun x hx => hv x (.tail _ hx)) (fun x hx => hts x (.tail _ hx)) q3 k1 (fun w hw => hf w (.tail _ hw)) ho2
        refine ⟨r1, listSurvive_cons.2 ⟨⟨fun h => absurd ((bTexts_nil htb).2 h) hblank, ?_, ?_⟩, r2⟩⟩
        · intro ht
          rw [if_neg ht] at w1
          dsimp only
          omega
        · have hn : (L.map (·.1) = [] ∧ True) = (allPieces type L = []) := by
            rw [and_true]
            cases L with
            | nil => simp [allPieces]
            | cons e L => simp [allPieces, pieces]
          rw [hn]
          exact q1

/-- The words that are read for a bucket. -/
noncomputable def readWords (type : Nat) (b : Bucket) : List BWord := by
  classical exact if b.Blank type then [.act []] else wordsB type b

/-- Buckets that survive are read. -/
theorem buckets_fwd {R : List (List BWord) → Str → Prop} (hR : BRel R) {type : Nat} (L : List (Bucket × List Str))
    (hv : ∀ e ∈ L, e.1.Valid) (hts : ∀ e ∈ L, ActTexts e.1.acts e.2) (hsv : ListSurvive (BucketOk type) True (L.map (·.1)))
    {s : Str} (hs : RestOf s (allPieces type L)) : R (L.map fun e => readWords type e.1) s := by
  induction L generalizing s with
  | nil =>
    rw [rest_nil hs]
    exact hR.nil
  | cons e L ih =>
    obtain ⟨b, ts⟩ := e
    obtain ⟨h, r, hh, hr, rfl, hrn, h3⟩ := pieces_split hs
    have hvb : b.Valid := hv _ (.head _)
    have htb : ActTexts b.acts ts := hts _ (.head _)
    obtain ⟨h1, h2⟩ := listSurvive_cons.1 hsv
    refine hR.mark _ _ h r (seps_of hh) (mark_tok (seps_of hh) hr) ?_
    rw [List.map_cons]
    by_cases hblank : bTexts type (b, ts) = []
    · rw [if_pos hblank] at h3
      have hbl : b.Blank type := (bTexts_nil htb).1 hblank
      have hL : L = [] := by
        have := (h1.1 hbl).1
        simpa using this
      subst hL
      obtain ⟨-, rfl⟩ | ⟨h4, -⟩ := blank_split h3 hrn
      swap
      · exact absurd rfl h4
      unfold readWords
      rw [if_pos hbl]
      exact hR.bucket _ _ _ [] (by simp) comma_word hR.nil
    · rw [if_neg hblank, bTexts, List.append_assoc] at h3
      have hnb : ¬ b.Blank type := fun h => hblank ((bTexts_nil htb).2 h)
      obtain ⟨s1, g1, g2⟩ := nums_readsB (bNums type b) (fun e he => (bNums_isB type b e he).1) h3
      have hn : (L.map (·.1) = [] ∧ True) = (allPieces type L = []) := by
        rw [and_true]
        cases L with
        | nil => simp [allPieces]
        | cons e L => simp [allPieces, pieces]
      have hacts := h1.2.2
      rw [hn] at hacts
      obtain ⟨s2, g3, g4⟩ := acts_readsB b.acts hvb.2.2.2.1 htb hacts g1
      have hno : NoB actP s2 := by
        cases L with
        | nil => exact Or.inl (rest_nil g3)
        | cons e L =>
          obtain ⟨h, r, hh, hr, rfl, -⟩ := rest_cons (t := t!"@bucket") (l := _) g3
          exact Or.inr ⟨h, _, r, mark_tok (seps_of hh) (atEnd_of hr), noeq_of hh, Or.inl (by decide)⟩
      have := g2 _ _ (g4 _ _ (.nil _ hno))
      rw [List.append_nil] at this
      unfold readWords
      rw [if_neg hnb]
      refine hR.bucket _ _ _ s2 ?_ this (ih (fun x hx => hv x (.tail _ hx)) (fun x hx => hts x (.tail _ hx)) h2 g3)
      intro h0
      apply hnb
      rw [← bItems_nil, ← List.map_eq_nil_iff (f := (·.1)), ← wordsB_eq]
      exact h0

theorem readWords_bucket {type : Nat} {b : Bucket} (hv : b.Valid) (hs : type ≠ 1 → b.weight = 0) :
    bucketOf type (readWords type b) = b.wire ∧ BucketFits type (readWords type b) := by
  unfold readWords
  split
  · rename_i hb
    obtain ⟨h1, h2, h3, h4⟩ := hb
    have hw : (weightOf type [.act []]).toNat = b.weight ∧ FitsIn 2 (weightOf type [.act []]) := by
      have : weightOf type [.act []] = defaultWeight type := rfl
      rw [this]
      unfold defaultWeight
      by_cases ht : type = 1
      · rw [if_pos ht, h1 ht]; decide
      · rw [if_neg ht, hs ht]; decide
    refine ⟨?_, ?_, hw.2, ?_, ?_⟩
    · unfold bucketOf Bucket.wire
      rw [hw.1, h2, h3, h4]; rfl
    · simp [actsOf, BWord.actBytes]
    · decide
    · decide
  · rw [wordsB_eq]
    exact ⟨bItems_bucket type b hs, bItems_fits type b hv hs⟩

end Ofpstr
