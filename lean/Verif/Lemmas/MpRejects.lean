import Verif.Spec.MpReject
import Verif.Lemmas.GroupRejects
import Verif.Lemmas.MpTextGroup
import Verif.Props.MpText

/-!
# Which exceptions multipart texts raise
-/

set_option linter.unusedSimpArgs false
set_option linter.unusedVariables false

namespace Ofpstr
open Spec

/-! ## Lines -/

/-- Lines put together one after the other. -/
def joinGo (one : Str → Py Bytes) : Bytes → List Str → Py Bytes
  | cap, [] => .ok cap
  | cap, s :: ss => one s >>= fun b => mpAppend cap b >>= fun c => joinGo one c ss

theorem descGo_join (cap : Bytes) (ls : List Str) : descGo cap ls = joinGo descBody cap ls := by
  induction ls generalizing cap with
  | nil => rfl
  | cons s ss ih => rw [descGo, joinGo]; simp only [ih]

def gstatOne (s : Str) : Py Bytes := statGroupHead (s.length + 1) 0 s >>= fun x => groupStatBody x.1 x.2

theorem mpgroupGo_join (cap : Bytes) (ls : List Str) : mpgroupGo 19 cap ls = joinGo gstatOne cap ls := by
  induction ls generalizing cap with
  | nil => rfl
  | cons s ss ih =>
    rw [mpgroupGo, joinGo, gstatOne, bind_assoc']
    congr 1
    funext x
    dsimp only
    rw [if_neg (by decide)]
    simp only [ih]

def flowOne (type : Int) (s : Str) : Py Bytes := parseStat s >>= fun x => statBody type x.1 x.2

theorem mpflowGo_join (type : Int) {ls : List Str} {rules : List (Counters × Info)} (h : parseStats ls = .ok rules) (cap : Bytes) :
    mpflowGo type cap rules = joinGo (flowOne type) cap ls := by
  induction ls generalizing cap rules with
  | nil => cases h; rfl
  | cons s ss ih =>
    rw [parseStats] at h
    obtain ⟨⟨c, i⟩, h1, h⟩ := bind_ok h
    obtain ⟨r, h2, h⟩ := bind_ok h
    cases h
    rw [mpflowGo, joinGo, flowOne, h1, ok_bind]
    dsimp only
    simp only [ih h2]

theorem mpAppend_ok {cap b : Bytes} (h : 16 + (cap.length + b.length) < 65536) : mpAppend cap b = .ok (cap ++ b) := by
  unfold mpAppend
  rw [if_neg (by omega)]

theorem mpAppend_full {cap b : Bytes} (h : 65536 ≤ 16 + (cap.length + b.length)) : mpAppend cap b = .error .nameError := by
  unfold mpAppend
  rw [if_pos (by omega)]

theorem join_fails {one : Str → Py Bytes} {Entry : Str → Bytes → Prop} {R : Str → Refuses} (hE : ∀ s b, one s = .ok b ↔ Entry s b)
    (hR : ∀ s, Fails (one s) (R s)) (cap : Bytes) (ls : List Str) : Fails (joinGo one cap ls) (JoinRejects Entry R cap.length ls) := by
  intro e
  constructor
  · intro h
    induction ls generalizing cap with
    | nil => cases h
    | cons s ss ih =>
      rw [joinGo] at h
      rcases bindErr.1 h with h | ⟨b, h1, h⟩
      · exact .line _ s ss e ((hR s e).1 h)
      · by_cases hl : 16 + (cap.length + b.length) < 65536
        · rw [mpAppend_ok hl, ok_bind] at h
          have := ih _ h
          rw [List.length_append] at this
          exact .later _ s b ss e ((hE s b).1 h1) hl this
        · rw [mpAppend_full (by omega)] at h
          cases h
          exact .full _ s b ss ((hE s b).1 h1) (by omega)
  · intro h
    generalize hn : cap.length = n at h
    induction h generalizing cap with
    | line n s ss e h => rw [joinGo, (hR s e).2 h]; rfl
    | full n s b ss h1 h2 =>
      rw [joinGo, (hE s b).2 h1, ok_bind, mpAppend_full (by omega)]; rfl
    | later n s b ss e h1 h2 _ ih =>
      rw [joinGo, (hE s b).2 h1, ok_bind, mpAppend_ok (by omega), ok_bind]
      exact ih _ (by rw [List.length_append, hn])

theorem join_ok {one : Str → Py Bytes} {Entry : Str → Bytes → Prop} (hE : ∀ s b, one s = .ok b ↔ Entry s b) (cap : Bytes) (ls : List Str) (out : Bytes)
    (hc : 16 + cap.length < 65536) :
    joinGo one cap ls = .ok out ↔ ∃ bs, List.Forall₂ Entry ls bs ∧ 16 + (cap.length + bs.flatten.length) < 65536 ∧ out = cap ++ bs.flatten := by
  induction ls generalizing cap with
  | nil =>
    rw [joinGo]
    constructor
    · intro h; cases h; exact ⟨[], .nil, by simpa using hc, by simp⟩
    · rintro ⟨bs, h1, _, rfl⟩; cases h1; simp
  | cons s ss ih =>
    rw [joinGo, bind_iff]
    constructor
    · rintro ⟨b, h1, h⟩
      by_cases hl : 16 + (cap.length + b.length) < 65536
      · rw [mpAppend_ok hl, ok_bind] at h
        obtain ⟨bs, h2, h3, rfl⟩ := (ih _ (by rw [List.length_append]; omega)).1 h
        rw [List.length_append] at h3
        exact ⟨b :: bs, .cons ((hE s b).1 h1) h2, by rw [List.flatten_cons, List.length_append]; omega, by simp⟩
      · rw [mpAppend_full (by omega)] at h
        cases h
    · rintro ⟨bs, h1, h2, rfl⟩
      cases h1 with
      | cons h1 h3 =>
        rename_i b bs
        rw [List.flatten_cons, List.length_append] at h2
        refine ⟨b, (hE s b).2 h1, ?_⟩
        rw [mpAppend_ok (by omega), ok_bind]
        exact (ih _ (by rw [List.length_append]; omega)).2 ⟨bs, h3, by rw [List.length_append]; omega, by simp⟩

theorem onlyStruct_mp (type xid : Int) (k : Nat) (cap : Bytes) : OnlyStruct (mpMessage type xid k cap) :=
  onlyStruct_bind (onlyStruct_packAll _) fun _ => onlyStruct_ok _

theorem mp_fails {one : Str → Py Bytes} {Entry : Str → Bytes → Prop} {R : Str → Refuses} (hE : ∀ s b, one s = .ok b ↔ Entry s b)
    (hR : ∀ s, Fails (one s) (R s)) (type xid : Int) (k : Nat) (hk : k < 256 ^ 2) (ls : List Str) :
    Fails (joinGo one [] ls >>= mpMessage type xid k) (MpRejects Entry R type xid ls) := by
  intro e
  rw [bindErr]
  constructor
  · rintro (h | ⟨cap, h1, h2⟩)
    · exact .lines ls e ((join_fails hE hR [] ls e).1 h)
    · obtain ⟨bs, h3, h4, rfl⟩ := (join_ok hE [] ls _ (by decide)).1 h1
      have := onlyStruct_mp _ _ _ _ e h2
      subst this
      simp only [List.length_nil, Nat.zero_add, List.nil_append] at h4 h2
      refine .header ls bs h3 h4 ?_
      rintro ⟨h5, h6⟩
      rw [(mpMessage_iff _ _ _ _ _ hk).2 ⟨⟨h5, h6, h4⟩, rfl⟩] at h2
      cases h2
  · intro h
    cases h with
    | lines _ h => exact Or.inl ((join_fails hE hR [] ls e).2 h)
    | header bs h3 h4 h5 =>
      refine Or.inr ⟨bs.flatten, (join_ok hE [] ls _ (by decide)).2 ⟨bs, h3, by simpa using h4, by simp⟩, ?_⟩
      cases hm : mpMessage type xid k bs.flatten with
      | error e => rw [onlyStruct_mp _ _ _ _ e hm]
      | ok m =>
        obtain ⟨h6, _⟩ := (mpMessage_iff _ _ _ _ _ hk).1 hm
        exact absurd ⟨h6.1, h6.2.1⟩ h5

/-! ## Flow statistics -/

theorem counters_fails (fuel : Nat) (c : Counters) (s : Str) (hf : s.length < fuel) : Fails (countersGo fuel c s) (CountRejects flowCounters s) := by
  intro e
  constructor
  · intro h
    induction fuel generalizing c s with
    | zero => omega
    | succ fuel ih =>
      by_cases hs : s = []
      · subst hs
        rw [countersGo, if_pos (by decide)] at h
        cases h
      · rcases hg : getToken s with ⟨hd, name, t⟩
        have ht := eq_tok hg
        have hl := tok_progress hs ht
        by_cases hn : name ∈ flowCounters
        · rw [countersGo_tok hs ht hn] at h
          rcases bindErr.1 h with h | ⟨⟨n, u⟩, h1, h⟩
          · exact .number s hd name t e hs ht hn ((procArg_fails t e).1 h)
          · have h1 := (numArg_iff _ _ _).1 h1
            have := numArg_shorter h1
            exact .later s hd name t n u e hs ht hn h1 (ih _ u (by omega) h)
        · rw [countersGo_other hs ht hn] at h
          cases h
  · intro h
    induction h generalizing fuel c with
    | number s hd name t e hs ht hn h =>
      cases fuel with
      | zero => omega
      | succ fuel => rw [countersGo_tok hs ht hn, (procArg_fails t e).2 h]; rfl
    | later s hd name t n u e hs ht hn h1 _ ih =>
      have := numArg_shorter h1
      have := tok_progress hs ht
      cases fuel with
      | zero => omega
      | succ fuel =>
        rw [countersGo_tok hs ht hn, (numArg_iff _ _ _).2 h1, ok_bind]
        exact ih _ _ (by omega)

theorem parseStat_fails (s : Str) : Fails (parseStat s) (StatRejects s) := by
  intro e
  unfold parseStat StatRejects
  rw [bindErr]
  constructor
  · rintro (h | ⟨⟨c, r⟩, h1, h⟩)
    · exact Or.inl ((counters_fails _ _ _ (by omega) e).1 h)
    · obtain ⟨l, h2, _⟩ := (countersGo_iff _ _ _ (by omega) _ _).1 h1
      rcases bindErr.1 h with h | ⟨i, _, h⟩
      · exact Or.inr ⟨l, r, h2, (rule_rejects r e).1 h⟩
      · cases h
  · rintro (h | ⟨l, r, h1, h2⟩)
    · exact Or.inl ((counters_fails _ _ _ (by omega) e).2 h)
    · refine Or.inr ⟨(setCounts {} l, r), (countersGo_iff _ _ _ (by omega) _ _).2 ⟨l, h1, rfl⟩, ?_⟩
      dsimp only
      rw [(rule_rejects r e).2 h2]
      rfl

theorem parseStat_reads (s : Str) : (∃ a, parseStat s = .ok a) ↔ ∃ x, StatReads s x := by
  constructor
  · rintro ⟨⟨c, i⟩, h⟩
    obtain ⟨x, h1, h2, _⟩ := (parseStat_iff s c i).1 h
    exact ⟨x, h1, h2⟩
  · rintro ⟨x, h1, h2⟩
    exact ⟨_, (parseStat_iff s _ _).2 ⟨x, h1, h2, rfl, rfl⟩⟩

theorem parseStats_err (ls : List Str) (e : Err) : parseStats ls = .error e ↔
    ∃ pre s post, ls = pre ++ s :: post ∧ (∀ t ∈ pre, ∃ x, StatReads t x) ∧ StatRejects s e := by
  induction ls with
  | nil =>
    constructor
    · intro h; cases h
    · rintro ⟨pre, s, post, h, _⟩; simp at h
  | cons s ss ih =>
    rw [parseStats, bindErr]
    constructor
    · rintro (h | ⟨a, h1, h⟩)
      · exact ⟨[], s, ss, rfl, by simp, (parseStat_fails s e).1 h⟩
      · rcases bindErr.1 h with h | ⟨_, _, h⟩
        · obtain ⟨pre, s', post, rfl, h2, h3⟩ := ih.1 h
          refine ⟨s :: pre, s', post, rfl, ?_, h3⟩
          intro t ht
          rcases List.mem_cons.1 ht with rfl | ht
          · exact (parseStat_reads _).1 ⟨a, h1⟩
          · exact h2 t ht
        · cases h
    · rintro ⟨pre, s', post, h, h2, h3⟩
      cases pre with
      | nil =>
        cases h
        exact Or.inl ((parseStat_fails s e).2 h3)
      | cons p pre =>
        cases h
        obtain ⟨a, ha⟩ := (parseStat_reads s).2 (h2 s (by simp))
        refine Or.inr ⟨a, ha, ?_⟩
        rw [ih.2 ⟨pre, s', post, rfl, fun t ht => h2 t (by simp [ht]), h3⟩]
        rfl

theorem parseStats_ok (ls : List Str) : (∃ r, parseStats ls = .ok r) ↔ ∀ t ∈ ls, ∃ x, StatReads t x := by
  induction ls with
  | nil => exact ⟨fun _ => by simp, fun _ => ⟨[], rfl⟩⟩
  | cons s ss ih =>
    rw [List.forall_mem_cons, ← ih, ← parseStat_reads]
    rw [parseStats]
    constructor
    · rintro ⟨r, h⟩
      obtain ⟨a, h1, h⟩ := bind_ok h
      obtain ⟨b, h2, h⟩ := bind_ok h
      exact ⟨⟨a, h1⟩, b, h2⟩
    · rintro ⟨⟨a, h1⟩, b, h2⟩
      rw [h1, ok_bind, h2]
      exact ⟨_, rfl⟩

theorem onlyStruct_packMatch (b : Bytes) : OnlyStruct (packMatch b) :=
  onlyStruct_bind (onlyStruct_packAll _) fun _ => onlyStruct_ok _

theorem onlyStruct_statBody (type : Int) (c : Counters) (i : Info) : OnlyStruct (statBody type c i) := by
  unfold statBody
  refine onlyStruct_bind (onlyStruct_packMatch _) fun m => ?_
  split
  · exact onlyStruct_bind (onlyStruct_packU _ _) fun _ => onlyStruct_bind (onlyStruct_packAll _) fun _ =>
      onlyStruct_bind (onlyStruct_packAll _) fun _ => onlyStruct_ok _
  · exact onlyStruct_bind (onlyStruct_packAll _) fun _ => onlyStruct_bind (onlyStruct_packAll _) fun _ =>
      onlyStruct_bind (onlyStruct_packAll _) fun _ => onlyStruct_ok _

theorem flowOne_ok (type : Int) (s : Str) (b : Bytes) : flowOne type s = .ok b ↔ FlowEntry type s b := by
  unfold flowOne FlowEntry
  rw [bind_iff]
  have := statLine_iff type s b
  constructor
  · rintro ⟨⟨c, i⟩, h1, h2⟩
    obtain ⟨x, ⟨h3, h4, h5⟩, h6⟩ := this.1 ⟨c, i, h1, h2⟩
    exact ⟨x, h3, h4, h5, h6⟩
  · rintro ⟨x, h3, h4, h5, h6⟩
    obtain ⟨c, i, h1, h2⟩ := this.2 ⟨x, ⟨h3, h4, h5⟩, h6⟩
    exact ⟨(c, i), h1, h2⟩

theorem flowOne_fails (type : Int) (s : Str) : Fails (flowOne type s)
    (fun e => StatRejects s e ∨ (e = .structError ∧ ∃ x, StatReads s x ∧ ¬ (LineFits type x ∧ LineSmall type x))) := by
  intro e
  have hok := flowOne_ok type s
  unfold flowOne at hok ⊢
  constructor
  · intro h
    have h0 := h
    rcases bindErr.1 h with h | ⟨⟨c, i⟩, h1, h2⟩
    · exact Or.inl ((parseStat_fails s e).1 h)
    · obtain ⟨x, hx⟩ := (parseStat_reads s).1 ⟨_, h1⟩
      refine Or.inr ⟨onlyStruct_statBody _ _ _ e h2, x, hx, ?_⟩
      rintro ⟨h3, h4⟩
      rw [(hok _).2 ⟨x, hx.1, h3, h4, rfl⟩] at h0
      cases h0
  · rintro (h | ⟨rfl, x, hx, hn⟩)
    · rw [(parseStat_fails s e).2 h]; rfl
    · obtain ⟨⟨c, i⟩, h1⟩ := (parseStat_reads s).2 ⟨x, hx⟩
      cases hb : (parseStat s >>= fun x => statBody type x.1 x.2) with
      | ok b =>
        obtain ⟨y, h3, h4, h5, _⟩ := (hok b).1 hb
        have := C71_flow_unique h3 hx.1
        subst this
        exact absurd ⟨h4, h5⟩ hn
      | error e =>
        rw [h1, ok_bind] at hb
        rw [onlyStruct_statBody _ _ _ e hb]

theorem flowText_rejects (txt : Str) (type xid : Int) : Fails (text2mpflow txt type xid) (FlowTextRejects type xid txt) := by
  intro e
  unfold text2mpflow
  rw [bindErr]
  have ht := (textLines_iff txt _).2 rfl
  have join : ∀ rules, parseStats (splitAll '\n' txt) = .ok rules →
      ((mpflowGo type [] rules >>= mpMessage type xid OFPMP_FLOW) = .error e ↔ MpRejects (FlowEntry type) (FlowSize type) type xid (splitAll '\n' txt) e) := by
    intro rules hr
    rw [mpflowGo_join type hr, mp_fails (flowOne_ok type) (flowOne_fails type) type xid _ (by decide) _ e]
    have hall := (parseStats_ok _).1 ⟨rules, hr⟩
    have same : ∀ n ls, (∀ t ∈ ls, ∃ x, StatReads t x) →
        (JoinRejects (FlowEntry type) (fun s e => StatRejects s e ∨ (e = .structError ∧ ∃ x, StatReads s x ∧ ¬ (LineFits type x ∧ LineSmall type x))) n ls e ↔
        JoinRejects (FlowEntry type) (FlowSize type) n ls e) := by
      intro n ls hls
      constructor
      · intro h
        induction h with
        | line n s ss e h =>
          refine .line n s ss e ?_
          rcases h with h | ⟨rfl, x, h1, h2⟩
          · obtain ⟨a, ha⟩ := (parseStat_reads s).2 (hls s (by simp))
            rw [(parseStat_fails s e).2 h] at ha
            cases ha
          · exact ⟨rfl, x, h1.1, h2⟩
        | full n s b ss h1 h2 => exact .full n s b ss h1 h2
        | later n s b ss e h1 h2 _ ih => exact .later n s b ss e h1 h2 (ih fun t ht => hls t (by simp [ht]))
      · intro h
        induction h with
        | line n s ss e h =>
          refine .line n s ss e (Or.inr ?_)
          obtain ⟨rfl, x, h1, h2⟩ := h
          obtain ⟨y, hy⟩ := hls s (by simp)
          have := C71_flow_unique hy.1 h1
          subst this
          exact ⟨rfl, y, hy, h2⟩
        | full n s b ss h1 h2 => exact .full n s b ss h1 h2
        | later n s b ss e h1 h2 _ ih => exact .later n s b ss e h1 h2 (ih fun t ht => hls t (by simp [ht]))
    constructor
    · intro h
      cases h with
      | lines _ h => exact .lines _ e ((same _ _ hall).1 h)
      | header bs h1 h2 h3 => exact .header _ bs h1 h2 h3
    · intro h
      cases h with
      | lines _ h => exact .lines _ e ((same _ _ hall).2 h)
      | header bs h1 h2 h3 => exact .header _ bs h1 h2 h3
  constructor
  · rintro (h | ⟨rules, h1, h2⟩)
    · obtain ⟨pre, s, post, h1, h2, h3⟩ := (parseStats_err _ e).1 h
      rw [h1] at ht
      exact .line txt pre s post e ht h2 h3
    · exact .message txt _ e ht ((parseStats_ok _).1 ⟨rules, h1⟩) ((join rules h1).1 h2)
  · intro h
    cases h with
    | line pre s post _ h1 h2 h3 =>
      rw [textLines_iff] at h1
      exact Or.inl ((parseStats_err _ e).2 ⟨pre, s, post, h1, h2, h3⟩)
    | message ls _ h1 h2 h3 =>
      rw [textLines_iff] at h1
      subst h1
      obtain ⟨rules, hr⟩ := (parseStats_ok _).2 h2
      exact Or.inr ⟨rules, hr, (join rules hr).2 h3⟩

/-! ## Group descriptions -/

theorem descHead_fails (fuel : Nat) (g : Int) (ty : Nat) (s : Str) (hf : s.length < fuel) : Fails (descHead fuel g ty s) (HeadDRejects s) := by
  intro e
  constructor
  · intro h
    induction fuel generalizing g ty s with
    | zero => omega
    | succ fuel ih =>
      by_cases hs : s = []
      · subst hs
        rw [descHead, if_pos (by decide)] at h
        cases h
      · rcases hg : getToken s with ⟨hd, name, t⟩
        have ht := eq_tok hg
        have hl := tok_progress hs ht
        by_cases hn : name = t!"group"
        · subst hn
          rw [descHead_id hs ht] at h
          rcases bindErr.1 h with h | ⟨⟨n, u⟩, h1, h⟩
          · exact .id s hd t e ht ((procArg_fails t e).1 h)
          · have h1 := (numArg_iff _ _ _).1 h1
            have := numArg_shorter h1
            exact .later s _ u e hs (.id s hd t n u ht h1) (ih _ _ u (by omega) h)
        · by_cases hk : name.map Char.toLower ∈ groupTypes
          · obtain ⟨k, hk, h2⟩ := List.getElem_of_mem hk
            have hk' : groupTypes[k]? = some (name.map Char.toLower) := by rw [List.getElem?_eq_getElem hk, h2]
            rw [descHead_type hs ht hk'] at h
            exact .later s _ t e hs (.type s hd name k t ht hk') (ih _ _ t (by omega) h)
          · rw [descHead_stop ht hn hk] at h
            cases h
  · intro h
    induction h generalizing fuel g ty with
    | id s hd t e ht h =>
      have hs : s ≠ [] := by
        rintro rfl
        have := congrArg List.length ht.1
        simp at this
      cases fuel with
      | zero => omega
      | succ fuel => rw [descHead_id hs ht, (procArg_fails t e).2 h]; rfl
    | later s w u e hs hw _ ih =>
      cases fuel with
      | zero => omega
      | succ fuel =>
        cases hw with
        | id hd t n _ ht h1 =>
          have := tok_progress hs ht
          have := numArg_shorter h1
          rw [descHead_id hs ht, (numArg_iff _ _ _).2 h1, ok_bind]
          exact ih _ _ _ (by omega)
        | type hd name k _ ht hk =>
          have := tok_progress hs ht
          rw [descHead_type hs ht hk]
          exact ih _ _ _ (by omega)

theorem bucketFits_nil (type : Nat) : BucketFits type [] := by
  unfold BucketFits weightOf portOf groupOf actsOf defaultWeight lastB
  refine ⟨by decide, ?_, by decide, by decide⟩
  by_cases h : type = 1 <;> simp [h, FitsIn]

theorem descBuckets_fails (ty fuel : Nat) (s : Str) (hf : s.length < fuel) : Fails (descBuckets ty fuel s) (BucketsDReject ty s) := by
  intro e
  constructor
  · intro h
    induction fuel generalizing s with
    | zero => omega
    | succ fuel ih =>
      by_cases hs : s = []
      · subst hs
        rw [descBuckets, if_pos (by decide)] at h
        cases h
      · rcases hg : getToken s with ⟨hd, name, t⟩
        have ht := eq_tok hg
        have hl := tok_progress hs ht
        by_cases hn : name = t!"@bucket"
        · subst hn
          rw [descBuckets_mark hs ht] at h
          exact .mark s hd t e hs ht (ih t (by omega) h)
        · rw [descBuckets_other hs ht hn] at h
          rcases bindErr.1 h with h | ⟨⟨b, l⟩, h1, h⟩
          · rcases (str2bucket_fails ty s e).1 h with h | ⟨rfl, ws, u, h1, h2⟩
            · exact .bucket s hd name t e hs ht hn h
            · exact .size s ws u h1 h2
          · obtain ⟨ws, r, h2, h3⟩ := str2bucket_inv h1
            dsimp only at h
            rcases h3 with ⟨rfl, rfl⟩ | ⟨h3, hfit, -, rfl, h4⟩
            · rw [if_neg (by omega)] at h
              cases h
            · rw [if_pos (by omega)] at h
              have hl := (bucketText_shorter h2).2 h3
              rw [actP_len] at h2
              rcases bindErr.1 h with h | ⟨_, _, h⟩
              · exact .later s ws _ e h3 h2 hfit (ih _ (by omega) h)
              · cases h
  · intro h
    induction h generalizing fuel with
    | bucket s hd n t e hs ht hn h =>
      cases fuel with
      | zero => omega
      | succ fuel => rw [descBuckets_other hs ht hn, (str2bucket_fails ty s e).2 (Or.inl h)]; rfl
    | size s ws u h1 h2 =>
      have hws : ws ≠ [] := by rintro rfl; exact h2 (bucketFits_nil ty)
      have hx := (str2bucket_fails ty s .structError).2 (Or.inr ⟨rfl, ws, u, h1, h2⟩)
      rw [← actP_len] at h1
      have hl := (bucketText_shorter h1).2 hws
      have hs : s ≠ [] := by rintro rfl; cases hl
      rcases hg : getToken s with ⟨hd, name, t⟩
      have ht := eq_tok hg
      have hn : name ≠ t!"@bucket" := by rintro rfl; exact bucket_not_mark hws h1 ht
      cases fuel with
      | zero => omega
      | succ fuel => rw [descBuckets_other hs ht hn, hx]; rfl
    | mark s hd r e hs ht _ ih =>
      have := tok_progress hs ht
      cases fuel with
      | zero => omega
      | succ fuel =>
        rw [descBuckets_mark hs ht]
        exact ih _ (by omega)
    | later s ws u e hws h1 hfit _ ih =>
      rw [← actP_len] at h1
      have hl := (bucketText_shorter h1).2 hws
      have hs : s ≠ [] := by rintro rfl; cases hl
      rcases hg : getToken s with ⟨hd, name, t⟩
      have ht := eq_tok hg
      have hn : name ≠ t!"@bucket" := by rintro rfl; exact bucket_not_mark hws h1 ht
      cases fuel with
      | zero => omega
      | succ fuel =>
        rw [descBuckets_other hs ht hn, str2bucket_text h1, if_neg hws, if_pos hfit, ok_bind]
        dsimp only
        rw [if_pos (by omega), ← bucketText_drop h1, ih fuel (by omega)]
        rfl

theorem descBody_ok (s : Str) (b : Bytes) : descBody s = .ok b ↔ DescEntry s b := by
  rw [descBody_iff]
  constructor
  · rintro ⟨x, ⟨h1, h2, h3⟩, h4⟩; exact ⟨x, h1, h2, h3, h4⟩
  · rintro ⟨x, h1, h2, h3, h4⟩; exact ⟨x, ⟨h1, h2, h3⟩, h4⟩

theorem descBody_fails (s : Str) : Fails (descBody s) (DescRejects s) := by
  have hst : ∀ gs : List GWord, gs.foldl stepG ((0 : Int), 0) = (lineGroup gs, groupType gs) := fun gs =>
    Prod.ext (stepG_id gs (0, 0)) (stepG_type gs (0, 0))
  have only : ∀ (g : Int) (ty : Nat) (bs : Bytes), OnlyStruct (do
      let a ← packAll [(2, ((8 + bs.length : Nat) : Int)), (1, ((ty : Nat) : Int))]
      let b ← packU 4 g
      (.ok ((a ++ (zeros 1 ++ b)) ++ bs) : Py Bytes)) := fun g ty bs =>
    onlyStruct_bind (onlyStruct_packAll _) fun _ => onlyStruct_bind (onlyStruct_packU _ _) fun _ => onlyStruct_ok _
  intro e
  constructor
  · intro h
    have h0 := h
    unfold descBody at h
    rcases bindErr.1 h with h | ⟨⟨g, ty, r⟩, h1, h⟩
    · exact .head s e ((descHead_fails _ _ _ _ (by omega) e).1 h)
    · obtain ⟨gs, h2, h3⟩ := (descHead_iff _ _ _ _ (by omega) _ _ _).1 h1
      rw [hst] at h3
      obtain ⟨rfl, rfl⟩ := Prod.mk.inj h3
      dsimp only at h
      rcases bindErr.1 h with h | ⟨b, h4, h⟩
      · exact .buckets s gs r e h2 ((descBuckets_fails _ _ _ (by omega) e).1 h)
      · obtain ⟨bs, h5, h6, rfl⟩ := (descBuckets_iff _ _ _ (by omega) _).1 h4
        have := only _ _ _ e (by push_cast; exact h)
        subst this
        refine .size s (gs, bs) ⟨r, h2, h5⟩ h6 ?_
        rintro ⟨h7, h8⟩
        rw [(descBody_ok s _).2 ⟨(gs, bs), ⟨r, h2, h5⟩, ⟨h7, h6⟩, h8, rfl⟩] at h0
        cases h0
  · intro h
    cases h with
    | head _ h =>
      unfold descBody
      rw [(descHead_fails _ _ _ _ (by omega) e).2 h]
      rfl
    | buckets gs u _ h1 h2 =>
      unfold descBody
      rw [(descHead_iff _ _ _ _ (by omega) _ _ _).2 ⟨gs, h1, (hst gs).symm⟩, ok_bind]
      dsimp only
      rw [(descBuckets_fails _ _ _ (by omega) e).2 h2]
      rfl
    | size x h1 h2 h3 =>
      obtain ⟨gs, bs⟩ := x
      cases hb : descBody s with
      | ok b =>
        obtain ⟨y, h4, h5, h6, _⟩ := (descBody_ok s b).1 hb
        have := C71_desc_unique h4 h1
        subst this
        exact absurd ⟨h5.1, h6⟩ h3
      | error e =>
        obtain ⟨u, h4, h5⟩ := h1
        unfold descBody at hb
        rw [(descHead_iff _ _ _ _ (by omega) _ _ _).2 ⟨gs, h4, (hst gs).symm⟩, ok_bind] at hb
        dsimp only at hb
        rw [(descBuckets_iff _ _ _ (by omega) _).2 ⟨bs, h5, h2, rfl⟩, ok_bind] at hb
        rw [only _ _ _ e (by push_cast; exact hb)]

theorem descText_rejects (txt : Str) (xid : Int) : Fails (text2mpgroupdesc txt 19 xid) (DescTextRejects xid txt) := by
  intro e
  unfold text2mpgroupdesc DescTextRejects
  simp only [textLines_iff]
  rw [if_neg (by decide)]
  simp only [descGo_join]
  rw [mp_fails descBody_ok descBody_fails 19 xid _ (by decide) _ e]
  exact ⟨fun h => ⟨_, rfl, h⟩, by rintro ⟨_, rfl, h⟩; exact h⟩

/-! ## Group statistics -/

theorem statHead_fails (fuel : Nat) (g : Int) (s : Str) (hf : s.length < fuel) : Fails (statGroupHead fuel g s) (HeadSRejects s) := by
  intro e
  constructor
  · intro h
    induction fuel generalizing g s with
    | zero => omega
    | succ fuel ih =>
      by_cases hs : s = []
      · subst hs
        rw [statGroupHead, if_pos (by decide)] at h
        cases h
      · rcases hg : getToken s with ⟨hd, name, t⟩
        have ht := eq_tok hg
        have hl := tok_progress hs ht
        by_cases hn : name = t!"group"
        · subst hn
          rw [statGroupHead_id hs ht] at h
          rcases bindErr.1 h with h | ⟨⟨n, u⟩, h1, h⟩
          · exact .id s hd t e ht ((procArg_fails t e).1 h)
          · have h1 := (numArg_iff _ _ _).1 h1
            have := numArg_shorter h1
            exact .later s hd t n u e hs ht h1 (ih _ u (by omega) h)
        · rw [statGroupHead_stop ht hn] at h
          cases h
  · intro h
    induction h generalizing fuel g with
    | id s hd t e ht h =>
      have hs : s ≠ [] := by
        rintro rfl
        have := congrArg List.length ht.1
        simp at this
      cases fuel with
      | zero => omega
      | succ fuel => rw [statGroupHead_id hs ht, (procArg_fails t e).2 h]; rfl
    | later s hd t n u e hs ht h1 _ ih =>
      have := tok_progress hs ht
      have := numArg_shorter h1
      cases fuel with
      | zero => omega
      | succ fuel =>
        rw [statGroupHead_id hs ht, (numArg_iff _ _ _).2 h1, ok_bind]
        exact ih _ _ (by omega)

/-- The names of the counters that count in the given place. -/
def namesAt (bs : List (Option Int × Option Int)) : List Str := if bs = [] then groupCounters else bucketCounters

theorem parts_step {s h name t : Str} (hs : s ≠ []) (ht : Tok s h name t) (hn : name ≠ t!"@bucket") (fuel : Nat) (g : Counters)
    (bs : List (Option Int × Option Int)) (e : Err) : groupStatsGo (fuel + 1) g bs s = .error e ↔ procArg t = .error e ∨
      ∃ n u, procArg t = .ok (n, u) ∧ name ∈ namesAt bs ∧ ∃ g' bs', groupStatsGo fuel g' bs' u = .error e ∧ namesAt bs' = namesAt bs ∧
        (∀ e', groupStatsGo (fuel + 1) g bs s = .error e' ↔ groupStatsGo fuel g' bs' u = .error e') := by
  cases bs with
  | nil =>
    have hn0 : namesAt [] = groupCounters := rfl
    rw [hn0, groupStatsGo_group hs ht hn]
    cases hp : procArg t with
    | error e' =>
      rw [error_bind]
      constructor
      · intro h; cases h; exact Or.inl rfl
      · rintro (h | ⟨n, u, h, _⟩)
        · cases h; rfl
        · cases h
    | ok x =>
      obtain ⟨n, u⟩ := x
      rw [ok_bind]
      dsimp only
      by_cases hm : name ∈ groupCounters
      · rw [if_pos hm]
        constructor
        · intro h
          exact Or.inr ⟨n, u, rfl, hm, _, [], h, rfl, fun e' => Iff.rfl⟩
        · rintro (h | ⟨n', u', h, _, g', bs', h2, _, h3⟩)
          · cases h
          · exact (h3 e).2 h2
      · rw [if_neg hm]
        constructor
        · intro h; cases h
        · rintro (h | ⟨n', u', h, hm', _⟩)
          · cases h
          · exact absurd hm' hm
  | cons b bs =>
    have hn0 : namesAt (b :: bs) = bucketCounters := rfl
    rw [hn0, groupStatsGo_bucket hs ht hn]
    cases hp : procArg t with
    | error e' =>
      rw [error_bind]
      constructor
      · intro h; cases h; exact Or.inl rfl
      · rintro (h | ⟨n, u, h, _⟩)
        · cases h; rfl
        · cases h
    | ok x =>
      obtain ⟨n, u⟩ := x
      rw [ok_bind]
      dsimp only
      by_cases hm : name ∈ bucketCounters
      · rw [if_pos hm]
        constructor
        · intro h
          exact Or.inr ⟨n, u, rfl, hm, _, setBucket b [(name, n)] :: bs, h, rfl, fun e' => Iff.rfl⟩
        · rintro (h | ⟨n', u', h, _, g', bs', h2, _, h3⟩)
          · cases h
          · exact (h3 e).2 h2
      · rw [if_neg hm]
        constructor
        · intro h; cases h
        · rintro (h | ⟨n', u', h, hm', _⟩)
          · cases h
          · exact absurd hm' hm

theorem parts_count {s h name t : Str} (hs : s ≠ []) (ht : Tok s h name t) (hn : name ≠ t!"@bucket") (fuel : Nat) (g : Counters)
    (bs : List (Option Int × Option Int)) {n : Int} {u : Str} (hp : procArg t = .ok (n, u)) (hm : name ∈ namesAt bs) :
    ∃ g' bs', groupStatsGo (fuel + 1) g bs s = groupStatsGo fuel g' bs' u ∧ namesAt bs' = namesAt bs := by
  cases bs with
  | nil =>
    rw [groupStatsGo_group hs ht hn, hp, ok_bind]
    dsimp only
    rw [if_pos (show name ∈ groupCounters from hm)]
    exact ⟨_, _, rfl, rfl⟩
  | cons b bs =>
    rw [groupStatsGo_bucket hs ht hn, hp, ok_bind]
    dsimp only
    rw [if_pos (show name ∈ bucketCounters from hm)]
    exact ⟨_, _, rfl, rfl⟩

theorem parts_fails (fuel : Nat) (g : Counters) (bs : List (Option Int × Option Int)) (s : Str) (hf : s.length < fuel) :
    Fails (groupStatsGo fuel g bs s) (PartsReject (namesAt bs) s) := by
  intro e
  constructor
  · intro h
    induction fuel generalizing g bs s with
    | zero => omega
    | succ fuel ih =>
      by_cases hs : s = []
      · subst hs
        rw [groupStatsGo, if_pos (by decide)] at h
        cases h
      · rcases hg : getToken s with ⟨hd, name, t⟩
        have ht := eq_tok hg
        have hl := tok_progress hs ht
        by_cases hn : name = t!"@bucket"
        · subst hn
          rw [groupStatsGo_mark hs ht] at h
          have := ih _ _ t (by omega) h
          exact .mark _ s hd t e hs ht this
        · rcases (parts_step hs ht hn fuel g bs e).1 h with h | ⟨n, u, h1, hm, g', bs', h2, h3, _⟩
          · exact .number _ s hd name t e hs ht hn ((procArg_fails t e).1 h)
          · have h1' := (numArg_iff _ _ _).1 h1
            have := numArg_shorter h1'
            have h4 := ih g' bs' u (by omega) h2
            rw [h3] at h4
            exact .count _ s hd name t n u e hs ht hm h1' h4
  · intro h
    generalize hx : namesAt bs = names at h
    induction h generalizing fuel g bs with
    | number names s hd name t e hs ht hn h =>
      cases fuel with
      | zero => omega
      | succ fuel => exact (parts_step hs ht hn fuel g bs e).2 (Or.inl ((procArg_fails t e).2 h))
    | mark names s hd r e hs ht _ ih =>
      have := tok_progress hs ht
      cases fuel with
      | zero => omega
      | succ fuel =>
        rw [groupStatsGo_mark hs ht]
        exact ih _ _ _ (by omega) rfl
    | count names s hd name t n r e hs ht hm h1 _ ih =>
      have := tok_progress hs ht
      have := numArg_shorter h1
      have hn : name ≠ t!"@bucket" := by
        rintro rfl
        rw [← hx] at hm
        unfold namesAt at hm
        split at hm
        · exact mark_not.2 hm
        · exact mark_not.1 hm
      subst hx
      cases fuel with
      | zero => omega
      | succ fuel =>
        obtain ⟨g', bs', h2, h3⟩ := parts_count hs ht hn fuel g bs ((numArg_iff _ _ _).2 h1) hm
        rw [h2]
        exact ih _ _ _ (by omega) h3

theorem onlyStruct_packBucketStats (l : List (Option Int × Option Int)) : OnlyStruct (packBucketStats l) := by
  induction l with
  | nil => exact onlyStruct_ok _
  | cons a l ih =>
    obtain ⟨a, b⟩ := a
    exact onlyStruct_bind (onlyStruct_packAll _) fun _ => onlyStruct_bind ih fun _ => onlyStruct_ok _

theorem gstatOne_ok (s : Str) (b : Bytes) : gstatOne s = .ok b ↔ GStatEntry s b := by
  unfold gstatOne GStatEntry
  rw [bind_iff]
  have := gstatLine_iff s b
  constructor
  · rintro ⟨⟨g, r⟩, h1, h2⟩
    obtain ⟨x, ⟨h3, h4, h5⟩, h6⟩ := this.1 ⟨g, r, h1, h2⟩
    exact ⟨x, h3, h4, h5, h6⟩
  · rintro ⟨x, h3, h4, h5, h6⟩
    obtain ⟨g, r, h1, h2⟩ := this.2 ⟨x, ⟨h3, h4, h5⟩, h6⟩
    exact ⟨(g, r), h1, h2⟩

/-- What follows the reading of the counters. -/
def gstatPack (gid : Int) (x : Counters × List (Option Int × Option Int)) : Py Bytes := do
  let b ← packBucketStats x.2.reverse
  let h ← packU 2 (40 + b.length)
  let i ← packAll [(4, gid), (4, x.1.refCount.getD 0)]
  let c ← packAll [(8, x.1.packetCount.getD 0), (8, x.1.byteCount.getD 0), (4, x.1.durationSec.getD 0),
    (4, x.1.durationNsec.getD 0)]
  .ok ((h ++ (zeros 2 ++ (i ++ (zeros 4 ++ c)))) ++ b)

theorem groupStatBody_pack (gid : Int) (s : Str) : groupStatBody gid s = groupStatsGo (s.length + 1) {} [] s >>= gstatPack gid := rfl

theorem onlyStruct_gstatPack (gid : Int) (x : Counters × List (Option Int × Option Int)) : OnlyStruct (gstatPack gid x) :=
  onlyStruct_bind (onlyStruct_packBucketStats _) fun _ => onlyStruct_bind (onlyStruct_packU _ _) fun _ =>
    onlyStruct_bind (onlyStruct_packAll _) fun _ => onlyStruct_bind (onlyStruct_packAll _) fun _ => onlyStruct_ok _

theorem gstatOne_fails (s : Str) : Fails (gstatOne s) (GStatRejects s) := by
  intro e
  constructor
  · intro h
    have h0 := h
    unfold gstatOne at h
    rcases bindErr.1 h with h | ⟨⟨g, r⟩, h1, h⟩
    · exact .head s e ((statHead_fails _ _ _ (by omega) e).1 h)
    · obtain ⟨ids, h2, rfl⟩ := (statGroupHead_iff _ _ _ (by omega) _ _).1 h1
      dsimp only at h
      rw [groupStatBody_pack] at h
      rcases bindErr.1 h with h | ⟨⟨c, bs⟩, h4, h⟩
      · exact .parts s ids r e h2 ((parts_fails _ _ [] _ (by omega) e).1 h)
      · obtain ⟨l, ss, h5, rfl, rfl⟩ := (groupStats_iff _ _ _ (by omega) _ _).1 h4
        have := onlyStruct_gstatPack _ _ e h
        subst this
        refine .size s ⟨ids, l, ss⟩ ⟨r, h2, h5⟩ ?_
        rintro ⟨h7, h8⟩
        rw [(gstatOne_ok s _).2 ⟨⟨ids, l, ss⟩, ⟨r, h2, h5⟩, h7, h8, rfl⟩] at h0
        cases h0
  · intro h
    cases h with
    | head _ h =>
      unfold gstatOne
      rw [(statHead_fails _ _ _ (by omega) e).2 h]
      rfl
    | parts ids u _ h1 h2 =>
      unfold gstatOne
      rw [(statGroupHead_iff _ _ _ (by omega) _ _).2 ⟨ids, h1, rfl⟩, ok_bind]
      dsimp only
      rw [groupStatBody_pack, (parts_fails _ _ [] _ (by omega) e).2 h2]
      rfl
    | size x h1 h3 =>
      cases hb : gstatOne s with
      | ok b =>
        obtain ⟨y, h4, h5, h6, _⟩ := (gstatOne_ok s b).1 hb
        have := C71_group_unique h4 h1
        subst this
        exact absurd ⟨h5, h6⟩ h3
      | error e =>
        obtain ⟨u, h4, h5⟩ := h1
        unfold gstatOne at hb
        rw [(statGroupHead_iff _ _ _ (by omega) _ _).2 ⟨x.ids, h4, rfl⟩, ok_bind] at hb
        dsimp only at hb
        rw [groupStatBody_pack, (groupStats_iff _ _ _ (by omega) _ _).2 ⟨_, _, h5, rfl, rfl⟩, ok_bind] at hb
        rw [onlyStruct_gstatPack _ _ e hb]

theorem groupText_rejects (txt : Str) (xid : Int) : Fails (text2mpgroup txt 19 xid) (GroupTextRejects xid txt) := by
  intro e
  unfold text2mpgroup GroupTextRejects
  simp only [textLines_iff]
  rw [mpgroupGo_join, mp_fails gstatOne_ok gstatOne_fails 19 xid _ (by decide) _ e]
  exact ⟨fun h => ⟨_, rfl, h⟩, by rintro ⟨_, rfl, h⟩; exact h⟩

theorem groupAsk_rejects (txt : Str) (type xid : Int) (ht : type ≠ 19) : Fails (text2mpgroup txt type xid) (GroupAskRejects type xid txt) := by
  intro e
  have hok := C71_group_request txt type xid ht
  unfold GroupAskRejects
  unfold text2mpgroup at hok ⊢
  simp only [textLines_iff] at hok ⊢
  obtain ⟨line, lines, hsp⟩ : ∃ line lines, splitAll '\n' txt = line :: lines := by
    have := ((textLines_iff txt _).2 rfl).1
    cases h : splitAll '\n' txt with
    | nil => exact absurd h this
    | cons a b => exact ⟨a, b, rfl⟩
  rw [hsp] at hok ⊢
  have hb : (type != ((OFPT_MULTIPART_REPLY : Nat) : Int)) = true := bne_iff_ne.2 ht
  have hgo : ∀ k, (mpgroupGo type [] (line :: lines) >>= mpMessage type xid k) = (statGroupHead (line.length + 1) 0 line >>= fun x =>
      (packU 4 x.1 >>= fun b => (.ok (b ++ zeros 4) : Py Bytes)) >>= mpMessage type xid k) := by
    intro k
    rw [mpgroupGo, bind_assoc']
    congr 1
    funext x
    dsimp only
    rw [if_pos hb]
  have only : ∀ g k, OnlyStruct ((packU 4 g >>= fun b => (.ok (b ++ zeros 4) : Py Bytes)) >>= mpMessage type xid k) := fun g k =>
    onlyStruct_bind (onlyStruct_bind (onlyStruct_packU _ _) fun _ => onlyStruct_ok _) fun _ => onlyStruct_mp _ _ _ _
  constructor
  · intro h
    have h0 := h
    refine ⟨line, lines, rfl, ?_⟩
    rw [hgo] at h
    rcases bindErr.1 h with h | ⟨⟨g, r⟩, h1, h⟩
    · exact Or.inl ((statHead_fails _ _ _ (by omega) e).1 h)
    · obtain ⟨ids, h2, rfl⟩ := (statGroupHead_iff _ _ _ (by omega) _ _).1 h1
      refine Or.inr ⟨only _ _ e h, ids, r, h2, ?_⟩
      rintro ⟨h3, h4, h5⟩
      rw [(hok _).2 ⟨line, lines, ids, r, rfl, h2, h3, h4, h5, rfl⟩] at h0
      cases h0
  · rintro ⟨_, _, h, h'⟩
    obtain ⟨rfl, rfl⟩ := List.cons.inj h
    rcases h' with h' | ⟨rfl, ids, r, h2, h3⟩
    · rw [hgo, (statHead_fails _ _ _ (by omega) e).2 h']
      rfl
    · cases hm : (mpgroupGo type [] (line :: lines) >>= mpMessage type xid OFPMP_GROUP) with
      | ok m =>
        obtain ⟨line', lines', ids', r', h4, h5, h6, h7, h8, _⟩ := (hok m).1 hm
        obtain ⟨rfl, rfl⟩ := List.cons.inj h4
        obtain ⟨rfl, _⟩ := headS_det h5 h2
        exact absurd ⟨h6, h7, h8⟩ h3
      | error e =>
        rw [hgo, (statGroupHead_iff _ _ _ (by omega) _ _).2 ⟨ids, h2, rfl⟩, ok_bind] at hm
        rw [only _ _ e hm]

theorem descAsk_rejects (txt : Str) (type xid : Int) (ht : type ≠ 19) (e : Err) : text2mpgroupdesc txt type xid = .error e ↔
    e = .structError ∧ ¬ (FitsIn 1 type ∧ FitsIn 4 xid) := by
  unfold text2mpgroupdesc
  rw [if_pos (show (type != ((OFPT_MULTIPART_REPLY : Nat) : Int)) = true from bne_iff_ne.2 ht)]
  constructor
  · intro h
    refine ⟨onlyStruct_mp _ _ _ _ e h, ?_⟩
    rintro ⟨h1, h2⟩
    rw [(mpMessage_iff _ _ _ _ _ (by decide)).2 ⟨⟨h1, h2, by decide⟩, rfl⟩] at h
    cases h
  · rintro ⟨rfl, h⟩
    cases hm : mpMessage type xid OFPMP_GROUP_DESC [] with
    | ok m => exact absurd ⟨((mpMessage_iff _ _ _ _ _ (by decide)).1 hm).1.1, ((mpMessage_iff _ _ _ _ _ (by decide)).1 hm).1.2.1⟩ h
    | error e => rw [onlyStruct_mp _ _ _ _ e hm]

end Ofpstr
