import Verif.Lemmas.ActLearn

/-!
# The arguments of every action are read in the order of the specification
-/

set_option linter.unusedSimpArgs false
set_option linter.unusedVariables false

namespace Ofpstr

open Spec

theorem fails_qp (v : Str) : Fails (a2bQp v) (Needs (∀ c ∈ v, c.toNat < 128) .valueError) := by
  refine fails_needs ?_ (fun e he => a2bQp_err he)
  constructor
  · rintro ⟨b, h⟩
    exact ((a2bQp_iff _ _).1 h).1
  · intro h
    exact ⟨_, (a2bQp_iff _ _).2 ⟨h, qpMeans_go (v.length + 1) v (by omega)⟩⟩

theorem idText_total (mask : Bool) {n : Str} (hn : getToken n = ([], n, [])) : ∃ id, str2oxmid mask n = .ok id := by
  rcases known_cases n with ⟨f, hm, rfl⟩ | hun
  · exact ⟨_, (oxmid_iff mask _ hn _).2 (.known f hm)⟩
  · exact ⟨_, (oxmid_iff mask _ hn _).2 (.unknown n hun)⟩

theorem chain_pure {α β : Type} {a : α} {x : Py α} {f : α → Py β} {ps : List Refuses} (h : x = .ok a) (hf : Chain (f a) ps) :
    Chain (x >>= f) ps := by
  rw [h, ok_bind]
  exact hf

theorem chain_eq {α : Type} {x y : Py α} {ps : List Refuses} (h : x = y) (hy : Chain y ps) : Chain x ps := h ▸ hy

/-! ## Actions of the standard -/

theorem stdEnc_lookup (a : StdAct) (ha : a ∈ stdActs) : lookupAct a.name = some (match a.arg with
    | .none => .generic a.type
    | .ether => .push a.type
    | .ttl => .uint a.type 1 (if a.name = t!"set_nw_ttl" then 0 else 3)
    | .word => .uint a.type 4 0) := by
  simp only [stdActs, List.mem_cons, List.not_mem_nil, or_false] at ha
  rcases ha with rfl | rfl | rfl | rfl | rfl | rfl | rfl | rfl | rfl | rfl | rfl | rfl | rfl | rfl <;> rfl

theorem chain_uint (t k p : Nat) {u h v r : Str} (ht : Tok u h v r) : Chain (uintStr2act t k p u) [WholeRejects v] := by
  unfold uintStr2act
  rw [tok_get ht]
  dsimp only
  refine chain_whole (fun x n hn => ?_) (fun x hx => ?_)
  · dsimp only
    rw [show (n == v.length) = false by simpa using hn]
    rfl
  · dsimp only
    rw [show (v.length == v.length) = true by simp]
    refine chain_pure rfl ?_
    exact chain_end (onlyStruct_bind (onlyStruct_packU _ _) fun _ => onlyStruct_ok _)

theorem chain_push (t : Nat) {u h v r : Str} (ht : Tok u h v r) : Chain (pushStr2act t u) [LooseRejects v] := by
  unfold pushStr2act
  rw [tok_get ht]
  dsimp only
  refine chain_bind (fails_int v) fun x _ => ?_
  exact chain_end (onlyStruct_bind (onlyStruct_packU _ _) fun _ => onlyStruct_ok _)

theorem chain_std {a : StdAct} (ha : a ∈ stdActs) (eq : Bool) {k : ActEnc} (hk : lookupAct a.name = some k) {u h v r : Str}
    (ht : Tok u h v r) : Chain (runActEnc k u eq) (match a.arg with
      | .none => []
      | .ether => [LooseRejects v]
      | _ => [WholeRejects v]) := by
  rw [stdEnc_lookup a ha] at hk
  cases hk
  cases a.arg with
  | none => exact chain_end (onlyStruct_ok _)
  | ether => exact chain_push _ ht
  | ttl => exact chain_uint _ _ _ ht
  | word => exact chain_uint _ _ _ ht

theorem no_colon {p : Str} (h : ':' ∉ p) : ∀ c ∈ p, c ≠ ':' := fun c hc e => h (e ▸ hc)

theorem slash_iff (v : Str) : (!hasChar v '/') = true ↔ '/' ∉ v := by
  rw [Bool.not_eq_true', ← Bool.not_eq_true, hasChar_iff]

theorem chain_output {u h v r : Str} (ht : Tok u h v r) (hc : ':' ∉ v) :
    Chain (outputStr2act u) [Needs ('/' ∉ v) .assertionError, PortNameRejects v] := by
  unfold outputStr2act
  rw [tok_get ht]
  dsimp only
  refine chain_bind (fails_assert (slash_iff v)) fun _ _ => ?_
  rw [split1_none ':' v (no_colon hc)]
  dsimp only
  refine chain_bind (fails_nameOrPort v) fun p _ => ?_
  refine chain_pure rfl ?_
  exact chain_end (onlyStruct_bind (onlyStruct_packAll _) fun _ => onlyStruct_ok _)

theorem chain_outputMax {u h p m w r : Str} (ht : Tok u h (p ++ ':' :: w) r) (hp : ':' ∉ p) (hm : (split1 ':' w).1 = m) :
    Chain (outputStr2act u) [Needs ('/' ∉ p ++ ':' :: w) .assertionError, PortNameRejects p, WholeRejects m] := by
  unfold outputStr2act
  rw [tok_get ht]
  dsimp only
  refine chain_bind (fails_assert (slash_iff _)) fun _ _ => ?_
  rw [split1_some ':' p w (no_colon hp)]
  dsimp only
  refine chain_bind (fails_nameOrPort p) fun n _ => ?_
  rw [hm]
  refine chain_after ?_ (fun _ => onlyStruct_bind (onlyStruct_packAll _) fun _ => onlyStruct_ok _)
  refine chain_whole (fun x n hn => ?_) (fun x hx => ?_)
  · dsimp only
    rw [show (m.length == n) = false by simpa using fun e => hn e.symm]
    rfl
  · dsimp only
    rw [show (m.length == m.length) = true by simp]
    exact chain_end (onlyStruct_ok _)

/-! ## Nicira actions -/

theorem chain_note (eq : Bool) {u h v r : Str} (ht : Tok u h v r) : Chain (qpStr2act NXAST_NOTE u eq)
    [Needs (eq = true → '=' ∈ h) .assertionError, Needs (∀ c ∈ v, c.toNat < 128) .valueError] := by
  unfold qpStr2act
  rw [tok_get ht]
  dsimp only
  refine chain_bind (fails_assert (readarg_iff eq h)) fun _ _ => ?_
  refine chain_bind (fails_qp v) fun q _ => ?_
  exact chain_end (onlyStruct_bind (onlyStruct_fixActLen _) fun _ => onlyStruct_ok _)

theorem chain_tunnel (t : Nat) (eq : Bool) {u h v r : Str} (ht : Tok u h v r) : Chain (setTunnelStr2act t u eq)
    [Needs (eq = true → '=' ∈ h) .assertionError, WholeRejects v] := by
  unfold setTunnelStr2act
  apply chain_wrap
  rw [tok_get ht]
  dsimp only
  refine chain_bind (fails_assert (readarg_iff eq h)) fun _ _ => ?_
  refine chain_whole (fun x n hn => ?_) (fun x hx => ?_)
  · dsimp only
    rw [show (n == v.length) = false by simpa using hn]
    rfl
  · dsimp only
    rw [show (v.length == v.length) = true by simp]
    refine chain_pure rfl ?_
    split
    · exact chain_end (onlyStruct_bind (onlyStruct_packU _ _) fun _ => onlyStruct_ok _)
    · exact chain_end (onlyStruct_bind (onlyStruct_packU _ _) fun _ => onlyStruct_ok _)

theorem noInt_notWhole {s : Str} (h : NoInt s) {v : Int} (hv : WholeInt s v) : False := h _ _ (noInt_whole hv)

theorem noInt_rejects {s : Str} (h : NoInt s) (e : Err) : WholeRejects s e ↔ e = .valueError := by
  constructor
  · intro he
    cases he with
    | none => rfl
    | junk v c r h' => exact absurd h' (h _ _)
  · rintro rfl
    exact .none s h

theorem junk_rejects {s : Str} {v : Int} {c : Char} {r : Str} (h : IntThen s v (c :: r)) (e : Err) :
    WholeRejects s e ↔ e = .assertionError := by
  constructor
  · intro he
    cases he with
    | none h' => exact absurd h (h' _ _)
    | junk => rfl
  · rintro rfl
    exact .junk s v c r h

theorem whole_rejects {s : Str} {v : Int} (h : IntThen s v []) (hu : ∀ w t, IntThen s w t → w = v ∧ t = []) : Right (WholeRejects s) := by
  intro e he
  cases he with
  | none h' => exact h' _ _ h
  | junk w c r h' => cases (hu _ _ h').2

theorem upper_iff (p w : Str) (hw : ∀ c ∈ w, c.toNat < 97) : (upperStr p == w) = true ↔ AnyCase p w := by
  rw [beq_iff_eq, anyCase_iff p w hw]

theorem fails_resubmitPort (p : Str) : Fails (resubmitPort p) (ResubmitPortRejects p) := by
  unfold resubmitPort
  by_cases hc : AnyCase p t!"IN_PORT"
  · rw [if_pos ((upper_iff _ _ (by decide)).2 hc)]
    refine fails_none rfl fun e he => ?_
    cases he with
    | word _ h _ => exact h hc
    | big v h _ => exact anyCase_noInt hc (by decide) h
  · rw [if_neg (fun h => hc ((upper_iff _ _ (by decide)).1 h))]
    rcases int_cases p with ⟨h, hno⟩ | ⟨a, r, v, hs, h, hi, uni⟩
    · refine fails_of (k := .valueError) (by rw [h]; rfl) fun e => ⟨?_, ?_⟩
      · intro he
        cases he with
        | word _ _ h => exact (noInt_rejects hno e).1 h
        | big v h _ => exact (noInt_notWhole hno h).elim
      · rintro rfl
        exact .word p _ hc (.none p hno)
    · cases r with
      | cons c r =>
        refine fails_of (k := .assertionError) ?_ fun e => ⟨?_, ?_⟩
        · rw [h, ok_bind]
          dsimp only
          rw [show (p.length == a.length) = false by rw [hs]; simp]
          rfl
        · intro he
          cases he with
          | word _ _ h => exact (junk_rejects hi e).1 h
          | big => rfl
        · rintro rfl
          exact .word p _ hc (.junk p v c r hi)
      | nil =>
        have hw : WholeInt p v := by
          obtain ⟨l, h1, h2⟩ := hi
          have h3 := (parseInt_iff _ _ _).2 h1
          rw [h] at h3
          cases h3
          rw [List.append_nil] at hs
          subst hs
          exact h1
        rw [h, ok_bind]
        dsimp only
        rw [show (p.length == a.length) = true by rw [hs]; simp]
        show Fails (pyAssert (decide (v < 0xff00)) >>= fun _ => .ok v) _
        by_cases hb : v < 0xff00
        · rw [show decide (v < 0xff00) = true by simpa using hb]
          refine fails_none (a := v) rfl fun e he => ?_
          cases he with
          | word _ _ h => exact whole_rejects hi uni _ h
          | big w h h' =>
            have := (uni _ _ (noInt_whole h)).1
            omega
        · rw [show decide (v < 0xff00) = false by simpa using hb]
          refine fails_of (k := .assertionError) rfl fun e => ⟨?_, ?_⟩
          · intro he
            cases he with
            | word _ _ h => exact absurd h (whole_rejects hi uni _)
            | big => rfl
          · rintro rfl
            exact .big p v hw (by omega)

theorem fails_resubmitTbl (p : Str) : Fails (resubmitTbl p) (ResubmitTableRejects p) := by
  unfold resubmitTbl
  by_cases hc : p = [] ∨ AnyCase p t!"ALL"
  · rw [if_pos (by
      rw [Bool.or_eq_true]
      rcases hc with rfl | hc
      · exact Or.inl rfl
      · exact Or.inr ((upper_iff _ _ (by decide)).2 hc))]
    refine fails_none rfl fun e he => ?_
    rcases hc with hc | hc
    · exact he.1 hc
    · exact he.2.1 hc
  · rw [if_neg (by
      rw [Bool.or_eq_true]
      rintro (h | h)
      · exact hc (Or.inl (by simpa using h))
      · exact hc (Or.inr ((upper_iff _ _ (by decide)).1 h)))]
    have hne : p ≠ [] := fun h => hc (Or.inl h)
    have hnc : ¬ AnyCase p t!"ALL" := fun h => hc (Or.inr h)
    have hiff : ∀ e, ResubmitTableRejects p e ↔ WholeRejects p e := fun e => ⟨fun h => h.2.2, fun h => ⟨hne, hnc, h⟩⟩
    rcases int_cases p with ⟨h, hno⟩ | ⟨a, r, v, hs, h, hi, uni⟩
    · exact fails_of (k := .valueError) (by rw [h]; rfl) fun e => (hiff e).trans (noInt_rejects hno e)
    · cases r with
      | cons c r =>
        refine fails_of (k := .assertionError) ?_ fun e => (hiff e).trans (junk_rejects hi e)
        rw [h, ok_bind]
        dsimp only
        rw [show (a.length == p.length) = false by rw [hs]; simp]
        rfl
      | nil =>
        refine fails_none (a := v) ?_ fun e he => whole_rejects hi uni e ((hiff e).1 he)
        rw [h, ok_bind]
        dsimp only
        rw [show (a.length == p.length) = true by rw [hs]; simp]
        rfl

theorem chain_resubmit (eq : Bool) {u h p r : Str} (ht : Tok u h p r) : Chain (resubmitStr2act false u eq)
    [ResubmitPortRejects p, Needs (eq = true → '=' ∈ h) .assertionError] := by
  unfold resubmitStr2act
  apply chain_wrap
  rw [tok_get ht]
  dsimp only
  refine chain_bind (fails_resubmitPort p) fun n _ => ?_
  have hend : ∀ (tbl u2 : Str), tbl = [] → OnlyStruct (do
      let table ← resubmitTbl tbl
      let b ← packAll [(2, n), (1, table)]
      .ok (nxastHdr NXAST_RESUBMIT ++ b, u.length - u2.length) : Py (Bytes × Nat)) := by
    rintro _ u2 rfl
    exact onlyStruct_bind (onlyStruct_ok _) fun _ => onlyStruct_bind (onlyStruct_packAll _) fun _ => onlyStruct_ok _
  cases eq with
  | true =>
    rw [if_pos rfl, bind_assoc]
    refine chain_bind (fails_assert ?_) fun _ _ => ?_
    · rw [hasChar_iff]; simp
    · exact chain_end (hend [] r rfl)
  | false =>
    refine chain_right (fun e he => he.1 (fun h => by (cases h))) ?_
    exact chain_end (hend [] r rfl)

theorem chain_resubmitEq {u h p r : Str} (ht : Tok u h p r) : Chain (resubmitStr2act true u true)
    [ResubmitPortRejects p, Needs ('=' ∈ h) .assertionError] := by
  unfold resubmitStr2act
  apply chain_wrap
  rw [tok_get ht]
  dsimp only
  refine chain_bind (fails_resubmitPort p) fun n _ => ?_
  rw [if_pos rfl, bind_assoc]
  refine chain_bind (fails_assert (hasChar_iff _ _)) fun _ _ => ?_
  rw [tok_nocolon ht]
  refine chain_pure rfl ?_
  exact chain_end (onlyStruct_bind (onlyStruct_ok _) fun _ => onlyStruct_bind (onlyStruct_packAll _) fun _ => onlyStruct_ok _)

theorem chain_resubmitTable {u p t r : Str} (hw : Words u [p, t] r) : Chain (resubmitStr2act true u false)
    [ResubmitPortRejects p, ResubmitTableRejects t] := by
  obtain ⟨h1, u1, e1, hw⟩ := words_cons.1 hw
  obtain ⟨h2, u2, e2, hw⟩ := words_cons.1 hw
  unfold resubmitStr2act
  apply chain_wrap
  rw [e1]
  dsimp only
  refine chain_bind (fails_resubmitPort p) fun n _ => ?_
  rw [if_neg (by decide), if_pos rfl, e2]
  refine chain_pure rfl ?_
  dsimp only
  refine chain_bind (fails_resubmitTbl t) fun n _ => ?_
  exact chain_end (onlyStruct_bind (onlyStruct_packAll _) fun _ => onlyStruct_ok _)

theorem chain_cntIdsEq {u h v r : Str} {ts : List Str} (ht : Tok u h v r) (hc : Cut v ts) : Chain (cntIdsStr2act u true)
    [Needs ('=' ∈ h) .assertionError, LooseAll ts] := by
  unfold cntIdsStr2act
  apply chain_wrap
  rw [if_pos rfl, tok_get ht]
  dsimp only
  refine chain_bind (fails_assert (hasChar_iff _ _)) fun _ _ => ?_
  rw [split_cut hc]
  refine chain_bind (fails_ints ts) fun n _ => ?_
  exact chain_end (onlyStruct_bind (onlyStruct_packU _ _) fun _ => onlyStruct_bind (onlyStruct_packHs _) fun _ => onlyStruct_ok _)

theorem chain_cntIds {u : Str} {ts : List Str} (hp : Pieces u ts) : Chain (cntIdsStr2act u false) [LooseAll ts] := by
  unfold cntIdsStr2act
  apply chain_wrap
  rw [if_neg (by decide), (pieces_iff _ _).1 hp]
  refine chain_bind (fails_ints ts) fun n _ => ?_
  exact chain_end (onlyStruct_bind (onlyStruct_packU _ _) fun _ => onlyStruct_bind (onlyStruct_packHs _) fun _ => onlyStruct_ok _)

/-! ### `reg_load` -/

theorem onlyStruct_need (b : Bytes) (i n : Nat) : OnlyStruct (needBytes b i n) := by
  intro e h
  unfold needBytes at h
  split at h <;> cases h
  rfl

theorem cut_ne (t : Tlv) (hf : t.field ∈ fields) : t.cut ≠ [] := by
  intro h
  have := (cut_parts t hf).1
  rw [h] at this
  exact needBytes_nil this

theorem matchItem_field {u v r : Str} {t : Tlv} (h : MatchItem u v t r) : t.field ∈ fields := by
  obtain ⟨_, _, _, _, _, _, _, hf, _⟩ := h
  exact hf

theorem matchItem_mask {u v r : Str} {t : Tlv} (h : MatchItem u v t r) : ∀ q, t.mask = some q → q.length = t.value.length := by
  obtain ⟨_, _, _, _, _, _, _, _, hv⟩ := h
  intro q hq
  rw [hq] at hv
  exact valueText_len hv

theorem fails_item {u : Str} (hu : u ≠ []) : Fails (str2oxm1 u) (RegItem u) := by
  intro e
  rw [str2oxm1_rejects]
  exact ⟨fun h => Or.inr h, fun h => h.elim (fun h => absurd h.1 hu) id⟩

theorem chain_regLoad2 (u : Str) : Chain (regLoad2Str2act u false) [RegItem u] := by
  unfold regLoad2Str2act
  apply chain_wrap
  rw [if_neg (by decide)]
  by_cases hu : u = []
  · subst hu
    have hp : ∀ e, RegItem [] e ↔ e = .valueError :=
      fun e => ⟨fun h => h.elim (·.2) (fun h => absurd rfl h.1), fun h => Or.inl ⟨rfl, h⟩⟩
    exact chain_raise hp
  · refine chain_bind (fails_item hu) ?_
    rintro ⟨oxm, n⟩ ho
    dsimp only
    obtain ⟨v, t, r, h1, h2, rfl⟩ := (oxm1_iff hu _ _).1 ho
    rw [if_neg (by simpa using matchItem_len h1)]
    exact chain_end (onlyStruct_bind (onlyStruct_need _ _ _) fun _ => onlyStruct_ok _)

theorem chain_regLoad (u : Str) : Chain (regLoadStr2act u false) [RegItem u, Needs (HasOnes u) .typeError] := by
  unfold regLoadStr2act
  apply chain_wrap
  rw [if_neg (by decide)]
  by_cases hu : u = []
  · subst hu
    have hp : ∀ e, RegItem [] e ↔ e = .valueError :=
      fun e => ⟨fun h => h.elim (·.2) (fun h => absurd rfl h.1), fun h => Or.inl ⟨rfl, h⟩⟩
    exact chain_raise hp
  · refine chain_bind (fails_item hu) ?_
    rintro ⟨oxm, n⟩ ho
    dsimp only
    obtain ⟨v, t, r, h1, h2, rfl⟩ := (oxm1_iff hu _ _).1 ho
    rw [if_neg (by simpa using matchItem_len h1)]
    have huniq : ∀ v' t' r', MatchItem u v' t' r' → (if v' = [] then [] else t'.cut) = oxm := by
      intro v' t' r' h'
      have := (oxm1_iff hu _ _).2 ⟨v', t', r', h', rfl, rfl⟩
      rw [ho] at this
      simp only [Except.ok.injEq, Prod.mk.injEq] at this
      exact this.1.symm
    by_cases hv : v = []
    · rw [if_pos hv] at h2
      subst h2
      refine chain_fail ?_
      intro p hp e he
      rw [List.mem_singleton] at hp
      subst hp
      refine he.1 fun v' t' r' p m h' hv' => ?_
      have := huniq v' t' r' h'
      rw [if_neg hv'] at this
      exact absurd this (cut_ne t' (matchItem_field h'))
    · rw [if_neg hv] at h2
      subst h2
      have hf := matchItem_field h1
      have hl := matchItem_mask h1
      obtain ⟨c0, c1, c2, c3⟩ := cut_parts t hf
      rw [c0]
      refine chain_pure rfl ?_
      rw [c1, c2, c3]
      have hsame : ∀ v' t' r', MatchItem u v' t' r' → v' ≠ [] → t'.mask.isSome = t.mask.isSome ∧ t'.loadBytes = t.loadBytes := by
        intro v' t' r' h' hv'
        have hc := huniq v' t' r' h'
        rw [if_neg hv'] at hc
        obtain ⟨_, d1, d2, d3⟩ := cut_parts t' (matchItem_field h')
        rw [hc] at d1 d2 d3
        have e1 := d1.symm.trans c1
        rw [e1, c3] at d3
        refine ⟨?_, d3.symm⟩
        have e2 := d2.symm.trans c2
        cases h3 : t'.mask.isSome <;> cases h4 : t.mask.isSome <;> simp [h3, h4] at e2 ⊢ <;> omega
      cases hm : t.mask.isSome with
      | true =>
        rw [if_pos (by rw [if_pos rfl]; simp)]
        have hev := loadBytes_even t hl hm
        have hones : HasOnes u ↔ ∃ s k, MaskRun (t.loadBytes.drop (t.loadBytes.length / 2)) s k := by
          constructor
          · intro h
            refine h v t r (t.loadBytes.take (t.loadBytes.length / 2)) _ h1 hv (by intro h; rw [h] at hm; cases hm) (by simp) ?_
            simp only [List.length_take, List.length_drop]
            omega
          · intro h v' t' r' p m h' hv' hm' hp hlen
            rw [(hsame v' t' r' h' hv').2] at hp
            have : t.loadBytes.drop (t.loadBytes.length / 2) = m := by
              rw [hp]
              exact List.drop_left' (by simp; omega)
            rw [← this]
            exact h
        rcases hs : maskScan (t.loadBytes.drop (t.loadBytes.length / 2)) with ⟨s, k⟩
        cases k with
        | none =>
          refine chain_raise fun e => ⟨fun h => h.2, fun h => ⟨fun h' => ?_, h⟩⟩
          obtain ⟨s', k', hr⟩ := hones.1 h'
          rw [(maskScan_iff _ _ _).2 hr] at hs
          cases hs
        | some k =>
          refine chain_right (fun e he => he.1 (hones.2 ⟨s, k, (maskScan_iff _ _ _).1 hs⟩)) ?_
          exact chain_end (onlyStruct_bind (onlyStruct_packAll _) fun _ => onlyStruct_ok _)
      | false =>
        rw [if_neg (by rw [if_neg (by decide)]; simp)]
        refine chain_right (fun e he => he.1 fun v' t' r' p m h' hv' hm' => ?_) ?_
        · have := (hsame v' t' r' h' hv').1
          rw [hm] at this
          exact absurd (by simpa using this) hm'
        · exact chain_end (onlyStruct_bind (onlyStruct_packAll _) fun _ => onlyStruct_ok _)

/-! ### Bits -/

theorem bits_tok {u : Str} {f : Field} {a b : Int} {r : Str} (h : Bits u f a b r) : ∃ x t, Tok u x t r := by
  cases h with
  | whole h t _ _ _ h1 => exact ⟨h, t, h1⟩
  | range h t _ x y _ _ _ h1 => exact ⟨h, t, h1⟩

theorem chain_regMove {u s d r : Str} (hw : Words u [s, d] r) : Chain (regMoveStr2act u false) [BitsRejects s, BitsRejects d,
    Needs (∀ f a b u' g c d r, Bits u f a b u' → Bits u' g c d r → b - a = d - c) .assertionError] := by
  obtain ⟨h1, u1, e1, hw⟩ := words_cons.1 hw
  obtain ⟨h2, u2, e2, hw⟩ := words_cons.1 hw
  unfold regMoveStr2act
  apply chain_wrap
  rw [if_neg (by decide)]
  refine chain_bind (fails_bits (eq_tok e1)) ?_
  rintro ⟨id, a, n, v1⟩ hb
  dsimp only
  obtain ⟨f, b, hbits, rfl, rfl⟩ := (getBits_iff _ _ _ _ _).1 hb
  obtain ⟨x, t, ht⟩ := bits_tok hbits
  cases e1.symm.trans (tok_get ht)
  refine chain_bind (fails_bits (eq_tok e2)) ?_
  rintro ⟨id', c, n', v2⟩ hb'
  dsimp only
  obtain ⟨g, d', hbits', rfl, rfl⟩ := (getBits_iff _ _ _ _ _).1 hb'
  refine chain_bind (fails_assert ?_) fun _ _ => ?_
  · rw [beq_iff_eq]
    constructor
    · intro h f2 a2 b2 u2' g2 c2 d2 r2 k1 k2
      have e3 := hb.symm.trans ((getBits_iff _ _ _ _ _).2 ⟨f2, b2, k1, rfl, rfl⟩)
      simp only [Except.ok.injEq, Prod.mk.injEq] at e3
      obtain ⟨_, _, e5, rfl⟩ := e3
      have e4 := hb'.symm.trans ((getBits_iff _ _ _ _ _).2 ⟨g2, d2, k2, rfl, rfl⟩)
      simp only [Except.ok.injEq, Prod.mk.injEq] at e4
      obtain ⟨_, _, e6, _⟩ := e4
      rw [← e5, ← e6]
      exact h
    · intro h
      exact h _ _ _ _ _ _ _ _ hbits hbits'
  · exact chain_end (onlyStruct_bind (onlyStruct_packAll _) fun _ => onlyStruct_ok _)

theorem chain_multipath {u hs bs as ls gs ds r : Str} (hw : Words u [hs, bs, as, ls, gs, ds] r) : Chain (multipathStr2act u false)
    [OneOf hashWords hs, WholeRejects bs, OneOf mpAlgWords as, WholeRejects ls, LooseRejects gs, BitsRejects ds] := by
  obtain ⟨h1, u1, e1, hw⟩ := words_cons.1 hw
  obtain ⟨h2, u2, e2, hw⟩ := words_cons.1 hw
  obtain ⟨h3, u3, e3, hw⟩ := words_cons.1 hw
  obtain ⟨h4, u4, e4, hw⟩ := words_cons.1 hw
  obtain ⟨h5, u5, e5, hw⟩ := words_cons.1 hw
  obtain ⟨h6, u6, e6, hw⟩ := words_cons.1 hw
  unfold multipathStr2act
  apply chain_wrap
  rw [if_neg (by decide), e1]
  dsimp only
  refine chain_bind (fails_index (by decide) hs) fun mh _ => ?_
  rw [e2]
  dsimp only
  refine chain_whole (fun x n hn => ?_) (fun x hx => ?_)
  · dsimp only
    rw [show (n == bs.length) = false by simpa using hn]
    rfl
  dsimp only
  rw [show (bs.length == bs.length) = true by simp]
  refine chain_pure rfl ?_
  rw [e3]
  dsimp only
  refine chain_bind (fails_index (by decide) as) fun ma _ => ?_
  rw [e4]
  dsimp only
  refine chain_whole (fun x n hn => ?_) (fun y hy => ?_)
  · dsimp only
    rw [show (n == ls.length) = false by simpa using hn]
    rfl
  dsimp only
  rw [show (ls.length == ls.length) = true by simp]
  refine chain_pure rfl ?_
  rw [e5]
  dsimp only
  refine chain_bind (fails_int gs) fun ga _ => ?_
  rw [e6]
  dsimp only
  have hds := token_self e6
  refine chain_bind (fails_bits (eq_tok hds)) ?_
  rintro ⟨id, a, n, j⟩ hb
  dsimp only
  obtain ⟨f, b, hbits, rfl, rfl⟩ := (getBits_iff _ _ _ _ _).1 hb
  obtain ⟨_, _, ht⟩ := bits_tok hbits
  cases hds.symm.trans (tok_get ht)
  refine chain_pure (a := ()) rfl ?_
  exact chain_end (onlyStruct_bind (onlyStruct_packAll _) fun _ => onlyStruct_bind (onlyStruct_packAll _) fun _ =>
    onlyStruct_bind (onlyStruct_packU _ _) fun _ => onlyStruct_ok _)

theorem chain_bundle {u hs bs as st sl r : Str} (hw : Words u [hs, bs, as, st, sl] r) : Chain (bundleStr2act u false)
    [OneOf hashWords hs, LooseRejects bs, OneOf bdAlgWords as, SlavesRejects sl] := by
  obtain ⟨h1, u1, e1, hw⟩ := words_cons.1 hw
  obtain ⟨h2, u2, e2, hw⟩ := words_cons.1 hw
  obtain ⟨h3, u3, e3, hw⟩ := words_cons.1 hw
  obtain ⟨h4, u4, e4, hw⟩ := words_cons.1 hw
  obtain ⟨h5, u5, e5, hw⟩ := words_cons.1 hw
  unfold bundleStr2act
  apply chain_wrap
  rw [if_neg (by decide), e1]
  dsimp only
  rw [e2]
  dsimp only
  rw [e3]
  dsimp only
  rw [e4]
  dsimp only
  rw [e5]
  dsimp only
  refine chain_bind (fails_index (by decide) hs) fun mh _ => ?_
  refine chain_bind (fails_int bs) fun mb _ => ?_
  refine chain_bind (fails_index (by decide) as) fun ma _ => ?_
  obtain ⟨id, hid⟩ := idText_total true (token_self e4)
  refine chain_pure hid ?_
  refine chain_bind (fails_slaves sl) fun ps _ => ?_
  exact chain_end (onlyStruct_bind (onlyStruct_packAll _) fun _ => onlyStruct_bind (onlyStruct_packU _ _) fun _ =>
    onlyStruct_bind (onlyStruct_packHs _) fun _ => onlyStruct_ok _)

theorem startRead_bind {β : Type} (mask : Bool) (len : Bytes → Py Unit) (t : Str) (f : Bytes → Int × Option Int → Py β) :
    (parseFunc t >>= fun x => str2oxmid mask x.1 >>= fun id => (match x.2 with
      | some (c :: cs) => intSplit (c :: cs)
      | _ => do
        len id
        .ok (0, some ((uAt id 3 1 : Int) * 8)) : Py (Int × Option Int)) >>= fun y => f id y) =
    startRead mask len t >>= fun z => f z.1 z.2 := by
  unfold startRead
  simp only [bind_assoc]
  rfl

theorem chain_bundleLoad {u hs bs as st ds sl r : Str} (hw : Words u [hs, bs, as, st, ds, sl] r) : Chain (bundleLoadStr2act u false)
    [OneOf hashWords hs, LooseRejects bs, OneOf bdAlgWords as, StartRejects false ds, SlavesRejects sl,
        Needs (∀ v l, IntSyntax bs v l → FitsIn 2 v) .structError, EndMissing ds] := by
  obtain ⟨h1, u1, e1, hw⟩ := words_cons.1 hw
  obtain ⟨h2, u2, e2, hw⟩ := words_cons.1 hw
  obtain ⟨h3, u3, e3, hw⟩ := words_cons.1 hw
  obtain ⟨h4, u4, e4, hw⟩ := words_cons.1 hw
  obtain ⟨h5, u5, e5, hw⟩ := words_cons.1 hw
  obtain ⟨h6, u6, e6, hw⟩ := words_cons.1 hw
  unfold bundleLoadStr2act
  apply chain_wrap
  rw [if_neg (by decide), e1]
  dsimp only
  rw [e2]
  dsimp only
  rw [e3]
  dsimp only
  rw [e4]
  dsimp only
  rw [e5]
  dsimp only
  rw [e6]
  dsimp only
  refine chain_bind (fails_index (by decide) hs) fun mh hmh => ?_
  refine chain_bind (fails_int bs) ?_
  rintro ⟨mb, l⟩ hmb
  dsimp only
  refine chain_bind (fails_index (by decide) as) fun ma hma => ?_
  refine chain_eq (startRead_bind true (fun b => bundleLoadStr2act.pyStructLen b 4) ds (fun doxmid y => do
      let ports ← bundleSlaves sl
      let a ← packAll [(2, ma), (2, mh), (2, mb)]
      let st ← str2oxmid true st
      let r1 ← intSecond y.2
      let b ← packAll [(2, ports.length), (2, y.1 * 64 + (r1 - 1))]
      let ps ← packHs ports
      .ok (nxastHdr NXAST_BUNDLE_LOAD ++ (a ++ (st ++ (b ++ (doxmid ++ (zeros 4 ++ ps))))),
        u.length - u6.length))) ?_
  have hlen : ∀ b, bundleLoadStr2act.pyStructLen b 4 = .ok () ↔ if false then 4 ≤ b.length else b.length = 4 := by
    intro b
    unfold bundleLoadStr2act.pyStructLen
    split
    · rename_i h; simpa using h
    · rename_i h; simpa using h
  have hl : ∀ b, OnlyStruct (bundleLoadStr2act.pyStructLen b 4) := by
    intro b e h
    unfold bundleLoadStr2act.pyStructLen at h
    split at h <;> cases h
    rfl
  refine chain_bind (fails_start true false _ (by simpa using hlen) hl (eq_tok e5)) ?_
  rintro ⟨id, r0, r1⟩ hst
  refine chain_bind (fails_slaves sl) fun ps _ => ?_
  refine chain_bind (x := packAll [(2, ma), (2, mh), (2, mb)]) (fails_needs ?_ (onlyStruct_packAll _)) fun a _ => ?_
  · obtain ⟨i, hi, rfl⟩ := (hash_iff _ _).1 hmh
    obtain ⟨j, hj, rfl⟩ := (bdAlg_iff _ _).1 hma
    have hi2 : i < 2 := (List.getElem?_eq_some_iff.1 hi).1
    have hj2 : j < 2 := (List.getElem?_eq_some_iff.1 hj).1
    rw [packAll_eq]
    constructor
    · rintro ⟨a, h⟩ v l' hv
      have h2 := (parseInt_iff _ _ _).2 hv
      rw [hmb] at h2
      cases h2
      split at h
      · rename_i h3
        exact h3 (2, mb) (by simp)
      · cases h
    · intro h
      have h2 := h _ _ ((parseInt_iff _ _ _).1 hmb)
      rw [if_pos]
      · exact ⟨_, rfl⟩
      · intro e he
        simp only [List.mem_cons, List.not_mem_nil, or_false] at he
        rcases he with rfl | rfl | rfl
        · exact ⟨by dsimp only; omega, by dsimp only; omega⟩
        · exact ⟨by dsimp only; omega, by dsimp only; omega⟩
        · exact h2
  · obtain ⟨id2, hid⟩ := idText_total true (token_self e4)
    refine chain_pure hid ?_
    refine chain_bind (fails_second _ _ hst) fun r1' _ => ?_
    exact chain_end (onlyStruct_bind (onlyStruct_packAll _) fun _ => onlyStruct_bind (onlyStruct_packHs _) fun _ => onlyStruct_ok _)

theorem chain_outputReg (reg2 eq : Bool) {u s m r : Str} (hw : Words u [s, m] r) : Chain (outputRegStr2act reg2 u eq)
    [StartRejects true s, fun e => m ≠ [] ∧ LooseRejects m e, EndMissing s] := by
  obtain ⟨h1, u1, e1, hw⟩ := words_cons.1 hw
  obtain ⟨h2, u2, e2, hw⟩ := words_cons.1 hw
  unfold outputRegStr2act
  apply chain_wrap
  rw [e1]
  dsimp only
  rw [e2]
  refine chain_eq (startRead_bind false (fun b => needBytes b 0 4) s (fun oxmid y => do
      let maxLen ← (
        if m.isEmpty then .ok 0xffff
        else do
          let (n, _) ← parseInt m
          .ok n : Py Int)
      let r1 ← intSecond y.2
      let ofs := y.1 * 64 + (r1 % 64 - 1)
      if reg2 || decide (oxmid.length > 4) then
        let b ← packAll [(2, ofs), (2, maxLen)]
        .ok (nxastHdr NXAST_OUTPUT_REG2 ++ (b ++ oxmid), u.length - u2.length)
      else
        let a ← packU 2 ofs
        let b ← packU 2 maxLen
        .ok (nxastHdr NXAST_OUTPUT_REG ++ (a ++ (oxmid ++ (b ++ zeros 6))), u.length - u2.length))) ?_
  have hlen : ∀ b, needBytes b 0 4 = .ok () ↔ 4 ≤ b.length := by
    intro b
    unfold needBytes
    split
    · rename_i h; simpa using h
    · rename_i h; simpa using h
  refine chain_bind (fails_start false true _ (by simpa using hlen) (fun b => onlyStruct_need b 0 4) (eq_tok e1)) ?_
  rintro ⟨id, r0, r1⟩ hst
  dsimp only
  refine chain_bind ?_ fun ml _ => ?_
  · by_cases hm : m = []
    · rw [if_pos (by simpa using hm)]
      exact fails_none rfl fun e he => he.1 hm
    · rw [if_neg (by simpa using hm)]
      intro e
      rw [bindErr, fails_int m e]
      exact ⟨fun h => ⟨hm, h.elim (fun h => h) (by rintro ⟨_, _, h⟩; cases h)⟩, fun h => Or.inl h.2⟩
  · refine chain_bind (fails_second _ _ hst) fun r1' _ => ?_
    split
    · exact chain_end (onlyStruct_bind (onlyStruct_packAll _) fun _ => onlyStruct_ok _)
    · exact chain_end (onlyStruct_bind (onlyStruct_packU _ _) fun _ => onlyStruct_bind (onlyStruct_packU _ _) fun _ => onlyStruct_ok _)

theorem chain_learn (u : Str) : Chain (learnStr2act u false) [LearnRejects u] := by
  unfold learnStr2act
  apply chain_wrap
  rw [if_neg (by decide)]
  refine chain_bind (fails_learn u) fun x _ => ?_
  exact chain_end (onlyStruct_bind (onlyStruct_packAll _) fun _ => onlyStruct_bind (onlyStruct_packAll _) fun _ => onlyStruct_ok _)

/-! ## All actions -/

theorem chain_brackets {x : Py (Bytes × Nat)} (h : x = .error .valueError) : Chain (nxWrap x) Brackets :=
  chain_wrap (chain_eq h (chain_raise fun e => Iff.rfl))

theorem runAct_chain {eq : Bool} {name u : Str} {ps : List Refuses} (h : ArgParts eq name u ps) {k : ActEnc}
    (hk : lookupAct name = some k) : Chain (runActEnc k u eq) ps := by
  cases h with
  | std _ a _ h v r ha ht => exact chain_std ha eq hk ht
  | output _ _ h v r ht hc => cases hk; exact chain_output ht hc
  | outputMax _ _ h p m r ht hp hm => cases hk; exact chain_outputMax ht hp (by rw [split1_none ':' m (no_colon hm)])
  | outputJunk _ _ h p m x r ht hp hm => cases hk; exact chain_outputMax ht hp (by rw [split1_some ':' m x (no_colon hm)])
  | note _ _ h v r ht => cases hk; exact chain_note eq ht
  | popQueue => cases hk; exact chain_wrap (chain_end (onlyStruct_ok _))
  | exit => cases hk; exact chain_wrap (chain_end (onlyStruct_ok _))
  | tunnel _ _ h v r x hx ht =>
    have key : ∀ x ∈ tunnelActs, x.1 = t!"set_tunnel" ∨ x.1 = t!"set_tunnel64" := by decide
    rcases key _ hx with e | e <;> (rw [e] at hk; cases hk; exact chain_tunnel _ eq ht)
  | resubmit _ _ h p r ht => cases hk; exact chain_resubmit eq ht
  | resubmitEq _ h p r ht => cases hk; exact chain_resubmitEq ht
  | resubmitTable _ p t r hw => cases hk; exact chain_resubmitTable hw
  | cntIdsEq _ h v r ts ht hc => cases hk; exact chain_cntIdsEq ht hc
  | cntIds _ ts hp => cases hk; exact chain_cntIds hp
  | brackets n _ hn =>
    simp only [List.mem_cons, List.not_mem_nil, or_false] at hn
    rcases hn with rfl | rfl | rfl | rfl | rfl | rfl | rfl <;> (cases hk; exact chain_brackets rfl)
  | regLoad => cases hk; exact chain_regLoad u
  | regLoad2 => cases hk; exact chain_regLoad2 u
  | regMove _ s d r hw => cases hk; exact chain_regMove hw
  | multipath _ hs bs as ls gs ds r hw => cases hk; exact chain_multipath hw
  | bundle _ hs bs as st sl r hw => cases hk; exact chain_bundle hw
  | bundleLoad _ hs bs as st ds sl r hw => cases hk; exact chain_bundleLoad hw
  | outputReg _ n _ s m r hn hw =>
    simp only [List.mem_cons, List.not_mem_nil, or_false] at hn
    rcases hn with rfl | rfl <;> (cases hk; exact chain_outputReg _ eq hw)
  | learn => cases hk; exact chain_learn u

theorem words_total (n : Nat) : ∀ u : Str, ∃ ts r, ts.length = n ∧ Words u ts r := by
  induction n with
  | zero => intro u; exact ⟨[], u, rfl, .nil u⟩
  | succ n ih =>
    intro u
    rcases hg : getToken u with ⟨h, t, u'⟩
    obtain ⟨ts, r, h1, h2⟩ := ih u'
    exact ⟨t :: ts, r, by simp [h1], .cons u h t u' ts r (eq_tok hg) h2⟩

theorem argParts_total (eq : Bool) {name : Str} (hn : name ∈ actNames) (u : Str) : ∃ ps, ArgParts eq name u ps := by
  obtain ⟨k, hk⟩ := (lookupAct_isSome name).1 hn
  have hm := lookupAct_mem hk
  rcases hg : getToken u with ⟨h, v, r⟩
  have ht := eq_tok hg
  obtain ⟨ws2, r2, l2, w2⟩ := words_total 2 u
  obtain ⟨ws5, r5, l5, w5⟩ := words_total 5 u
  obtain ⟨ws6, r6, l6, w6⟩ := words_total 6 u
  match ws2, l2, ws5, l5, ws6, l6, w2, w5, w6 with
  | [p, q], _, [a, b, c, d, e], _, [a', b', c', d', e', f'], _, w2, w5, w6 =>
    have hstd : ∀ a ∈ stdActs, ∃ ps, ArgParts eq a.name u ps := fun a ha => ⟨_, .std eq a u h v r ha ht⟩
    have hb : ∀ n ∈ [t!"reg_load", t!"reg_load2", t!"reg_move", t!"multipath", t!"bundle", t!"bundle_load", t!"learn"],
        (∃ ps, ArgParts false n u ps) → ∃ ps, ArgParts eq n u ps := by
      intro n hn h
      cases eq with
      | true => exact ⟨_, .brackets n u hn⟩
      | false => exact h
    simp only [str2actTable, List.mem_cons, List.not_mem_nil, or_false, Prod.mk.injEq] at hm
    rcases hm with ⟨rfl, _⟩ | ⟨rfl, _⟩ | ⟨rfl, _⟩ | ⟨rfl, _⟩ | ⟨rfl, _⟩ | ⟨rfl, _⟩ | ⟨rfl, _⟩ | ⟨rfl, _⟩ | ⟨rfl, _⟩ | ⟨rfl, _⟩ | ⟨rfl, _⟩ | ⟨rfl, _⟩ | ⟨rfl, _⟩ | ⟨rfl, _⟩ | ⟨rfl, _⟩ | ⟨rfl, _⟩ | ⟨rfl, _⟩ | ⟨rfl, _⟩ | ⟨rfl, _⟩ | ⟨rfl, _⟩ | ⟨rfl, _⟩ | ⟨rfl, _⟩ | ⟨rfl, _⟩ | ⟨rfl, _⟩ | ⟨rfl, _⟩ | ⟨rfl, _⟩ | ⟨rfl, _⟩ | ⟨rfl, _⟩ | ⟨rfl, _⟩ | ⟨rfl, _⟩ | ⟨rfl, _⟩ | ⟨rfl, _⟩
    · rcases hs : split1 ':' v with ⟨x, y⟩
      obtain ⟨hx, hi⟩ := split1_inv hs
      have hx' : ':' ∉ x := fun h => hx _ h rfl
      cases y with
      | none =>
        dsimp only at hi
        subst hi
        exact ⟨_, .output eq u h v r ht hx'⟩
      | some y =>
        dsimp only at hi
        subst hi
        rcases hs2 : split1 ':' y with ⟨z, w⟩
        obtain ⟨hz, hi⟩ := split1_inv hs2
        have hz' : ':' ∉ z := fun h => hz _ h rfl
        cases w with
        | none =>
          dsimp only at hi
          subst hi
          exact ⟨_, .outputMax eq u h x y r ht hx' hz'⟩
        | some w =>
          dsimp only at hi
          subst hi
          exact ⟨_, .outputJunk eq u h x z w r ht hx' hz'⟩
    · exact hstd ⟨_, 11, .none⟩ (by decide)
    · exact hstd ⟨_, 12, .none⟩ (by decide)
    · exact hstd ⟨_, 15, .ttl⟩ (by decide)
    · exact hstd ⟨_, 16, .none⟩ (by decide)
    · exact hstd ⟨_, 17, .ether⟩ (by decide)
    · exact hstd ⟨_, 18, .none⟩ (by decide)
    · exact hstd ⟨_, 19, .ether⟩ (by decide)
    · exact hstd ⟨_, 20, .ether⟩ (by decide)
    · exact hstd ⟨_, 21, .word⟩ (by decide)
    · exact hstd ⟨_, 22, .word⟩ (by decide)
    · exact hstd ⟨_, 23, .ttl⟩ (by decide)
    · exact hstd ⟨_, 24, .none⟩ (by decide)
    · exact hstd ⟨_, 26, .ether⟩ (by decide)
    · exact hstd ⟨_, 27, .none⟩ (by decide)
    · cases eq with
      | true => exact ⟨_, .cntIdsEq u h v r _ ht (cut_split v)⟩
      | false => exact ⟨_, .cntIds u _ ((pieces_iff _ _).2 rfl)⟩
    · exact hb _ (by decide) ⟨_, .regLoad u⟩
    · exact hb _ (by decide) ⟨_, .regLoad2 u⟩
    · exact hb _ (by decide) ⟨_, .regMove u p q r2 w2⟩
    · exact ⟨_, .resubmit eq u h v r ht⟩
    · cases eq with
      | true => exact ⟨_, .resubmitEq u h v r ht⟩
      | false => exact ⟨_, .resubmitTable u p q r2 w2⟩
    · exact ⟨_, .tunnel eq u h v r (_, 2) (by decide) ht⟩
    · exact ⟨_, .tunnel eq u h v r (_, 9) (by decide) ht⟩
    · exact ⟨_, .popQueue eq u⟩
    · exact ⟨_, .note eq u h v r ht⟩
    · exact ⟨_, .exit eq u⟩
    · exact hb _ (by decide) ⟨_, .multipath u _ _ _ _ _ _ r6 w6⟩
    · exact hb _ (by decide) ⟨_, .bundle u _ _ _ _ _ r5 w5⟩
    · exact hb _ (by decide) ⟨_, .bundleLoad u _ _ _ _ _ _ r6 w6⟩
    · exact ⟨_, .outputReg eq _ u p q r2 (by decide) w2⟩
    · exact ⟨_, .outputReg eq _ u p q r2 (by decide) w2⟩
    · exact hb _ (by decide) ⟨_, .learn u⟩

theorem runAct_rejects {name : Str} {k : ActEnc} (hk : lookupAct name = some k) (eq : Bool) (u : Str) :
    Fails (runActEnc k u eq) (ArgRejects eq name u) := by
  have hn : name ∈ actNames := (lookupAct_isSome name).2 ⟨k, hk⟩
  have hok : (∃ a, runActEnc k u eq = .ok a) ↔ ∃ b r, ActArgs eq name u b r := by
    constructor
    · rintro ⟨⟨b, n⟩, h⟩
      obtain ⟨r, h, _⟩ := (runAct_iff hk eq u b n).1 h
      exact ⟨b, r, h⟩
    · rintro ⟨b, r, h⟩
      exact ⟨_, (runAct_iff hk eq u b _).2 ⟨r, h, rfl⟩⟩
  intro e
  constructor
  · intro h
    obtain ⟨ps, hp⟩ := argParts_total eq hn u
    refine ⟨ps, hp, ?_⟩
    rw [← hok]
    exact (runAct_chain hp hk e).1 h
  · rintro ⟨ps, hp, h⟩
    rw [← hok] at h
    exact (runAct_chain hp hk e).2 h

end Ofpstr
