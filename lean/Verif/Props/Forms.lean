import Verif.Props.Nx
import Verif.Props.Flow

/-!
# Arguments after `=` and in brackets (C66)
-/

set_option linter.unusedSimpArgs false

namespace Ofpstr
open Spec

/-- The actions whose argument can be given after `=` and in brackets alike. -/
def argActs : List Str := (stdActs.filter fun a => a.arg ≠ .none).map (·.name) ++
  [t!"output", t!"resubmit", t!"resubmit_table", t!"set_tunnel", t!"set_tunnel64", t!"note"]

theorem except_map_ok {α β : Type} (f : α → β) (a : α) : (Except.ok a : Py α).map f = .ok (f a) := rfl

theorem except_map_error {α β : Type} (f : α → β) (e : Err) : (Except.error e : Py α).map f = .error e := rfl

/-- What a consumed length does to `nxWrap`. -/
theorem nxWrap_len (x : Py Bytes) (n m : Nat) :
    nxWrap (x.map fun b => (b, n)) = (nxWrap (x.map fun b => (b, m))).map fun y => (y.1, n) := by
  cases x with
  | error e => rfl
  | ok b =>
    rw [except_map_ok, except_map_ok]
    unfold nxWrap
    rw [ok_bind, ok_bind]
    dsimp only
    cases fixActLen (pad8 b) with
    | error e => rfl
    | ok c => rw [ok_bind, ok_bind]; rfl

/-- The two forms of an argument. -/
def SameArg (k : ActEnc) : Prop := ∀ v r : Str, getToken v = ([], v, []) → getToken ('=' :: (v ++ r)) = (['='], v, r) →
  Boundary r → runActEnc k ('=' :: (v ++ r)) true = (runActEnc k v false).map fun x => (x.1, 1 + v.length)

theorem same_uint (t size pad : Nat) : SameArg (.uint t size pad) := by
  intro v r h1 h2 _
  simp only [runActEnc]
  unfold uintStr2act
  rw [h1, h2]
  dsimp only
  rcases parseInt v with e | ⟨n, l⟩
  · rfl
  · rw [ok_bind, ok_bind]
    dsimp only
    rcases pyAssert (l == v.length) with e | ⟨⟩
    · rfl
    · rw [ok_bind, ok_bind]
      rcases packU size n with e | b
      · rfl
      · rw [ok_bind, ok_bind, except_map_ok]
        rfl

theorem same_push (t : Nat) : SameArg (.push t) := by
  intro v r h1 h2 _
  simp only [runActEnc]
  unfold pushStr2act
  rw [h1, h2]
  dsimp only
  rcases parseInt v with e | ⟨n, l⟩
  · rfl
  · rw [ok_bind, ok_bind]
    dsimp only
    rcases packU 2 n with e | b
    · rfl
    · rw [ok_bind, ok_bind, except_map_ok]
      rfl

theorem same_output : SameArg .output := by
  intro v r h1 h2 _
  simp only [runActEnc]
  unfold outputStr2act
  rw [h1, h2]
  dsimp only
  rcases pyAssert (!hasChar v '/') with e | ⟨⟩
  · rfl
  · rw [ok_bind, ok_bind]
    rcases split1 ':' v with ⟨p0, rest⟩
    dsimp only
    rcases nameOrInt ofpp p0 with e | n
    · rfl
    · rw [ok_bind, ok_bind]
      rcases rest with _ | m
      · dsimp only
        rw [ok_bind, ok_bind]
        rcases packAll [(4, n), (2, (OFPCML_NO_BUFFER : Int))] with e | b
        · rfl
        · rw [ok_bind, ok_bind, except_map_ok]
          rfl
      · dsimp only
        rcases parseInt (split1 ':' m).1 with e | ⟨x, l⟩
        · rfl
        · rw [ok_bind]
          dsimp only
          rcases pyAssert ((split1 ':' m).1.length == l) with e | ⟨⟩
          · rfl
          · rw [ok_bind, ok_bind, ok_bind]
            rcases packAll [(4, n), (2, x)] with e | b
            · rfl
            · rw [ok_bind, ok_bind, except_map_ok]
              rfl

theorem same_note : SameArg .note := by
  intro v r h1 h2 _
  simp only [runActEnc]
  unfold qpStr2act
  rw [h1, h2]
  dsimp only
  rw [show pyAssert (!true || hasChar ['='] '=') = .ok () from rfl,
    show pyAssert (!false || hasChar [] '=') = .ok () from rfl, ok_bind, ok_bind]
  rcases a2bQp v with e | q
  · rfl
  · rw [ok_bind, ok_bind]
    rcases fixActLen (nxastHdr NXAST_NOTE ++ q) with e | b
    · rfl
    · rw [ok_bind, ok_bind, except_map_ok]
      rfl

/-- The body of `set_tunnel`. -/
def tunnelBody (subtype : Nat) (v : Str) : Py Bytes := do
  let (num, rlen) ← parseInt v
  pyAssert (rlen == v.length)
  if num > 0xffffffff then do
    let b ← packU 8 num
    .ok (nxastHdr NXAST_SET_TUNNEL64 ++ b)
  else do
    let b ← packU 4 num
    .ok (nxastHdr subtype ++ b)

theorem tunnel_body (subtype : Nat) (u h v r : Str) (ra : Bool) (hg : getToken u = (h, v, r)) (hra : ra = true → '=' ∈ h) :
    setTunnelStr2act subtype u ra = nxWrap ((tunnelBody subtype v).map fun b => (b, h.length + v.length)) := by
  unfold setTunnelStr2act tunnelBody
  rw [hg]
  dsimp only
  rw [show pyAssert (!ra || hasChar h '=') = .ok () by
    cases ra with
    | false => rfl
    | true => rw [(hasChar_iff h '=').2 (hra rfl)]; rfl, ok_bind]
  rcases parseInt v with e | ⟨n, l⟩
  · rfl
  · rw [ok_bind, ok_bind]
    dsimp only
    rcases pyAssert (l == v.length) with e | ⟨⟩
    · rfl
    · rw [ok_bind, ok_bind]
      split
      · rcases packU 8 n with e | b
        · rfl
        · rw [ok_bind, ok_bind, except_map_ok]
      · rcases packU 4 n with e | b
        · rfl
        · rw [ok_bind, ok_bind, except_map_ok]

theorem same_tunnel (k : ActEnc) (hk : k = .setTunnel ∨ k = .setTunnel64) : SameArg k := by
  intro v r h1 h2 _
  rcases hk with rfl | rfl <;>
  · simp only [runActEnc]
    rw [tunnel_body _ _ _ _ _ true h2 (by simp), tunnel_body _ _ _ _ _ false h1 (by simp), nxWrap_len _ _ (([] : Str).length + v.length)]
    rfl

theorem same_resubmit (k : ActEnc) (hk : k = .resubmit ∨ k = .resubmitTable) : SameArg k := by
  intro v r h1 h2 hr
  have hs : startsWith r t!":" = false := by
    cases r with
    | nil => rfl
    | cons c t =>
      have : c ≠ ':' := by
        rintro rfl
        exact absurd (hr ':' t rfl) (by decide)
      exact startsWith_false t [] (Ne.symm this)
  have key : ∀ it : Bool, resubmitStr2act it ('=' :: (v ++ r)) true =
      (resubmitStr2act it v false).map fun x => (x.1, 1 + v.length) := by
    intro it
    have hb : ∀ (u h u1 : Str) (ra : Bool) (n : Nat), getToken u = (h, v, u1) → (ra = true → '=' ∈ h ∧ u1 = r) →
        (ra = false → u1 = []) → u.length - u1.length = n →
        resubmitStr2act it u ra = nxWrap (Except.map (fun b => (b, n)) (do
          let port ← resubmitPort v
          let b ← packAll [(2, port), (1, 0xff)]
          .ok (nxastHdr (if it then NXAST_RESUBMIT_TABLE else NXAST_RESUBMIT) ++ b) : Py Bytes)) := by
      intro u h u1 ra n hg ht hf hn
      unfold resubmitStr2act
      rw [hg]
      dsimp only
      rcases resubmitPort v with e | p
      · rfl
      · rw [ok_bind, ok_bind]
        have hx : ((if ra = true then do
              pyAssert (hasChar h '=')
              if (it && startsWith u1 t!":") = true then
                let (_, tbl, u2) := getToken (u1.drop 1)
                .ok (tbl, u2)
              else .ok ([], u1)
            else if it = true then
              let (_, tbl, u2) := getToken u1
              .ok (tbl, u2)
            else .ok ([], u1) : Py (Str × Str))) = .ok ([], u1) := by
          cases ra with
          | true =>
            obtain ⟨g1, rfl⟩ := ht rfl
            rw [if_pos rfl, (hasChar_iff h '=').2 g1, pyAssert_ok, ok_bind, hs, Bool.and_false, if_neg (by decide)]
          | false =>
            rw [hf rfl]
            cases it <;> rfl
        rw [hx, ok_bind]
        dsimp only
        rw [show resubmitTbl [] = .ok 0xff from rfl, ok_bind]
        rcases packAll [(2, p), (1, 0xff)] with e | b
        · rfl
        · rw [ok_bind, ok_bind, except_map_ok, hn]
    rw [hb _ _ _ true (1 + v.length) h2 (by simp) (by simp) (by simp; omega),
      hb _ _ _ false v.length h1 (by simp) (by simp) (by simp), nxWrap_len _ _ v.length]
  rcases hk with rfl | rfl <;> simp only [runActEnc] <;> exact key _

theorem argActs_same (name : Str) (hn : name ∈ argActs) :
    ∃ k, lookupAct name = some k ∧ Clean name ∧ name ≠ [] ∧ SameArg k := by
  simp only [argActs, List.mem_append, List.mem_map, List.mem_filter] at hn
  rcases hn with ⟨a, ⟨ha, hb⟩, rfl⟩ | hn
  · obtain ⟨h1, h2, h3, _⟩ := std_lookup a ha
    refine ⟨_, h1, h2, h3, ?_⟩
    unfold stdEnc
    cases hx : a.arg with
    | none => simp [hx] at hb
    | ttl => exact same_uint _ _ _
    | word => exact same_uint _ _ _
    | ether => exact same_push _
  · simp only [List.mem_cons, List.not_mem_nil, or_false] at hn
    rcases hn with rfl | rfl | rfl | rfl | rfl | rfl
    · exact ⟨.output, by decide, by decide, by decide, same_output⟩
    · exact ⟨.resubmit, by decide, by decide, by decide, same_resubmit _ (.inl rfl)⟩
    · exact ⟨.resubmitTable, by decide, by decide, by decide, same_resubmit _ (.inr rfl)⟩
    · exact ⟨.setTunnel, by decide, by decide, by decide, same_tunnel _ (.inl rfl)⟩
    · exact ⟨.setTunnel64, by decide, by decide, by decide, same_tunnel _ (.inr rfl)⟩
    · exact ⟨.note, by decide, by decide, by decide, same_note⟩

theorem plainStart_of {v : Str} (ht : Token v) (hs : ∀ c u, v = c :: u → ¬ Space c) : PlainStart v := by
  intro c u hcu
  refine ⟨hs c u hcu, ?_⟩
  subst hcu
  cases ht with
  | char _ _ h1 h2 h3 _ => exact ⟨fun h => h1 (Or.inl h), h2⟩
  | group o e p s hpr _ _ => cases hpr <;> decide

/-- C66: `name=v` and `name(v)` raise the same exception, or give the same bytes and use up their text. -/
theorem C66_forms (name : Str) (hn : name ∈ argActs) (h v r : Str) (hh : Head h) (hr : Boundary r) (ht : Token v)
    (hv : v ≠ []) (hs : ∀ c u, v = c :: u → ¬ Space c) (hi : Inside ')' v) :
    ∃ out : Except Err Bytes,
      str2act (h ++ ((name ++ '=' :: v) ++ r)) = out.map (fun b => (b, (h ++ (name ++ '=' :: v)).length)) ∧
      str2act (h ++ ((name ++ '(' :: v ++ [')']) ++ r)) = out.map (fun b => (b, (h ++ (name ++ '(' :: v ++ [')'])).length)) := by
  obtain ⟨k, h1, h2, h3, h4⟩ := argActs_same name hn
  have hp : PlainStart v := plainStart_of ht hs
  have g1 : getToken v = ([], v, []) := by
    have := getToken_head head_nil ht atEnd_nil hp hv
    simpa using this
  have g2 := getToken_eq ht hr hp hv
  refine ⟨(runActEnc k v false).map (·.1), ?_, ?_⟩
  · rw [show h ++ ((name ++ '=' :: v) ++ r) = h ++ (name ++ '=' :: (v ++ r)) by simp,
      str2act_word h name _ k hh h2 h3 (atEnd_eq _) h1, h4 v r g1 g2 hr]
    cases runActEnc k v false with
    | error e => rfl
    | ok x => simp [Except.map, Except.bind]; omega
  · rw [str2act_call h name v r k hh h2 h3 hi hv hr h1]
    cases runActEnc k v false with
    | error e => rfl
    | ok x => simp [Except.map, Except.bind]

example : str2act t!"note=a[b,c],exit" = .ok ([255, 255, 0, 16, 0, 0, 35, 32, 0, 8, 97, 91, 98, 44, 99, 93], 11) ∧
    str2act t!"note(a[b,c]),exit" = .ok ([255, 255, 0, 16, 0, 0, 35, 32, 0, 8, 97, 91, 98, 44, 99, 93], 12) ∧
    str2act t!"resubmit=in_port" = .ok ([255, 255, 0, 16, 0, 0, 35, 32, 0, 1, 255, 248, 255, 0, 0, 0], 16) ∧
    str2act t!"resubmit(in_port)" = .ok ([255, 255, 0, 16, 0, 0, 35, 32, 0, 1, 255, 248, 255, 0, 0, 0], 17) := by
  decide +kernel

/-! ## `cnt_ids` -/

/-- The body of `cnt_ids`. -/
def cntBody (ts : List Str) : Py Bytes := do
  let ids ← parseInts ts
  let n ← packU 2 ids.length
  let b ← packHs ids
  .ok (nxastHdr NXAST_CNT_IDS ++ (n ++ (zeros 4 ++ b)))

theorem cnt_call (u : Str) : cntIdsStr2act u false = nxWrap ((cntBody (splitTokens u)).map fun b => (b, 0)) := by
  unfold cntIdsStr2act cntBody
  rw [if_neg (by decide)]
  rcases parseInts (splitTokens u) with e | ids
  · rfl
  · rw [ok_bind, ok_bind]
    rcases packU 2 (ids.length : Int) with e | n
    · rfl
    · rw [ok_bind, ok_bind]
      rcases packHs ids with e | b
      · rfl
      · rw [ok_bind, ok_bind, except_map_ok]

theorem cnt_eq (u h v r : Str) (hg : getToken u = (h, v, r)) (he : '=' ∈ h) :
    cntIdsStr2act u true = nxWrap ((cntBody (splitAll ':' v)).map fun b => (b, h.length + v.length)) := by
  unfold cntIdsStr2act cntBody
  rw [if_pos rfl, hg]
  dsimp only
  rw [(hasChar_iff h '=').2 he, pyAssert_ok, ok_bind]
  rcases parseInts (splitAll ':' v) with e | ids
  · rfl
  · rw [ok_bind, ok_bind]
    rcases packU 2 (ids.length : Int) with e | n
    · rfl
    · rw [ok_bind, ok_bind]
      rcases packHs ids with e | b
      · rfl
      · rw [ok_bind, ok_bind, except_map_ok]

/-- A text that can stand in a list of counters in either form. -/
def CntWord (t : Str) : Prop := t ≠ [] ∧ PlainText t ∧ ':' ∉ t ∧ ')' ∉ t

instance : DecidablePred CntWord := fun t => by unfold CntWord; infer_instance

theorem cnt_out (ts : List Str) (hne : ts ≠ []) (ht : ∀ t ∈ ts, CntWord t) (h r : Str) (hh : Head h) (hr : Boundary r) :
    str2act (h ++ ((t!"cnt_ids=" ++ joinStr t!":" ts) ++ r)) =
      (nxWrap ((cntBody ts).map fun b => (b, 0))).map (fun x => (x.1, (h ++ (t!"cnt_ids=" ++ joinStr t!":" ts)).length)) ∧
    str2act (h ++ ((t!"cnt_ids(" ++ joinStr t!"," ts ++ t!")") ++ r)) =
      (nxWrap ((cntBody ts).map fun b => (b, 0))).map
        (fun x => (x.1, (h ++ (t!"cnt_ids(" ++ joinStr t!"," ts ++ t!")")).length)) := by
  have hclean : Clean (joinStr t!":" ts) :=
    joinStr_chars (fun c => ¬ Space c ∧ c ≠ ',' ∧ c ≠ '=' ∧ NotOpen c) t!":" (by decide) ts fun p hp => (ht p hp).2.1
  have hj : ∀ sep : Str, joinStr sep ts ≠ [] := by
    intro sep
    cases ts with
    | nil => exact absurd rfl hne
    | cons a l =>
      have := (ht a (by simp)).1
      cases l with
      | nil => exact this
      | cons b l => simp [joinStr, this]
  constructor
  · have hg := getToken_eq hclean.token hr hclean.plainStart (hj _)
    rw [show h ++ ((t!"cnt_ids=" ++ joinStr t!":" ts) ++ r) = h ++ (t!"cnt_ids" ++ '=' :: (joinStr t!":" ts ++ r)) by simp,
      str2act_word h t!"cnt_ids" _ .cntIds hh (by decide) (by decide) (atEnd_eq _) (by decide)]
    simp only [runActEnc]
    rw [cnt_eq _ _ _ _ hg (by simp), splitAll_join ':' ts hne (fun p hp x hx e => (ht p hp).2.2.1 (e ▸ hx)),
      nxWrap_len _ _ 0]
    cases nxWrap ((cntBody ts).map fun b => (b, 0)) with
    | error e => rfl
    | ok x => simp [Except.map, Except.bind]; omega
  · have hi : Inside ')' (joinStr t!"," ts) := by
      apply inside_chars
      exact joinStr_chars (fun c => c ≠ ')' ∧ NotOpen c) t!"," (by decide) ts fun p hp c hc =>
        ⟨fun e => (ht p hp).2.2.2 (e ▸ hc), ((ht p hp).2.1 c hc).2.2.2⟩
    have := str2act_call h t!"cnt_ids" (joinStr t!"," ts) r .cntIds hh (by decide) (by decide) hi (hj _) hr (by decide)
    rw [show h ++ ((t!"cnt_ids(" ++ joinStr t!"," ts ++ t!")") ++ r) = h ++ ((t!"cnt_ids" ++ '(' :: joinStr t!"," ts ++ [')']) ++ r) by simp,
      this]
    simp only [runActEnc]
    rw [cnt_call, splitTokens_join ts fun p hp => ⟨(ht p hp).2.1, (ht p hp).1⟩]
    cases nxWrap ((cntBody ts).map fun b => (b, 0)) with
    | error e => rfl
    | ok x => simp [Except.map, Except.bind]

/-- C66 for `cnt_ids`: the numbers are separated by colons after `=`, by commas in brackets. -/
theorem C66_cnt_ids (ts : List Str) (hne : ts ≠ []) (ht : ∀ t ∈ ts, CntWord t) (h r : Str) (hh : Head h)
    (hr : Boundary r) : ∃ out : Except Err Bytes,
      str2act (h ++ ((t!"cnt_ids=" ++ joinStr t!":" ts) ++ r)) =
        out.map (fun b => (b, (h ++ (t!"cnt_ids=" ++ joinStr t!":" ts)).length)) ∧
      str2act (h ++ ((t!"cnt_ids(" ++ joinStr t!"," ts ++ t!")") ++ r)) =
        out.map (fun b => (b, (h ++ (t!"cnt_ids(" ++ joinStr t!"," ts ++ t!")")).length)) := by
  obtain ⟨h1, h2⟩ := cnt_out ts hne ht h r hh hr
  refine ⟨(nxWrap ((cntBody ts).map fun b => (b, 0))).map (·.1), ?_, ?_⟩
  · rw [h1]; cases nxWrap ((cntBody ts).map fun b => (b, 0)) <;> rfl
  · rw [h2]; cases nxWrap ((cntBody ts).map fun b => (b, 0)) <;> rfl

theorem parseInts_syntax {ts : List Str} {ids : List Nat} (h : List.Forall₂ (fun (t : Str) (i : Nat) => ∃ l, IntSyntax t (i : Int) l) ts ids) :
    parseInts ts = .ok (ids.map fun i : Nat => (i : Int)) := by
  induction h with
  | nil => rfl
  | cons h1 h2 ih =>
    obtain ⟨l, h1⟩ := h1
    rw [parseInts, (parseInt_iff _ _ _).2 h1, ok_bind]
    dsimp only
    rw [ih, ok_bind]
    rfl

/-- The numbers of `cnt_ids` are carried in order.  What follows a number up to the next separator is
ignored. -/
theorem C66_cnt_ids_value (ts : List Str) (ids : List Nat) (hne : ts ≠ []) (ht : ∀ t ∈ ts, CntWord t)
    (hi : List.Forall₂ (fun (t : Str) (i : Nat) => ∃ l, IntSyntax t (i : Int) l) ts ids) (hv : (Act.cntIds ids).Valid) (h r : Str)
    (hh : Head h) (hr : Boundary r) :
    str2act (h ++ ((t!"cnt_ids=" ++ joinStr t!":" ts) ++ r)) =
      .ok ((Act.cntIds ids).wire, (h ++ (t!"cnt_ids=" ++ joinStr t!":" ts)).length) := by
  obtain ⟨v1, v2⟩ := hv
  rw [(cnt_out ts hne ht h r hh hr).1]
  have hlen : (u16 ids.length ++ (pad 4 ++ ids.flatMap u16)).length = 6 + 2 * ids.length := by
    simp only [List.length_append, u16_length, pad_length, flatMap_u16_length]; omega
  have hfit := nxWire_fits 21 (u16 ids.length ++ (pad 4 ++ ids.flatMap u16)) (by omega)
  have hb : cntBody ts = .ok (nxastHdr 21 ++ (u16 ids.length ++ (pad 4 ++ ids.flatMap u16))) := by
    unfold cntBody
    rw [parseInts_syntax hi, ok_bind, List.length_map, packU_nat 2 _ (by omega), ok_bind, packHs_nat ids v1, ok_bind]
    rfl
  rw [hb, except_map_ok, nxWrap_fit hfit rfl, except_map_ok]
  rfl

/-- Junk after a number is accepted. -/
theorem C66_cnt_ids_junk_refuted : str2act t!"cnt_ids=1x:2y" = .ok ((Act.cntIds [1, 2]).wire, 13) ∧
    str2act t!"cnt_ids(1x,2y)" = .ok ((Act.cntIds [1, 2]).wire, 14) := by decide +kernel

example : (∀ t ∈ [t!"1", t!"0x20z"], CntWord t) ∧ (Act.cntIds [1, 32]).Valid ∧
    List.Forall₂ (fun (t : Str) (i : Nat) => ∃ l, IntSyntax t (i : Int) l) [t!"1", t!"0x20z"] [1, 32] := by
  refine ⟨by decide, ⟨by decide, by decide⟩, .cons ⟨1, ?_⟩ (.cons ⟨4, ?_⟩ .nil)⟩ <;>
    exact (parseInt_iff _ _ _).1 (by decide +kernel)

/-! ## No argument -/

/-- The text does not go on with `=`. -/
def NoEq (r : Str) : Prop := ∀ w t, r = w ++ '=' :: t → ∃ c ∈ w, ¬ Space c

theorem noEq_head {r h b t : Str} (hr : NoEq r) (hg : getToken r = (h, b, t)) : hasChar h '=' = false := by
  obtain ⟨_, hh, _⟩ := (getToken_iff _ _ _ _).1 hg
  cases hh with
  | eq w1 w2 r h1 h2 h3 =>
    obtain ⟨c, hc, hs⟩ := hr w1 (w2 ++ r) (by simp)
    exact absurd (h1 c hc) hs
  | run h r h1 h2 h3 =>
    cases hx : hasChar h '=' with
    | false => rfl
    | true => exact absurd (h2 '=' ((hasChar_iff h '=').1 hx)) (by decide)

/-- The Nicira actions that take an argument after `=`. -/
def eqActs : List Str := [t!"cnt_ids", t!"resubmit", t!"resubmit_table", t!"set_tunnel", t!"set_tunnel64", t!"note"]

/-- The Nicira actions that take arguments in brackets only. -/
def callActs : List Str := [t!"reg_load", t!"reg_load2", t!"reg_move", t!"multipath", t!"bundle", t!"bundle_load", t!"learn"]

theorem nxWrap_raises {x : Py (Bytes × Nat)} (h : ∃ e, x = .error e) : ∃ e, nxWrap x = .error e := by
  obtain ⟨e, rfl⟩ := h; exact ⟨e, rfl⟩

/-- A Nicira action that needs an argument raises without one. -/
theorem C66_missing (name : Str) (hn : name ∈ eqActs) (h r : Str) (hh : Head h) (hr : Boundary r) (he : NoEq r) :
    Raises (str2act (h ++ (name ++ r))) := by
  refine raises_of (ends_str2act _) ?_
  have key : ∀ k, lookupAct name = some k → Clean name → name ≠ [] → (∃ e, runActEnc k r true = .error e) →
      ∃ e, str2act (h ++ (name ++ r)) = .error e := by
    rintro k h1 h2 h3 ⟨e, hx⟩
    exact ⟨e, by rw [str2act_word h name r k hh h2 h3 hr h1, hx]; rfl⟩
  rcases hg : getToken r with ⟨h', v, t⟩
  have hx := noEq_head he hg
  have hres : ∀ it : Bool, ∃ e, resubmitStr2act it r true = .error e := by
    intro it
    refine nxWrap_raises ?_
    rw [hg]
    dsimp only
    rcases resubmitPort v with e | p
    · exact ⟨e, rfl⟩
    · rw [ok_bind, if_pos rfl, hx]
      exact ⟨.assertionError, rfl⟩
  have htun : ∀ n, ∃ e, setTunnelStr2act n r true = .error e := by
    intro n
    refine nxWrap_raises ?_
    rw [hg]
    dsimp only
    rw [hx]
    exact ⟨.assertionError, rfl⟩
  simp only [eqActs, List.mem_cons, List.not_mem_nil, or_false] at hn
  rcases hn with rfl | rfl | rfl | rfl | rfl | rfl
  · refine key .cntIds (by decide) (by decide) (by decide) (nxWrap_raises ?_)
    rw [if_pos rfl, hg]
    dsimp only
    rw [hx]
    exact ⟨.assertionError, rfl⟩
  · exact key .resubmit (by decide) (by decide) (by decide) (hres _)
  · exact key .resubmitTable (by decide) (by decide) (by decide) (hres _)
  · exact key .setTunnel (by decide) (by decide) (by decide) (htun _)
  · exact key .setTunnel64 (by decide) (by decide) (by decide) (htun _)
  · refine key .note (by decide) (by decide) (by decide) ⟨.assertionError, ?_⟩
    simp only [runActEnc]
    unfold qpStr2act
    rw [hg]
    dsimp only
    rw [hx]
    rfl

example : str2act t!"set_tunnel,exit" = .error .assertionError ∧ str2act t!"resubmit" = .error .valueError := by
  decide +kernel
example : NoEq t!",output=1" := by
  intro w t h
  cases w with
  | nil => cases h
  | cons c w => exact ⟨c, by simp, by rw [← (List.cons.inj h).1]; decide⟩

/-- The other ones raise unless their arguments stand in brackets. -/
theorem C66_call_only (name : Str) (hn : name ∈ callActs) (h r : Str) (hh : Head h) (hr : Boundary r) :
    str2act (h ++ (name ++ r)) = .error .valueError := by
  have key : ∀ k, lookupAct name = some k → Clean name → name ≠ [] → runActEnc k r true = .error .valueError →
      str2act (h ++ (name ++ r)) = .error .valueError := by
    intro k h1 h2 h3 hx
    rw [str2act_word h name r k hh h2 h3 hr h1, hx]; rfl
  simp only [callActs, List.mem_cons, List.not_mem_nil, or_false] at hn
  rcases hn with rfl | rfl | rfl | rfl | rfl | rfl | rfl
  · exact key .regLoad (by decide) (by decide) (by decide) rfl
  · exact key .regLoad2 (by decide) (by decide) (by decide) rfl
  · exact key .regMove (by decide) (by decide) (by decide) rfl
  · exact key .multipath (by decide) (by decide) (by decide) rfl
  · exact key .bundle (by decide) (by decide) (by decide) rfl
  · exact key .bundleLoad (by decide) (by decide) (by decide) rfl
  · exact key .learn (by decide) (by decide) (by decide) rfl

/-! ## What goes wrong -/

/-- The table of `resubmit_table` cannot be given after `=`: a port followed by a colon is refused. -/
theorem C66_table_refuted (h v r : Str) (hh : Head h) (hr : Boundary r) (hp : PlainText v) (hc : ':' ∈ v) :
    Raises (str2act (h ++ (t!"resubmit_table=" ++ v ++ r))) := by
  refine raises_of (ends_str2act _) ?_
  have hclean : Clean v := hp
  have hne : v ≠ [] := by rintro rfl; simp at hc
  have hg := getToken_eq hclean.token hr hclean.plainStart hne
  rw [show h ++ (t!"resubmit_table=" ++ v ++ r) = h ++ (t!"resubmit_table" ++ '=' :: (v ++ r)) by simp,
    str2act_word h t!"resubmit_table" _ .resubmitTable hh (by decide) (by decide) (atEnd_eq _) (by decide)]
  obtain ⟨e, hx⟩ : ∃ e, resubmitPort v = .error e := by
    unfold resubmitPort
    have hu : (upperStr v == t!"IN_PORT") = false := by
      cases hu : upperStr v == t!"IN_PORT" with
      | false => rfl
      | true =>
        exfalso
        have hm : ':' ∈ upperStr v := List.mem_map.2 ⟨':', hc, by decide⟩
        rw [eq_of_beq hu] at hm
        exact absurd hm (by decide)
    rw [hu, if_neg (by decide)]
    rcases hpi : parseInt v with e | ⟨n, l⟩
    · exact ⟨e, rfl⟩
    · rw [ok_bind]
      dsimp only
      have hl : v.length ≠ l := by
        intro hl
        have := (parseInt_iff _ _ _).1 hpi
        rw [← hl] at this
        have := intSyntax_ne this ':' hc
        revert this
        decide
      rw [beq_false_of_ne hl]
      exact ⟨.assertionError, rfl⟩
  refine ⟨e, ?_⟩
  have : runActEnc .resubmitTable ('=' :: (v ++ r)) true = .error e := by
    simp only [runActEnc]
    unfold resubmitStr2act
    rw [hg]
    dsimp only
    rw [hx]
    rfl
  rw [this]
  rfl

example : PlainText t!"1:2" ∧ ':' ∈ t!"1:2" := by decide

/-- The argument of a standard action may follow any separator. -/
theorem C66_separator_refuted (name : Str) (hn : name ∈ (stdActs.filter fun a => a.arg ≠ .none).map (·.name) ++ [t!"output"])
    (h w v r : Str) (hh : Head h) (hr : Boundary r) (ht : PlainText v) (hv : v ≠ []) (hw : w ≠ [])
    (hws : ∀ c ∈ w, SepChar c) :
    ∃ out : Except Err Bytes,
      str2act (h ++ ((name ++ '=' :: v) ++ r)) = out.map (fun b => (b, (h ++ (name ++ '=' :: v)).length)) ∧
      str2act (h ++ ((name ++ (w ++ v)) ++ r)) = out.map (fun b => (b, (h ++ (name ++ (w ++ v))).length)) := by
  have hclean : Clean v := ht
  have hwh : Head w := .inl fun c hc => by
    rcases hws c hc with rfl | rfl | rfl | rfl | rfl | rfl | rfl <;> decide
  have hb : AtEnd (w ++ (v ++ r)) := by
    intro c t hc
    cases w with
    | nil => exact absurd rfl hw
    | cons x w =>
      cases hc
      exact .inl (hws _ (by simp))
  have g1 := getToken_eq hclean.token hr hclean.plainStart hv
  have g2 := getToken_head hwh hclean.token hr hclean.plainStart hv
  have key : ∀ k, lookupAct name = some k → Clean name → name ≠ [] → (∀ u u' h' h'' r' r'', getToken u = (h', v, r') →
      getToken u' = (h'', v, r'') → runActEnc k u true = (runActEnc k u' true).map fun x => (x.1, h'.length + v.length)) →
      ∃ out : Except Err Bytes,
      str2act (h ++ ((name ++ '=' :: v) ++ r)) = out.map (fun b => (b, (h ++ (name ++ '=' :: v)).length)) ∧
      str2act (h ++ ((name ++ (w ++ v)) ++ r)) = out.map (fun b => (b, (h ++ (name ++ (w ++ v))).length)) := by
    intro k h1 h2 h3 h4
    refine ⟨(runActEnc k ('=' :: (v ++ r)) true).map (·.1), ?_, ?_⟩
    · rw [show h ++ ((name ++ '=' :: v) ++ r) = h ++ (name ++ '=' :: (v ++ r)) by simp,
        str2act_word h name _ k hh h2 h3 (atEnd_eq _) h1, h4 _ _ _ _ _ _ g1 g1]
      cases runActEnc k ('=' :: (v ++ r)) true with
      | error e => rfl
      | ok x => simp [Except.map, Except.bind]; omega
    · rw [show h ++ ((name ++ (w ++ v)) ++ r) = h ++ (name ++ (w ++ (v ++ r))) by simp,
        str2act_word h name _ k hh h2 h3 hb h1, h4 _ _ _ _ _ _ g2 g1]
      cases runActEnc k ('=' :: (v ++ r)) true with
      | error e => rfl
      | ok x => simp [Except.map, Except.bind]; omega
  simp only [List.mem_append, List.mem_map, List.mem_filter, List.mem_singleton] at hn
  rcases hn with ⟨a, ⟨ha, hb⟩, rfl⟩ | rfl
  · obtain ⟨h1, h2, h3, _⟩ := std_lookup a ha
    refine key _ h1 h2 h3 ?_
    intro u u' h' h'' r' r'' e1 e2
    have huint : ∀ t size pad, runActEnc (.uint t size pad) u true =
        (runActEnc (.uint t size pad) u' true).map fun x => (x.1, h'.length + v.length) := by
      intro t size pad
      simp only [runActEnc]
      unfold uintStr2act
      rw [e1, e2]
      dsimp only
      rcases parseInt v with e | ⟨n, l⟩
      · rfl
      · rw [ok_bind, ok_bind]
        dsimp only
        rcases pyAssert (l == v.length) with e | ⟨⟩
        · rfl
        · rw [ok_bind, ok_bind]
          rcases packU size n with e | b
          · rfl
          · rw [ok_bind, ok_bind, except_map_ok]
    unfold stdEnc
    cases hx : a.arg with
    | none => simp [hx] at hb
    | ttl => exact huint _ _ _
    | word => exact huint _ _ _
    | ether =>
      simp only [runActEnc]
      unfold pushStr2act
      rw [e1, e2]
      dsimp only
      rcases parseInt v with e | ⟨n, l⟩
      · rfl
      · rw [ok_bind, ok_bind]
        dsimp only
        rcases packU 2 n with e | b
        · rfl
        · rw [ok_bind, ok_bind, except_map_ok]
  · refine key .output (by decide) (by decide) (by decide) ?_
    intro u u' h' h'' r' r'' e1 e2
    have c1 : Clean v := hclean
    simp only [runActEnc]
    unfold outputStr2act
    rw [e1, e2]
    dsimp only
    rcases pyAssert (!hasChar v '/') with e | ⟨⟩
    · rfl
    · rw [ok_bind, ok_bind]
      rcases split1 ':' v with ⟨p0, rest⟩
      dsimp only
      rcases nameOrInt ofpp p0 with e | n
      · rfl
      · rw [ok_bind, ok_bind]
        rcases rest with _ | m
        · dsimp only
          rw [ok_bind, ok_bind]
          rcases packAll [(4, n), (2, (OFPCML_NO_BUFFER : Int))] with e | b
          · rfl
          · rw [ok_bind, ok_bind, except_map_ok]
        · dsimp only
          rcases parseInt (split1 ':' m).1 with e | ⟨x, l⟩
          · rfl
          · rw [ok_bind]
            dsimp only
            rcases pyAssert ((split1 ':' m).1.length == l) with e | ⟨⟩
            · rfl
            · rw [ok_bind, ok_bind, ok_bind]
              rcases packAll [(4, n), (2, x)] with e | b
              · rfl
              · rw [ok_bind, ok_bind, except_map_ok]

example : str2act t!"group, 5" = .ok ([0, 22, 0, 8, 0, 0, 0, 5], 8) ∧ str2act t!"group=5" = .ok ([0, 22, 0, 8, 0, 0, 0, 5], 7) ∧
    str2act t!"output 5,exit" = .ok (outputWire 5 0xffff, 8) := by decide +kernel

/-- `output_reg=field` takes the next word for a maximal length: no action but a number can follow. -/
theorem C66_output_reg_refuted :
    str2act t!"output_reg(nxm_reg0),exit" = .ok (nxWire 15 (u16 31 ++ ([0, 1, 0, 4] ++ (u16 0xffff ++ pad 6))), 20) ∧
    str2act t!"output_reg=nxm_reg0,exit" = .error .valueError ∧
    str2act t!"output_reg=nxm_reg0,5" = .ok (nxWire 15 (u16 31 ++ ([0, 1, 0, 4] ++ (u16 5 ++ pad 6))), 21) := by
  decide +kernel

end Ofpstr
