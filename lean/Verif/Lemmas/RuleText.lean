import Verif.Spec.RuleText
import Verif.Props.ActText
import Verif.Props.Flow
import Verif.Props.Group

/-!
# Lemmas: flow rules and groups with the grammars of match items and actions
-/

set_option linter.unusedSimpArgs false

namespace Ofpstr
open Spec

theorem actP_len : actP = ActLen := by
  funext u b l
  exact propext (C69_action u b l)

theorem oxmP_len {u : Str} {b : Bytes} {l : Nat} (hl : l ≠ 0) : oxmP u b l ↔ OxmLen u b l := by
  by_cases hu : u = []
  · subst hu
    constructor
    · intro h
      exfalso
      have e : str2oxm1 ([] : Str) = .ok ([], 0) := by decide +kernel
      have := e.symm.trans h
      simp only [Except.ok.injEq, Prod.mk.injEq] at this
      exact hl this.2.symm
    · rintro ⟨v, t, r, -, -, h⟩
      exact absurd (by simpa using h) hl
  · exact oxm1_iff hu b l

theorem body_mono {o o' a : Str → Bytes → Nat → Prop} (ho : ∀ {u b l}, l ≠ 0 → o u b l → o' u b l) {name s r : Str} {w : Word}
    (h : Body o a name s w r) : Body o' a name s w r := by
  cases h with
  | key k _ op p n _ h1 h2 h3 => exact .key k s op p n r h1 h2 h3
  | cookie _ op p n _ h1 h2 h3 => exact .cookie s op p n r h1 h2 h3
  | cookieMask _ op v m n w l _ h1 h2 h3 h4 => exact .cookieMask s op v m n w l r h1 h2 h3 h4
  | flag _ bit _ h1 => exact .flag name bit s h1
  | oxm _ _ b l h1 h2 h3 h4 => exact .oxm name s b l h1 h2 (ho h4 h3) h4
  | goto _ _ op p n _ h1 h2 h3 h4 => exact .goto name s op p n r h1 h2 h3 h4
  | metadata _ _ op p n _ h1 h2 h3 h4 => exact .metadata name s op p n r h1 h2 h3 h4
  | metadataMask _ _ op v m n w _ h1 h2 h3 h4 h5 => exact .metadataMask name s op v m n w r h1 h2 h3 h4 h5
  | apply _ _ h1 => exact .apply name s h1
  | write _ _ h1 => exact .write name s h1
  | clear _ _ h1 => exact .clear name s h1
  | meter _ op p n _ h1 h2 h3 => exact .meter s op p n r h1 h2 h3
  | act _ _ b l h1 h2 h3 => exact .act name s b l h1 h2 h3

theorem readsWords_mono {o o' a : Str → Bytes → Nat → Prop} (ho : ∀ {u b l}, l ≠ 0 → o u b l → o' u b l) {ws : List Word} {s r : Str}
    (h : ReadsWords o a ws s r) : ReadsWords o' a ws s r := by
  induction h with
  | nil s => exact .nil s
  | cons s h name t w u ws r h1 h2 h3 h4 _ ih => exact .cons s h name t w u ws r h1 h2 h3 (body_mono ho h4) ih

theorem readsWords_len (ws : List Word) (s r : Str) : ReadsWords oxmP actP ws s r ↔ ReadsWords OxmLen ActLen ws s r := by
  rw [actP_len]
  exact ⟨readsWords_mono fun hl => (oxmP_len hl).1, readsWords_mono fun hl => (oxmP_len hl).2⟩

/-! ## The words of a text -/

theorem intSyntax_val {p : Str} {n n' : Int} {l l' : Nat} (h : IntSyntax p n l) (h' : IntSyntax p n' l') : n = n' := by
  rw [← parseInt_iff] at h h'
  have := h.symm.trans h'
  simp only [Except.ok.injEq, Prod.mk.injEq] at this
  exact this.1

theorem intSyntax_noSlash {p : Str} {n : Int} (h : IntSyntax p n p.length) : '/' ∉ p := by
  intro hc
  rcases intSyntax_ne h _ hc with h | h | h | h <;> revert h <;> decide

theorem slash_split {v m v' m' : Str} (h : v ++ '/' :: m = v' ++ '/' :: m') (hv : '/' ∉ v) (hv' : '/' ∉ v') : v = v' ∧ m = m' := by
  induction v generalizing v' with
  | nil =>
    cases v' with
    | nil => simpa using h
    | cons c v' =>
      simp only [List.nil_append, List.cons_append, List.cons.injEq] at h
      exact absurd (h.1 ▸ List.mem_cons_self) hv'
  | cons c v ih =>
    cases v' with
    | nil =>
      simp only [List.nil_append, List.cons_append, List.cons.injEq] at h
      exact absurd (h.1 ▸ List.mem_cons_self) hv
    | cons c' v' =>
      simp only [List.cons_append, List.cons.injEq] at h
      obtain ⟨h1, h2⟩ := ih h.2 (fun hc => hv (List.mem_cons_of_mem _ hc)) (fun hc => hv' (List.mem_cons_of_mem _ hc))
      exact ⟨by rw [h.1, h1], h2⟩

theorem arg_val {k : FKey} {p : Str} {n n' : Int} (h : k.Arg p n) (h' : k.Arg p n') : n = n' := by
  have port : PortText p n → PortText p n' → n = n' := by
    intro h h'
    rw [← nameOrInt_port_iff] at h h'
    have := h.symm.trans h'
    simpa using this
  have grp : GroupText p n → GroupText p n' → n = n' := by
    intro h h'
    rw [← nameOrInt_group_iff] at h h'
    have := h.symm.trans h'
    simpa using this
  cases k <;> first | exact intSyntax_val h h' | exact port h h' | exact grp h h'

theorem names_apart : (∀ k : FKey, k.name ∈ matchKeys ∧ k.name ≠ t!"cookie" ∧ ∀ b, (k.name, b) ∉ flagWords) ∧
    (∀ e ∈ flagWords, e.1 ∈ matchKeys ∧ e.1 ≠ t!"cookie" ∧ ∀ e' ∈ flagWords, e.1 = e'.1 → e.2 = e'.2) ∧
    (∀ k k' : FKey, k.name = k'.name → k = k') := by
  refine ⟨?_, by decide +kernel, ?_⟩
  · intro k
    refine ⟨by cases k <;> decide, by cases k <;> decide, ?_⟩
    intro b hb
    have : k.name ∈ flagWords.map (·.1) := List.mem_map.2 ⟨_, hb, rfl⟩
    revert this
    cases k <;> decide
  · intro k k'
    cases k <;> cases k' <;> decide

/-- What kind of word a token starts, before the first instruction and after `@apply` or `@write`. -/
def kindOf (name : Str) : Nat :=
  if name = t!"cookie" then 1
  else if name ∈ flagWords.map (·.1) then 2
  else if name ∈ [t!"@goto", t!"@goto_table"] then 3
  else if name ∈ [t!"@metadata", t!"@write_metadata"] then 4
  else if name ∈ [t!"@apply", t!"@apply_actions"] then 5
  else if name ∈ [t!"@write", t!"@write_actions"] then 6
  else if name ∈ [t!"@clear", t!"@clear_actions"] then 7
  else if name = t!"@meter" then 8
  else if name ∈ matchKeys then 0
  else 9

def wordKind : Word → Nat
  | .key .. => 0
  | .cookie .. => 1
  | .flag .. => 2
  | .oxm .. => 9
  | .goto .. => 3
  | .metadata .. => 4
  | .apply => 5
  | .write => 6
  | .clear => 7
  | .meter .. => 8
  | .act .. => 9

def kindAt (p : Place) (name : Str) : Nat :=
  if name.head? = some '@' ∨ p = .start then kindOf name else 9

theorem kind_flag : ∀ e ∈ flagWords, kindOf e.1 = 2 ∧ e.1.head? ≠ some '@' := by decide +kernel
theorem kind_inst : (∀ n ∈ [t!"@goto", t!"@goto_table"], kindOf n = 3 ∧ n.head? = some '@') ∧
    (∀ n ∈ [t!"@metadata", t!"@write_metadata"], kindOf n = 4 ∧ n.head? = some '@') ∧
    (∀ n ∈ [t!"@apply", t!"@apply_actions"], kindOf n = 5 ∧ n.head? = some '@') ∧
    (∀ n ∈ [t!"@write", t!"@write_actions"], kindOf n = 6 ∧ n.head? = some '@') ∧
    (∀ n ∈ [t!"@clear", t!"@clear_actions"], kindOf n = 7 ∧ n.head? = some '@') := by decide +kernel

theorem kind_other {name : Str} (h : name ∉ matchKeys) (h' : name.head? ≠ some '@') : kindOf name = 9 := by
  obtain ⟨i1, i2, i3, i4, i5⟩ := kind_inst
  have hm : ∀ {l : List Str} {k : Nat}, (∀ n ∈ l, kindOf n = k ∧ n.head? = some '@') → name ∉ l :=
    fun hl hn => h' (hl _ hn).2
  have hf : ∀ n ∈ flagWords.map (·.1), n ∈ matchKeys := by decide +kernel
  unfold kindOf
  rw [if_neg (fun e => h (by rw [e]; decide)), if_neg (fun e => h (hf _ e)), if_neg (hm i1), if_neg (hm i2), if_neg (hm i3),
    if_neg (hm i4), if_neg (hm i5), if_neg (fun e => h' (by rw [e]; decide)), if_neg h]

theorem kind_key (k : FKey) : kindOf k.name = 0 := by cases k <;> decide +kernel
theorem kind_cookie : kindOf t!"cookie" = 1 := by decide +kernel
theorem kind_meter : kindOf t!"@meter" = 8 ∧ (t!"@meter").head? = some '@' := by decide +kernel

theorem start_of {w : Word} {p : Place} (h : w.next p ≠ none) (hw : StartWord w) : p = .start := by
  cases w <;> first | exact hw.elim | (cases p <;> first | rfl | exact absurd rfl h)

theorem acts_of {b : Bytes} {p : Place} (h : (Word.act b).next p ≠ none) : p = .acts := by
  cases p <;> first | rfl | exact absurd rfl h

theorem body_kind {o a : Str → Bytes → Nat → Prop} {p : Place} {name s r : Str} {w : Word} (h : Body o a name s w r)
    (hp : w.next p ≠ none) : wordKind w = kindAt p name := by
  obtain ⟨i1, i2, i3, i4, i5⟩ := kind_inst
  have st : ∀ {n : Str}, p = .start → kindAt p n = kindOf n := fun e => if_pos (Or.inr e)
  have ins : ∀ {n : Str} {k : Nat}, kindOf n = k ∧ n.head? = some '@' → k = kindAt p n := fun e => by
    rw [kindAt, if_pos (Or.inl e.2), e.1]
  cases h with
  | key k =>
    rw [st (start_of hp trivial), kind_key]; rfl
  | cookie => rw [st (start_of hp trivial), kind_cookie]; rfl
  | cookieMask => rw [st (start_of hp trivial), kind_cookie]; rfl
  | flag _ bit _ h1 => rw [st (start_of hp trivial), (kind_flag _ h1).1]; rfl
  | oxm _ _ b l h1 h2 => rw [st (start_of hp trivial), kind_other h1 h2]; rfl
  | goto _ _ op p n _ h1 => exact ins (i1 _ h1)
  | metadata _ _ op p n _ h1 => exact ins (i2 _ h1)
  | metadataMask _ _ op v m n w _ h1 => exact ins (i2 _ h1)
  | apply _ _ h1 => exact ins (i3 _ h1)
  | write _ _ h1 => exact ins (i4 _ h1)
  | clear _ _ h1 => exact ins (i5 _ h1)
  | meter => exact ins kind_meter
  | act _ _ b l h1 =>
    have : p ≠ .start := by rintro rfl; exact hp rfl
    rw [kindAt, if_neg (not_or.2 ⟨h1, this⟩)]
    rfl

theorem body_det {o a : Str → Bytes → Nat → Prop} (ho : ∀ u b l b' l', o u b l → o u b' l' → b = b' ∧ l = l')
    (ha : ∀ u b l b' l', a u b l → a u b' l' → b = b' ∧ l = l') {p : Place} {name s r r' : Str} {w w' : Word}
    (h : Body o a name s w r) (h' : Body o a name s w' r') (hp : w.next p ≠ none) (hp' : w'.next p ≠ none) : w = w' ∧ r = r' := by
  have hk := (body_kind h hp).trans (body_kind h' hp').symm
  generalize hn : name = name' at h'
  cases h with
  | key k _ op p n _ h1 h2 h3 =>
    cases h' with
    | key k' _ op' p' n' _ h1' h2' h3' =>
      obtain ⟨-, rfl, rfl⟩ := tok_det h1 h1'
      cases names_apart.2.2 _ _ hn
      rw [arg_val h3 h3']
      exact ⟨rfl, rfl⟩
    | _ => exact absurd hk (by simp [wordKind])
  | cookie _ op p n _ h1 h2 h3 =>
    cases h' with
    | cookie _ op p n _ h1' h2' h3' =>
      obtain ⟨-, rfl, rfl⟩ := tok_det h1 h1'
      rw [intSyntax_val h3 h3']
      exact ⟨rfl, rfl⟩
    | cookieMask _ op v m n w l _ h1' h2' h3' h4' =>
      obtain ⟨-, rfl, rfl⟩ := tok_det h1 h1'
      exact absurd (by simp) (intSyntax_noSlash h3)
    | _ => exact absurd hk (by simp [wordKind])
  | cookieMask _ op v m n w l _ h1 h2 h3 h4 =>
    cases h' with
    | cookie _ op p n _ h1' h2' h3' =>
      obtain ⟨-, rfl, rfl⟩ := tok_det h1 h1'
      exact absurd (by simp) (intSyntax_noSlash h3')
    | cookieMask _ op v m n w l _ h1' h2' h3' h4' =>
      obtain ⟨-, e, rfl⟩ := tok_det h1 h1'
      obtain ⟨rfl, rfl⟩ := slash_split e (intSyntax_noSlash h3) (intSyntax_noSlash h3')
      rw [intSyntax_val h3 h3', intSyntax_val h4 h4']
      exact ⟨rfl, rfl⟩
    | _ => exact absurd hk (by simp [wordKind])
  | flag _ bit _ h1 =>
    cases h' with
    | flag _ bit' _ h1' =>
      have := (names_apart.2.1 _ h1).2.2 _ h1' hn
      simp only at this
      subst this
      exact ⟨rfl, rfl⟩
    | _ => exact absurd hk (by simp [wordKind])
  | oxm _ _ b l h1 h2 h3 h4 =>
    cases h' with
    | oxm _ _ b' l' h1' h2' h3' h4' =>
      subst hn
      obtain ⟨rfl, rfl⟩ := ho _ _ _ _ _ h3 h3'
      exact ⟨rfl, rfl⟩
    | act => exact absurd ((start_of hp trivial).symm.trans (acts_of hp')) (by decide)
    | _ => exact absurd hk (by simp [wordKind])
  | goto _ _ op p n _ h0 h1 h2 h3 =>
    cases h' with
    | goto _ _ op p n _ h0' h1' h2' h3' =>
      obtain ⟨-, rfl, rfl⟩ := tok_det h1 h1'
      rw [intSyntax_val h3 h3']
      exact ⟨rfl, rfl⟩
    | _ => exact absurd hk (by simp [wordKind])
  | metadata _ _ op p n _ h0 h1 h2 h3 =>
    cases h' with
    | metadata _ _ op p n _ h0' h1' h2' h3' =>
      obtain ⟨-, rfl, rfl⟩ := tok_det h1 h1'
      rw [intSyntax_val h3 h3']
      exact ⟨rfl, rfl⟩
    | metadataMask _ _ op v m n w _ h0' h1' h2' h3' h4' =>
      obtain ⟨-, rfl, rfl⟩ := tok_det h1 h1'
      exact absurd (by simp) (intSyntax_noSlash h3)
    | _ => exact absurd hk (by simp [wordKind])
  | metadataMask _ _ op v m n w _ h0 h1 h2 h3 h4 =>
    cases h' with
    | metadata _ _ op p n _ h0' h1' h2' h3' =>
      obtain ⟨-, rfl, rfl⟩ := tok_det h1 h1'
      exact absurd (by simp) (intSyntax_noSlash h3')
    | metadataMask _ _ op v m n w _ h0' h1' h2' h3' h4' =>
      obtain ⟨-, e, rfl⟩ := tok_det h1 h1'
      obtain ⟨rfl, rfl⟩ := slash_split e (intSyntax_noSlash h3) (intSyntax_noSlash h3')
      rw [intSyntax_val h3 h3', intSyntax_val h4 h4']
      exact ⟨rfl, rfl⟩
    | _ => exact absurd hk (by simp [wordKind])
  | apply => cases h' with
    | apply => exact ⟨rfl, rfl⟩
    | _ => exact absurd hk (by simp [wordKind])
  | write => cases h' with
    | write => exact ⟨rfl, rfl⟩
    | _ => exact absurd hk (by simp [wordKind])
  | clear => cases h' with
    | clear => exact ⟨rfl, rfl⟩
    | _ => exact absurd hk (by simp [wordKind])
  | meter _ op p n _ h1 h2 h3 =>
    cases h' with
    | meter _ op p n _ h1' h2' h3' =>
      obtain ⟨-, rfl, rfl⟩ := tok_det h1 h1'
      rw [intSyntax_val h3 h3']
      exact ⟨rfl, rfl⟩
    | _ => exact absurd hk (by simp [wordKind])
  | act _ _ b l h1 h2 h3 =>
    cases h' with
    | oxm => exact absurd ((start_of hp' trivial).symm.trans (acts_of hp)) (by decide)
    | act _ _ b' l' h1' h2' h3' =>
      subst hn
      obtain ⟨rfl, rfl⟩ := ha _ _ _ _ _ h2 h2'
      exact ⟨rfl, rfl⟩
    | _ => exact absurd hk (by simp [wordKind])

theorem readsWords_det {o a : Str → Bytes → Nat → Prop} (ho : ∀ u b l b' l', o u b l → o u b' l' → b = b' ∧ l = l')
    (ha : ∀ u b l b' l', a u b l → a u b' l' → b = b' ∧ l = l') {ws ws' : List Word} {s : Str}
    (h : ReadsWords o a ws s []) (h' : ReadsWords o a ws' s []) (p : Place) (hp : placeAfter p ws ≠ none) (hp' : placeAfter p ws' ≠ none) :
    ws = ws' := by
  generalize hr : ([] : Str) = r at h
  induction h generalizing ws' p with
  | nil s =>
    subst hr
    cases h' with
    | nil => rfl
    | cons _ _ _ _ _ _ _ _ h1 => exact absurd rfl h1
  | cons s hd name t w u ws r h1 h2 h3 h4 _ ih =>
    subst hr
    cases h' with
    | nil => exact absurd rfl h1
    | cons _ hd' name' t' w' u' ws' _ h1' h2' h3' h4' h5' =>
      obtain ⟨rfl, rfl, rfl⟩ := tok_det h2 h2'
      unfold placeAfter at hp hp'
      have n1 : w.next p ≠ none := by intro e; rw [e] at hp; exact hp rfl
      have n2 : w'.next p ≠ none := by intro e; rw [e] at hp'; exact hp' rfl
      obtain ⟨rfl, rfl⟩ := body_det ho ha h4 h4' n1 n2
      obtain ⟨q, hq⟩ := Option.ne_none_iff_exists'.1 n1
      rw [hq] at hp hp'
      rw [ih h5' q hp hp' rfl]

theorem oxmP_det {u : Str} {b b' : Bytes} {l l' : Nat} (h : oxmP u b l) (h' : oxmP u b' l') : b = b' ∧ l = l' := by
  have := h.symm.trans h'
  simpa using this

theorem actP_det {u : Str} {b b' : Bytes} {l l' : Nat} (h : actP u b l) (h' : actP u b' l') : b = b' ∧ l = l' := by
  have := h.symm.trans h'
  simpa using this

theorem ruleText_unique {s : Str} {ws ws' : List Word} (h : RuleText s ws) (h' : RuleText s ws') : ws = ws' := by
  obtain ⟨h1, h2⟩ := h
  obtain ⟨h1', h2'⟩ := h'
  rw [← readsWords_len] at h1 h1'
  exact readsWords_det (o := oxmP) (a := actP) (fun _ _ _ _ _ => oxmP_det) (fun _ _ _ _ _ => actP_det) h1 h1' .start h2 h2'

/-! ## Groups -/

theorem readsB_det {s r r' : Str} {w w' : BWord} (h : ReadsB actP s w r) (h' : ReadsB actP s w' r') : w = w' ∧ r = r' := by
  cases h with
  | weight hd t op p n _ h1 h2 h3 h4 h5 =>
    cases h' with
    | weight hd' t' op' p' n' _ h1' h2' h3' h4' h5' =>
      obtain ⟨-, -, rfl⟩ := tok_det h1 h1'
      obtain ⟨-, rfl, rfl⟩ := tok_det h3 h3'
      rw [intSyntax_val h5 h5']; exact ⟨rfl, rfl⟩
    | port hd' t' op' p' n' _ h1' => exact absurd (tok_det h1 h1').2.1 (by decide)
    | group hd' t' op' p' n' _ h1' => exact absurd (tok_det h1 h1').2.1 (by decide)
    | act hd' name' t' b' l' h1' h2' h3' h4' => exact absurd (by rw [← (tok_det h1 h1').2.1]; decide) h4'
  | port hd t op p n _ h1 h2 h3 h4 h5 =>
    cases h' with
    | port hd' t' op' p' n' _ h1' h2' h3' h4' h5' =>
      obtain ⟨-, -, rfl⟩ := tok_det h1 h1'
      obtain ⟨-, rfl, rfl⟩ := tok_det h3 h3'
      rw [intSyntax_val h5 h5']; exact ⟨rfl, rfl⟩
    | weight hd' t' op' p' n' _ h1' => exact absurd (tok_det h1 h1').2.1 (by decide)
    | group hd' t' op' p' n' _ h1' => exact absurd (tok_det h1 h1').2.1 (by decide)
    | act hd' name' t' b' l' h1' h2' h3' h4' => exact absurd (by rw [← (tok_det h1 h1').2.1]; decide) h4'
  | group hd t op p n _ h1 h2 h3 h4 h5 =>
    cases h' with
    | group hd' t' op' p' n' _ h1' h2' h3' h4' h5' =>
      obtain ⟨-, -, rfl⟩ := tok_det h1 h1'
      obtain ⟨-, rfl, rfl⟩ := tok_det h3 h3'
      rw [intSyntax_val h5 h5']; exact ⟨rfl, rfl⟩
    | weight hd' t' op' p' n' _ h1' => exact absurd (tok_det h1 h1').2.1 (by decide)
    | port hd' t' op' p' n' _ h1' => exact absurd (tok_det h1 h1').2.1 (by decide)
    | act hd' name' t' b' l' h1' h2' h3' h4' => exact absurd (by rw [← (tok_det h1 h1').2.1]; decide) h4'
  | act hd name t b l h1 h2 h3 h4 h5 h6 =>
    cases h' with
    | weight hd' t' op' p' n' _ h1' => exact absurd (by rw [(tok_det h1 h1').2.1]; decide) h4
    | port hd' t' op' p' n' _ h1' => exact absurd (by rw [(tok_det h1 h1').2.1]; decide) h4
    | group hd' t' op' p' n' _ h1' => exact absurd (by rw [(tok_det h1 h1').2.1]; decide) h4
    | act hd' name' t' b' l' h1' h2' h3' h4' h5' h6' =>
      obtain ⟨rfl, rfl⟩ := actP_det h5 h5'
      exact ⟨rfl, rfl⟩

theorem noB_readsB {s r : Str} {w : BWord} (hs : s ≠ []) (h : NoB actP s) (h' : ReadsB actP s w r) : False := by
  rcases h with rfl | ⟨hd, name, t, h1, h2, h3⟩
  · exact hs rfl
  · have key : ∀ {hd' t' k}, k ∈ bucketKeys → Tok s hd' k t' → False := by
      intro hd' t' k hk hT
      obtain ⟨-, e, -⟩ := tok_det h1 hT
      rcases h3 with h3 | h3
      · rw [e] at h3
        have hb : ∀ k ∈ bucketKeys, k.head? ≠ some '@' := by decide
        exact hb _ hk h3
      · exact h3.1 (e ▸ hk)
    cases h' with
    | weight _ _ _ _ _ _ h1' => exact key (by decide) h1'
    | port _ _ _ _ _ _ h1' => exact key (by decide) h1'
    | group _ _ _ _ _ _ h1' => exact key (by decide) h1'
    | act hd' name' t' b' l' h1' h2' h3' h4' h5' h6' =>
      obtain ⟨-, rfl, -⟩ := tok_det h1 h1'
      rcases h3 with h3 | ⟨-, b, h3⟩
      · exact h3' h3
      · exact h6' (actP_det h5' h3).2

theorem bucketText_det {ws ws' : List BWord} {s r r' : Str} (h : BucketText actP ws s r) (h' : BucketText actP ws' s r') : ws = ws' ∧ r = r' := by
  induction h generalizing ws' with
  | nil s hn =>
    cases h' with
    | nil => exact ⟨rfl, rfl⟩
    | cons _ w u ws r h1 h2 => exact (noB_readsB h1 hn h2).elim
  | cons s w u ws r h1 h2 _ ih =>
    cases h' with
    | nil _ hn => exact (noB_readsB h1 hn h2).elim
    | cons _ w' u' ws' r' h1' h2' h3' =>
      obtain ⟨rfl, rfl⟩ := readsB_det h2 h2'
      obtain ⟨rfl, rfl⟩ := ih h3'
      exact ⟨rfl, rfl⟩

theorem buckets_det {bs bs' : List (List BWord)} {s : Str} (h : Buckets actP bs s) (h' : Buckets actP bs' s) : bs = bs' := by
  induction h generalizing bs' with
  | nil =>
    cases h' with
    | nil => rfl
    | skip _ _ _ _ _ h1 => exact absurd rfl h1
    | bucket _ ws u bs h1 h2 =>
      cases h2 with
      | nil => exact absurd rfl h1
      | cons _ _ _ _ _ h3 => exact absurd rfl h3
  | skip s hd name r bs h1 h2 h3 h4 _ ih =>
    cases h' with
    | nil => exact absurd rfl h1
    | skip _ hd' name' r' bs' h1' h2' h3' h4' h5' =>
      obtain ⟨rfl, rfl, rfl⟩ := tok_det h3 h3'
      exact ih h5'
    | bucket _ ws u bs h1' h2' => exact absurd (bucketText_det h2' h2).1 h1'
  | bucket s ws u bs h1 h2 _ ih =>
    cases h' with
    | nil =>
      cases h2 with
      | nil => exact absurd rfl h1
      | cons _ _ _ _ _ h3 => exact absurd rfl h3
    | skip _ hd' name' r' bs' h1' h2' => exact absurd (bucketText_det h2 h2').1 h1
    | bucket _ ws' u' bs' h1' h2' h3' =>
      obtain ⟨rfl, rfl⟩ := bucketText_det h2 h2'
      rw [ih h3']

theorem readsG_det {s r r' : Str} {w w' : GWord} (h : ReadsG s w r) (h' : ReadsG s w' r') : w = w' ∧ r = r' := by
  have nt : ∀ {k : Nat} {name : Str}, groupTypes[k]? = some name → name ≠ t!"group" := fun h => (ofpgt_idx _ _ h).2.2
  cases h with
  | all hd t op p _ h1 h2 h3 =>
    cases h' with
    | all hd' t' op' p' _ h1' h2' h3' =>
      obtain ⟨-, -, rfl⟩ := tok_det h1 h1'
      obtain ⟨-, rfl, rfl⟩ := tok_det h2 h2'
      exact ⟨rfl, rfl⟩
    | id hd' t' op' p' n' _ h1' h2' h3' =>
      obtain ⟨-, -, rfl⟩ := tok_det h1 h1'
      obtain ⟨-, rfl, rfl⟩ := tok_det h2 h2'
      exact absurd h3 (intSyntax_not_all h3')
    | type hd' name' k' _ h1' h2' => exact absurd (tok_det h1' h1).2.1 (nt h2')
  | id hd t op p n _ h1 h2 h3 =>
    cases h' with
    | all hd' t' op' p' _ h1' h2' h3' =>
      obtain ⟨-, -, rfl⟩ := tok_det h1 h1'
      obtain ⟨-, rfl, rfl⟩ := tok_det h2 h2'
      exact absurd h3' (intSyntax_not_all h3)
    | id hd' t' op' p' n' _ h1' h2' h3' =>
      obtain ⟨-, -, rfl⟩ := tok_det h1 h1'
      obtain ⟨-, rfl, rfl⟩ := tok_det h2 h2'
      rw [intSyntax_val h3 h3']
      exact ⟨rfl, rfl⟩
    | type hd' name' k' _ h1' h2' => exact absurd (tok_det h1' h1).2.1 (nt h2')
  | type hd name k _ h1 h2 =>
    cases h' with
    | all hd' t' op' p' _ h1' => exact absurd (tok_det h1 h1').2.1 (nt h2)
    | id hd' t' op' p' n' _ h1' => exact absurd (tok_det h1 h1').2.1 (nt h2)
    | type hd' name' k' _ h1' h2' =>
      obtain ⟨-, rfl, rfl⟩ := tok_det h1 h1'
      rw [← (ofpgt_idx _ _ h2).2.1, ← (ofpgt_idx _ _ h2').2.1]
      exact ⟨rfl, rfl⟩

theorem stop_readsG {s hd name t r : Str} {w : GWord} (h1 : Tok s hd name t) (h2 : name ∉ t!"group" :: groupTypes) (h : ReadsG s w r) : False := by
  cases h with
  | all hd' t' op' p' _ h1' => exact h2 (by rw [(tok_det h1 h1').2.1]; decide)
  | id hd' t' op' p' n' _ h1' => exact h2 (by rw [(tok_det h1 h1').2.1]; decide)
  | type hd' name' k' _ h1' h2' =>
    rw [(tok_det h1 h1').2.1] at h2
    exact h2 (List.mem_cons_of_mem _ (List.mem_of_getElem? h2'))

theorem headText_det {gs gs' : List GWord} {s r r' : Str} (h : HeadText gs s r) (h' : HeadText gs' s r') : gs = gs' ∧ r = r' := by
  induction h generalizing gs' with
  | nil =>
    cases h' with
    | nil => exact ⟨rfl, rfl⟩
    | stop => exact ⟨rfl, rfl⟩
    | cons _ w u gs r h1 h2 => exact absurd rfl h1
  | stop s hd name t h1 h2 =>
    cases h' with
    | nil => exact ⟨rfl, rfl⟩
    | stop => exact ⟨rfl, rfl⟩
    | cons _ w u gs r h1' h2' => exact (stop_readsG h1 h2 h2').elim
  | cons s w u gs r h1 h2 _ ih =>
    cases h' with
    | nil => exact absurd rfl h1
    | stop _ hd name t h1' h2' => exact (stop_readsG h1' h2' h2).elim
    | cons _ w' u' gs' r' h1' h2' h3' =>
      obtain ⟨rfl, rfl⟩ := readsG_det h2 h2'
      obtain ⟨rfl, rfl⟩ := ih h3'
      exact ⟨rfl, rfl⟩

theorem groupRule_unique {s : Str} {gs gs' : List GWord} {bs bs' : List (List BWord)} (h : GroupRule s gs bs) (h' : GroupRule s gs' bs') :
    gs = gs' ∧ bs = bs' := by
  unfold GroupRule at h h'
  rw [← actP_len] at h h'
  obtain ⟨u, h1, h2⟩ := h
  obtain ⟨u', h1', h2'⟩ := h'
  obtain ⟨rfl, rfl⟩ := headText_det h1 h1'
  exact ⟨rfl, buckets_det h2 h2'⟩

end Ofpstr
