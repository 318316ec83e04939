import Verif.Spec.GroupReject
import Verif.Lemmas.RuleRejects
import Verif.Lemmas.Group

/-!
# Which exceptions groups raise
-/

set_option linter.unusedSimpArgs false
set_option linter.unusedVariables false

namespace Ofpstr
open Spec

/-! ## The head -/

theorem wholeThen_err {α : Type} {s : Str} {f : Int → Py α} {e : Err} :
    (parseInt s >>= fun x => pyAssert (s.length == x.2) >>= fun _ => f x.1) = .error e ↔
      WholeRejects s e ∨ ∃ n, IntSyntax s n s.length ∧ f n = .error e := by
  have h1 : (parseInt s >>= fun x => pyAssert (s.length == x.2) >>= fun _ => f x.1) =
      ((parseInt s >>= fun x => pyAssert (s.length == x.2) >>= fun _ => (.ok x.1 : Py Int)) >>= f) := by
    simp only [bind_assoc', ok_bind]
  rw [h1, bindErr, fails_wholeInt s e]
  constructor
  · rintro (h | ⟨n, h, h'⟩)
    · exact Or.inl h
    · obtain ⟨⟨m, l⟩, h2, h⟩ := bind_ok h
      obtain ⟨_, h3, h⟩ := bind_ok h
      have := pyAssert_inv h3
      simp only [beq_iff_eq] at this
      cases h
      exact Or.inr ⟨m, by rw [this]; exact (parseInt_iff _ _ _).1 h2, h'⟩
  · rintro (h | ⟨n, h, h'⟩)
    · exact Or.inl h
    · refine Or.inr ⟨n, ?_, h'⟩
      rw [(parseInt_iff _ _ _).2 h, ok_bind]
      simp only [beq_self_eq_true]
      rfl

theorem groupHead_fails (fuel : Nat) (s : Str) (hf : s.length < fuel) (g : Int) (ty : Nat) :
    Fails (groupHead fuel g ty s) (HeadRejects s) := by
  intro e
  constructor
  · intro h
    induction fuel generalizing s g ty with
    | zero => omega
    | succ fuel ih =>
      by_cases hs : s = []
      · subst hs
        rw [groupHead, if_pos (by decide)] at h
        cases h
      · rcases hg : getToken s with ⟨hd, name, t⟩
        have ht := eq_tok hg
        have hl := tok_progress hs ht
        rw [groupHead_tok hs ht] at h
        split at h
        · rename_i hk
          simp only [beq_iff_eq] at hk
          subst hk
          rcases hg2 : getToken t with ⟨op, p, u⟩
          have ht2 := eq_tok hg2
          have hl2 := tok_length ht2
          rw [hg2] at h
          dsimp only at h
          split at h
          · rename_i ha
            rw [beq_iff_eq, lowerStr_eq] at ha
            exact .later s _ u e hs (.all s hd t op p u ht ht2 ha) (ih u (by omega) _ _ h)
          · rename_i ha
            rw [beq_iff_eq, lowerStr_eq] at ha
            rcases (wholeThen_err (f := fun n => groupHead fuel n ty u)).1 h with h | ⟨n, h1, h2⟩
            · exact .id s hd t op p u e ht ht2 ha h
            · exact .later s _ u e hs (.id s hd t op p n u ht ht2 h1) (ih u (by omega) _ _ h2)
        · rename_i hk
          split at h
          · rename_i hc
            obtain ⟨k, hkk⟩ := groupTypes_mem hc
            exact .later s _ t e hs (.type s hd name k t ht hkk) (ih t (by omega) _ _ h)
          · cases h
  · intro h
    induction h generalizing fuel g ty with
    | id s h t op p r e h1 h2 h3 h4 =>
      cases fuel with
      | zero => omega
      | succ fuel =>
        have hs : s ≠ [] := by
          rintro rfl
          have := congrArg List.length h1.1
          simp at this
        rw [groupHead_tok hs h1, if_pos (by decide), (getToken_iff _ _ _ _).2 h2]
        dsimp only
        rw [lowerStr_eq, if_neg (by simpa using h3)]
        exact (wholeThen_err (f := fun n => groupHead fuel n ty r)).2 (Or.inl h4)
    | later s w u e hs hw _ ih =>
      cases fuel with
      | zero => omega
      | succ fuel =>
        have := readsG_shorter hs hw
        rw [groupHead_word hs hw]
        exact ih _ (by omega) _ _

/-! ## Buckets -/

theorem bucketGo_fails (fuel : Nat) (s : Str) (hf : s.length < fuel) (st : BucketSt) :
    Fails (bucketGo fuel st s) (BucketRejects s) := by
  intro e
  constructor
  · intro h
    induction fuel generalizing s st with
    | zero => omega
    | succ fuel ih =>
      by_cases hs : s = []
      · subst hs
        rw [bucketGo, if_pos (by decide)] at h
        cases h
      · rcases hg : getToken s with ⟨hd, name, t⟩
        have ht := eq_tok hg
        rw [bucketGo_tok hs ht] at h
        by_cases he : '=' ∈ hd
        · rw [(hasChar_iff _ _).2 he] at h
          cases h
          exact .word s _ hs (.equals s hd name t ht he)
        rw [noEq_hasChar he, Bool.not_false, pyAssert_ok, ok_bind] at h
        have next : ∀ (w : BWord) (u : Str), ReadsB actP s w u → bucketGo fuel (stepB st w) u = .error e → BucketRejects s e := by
          intro w u hw hb
          have := readsB_shorter hs hw
          rw [actP_len] at hw
          exact .later s w u e hs hw (ih u (by omega) _ hb)
        have num : ∀ (w : Int → BWord), name ∈ bucketKeys → (∀ n u, (∃ op p, Tok t op p u ∧ '=' ∈ op ∧ IntSyntax p n p.length) → ReadsB actP s (w n) u) →
            (intArg t >>= fun x => bucketGo fuel (stepB st (w x.1)) x.2) = .error e → BucketRejects s e := by
          intro w hk hw h
          rcases bindErr.1 h with h | ⟨⟨n, u⟩, h2, h3⟩
          · exact .word s e hs (.number s hd name t e ht he hk ((intArg_fails t e).1 h))
          · exact next (w n) u (hw n u ((intArg_iff _ _ _).1 h2)) h3
        split at h
        · cases h
        rename_i hat
        split at h
        · rename_i hk
          simp only [beq_iff_eq] at hk
          subst hk
          refine num .weight (by decide) (fun n u hx => ?_) h
          obtain ⟨op, p, h3, h4, h5⟩ := hx
          exact .weight s hd t op p n u ht he h3 h4 h5
        rename_i hk1
        split at h
        · rename_i hk
          simp only [beq_iff_eq] at hk
          subst hk
          refine num .port (by decide) (fun n u hx => ?_) h
          obtain ⟨op, p, h3, h4, h5⟩ := hx
          exact .port s hd t op p n u ht he h3 h4 h5
        rename_i hk2
        split at h
        · rename_i hk
          simp only [beq_iff_eq] at hk
          subst hk
          refine num .group (by decide) (fun n u hx => ?_) h
          obtain ⟨op, p, h3, h4, h5⟩ := hx
          exact .group s hd t op p n u ht he h3 h4 h5
        rename_i hk3
        have hkeys : name ∉ bucketKeys := by
          simp only [bucketKeys, List.mem_cons, List.not_mem_nil, or_false, not_or]
          simp only [beq_iff_eq] at hk1 hk2 hk3
          exact ⟨hk1, hk2, hk3⟩
        have hat' : name.head? ≠ some '@' := fun hc => hat ((startsWith_at _).2 hc)
        rcases bindErr.1 h with h | ⟨⟨b, l⟩, h2, h⟩
        · exact .word s e hs (.action s hd name t e ht he hat' hkeys ((act_rejects s e).1 h))
        · dsimp only at h
          split at h
          · rename_i hl
            exact next (.act b) _ (.act s hd name t b l ht he hat' hkeys h2 (by omega)) h
          · cases h
  · intro h
    induction h generalizing fuel st with
    | word s e hs hw =>
      cases fuel with
      | zero => omega
      | succ fuel =>
        cases hw with
        | equals h n t ht he =>
          rw [bucketGo_tok hs ht, (hasChar_iff _ _).2 he]
          rfl
        | number h n t _ ht he hk hr =>
          rw [bucketGo_tok hs ht, noEq_hasChar he, Bool.not_false, pyAssert_ok, ok_bind]
          have hi := (intArg_fails t e).2 hr
          simp only [bucketKeys, List.mem_cons, List.not_mem_nil, or_false] at hk
          rcases hk with rfl | rfl | rfl
          · rw [if_neg (by decide), if_pos (by decide), hi]; rfl
          · rw [if_neg (by decide), if_neg (by decide), if_pos (by decide), hi]; rfl
          · rw [if_neg (by decide), if_neg (by decide), if_neg (by decide), if_pos (by decide), hi]; rfl
        | action h n t _ ht he hat hk hr =>
          obtain ⟨k1, k2, k3⟩ := bucketKeys_not hk
          have hat' : ¬ startsWith n t!"@" = true := fun hc => hat ((startsWith_at _).1 hc)
          rw [bucketGo_tok hs ht, noEq_hasChar he, Bool.not_false, pyAssert_ok, ok_bind, if_neg hat', k1, k2, k3]
          simp only [Bool.false_eq_true, if_false]
          rw [(act_rejects s e).2 hr]
          rfl
    | later s w u e hs hw _ ih =>
      rw [← actP_len] at hw
      cases fuel with
      | zero => omega
      | succ fuel =>
        have := readsB_shorter hs hw
        rw [bucketGo_word hs hw]
        exact ih _ (by omega) _

theorem str2bucket_fails (type : Nat) (s : Str) : Fails (str2bucket type s)
    (fun e => BucketRejects s e ∨ (e = .structError ∧ ∃ ws u, BucketText ActLen ws s u ∧ ¬ BucketFits type ws)) := by
  intro e
  rw [← actP_len]
  have hnil : BucketFits type [] := by
    unfold BucketFits weightOf portOf groupOf actsOf defaultWeight lastB
    refine ⟨by decide, ?_, by decide, by decide⟩
    by_cases h : type = 1 <;> simp [h, FitsIn]
  constructor
  · intro h
    by_cases hb : BucketRejects s e
    · exact Or.inl hb
    · have hgo : ¬ bucketGo (s.length + 1) { weight := if type == OFPGT_SELECT then 1 else 0 } s = .error e :=
        fun h => hb ((bucketGo_fails _ _ (by omega) _ e).1 h)
      rcases hx : bucketGo (s.length + 1) { weight := if type == OFPGT_SELECT then 1 else 0 } s with e' | ⟨st, r⟩
      · unfold str2bucket at h
        rw [hx] at h
        cases h
        exact absurd hx hgo
      · obtain ⟨ws, h2, -⟩ := bucketGo_inv hx
        rw [str2bucket_text h2] at h
        split at h
        · cases h
        · split at h
          · cases h
          · rename_i hf
            cases h
            exact Or.inr ⟨rfl, ws, r, h2, hf⟩
  · rintro (h | ⟨rfl, ws, r, h1, h2⟩)
    · unfold str2bucket
      rw [(bucketGo_fails _ _ (by omega) _ e).2 h]
      rfl
    · rw [str2bucket_text h1, if_neg (by rintro rfl; exact h2 hnil), if_neg h2]

/-! ## Lists of buckets -/

theorem buckets_err (type fuel : Nat) (s : Str) (hf : s.length < fuel) :
    Fails (groupBuckets type fuel s >>= fun x => pyAssert x.2.isEmpty >>= fun _ => (.ok x.1 : Py Bytes)) (BucketsReject type s) := by
  intro e
  constructor
  · intro h
    induction fuel generalizing s with
    | zero => omega
    | succ fuel ih =>
      by_cases hs : s = []
      · subst hs
        rw [groupBuckets, if_pos (by decide)] at h
        cases h
      · rw [groupBuckets, if_neg (by simpa using hs)] at h
        rw [bind_assoc'] at h
        rcases bindErr.1 h with h | ⟨⟨b, l⟩, h1, h⟩
        · rcases (str2bucket_fails type s e).1 h with h | ⟨rfl, ws, u, h1, h2⟩
          · exact .bucket s e hs h
          · exact .size s ws u h1 h2
        · obtain ⟨ws, r, h2, h3⟩ := str2bucket_inv h1
          dsimp only at h
          rcases h3 with ⟨rfl, rfl⟩ | ⟨h3, hfit, -, rfl, h4⟩
          · rw [if_neg (by omega)] at h
            have hr := (bucketText_shorter h2).1 rfl
            rw [hr, actP_len] at h2
            rcases hg : getToken s with ⟨hd, name, t⟩
            have ht := eq_tok hg
            have hl := tok_progress hs ht
            rw [hg] at h
            dsimp only at h
            split at h
            · rename_i hn
              exact .skip s hd name t e hs h2 ht (by simpa using hn) (ih t (by omega) h)
            · rename_i hn
              rw [ok_bind] at h
              rw [show s.isEmpty = false by simpa using hs] at h
              cases h
              exact .other s hd name t hs h2 ht (by simpa using hn)
          · rw [if_pos (by omega)] at h
            have hl := (bucketText_shorter h2).2 h3
            rw [actP_len] at h2
            refine .later s ws _ e h3 h2 hfit (ih _ (by omega) ?_)
            rw [bind_assoc'] at h
            rcases bindErr.1 h with h | ⟨⟨y, u⟩, h5, h⟩
            · rw [h]; rfl
            · rw [h5, ok_bind]
              rw [ok_bind] at h
              rcases bindErr.1 h with h | ⟨_, _, h⟩
              · dsimp only at h ⊢
                rw [h]; rfl
              · cases h
  · intro h
    induction h generalizing fuel with
    | bucket s e hs h =>
      cases fuel with
      | zero => omega
      | succ fuel =>
        rw [groupBuckets, if_neg (by simpa using hs), (str2bucket_fails type s e).2 (Or.inl h)]
        rfl
    | size s ws u h1 h2 =>
      have hx := (str2bucket_fails type s .structError).2 (Or.inr ⟨rfl, ws, u, h1, h2⟩)
      have hs : s ≠ [] := by
        rintro rfl
        cases hx
      cases fuel with
      | zero => omega
      | succ fuel =>
        rw [groupBuckets, if_neg (by simpa using hs), hx]
        rfl
    | other s h n r hs h1 h2 h3 =>
      rw [← actP_len] at h1
      cases fuel with
      | zero => omega
      | succ fuel =>
        rw [groupBuckets, if_neg (by simpa using hs), str2bucket_text h1, if_pos rfl, ok_bind]
        simp only [gt_iff_lt, lt_self_iff_false, if_false]
        rw [(getToken_iff _ _ _ _).2 h2]
        dsimp only
        rw [if_neg (by simpa using h3), ok_bind]
        rw [show s.isEmpty = false by simpa using hs]
        rfl
    | skip s h n r e hs h1 h2 h3 _ ih =>
      rw [← actP_len] at h1
      cases fuel with
      | zero => omega
      | succ fuel =>
        have := tok_progress hs h2
        rw [groupBuckets, if_neg (by simpa using hs), str2bucket_text h1, if_pos rfl, ok_bind]
        simp only [gt_iff_lt, lt_self_iff_false, if_false]
        rw [(getToken_iff _ _ _ _).2 h2]
        dsimp only
        rw [if_pos (by simpa using h3)]
        exact ih fuel (by omega)
    | later s ws u e hws h1 hfit _ ih =>
      rw [← actP_len] at h1
      have hl := (bucketText_shorter h1).2 hws
      have hs : s ≠ [] := by rintro rfl; cases hl
      cases fuel with
      | zero => omega
      | succ fuel =>
        rw [groupBuckets, if_neg (by simpa using hs), str2bucket_text h1, if_neg hws, if_pos hfit, ok_bind]
        dsimp only
        rw [if_pos (by omega), ← bucketText_drop h1, bind_assoc']
        have := ih fuel (by omega)
        rcases bindErr.1 this with h | ⟨⟨y, v⟩, h5, h⟩
        · rw [h]; rfl
        · rw [h5, ok_bind, ok_bind]
          rcases bindErr.1 h with h | ⟨_, _, h⟩
          · dsimp only at h ⊢
            rw [h]; rfl
          · cases h

/-! ## Groups -/

theorem group_rejects (s : Str) (c x : Int) : Fails (str2group s c x) (GroupRejects c x s) := by
  have hty : ∀ {gs : List GWord}, (gs.foldl stepG (((OFPG_ANY : Nat) : Int), 0)).2 = groupType gs := by
    intro gs
    rw [stepG_type]
    rfl
  intro e
  constructor
  · intro h
    have h' := h
    unfold str2group at h'
    rcases bindErr.1 h' with h1 | ⟨⟨g, ty, u⟩, h1, h2⟩
    · exact .head s e ((groupHead_fails _ _ (by omega) _ _ e).1 h1)
    · obtain ⟨gs, h3, h4⟩ := groupHead_inv h1
      have ety : ty = groupType gs := by rw [← hty, ← h4]
      subst ety
      dsimp only at h2
      by_cases hb : ∃ e, (groupBuckets (groupType gs) (u.length + 1) u >>= fun x => pyAssert x.2.isEmpty >>= fun _ => (.ok x.1 : Py Bytes)) = .error e
      · obtain ⟨e', hb⟩ := hb
        have : e' = e := by
          rcases bindErr.1 hb with hb | ⟨⟨y, v⟩, h5, hb⟩
          · rw [hb] at h2; cases h2; rfl
          · rcases bindErr.1 hb with hb | ⟨_, _, hb⟩
            · rw [h5, ok_bind] at h2
              dsimp only at h2 hb
              rw [hb] at h2
              cases h2; rfl
            · cases hb
        subst this
        exact .buckets s gs u _ h3 ((buckets_err _ _ _ (by omega) _).1 hb)
      · cases hg : groupBuckets (groupType gs) (u.length + 1) u with
        | error e' => exact absurd ⟨e', by rw [hg]; rfl⟩ hb
        | ok y =>
          obtain ⟨y, v⟩ := y
          cases v with
          | cons a v => exact absurd ⟨.assertionError, by rw [hg]; rfl⟩ hb
          | nil =>
            obtain ⟨bs, hbs⟩ := groupBuckets_inv hg
            rw [actP_len] at hbs
            have hr : GroupRule s gs bs := ⟨u, h3, hbs⟩
            rcases C70_group_command hr c x with ⟨_, h5⟩ | ⟨h5, h6⟩
            · rw [h] at h5; cases h5
            · rw [h] at h6
              cases h6
              exact .size s gs bs hr h5
  · intro h
    cases h with
    | head _ h =>
      unfold str2group
      rw [(groupHead_fails _ _ (by omega) _ _ e).2 h]
      rfl
    | buckets gs u _ h1 h2 =>
      unfold str2group
      rw [groupHead_text h1 _ (by omega), ok_bind]
      dsimp only
      rw [hty]
      rcases bindErr.1 ((buckets_err (groupType gs) (u.length + 1) u (by omega) _).2 h2) with hb | ⟨⟨y, v⟩, h5, hb⟩
      · rw [hb]; rfl
      · rw [h5, ok_bind]
        rcases bindErr.1 hb with hb | ⟨_, _, hb⟩
        · dsimp only at hb ⊢
          rw [hb]; rfl
        · cases hb
    | size gs bs h1 h2 =>
      rcases C70_group_command h1 c x with ⟨h5, _⟩ | ⟨_, h6⟩
      · exact absurd h5 h2
      · exact h6

end Ofpstr
