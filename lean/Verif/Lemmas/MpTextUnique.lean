import Verif.Lemmas.MpTextGroup

/-!
# Lemmas: a line of group descriptions or statistics can be read in one way only
-/

namespace Ofpstr
open Spec

theorem numArg_det {s r r' : Str} {n n' : Int} (h : NumArg s n r) (h' : NumArg s n' r') : n = n' ∧ r = r' := by
  have e := ((numArg_iff _ _ _).2 h).symm.trans ((numArg_iff _ _ _).2 h')
  simpa using e

theorem readsD_det {s r r' : Str} {w w' : GWord} (h : ReadsD s w r) (h' : ReadsD s w' r') : w = w' ∧ r = r' := by
  have ng : ∀ {k : Nat}, groupTypes[k]? ≠ some ((t!"group").map Char.toLower) := fun h => absurd (List.mem_of_getElem? h) (by decide)
  cases h with
  | id hd t n _ h1 h2 =>
    cases h' with
    | id hd' t' n' _ h1' h2' =>
      obtain ⟨-, -, rfl⟩ := tok_det h1 h1'
      obtain ⟨rfl, rfl⟩ := numArg_det h2 h2'
      exact ⟨rfl, rfl⟩
    | type hd' name' k' _ h1' h2' =>
      rw [← (tok_det h1 h1').2.1] at h2'
      exact (ng h2').elim
  | type hd name k _ h1 h2 =>
    cases h' with
    | id hd' t' n' _ h1' h2' =>
      rw [(tok_det h1 h1').2.1] at h2
      exact (ng h2).elim
    | type hd' name' k' _ h1' h2' =>
      obtain ⟨-, rfl, rfl⟩ := tok_det h1 h1'
      rw [← (ofpgt_idx _ _ h2).2.1, ← (ofpgt_idx _ _ h2').2.1]
      exact ⟨rfl, rfl⟩

theorem stop_readsD {s hd name t r : Str} {w : GWord} (h1 : Tok s hd name t) (h2 : name ≠ t!"group") (h3 : name.map Char.toLower ∉ groupTypes)
    (h : ReadsD s w r) : False := by
  cases h with
  | id hd' t' n' _ h1' => exact h2 (tok_det h1 h1').2.1
  | type hd' name' k' _ h1' h2' =>
    rw [← (tok_det h1 h1').2.1] at h2'
    exact h3 (List.mem_of_getElem? h2')

theorem headD_det {gs gs' : List GWord} {s r r' : Str} (h : HeadD gs s r) (h' : HeadD gs' s r') : gs = gs' ∧ r = r' := by
  induction h generalizing gs' with
  | nil =>
    cases h' with
    | nil => exact ⟨rfl, rfl⟩
    | stop => exact ⟨rfl, rfl⟩
    | cons _ _ _ _ _ h => exact absurd rfl h
  | stop s hd name t h1 h2 h3 =>
    cases h' with
    | nil => exact ⟨rfl, rfl⟩
    | stop => exact ⟨rfl, rfl⟩
    | cons _ _ _ _ _ _ h => exact (stop_readsD h1 h2 h3 h).elim
  | cons s w u gs r h1 h2 _ ih =>
    cases h' with
    | nil => exact absurd rfl h1
    | stop _ hd name t h1' h2' h3' => exact (stop_readsD h1' h2' h3' h2).elim
    | cons _ w' u' gs' _ _ h2' h3' =>
      obtain ⟨rfl, rfl⟩ := readsD_det h2 h2'
      obtain ⟨rfl, rfl⟩ := ih h3'
      exact ⟨rfl, rfl⟩

theorem bucketText_nonempty {ws : List BWord} {u : Str} (hw : ws ≠ []) (h : BucketText ActLen ws [] u) : False := by
  cases h with
  | nil => exact hw rfl
  | cons _ _ _ _ _ h => exact h rfl

theorem bucketsD_det {bs bs' : List (List BWord)} {s : Str} (h : BucketsD bs s) (h' : BucketsD bs' s) : bs = bs' := by
  induction h generalizing bs' with
  | nil =>
    cases h' with
    | nil => rfl
    | mark _ _ _ _ h => exact absurd rfl h
    | bucket _ _ _ _ h1 h2 => exact (bucketText_nonempty h1 h2).elim
    | junk _ _ _ _ h => exact absurd rfl h
  | mark s hd r bs h1 h2 _ ih =>
    cases h' with
    | nil => exact absurd rfl h1
    | mark _ hd' r' _ _ h2' h3' =>
      obtain ⟨-, -, rfl⟩ := tok_det h2 h2'
      exact ih h3'
    | bucket _ ws u _ h1' h2' => rw [← actP_len] at h2'; exact (bucket_not_mark h1' h2' h2).elim
    | junk _ hd' name' t' _ h2' h3' => exact absurd (tok_det h2 h2').2.1.symm h3'
  | bucket s ws u bs h1 h2 _ ih =>
    cases h' with
    | nil => exact (bucketText_nonempty h1 h2).elim
    | mark _ hd' r' _ _ h2' => rw [← actP_len] at h2; exact (bucket_not_mark h1 h2 h2').elim
    | bucket _ ws' u' bs' _ h2' h3' =>
      rw [← actP_len] at h2 h2'
      obtain ⟨rfl, rfl⟩ := bucketText_det h2 h2'
      rw [ih h3']
    | junk _ hd' name' t' _ _ _ h4' =>
      rw [← actP_len] at h2 h4'
      exact absurd (bucketText_det h2 h4').1 h1
  | junk s hd name t h1 h2 h3 h4 =>
    cases h' with
    | nil => rfl
    | mark _ hd' r' _ _ h2' => exact absurd (tok_det h2 h2').2.1 h3
    | bucket _ ws' u' bs' h1' h2' h3' =>
      rw [← actP_len] at h4 h2'
      exact absurd (bucketText_det h2' h4).1 h1'
    | junk => rfl

theorem headS_det {gs gs' : List Int} {s r r' : Str} (h : HeadS gs s r) (h' : HeadS gs' s r') : gs = gs' ∧ r = r' := by
  induction h generalizing gs' with
  | nil =>
    cases h' with
    | nil => exact ⟨rfl, rfl⟩
    | stop => exact ⟨rfl, rfl⟩
    | cons _ _ _ _ _ _ _ h => exact absurd rfl h
  | stop s hd name t h1 h2 =>
    cases h' with
    | nil => exact ⟨rfl, rfl⟩
    | stop => exact ⟨rfl, rfl⟩
    | cons _ _ _ _ _ _ _ _ h1' => exact absurd (tok_det h1 h1').2.1 h2
  | cons s hd t n u gs r h1 h2 h3 _ ih =>
    cases h' with
    | nil => exact absurd rfl h1
    | stop _ hd' name' t' h2' h3' => exact absurd (tok_det h2 h2').2.1.symm h3'
    | cons _ hd' t' n' u' gs' _ _ h2' h3' h4' =>
      obtain ⟨-, -, rfl⟩ := tok_det h2 h2'
      obtain ⟨rfl, rfl⟩ := numArg_det h3 h3'
      obtain ⟨rfl, rfl⟩ := ih h4'
      exact ⟨rfl, rfl⟩

theorem statParts_det {names : List Str} {l l' : List (Str × Int)} {ss ss' : List (List (Str × Int))} {s : Str} (hm : t!"@bucket" ∉ names)
    (h : StatParts names l ss s) (h' : StatParts names l' ss' s) : l = l' ∧ ss = ss' := by
  induction h generalizing l' ss' with
  | nil =>
    cases h' with
    | nil => exact ⟨rfl, rfl⟩
    | mark _ _ _ _ _ _ h => exact absurd rfl h
    | count _ _ _ _ _ _ _ _ _ h => exact absurd rfl h
    | junk _ _ _ _ _ _ _ h => exact absurd rfl h
  | mark names s hd r l ss h1 h2 _ ih =>
    cases h' with
    | nil => exact absurd rfl h1
    | mark _ _ hd' r' l' ss' _ h2' h3' =>
      obtain ⟨-, -, rfl⟩ := tok_det h2 h2'
      obtain ⟨rfl, rfl⟩ := ih mark_not.1 h3'
      exact ⟨rfl, rfl⟩
    | count _ _ _ name' _ _ _ _ _ _ h2' h3' => exact absurd ((tok_det h2 h2').2.1 ▸ h3') hm
    | junk _ _ _ name' _ _ _ _ h2' h3' => exact absurd (tok_det h2 h2').2.1.symm h3'
  | count names s hd name t n r l ss h1 h2 h3 h4 _ ih =>
    cases h' with
    | nil => exact absurd rfl h1
    | mark _ _ hd' r' l' ss' _ h2' => exact absurd ((tok_det h2 h2').2.1 ▸ h3) hm
    | count _ _ hd' name' t' n' r' l' ss' _ h2' h3' h4' h5' =>
      obtain ⟨-, rfl, rfl⟩ := tok_det h2 h2'
      obtain ⟨rfl, rfl⟩ := numArg_det h4 h4'
      obtain ⟨rfl, rfl⟩ := ih hm h5'
      exact ⟨rfl, rfl⟩
    | junk _ _ hd' name' t' n' r' _ h2' _ h3' => exact absurd ((tok_det h2 h2').2.1 ▸ h3) h3'
  | junk names s hd name t n r h1 h2 h3 h4 =>
    cases h' with
    | nil => exact ⟨rfl, rfl⟩
    | mark _ _ hd' r' l' ss' _ h2' => exact absurd (tok_det h2 h2').2.1 h3
    | count _ _ hd' name' t' n' r' l' ss' _ h2' h3' => exact absurd ((tok_det h2 h2').2.1 ▸ h3') h4
    | junk => exact ⟨rfl, rfl⟩

end Ofpstr
