import Verif.Lemmas.Group
import Verif.Lemmas.Order

/-!
# Termination of the group and multipart parsers
-/

namespace Ofpstr
open Spec

theorem intArg_rest {s r : Str} {n : Int} (h : intArg s = .ok (n, r)) : r.length ≤ s.length := by
  obtain ⟨op, p, ht, -, -⟩ := (intArg_iff _ _ _).1 h
  exact tok_length ht

theorem procArg_rest {s r : Str} {n : Int} (h : procArg s = .ok (n, r)) : r.length ≤ s.length := by
  obtain ⟨op, p, ht, -, -⟩ := (procArg_iff _ _ _).1 h
  exact tok_length ht

theorem ends_bucketGo (fuel : Nat) (st : BucketSt) (s : Str) (h : s.length < fuel) : Ends (bucketGo fuel st s) := by
  induction fuel generalizing st s with
  | zero => omega
  | succ fuel ih =>
    by_cases hs : s = []
    · subst hs
      exact ends_ok _
    rcases hg : getToken s with ⟨hd, name, t⟩
    have ht := (getToken_iff _ _ _ _).1 hg
    have hp := tok_progress hs ht
    rw [bucketGo_tok hs ht]
    refine ends_bind (ends_pyAssert _) fun _ _ => ?_
    split
    · exact ends_ok _
    split
    · refine ends_bind (ends_intArg _) ?_
      rintro ⟨n, u⟩ hu
      have := intArg_rest hu
      exact ih _ _ (by omega)
    split
    · refine ends_bind (ends_intArg _) ?_
      rintro ⟨n, u⟩ hu
      have := intArg_rest hu
      exact ih _ _ (by omega)
    split
    · refine ends_bind (ends_intArg _) ?_
      rintro ⟨n, u⟩ hu
      have := intArg_rest hu
      exact ih _ _ (by omega)
    · refine ends_bind (ends_str2act _) ?_
      rintro ⟨b, l⟩ -
      dsimp only
      split
      · refine ih _ _ ?_
        rw [List.length_drop]
        have := List.length_pos_of_ne_nil hs
        omega
      · exact ends_ok _

theorem ends_str2bucket (type : Nat) (s : Str) : Ends (str2bucket type s) := by
  unfold str2bucket
  refine ends_bind (ends_bucketGo _ _ _ (by omega)) ?_
  rintro ⟨st, u⟩ -
  dsimp only
  split
  · exact ends_ok _
  · exact ends_bind (ends_packAll _) fun _ _ => ends_ok _

theorem ends_groupHead (fuel : Nat) (g : Int) (ty : Nat) (s : Str) (h : s.length < fuel) :
    Ends (groupHead fuel g ty s) := by
  induction fuel generalizing g ty s with
  | zero => omega
  | succ fuel ih =>
    by_cases hs : s = []
    · subst hs
      exact ends_ok _
    rcases hg : getToken s with ⟨hd, name, t⟩
    have ht := (getToken_iff _ _ _ _).1 hg
    have hp := tok_progress hs ht
    rw [groupHead_tok hs ht]
    split
    · rcases hg' : getToken t with ⟨hd', name', t'⟩
      have := tok_length ((getToken_iff _ _ _ _).1 hg')
      dsimp only
      split
      · exact ih _ _ _ (by omega)
      · refine ends_bind (ends_parseInt _) fun _ _ => ends_bind (ends_pyAssert _) fun _ _ => ?_
        exact ih _ _ _ (by omega)
    split
    · exact ih _ _ _ (by omega)
    · exact ends_ok _

theorem ends_groupBuckets (type fuel : Nat) (s : Str) (h : s.length < fuel) : Ends (groupBuckets type fuel s) := by
  induction fuel generalizing s with
  | zero => omega
  | succ fuel ih =>
    by_cases hs : s = []
    · subst hs
      exact ends_ok _
    have := List.length_pos_of_ne_nil hs
    rw [groupBuckets, if_neg (by simpa using hs)]
    refine ends_bind (ends_str2bucket _ _) ?_
    rintro ⟨b, l⟩ -
    dsimp only
    split
    · refine ends_bind (ih _ (by rw [List.length_drop]; omega)) fun _ _ => ends_ok _
    · have hp := getToken_progress s hs
      rcases hg : getToken s with ⟨hd, name, t⟩
      rw [hg] at hp
      dsimp only at hp ⊢
      split
      · exact ih _ (by omega)
      · exact ends_ok _

theorem ends_str2group (s : Str) (c x : Int) : Ends (str2group s c x) := by
  unfold str2group
  refine ends_bind (ends_groupHead _ _ _ _ (by omega)) ?_
  rintro ⟨g, ty, u⟩ -
  refine ends_bind (ends_groupBuckets _ _ _ (by omega)) ?_
  rintro ⟨bs, u'⟩ -
  exact ends_bind (ends_pyAssert _) fun _ _ => ends_bind (ends_packAll _) fun _ _ =>
    ends_bind (ends_packU _ _) fun _ _ => ends_ok _

/-! ## Multipart texts -/

theorem ends_mpMessage (type xid : Int) (mp : Nat) (b : Bytes) : Ends (mpMessage type xid mp b) :=
  ends_bind (ends_packAll _) fun _ _ => ends_ok _

theorem ends_mpAppend (a b : Bytes) : Ends (mpAppend a b) := by
  unfold mpAppend; split
  · exact ends_error (by decide)
  · exact ends_ok _

theorem ends_countersGo (fuel : Nat) (c : Counters) (s : Str) (h : s.length < fuel) : Ends (countersGo fuel c s) := by
  induction fuel generalizing c s with
  | zero => omega
  | succ fuel ih =>
    rw [countersGo]
    split
    · exact ends_ok _
    · rename_i hs
      have hp := getToken_progress s (by simpa using hs)
      rcases hg : getToken s with ⟨hd, name, t⟩
      rw [hg] at hp
      dsimp only at hp ⊢
      repeat' split
      all_goals first
        | exact ends_ok _
        | (refine ends_bind (ends_procArg _) ?_
           rintro ⟨n, u⟩ hu
           have := procArg_rest hu
           exact ih _ _ (by dsimp only; omega))

theorem ends_parseStats (l : List Str) : Ends (parseStats l) := by
  induction l with
  | nil => exact ends_ok _
  | cons s l ih =>
    refine ends_bind ?_ fun _ _ => ends_bind ih fun _ _ => ends_ok _
    unfold parseStat
    refine ends_bind (ends_countersGo _ _ _ (by omega)) ?_
    rintro ⟨c, r⟩ -
    exact ends_bind (ends_str2dict _) fun _ _ => ends_ok _

theorem ends_statBody (type : Int) (c : Counters) (i : Info) : Ends (statBody type c i) := by
  unfold statBody
  refine ends_bind (ends_bind (ends_packAll _) fun _ _ => ends_ok _) fun _ _ => ?_
  split
  · exact ends_bind (ends_packU _ _) fun _ _ => ends_bind (ends_packAll _) fun _ _ =>
      ends_bind (ends_packAll _) fun _ _ => ends_ok _
  · exact ends_bind (ends_packAll _) fun _ _ => ends_bind (ends_packAll _) fun _ _ =>
      ends_bind (ends_packAll _) fun _ _ => ends_ok _

theorem ends_mpflowGo (type : Int) (b : Bytes) (l : List (Counters × Info)) : Ends (mpflowGo type b l) := by
  induction l generalizing b with
  | nil => exact ends_ok _
  | cons e l ih =>
    obtain ⟨c, i⟩ := e
    exact ends_bind (ends_statBody _ _ _) fun _ _ => ends_bind (ends_mpAppend _ _) fun _ _ => ih _

theorem ends_text2mpflow (s : Str) (type xid : Int) : Ends (text2mpflow s type xid) :=
  ends_bind (ends_parseStats _) fun _ _ => ends_bind (ends_mpflowGo _ _ _) fun _ _ => ends_mpMessage _ _ _ _

theorem ends_descHead (fuel : Nat) (g : Int) (ty : Nat) (s : Str) (h : s.length < fuel) :
    Ends (descHead fuel g ty s) := by
  induction fuel generalizing g ty s with
  | zero => omega
  | succ fuel ih =>
    rw [descHead]
    split
    · exact ends_ok _
    · rename_i hs
      have hp := getToken_progress s (by simpa using hs)
      rcases hg : getToken s with ⟨hd, name, t⟩
      rw [hg] at hp
      dsimp only at hp ⊢
      split
      · refine ends_bind (ends_procArg _) ?_
        rintro ⟨n, u⟩ hu
        have := procArg_rest hu
        exact ih _ _ _ (by dsimp only; omega)
      split
      · exact ih _ _ _ (by omega)
      · exact ends_ok _

theorem ends_descBuckets (type fuel : Nat) (s : Str) (h : s.length < fuel) : Ends (descBuckets type fuel s) := by
  induction fuel generalizing s with
  | zero => omega
  | succ fuel ih =>
    rw [descBuckets]
    split
    · exact ends_ok _
    · rename_i hs
      have hn : s ≠ [] := by simpa using hs
      have hp := getToken_progress s hn
      have := List.length_pos_of_ne_nil hn
      rcases hg : getToken s with ⟨hd, name, t⟩
      rw [hg] at hp
      dsimp only at hp ⊢
      split
      · exact ih _ (by omega)
      · refine ends_bind (ends_str2bucket _ _) ?_
        rintro ⟨b, l⟩ -
        dsimp only
        split
        · exact ends_bind (ih _ (by rw [List.length_drop]; omega)) fun _ _ => ends_ok _
        · exact ends_ok _

theorem ends_descBody (s : Str) : Ends (descBody s) := by
  unfold descBody
  refine ends_bind (ends_descHead _ _ _ _ (by omega)) ?_
  rintro ⟨g, ty, u⟩ -
  exact ends_bind (ends_descBuckets _ _ _ (by omega)) fun _ _ => ends_bind (ends_packAll _) fun _ _ =>
    ends_bind (ends_packU _ _) fun _ _ => ends_ok _

theorem ends_descGo (b : Bytes) (l : List Str) : Ends (descGo b l) := by
  induction l generalizing b with
  | nil => exact ends_ok _
  | cons s l ih => exact ends_bind (ends_descBody _) fun _ _ => ends_bind (ends_mpAppend _ _) fun _ _ => ih _

theorem ends_text2mpgroupdesc (s : Str) (type xid : Int) : Ends (text2mpgroupdesc s type xid) := by
  unfold text2mpgroupdesc
  split
  · exact ends_mpMessage _ _ _ _
  · exact ends_bind (ends_descGo _ _) fun _ _ => ends_mpMessage _ _ _ _

theorem ends_statGroupHead (fuel : Nat) (g : Int) (s : Str) (h : s.length < fuel) : Ends (statGroupHead fuel g s) := by
  induction fuel generalizing g s with
  | zero => omega
  | succ fuel ih =>
    rw [statGroupHead]
    split
    · exact ends_ok _
    · rename_i hs
      have hp := getToken_progress s (by simpa using hs)
      rcases hg : getToken s with ⟨hd, name, t⟩
      rw [hg] at hp
      dsimp only at hp ⊢
      split
      · refine ends_bind (ends_procArg _) ?_
        rintro ⟨n, u⟩ hu
        have := procArg_rest hu
        exact ih _ _ (by dsimp only; omega)
      · exact ends_ok _

theorem ends_groupStatsGo (fuel : Nat) (g : Counters) (bs : List (Option Int × Option Int)) (s : Str)
    (h : s.length < fuel) : Ends (groupStatsGo fuel g bs s) := by
  induction fuel generalizing g bs s with
  | zero => omega
  | succ fuel ih =>
    rw [groupStatsGo]
    split
    · exact ends_ok _
    · rename_i hs
      have hp := getToken_progress s (by simpa using hs)
      rcases hg : getToken s with ⟨hd, name, t⟩
      rw [hg] at hp
      dsimp only at hp ⊢
      split
      · exact ih _ _ _ (by omega)
      · refine ends_bind (ends_procArg _) ?_
        rintro ⟨n, u⟩ hu
        have := procArg_rest hu
        dsimp only
        repeat' split
        all_goals first | exact ih _ _ _ (by omega) | exact ends_ok _

theorem ends_packBucketStats (l : List (Option Int × Option Int)) : Ends (packBucketStats l) := by
  induction l with
  | nil => exact ends_ok _
  | cons e l ih =>
    obtain ⟨a, b⟩ := e
    exact ends_bind (ends_packAll _) fun _ _ => ends_bind ih fun _ _ => ends_ok _

theorem ends_mpgroupGo (type : Int) (b : Bytes) (l : List Str) : Ends (mpgroupGo type b l) := by
  induction l generalizing b with
  | nil => exact ends_ok _
  | cons s l ih =>
    rw [mpgroupGo]
    refine ends_bind (ends_statGroupHead _ _ _ (by omega)) ?_
    rintro ⟨g, u⟩ -
    dsimp only
    split
    · exact ends_bind (ends_packU _ _) fun _ _ => ends_ok _
    · refine ends_bind ?_ fun _ _ => ends_bind (ends_mpAppend _ _) fun _ _ => ih _
      unfold groupStatBody
      refine ends_bind (ends_groupStatsGo _ _ _ _ (by omega)) ?_
      rintro ⟨c, bs⟩ -
      exact ends_bind (ends_packBucketStats _) fun _ _ => ends_bind (ends_packU _ _) fun _ _ =>
        ends_bind (ends_packAll _) fun _ _ => ends_bind (ends_packAll _) fun _ _ => ends_ok _

theorem ends_text2mpgroup (s : Str) (type xid : Int) : Ends (text2mpgroup s type xid) :=
  ends_bind (ends_mpgroupGo _ _ _) fun _ _ => ends_mpMessage _ _ _ _

end Ofpstr
