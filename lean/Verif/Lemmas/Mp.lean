import Verif.Lemmas.MpEnds
import Verif.Lemmas.GroupTrip

/-!
# Multipart messages: header, lists of messages, counters
-/

namespace Ofpstr
open Spec

/-! ## The header -/

theorem mpWire_length (t x k f : Nat) (B : Bytes) : (mpWire t x k f B).length = 16 + B.length := by
  simp only [mpWire, message, List.length_append, u8_length, u16_length, u32_length, pad_length]
  omega

theorem mpWire_nums (t x k f : Nat) (B rest : Bytes) (ht : t < 256) (hx : x < 256 ^ 4) (hk : k < 256 ^ 2)
    (hl : 16 + B.length < 65536) :
    uAt (mpWire t x k f B ++ rest) 1 1 = t ∧ uAt (mpWire t x k f B ++ rest) 2 2 = 16 + B.length ∧
    uAt (mpWire t x k f B ++ rest) 8 2 = k ∧ (mpWire t x k f B).drop 16 = B := by
  have hL : 8 + (u16 k ++ (u16 f ++ (pad 4 ++ B))).length = 16 + B.length := by
    simp only [List.length_append, u16_length, pad_length]; omega
  unfold mpWire message
  rw [hL]
  simp only [List.append_assoc]
  refine ⟨?_, ?_, ?_, ?_⟩
  · simp only [uAt_u8, uAt_u16, uAt_u32, uAt_skip_pad, Nat.reduceLeDiff, Nat.reduceSub, Nat.sub_self, Nat.le_refl]
    exact uAt_u8_here _ _ ht
  · simp only [uAt_u8, uAt_u16, uAt_u32, uAt_skip_pad, Nat.reduceLeDiff, Nat.reduceSub, Nat.sub_self, Nat.le_refl]
    exact uAt_u16_here _ _ hl
  · simp only [uAt_u8, uAt_u16, uAt_u32, uAt_skip_pad, Nat.reduceLeDiff, Nat.reduceSub, Nat.sub_self, Nat.le_refl]
    exact uAt_u16_here _ _ hk
  · have e : u8 4 ++ (u8 t ++ (u16 (16 + B.length) ++ (u32 x ++ (u16 k ++ (u16 f ++ (pad 4 ++ B)))))) =
        (u8 4 ++ (u8 t ++ (u16 (16 + B.length) ++ (u32 x ++ (u16 k ++ (u16 f ++ pad 4)))))) ++ B := by
      simp only [List.append_assoc]
    rw [e]
    apply List.drop_left'
    simp only [List.length_append, u8_length, u16_length, u32_length, pad_length]

/-- The packing of the header. -/
theorem mpMessage_fit (t x : Int) (k : Nat) (B : Bytes) (ht : FitsIn 1 t) (hx : FitsIn 4 x) (hk : k < 256 ^ 2)
    (hl : 16 + B.length < 65536) : mpMessage t x k B = .ok (mpWire t.toNat x.toNat k 0 B) := by
  have hL : 8 + (u16 k ++ (u16 0 ++ (pad 4 ++ B))).length = 16 + B.length := by
    simp only [List.length_append, u16_length, pad_length]; omega
  unfold mpMessage
  rw [packAll_eq, if_pos (by
    intro e he
    simp only [List.mem_cons, List.not_mem_nil, or_false] at he
    rcases he with rfl | rfl | rfl | rfl | rfl | rfl
    · decide
    · exact ht
    · exact (fitsIn2 (16 + B.length)).2 hl
    · exact hx
    · exact (fitsIn2 k).2 hk
    · decide), ok_bind]
  unfold mpWire message
  rw [hL]
  simp only [List.flatMap_cons, List.flatMap_nil, List.append_nil, List.append_assoc]
  rfl

/-! ## Several messages -/

/-- One message after the other. -/
theorem msgsGo_list (one : Bytes → Py (List Str)) (l : List (Bytes × List Str))
    (h : ∀ e ∈ l, one e.1 = .ok e.2 ∧ 8 ≤ e.1.length ∧ ∀ rest, uAt (e.1 ++ rest) 2 2 = e.1.length) (fuel : Nat)
    (hf : (l.flatMap (·.1)).length < fuel) : msgsGo one fuel (l.flatMap (·.1)) = .ok (l.flatMap (·.2)) := by
  induction l generalizing fuel with
  | nil =>
    cases fuel with
    | zero => omega
    | succ f => rw [msgsGo, if_pos (by decide)]; rfl
  | cons e l ih =>
    cases fuel with
    | zero => omega
    | succ f =>
      obtain ⟨h1, h2, h3⟩ := h e (by simp)
      simp only [List.flatMap_cons, List.length_append] at hf ⊢
      have hne : (e.1 ++ l.flatMap (·.1)).isEmpty = false := by
        cases he : e.1 with
        | nil => rw [he] at h2; simp at h2
        | cons a b => rfl
      rw [msgsGo, hne, if_neg (by decide), needBytes_ok _ _ _ (by rw [List.length_append]; omega), ok_bind]
      dsimp only
      rw [h3, List.take_left, List.drop_left, h1, ok_bind, ih (fun x hx => h x (List.mem_cons_of_mem _ hx)) f (by omega),
        ok_bind]

theorem msgsGo_one (one : Bytes → Py (List Str)) (m : Bytes) (rows : List Str) (h : one m = .ok rows)
    (h8 : 8 ≤ m.length) (hl : ∀ rest, uAt (m ++ rest) 2 2 = m.length) :
    msgsGo one (m.length + 1) m = .ok rows := by
  have := msgsGo_list one [(m, rows)] (by
    intro e he
    rw [List.mem_singleton] at he
    subst he
    exact ⟨h, h8, hl⟩) (m.length + 1) (by simp)
  simpa using this

/-! ## Replies -/

theorem mpReply_slice (x k : Nat) (B : Bytes) :
    slice (mpReply x k B) 16 (16 + B.length) = (mpReply x k B).drop 16 := by
  rw [slice, List.take_of_length_le (by rw [mpReply, mpWire_length])]

/-- The text of a reply, from the rows of its body. -/
theorem reply_text (one : Bytes → Py (List Str)) (x k : Nat) (B : Bytes) (rows : List Str) (hx : x < 256 ^ 4)
    (hk : k < 256 ^ 2) (hl : 16 + B.length < 65536) (h : one (mpReply x k B) = .ok rows) :
    msgsGo one ((mpReply x k B).length + 1) (mpReply x k B) = .ok rows := by
  refine msgsGo_one one _ rows h (by rw [mpReply, mpWire_length]; omega) fun rest => ?_
  rw [mpReply, (mpWire_nums 19 x k 0 B rest (by decide) hx hk hl).2.1, mpWire_length]

/-- Rows are read one by one. -/
theorem rows_split (rows : List Str) (hn : rows ≠ []) (h : ∀ t ∈ rows, '\n' ∉ t) :
    splitAll '\n' (joinStr t!"\n" rows) = rows :=
  splitAll_join '\n' rows hn fun p hp c hc e => h p hp (e ▸ hc)

/-! ## Counters -/

inductive CKey where
  | ref | pk | by | sec | nsec
  deriving DecidableEq

def CKey.name : CKey → Str
  | .ref => t!"ref_count"
  | .pk => t!"packet_count"
  | .by => t!"byte_count"
  | .sec => t!"duration_sec"
  | .nsec => t!"duration_nsec"

def CKey.set (k : CKey) (n : Int) (c : Counters) : Counters :=
  match k with
  | .ref => { c with refCount := some n }
  | .pk => { c with packetCount := some n }
  | .by => { c with byteCount := some n }
  | .sec => { c with durationSec := some n }
  | .nsec => { c with durationNsec := some n }

/-- The printed counter; nothing for zero. -/
def cItem (k : CKey) (n : Nat) : List (CKey × Nat) := if n = 0 then [] else [(k, n)]

def cText (e : CKey × Nat) : Str := e.1.name ++ '=' :: fmtD e.2

theorem countTok_item (k : CKey) (n : Nat) : countTok k.name n = (cItem k n).map cText := by
  unfold countTok cItem
  by_cases h : n = 0
  · subst h; rfl
  · rw [if_neg h, if_neg (by simpa using h)]; rfl

def setAll (c : Counters) (l : List (CKey × Nat)) : Counters := l.foldl (fun c e => e.1.set e.2 c) c

theorem cName_clean (k : CKey) : Clean k.name ∧ k.name ≠ [] ∧ k.name ≠ t!"@bucket" ∧ k.name ≠ t!"group" := by
  cases k <;> decide

theorem cText_tok (e : CKey × Nat) {h r : Str} (hh : ∀ c ∈ h, Space c ∨ c = ',') (hr : Boundary r) :
    getToken (h ++ (cText e ++ r)) = (h, e.1.name, '=' :: (fmtD e.2 ++ r)) ∧
    procArg ('=' :: (fmtD e.2 ++ r)) = .ok ((e.2 : Int), r) := by
  have hc := cName_clean e.1
  have hi := intSyntax_fmtD e.2
  have h1 : Tok (h ++ (cText e ++ r)) h e.1.name ('=' :: (fmtD e.2 ++ r)) := by
    have := tok_head (Or.inl hh) hc.1.token (atEnd_eq (fmtD e.2 ++ r)) hc.1.plainStart hc.2.1
    simpa [cText] using this
  have h2 : Tok ('=' :: (fmtD e.2 ++ r)) ['='] (fmtD e.2) r :=
    tok_eq (intSyntax_clean hi).1.token hr (intSyntax_clean hi).1.plainStart (intSyntax_clean hi).2.1
  exact ⟨(getToken_iff _ _ _ _).2 h1, (procArg_iff _ _ _).2 ⟨['='], _, h2, by decide, hi⟩⟩

theorem cText_ne (e : CKey × Nat) : cText e ≠ [] := by
  unfold cText; simp

theorem cText_line (e : CKey × Nat) : '\n' ∉ cText e :=
  line_append (line_clean (cName_clean e.1).1) (line_cons (by decide) (line_clean (fmtD_clean e.2)))

end Ofpstr
