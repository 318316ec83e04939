import Verif.Lemmas.MpDesc

/-!
# Multipart texts of several lines
-/

namespace Ofpstr
open Spec

theorem splitAll_line (s : Str) (h : '\n' ∉ s) : splitAll '\n' s = [s] := by
  have := splitAll_join '\n' [s] (by simp) (by
    intro p hp c hc e
    rw [List.mem_singleton] at hp
    subst hp; subst e
    exact h hc)
  simpa [joinStr] using this

/-- The body of a packed message. -/
theorem mpMessage_inv {t x : Int} {k : Nat} {cap m : Bytes} (h : mpMessage t x k cap = .ok m) :
    m.drop 16 = cap ∧ FitsIn 1 t ∧ FitsIn 4 x ∧ 16 + cap.length < 65536 := by
  unfold mpMessage at h
  rw [packAll_eq] at h
  split at h
  · rename_i hf
    rw [ok_bind] at h
    cases h
    refine ⟨?_, hf (1, t) (by simp), hf (4, x) (by simp), (fitsIn2 (16 + cap.length)).1 (hf (2, _) (by simp))⟩
    apply List.drop_left'
    simp [zeros, be_length]
  · cases h

theorem mpAppend_inv {cap body r : Bytes} (h : mpAppend cap body = .ok r) :
    r = cap ++ body ∧ cap.length + body.length ≤ 0xffff - 16 := by
  unfold mpAppend at h
  split at h
  · cases h
  · cases h; exact ⟨rfl, by omega⟩

/-- The loops over the lines all behave like this. -/
def packLines : Bytes → List Bytes → Py Bytes
  | cap, [] => .ok cap
  | cap, b :: bs => (mpAppend cap b).bind fun c => packLines c bs

theorem packLines_eq (bs : List Bytes) (cap : Bytes) (hc : cap.length ≤ 0xffff - 16) :
    packLines cap bs = if cap.length + bs.flatten.length ≤ 0xffff - 16 then .ok (cap ++ bs.flatten) else .error .nameError := by
  induction bs generalizing cap with
  | nil => simp only [packLines, List.flatten_nil, List.length_nil, Nat.add_zero, if_pos hc, List.append_nil]
  | cons b bs ih =>
    rw [packLines, mpAppend]
    by_cases h : cap.length + b.length > 0xffff - 16
    · rw [if_pos h, if_neg (by rw [List.flatten_cons, List.length_append]; omega)]
      rfl
    · rw [if_neg h]
      show packLines (cap ++ b) bs = _
      rw [ih _ (by rw [List.length_append]; omega), List.flatten_cons, List.length_append, List.length_append, List.append_assoc,
        Nat.add_assoc]

theorem descGo_lines {ls : List Str} {bs : List Bytes} (h : List.Forall₂ (fun l b => descBody l = .ok b) ls bs) (cap : Bytes) :
    descGo cap ls = packLines cap bs := by
  induction h generalizing cap with
  | nil => rfl
  | cons h _ ih =>
    rw [descGo, h, ok_bind, packLines]
    cases hm : mpAppend cap _ with
    | error e => rfl
    | ok c => exact ih c

theorem mpgroupGo_lines {ls : List Str} {bs : List Bytes}
    (h : List.Forall₂ (fun l b => ∃ g r, statGroupHead (l.length + 1) 0 l = .ok (g, r) ∧ groupStatBody g r = .ok b) ls bs)
    (cap : Bytes) : mpgroupGo 19 cap ls = packLines cap bs := by
  induction h generalizing cap with
  | nil => rfl
  | cons h _ ih =>
    obtain ⟨g, r, h1, h2⟩ := h
    rw [mpgroupGo, h1, ok_bind]
    dsimp only
    rw [if_neg (by decide), h2, ok_bind, packLines]
    cases hm : mpAppend cap _ with
    | error e => rfl
    | ok c => exact ih c

theorem mpflowGo_lines {type : Int} {ls : List Str} {bs : List Bytes}
    (h : List.Forall₂ (fun l b => ∃ c i, parseStat l = .ok (c, i) ∧ statBody type c i = .ok b) ls bs) :
    ∃ rules, parseStats ls = .ok rules ∧ ∀ cap, mpflowGo type cap rules = packLines cap bs := by
  induction h with
  | nil => exact ⟨[], rfl, fun _ => rfl⟩
  | cons h _ ih =>
    obtain ⟨c, i, h1, h2⟩ := h
    obtain ⟨rules, h3, h4⟩ := ih
    refine ⟨(c, i) :: rules, ?_, ?_⟩
    · rw [parseStats, h1, ok_bind, h3, ok_bind]
    · intro cap
      rw [mpflowGo, h2, ok_bind, packLines]
      cases hm : mpAppend cap _ with
      | error e => rfl
      | ok c => exact h4 c

/-- One line that is a message on its own. -/
theorem desc_line {l : Str} {x : Int} {m : Bytes} (hn : '\n' ∉ l) (h : text2mpgroupdesc l 19 x = .ok m) :
    descBody l = .ok (m.drop 16) := by
  unfold text2mpgroupdesc at h
  rw [if_neg (by decide), splitAll_line l hn] at h
  obtain ⟨cap, h1, h2⟩ := bind_ok h
  rw [descGo] at h1
  obtain ⟨b, h3, h1⟩ := bind_ok h1
  obtain ⟨c, h4, h1⟩ := bind_ok h1
  cases h1
  rw [(mpMessage_inv h2).1, (mpAppend_inv h4).1]
  exact h3

theorem group_line {l : Str} {x : Int} {m : Bytes} (hn : '\n' ∉ l) (h : text2mpgroup l 19 x = .ok m) :
    ∃ g r, statGroupHead (l.length + 1) 0 l = .ok (g, r) ∧ groupStatBody g r = .ok (m.drop 16) := by
  unfold text2mpgroup at h
  rw [splitAll_line l hn] at h
  obtain ⟨cap, h1, h2⟩ := bind_ok h
  rw [mpgroupGo] at h1
  obtain ⟨⟨g, r⟩, h3, h1⟩ := bind_ok h1
  dsimp only at h1
  rw [if_neg (by decide)] at h1
  obtain ⟨b, h5, h1⟩ := bind_ok h1
  obtain ⟨c, h4, h1⟩ := bind_ok h1
  cases h1
  rw [(mpMessage_inv h2).1, (mpAppend_inv h4).1]
  exact ⟨g, r, h3, h5⟩

theorem flow_line {l : Str} {t x : Int} {m : Bytes} (hn : '\n' ∉ l) (h : text2mpflow l t x = .ok m) :
    ∃ c i, parseStat l = .ok (c, i) ∧ statBody t c i = .ok (m.drop 16) := by
  unfold text2mpflow at h
  rw [splitAll_line l hn] at h
  obtain ⟨rules, h0, h⟩ := bind_ok h
  obtain ⟨cap, h1, h2⟩ := bind_ok h
  rw [parseStats] at h0
  obtain ⟨⟨c, i⟩, h3, h0⟩ := bind_ok h0
  obtain ⟨rs, h5, h0⟩ := bind_ok h0
  cases h5
  cases h0
  rw [mpflowGo] at h1
  obtain ⟨b, h6, h1⟩ := bind_ok h1
  obtain ⟨c', h4, h1⟩ := bind_ok h1
  cases h1
  rw [(mpMessage_inv h2).1, (mpAppend_inv h4).1]
  exact ⟨c, i, h3, h6⟩

end Ofpstr
