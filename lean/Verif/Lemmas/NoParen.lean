import Verif.Lemmas.OxmList
import Verif.Lemmas.Enc

/-!
# Printed match values contain no closing bracket
-/

namespace Ofpstr
open Spec

/-- No `)` in the text. -/
def NP (s : Str) : Prop := ∀ c ∈ s, c ≠ ')'

instance (s : Str) : Decidable (NP s) := by unfold NP; infer_instance

theorem np_nil : NP [] := by intro c h; cases h
theorem np_append {a b : Str} (ha : NP a) (hb : NP b) : NP (a ++ b) := by
  intro c hc
  rcases List.mem_append.1 hc with hc | hc
  · exact ha c hc
  · exact hb c hc
theorem np_cons {x : Char} {a : Str} (hx : x ≠ ')') (ha : NP a) : NP (x :: a) := by
  intro c hc
  rcases List.mem_cons.1 hc with rfl | hc
  · exact hx
  · exact ha c hc

theorem np_ite {p : Prop} [Decidable p] {a b : Str} (ha : NP a) (hb : NP b) : NP (if p then a else b) := by
  split <;> assumption

theorem np_hex {s : Str} (h : ∀ c ∈ s, isHex c = true) : NP s := by
  rintro c hc rfl
  exact absurd (h _ hc) (by decide)

theorem np_fmtD (n : Nat) : NP (fmtD n) := np_hex fun c hc => isDec_isHex (fmtD_isDec n c hc)
theorem np_fmtHexRaw (w n : Nat) : NP (fmtHexRaw w n) := np_hex fun c hc => fmtHexRaw_isHex w n c hc
theorem np_fmtX (w n : Nat) : NP (fmtX w n) :=
  np_cons (by decide) (np_cons (by decide) (np_fmtHexRaw _ _))
theorem np_b2aHex (b : Bytes) : NP (b2aHex b) := np_hex fun c hc => b2aHex_isHex b c hc
theorem np_fmtI (f : IFmt) (n : Nat) : NP (fmtI f n) := by
  cases f with
  | dec => exact np_fmtD n
  | hex w => exact np_fmtX w n
theorem np_fmtInt (n : Int) : NP (fmtInt n) := by
  unfold fmtInt
  split
  · exact np_cons (by decide) (np_fmtD _)
  · exact np_fmtD _

theorem np_join {sep : Str} (hs : NP sep) {l : List Str} (h : ∀ s ∈ l, NP s) : NP (joinStr sep l) := by
  induction l with
  | nil => exact np_nil
  | cons x l ih =>
    cases l with
    | nil => exact h x (by simp)
    | cons y l =>
      rw [joinStr]
      exact np_append (np_append (h x (by simp)) hs) (ih fun s hs => h s (by simp [hs]))

theorem np_dotted (b : Bytes) : NP (dotted b) := by
  apply np_join (by decide)
  intro s hs
  obtain ⟨x, _, rfl⟩ := List.mem_map.1 hs
  exact np_fmtD _

theorem np_macText (b : Bytes) : NP (macText b) := by
  apply np_join (by decide)
  intro s hs
  obtain ⟨x, _, rfl⟩ := List.mem_map.1 hs
  exact np_hex fun c hc => hex2_isHex x c hc

theorem np_ntop6Go (all : List Nat) (best : Option (Nat × Nat)) (ws : List Nat) (i : Nat) :
    NP (ntop6Go all best i ws) := by
  induction ws generalizing i with
  | nil => exact np_nil
  | cons w ws ih =>
    rw [ntop6Go.eq_def]
    dsimp only
    have hs : NP (if (i != 0) = true then t!":" else []) := np_ite (by decide) np_nil
    cases best with
    | none =>
      dsimp only
      rw [if_neg (by simp)]
      exact np_ite (np_append hs (np_dotted _)) (np_append hs (np_append (np_fmtHexRaw _ _) (ih _)))
    | some bl =>
      obtain ⟨b, l⟩ := bl
      dsimp only
      exact np_ite (np_append (np_ite (by decide) np_nil) (ih _))
        (np_ite (np_append hs (np_dotted _)) (np_append hs (np_append (np_fmtHexRaw _ _) (ih _))))

theorem np_inetNtop6 (ws : List Nat) : NP (inetNtop6 ws) := by
  unfold inetNtop6
  apply np_append (np_ntop6Go _ _ _ _)
  split
  · split <;> decide
  · exact np_nil

theorem np_inetNtop {b : Bytes} {s : Str} (h : inetNtop b = .ok s) : NP s := by
  unfold inetNtop at h
  split at h
  · injection h with h; subst h; exact np_inetNtop6 _
  · cases h

theorem np_inetNtoa {b : Bytes} {s : Str} (h : inetNtoa b = .ok s) : NP s := by
  unfold inetNtoa at h
  split at h
  · injection h with h; subst h; exact np_dotted _
  · cases h

theorem np_fmtField (f : Fmt) (v : Nat) (m : Option Nat) (h : NP f.name) : NP (fmtField f v m) := by
  unfold fmtField
  split
  · exact h
  · dsimp only
    have hs : ∀ vf, NP (f.name ++ '=' :: fmtI vf v) := fun vf =>
      np_append h (np_cons (by decide) (np_fmtI _ _))
    split
    · exact np_append (hs _) (np_cons (by decide) (np_fmtI _ _))
    · exact hs _

theorem np_compShow {sizes : List Nat} {fmts : List IFmt} {b : Bytes} {s : Str}
    (h : compShow sizes fmts b = .ok s) : NP s := by
  unfold compShow at h
  obtain ⟨_, _, h⟩ := bind_ok h
  injection h with h; subst h
  apply np_join (by decide)
  intro s hs
  obtain ⟨⟨n, f⟩, _, rfl⟩ := List.mem_map.1 hs
  dsimp only
  split
  · exact np_nil
  · exact np_fmtI _ _

theorem np_vhtShow {b : Bytes} {s : Str} (h : vhtShow b = .ok s) : NP s := by
  unfold vhtShow at h
  obtain ⟨_, _, h⟩ := bind_ok h
  split at h
  · injection h with h; subst h
    repeat' first
      | with_reducible exact np_nil
      | with_reducible exact np_fmtX _ _
      | with_reducible exact np_fmtD _
      | with_reducible exact np_fmtHexRaw _ _
      | with_reducible apply np_ite
      | with_reducible apply np_append
      | (with_reducible apply np_cons; · decide)
  · cases h

theorem decText_np {d : Dec} {p : Bytes} {hm : Bool} {s : Str} (h : decText d p hm = .ok s)
    (hd : d ≠ .ssid) (hn : NP (decId d)) : NP s := by
  cases d with
  | ssid => exact absurd rfl hd
  | uint f =>
    simp only [decText, uintBin2str] at h
    split at h <;> (injection h with h; subst h; exact np_fmtField _ _ _ hn)
  | le f =>
    simp only [decText, leBin2str] at h
    split at h <;> (injection h with h; subst h; exact np_fmtField _ _ _ hn)
  | port name size =>
    simp only [decText, portBin2str] at h
    obtain ⟨_, _, h⟩ := bind_ok h
    obtain ⟨_, _, h⟩ := bind_ok h
    injection h with h; subst h
    apply np_append hn (np_cons (by decide) _)
    unfold portName
    split
    · rename_i e he
      have key : ∀ e ∈ ofpp, NP e.2 := by decide
      exact key e (List.mem_of_find?_eq_some he)
    · exact np_fmtD _
  | mac name =>
    simp only [decText, macBin2str] at h
    split at h
    · cases h
    · split at h <;> (obtain ⟨_, _, h⟩ := bind_ok h; injection h with h; subst h)
      · exact np_append hn (np_cons (by decide) (np_append (np_macText _)
          (np_cons (by decide) (np_macText _))))
      · exact np_append hn (np_cons (by decide) (np_macText _))
  | ipv4 name =>
    simp only [decText, ipv4Bin2str] at h
    obtain ⟨v, hv, h⟩ := bind_ok h
    split at h <;> obtain ⟨_, _, h⟩ := bind_ok h
    · obtain ⟨m, hm, h⟩ := bind_ok h
      injection h with h; subst h
      exact np_append hn (np_cons (by decide) (np_append (np_inetNtoa hv)
          (np_cons (by decide) (np_inetNtoa hm))))
    · injection h with h; subst h
      exact np_append hn (np_cons (by decide) (np_inetNtoa hv))
  | ipv6 name =>
    simp only [decText, ipv6Bin2str] at h
    obtain ⟨v, hv, h⟩ := bind_ok h
    split at h <;> obtain ⟨_, _, h⟩ := bind_ok h
    · obtain ⟨m, hm, h⟩ := bind_ok h
      injection h with h; subst h
      exact np_append hn (np_cons (by decide) (np_append (np_inetNtop hv)
          (np_cons (by decide) (np_inetNtop hm))))
    · injection h with h; subst h
      exact np_append hn (np_cons (by decide) (np_inetNtop hv))
  | pkt =>
    simp only [decText, pktBin2str] at h
    obtain ⟨_, _, h⟩ := bind_ok h
    obtain ⟨_, _, h⟩ := bind_ok h
    injection h with h; subst h
    exact np_append (by decide) (np_append (np_fmtX _ _) (np_cons (by decide) (np_fmtX _ _)))
  | hex name =>
    simp only [decText, hexBin2str] at h
    split at h <;> (injection h with h; subst h)
    · exact np_append hn (np_cons (by decide) (np_append (np_b2aHex _)
        (np_cons (by decide) (np_b2aHex _))))
    · exact np_append hn (np_cons (by decide) (np_b2aHex _))
  | rate =>
    simp only [decText, rateBin2str] at h
    obtain ⟨_, _, h⟩ := bind_ok h
    split at h
    · cases h
    · split at h <;> (injection h with h; subst h)
      · exact np_append (by decide) (np_append (np_fmtD _) (by decide))
      · exact np_append (by decide) (np_append (np_fmtD _) (np_ite (by decide) (by decide)))
  | ch =>
    simp only [decText, chBin2str] at h
    split at h <;> obtain ⟨_, _, h⟩ := bind_ok h
    · split at h <;> (injection h with h; subst h)
      · exact np_append (by decide) (np_append (np_fmtD _) (np_cons (by decide) (np_append (np_fmtX _ _)
          (np_cons (by decide) (np_cons (by decide) (np_fmtX _ _))))))
      · exact np_append (by decide) (np_append (np_fmtD _) (np_cons (by decide) (np_append (np_fmtX _ _)
          (np_cons (by decide) (np_append (np_fmtX _ _) (np_cons (by decide) (np_fmtX _ _)))))))
    · injection h with h; subst h
      exact np_append (by decide) (np_append (np_fmtD _) (np_cons (by decide) (np_fmtX _ _)))
  | comp name sizes fmts =>
    simp only [decText, compBin2str] at h
    obtain ⟨v, hv, h⟩ := bind_ok h
    split at h
    · obtain ⟨m, hm, h⟩ := bind_ok h
      injection h with h; subst h
      exact np_append hn (np_cons (by decide) (np_append (np_compShow hv)
        (np_cons (by decide) (np_compShow hm))))
    · injection h with h; subst h
      exact np_append hn (np_cons (by decide) (np_compShow hv))
  | vht =>
    simp only [decText, vhtBin2str] at h
    obtain ⟨v, hv, h⟩ := bind_ok h
    split at h
    · obtain ⟨m, hm, h⟩ := bind_ok h
      injection h with h; subst h
      exact np_append (by decide) (np_append (np_vhtShow hv)
        (np_cons (by decide) (np_vhtShow hm)))
    · injection h with h; subst h
      exact np_append (by decide) (np_vhtShow hv)
  | s8 name =>
    simp only [decText, s8Bin2str] at h
    obtain ⟨_, _, h⟩ := bind_ok h
    split at h
    · injection h with h; subst h
      exact np_append hn (np_cons (by decide) (np_fmtInt _))
    · cases h

end Ofpstr
