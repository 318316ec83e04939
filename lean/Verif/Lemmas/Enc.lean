import Verif.Lemmas.OxmList

/-!
# What the field encoders return, on any text
-/

namespace Ofpstr
open Spec

/-- `do let x ← e; f x` succeeding. -/
theorem bind_ok {α β : Type} {x : Py α} {f : α → Py β} {b : β} (h : (x >>= f) = .ok b) :
    ∃ a, x = .ok a ∧ f a = .ok b := by
  cases x with
  | error e => simp [bind, Except.bind] at h
  | ok a => exact ⟨a, rfl, by simpa [bind, Except.bind] using h⟩

theorem bind_err {α β : Type} {x : Py α} {f : α → Py β} {e : Err} (h : (x >>= f) = .error e) :
    x = .error e ∨ ∃ a, x = .ok a ∧ f a = .error e := by
  cases x with
  | error e' => left; simpa [bind, Except.bind] using h
  | ok a => right; exact ⟨a, rfl, by simpa [bind, Except.bind] using h⟩

/-- `x` does not stand for a call that never returns. -/
def Ends {α : Type} (x : Py α) : Prop := x ≠ .error .loops

theorem ends_ok {α : Type} (a : α) : Ends (.ok a : Py α) := by intro h; cases h
theorem ends_error {α : Type} {e : Err} (h : e ≠ .loops) : Ends (.error e : Py α) := by
  intro h'; cases h'; exact h rfl
theorem ends_bind {α β : Type} {x : Py α} {f : α → Py β} (hx : Ends x)
    (hf : ∀ a, x = .ok a → Ends (f a)) : Ends (x >>= f) := by
  intro h
  rcases bind_err h with h | ⟨a, ha, h⟩
  · exact hx h
  · exact hf a ha h

theorem ends_pyAssert (b : Bool) : Ends (pyAssert b) := by unfold pyAssert; split <;> simp [Ends]
theorem ends_packU (k : Nat) (n : Int) : Ends (packU k n) := by unfold packU; split <;> simp [Ends]
theorem ends_packLE (k : Nat) (n : Int) : Ends (packLE k n) := by unfold packLE; split <;> simp [Ends]
theorem ends_packS8 (n : Int) : Ends (packS8 n) := by unfold packS8; split <;> simp [Ends]
theorem ends_needBytes (b : Bytes) (o s : Nat) : Ends (needBytes b o s) := by
  unfold needBytes; split <;> simp [Ends]
theorem ends_parseInt (u : Str) : Ends (parseInt u) := by
  intro h; have := parseInt_err u _ h; cases this
theorem ends_intOfDigits (b : Nat) (s : Str) : Ends (intOfDigits b s) := by
  unfold intOfDigits; split <;> simp [Ends]
theorem ends_packAll (l : List (Nat × Int)) : Ends (packAll l) := by
  induction l with
  | nil => simp [packAll, Ends]
  | cons x l ih =>
    exact ends_bind (ends_packU _ _) fun a _ => ends_bind ih fun b _ => ends_ok _
theorem ends_a2bHex (s : Str) : Ends (a2bHex s) := by
  have key : ∀ n (s : Str), s.length ≤ n → Ends (a2bHex s) := by
    intro n
    induction n with
    | zero => intro s h; cases s <;> simp at h; simp [a2bHex, Ends]
    | succ n ih =>
      intro s h
      match s, h with
      | [], _ => simp [a2bHex, Ends]
      | [_], _ => simp [a2bHex, Ends]
      | a :: b :: rest, h =>
        rw [a2bHex]
        split
        · exact ends_bind (ih _ (by simp at h; omega)) fun _ _ => ends_ok _
        · simp [Ends]
  exact key _ s (Nat.le_refl _)
theorem ends_a2bQp (s : Str) : Ends (a2bQp s) := by unfold a2bQp; split <;> simp [Ends]
theorem ends_inetAton (s : Str) : Ends (inetAton s) := by
  unfold inetAton
  split
  · simp [Ends]
  · split
    · simp [Ends]
    · dsimp only
      split <;> simp [Ends]
theorem ends_inetPton (s : Str) : Ends (inetPton s) := by
  unfold inetPton
  repeat' split
  all_goals simp [Ends]
theorem ends_inetNtoa (b : Bytes) : Ends (inetNtoa b) := by unfold inetNtoa; split <;> simp [Ends]
theorem ends_inetNtop (b : Bytes) : Ends (inetNtop b) := by unfold inetNtop; split <;> simp [Ends]
theorem ends_pyInt (s : Str) : Ends (pyInt s) := by
  unfold pyInt
  dsimp only
  split <;> simp [Ends]
theorem ends_parseFloat (u : Str) : Ends (parseFloat u) := by
  unfold parseFloat
  dsimp only
  generalize (if startsWith u t!"-" = true then List.drop 1 u else u) = u
  refine ends_bind (ends_intOfDigits _ _) fun _ _ => ?_
  split
  · exact ends_bind (ends_intOfDigits _ _) fun _ _ => ends_ok _
  · exact ends_ok _
theorem ends_assertColon (u : Str) (l : Nat) : Ends (assertColon u l) := by
  unfold assertColon; split
  · simp [Ends]
  · exact ends_pyAssert _
theorem ends_packSizesLE (s : List Nat) (l : List Int) : Ends (packSizesLE s l) := by
  induction s generalizing l with
  | nil => cases l <;> simp [packSizesLE, Ends]
  | cons x s ih =>
    cases l with
    | nil => simp [packSizesLE, Ends]
    | cons y l => exact ends_bind (ends_packLE _ _) fun a _ => ends_bind (ih l) fun b _ => ends_ok _
theorem ends_macScan (u : Str) : Ends (macScan u) := by
  unfold macScan
  repeat' split
  all_goals simp [Ends]
theorem ends_compNums (l : List Str) : Ends (compNums l) := by
  induction l with
  | nil => simp [compNums, Ends]
  | cons x l ih =>
    rw [compNums]
    split
    · exact ends_bind ih fun _ _ => ends_ok _
    · exact ends_bind (ends_parseInt _) fun _ _ => ends_bind (ends_pyAssert _) fun _ _ =>
        ends_bind ih fun _ _ => ends_ok _
theorem ends_vhtNums (i : Nat) (l : List Str) : Ends (vhtNums i l) := by
  induction l generalizing i with
  | nil => simp [vhtNums, Ends]
  | cons x l ih =>
    rw [vhtNums]
    split
    · exact ends_bind (ends_a2bHex _) fun _ _ => ends_bind (ih _) fun _ _ => ends_ok _
    · split
      · exact ends_bind (ih _) fun _ _ => ends_ok _
      · exact ends_bind (ends_parseInt _) fun _ _ => ends_bind (ih _) fun _ _ => ends_ok _
theorem ends_compCollect (s : List Nat) (u : Str) : Ends (compCollect s u) :=
  ends_bind (ends_compNums _) fun _ _ => ends_packSizesLE _ _
theorem ends_vhtCollect (u : Str) : Ends (vhtCollect u) :=
  ends_bind (ends_vhtNums _ _) fun _ _ => ends_packSizesLE _ _
theorem ends_ipv4Mask (m : Str) : Ends (ipv4Mask m) := by
  have := ends_inetAton m
  unfold ipv4Mask
  split
  · exact ends_ok _
  · refine ends_bind (ends_pyInt _) fun _ _ => ?_
    split
    · simp [Ends]
    · exact ends_packU _ _
  · rename_i e _ h
    intro he
    cases he
    exact this h
theorem ends_ipv6Mask (m : Str) : Ends (ipv6Mask m) := by
  unfold ipv6Mask
  split
  · exact ends_ok _
  · refine ends_bind (ends_pyInt _) fun _ _ => ?_
    split
    · simp [Ends]
    · exact ends_packAll _
theorem ends_stripZeros (b : Bytes) : Ends (stripZeros b) := by
  unfold stripZeros; dsimp only; split <;> simp [Ends]
theorem ends_compShow (s : List Nat) (f : List IFmt) (b : Bytes) : Ends (compShow s f b) :=
  ends_bind (ends_needBytes _ _ _) fun _ _ => ends_ok _
theorem ends_vhtShow (b : Bytes) : Ends (vhtShow b) := by
  refine ends_bind (ends_needBytes _ _ _) fun _ _ => ?_
  split
  · exact ends_ok _
  · simp [Ends]

/-- Goes through the structure of a computation. -/
macro "ends" : tactic => `(tactic| repeat' first
  | with_reducible exact ends_ok _
  | with_reducible exact ends_error (by decide)
  | with_reducible exact ends_parseInt _
  | with_reducible exact ends_packU _ _
  | with_reducible exact ends_packS8 _
  | with_reducible exact ends_packAll _
  | with_reducible exact ends_pyAssert _
  | with_reducible exact ends_needBytes _ _ _
  | with_reducible exact ends_a2bHex _
  | with_reducible exact ends_a2bQp _
  | with_reducible exact ends_inetAton _
  | with_reducible exact ends_inetPton _
  | with_reducible exact ends_inetNtoa _
  | with_reducible exact ends_inetNtop _
  | with_reducible exact ends_parseFloat _
  | with_reducible exact ends_assertColon _ _
  | with_reducible exact ends_macScan _
  | with_reducible exact ends_compCollect _ _
  | with_reducible exact ends_vhtCollect _
  | with_reducible exact ends_ipv4Mask _
  | with_reducible exact ends_ipv6Mask _
  | with_reducible exact ends_stripZeros _
  | with_reducible exact ends_compShow _ _ _
  | with_reducible exact ends_vhtShow _
  | with_reducible refine ends_bind ?_ (fun _ _ => ?_)
  | split
  | dsimp only)

theorem ends_encText (key : Key) (k : Enc) (u : Str) : Ends (encText key k u) := by
  cases k <;> unfold encText <;> dsimp only
  · unfold uintStr2bin; ends
  · unfold portStr2bin; ends
  · unfold macStr2bin; ends
  · unfold ipv4Str2bin; ends
  · unfold ipv6Str2bin; ends
  · unfold pktStr2bin; ends
  · unfold hexStr2bin; ends
  · unfold ssidStr2bin; ends
  · unfold leStr2bin; ends
  · unfold rateStr2bin; ends
  · unfold chStr2bin; ends
  · unfold compStr2bin; ends
  · unfold vhtStr2bin; ends
  · unfold s8Str2bin; ends

theorem ends_decText (d : Dec) (p : Bytes) (hm : Bool) : Ends (decText d p hm) := by
  cases d <;> unfold decText <;> dsimp only
  · unfold uintBin2str; ends
  · unfold portBin2str; ends
  · unfold macBin2str; ends
  · unfold ipv4Bin2str; ends
  · unfold ipv6Bin2str; ends
  · unfold pktBin2str; ends
  · unfold hexBin2str; ends
  · unfold ssidBin2str; ends
  · unfold leBin2str; ends
  · unfold rateBin2str; ends
  · unfold chBin2str; ends
  · unfold compBin2str; ends
  · unfold vhtBin2str; ends
  · unfold s8Bin2str; ends

theorem ends_getDec (k : Key) : Ends (getDec k) := by unfold getDec; split <;> simp [Ends]

theorem ends_oxm2strOne (b : Bytes) : Ends (oxm2strOne b) := by
  unfold oxm2strOne
  dsimp only
  repeat' first
    | exact ends_ok _
    | exact ends_needBytes _ _ _
    | exact ends_getDec _
    | exact ends_decText _ _ _
    | refine ends_bind ?_ (fun _ _ => ?_)
    | split

theorem ends_oxmid2strOne (b : Bytes) : Ends (oxmid2strOne b) := by
  unfold oxmid2strOne
  dsimp only
  repeat' first
    | exact ends_ok _
    | exact ends_needBytes _ _ _
    | exact ends_getDec _
    | refine ends_bind ?_ (fun _ _ => ?_)
    | split

theorem ends_oxm2strGo (fuel : Nat) (b : Bytes) (h : b.length < fuel) : Ends (oxm2strGo fuel b) := by
  induction fuel generalizing b with
  | zero => omega
  | succ f ih =>
    rw [oxm2strGo]
    split
    · exact ends_ok _
    · refine ends_bind (ends_oxm2strOne _) fun _ _ => ends_bind (ih _ ?_) fun _ _ => ends_ok _
      simp; omega

theorem oxmid2strOne_len (b : Bytes) (t : Str) (n : Nat) (h : oxmid2strOne b = .ok (t, n)) :
    4 ≤ n := by
  unfold oxmid2strOne at h
  dsimp only at h
  split at h
  · obtain ⟨_, _, h⟩ := bind_ok h
    split at h
    · obtain ⟨_, _, h⟩ := bind_ok h
      cases h; omega
    · cases h; omega
  · split at h
    · obtain ⟨_, _, h⟩ := bind_ok h
      cases h; omega
    · split at h
      · obtain ⟨_, _, h⟩ := bind_ok h
        cases h; omega
      · split at h
        · obtain ⟨_, _, h⟩ := bind_ok h
          cases h; omega
        · cases h; omega

theorem ends_oxmid2strGo (fuel : Nat) (b : Bytes) (h : b.length < fuel) :
    Ends (oxmid2strGo fuel b) := by
  induction fuel generalizing b with
  | zero => omega
  | succ f ih =>
    rw [oxmid2strGo]
    split
    · exact ends_ok _
    · refine ends_bind (ends_oxmid2strOne _) fun x hx => ends_bind (ih _ ?_) fun _ _ => ends_ok _
      have := oxmid2strOne_len b x.1 x.2 hx
      simp; omega

theorem ends_oxm2str (b : Bytes) : Ends (oxm2str b) :=
  ends_bind (ends_oxm2strGo _ _ (by omega)) fun _ _ => ends_ok _

theorem ends_oxmid2str (b : Bytes) : Ends (oxmid2str b) :=
  ends_bind (ends_oxmid2strGo _ _ (by omega)) fun _ _ => ends_ok _

theorem ends_str2oxmOne (u : Str) : Ends (str2oxmOne u) := by
  unfold str2oxmOne
  dsimp only
  repeat' first
    | exact ends_ok _
    | exact ends_error (by decide)
    | exact ends_pyAssert _
    | exact ends_encText _ _ _
    | refine ends_bind ?_ (fun _ _ => ?_)
    | split

/-- The rest after one round is shorter. -/
theorem str2oxmOne_rest (u : Str) (b : Bytes) (l : Nat) (p r : Str) (hu : u ≠ [])
    (h : str2oxmOne u = .ok (b, l, p, r)) : r.length < u.length := by
  unfold str2oxmOne at h
  dsimp only at h
  obtain ⟨_, _, h⟩ := bind_ok h
  split at h
  · cases h
  · obtain ⟨⟨_, _⟩, _, h⟩ := bind_ok h
    cases h
    exact Nat.lt_of_le_of_lt (getToken_rest_le (getToken u).2.2) (getToken_progress u hu)

theorem ends_str2oxmGo (loop : Bool) (fuel : Nat) (u : Str) (h : u.length < fuel) :
    Ends (str2oxmGo loop fuel u) := by
  induction fuel generalizing u with
  | zero => omega
  | succ f ih =>
    rw [str2oxmGo]
    split
    · exact ends_ok _
    · rename_i hu
      refine ends_bind (ends_str2oxmOne _) fun x hx => ?_
      obtain ⟨b, l, p, r⟩ := x
      have := str2oxmOne_rest u b l p r (by simpa using hu) hx
      dsimp only
      split
      · exact ends_ok _
      · refine ends_bind (ends_pyAssert _) fun _ _ => ?_
        split
        · exact ends_bind (ih _ (by omega)) fun _ _ => ends_ok _
        · exact ends_ok _

theorem ends_str2oxmL (loop : Bool) (u : Str) : Ends (str2oxmL loop u) :=
  ends_bind (ends_str2oxmGo _ _ _ (by omega)) fun _ _ => ends_ok _

theorem ends_str2oxmidGo (hm : Bool) (fuel : Nat) (u : Str) (h : u.length < fuel) :
    Ends (str2oxmidGo hm fuel u) := by
  induction fuel generalizing u with
  | zero => omega
  | succ f ih =>
    rw [str2oxmidGo]
    split
    · exact ends_ok _
    · rename_i hu
      have := getToken_progress u (by simpa using hu)
      dsimp only
      exact ends_bind (ih _ (Nat.lt_of_lt_of_le this (Nat.le_of_lt_succ h))) fun _ _ => ends_ok _

theorem ends_str2oxmid (hm : Bool) (u : Str) : Ends (str2oxmid hm u) :=
  ends_str2oxmidGo _ _ _ (by omega)

end Ofpstr
