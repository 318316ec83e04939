import Verif.Lemmas.RejectMatch

/-!
# C79: exactly which exception every text raises that is no match
-/

set_option linter.unusedSimpArgs false

namespace Ofpstr
open Spec

/-- C79: `str2oxm` raises an exception exactly if there are items up to one that is wrong in a way that
raises it: no `=` between the name and the value, an unknown name, or a value that its field refuses with
that exception. -/
theorem C79_match_error (u : Str) (e : Err) : str2oxm u = .error e ↔ MatchRejects u e := str2oxm_rejects u e

/-- C79 for the form that reads one item (as for `set_`). -/
theorem C79_one_error (u : Str) (e : Err) : str2oxm1 u = .error e ↔ u ≠ [] ∧ ItemRejects u e := str2oxm1_rejects u e

/-- C79 for one field: which exception a value raises. -/
theorem C79_value (f : Field) (hf : f ∈ fields) (v : Str) (hv : Tok v [] v []) (hne : v ≠ []) (e : Err) :
    str2oxm (f.name ++ '=' :: v) = .error e ↔ f.textKind.Rejects v e := by
  obtain ⟨n1, n2, n3⟩ := field_name f hf
  have g1 : getToken (f.name ++ '=' :: v) = ([], f.name, '=' :: v) := getToken_plain n1.token (atEnd_eq v) n1.plainStart n2
  have g2 : getToken ('=' :: v) = (['='], v, []) :=
    getToken_again v [] v [] ((getToken_iff _ _ _ _).2 hv) ['='] (Or.inr ⟨[], [], rfl, by simp, by simp⟩) hne
  have h1 := (getToken_iff _ _ _ _).1 g1
  have h2 := (getToken_iff _ _ _ _).1 g2
  rw [C79_match_error]
  constructor
  · intro h
    cases h with
    | here _ _ _ h =>
      cases h with
      | equals h' n' r1' op' v' r' k1 k2 k3 =>
        rw [(getToken_iff _ _ _ _).2 k1] at g1
        cases g1
        rw [(getToken_iff _ _ _ _).2 k2] at g2
        cases g2
        simp at k3
      | name h' n' r1' op' v' r' k1 k2 k3 k4 k5 =>
        rw [(getToken_iff _ _ _ _).2 k1] at g1
        cases g1
        exact absurd rfl (k5 f hf)
      | value h' f' r1' op' v' r' _ k1 k2 k3 k4 k5 k6 =>
        rw [(getToken_iff _ _ _ _).2 k1] at g1
        simp only [Prod.mk.injEq] at g1
        obtain ⟨_, hn, rfl⟩ := g1
        rw [(getToken_iff _ _ _ _).2 k2] at g2
        cases g2
        rw [← name_unique f' k5 f hf hn]
        exact k6
    | later _ v' t' r' _ h hv' h' =>
      exfalso
      obtain ⟨_, _, r1, k1, k2, _⟩ := h
      rw [(getToken_iff _ _ _ _).2 k1] at g1
      simp only [Prod.mk.injEq] at g1
      obtain ⟨_, hn, rfl⟩ := g1
      rw [(getToken_iff _ _ _ _).2 k2] at g2
      cases g2
      have := (C79_match_error [] e).2 h'
      cases this
  · intro h
    refine .here _ _ ?_ (.value _ [] f _ ['='] v [] e h1 h2 (by simp) (by simp) hf h)
    intro h'
    simp at h'

/-- C79: every text is a match or raises one exception. -/
theorem C79_one_way (u : Str) :
    ((∃ ts rest, MatchText u ts rest) ∧ ¬ ∃ e, MatchRejects u e) ∨
    ((∃! e, MatchRejects u e) ∧ ¬ ∃ ts rest, MatchText u ts rest) := by
  have h1 := str2oxm_matchText u
  have h2 := C79_match_error u
  cases ho : str2oxm u with
  | ok x =>
    obtain ⟨b, n⟩ := x
    obtain ⟨ts, rest, h, _⟩ := (h1 b n).1 ho
    refine Or.inl ⟨⟨ts, rest, h⟩, ?_⟩
    rintro ⟨e, he⟩
    rw [(h2 e).2 he] at ho
    cases ho
  | error e =>
    refine Or.inr ⟨⟨e, (h2 e).1 ho, ?_⟩, ?_⟩
    · intro e' he
      rw [(h2 e').2 he] at ho
      cases ho
      rfl
    · rintro ⟨ts, rest, h⟩
      rw [(h1 _ _).2 ⟨ts, rest, h, rfl, rfl⟩] at ho
      cases ho

theorem rejects_no_key {k : Kind} {s : Str} {e : Err} (h : k.Rejects s e) : e ≠ .keyError ∧ e ≠ .nameError ∧ e ≠ .loops := by
  have a : ∀ {s e}, Ipv4Rejects s e → e ≠ .keyError ∧ e ≠ .nameError ∧ e ≠ .loops := by intro s e h; cases h <;> simp
  have b : ∀ {s e}, Ipv6Rejects s e → e ≠ .keyError ∧ e ≠ .nameError ∧ e ≠ .loops := by intro s e h; cases h <;> simp
  have c : ∀ {s e}, Ipv6MaskRejects s e → e ≠ .keyError ∧ e ≠ .nameError ∧ e ≠ .loops := by intro s e h; cases h <;> simp
  have d : ∀ {z s e}, PartsRejects z s e → e ≠ .keyError ∧ e ≠ .nameError ∧ e ≠ .loops := by intro z s e h; cases h <;> simp
  have g : ∀ {s e}, VhtRejects s e → e ≠ .keyError ∧ e ≠ .nameError ∧ e ≠ .loops := by intro s e h; cases h <;> simp
  have t : ∀ {s e}, TwoRejects s e → e ≠ .keyError ∧ e ≠ .nameError ∧ e ≠ .loops := by intro s e h; cases h <;> simp
  have m : ∀ {s e}, ChannelMaskRejects s e → e ≠ .keyError ∧ e ≠ .nameError ∧ e ≠ .loops := by intro s e h; cases h <;> simp
  cases k with
  | uint n => cases h <;> simp
  | port n => cases h <;> simp
  | mac => cases h <;> simp
  | ipv4 => cases h with
    | plain _ _ _ h => exact a h
    | value _ _ _ _ h => exact a h
    | mask _ _ _ _ _ h => exact a h
  | ipv6 => cases h with
    | plain _ _ _ h => exact b h
    | value _ _ _ _ h => exact b h
    | mask _ _ _ _ _ h => exact c h
  | packetType => cases h with
    | two _ h => exact t h
    | junk => simp
  | bytes => rw [h.2]; simp
  | ssid => rw [h.2]; simp
  | le n => cases h <;> simp
  | rate => cases h <;> simp
  | channel => cases h with
    | two _ h => exact t h
    | junk => simp
    | mask _ _ _ h => exact m h
  | parts sizes => cases h with
    | plain _ _ _ h => exact d h
    | value _ _ _ _ h => exact d h
    | mask _ _ _ _ _ h => exact d h
  | vht => cases h with
    | plain _ _ _ h => exact g h
    | value _ _ _ _ h => exact g h
    | mask _ _ _ _ _ h => exact g h
  | signed => cases h <;> simp

/-- C79: a `KeyError` means an unknown name before an `=`. -/
theorem C79_key_error (u : Str) (h : str2oxm u = .error .keyError) :
    ∃ a w hd name r1 op v r, u = a ++ w ∧ Tok w hd name r1 ∧ Tok r1 op v r ∧ '=' ∉ hd ∧ '=' ∈ op ∧
      ∀ f ∈ fields, f.name ≠ name := by
  rw [C79_match_error] at h
  generalize he : Err.keyError = e at h
  induction h with
  | here u e hu h =>
    cases h with
    | equals => cases he
    | name hd name r1 op v r h1 h2 h3 h4 h5 => exact ⟨[], u, hd, name, r1, op, v, r, rfl, h1, h2, h3, h4, h5⟩
    | value _ _ _ _ _ _ _ _ _ _ _ _ h => exact absurd he.symm (rejects_no_key h).1
  | later u v t r e h hv _ ih =>
    obtain ⟨a, w, hd, name, r1, op, v', r', rfl, hh⟩ := ih he
    have := (str2oxmOne_exact u _ v _).2 ⟨t, h, rfl⟩
    obtain ⟨x1, x2, w1, w2, _, _, _, _, _, hu, _⟩ := str2oxmOne_parts this
    refine ⟨x1 ++ (x2 ++ (w1 ++ '=' :: w2 ++ (v ++ a))), w, hd, name, r1, op, v', r', ?_, hh⟩
    rw [hu]
    simp

/-- C79: no text makes `str2oxm` run for ever, and none raises a `NameError`. -/
theorem C79_ends (u : Str) : str2oxm u ≠ .error .loops ∧ str2oxm u ≠ .error .nameError := by
  have : ∀ e, MatchRejects u e → e ≠ .loops ∧ e ≠ .nameError := by
    intro e h
    induction h with
    | here u e hu h =>
      cases h with
      | equals => simp
      | name => simp
      | value _ _ _ _ _ _ _ _ _ _ _ _ h => exact ⟨(rejects_no_key h).2.2, (rejects_no_key h).2.1⟩
    | later _ _ _ _ _ _ _ _ ih => exact ih
  exact ⟨fun h => (this _ ((C79_match_error _ _).1 h)).1 rfl, fun h => (this _ ((C79_match_error _ _).1 h)).2 rfl⟩

/-! ## Concrete cases, one for each kind and exception -/

example : MatchRejects t!"in_port" .assertionError := (C79_match_error _ _).1 (by decide)
example : MatchRejects t!"eth_type=1,nothing=1" .keyError := (C79_match_error _ _).1 (by decide)
example : MatchRejects t!"eth_type=1,eth_type=x" .valueError := (C79_match_error _ _).1 (by decide)
example : MatchRejects t!"eth_type=1x" .assertionError := (C79_match_error _ _).1 (by decide)
example : MatchRejects t!"eth_type=1/" .valueError := (C79_match_error _ _).1 (by decide)
example : MatchRejects t!"eth_type=1/1/" .assertionError := (C79_match_error _ _).1 (by decide)
example : MatchRejects t!"in_port=controllers" .assertionError := (C79_match_error _ _).1 (by decide)
example : MatchRejects t!"in_port=here" .valueError := (C79_match_error _ _).1 (by decide)
example : MatchRejects t!"in_port=0x100000000" .structError := (C79_match_error _ _).1 (by decide)
example : MatchRejects t!"eth_src=0:1:2:3:4:5" .valueError := (C79_match_error _ _).1 (by decide +kernel)
example : MatchRejects t!"eth_src=00:01:02:03:04:05:06" .assertionError := (C79_match_error _ _).1 (by decide +kernel)
example : MatchRejects t!"ipv4_src=1.2.3.4.5" .osError := (C79_match_error _ _).1 (by decide +kernel)
example : MatchRejects t!"ipv4_src=1.2.3.4/24x" .osError := (C79_match_error _ _).1 (by decide +kernel)
example : MatchRejects t!"ipv6_src=::1/64" .structError := (C79_match_error _ _).1 (by decide +kernel)
example : MatchRejects t!"ipv6_src=::1/129" .valueError := (C79_match_error _ _).1 (by decide +kernel)
example : MatchRejects t!"ipv6_src=1::2::3" .osError := (C79_match_error _ _).1 (by decide +kernel)

example : MatchRejects t!"packet_type=1" .indexError := (C79_match_error _ _).1 (by decide +kernel)
example : MatchRejects t!"packet_type=1-2" .assertionError := (C79_match_error _ _).1 (by decide +kernel)
example : MatchRejects t!"packet_type=0x10000:2" .structError := (C79_match_error _ _).1 (by decide +kernel)
example : MatchRejects t!"dot11_ssid=ab/1" .valueError := (C79_match_error _ _).1 (by decide +kernel)
example : MatchRejects t!"nxm_tun_metadata0=abc" .valueError := (C79_match_error _ _).1 (by decide +kernel)
example : MatchRejects t!"radiotap_flags=1/1" .typeError := (C79_match_error _ _).1 (by decide +kernel)
example : MatchRejects t!"radiotap_rate=5.5" .indexError := (C79_match_error _ _).1 (by decide +kernel)
example : MatchRejects t!"radiotap_rate=128M" .structError := (C79_match_error _ _).1 (by decide +kernel)
example : MatchRejects t!"radiotap_channel=1:2/:0x10000" .structError := (C79_match_error _ _).1 (by decide +kernel)
example : MatchRejects t!"radiotap_mcs=1:2" .structError := (C79_match_error _ _).1 (by decide +kernel)
example : MatchRejects t!"radiotap_mcs=1x:y:3" .assertionError := (C79_match_error _ _).1 (by decide +kernel)
example : MatchRejects t!"radiotap_vht=1:y" .valueError := (C79_match_error _ _).1 (by decide +kernel)
example : MatchRejects t!"radiotap_dbm_antsignal=-129" .structError := (C79_match_error _ _).1 (by decide +kernel)

/-- Values that are refused, from the specification alone. -/
example : RateRejects t!"5.5" .indexError :=
  .short _ _ _ (.point t!"5" 5 t!"5" 5 [] (.one _ _ (.mk _ _ _ (by decide) (by decide))) (.one _ _ (.mk _ _ _ (by decide) (by decide))) (by intro c t d h; cases h))

/-- The hypotheses of `C79_value` hold of a field and a value; a mask on a little endian field raises
`TypeError`. -/
example : ∃ f ∈ fields, f.name = t!"radiotap_flags" ∧ Tok t!"1/1" [] t!"1/1" [] ∧ f.textKind.Rejects t!"1/1" .typeError := by
  have hf : (⟨t!"radiotap_flags", 0xffff, 17, .le 1, false⟩ : Field) ∈ fields := by decide +kernel
  have ht : Tok t!"1/1" [] t!"1/1" [] := (getToken_iff _ _ _ _).1 (by decide +kernel)
  exact ⟨_, hf, rfl, ht, (C79_value _ hf _ ht (by decide) _).1 (by decide +kernel)⟩

end Ofpstr
