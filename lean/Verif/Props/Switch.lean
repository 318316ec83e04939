import Verif.Lemmas.Switch

/-!
# C83: which switch the command line names

`switchTarget` is cli.py:36-44 with the regular expression as data.
-/

set_option linter.unusedSimpArgs false

namespace Ofpstr
open Spec

/-- C83: a host is connected to exactly when the argument starts with four runs of digits, a colon and a port; of the
ways to cut it the one with the longest runs from the left counts. -/
theorem C83_tcp (sw host : Str) (port : Int) : switchTarget sw = .ok (.tcp host port) ↔
    ∃ t n, TcpFirst sw t ∧ t.host = host ∧ Numeral 10 t.port n ∧ port = n := by
  constructor
  · intro h
    rcases switch_cases sw with ⟨t, n, hf, hn, he⟩ | ⟨p, _, he⟩ | ⟨_, _, he⟩
    · rw [h] at he
      cases he
      exact ⟨t, n, hf, rfl, hn, rfl⟩
    · rw [h] at he; cases he
    · rw [h] at he; cases he
  · rintro ⟨t, n, hf, rfl, hn, rfl⟩
    rcases switch_cases sw with ⟨t', n', hf', hn', he⟩ | ⟨p, hp, _⟩ | ⟨hno, _, _⟩
    · obtain rfl := first_one hf hf'
      rw [he, numeral_one hn hn']
    · exact absurd hp (tcp_not_unix hf.1)
    · exact absurd hf.1 (hno t)

/-- C83: a local socket is connected to exactly when the argument starts with `unix:`; its path ends at the first line
feed. -/
theorem C83_unix (sw path : Str) : switchTarget sw = .ok (.unix path) ↔ UnixPath sw path := by
  constructor
  · intro h
    rcases switch_cases sw with ⟨t, n, _, _, he⟩ | ⟨p, hp, he⟩ | ⟨_, _, he⟩
    · rw [h] at he; cases he
    · rw [h] at he; cases he; exact hp
    · rw [h] at he; cases he
  · intro hp
    rcases switch_cases sw with ⟨t, n, hf, _, _⟩ | ⟨p, hp', he⟩ | ⟨_, hno, _⟩
    · exact absurd hp (tcp_not_unix hf.1)
    · rw [he, (unix_path.1 hp).2, (unix_path.1 hp').2]
    · exact absurd hp (hno path)

/-- C83: every other argument raises `Eparam`, and no argument raises anything else: the port is always a number. -/
theorem C83_error (sw : Str) (e : CliErr) : switchTarget sw = .error e ↔
    e = .eparam ∧ (∀ t, ¬ TcpCut sw t) ∧ ∀ p, ¬ UnixPath sw p := by
  constructor
  · intro h
    rcases switch_cases sw with ⟨t, n, _, _, he⟩ | ⟨p, hp, he⟩ | ⟨h1, h2, he⟩
    · rw [h] at he; cases he
    · rw [h] at he; cases he
    · rw [h] at he; cases he; exact ⟨rfl, h1, h2⟩
  · rintro ⟨rfl, h1, h2⟩
    rcases switch_cases sw with ⟨t, n, hf, _, _⟩ | ⟨p, hp, _⟩ | ⟨_, _, he⟩
    · exact absurd hf.1 (h1 t)
    · exact absurd hp (h2 p)
    · exact he

/-- C83: where an argument can be cut at all, exactly one cut counts. -/
theorem C83_first (sw : Str) (t : TcpParts) (h : TcpCut sw t) : ∃! u, TcpFirst sw u := by
  rcases switch_cases sw with ⟨u, n, hf, _, _⟩ | ⟨p, hp, _⟩ | ⟨hno, _, _⟩
  · exact ⟨u, hf, fun v hv => first_one hv hf⟩
  · exact absurd hp (tcp_not_unix h)
  · exact absurd h (hno t)

/-- C83: an address with anything but digits between the runs is cut only there, and what stands behind the port does
not matter unless it starts with a digit. -/
theorem C83_plain (t : TcpParts) (r : Str) (n : Nat) (ha : Digits t.a) (hb : Digits t.b) (hc : Digits t.c) (hd : Digits t.d)
    (hp : Numeral 10 t.port n) (hx : t.x ≠ '\n' ∧ ∀ k, ¬ Digit 10 t.x k) (hy : t.y ≠ '\n' ∧ ∀ k, ¬ Digit 10 t.y k)
    (hz : t.z ≠ '\n' ∧ ∀ k, ¬ Digit 10 t.z k) (hr : NoDigit 10 r) :
    switchTarget (t!"tcp:" ++ (t.host ++ ':' :: (t.port ++ r))) = .ok (.tcp t.host n) := by
  have hq : Digits t.port := digits_dec.2 ⟨((numeral_iff 10 (by omega) _ _).1 hp).1, numeral_isDec hp⟩
  refine (C83_tcp _ _ _).2 ⟨t, n, ⟨⟨ha, hb, hc, hd, hq, hx.1, hy.1, hz.1, r, rfl⟩, ?_⟩, rfl, hp, rfl⟩
  rintro u ⟨ua, ub, uc, ud, uq, _, _, _, r', he⟩
  obtain ⟨a, x, b, y, c, z, d, q⟩ := t
  obtain ⟨a', x', b', y', c', z', d', q'⟩ := u
  simp only [TcpParts.host, List.append_assoc, List.cons_append, List.nil_append, List.cons.injEq, true_and] at he
  simp only [TcpParts.lengths, List.cons_lt_cons_iff, not_or, not_and, not_lt]
  have hcol : ∀ k, ¬ Digit 10 ':' k := fun k hk => absurd ((isDec_iff ':').2 ⟨k, hk⟩) (by decide)
  have sep : ∀ {x : Char} {s : Str}, (∀ k, ¬ Digit 10 x k) → ∀ c k, (x :: s).head? = some c → ¬ Digit 10 c k := by
    intro x s h c k hk
    cases hk
    exact h k
  refine ⟨run_shorter (sep hx.2) ua he, fun l1 => ?_⟩
  obtain ⟨_, he⟩ := List.append_inj he l1
  obtain ⟨_, he⟩ := List.cons.inj he
  refine ⟨run_shorter (sep hy.2) ub he, fun l2 => ?_⟩
  obtain ⟨_, he⟩ := List.append_inj he l2
  obtain ⟨_, he⟩ := List.cons.inj he
  refine ⟨run_shorter (sep hz.2) uc he, fun l3 => ?_⟩
  obtain ⟨_, he⟩ := List.append_inj he l3
  obtain ⟨_, he⟩ := List.cons.inj he
  refine ⟨run_shorter (sep hcol) ud he, fun l4 => ?_⟩
  obtain ⟨_, he⟩ := List.append_inj he l4
  obtain ⟨_, he⟩ := List.cons.inj he
  refine ⟨run_shorter ?_ uq he, fun _ => le_refl _⟩
  intro c k hk
  cases r with
  | nil => cases hk
  | cons c' r => cases hk; exact hr _ _ k rfl

example : switchTarget t!"tcp:127.0.0.1:6633" = .ok (.tcp t!"127.0.0.1" 6633) :=
  C83_plain ⟨t!"127", '.', t!"0", '.', t!"0", '.', t!"1", t!"6633"⟩ [] 6633
    (digits_dec.2 ⟨by decide, by decide⟩) (digits_dec.2 ⟨by decide, by decide⟩) (digits_dec.2 ⟨by decide, by decide⟩)
    (digits_dec.2 ⟨by decide, by decide⟩)
    ((numeral_iff 10 (by omega) _ _).2 ⟨by decide, fun c hc => (isDec_iff c).1 (by revert c; decide), by decide⟩)
    ⟨by decide, fun k hk => absurd ((isDec_iff _).2 ⟨k, hk⟩) (by decide)⟩
    ⟨by decide, fun k hk => absurd ((isDec_iff _).2 ⟨k, hk⟩) (by decide)⟩
    ⟨by decide, fun k hk => absurd ((isDec_iff _).2 ⟨k, hk⟩) (by decide)⟩ (fun _ _ _ h => nomatch h)

/-- C83: no dot is needed: seven digits or more are a host. -/
theorem C83_no_dots (w p : Str) (hw : ∀ c ∈ w, ∃ k, Digit 10 c k) (h7 : 7 ≤ w.length) (hp : Digits p) :
    ∃ host port, switchTarget (t!"tcp:" ++ (w ++ ':' :: p)) = .ok (.tcp host port) := by
  match w, h7 with
  | a :: x :: b :: y :: c :: z :: d :: w, _ =>
    have nl : ∀ {v : Char}, (∃ k, Digit 10 v k) → v ≠ '\n' := by
      rintro v h rfl
      exact absurd ((isDec_iff _).2 h) (by decide)
    have one : ∀ {v : Char}, (∃ k, Digit 10 v k) → Digits [v] := fun h => ⟨by simp, by simpa using h⟩
    simp only [List.mem_cons, forall_eq_or_imp] at hw
    obtain ⟨h1, h2, h3, h4, h5, h6, h7, h8⟩ := hw
    have hcut : TcpCut (t!"tcp:" ++ ((a :: x :: b :: y :: c :: z :: d :: w) ++ ':' :: p)) ⟨[a], x, [b], y, [c], z, d :: w, p⟩ :=
      ⟨one h1, one h3, one h5, ⟨by simp, by simpa using ⟨h7, h8⟩⟩, hp, nl h2, nl h4, nl h6, [], by simp [TcpParts.host]⟩
    rcases switch_cases (t!"tcp:" ++ ((a :: x :: b :: y :: c :: z :: d :: w) ++ ':' :: p)) with ⟨u, n, _, _, he⟩ | ⟨q, hq, _⟩ | ⟨hno, _, _⟩
    · exact ⟨_, _, he⟩
    · exact absurd hq (tcp_not_unix hcut)
    · exact absurd hcut (hno _)

/-- C83: a name is no host: behind `tcp:` must stand a digit. -/
theorem C83_name (c : Char) (s : Str) (h : ∀ k, ¬ Digit 10 c k) : switchTarget (t!"tcp:" ++ c :: s) = .error .eparam := by
  refine (C83_error _ _).2 ⟨rfl, ?_, ?_⟩
  · rintro t ⟨⟨hne, hd⟩, _, _, _, _, _, _, _, r, he⟩
    obtain ⟨a, x, b, y, c', z, d, q⟩ := t
    cases a with
    | nil => exact hne rfl
    | cons e a =>
      simp only [TcpParts.host, List.append_assoc, List.cons_append, List.nil_append, List.cons.injEq, true_and] at he
      obtain ⟨k, hk⟩ := hd e (by simp)
      rw [← he.1] at hk
      exact h k hk
  · rintro p ⟨_, r, he, _⟩
    revert he
    simp

example : switchTarget t!"tcp:localhost:6633" = .error .eparam :=
  C83_name 'l' t!"ocalhost:6633" fun k hk => absurd ((isDec_iff _).2 ⟨k, hk⟩) (by decide)

/-- C83: wrong addresses that are accepted, and one for which the text behind the port counts. -/
theorem C83_wild :
    switchTarget t!"tcp:1234567:80" = .ok (.tcp t!"1234567" 80) ∧
    switchTarget t!"tcp:999.0.0.1:99999" = .ok (.tcp t!"999.0.0.1" 99999) ∧
    switchTarget t!"tcp:127.0.0.1:6633/x" = .ok (.tcp t!"127.0.0.1" 6633) ∧
    switchTarget t!"tcp:1.2.345:5" = .ok (.tcp t!"1.2.345" 5) ∧
    switchTarget t!"tcp:1.2.345:5:6" = .ok (.tcp t!"1.2.345:5" 6) ∧
    switchTarget t!"unix:" = .ok (.unix []) ∧
    switchTarget t!"tcp:127.0.0.1" = .error .eparam ∧
    switchTarget t!"tcp:::1:6633" = .error .eparam := by
  decide +kernel

/-- C83: the connection is made to what the argument names and to nothing else; without it nothing is sent or printed,
and with it all happens as in C55. -/
theorem C83_run (connect : Target → Except Err Sock) (sw command : Str) (args : List Str) :
    (∃ t s, switchTarget sw = .ok t ∧ connect t = .ok s ∧ ofctlMain connect sw command args = ofctl command args s) ∨
    (∃ t e, switchTarget sw = .ok t ∧ connect t = .error e ∧ (ofctlMain connect sw command args).sent = [] ∧
      (ofctlMain connect sw command args).printed = [] ∧ (ofctlMain connect sw command args).outcome = .error (.py e)) ∨
    (switchTarget sw = .error .eparam ∧ (ofctlMain connect sw command args).sent = [] ∧
      (ofctlMain connect sw command args).printed = [] ∧ (ofctlMain connect sw command args).outcome = .error .eparam) := by
  unfold ofctlMain
  cases ht : switchTarget sw with
  | error e =>
    obtain ⟨rfl, _⟩ := (C83_error sw e).1 ht
    exact .inr (.inr ⟨rfl, rfl, rfl, rfl⟩)
  | ok t =>
    dsimp only
    cases hc : connect t with
    | error e => exact .inr (.inl ⟨t, e, rfl, hc, rfl, rfl, rfl⟩)
    | ok s => exact .inl ⟨t, s, rfl, hc, rfl⟩

/-- C83: nothing is sent exactly when the argument names no switch or the switch cannot be reached; whatever the
command, a switch that is reached gets the hello first. -/
theorem C83_hello (connect : Target → Except Err Sock) (sw command : Str) (args : List Str) :
    ((ofctlMain connect sw command args).sent = [] ↔ ∀ t, switchTarget sw = .ok t → ∃ e, connect t = .error e) ∧
    ∀ m, (ofctlMain connect sw command args).sent.head? = some m → m = [4, 0, 0, 8, 0, 0, 0, 1] := by
  have hof : ∀ s, (ofctl command args s).sent.head? = some cliHello := by
    intro s
    unfold ofctl
    split
    · split <;> rfl
    · split
      · split <;> rfl
      · split
        · split <;> rfl
        · split
          · split <;> rfl
          · rfl
  rcases C83_run connect sw command args with ⟨t, s, ht, hc, he⟩ | ⟨t, e, ht, hc, h1, _⟩ | ⟨ht, h1, _⟩
  · rw [he]
    refine ⟨⟨fun h => absurd (hof s) (by simp [h]), fun h => ?_⟩, fun m hm => ?_⟩
    · obtain ⟨e, h⟩ := h t ht
      rw [hc] at h; cases h
    · rw [hof s] at hm; cases hm; rfl
  · rw [h1]
    refine ⟨⟨fun _ t' ht' => ?_, fun _ => rfl⟩, fun m hm => nomatch hm⟩
    rw [ht] at ht'; cases ht'
    exact ⟨e, hc⟩
  · rw [h1]
    refine ⟨⟨fun _ t' ht' => ?_, fun _ => rfl⟩, fun m hm => nomatch hm⟩
    rw [ht] at ht'; cases ht'

end Ofpstr
