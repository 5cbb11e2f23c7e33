import Verif.Model.Reconnect

/-!
# C73: reconnecting to the relay peer

Property: a client that loses the connection to its relay peer tries to connect again until it succeeds or is
closed; it tries nothing for other peers, and nothing after it was closed.
-/

namespace Verif

namespace Reconnect

/-- The first `n` rounds were failed attempts. -/
def Failing (n : Nat) (rounds : List Round) : Prop := ∀ k < n, rounds[k]? = some (.attempt false)

theorem failing_cons (n : Nat) (rest : List Round) :
    Failing (n + 1) (.attempt false :: rest) ↔ Failing n rest := by
  constructor
  · intro h k hk
    have := h (k + 1) (by omega)
    simpa using this
  · intro h k hk
    cases k with
    | zero => rfl
    | succ k => simpa using h k (by omega)

theorem loop_spec (rounds : List Round) : ∀ (n : Nat),
    (loop rounds = (n + 1, .reconnected) ↔ Failing n rounds ∧ rounds[n]? = some (.attempt true)) ∧
    (loop rounds = (n, .stopped) ↔ Failing n rounds ∧ rounds[n]? = some .closed) ∧
    (loop rounds = (n, .trying) ↔ Failing n rounds ∧ rounds.length = n) ∧
    (loop rounds).2 ≠ .ignored ∧ loop rounds ≠ (0, .reconnected) := by
  induction rounds with
  | nil =>
    intro n
    simp only [loop, Prod.mk.injEq, reduceCtorEq, and_false, List.getElem?_nil, and_true,
      List.length_nil, ne_eq, not_false_eq_true]
    exact ⟨trivial, trivial, ⟨fun h => ⟨fun k hk => by omega, h⟩, fun h => h.2⟩⟩
  | cons r rest ih =>
    intro n
    match r with
    | .closed =>
      cases n with
      | zero => simp [loop, Failing]
      | succ n =>
        have : ¬ Failing (n + 1) (.closed :: rest) := fun h => by simpa using h 0 (by omega)
        simp [loop, this]
    | .attempt true =>
      cases n with
      | zero => simp [loop, Failing]
      | succ n =>
        have : ¬ Failing (n + 1) (.attempt true :: rest) := fun h => by simpa using h 0 (by omega)
        simp [loop, this]
    | .attempt false =>
      cases n with
      | zero =>
        obtain ⟨_, _, _, h4, h5⟩ := ih 0
        simp only [loop]
        generalize loop rest = l at *
        obtain ⟨m, o⟩ := l
        simp at h4 h5 ⊢
        exact ⟨fun h => h5 h, h4⟩
      | succ n =>
        obtain ⟨h1, h2, h3, h4, h5⟩ := ih n
        simp only [loop, failing_cons]
        generalize loop rest = l at *
        obtain ⟨m, o⟩ := l
        simp at h1 h2 h3 h4 h5 ⊢
        refine ⟨?_, h2, h3, h4⟩
        rw [← h1]

/-- **C73.** For every course of events: a call for another peer does nothing. A call for the relay peer ends
with a connection after exactly `n + 1` attempts if and only if the first `n` attempts failed and the next
succeeded, all before the client was closed; it gives up after `n` attempts if and only if they failed and then
the client was closed; and it is still trying after `n` rounds if and only if all of them were failed
attempts. There is no other outcome. -/
theorem C73_outcome (relay remote : Bytes) (rounds : List Round) :
    (remote ≠ relay → disconnected relay remote rounds = (0, .ignored)) ∧
    (remote = relay → ∃ n, Failing n rounds ∧
      ((rounds[n]? = some (.attempt true) ∧ disconnected relay remote rounds = (n + 1, .reconnected)) ∨
       (rounds[n]? = some .closed ∧ disconnected relay remote rounds = (n, .stopped)) ∨
       (rounds.length = n ∧ disconnected relay remote rounds = (n, .trying)))) := by
  constructor
  · intro h; simp [disconnected, h]
  · intro h
    simp only [disconnected, h, ne_eq, not_true_eq_false, if_false]
    generalize hl : loop rounds = l
    obtain ⟨m, o⟩ := l
    cases o with
    | ignored => exact absurd (by rw [hl]) (loop_spec rounds 0).2.2.2.1
    | stopped =>
      obtain ⟨h1, h2⟩ := (loop_spec rounds m).2.1.1 hl
      exact ⟨m, h1, .inr (.inl ⟨h2, rfl⟩)⟩
    | trying =>
      obtain ⟨h1, h2⟩ := (loop_spec rounds m).2.2.1.1 hl
      exact ⟨m, h1, .inr (.inr ⟨h2, rfl⟩)⟩
    | reconnected =>
      cases m with
      | zero => exact absurd hl (loop_spec rounds 0).2.2.2.2
      | succ m =>
        obtain ⟨h1, h2⟩ := (loop_spec rounds m).1.1 hl
        exact ⟨m, h1, .inl ⟨h2, rfl⟩⟩

/-- **C73, after closing.** What would happen after the client is closed does not matter: no attempt is made
then. -/
theorem C73_closed (relay remote : Bytes) (before after : List Round) :
    disconnected relay remote (before ++ .closed :: after) = disconnected relay remote (before ++ [.closed]) ∧
    (disconnected relay remote (before ++ .closed :: after)).1 ≤ before.length ∧
    (disconnected relay remote (before ++ .closed :: after)).2 ≠ .trying := by
  unfold disconnected
  split
  · simp
  · induction before with
    | nil => simp [loop]
    | cons r before ih =>
      obtain ⟨h1, h2, h3⟩ := ih
      match r with
      | .closed => simp [loop]
      | .attempt true => simp [loop]
      | .attempt false =>
        simp only [List.cons_append, loop, h1] at *
        exact ⟨trivial, by simp; omega, h3⟩

example : disconnected (b! "r") (b! "r") [.attempt false, .attempt false, .attempt true, .closed] =
    (3, .reconnected) := by decide

example : disconnected (b! "r") (b! "r") [.attempt false, .closed, .attempt true] = (1, .stopped) := by decide

end Reconnect

end Verif
