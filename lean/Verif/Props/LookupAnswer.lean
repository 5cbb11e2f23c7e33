import Verif.Props.LookupChain

/-!
# C115: what a look-up ends with

Spec. What a peer answers in a network that stays as it is, by rules on what the peers have, without the stack
of waiting peers.
-/

namespace Verif

namespace LookupChain

mutual

/-- The answer of a peer that is asked. -/
inductive Finds (net : LookupNet) : Nat → Option AgentRecord → Prop where
  | has {p : Nat} {r : AgentRecord} (h : net.records p = some r) : Finds net p (some r)
  | looks {p : Nat} {o : Option AgentRecord} (h : net.records p = none) (ht : Tries net p (net.providers p) o) :
      Finds net p o

/-- What a peer gets from providers that it asks in turn. -/
inductive Tries (net : LookupNet) : Nat → List Nat → Option AgentRecord → Prop where
  | nobody {p : Nat} : Tries net p [] none
  | unreached {p q : Nat} {rest : List Nat} {o : Option AgentRecord} (h : net.reaches p q = false)
      (ht : Tries net p rest o) : Tries net p (q :: rest) o
  | good {p q : Nat} {rest : List Nat} {r : AgentRecord} (h : net.reaches p q = true) (hf : Finds net q (some r))
      (hv : net.valid r = true) : Tries net p (q :: rest) (some r)
  | error {p q : Nat} {rest : List Nat} {o : Option AgentRecord} (h : net.reaches p q = true)
      (hf : Finds net q none) (ht : Tries net p rest o) : Tries net p (q :: rest) o
  | bad {p q : Nat} {rest : List Nat} {r : AgentRecord} {o : Option AgentRecord} (h : net.reaches p q = true)
      (hf : Finds net q (some r)) (hv : net.valid r = false) (ht : Tries net p rest o) : Tries net p (q :: rest) o

end

theorem run_then {net : LookupNet} {s t u : LookupChain} {a b : Nat} (h : run (fun _ => net) s a = t)
    (h' : run (fun _ => net) t b = u) : run (fun _ => net) s (a + b) = u := by
  rw [run_add, h]; exact h'

mutual

theorem Finds.run {net : LookupNet} {p : Nat} {o : Option AgentRecord} :
    Finds net p o → ∀ below, ∃ k, LookupChain.run (fun _ => net) ⟨below, .asked p⟩ k = ⟨below, .answer o⟩
  | .has h, below => ⟨1, by simp [LookupChain.run, step, h]⟩
  | .looks h ht, below => by
    obtain ⟨k, hk⟩ := Tries.run ht below
    refine ⟨1 + k, run_then (t := asks net below p (net.providers p)) ?_ hk⟩
    simp [LookupChain.run, step, h]

theorem Tries.run {net : LookupNet} {p : Nat} {l : List Nat} {o : Option AgentRecord} :
    Tries net p l o → ∀ below, ∃ k, LookupChain.run (fun _ => net) (asks net below p l) k = ⟨below, .answer o⟩
  | .nobody, below => ⟨0, rfl⟩
  | .unreached h ht, below => by
    obtain ⟨k, hk⟩ := Tries.run ht below
    exact ⟨k, by rw [asks, if_neg (by simp [h])]; exact hk⟩
  | .good (rest := rest) h hf hv, below => by
    obtain ⟨k, hk⟩ := Finds.run hf ((p, rest) :: below)
    refine ⟨k + 1, run_then (t := _) ((by rw [asks, if_pos h] : LookupChain.run (fun _ => net) _ k = LookupChain.run (fun _ => net) ⟨(p, rest) :: below, .asked _⟩ k).trans hk) ?_⟩
    simp [LookupChain.run, step, hv]
  | .error (rest := rest) h hf ht, below => by
    obtain ⟨k, hk⟩ := Finds.run hf ((p, rest) :: below)
    obtain ⟨j, hj⟩ := Tries.run ht below
    refine ⟨k + (1 + j), run_then (t := _) ((by rw [asks, if_pos h] : LookupChain.run (fun _ => net) _ k = LookupChain.run (fun _ => net) ⟨(p, rest) :: below, .asked _⟩ k).trans hk) (run_then ?_ hj)⟩
    simp [LookupChain.run, step]
  | .bad (rest := rest) h hf hv ht, below => by
    obtain ⟨k, hk⟩ := Finds.run hf ((p, rest) :: below)
    obtain ⟨j, hj⟩ := Tries.run ht below
    refine ⟨k + (1 + j), run_then (t := _) ((by rw [asks, if_pos h] : LookupChain.run (fun _ => net) _ k = LookupChain.run (fun _ => net) ⟨(p, rest) :: below, .asked _⟩ k).trans hk) (run_then ?_ hj)⟩
    simp [LookupChain.run, step, hv]

end

/-- From the state, the look-up comes back to the peers below within `k` steps. -/
def Back (net : LookupNet) (s : LookupChain) (below : List (Nat × List Nat)) (k : Nat) : Prop :=
  ∃ o, (run (fun _ => net) s k).now = .answer o ∧ (run (fun _ => net) s k).waiting.length ≤ below.length

theorem back_finds (net : LookupNet) (k : Nat)
    (ih : ∀ j < k, ∀ below p l, Back net (asks net below p l) below j →
      ∃ i ≤ j, ∃ o, Tries net p l o ∧ run (fun _ => net) (asks net below p l) i = ⟨below, .answer o⟩)
    (below : List (Nat × List Nat)) (p : Nat) (h : Back net ⟨below, .asked p⟩ below k) :
    ∃ i ≤ k, ∃ o, Finds net p o ∧ run (fun _ => net) ⟨below, .asked p⟩ i = ⟨below, .answer o⟩ := by
  cases k with
  | zero =>
    obtain ⟨o, ho, _⟩ := h
    simp [run] at ho
  | succ k =>
    cases hr : net.records p with
    | some r => exact ⟨1, by omega, some r, .has hr, by simp [run, step, hr]⟩
    | none =>
      have h1 : run (fun _ => net) ⟨below, .asked p⟩ 1 = asks net below p (net.providers p) := by
        simp [run, step, hr]
      have hb : Back net (asks net below p (net.providers p)) below k := by
        obtain ⟨o, ho, hl⟩ := h
        have : run (fun _ => net) ⟨below, .asked p⟩ (k + 1) =
            run (fun _ => net) (asks net below p (net.providers p)) k := by
          rw [Nat.add_comm, run_add, h1]
        rw [this] at ho hl
        exact ⟨o, ho, hl⟩
      obtain ⟨i, hi, o, ht, hrun⟩ := ih k (by omega) below p _ hb
      exact ⟨1 + i, by omega, o, .looks hr ht, run_then h1 hrun⟩

theorem back_tries (net : LookupNet) (k : Nat) : ∀ (below : List (Nat × List Nat)) (p : Nat) (l : List Nat),
    Back net (asks net below p l) below k →
    ∃ i ≤ k, ∃ o, Tries net p l o ∧ run (fun _ => net) (asks net below p l) i = ⟨below, .answer o⟩ := by
  induction k using Nat.strongRecOn with
  | _ k ih =>
    intro below p l
    induction l with
    | nil => exact fun _ => ⟨0, by omega, none, .nobody, rfl⟩
    | cons q rest ihl =>
      intro h
      cases hr : net.reaches p q with
      | false =>
        have he : asks net below p (q :: rest) = asks net below p rest := by simp [asks, hr]
        rw [he] at h ⊢
        obtain ⟨i, hi, o, ht, hrun⟩ := ihl h
        exact ⟨i, hi, o, .unreached hr ht, hrun⟩
      | true =>
        have he : asks net below p (q :: rest) = ⟨(p, rest) :: below, .asked q⟩ := by simp [asks, hr]
        rw [he] at h ⊢
        obtain ⟨i, hi, o, hf, hrun⟩ := back_finds net k ih ((p, rest) :: below) q (by
          obtain ⟨o, ho, hl⟩ := h
          exact ⟨o, ho, by simp only [List.length_cons]; omega⟩)
        have hlt : i < k := by
          rcases Nat.lt_or_ge i k with hlt | hge
          · exact hlt
          · obtain rfl : i = k := by omega
            obtain ⟨_, _, hl⟩ := h
            rw [hrun] at hl
            simp only [List.length_cons] at hl
            omega
        have again : step net ⟨(p, rest) :: below, .answer o⟩ = asks net below p rest →
            ∃ j ≤ k, ∃ o', Tries net p rest o' ∧
              run (fun _ => net) ⟨(p, rest) :: below, .asked q⟩ j = ⟨below, .answer o'⟩ := by
          intro hs
          have h1 : run (fun _ => net) ⟨(p, rest) :: below, .asked q⟩ (i + 1) = asks net below p rest := by
            rw [run, hrun]; exact hs
          obtain ⟨j, hj, o', ht, hrun'⟩ := ih (k - (i + 1)) (by omega) below p rest (by
            obtain ⟨o', ho, hl⟩ := h
            have hk : k = (i + 1) + (k - (i + 1)) := by omega
            rw [hk, run_add, h1] at ho hl
            exact ⟨o', ho, hl⟩)
          exact ⟨(i + 1) + j, by omega, o', ht, run_then h1 hrun'⟩
        cases o with
        | none =>
          obtain ⟨j, hj, o', ht, hrun'⟩ := again (by simp [step])
          exact ⟨j, hj, o', .error hr hf ht, hrun'⟩
        | some r =>
          cases hv : net.valid r with
          | true => exact ⟨i + 1, by omega, some r, .good hr hf hv, by rw [run, hrun]; simp [step, hv]⟩
          | false =>
            obtain ⟨j, hj, o', ht, hrun'⟩ := again (by simp [step, hv])
            exact ⟨j, hj, o', .bad hr hf hv ht, hrun'⟩

/-- **C115, what a look-up ends with.** In a network that stays as it is, the look-up of a peer comes to an end
with an answer exactly if the rules give this answer. -/
theorem C115_finds (net : LookupNet) (p : Nat) (o : Option AgentRecord) :
    (∃ n, run (fun _ => net) (start p) n = ⟨[], .answer o⟩) ↔ Finds net p o := by
  constructor
  · rintro ⟨n, hn⟩
    obtain ⟨i, hi, o', hf, hrun⟩ := back_finds net n (fun j _ => back_tries net j) [] p
      ⟨o, by unfold start at hn; rw [hn], by unfold start at hn; rw [hn]; simp⟩
    have := over_run (net := fun _ => net) (s := start p) (n := i) (m := n) (by unfold start; rw [hrun]; rfl) hi
    unfold start at this hn
    rw [hn, hrun] at this
    simp only [LookupChain.mk.injEq, LookupNow.answer.injEq, true_and] at this
    rw [this]
    exact hf
  · exact fun h => Finds.run h []

/-- **C115.** There is at most one answer. -/
theorem C115_finds_one {net : LookupNet} {p : Nat} {o o' : Option AgentRecord} (h : Finds net p o) (h' : Finds net p o') :
    o = o' := by
  obtain ⟨n, hn⟩ := (C115_finds net p o).2 h
  obtain ⟨m, hm⟩ := (C115_finds net p o').2 h'
  have key : ∀ {n m : Nat} {o o' : Option AgentRecord}, run (fun _ => net) (start p) n = ⟨[], .answer o⟩ →
      run (fun _ => net) (start p) m = ⟨[], .answer o'⟩ → n ≤ m → o = o' := by
    intro n m o o' hn hm hle
    have := over_run (net := fun _ => net) (s := start p) (n := n) (m := m) (by rw [hn]; rfl) hle
    rw [hn, hm] at this
    simpa using this.symm
  rcases Nat.le_total n m with hle | hle
  · exact key hn hm hle
  · exact (key hm hn hle).symm

/-! ## Concrete cases -/

/-- The agent has moved from peer 0 to peer 1; peer 2 asks peer 0, which asks peer 1. -/
example : Finds moved 2 (some agent) :=
  .looks rfl (.good rfl (.looks rfl (.unreached rfl (.good rfl (.has rfl) rfl))) rfl)

/-- The agent has left, and peers 0 and 1 ask each other: no answer. -/
example (o : Option AgentRecord) : ¬ Finds left 2 o := by
  intro h
  obtain ⟨n, hn⟩ := (C115_finds left 2 o).2 h
  have := (C115_counterexample n).2
  rw [hn] at this
  simp [over] at this

end LookupChain

end Verif
