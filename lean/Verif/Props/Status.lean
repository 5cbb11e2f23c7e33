import Verif.Model.Status

/-!
# C34: acknowledgements

`SendEnvelope` reports success exactly for phase `returned (j, true)`.
-/

namespace Verif

open StatusQueue

namespace StatusQueue

theorem run_append (s : StatusQueue) (a b : List Step) : run s (a ++ b) = run (run s a) b := by
  simp [run, List.foldl_append]

/-- Statuses are taken in the order in which the envelopes were written. -/
structure Fifo (s : StatusQueue) : Prop where
  order : s.taken.map (·.1) ++ s.queue.map (·.1) ++ s.unanswered = List.range s.sends.length

theorem Fifo.step {s : StatusQueue} (h : Fifo s) (st : Step) : Fifo (s.step st) := by
  have ho := h.order
  cases st with
  | write =>
    refine ⟨?_⟩
    simp only [StatusQueue.step, List.length_append, List.length_singleton]
    rw [List.range_succ, ← ho]; simp
  | answer b =>
    simp only [StatusQueue.step]
    cases hu : s.unanswered with
    | nil => exact h
    | cons j rest =>
      refine ⟨?_⟩
      rw [← ho, hu]; simp
  | take i =>
    simp only [StatusQueue.step]
    split
    · rename_i st rest _ hq
      refine ⟨?_⟩
      dsimp only
      rw [List.length_set, ← ho, hq]; simp
    · exact h
  | timeout i =>
    simp only [StatusQueue.step]
    split
    · exact ⟨by dsimp only; rw [List.length_set]; exact ho⟩
    · exact h

theorem fifo_run (steps : List Step) : Fifo (run .init steps) := by
  have key : ∀ (steps : List Step) (s : StatusQueue), Fifo s → Fifo (run s steps) := by
    intro steps
    induction steps with
    | nil => intro s h; exact h
    | cons st steps ih => intro s h; exact ih _ (h.step st)
  exact key steps _ ⟨rfl⟩

end StatusQueue

/-- **C34.** In every history, the k-th status that is taken answers the k-th envelope written,
whoever takes it. -/
theorem C34_kth_status (steps : List Step) (k : Nat) (st : Nat × Bool)
    (h : (run .init steps).taken[k]? = some st) : st.1 = k := by
  have ho := (fifo_run steps).order
  have hlt : k < (run .init steps).taken.length := by
    rcases Nat.lt_or_ge k (run .init steps).taken.length with h1 | h1
    · exact h1
    · rw [List.getElem?_eq_none h1] at h; simp at h
  have h1 := congrArg (fun l => l[k]?) ho
  simp only at h1
  rw [List.append_assoc, List.getElem?_append_left (by simpa using hlt), List.getElem?_map, h] at h1
  have hk : k < (run .init steps).sends.length := by
    have := congrArg List.length ho
    simp only [List.length_append, List.length_map, List.length_range] at this
    omega
  rw [List.getElem?_range hk] at h1
  simpa using h1

/-- **C34, exact law.** A send that takes a status gets the one for its own envelope if and only if
as many statuses were taken before as envelopes were written before its own. -/
theorem C34_own_status_iff (steps : List Step) (i : Nat)
    (hw : (run .init steps).sends[i]? = some .waiting) (st : Nat × Bool) (rest : List (Nat × Bool))
    (hq : (run .init steps).queue = st :: rest) :
    (run .init (steps ++ [.take i])).sends[i]? = some (.returned st) ∧
    (st.1 = i ↔ (run .init steps).taken.length = i) := by
  have hlt : i < (run .init steps).sends.length := by
    rcases Nat.lt_or_ge i (run .init steps).sends.length with h1 | h1
    · exact h1
    · rw [List.getElem?_eq_none h1] at hw; simp at hw
  have hstep : run .init (steps ++ [.take i]) =
      { run .init steps with
          sends := (run .init steps).sends.set i (.returned st)
          queue := rest
          taken := (run .init steps).taken ++ [st] } := by
    rw [run_append]
    show step _ (.take i) = _
    simp only [step, hw, hq]
  constructor
  · rw [hstep]; exact List.getElem?_set_self hlt
  · have hk := C34_kth_status (steps ++ [.take i]) (run .init steps).taken.length st
      (by rw [hstep]; simp)
    rw [hk]

/-- No send times out, and a send starts only when no other is waiting. -/
def Sequential : StatusQueue → List Step → Prop
  | _, [] => True
  | s, st :: rest =>
    (match st with
      | .write => .waiting ∉ s.sends
      | .timeout _ => False
      | _ => True) ∧ Sequential (s.step st) rest

/-- **C34, partial.** If sends are made one at a time and none times out, a send that reports success
received the status that the receiver issued for that very envelope. Missing from the property: sends
at the same time, and sends after one that timed out (`C34_timeout_counterexample`,
`C34_concurrent_counterexample`). -/
theorem C34_sequential_partial (steps : List Step) (hs : Sequential .init steps) (i : Nat)
    (st : Nat × Bool) (h : (run .init steps).sends[i]? = some (.returned st)) : st.1 = i := by
  suffices key : ∀ (steps : List Step) (s : StatusQueue), Sequential s steps → Fifo s →
      s.taken.length ≤ s.sends.length →
      (∀ (i : Nat) st, s.sends[i]? = some (.returned st) → st.1 = i ∧ i < s.taken.length) →
      (∀ i : Nat, s.sends[i]? = some .waiting → i = s.taken.length ∧ i + 1 = s.sends.length) →
      (∀ i : Nat, s.sends[i]? ≠ some .timedOut) →
      (∀ (i : Nat) st, (run s steps).sends[i]? = some (.returned st) → st.1 = i) by
    exact key steps .init hs ⟨rfl⟩ (by simp [init]) (by simp [init]) (by simp [init])
      (by simp [init]) i st h
  clear h hs steps st i
  intro steps
  induction steps with
  | nil => intro s _ _ _ h _ _ i st hi; exact (h i st hi).1
  | cons x steps ih =>
    intro s hs hf hle hret hwait hto
    have hsx := hs.1
    refine ih (s.step x) hs.2 (hf.step x) ?_ ?_ ?_ ?_
    all_goals clear ih
    all_goals
      cases x with
      | write =>
        have hfull : s.taken.length = s.sends.length := by
          rcases Nat.lt_or_ge s.taken.length s.sends.length with hlt | hge
          · exfalso
            obtain ⟨ph, hph⟩ : ∃ ph, s.sends[s.taken.length]? = some ph :=
              ⟨_, List.getElem?_eq_getElem hlt⟩
            cases ph with
            | waiting => exact hsx (List.mem_of_getElem? hph)
            | timedOut => exact hto _ hph
            | returned st => have := (hret _ st hph).2; omega
          · omega
        simp only [step]
        first
        | (show s.taken.length ≤ _
           simp only [List.length_append]; omega)
        | skip
        all_goals intro i
        all_goals
          rcases Nat.lt_trichotomy i s.sends.length with hi | hi | hi
          · rw [List.getElem?_append_left hi]
            first
            | exact hret i
            | exact hto i
            | (intro hw; have := List.mem_of_getElem? hw; exact absurd this hsx)
          · subst hi
            simp
            try omega
          · have hn : (s.sends ++ [SendPhase.waiting])[i]? = none :=
              List.getElem?_eq_none (by simp only [List.length_append, List.length_singleton]; omega)
            rw [hn]; simp
      | answer b =>
        simp only [step]
        cases s.unanswered with
        | nil => first | exact hle | exact hret | exact hwait | exact hto
        | cons j rest => first | exact hle | exact hret | exact hwait | exact hto
      | timeout j => exact absurd hsx (by simp)
      | take j =>
        simp only [step]
        split
        · rename_i st rest hw hq
          obtain ⟨hj, hj1⟩ := hwait j hw
          have hst : st.1 = j := by
            have ho := hf.order
            have h1 := congrArg (fun l => l[s.taken.length]?) ho
            simp only at h1
            rw [hq, List.append_assoc, List.getElem?_append_right (by simp)] at h1
            simp only [List.length_map, Nat.sub_self, List.map_cons, List.cons_append,
              List.getElem?_cons_zero] at h1
            rw [List.getElem?_range (by omega)] at h1
            simp only [Option.some.injEq] at h1
            omega
          have hlt : j < s.sends.length := by omega
          dsimp only
          first
          | (show _ ≤ _
             simp only [List.length_append, List.length_singleton, List.length_set]; omega)
          | skip
          all_goals intro i
          all_goals
            by_cases hij : j = i
            · subst hij
              rw [List.getElem?_set_self hlt]
              first
              | (intro st' hst'
                 simp only [Option.some.injEq, SendPhase.returned.injEq] at hst'
                 subst hst'
                 exact ⟨hst, by simp only [List.length_append, List.length_singleton]; omega⟩)
              | simp
            · rw [List.getElem?_set_ne hij]
              first
              | (intro st' hst'
                 have := hret i st' hst'
                 exact ⟨this.1, by simp only [List.length_append, List.length_singleton]; omega⟩)
              | exact hto i
              | (intro hw'
                 have := (hwait i hw').1
                 omega)
        · first | exact hle | exact hret | exact hwait | exact hto

/-- **C34 is false** after a time-out: the second send reports success with the late status of the
first; its own envelope was refused. -/
theorem C34_timeout_counterexample :
    run .init [.write, .timeout 0, .answer true, .write, .answer false, .take 1] =
      ⟨[.timedOut, .returned (0, true)], [], [(1, false)], [(0, true)]⟩ := by decide

/-- **C34 is false** of two sends at a time: the second takes the status of the first. -/
theorem C34_concurrent_counterexample :
    run .init [.write, .write, .answer true, .answer false, .take 1, .take 0] =
      ⟨[.returned (1, false), .returned (0, true)], [], [], [(0, true), (1, false)]⟩ := by decide

example : run .init [.write, .answer true, .take 0, .write, .answer false, .take 1] =
    ⟨[.returned (0, true), .returned (1, false)], [], [], [(0, true), (1, false)]⟩ := by decide

end Verif
