import Verif.Props.AgentSend

/-!
# C72: `Stop` is final

Whatever the schedule, at most one call of `Stop` returns, and when one has returned, every further `Put` and every
other call of `Stop` ends the process.
-/

namespace Verif

open AgentSend

/-- What holds in every state of an agent that was connected: the flags tell how far the calls of `Stop` are. -/
structure AgentSend.StopFlags (s : AgentSend) : Prop where
  connected : s.standalone = false
  send : s.sendClosed = true ↔ .done ∈ s.stops
  out : s.outClosed = true ↔ .outClosed ∈ s.stops ∨ .done ∈ s.stops
  one : (s.stops.filter fun p => p == .outClosed || p == .done).length ≤ 1

theorem mem_set_other {l : List StopCall} {i : Nat} {p q x : StopCall} (hi : l[i]? = some p) (hx : x ≠ p) (hq : x ≠ q) :
    x ∈ l.set i q ↔ x ∈ l := by
  constructor
  · intro h
    rcases List.mem_or_eq_of_mem_set h with h | h
    · exact h
    · exact absurd h hq
  · intro h
    obtain ⟨j, hj⟩ := List.mem_iff_getElem?.1 h
    refine List.mem_iff_getElem?.2 ⟨j, ?_⟩
    rw [List.getElem?_set_ne]
    · exact hj
    · rintro rfl
      rw [hi] at hj
      cases hj
      exact hx rfl

theorem mem_set_new {l : List StopCall} {i : Nat} {p q : StopCall} (hi : l[i]? = some p) : q ∈ l.set i q := by
  have hlt : i < l.length := (List.getElem?_eq_some_iff.1 hi).1
  exact List.mem_iff_getElem?.2 ⟨i, by rw [List.getElem?_set_self hlt]⟩

theorem filter_set_length (f : StopCall → Bool) :
    ∀ (l : List StopCall) (i : Nat) (p q : StopCall), l[i]? = some p →
      ((l.set i q).filter f).length + (if f p then 1 else 0) = (l.filter f).length + (if f q then 1 else 0)
  | [], i, p, q, h => by cases h
  | a :: l, 0, p, q, h => by
    cases h
    simp only [List.set_cons_zero, List.filter_cons]
    cases f q <;> cases f a <;> simp
  | a :: l, i + 1, p, q, h => by
    have ih := filter_set_length f l i p q h
    simp only [List.set_cons_succ, List.filter_cons]
    cases f a <;> simp <;> omega

theorem stopFlags_step {s : AgentSend} (h : s.StopFlags) (st : AgentSend.Step) : (s.step st).StopFlags := by
  have same : ∀ {s' : AgentSend}, s'.standalone = s.standalone → s'.sendClosed = s.sendClosed →
      s'.outClosed = s.outClosed → s'.stops = s.stops → s'.StopFlags := by
    intro s' h1 h2 h3 h4
    exact ⟨h1.trans h.connected, by rw [h2, h4]; exact h.send, by rw [h3, h4]; exact h.out, by rw [h4]; exact h.one⟩
  unfold AgentSend.step
  split
  · exact h
  · split
    · split
      · exact h
      · split
        · exact same rfl rfl rfl rfl
        · split
          · exact same rfl rfl rfl rfl
          · exact h
    · split
      · exact same rfl rfl rfl rfl
      · exact same rfl rfl rfl rfl
      · split
        · exact same rfl rfl rfl rfl
        · exact h
      · exact h
    · split
      · exact same rfl rfl rfl rfl
      · exact h
    · refine ⟨h.connected, ?_, ?_, ?_⟩
      · simpa using h.send
      · simpa using h.out
      · simpa using h.one
    · next i =>
      split
      · next hi =>
        split
        · exact h
        · split
          · exact same rfl rfl rfl rfl
          · split
            · refine ⟨h.connected, ?_, ?_, ?_⟩
              · simp only [moveStop, mem_set_other hi (x := .done) (q := .queued) (by decide) (by decide)]
                exact h.send
              · simp only [moveStop, mem_set_other hi (x := .done) (q := .queued) (by decide) (by decide),
                  mem_set_other hi (x := .outClosed) (q := .queued) (by decide) (by decide)]
                exact h.out
              · have := filter_set_length (fun p => p == .outClosed || p == .done) _ _ _ .queued hi
                have h1 := h.one
                simp only [moveStop]
                simp at this h1 ⊢
                omega
            · exact h
      · next hi =>
        refine ⟨h.connected, ?_, ?_, ?_⟩
        · simp only [moveStop, mem_set_other hi (x := .done) (q := .flagged) (by decide) (by decide)]
          exact h.send
        · simp only [moveStop, mem_set_other hi (x := .done) (q := .flagged) (by decide) (by decide),
            mem_set_other hi (x := .outClosed) (q := .flagged) (by decide) (by decide)]
          exact h.out
        · have := filter_set_length (fun p => p == .outClosed || p == .done) _ _ _ .flagged hi
          have h1 := h.one
          simp only [moveStop]
          simp at this h1 ⊢
          omega
      · next hi =>
        split
        · exact same rfl rfl rfl rfl
        · next ho =>
          refine ⟨h.connected, ?_, ?_, ?_⟩
          · simp only [moveStop, mem_set_other hi (x := .done) (q := .outClosed) (by decide) (by decide)]
            exact h.send
          · simp only [moveStop, true_iff]
            exact .inl (mem_set_new hi)
          · have := filter_set_length (fun p => p == .outClosed || p == .done) _ _ _ .outClosed hi
            have h0 : s.stops.filter (fun p => p == .outClosed || p == .done) = [] := by
              rw [List.filter_eq_nil_iff]
              intro x hx hc
              rw [h.out] at ho
              simp at hc
              rcases hc with rfl | rfl
              · exact ho (.inl hx)
              · exact ho (.inr hx)
            rw [h0] at this
            simp only [moveStop]
            simp at this ⊢
            omega
      · next hi =>
        split
        · exact same rfl rfl rfl rfl
        · next ho =>
          refine ⟨h.connected, ?_, ?_, ?_⟩
          · simp only [moveStop, true_iff]
            exact mem_set_new hi
          · simp only [moveStop]
            constructor
            · intro _; exact .inr (mem_set_new hi)
            · intro _; exact h.out.2 (.inl (List.mem_of_getElem? hi))
          · have := filter_set_length (fun p => p == .outClosed || p == .done) _ _ _ .done hi
            have h1 := h.one
            simp only [moveStop]
            simp at this h1 ⊢
            omega
      · exact h

theorem stopFlags_run (steps : List AgentSend.Step) : (run connected steps).StopFlags := by
  have : ∀ (steps : List AgentSend.Step) (s : AgentSend), s.StopFlags → (run s steps).StopFlags := by
    intro steps
    induction steps with
    | nil => intro s h; exact h
    | cons st steps ih => intro s h; exact ih _ (stopFlags_step h st)
  exact this steps _ ⟨rfl, by simp [connected], by simp [connected], by simp [connected]⟩

/-- **C72.** Whatever the schedule and however often `Stop` is called, at most one call of it returns. -/
theorem C72_one_stop_returns (steps : List AgentSend.Step) (i j : Nat)
    (hi : (run connected steps).stops[i]? = some .done) (hj : (run connected steps).stops[j]? = some .done) : i = j := by
  have h := (stopFlags_run steps).one
  generalize (run connected steps).stops = l at hi hj h
  have two : ∀ (l : List StopCall) (i j : Nat), l[i]? = some .done → l[j]? = some .done → i < j →
      2 ≤ (l.filter fun p => p == .outClosed || p == .done).length := by
    intro l
    induction l with
    | nil => intro i j hi; cases hi
    | cons a l ih =>
      intro i j hi hj hij
      cases j with
      | zero => omega
      | succ j =>
        rw [List.getElem?_cons_succ] at hj
        cases i with
        | zero =>
          cases hi
          have : .done ∈ l.filter fun p => p == .outClosed || p == .done :=
            List.mem_filter.2 ⟨List.mem_of_getElem? hj, rfl⟩
          have := List.length_pos_of_mem this
          rw [List.filter_cons_of_pos (by rfl), List.length_cons]
          omega
        | succ i =>
          rw [List.getElem?_cons_succ] at hi
          have := ih i j hi hj (by omega)
          rw [List.filter_cons]
          split <;> simp <;> omega
  rcases Nat.lt_trichotomy i j with hlt | he | hlt
  · have := two l i j hi hj hlt; omega
  · exact he
  · have := two l j i hj hi hlt; omega

/-- **C72.** When a call of `Stop` has returned, the next `Put` ends the process, and so does every other call of
`Stop` that has not ended it, wherever it is: after at most two further steps of it. -/
theorem C72_after_stop (steps : List AgentSend.Step) (i : Nat)
    (hi : (run connected steps).stops[i]? = some .done) (hc : (run connected steps).crashed = false) :
    (∀ e, ((run connected steps).step (.put e)).crashed = true) ∧
    (∀ (j : Nat) (p : StopCall), j ≠ i → (run connected steps).stops[j]? = some p →
      ((run connected steps).step (.stop j)).crashed = true ∨
      (p = .queued ∧ (((run connected steps).step (.stop j)).step (.stop j)).crashed = true)) := by
  have hf := stopFlags_run steps
  have hone := C72_one_stop_returns steps i
  generalize run connected steps = s at hi hc hf hone
  have hs : s.sendClosed = true := hf.send.2 (List.mem_of_getElem? hi)
  have ho : s.outClosed = true := hf.out.2 (.inr (List.mem_of_getElem? hi))
  refine ⟨fun e => by simp [AgentSend.step, hc, hf.connected, hs], ?_⟩
  intro j p hj hp
  cases p with
  | start => left; simp [AgentSend.step, hc, hp, hf.connected, hs]
  | queued =>
    right
    refine ⟨rfl, ?_⟩
    have hlt : j < s.stops.length := (List.getElem?_eq_some_iff.1 hp).1
    have e : s.step (.stop j) = { s with closing := true, stops := s.stops.set j .flagged } := by
      unfold AgentSend.step
      rw [if_neg (by rw [hc]; simp)]
      simp only [hp, moveStop]
    have hj' : (s.stops.set j .flagged)[j]? = some .flagged := List.getElem?_set_self hlt
    rw [e]
    unfold AgentSend.step
    rw [if_neg (by simp [hc])]
    simp only [hj', ho, if_true]
  | flagged => left; simp [AgentSend.step, hc, hp, ho]
  | outClosed => left; simp [AgentSend.step, hc, hp, hs]
  | done => exact absurd (hone j hi hp).symm hj

/-- Concrete case: two calls of `Stop`, one after the other. -/
example :
    let s := run connected ([.callStop, .callStop] ++ List.replicate 4 (.stop 0))
    (s.stops = [.done, .start] ∧ s.crashed = false) ∧ (s.step (.stop 1)).crashed = true := by
  decide

end Verif
