import Verif.Model.AgentSend

/-!
# C72: envelopes from the network for the agent

Property: every envelope that the node takes for its agent is given to the agent, once and in order, and an
envelope that arrives when the agent has gone is refused without harm to the node. The order is proved. The
rest is false: the queue is closed when the agent goes, so the next envelope for it crashes the node, and what
was queued is lost. The exact conditions are proved.
-/

namespace Verif

namespace AgentSend

/-- The envelopes in the queue. -/
def waitingOnes (s : AgentSend) : List Envelope := s.queue.filterMap id

/-- **C72, order.** For every schedule: the envelopes accepted from the network are those given to the agent
followed by those in the queue, in this order; nothing is given twice. -/
theorem C72_order (steps : List Step) :
    let s := run connected steps
    s.accepted = s.sent ++ s.waitingOnes := by
  have key : ∀ (steps : List Step) (s : AgentSend), s.accepted = s.sent ++ s.waitingOnes →
      (run s steps).accepted = (run s steps).sent ++ (run s steps).waitingOnes := by
    intro steps
    induction steps with
    | nil => exact fun s h => h
    | cons st steps ih =>
      intro s h
      refine ih _ ?_
      unfold step
      split
      · exact h
      cases st with
      | put e =>
        dsimp only
        split
        · exact h
        · split
          · exact h
          · split
            · simp [waitingOnes, h, List.filterMap_append]
            · exact h
      | take =>
        dsimp only
        split
        · rename_i hq; simp_all [waitingOnes]
        · rename_i hq; simp_all [waitingOnes]
        · split <;> exact h
        · exact h
      | sent => dsimp only; split <;> exact h
      | callStop => exact h
      | stop i =>
        dsimp only
        split
        · split
          · exact h
          · split
            · exact h
            · split
              · simpa [waitingOnes, List.filterMap_append] using h
              · exact h
        · exact h
        · split <;> exact h
        · split <;> exact h
        · exact h
  exact key steps connected rfl

/-- A call of `Stop` has begun to act. -/
def Begun (s : AgentSend) : Prop := ∃ c ∈ s.stops, c ≠ .start

/-- What holds as long as `Stop` is called at most once. -/
structure Once (s : AgentSend) : Prop where
  one : s.stops.length ≤ 1
  regular : s.standalone = false
  closing : s.closing = true ↔ ∃ c ∈ s.stops, c = .flagged ∨ c = .outClosed ∨ c = .done
  out : s.outClosed = true ↔ ∃ c ∈ s.stops, c = .outClosed ∨ c = .done
  send : s.sendClosed = true ↔ .done ∈ s.stops
  room : s.queue.length ≤ 100
  nil : none ∈ s.queue → Begun s
  ended : s.loop = .ended → Begun s

/-- `Stop` is called at most once. -/
def CalledOnce (steps : List Step) : Prop := steps.count .callStop ≤ 1

theorem stops_single {s : AgentSend} (h1 : s.stops.length ≤ 1) {i : Nat} {c : StopCall}
    (hi : s.stops[i]? = some c) : i = 0 ∧ s.stops = [c] := by
  obtain ⟨hl, hc⟩ := List.getElem?_eq_some_iff.1 hi
  have : i = 0 := by omega
  subst this
  match hs : s.stops with
  | [] => simp [hs] at hl
  | [d] => simp [hs] at hc; simp [hc]
  | _ :: _ :: _ => simp [hs] at h1

theorem once_step {s : AgentSend} (st : Step) (h : Once s) (hc : st = .callStop → s.stops = []) :
    Once (s.step st) := by
  unfold step
  split
  · exact h
  obtain ⟨h1, h2, h3, h4, h5, h6, h7, h8⟩ := h
  cases st with
  | put e =>
    dsimp only
    split
    · exact ⟨h1, h2, h3, h4, h5, h6, h7, h8⟩
    · split
      · exact ⟨h1, h2, h3, h4, h5, h6, h7, h8⟩
      · split
        · refine ⟨h1, h2, h3, h4, h5, by simp; omega, ?_, h8⟩
          intro hm
          exact h7 (by simpa using hm)
        · exact ⟨h1, h2, h3, h4, h5, h6, h7, h8⟩
  | take =>
    dsimp only
    split
    · rename_i hq
      rw [hq] at h6 h7
      refine ⟨h1, h2, h3, h4, h5, by simp at h6 ⊢; omega, fun hm => h7 (by simp [hm]), by simp⟩
    · rename_i hq
      rw [hq] at h6 h7
      exact ⟨h1, h2, h3, h4, h5, by simp at h6 ⊢; omega, fun hm => h7 (by simp [hm]), fun _ => h7 (by simp)⟩
    · split
      · rename_i hs
        refine ⟨h1, h2, h3, h4, h5, h6, h7, fun _ => ?_⟩
        exact ⟨.done, h5.1 hs, by simp⟩
      · exact ⟨h1, h2, h3, h4, h5, h6, h7, h8⟩
    · exact ⟨h1, h2, h3, h4, h5, h6, h7, h8⟩
  | sent =>
    dsimp only
    split
    · refine ⟨h1, h2, h3, h4, h5, h6, h7, fun hl => ?_⟩
      dsimp only at hl
      split at hl
      · rename_i hcl
        obtain ⟨c, hm, hc'⟩ := h3.1 hcl
        exact ⟨c, hm, by rcases hc' with rfl | rfl | rfl <;> simp⟩
      · simp at hl
    · exact ⟨h1, h2, h3, h4, h5, h6, h7, h8⟩
  | callStop =>
    have hs := hc rfl
    dsimp only
    rw [hs] at h3 h4 h5 ⊢
    refine ⟨by simp, h2, by simpa using h3, by simpa using h4, by simpa using h5, h6, ?_, ?_⟩
    · intro hm
      obtain ⟨c, hm, _⟩ := h7 hm
      rw [hs] at hm; simp at hm
    · intro hm
      obtain ⟨c, hm, _⟩ := h8 hm
      rw [hs] at hm; simp at hm
  | stop i =>
    dsimp only
    split
    · rename_i hi
      obtain ⟨rfl, hs⟩ := stops_single h1 hi
      rw [hs] at h3 h4 h5
      split
      · exact ⟨h1, h2, by rw [hs]; exact h3, by rw [hs]; exact h4, by rw [hs]; exact h5, h6, h7, h8⟩
      · split
        · exact ⟨h1, h2, by rw [hs]; exact h3, by rw [hs]; exact h4, by rw [hs]; exact h5, h6, h7, h8⟩
        · split
          · simp only [moveStop, hs]
            refine ⟨by simp, h2, by simpa using h3, by simpa using h4, by simpa using h5, by simp; omega, ?_, ?_⟩
            · exact fun _ => ⟨.queued, by simp, by simp⟩
            · exact fun _ => ⟨.queued, by simp, by simp⟩
          · exact ⟨h1, h2, by rw [hs]; exact h3, by rw [hs]; exact h4, by rw [hs]; exact h5, h6, h7, h8⟩
    · rename_i hi
      obtain ⟨rfl, hs⟩ := stops_single h1 hi
      rw [hs] at h3 h4 h5
      simp only [moveStop, hs]
      exact ⟨by simp, h2, by simp, by simpa using h4, by simpa using h5, h6,
        fun _ => ⟨.flagged, by simp, by simp⟩, fun _ => ⟨.flagged, by simp, by simp⟩⟩
    · rename_i hi
      obtain ⟨rfl, hs⟩ := stops_single h1 hi
      rw [hs] at h3 h4 h5
      split
      · exact ⟨h1, h2, by rw [hs]; exact h3, by rw [hs]; exact h4, by rw [hs]; exact h5, h6, h7, h8⟩
      · simp only [moveStop, hs]
        exact ⟨by simp, h2, by simpa using h3, by simp, by simpa using h5, h6,
          fun _ => ⟨.outClosed, by simp, by simp⟩, fun _ => ⟨.outClosed, by simp, by simp⟩⟩
    · rename_i hi
      obtain ⟨rfl, hs⟩ := stops_single h1 hi
      rw [hs] at h3 h4 h5
      split
      · exact ⟨h1, h2, by rw [hs]; exact h3, by rw [hs]; exact h4, by rw [hs]; exact h5, h6, h7, h8⟩
      · simp only [moveStop, hs]
        exact ⟨by simp, h2, by simpa using h3, by simpa using h4, by simp, h6,
          fun _ => ⟨.done, by simp, by simp⟩, fun _ => ⟨.done, by simp, by simp⟩⟩
    · exact ⟨h1, h2, h3, h4, h5, h6, h7, h8⟩

theorem stops_step (s : AgentSend) (st : Step) (h : st ≠ .callStop) :
    (s.step st).stops.length = s.stops.length := by
  unfold step
  split
  · rfl
  cases st with
  | put e => dsimp only; split; · rfl
             split; · rfl
             split <;> rfl
  | take =>
    dsimp only
    split
    · rfl
    · rfl
    · split <;> rfl
    · rfl
  | sent => dsimp only; split <;> rfl
  | callStop => exact absurd rfl h
  | stop i =>
    dsimp only
    split
    · split
      · rfl
      · split
        · rfl
        · split <;> simp [moveStop]
    · simp [moveStop]
    · split <;> simp [moveStop]
    · split <;> simp [moveStop]
    · rfl

theorem once_run (steps : List Step) : ∀ (s : AgentSend), Once s →
    s.stops.length + steps.count .callStop ≤ 1 → Once (run s steps) := by
  induction steps with
  | nil => exact fun s h _ => h
  | cons st steps ih =>
    intro s h hc
    have h' := once_step st h (by
      intro he; subst he
      rw [List.count_cons_self] at hc
      exact List.eq_nil_of_length_eq_zero (by omega))
    refine ih _ h' ?_
    by_cases he : st = .callStop
    · subst he
      rw [List.count_cons_self] at hc
      have := h'.one
      omega
    · rw [stops_step s st he]
      rwa [List.count_cons_of_ne (by exact fun h => he h)] at hc

theorem once_connected : Once connected := by
  constructor <;> simp [connected]

theorem crash_step {s : AgentSend} (hO : Once s) (hal : s.crashed = false) (st : Step) :
    (s.step st).crashed = true ↔ s.sendClosed = true ∧ ∃ e, st = .put e := by
  obtain ⟨h1, h2, h3, h4, h5, h6, h7, h8⟩ := hO
  unfold step
  rw [if_neg (by simp [hal])]
  cases st with
  | put e =>
    rw [h2]
    dsimp only
    rw [if_neg (by simp)]
    split
    · rename_i hs; simp [hs]
    · rename_i hs
      split <;> simp [hal, hs]
  | take =>
    dsimp only
    split
    · simp [hal]
    · simp [hal]
    · split <;> simp [hal]
    · simp [hal]
  | sent => dsimp only; split <;> simp [hal]
  | callStop => simp [hal]
  | stop i =>
    simp only [reduceCtorEq, exists_false, and_false, iff_false]
    split
    · rename_i hi
      obtain ⟨rfl, hs⟩ := stops_single h1 hi
      rw [hs] at h5
      have hsc : s.sendClosed = false := by simpa using h5
      rw [h2, if_neg (by simp), if_neg (by simp [hsc])]
      split <;> simp [hal]
    · simp [hal]
    · rename_i hi
      obtain ⟨rfl, hs⟩ := stops_single h1 hi
      rw [hs] at h4
      have hoc : s.outClosed = false := by simpa using h4
      rw [if_neg (by simp [hoc])]
      simp [hal]
    · rename_i hi
      obtain ⟨rfl, hs⟩ := stops_single h1 hi
      rw [hs] at h5
      have hsc : s.sendClosed = false := by simpa using h5
      rw [if_neg (by simp [hsc])]
      simp [hal]
    · simp [hal]

theorem run_append_agent (s : AgentSend) (a b : List Step) : run s (a ++ b) = run (run s a) b :=
  List.foldl_append ..

/-- **C72, crash, partial.** If `Stop` is called at most once, a step crashes the node exactly if it is an
envelope for the agent and the call of `Stop` has ended. Missing: this should not happen at all. -/
theorem C72_crash_iff_partial (steps : List Step) (hc : CalledOnce steps)
    (hal : (run connected steps).crashed = false) (st : Step) :
    ((run connected steps).step st).crashed = true ↔
      .done ∈ (run connected steps).stops ∧ ∃ e, st = .put e := by
  have hO := once_run steps connected once_connected (by simpa [connected, CalledOnce] using hc)
  rw [crash_step hO hal, hO.send]

/-- **C72, no crash, partial.** As long as the agent is there, that is, `Stop` has not been called, nothing
crashes the node, the loop goes on, and all the envelopes accepted were given to the agent or wait; an
envelope waits to be accepted only if 100 are in the queue. -/
theorem C72_agent_there_partial (steps : List Step) (hc : .callStop ∉ steps) :
    let s := run connected steps
    s.crashed = false ∧ s.closing = false ∧ s.loop ≠ .ended ∧ s.queue.length ≤ 100 ∧
    (∀ v ∈ s.queue, v ≠ none) ∧
    ∀ e, s.accepted.length < (s.step (.put e)).accepted.length ↔ s.queue.length < 100 := by
  have hcount : steps.count .callStop = 0 := List.count_eq_zero.2 hc
  have hO := once_run steps connected once_connected (by simp [connected, hcount])
  have hstops : ∀ (steps : List Step) (s : AgentSend), .callStop ∉ steps → s.stops = [] →
      Once s → s.crashed = false → (run s steps).stops = [] ∧ (run s steps).crashed = false := by
    intro steps
    induction steps with
    | nil => intro s _ h _ h'; exact ⟨h, h'⟩
    | cons st steps ih =>
      intro s hn h hO h'
      have hne : st ≠ .callStop := fun he => hn (by simp [he])
      refine ih _ (fun hm => hn (by simp [hm])) ?_ (once_step st hO (fun he => absurd he hne)) ?_
      · have := stops_step s st hne
        rw [h] at this
        exact List.eq_nil_of_length_eq_zero this
      · cases hcr : (s.step st).crashed with
        | false => rfl
        | true =>
          have := (crash_step hO h' st).1 hcr
          have := hO.send.1 this.1
          rw [h] at this; simp at this
  obtain ⟨hs, hcr⟩ := hstops steps connected hc rfl once_connected rfl
  have hnb : ¬ Begun (run connected steps) := by
    rintro ⟨c, hm, _⟩; rw [hs] at hm; simp at hm
  have hsc : (run connected steps).sendClosed = false := by
    cases h : (run connected steps).sendClosed with
    | false => rfl
    | true => have := hO.send.1 h; rw [hs] at this; simp at this
  have hcl : (run connected steps).closing = false := by
    cases h : (run connected steps).closing with
    | false => rfl
    | true => obtain ⟨c, hm, _⟩ := hO.closing.1 h; rw [hs] at hm; simp at hm
  refine ⟨hcr, hcl, fun h => hnb (hO.ended h), hO.room, ?_, ?_⟩
  · rintro v hv rfl; exact hnb (hO.nil hv)
  · intro e
    unfold step
    rw [if_neg (by simp [hcr])]
    dsimp only
    rw [hO.regular, if_neg (by simp), if_neg (by simp [hsc])]
    split <;> simp_all

/-- The loop sends what waits: as often as needed, a send ends and the loop takes the next. -/
def drain (n : Nat) : List Step := (List.replicate n [Step.sent, Step.take]).flatten

theorem drain_run (q : List Envelope) : ∀ (s : AgentSend), s.crashed = false → s.closing = false →
    s.loop ≠ .ended → s.queue = q.map some → (run s (drain q.length)).sent = s.sent ++ q := by
  induction q with
  | nil => intro s _ _ _ _; simp [drain, run]
  | cons e q ih =>
    intro s h1 h2 h3 h4
    have hstep : ((s.step .sent).step .take) =
        { s with loop := .sending e, queue := q.map some, sent := s.sent ++ [e] } := by
      have hsent : s.step .sent = { s with loop := .waiting } := by
        simp only [step, h1, Bool.false_eq_true, if_false]
        cases hl : s.loop with
        | waiting => obtain ⟨_, _, _, _, _, _, _, _, _, _⟩ := s; simp_all
        | sending e' => simp [h2]
        | ended => exact absurd hl h3
      rw [hsent]
      simp [step, h1, h4]
    show (run ((s.step .sent).step .take) (drain q.length)).sent = _
    rw [hstep]
    have := ih { s with loop := .sending e, queue := q.map some, sent := s.sent ++ [e] } h1 h2 (by simp) rfl
    rw [this]
    simp

/-- **C72, delivery, partial.** As long as the agent is there, every envelope accepted is given to it once the
loop has gone on: if every send ends, all of them are, in order. -/
theorem C72_delivered_partial (steps : List Step) (hc : .callStop ∉ steps) :
    let s := run connected steps
    (run s (drain s.queue.length)).sent = s.accepted := by
  obtain ⟨h1, h2, h3, _, h5, _⟩ := C72_agent_there_partial steps hc
  have ho := C72_order steps
  dsimp only at *
  have hq : ∀ (q : List (Option Envelope)), (∀ v ∈ q, v ≠ none) → q = (q.filterMap id).map some := by
    intro q
    induction q with
    | nil => intro _; rfl
    | cons v q ih =>
      intro h
      cases v with
      | none => exact absurd rfl (h none (by simp))
      | some e => simpa using ih (fun v hv => h v (by simp [hv]))
  have hq' := hq _ h5
  have hlen : (run connected steps).queue.length = ((run connected steps).queue.filterMap id).length := by
    conv => lhs; rw [hq']
    simp
  rw [hlen, drain_run _ _ h1 h2 h3 hq', ho]
  rfl

/-- **C72, a node without agent.** Calls of `Put` are refused and change nothing. -/
theorem C72_alone (es : List Envelope) : run alone (es.map .put) = alone := by
  induction es with
  | nil => rfl
  | cons e es ih => exact ih

/-! ## Cases -/

namespace Demo

/-- An envelope. -/
def env (m : Bytes) : Envelope := ⟨b! "ag", b! "bob", b! "p", m, []⟩

/-- `Stop` called and run to its end. -/
def stopped : List Step := [.callStop, .stop 0, .stop 0, .stop 0, .stop 0]

end Demo

open Demo in
example : (run connected [.put (env (b! "1")), .put (env (b! "2")), .take, .sent, .take]).sent =
    [env (b! "1"), env (b! "2")] := by decide

open Demo in
/-- **C72 is false**: once the agent has gone, the next envelope for it crashes the node. -/
theorem C72_counterexample :
    (run connected stopped).crashed = false ∧
    (run connected (stopped ++ [.put (env (b! "1"))])).crashed = true := by decide

open Demo in
/-- **C72 is false** also of the envelopes accepted before: one that waits when the agent goes is never given
to it, although `Put` reported success, even if sending is still possible. -/
theorem C72_lost :
    let s := run connected ([.put (env (b! "1")), .put (env (b! "2")), .take] ++ stopped ++ [.sent])
    s.crashed = false ∧ s.loop = .ended ∧ s.accepted = [env (b! "1"), env (b! "2")] ∧
      s.sent = [env (b! "1")] := by decide

/-- Two calls of `Stop` crash the node. -/
theorem C72_stop_twice : ∃ steps : List Step, (∀ st ∈ steps, ∀ e, st ≠ .put e) ∧
    (run connected steps).crashed = true :=
  ⟨[.callStop, .callStop, .stop 0, .stop 0, .stop 0, .stop 0, .stop 1], by simp, by decide⟩

end AgentSend

end Verif
