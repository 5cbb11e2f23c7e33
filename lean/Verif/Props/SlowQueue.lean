import Verif.Props.LookupTime
import Verif.Props.Routing

/-!
# C99: the slow queue
-/

namespace Verif

open SlowQueue

/-- What holds of the slow queue at any time. -/
structure SlowQueue.Good (q : SlowQueue) : Prop where
  order : q.called = q.tried ++ q.queue ++ q.waiting
  size : q.queue.length ≤ 100
  full : q.waiting ≠ [] → q.queue.length = 100
  last : ∀ e, q.holding = some e → q.tried.getLast? = some e

theorem SlowQueue.Good.step {q : SlowQueue} (h : q.Good) (s : SlowStep) : (q.step s).Good := by
  cases s with
  | call e =>
    unfold SlowQueue.step
    by_cases hq : q.queue.length < capacity
    · simp only [if_pos hq]
      have hw : q.waiting = [] := by
        by_cases hw : q.waiting = []
        · exact hw
        · have := h.full hw
          change q.queue.length < 100 at hq
          omega
      refine ⟨?_, ?_, fun hne => absurd hw hne, h.last⟩
      · simp [h.order, hw]
      · change q.queue.length < 100 at hq
        rw [List.length_append, List.length_singleton]; omega
    · simp only [if_neg hq]
      refine ⟨?_, h.size, fun _ => ?_, h.last⟩
      · simp [h.order]
      · have := h.size
        change ¬ q.queue.length < 100 at hq
        show q.queue.length = 100
        omega
  | take =>
    simp only [SlowQueue.step]
    split
    · next e rest hh hq =>
      have hlen := h.size
      rw [hq, List.length_cons] at hlen
      cases hw : q.waiting with
      | nil =>
        refine ⟨?_, ?_, fun hne => absurd rfl hne, ?_⟩
        · simp [h.order, hq, hw]
        · show rest.length ≤ 100
          omega
        · intro e' he'
          cases he'
          simp
      | cons w ws =>
        have hf := h.full (by rw [hw]; simp)
        rw [hq, List.length_cons] at hf
        refine ⟨?_, ?_, fun _ => ?_, ?_⟩
        · simp [h.order, hq, hw]
        · show (rest ++ [w]).length ≤ 100
          rw [List.length_append, List.length_singleton]; omega
        · show (rest ++ [w]).length = 100
          rw [List.length_append, List.length_singleton]; omega
        · intro e' he'
          cases he'
          simp
    · exact h
  | finish => exact ⟨h.order, h.size, h.full, fun e he => by cases he⟩

theorem SlowQueue.Good.run {q : SlowQueue} (h : q.Good) : ∀ ss, (q.run ss).Good
  | [] => h
  | s :: ss => by
    rw [SlowQueue.run, List.foldl_cons]
    exact SlowQueue.Good.run (h.step s) ss

/-- **C99.** At any time, the envelopes for which `RouteEnvelope` has come to the slow queue are: those that the
loop has taken, those in the queue and those of waiting calls, in this order; the queue never has more than 100,
calls wait only while it is full, and what the loop is sending is what it took last. So every envelope is taken at
most once per call, in the order of the calls, and none is lost while the peer runs. -/
theorem C99_slow_order (ss : List SlowStep) :
    (init.run ss).called = (init.run ss).tried ++ (init.run ss).queue ++ (init.run ss).waiting ∧
    (init.run ss).queue.length ≤ 100 ∧
    ((init.run ss).waiting ≠ [] → (init.run ss).queue.length = 100) ∧
    ∀ e, (init.run ss).holding = some e → (init.run ss).tried.getLast? = some e := by
  have h : (init.run ss).Good :=
    SlowQueue.Good.run ⟨rfl, Nat.zero_le _, fun h => absurd rfl h, fun e h => by cases h⟩ ss
  exact ⟨h.order, h.size, h.full, h.last⟩

/-- The calls of a history. -/
def slowCalls : List SlowStep → List Envelope
  | [] => []
  | .call e :: ss => e :: slowCalls ss
  | _ :: ss => slowCalls ss

theorem slowQueue_called (q : SlowQueue) : ∀ ss, (q.run ss).called = q.called ++ slowCalls ss
  | [] => by simp [SlowQueue.run, slowCalls]
  | s :: ss => by
    rw [SlowQueue.run, List.foldl_cons]
    have ih := slowQueue_called (q.step s) ss
    rw [SlowQueue.run] at ih
    rw [ih]
    cases s with
    | call e =>
      simp only [SlowQueue.step]
      split <;> simp [slowCalls]
    | take =>
      simp only [SlowQueue.step, slowCalls]
      split
      · split <;> rfl
      · rfl
    | finish => rfl

/-- The record of calls is that of the history: nothing else comes into the queue. -/
theorem C99_slow_called (ss : List SlowStep) : (init.run ss).called = slowCalls ss := by
  rw [slowQueue_called]; rfl

theorem slowQueue_round (q : SlowQueue) (hq : q.Good) :
    (q.queue = [] ∧ q.waiting = [] ∧ (q.run [.finish, .take]).tried = q.tried ∧
      (q.run [.finish, .take]).queue = [] ∧ (q.run [.finish, .take]).waiting = []) ∨
    ((q.run [.finish, .take]).tried.length = q.tried.length + 1 ∧
      (q.run [.finish, .take]).queue.length + (q.run [.finish, .take]).waiting.length + 1 =
        q.queue.length + q.waiting.length) := by
  obtain ⟨queue, waiting, holding, called, tried⟩ := q
  cases queue with
  | nil =>
    cases waiting with
    | nil => exact .inl ⟨rfl, rfl, rfl, rfl, rfl⟩
    | cons w ws =>
      have := hq.full (by simp)
      simp at this
  | cons e rest =>
    right
    cases waiting with
    | nil => simp [SlowQueue.run, SlowQueue.step]
    | cons w ws => simp [SlowQueue.run, SlowQueue.step]; omega

/-- **C99.** If the attempts of the loop end, every envelope gets its turn: after as many of them as there are
envelopes in the queue and calls that wait, all have been tried and all calls have returned. -/
theorem C99_slow_progress (ss : List SlowStep) :
    let q := init.run ss
    let q' := q.run (List.replicate (q.queue.length + q.waiting.length) [.finish, .take]).flatten
    q'.tried = q.called ∧ q'.queue = [] ∧ q'.waiting = [] := by
  have key : ∀ (n : Nat) (q : SlowQueue), q.Good → q.queue.length + q.waiting.length = n →
      (q.run (List.replicate n [.finish, .take]).flatten).tried = q.called ∧
      (q.run (List.replicate n [.finish, .take]).flatten).queue = [] ∧
      (q.run (List.replicate n [.finish, .take]).flatten).waiting = [] := by
    intro n
    induction n with
    | zero =>
      intro q hq hn
      have h1 : q.queue = [] := List.eq_nil_of_length_eq_zero (by omega)
      have h2 : q.waiting = [] := List.eq_nil_of_length_eq_zero (by omega)
      refine ⟨?_, h1, h2⟩
      show q.tried = q.called
      rw [hq.order, h1, h2]; simp
    | succ n ih =>
      intro q hq hn
      have hr : q.run (List.replicate (n + 1) [.finish, .take]).flatten =
          (q.run [.finish, .take]).run (List.replicate n [.finish, .take]).flatten := by
        rw [List.replicate_succ, List.flatten_cons, SlowQueue.run, List.foldl_append]
        rfl
      have hc : (q.run [.finish, .take]).called = q.called := by
        rw [slowQueue_called]; simp [slowCalls]
      rcases slowQueue_round q hq with ⟨h1, h2, _⟩ | ⟨_, h2⟩
      · rw [h1, h2] at hn; simp at hn
      · rw [hr, ← hc]
        exact ih _ (hq.run _) (by omega)
  intro q q'
  exact key _ q
    (SlowQueue.Good.run ⟨rfl, Nat.zero_le _, fun h => absurd rfl h, fun e h => by cases h⟩ ss) rfl

/-- **C99 is false: the slow queue.** While one attempt of the loop does not end, nothing else is tried, whatever
happens, and all but 100 of the calls that come to the slow queue wait with it. -/
theorem C99_stuck_counterexample (ss ss' : List SlowStep) (e : Envelope)
    (hold : (init.run ss).holding = some e) (hs : SlowStep.finish ∉ ss') :
    ((init.run ss).run ss').tried = (init.run ss).tried ∧
    ((init.run ss).run ss').holding = some e ∧
    ((init.run ss).run ss').waiting.length =
      ((init.run ss).queue.length + (init.run ss).waiting.length + (slowCalls ss').length) - 100 := by
  have hg : (init.run ss).Good :=
    SlowQueue.Good.run ⟨rfl, Nat.zero_le _, fun h => absurd rfl h, fun e h => by cases h⟩ ss
  generalize init.run ss = q at hold hg
  have hg' := hg.run ss'
  have hc := slowQueue_called q ss'
  have key : ∀ (l : List SlowStep) (q : SlowQueue), q.holding = some e → SlowStep.finish ∉ l →
      (q.run l).tried = q.tried ∧ (q.run l).holding = some e := by
    intro l
    induction l with
    | nil => intro q h _; exact ⟨rfl, h⟩
    | cons s l ih =>
      intro q h hl
      rw [SlowQueue.run, List.foldl_cons]
      have hl' : SlowStep.finish ∉ l := fun h => hl (List.mem_cons_of_mem _ h)
      cases s with
      | finish => exact absurd List.mem_cons_self hl
      | take =>
        have : q.step .take = q := by
          unfold SlowQueue.step
          rw [h]
        rw [this]
        exact ih q h hl'
      | call e' =>
        have h1 : (q.step (.call e')).holding = some e := by
          simp only [SlowQueue.step]
          split <;> exact h
        have h2 : (q.step (.call e')).tried = q.tried := by
          simp only [SlowQueue.step]
          split <;> rfl
        obtain ⟨h3, h4⟩ := ih _ h1 hl'
        exact ⟨h3.trans h2, h4⟩
  obtain ⟨h1, h2⟩ := key ss' q hold hs
  refine ⟨h1, h2, ?_⟩
  have ho := hg'.order
  have hsize := hg'.size
  have hfull := hg'.full
  rw [hc, hg.order, h1] at ho
  have hlen := congrArg List.length ho
  simp only [List.length_append] at hlen
  by_cases hw : (q.run ss').waiting = []
  · rw [hw] at hlen ⊢
    simp only [List.length_nil] at hlen ⊢
    omega
  · have := hfull hw
    omega

/-! ## How long an envelope waits in the slow queue -/

/-- The time that the attempts take, if they all end. -/
def totalTime : List (Nat × Option Nat) → Option Nat
  | [] => some 0
  | (_, none) :: _ => none
  | (_, some d) :: rest => (totalTime rest).map (d + ·)

theorem slowStarts_none : ∀ l, ∀ x ∈ slowStarts none l, x = none
  | [], x, h => by cases h
  | _ :: l, x, h => by
    rw [slowStarts] at h
    rcases List.mem_cons.1 h with h | h
    · exact h
    · exact slowStarts_none l x h

/-- **C99.** An envelope in the slow queue is tried exactly if the attempts for all envelopes before it end. It then
waits for all of them: the loop starts with it not before they have taken their time, and, if the envelopes came in
the order of their times, not later than that. -/
theorem C99_slow_wait (call : Nat) (d : Option Nat) :
    ∀ (before after : List (Nat × Option Nat)) (free : Nat),
      ∃ start, (slowStarts (some free) (before ++ (call, d) :: after))[before.length]? = some start ∧
        (start = none ↔ totalTime before = none) ∧
        ∀ t w, start = some t → totalTime before = some w →
          call ≤ t ∧ free + w ≤ t ∧ ((∀ b ∈ before, b.1 ≤ call) → t ≤ max free call + w)
  | [], after, free => by
    refine ⟨some (max free call), rfl, by simp [totalTime], ?_⟩
    intro t w ht hw
    cases ht; cases hw
    exact ⟨by omega, by omega, fun _ => by omega⟩
  | (c, none) :: before, after, free => by
    refine ⟨none, ?_, by simp [totalTime], fun t w h => by cases h⟩
    rw [List.cons_append, slowStarts, List.length_cons, List.getElem?_cons_succ, Option.map_none]
    have hlen : ∀ l, (slowStarts none l).length = l.length := by
      intro l
      induction l with
      | nil => rfl
      | cons a l ih => rw [slowStarts, List.length_cons, ih, List.length_cons]
    have hlt : before.length < (slowStarts none (before ++ (call, d) :: after)).length := by
      rw [hlen]; simp
    rw [List.getElem?_eq_getElem hlt]
    rw [slowStarts_none _ _ (List.getElem_mem hlt)]
  | (c, some x) :: before, after, free => by
    obtain ⟨start, h1, h2, h3⟩ := C99_slow_wait call d before after (max free c + x)
    refine ⟨start, ?_, ?_, ?_⟩
    · rw [List.cons_append, slowStarts, List.length_cons, List.getElem?_cons_succ, Option.map_some]
      exact h1
    · rw [h2, totalTime]
      cases totalTime before <;> simp
    · intro t w ht hw
      rw [totalTime] at hw
      cases hb : totalTime before with
      | none => rw [hb] at hw; cases hw
      | some w' =>
        rw [hb, Option.map_some, Option.some.injEq] at hw
        obtain ⟨g1, g2, g3⟩ := h3 t w' ht hb
        refine ⟨g1, by omega, fun hall => ?_⟩
        have hc : c ≤ call := hall (c, some x) List.mem_cons_self
        have := g3 fun b hb => hall b (List.mem_cons_of_mem _ hb)
        omega

/-- **C99 is false: the wait.** Envelopes to addresses that nobody provides, which any agent can send and of which
each is tried for 20 s (`C99_absent`), hold up an envelope behind them for 20 s each. -/
theorem C99_wait_counterexample (call : Nat) (d : Option Nat) (before after : List (Nat × Option Nat)) (free : Nat)
    (h : ∀ b ∈ before, ∃ x, b.2 = some x ∧ 20000 ≤ x) :
    ∃ t, (slowStarts (some free) (before ++ (call, d) :: after))[before.length]? = some (some t) ∧
      free + 20000 * before.length ≤ t := by
  have hw : ∃ w, totalTime before = some w ∧ 20000 * before.length ≤ w := by
    clear call d after free
    induction before with
    | nil => exact ⟨0, rfl, Nat.le_refl _⟩
    | cons b before ih =>
      obtain ⟨w, h1, h2⟩ := ih fun b hb => h b (List.mem_cons_of_mem _ hb)
      obtain ⟨c, x'⟩ := b
      obtain ⟨x, hx, hx2⟩ := h (c, x') List.mem_cons_self
      dsimp only at hx
      subst hx
      refine ⟨x + w, by rw [totalTime, h1]; rfl, ?_⟩
      rw [List.length_cons, Nat.mul_succ]; omega
  obtain ⟨w, hw1, hw2⟩ := hw
  obtain ⟨start, h1, h2, h3⟩ := C99_slow_wait call d before after free
  cases start with
  | none => rw [h2.1 rfl] at hw1; cases hw1
  | some t =>
    obtain ⟨_, h4, _⟩ := h3 t w rfl hw1
    exact ⟨t, h1, by omega⟩

/-- **C99.** An attempt for an address that nobody provides takes the whole 20 s of the loop, and 3 s in
`RouteEnvelope` itself. -/
theorem C99_absent_attempt (s : PeerState) (n : Net) (tn : NetTimes) (start timeout : Nat) (e : Envelope)
    (record : Option AgentRecord) (hrec : envelopeRecord s e = some record) (hcid : n.cid = true)
    (hnone : ∀ r ∈ tn.rounds, r.providers = [])
    (hctx : ∀ r ∈ tn.rounds, r.closes ≤ start + min timeout 20000)
    (hlen : timeout + 200 ≤ 200 * tn.rounds.length) :
    ∃ t, timedAttempt s n tn start timeout e = some (t, .err) ∧
      start + min timeout 20000 ≤ t ∧ t < start + min timeout 20000 + 200 := by
  obtain ⟨t, h1, h2, h3⟩ := C99_absent n.por n.idFrom e.to start timeout tn.rounds hnone hctx hlen
  refine ⟨t, ?_, h2, h3⟩
  unfold timedAttempt
  rw [hrec, hcid]
  dsimp only
  rw [h1]

namespace SlowDemo

/-- An envelope. -/
def env (n : Nat) : Envelope := RouteDemo.env [UInt8.ofNat n]

/-- A provider that opens a stream after 50 ms and never answers. -/
def silent : TimedProvider := ⟨⟨b! "pk", some ⟨[none], [true], []⟩⟩, 10, some 50, none⟩

/-- The same provider, closing the stream after 70 ms. -/
def closing : TimedProvider := { silent with answer := some 70 }

end SlowDemo

/-- Concrete cases: nobody provides the address and the search for providers takes 100 ms each time; a provider
closes the stream without an answer; a provider never answers. -/
example :
    timedLookup (fun _ _ _ => .ok .success) some true (b! "far") 1000 fastLookupTimeout
      ((List.range 20).map fun i => ⟨[], 1100 + 300 * i⟩) = some (4100, .error) ∧
    timedLookup (fun _ _ _ => .ok .success) some true (b! "far") 1000 fastLookupTimeout
      [⟨[SlowDemo.closing], 1100⟩] = some (1120, .found [] none) ∧
    timedLookup (fun _ _ _ => .ok .success) some true (b! "far") 1000 fastLookupTimeout
      [⟨[SlowDemo.silent], 1100⟩] = none := by decide +kernel

/-- Concrete case: the loop takes the first of three envelopes; then it is done with it and takes the next. -/
example :
    (SlowQueue.init.run [.call (SlowDemo.env 1), .call (SlowDemo.env 2), .take, .call (SlowDemo.env 3), .take,
      .finish, .take]).tried = [SlowDemo.env 1, SlowDemo.env 2] ∧
    slowStarts (some 0) [(5, some 20000), (6, some 30), (7, none), (8, some 1)] =
      [some 5, some 20005, some 20035, none] := by decide +kernel

end Verif
