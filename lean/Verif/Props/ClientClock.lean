import Verif.Props.ClientTime

/-!
# C101: exactly how long a call takes in client mode
-/

namespace Verif

open Acn

/-- Opening a stream takes `t`: attempt `k` is the first that succeeds, the attempts before it failed in time, and
if it is not attempt 0 the agent is registered again. -/
def StreamTimes.Takes (s : StreamTimes) (timeout t : Nat) : Prop :=
  ∃ k p, (s.tries k).result = some (some p) ∧
    (∀ j < k, (s.tries j).result = none ∧ retryTime s.tries j < timeout) ∧
    ((k = 0 ∧ t = (s.tries 0).took) ∨
      (0 < k ∧ s.register.isSome = true ∧
        ∃ r, s.registering = some r ∧ t = retryTime s.tries k + s.registerOpening + r))

/-- Looking up, connecting and sending takes `t`: the stream to the relay, the look-up, and with the peer that was
found the connection, the stream and the status. -/
def ClientTimes.Takes (n : ClientTimes) (peer : Bytes) (t : Nat) : Prop :=
  ∃ t1 l c t2 s, n.relayStream.Takes 300000 t1 ∧ n.lookup = some l ∧ n.connecting peer = some c ∧
    (n.peerStream peer).Takes 60000 t2 ∧ n.status peer = some s ∧ t = t1 + l + c + t2 + s

theorem TimedM.bind_ok {α β : Type} {x : TimedM α} {f : α → TimedM β} {t : Nat} {m : ClientM β} {b : β}
    (h : x.bind f = some (t, m)) (hb : m.2 = .ok b) :
    ∃ t1 acts a t2 m2, x = some (t1, acts, .ok a) ∧ f a = some (t2, m2) ∧ m2.2 = .ok b ∧ t = t1 + t2 := by
  cases x with
  | none => cases h
  | some x =>
    obtain ⟨t1, acts, r⟩ := x
    cases r with
    | error r => cases h; cases hb
    | ok a =>
      simp only [TimedM.bind] at h
      cases hfa : f a with
      | none => rw [hfa] at h; cases h
      | some z =>
        obtain ⟨t2, m2⟩ := z
        rw [hfa] at h
        cases h
        exact ⟨t1, acts, a, t2, m2, rfl, hfa, hb, rfl⟩

theorem TimedM.after_some {α : Type} {d : Option Nat} {m y : ClientM α} {t : Nat}
    (h : TimedM.after d m = some (t, y)) : d = some t ∧ m = y := by
  cases d with
  | none => cases h
  | some d => cases h; exact ⟨rfl, rfl⟩

theorem registerAgentAddress_none (c : DhtClient) (u : Unit) : (registerAgentAddress c none).2 ≠ .ok u := by
  simp [registerAgentAddress, ClientM.stop]

theorem timedNewStream_takes {c : DhtClient} {timeout : Nat} {s : StreamTimes} {t : Nat} {m : ClientM Pipe} {p : Pipe}
    (h : timedNewStream c timeout s = some (t, m)) (hp : m.2 = .ok p) : s.Takes timeout t := by
  unfold timedNewStream at h
  cases hl : timedLoop timeout s.tries with
  | none => rw [hl] at h; cases h
  | some z =>
    obtain ⟨t', q⟩ := z
    rw [hl] at h
    cases q with
    | none => cases h; cases hp
    | some q =>
      obtain ⟨k, h1, h2, h3⟩ := (C101_loop_iff timeout s.tries t' (some q)).1 hl
      refine ⟨k, q, h1, h2, ?_⟩
      dsimp only at h
      split at h
      · next hn =>
        have hk : 0 < k := by
          rcases Nat.eq_zero_or_pos k with rfl | hk
          · rw [h1] at hn; cases hn
          · exact hk
        obtain ⟨t1, _, _, t2, m2, e1, e2, e3, rfl⟩ := TimedM.bind_ok h hp
        obtain ⟨t3, acts, _, t4, m4, e4, e5, e6, rfl⟩ := TimedM.bind_ok e2 e3
        cases e1
        cases e5
        unfold timedRegister at e4
        cases hr : s.register with
        | none =>
          rw [hr] at e4
          have := (TimedM.after_some e4).2
          exact absurd (congrArg Prod.snd this) (registerAgentAddress_none c _)
        | some q' =>
          rw [hr] at e4
          have := (TimedM.after_some e4).1
          obtain ⟨r, hr', rfl⟩ := Option.map_eq_some_iff.1 this
          exact .inr ⟨hk, rfl, r, hr', by omega⟩
      · next hn =>
        have hk : k = 0 := by
          rcases Nat.eq_zero_or_pos k with rfl | hk
          · rfl
          · rw [(h2 0 hk).1] at hn; simp at hn
        subst hk
        cases h
        exact .inl ⟨rfl, by simp [h3, retryTime, tookBefore]⟩

/-- Trying to open a stream ends after `t`, with or without a stream: attempt `k` is the first that ends the loop, and
if it is not attempt 0 and gives a stream, the agent is registered again, as far as that goes. -/
def StreamTimes.Ends (s : StreamTimes) (timeout t : Nat) : Prop :=
  ∃ k a, (s.tries k).result = some a ∧
    (∀ j < k, (s.tries j).result = none ∧ retryTime s.tries j < timeout) ∧
    (((k = 0 ∨ a = none) ∧ t = retryTime s.tries k) ∨
      (0 < k ∧ a ≠ none ∧ s.register = none ∧ t = retryTime s.tries k + s.registerOpening) ∨
      (0 < k ∧ a ≠ none ∧ s.register ≠ none ∧
        ∃ r, s.registering = some r ∧ t = retryTime s.tries k + s.registerOpening + r))

theorem TimedM.bind_time {α β : Type} {x : TimedM α} {m : α → ClientM β} {t : Nat} :
    (∃ y, (x.bind fun a => some (0, m a)) = some (t, y)) ↔ ∃ y, x = some (t, y) := by
  rcases x with _ | ⟨t', acts, _ | _⟩ <;> simp [TimedM.bind]

theorem TimedM.pure_bind_time {β : Type} {x : TimedM β} {d t : Nat} :
    (∃ y, TimedM.bind (some (d, ClientM.pure ())) (fun _ => x) = some (t, y)) ↔
      ∃ u, (∃ y, x = some (u, y)) ∧ t = d + u := by
  rcases x with _ | ⟨t', acts, _ | _⟩ <;> simp [TimedM.bind, ClientM.pure, eq_comm]

/-- **C101.** Exactly when trying to open a stream ends, also if it fails. -/
theorem C101_stream_time (c : DhtClient) (timeout : Nat) (s : StreamTimes) (t : Nat) :
    (∃ x, timedNewStream c timeout s = some (t, x)) ↔ s.Ends timeout t := by
  have hreg : ∀ u, (∃ x, timedRegister c s = some (u, x)) ↔
      (s.register = none ∧ u = s.registerOpening) ∨
      (s.register ≠ none ∧ ∃ r, s.registering = some r ∧ u = s.registerOpening + r) := by
    intro u
    unfold timedRegister
    cases hr : s.register with
    | none => simp [TimedM.after, eq_comm]
    | some p =>
      cases s.registering with
      | none => simp [TimedM.after]
      | some r => simp [TimedM.after, eq_comm]
  have hnew : ∀ k a, (s.tries k).result = some a →
      (∀ j < k, (s.tries j).result = none ∧ retryTime s.tries j < timeout) →
      ((∃ x, timedNewStream c timeout s = some (t, x)) ↔
        ((k = 0 ∨ a = none) ∧ t = retryTime s.tries k) ∨
        (0 < k ∧ a ≠ none ∧ ∃ u, (∃ x, timedRegister c s = some (u, x)) ∧ t = retryTime s.tries k + u)) := by
    intro k a h1 h2
    have hl := (C101_loop_iff timeout s.tries _ a).2 ⟨k, h1, h2, rfl⟩
    unfold timedNewStream
    rw [hl]
    rcases Nat.eq_zero_or_pos k with rfl | hk
    · cases a with
      | none => simp [eq_comm]
      | some p => simp [h1, eq_comm]
    · have h0 := (h2 0 hk).1
      have hk' : k ≠ 0 := by omega
      cases a with
      | none => simp [eq_comm]
      | some p =>
        simp only [h0, Option.isNone_none, if_true, hk', false_or, reduceCtorEq, false_and, hk, ne_eq,
          not_false_eq_true, true_and]
        rw [TimedM.pure_bind_time]
        simp only [TimedM.bind_time]
  constructor
  · rintro ⟨x, h⟩
    cases hl : timedLoop timeout s.tries with
    | none => unfold timedNewStream at h; rw [hl] at h; cases h
    | some z =>
      obtain ⟨t', a⟩ := z
      obtain ⟨k, h1, h2, _⟩ := (C101_loop_iff timeout s.tries t' a).1 hl
      refine ⟨k, a, h1, h2, ?_⟩
      rcases (hnew k a h1 h2).1 ⟨x, h⟩ with h3 | ⟨h3, h4, u, h5, rfl⟩
      · exact .inl h3
      · rcases (hreg u).1 h5 with ⟨h6, rfl⟩ | ⟨h6, r, h7, rfl⟩
        · exact .inr (.inl ⟨h3, h4, h6, rfl⟩)
        · exact .inr (.inr ⟨h3, h4, h6, r, h7, by omega⟩)
  · rintro ⟨k, a, h1, h2, h3⟩
    refine (hnew k a h1 h2).2 ?_
    rcases h3 with h3 | ⟨h3, h4, h6, rfl⟩ | ⟨h3, h4, h6, r, h7, rfl⟩
    · exact .inl h3
    · exact .inr ⟨h3, h4, _, (hreg _).2 (.inl ⟨h6, rfl⟩), rfl⟩
    · exact .inr ⟨h3, h4, _, (hreg _).2 (.inr ⟨h6, r, h7, rfl⟩), by omega⟩

/-- The stream is opened at the second attempt, but registering again finds no stream: 30 ms for the attempts, 100 ms
pause, 7 ms for the failing stream. -/
example (p : Pipe) :
    (⟨fun k => ⟨15, if k = 0 then none else some (some p)⟩, none, 7, none⟩ : StreamTimes).Ends 60000 137 :=
  ⟨1, some p, by simp, by
    intro j hj
    obtain rfl : j = 0 := by omega
    simp [retryTime, tookBefore], by
    refine .inr (.inl ⟨by omega, by simp, rfl, ?_⟩)
    simp [retryTime, tookBefore, List.range_succ]⟩

/-- No call ends early with success. -/
def ClientM.StopsBad {α : Type} (m : ClientM α) : Prop := m.2 ≠ .error .ok

theorem ClientM.StopsBad.bind {α β : Type} {m : ClientM α} {f : α → ClientM β} (hm : m.StopsBad)
    (hf : ∀ a, (f a).StopsBad) : (m.bind f).StopsBad := by
  obtain ⟨acts, r⟩ := m
  cases r with
  | ok a => exact hf a
  | error r =>
    intro h
    apply hm
    simp only [ClientM.bind, Except.error.injEq] at h
    subst h
    rfl

theorem ClientM.stopsBad_onStream {α : Type} (kind : StreamKind) (peer : Bytes) (m : PipeM α) (p : Pipe) :
    (ClientM.onStream kind peer m p).StopsBad := by
  unfold ClientM.onStream
  split <;> simp [ClientM.StopsBad]

theorem clientForward_stopsBad (c : DhtClient) (n : ClientNet) (e : Envelope) : (clientForward c n e).StopsBad := by
  have hreg : ∀ r, (registerAgentAddress c r).StopsBad := by
    intro r
    unfold registerAgentAddress
    split
    · simp [ClientM.StopsBad, ClientM.stop]
    · exact ClientM.StopsBad.bind (ClientM.stopsBad_onStream _ _ _ _) fun _ => by simp [ClientM.StopsBad, ClientM.pure]
  have hns : ∀ timeout s, (newStreamLoop c timeout s).StopsBad := by
    intro timeout s
    unfold newStreamLoop
    repeat' split
    all_goals first
      | simp [ClientM.StopsBad, ClientM.stop, ClientM.pure]; done
      | exact (hreg _).bind fun _ => by simp [ClientM.StopsBad, ClientM.pure]
  refine ClientM.StopsBad.bind ?_ fun peer => ?_
  · rw [clientLookup_on]
    refine (hns _ _).bind fun p => ?_
    unfold clientLookupOn
    refine ClientM.StopsBad.bind (ClientM.stopsBad_onStream _ _ _ _) fun r => ?_
    repeat' split
    all_goals simp [ClientM.StopsBad, ClientM.stop, ClientM.pure]
  · unfold clientSend
    split
    · refine (hns _ _).bind fun p => ?_
      unfold clientTransmit
      split
      · simp [ClientM.StopsBad, ClientM.stop]
      · refine ClientM.StopsBad.bind (ClientM.stopsBad_onStream _ _ _ _) fun s => ?_
        unfold clientAwait
        refine ClientM.StopsBad.bind (ClientM.stopsBad_onStream _ _ _ _) fun b => ?_
        repeat' split
        all_goals simp [ClientM.StopsBad, ClientM.stop, ClientM.pure]
    · simp [ClientM.StopsBad, ClientM.stop]

theorem timedForward_takes {c : DhtClient} {n : ClientTimes} {e : Envelope} {t : Nat} {m : ClientM RouteEnd}
    (h : timedForward c n e = some (t, m)) (hm : m.finish.2 = .ok) :
    ∃ t1 acts peer, timedClientLookup c n e.to = some (t1, acts, .ok peer) ∧ n.Takes peer t := by
  have hb : m.2 = .ok .ok := by
    have := timedForward_of c n e t m h
    have hs := clientForward_stopsBad c n.net e
    rw [← this] at hs
    obtain ⟨acts, r⟩ := m
    cases r with
    | ok r => cases hm; rfl
    | error r => cases hm; exact absurd rfl hs
  obtain ⟨t1, acts, peer, t2, m2, h1, h2, h3, rfl⟩ := TimedM.bind_ok h hb
  refine ⟨t1, acts, peer, h1, ?_⟩
  obtain ⟨t3, _, p, t4, m4, g1, g2, g3, rfl⟩ := TimedM.bind_ok h1 rfl
  have k1 := timedNewStream_takes g1 rfl
  have k2 := (TimedM.after_some g2).1
  unfold timedClientSend at h2
  split at h2
  · split at h2
    · obtain ⟨t5, _, _, t6, m6, f1, f2, f3, rfl⟩ := TimedM.bind_ok h2 h3
      obtain ⟨t7, _, q, t8, m8, d1, d2, d3, rfl⟩ := TimedM.bind_ok f2 f3
      have k3 := (TimedM.after_some f1).1
      have k4 := timedNewStream_takes d1 rfl
      have k5 := TimedM.after_some d2
      cases he : e.encode with
      | none =>
        have := k5.2
        rw [← this] at d3
        simp [clientTransmit, he, ClientM.stop] at d3
      | some eb =>
        have k6 := k5.1
        rw [he] at k6
        exact ⟨t3, t4, t5, t7, t8, k1, k2, k3, k4, k6, by omega⟩
    · have := (TimedM.after_some h2).2
      rw [← this] at h3; cases h3
  · cases h2; cases h3

/-- **C101.** A call for another agent that succeeds takes the sum of the times of its parts: opening the stream to
the relay with all attempts and pauses, the look-up, the connection, the stream to the peer, and the status. -/
theorem C101_time (c : DhtClient) (n : ClientTimes) (e : Envelope) (t : Nat) (acts : List ClientAct)
    (hto : e.to ≠ c.myAgent) (h : timedClientRoute c n e = some (t, acts, .ok)) : ∃ peer, n.Takes peer t := by
  unfold timedClientRoute at h
  by_cases hs : e.sender ≠ c.myAgent
  · rw [if_pos hs] at h; cases h
  · rw [if_neg hs, if_neg hto] at h
    obtain ⟨⟨t', m⟩, hf, hx⟩ := Option.map_eq_some_iff.1 h
    simp only [Prod.mk.injEq] at hx
    obtain ⟨rfl, hx⟩ := hx
    obtain ⟨_, _, peer, _, h2⟩ := timedForward_takes hf (by rw [hx])
    exact ⟨peer, h2⟩

/-- **C101.** A call for the own agent first waits 100 ms for each time the agent is not ready, then for the agent to
take the envelope, and then takes the time of a call for another agent. -/
theorem C101_time_own (c : DhtClient) (n : ClientTimes) (e : Envelope) (t : Nat) (acts : List ClientAct)
    (hto : e.to = c.myAgent) (ha : c.hasAgent = true) (h : timedClientRoute c n e = some (t, acts, .ok)) :
    ∃ i answers d t' peer, n.ready = some answers ∧ answers[i]? = some true ∧
      (∀ j < i, answers[j]? = some false) ∧ n.agentTook = some d ∧ n.Takes peer t' ∧
      t = 100 * i + d + t' := by
  unfold timedClientRoute at h
  by_cases hs : e.sender ≠ c.myAgent
  · rw [if_pos hs] at h; cases h
  · rw [if_neg hs, if_pos hto] at h
    cases hr : n.ready with
    | none => rw [hr] at h; cases h
    | some answers =>
      rw [hr] at h
      dsimp only at h
      by_cases hc : answers.contains true = true
      · rw [if_pos hc, if_pos ha] at h
        cases hd : n.agentTook with
        | none => rw [hd] at h; cases h
        | some d =>
          rw [hd] at h
          dsimp only at h
          split at h
          · cases hf : timedForward c n e with
            | none => rw [hf] at h; cases h
            | some z =>
              obtain ⟨t', m⟩ := z
              rw [hf] at h
              simp only [Option.some.injEq, Prod.mk.injEq] at h
              obtain ⟨rfl, _, hm⟩ := h
              obtain ⟨_, _, peer, _, h2⟩ := timedForward_takes hf hm
              have hmem : true ∈ answers := List.contains_iff_mem.1 hc
              have hlt := List.idxOf_lt_length_of_mem hmem
              refine ⟨answers.idxOf true, answers, d, t', peer, rfl, ?_, ?_, rfl, h2, rfl⟩
              · rw [List.getElem?_eq_getElem hlt, List.getElem_idxOf]
              · intro j hj
                rw [List.getElem?_eq_getElem (by omega)]
                have := List.not_of_lt_findIdx (p := (· == true)) (xs := answers) hj
                simpa using this
          · cases h
      · rw [if_neg hc] at h; cases h

/-- The case of `c101Times`, for the own agent: two times not ready, 3 for the agent, and the time of the case
above. -/
example : (timedClientRoute c32Client { c101Times with ready := some [false, false, true] }
    { c32Envelope with to := c32Client.myAgent }).map (·.1) = some (200 + 3 + 14780) := by decide +kernel

end Verif
