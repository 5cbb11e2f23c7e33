import Verif.Model.DhtClient

/-!
# C32, C39: the node in client mode
-/

namespace Verif

open Acn

/-! ## C39: retry loops -/

/-- The clock never runs backwards. -/
def ClockForward {α : Type} (rounds : List (RetryRound α)) : Prop :=
  rounds.Pairwise fun r r' => r.now ≤ r'.now

theorem retryRounds_result {α : Type} (timeout sleep : Nat) (rounds : List (RetryRound α)) (a : α)
    (hc : ClockForward rounds) :
    (retryRounds timeout sleep rounds).2 = some a ↔
      ∃ pre r post, rounds = pre ++ r :: post ∧ r.now < timeout ∧ r.attempt = some a ∧
        ∀ r' ∈ pre, r'.attempt = none := by
  induction rounds generalizing sleep with
  | nil => simp [retryRounds]
  | cons r rest ih =>
    have hrest : ClockForward rest := (List.pairwise_cons.1 hc).2
    have hle := (List.pairwise_cons.1 hc).1
    unfold retryRounds
    by_cases ht : timeout ≤ r.now
    · rw [if_pos ht, ih sleep hrest]
      constructor
      · rintro ⟨pre, r', post, rfl, h1, -, -⟩
        have := hle r' (by simp)
        omega
      · rintro ⟨pre, r', post, h, h1, h2, h3⟩
        have hmem : r' ∈ r :: rest := by rw [h]; simp
        rcases List.mem_cons.1 hmem with rfl | hm
        · omega
        · have := hle r' hm
          omega
    · rw [if_neg ht]
      cases ha : r.attempt with
      | some b =>
        simp only [Option.some.injEq]
        constructor
        · rintro rfl
          exact ⟨[], r, rest, rfl, by omega, ha, by simp⟩
        · rintro ⟨pre, r', post, h, h1, h2, h3⟩
          cases pre with
          | nil =>
            simp only [List.nil_append, List.cons.injEq] at h
            rw [← h.1, ha] at h2
            exact Option.some.inj h2
          | cons q pre =>
            simp only [List.cons_append, List.cons.injEq] at h
            have := h3 q (by simp)
            rw [← h.1, ha] at this
            cases this
      | none =>
        simp only
        rw [ih (sleep * 2) hrest]
        constructor
        · rintro ⟨pre, r', post, rfl, h1, h2, h3⟩
          refine ⟨r :: pre, r', post, rfl, h1, h2, ?_⟩
          intro q hq
          rcases List.mem_cons.1 hq with rfl | hq
          · exact ha
          · exact h3 q hq
        · rintro ⟨pre, r', post, h, h1, h2, h3⟩
          cases pre with
          | nil =>
            simp only [List.nil_append, List.cons.injEq] at h
            rw [← h.1, ha] at h2
            cases h2
          | cons q pre =>
            simp only [List.cons_append, List.cons.injEq] at h
            exact ⟨pre, r', post, h.2, h1, h2, fun q' hq' => h3 q' (by simp [hq'])⟩

/-- C39, the part that holds: if a retry loop returns, then with the result of the first attempt that
succeeds, and that attempt was begun before the time-out; in that case it does return. Both loops
have this form. What is missing: it returns in no other case. -/
theorem C39_returns_iff_partial {α : Type} (timeout : Nat) (s : RetryScript α) (a : α)
    (hc : ClockForward s.rounds) :
    (retryLoop timeout s).result = some a ↔
      s.first = some a ∨
      (s.first = none ∧ ∃ pre r post, s.rounds = pre ++ r :: post ∧ r.now < timeout ∧
        r.attempt = some a ∧ ∀ r' ∈ pre, r'.attempt = none) := by
  unfold retryLoop
  cases hf : s.first with
  | some b => simp
  | none =>
    simp only [reduceCtorEq, false_or, true_and]
    exact retryRounds_result timeout _ s.rounds a hc

/-- C39 is false: if no attempt begun before the time-out succeeds, the loop never returns, however
long it runs and whatever attempts would give later. -/
theorem C39_never_returns {α : Type} (timeout : Nat) (s : RetryScript α) (hf : s.first = none)
    (h : ∀ r ∈ s.rounds, r.now < timeout → r.attempt = none) :
    (retryLoop timeout s).result = none := by
  have key : ∀ (sleep : Nat) (rounds : List (RetryRound α)),
      (∀ r ∈ rounds, r.now < timeout → r.attempt = none) →
      (retryRounds timeout sleep rounds).2 = none := by
    intro sleep rounds
    induction rounds generalizing sleep with
    | nil => intro _; rfl
    | cons r rest ih =>
      intro h
      have ih := fun sl => ih sl fun q hq => h q (List.mem_cons_of_mem _ hq)
      unfold retryRounds
      by_cases ht : timeout ≤ r.now
      · rw [if_pos ht]; exact ih sleep
      · rw [if_neg ht, h r (by simp) (by omega)]
        exact ih _
  unfold retryLoop
  rw [hf]
  exact key _ _ h

/-- A bootstrap whose network comes back one second after the time-out is still looping after any
number of rounds. -/
theorem C39_counterexample (n : Nat) :
    (bootstrapLoop ⟨none, (List.range n).map fun i => ⟨61000 + i, some ()⟩⟩).result = none := by
  apply C39_never_returns _ _ rfl
  intro r hr hlt
  obtain ⟨i, -, rfl⟩ := List.mem_map.1 hr
  simp [bootstrapTimeout] at hlt
  omega

/-- The second retry succeeds within the time-out; a loop that returns, returns success, and the error
of the time-out is never returned. (`none` in the result of the loop is a loop that has not ended.) -/
theorem C39_retry_in_time :
    bootstrapLoop ⟨none, [⟨5000, none⟩, ⟨20000, some ()⟩]⟩ = ⟨some (), [100, 200]⟩ := by decide

/-- The clock advances at least by the times slept; `t` is the earliest time of the next round. -/
def ClockSleeps {α : Type} (timeout : Nat) : Nat → Nat → List (RetryRound α) → Prop
  | _, _, [] => True
  | t, sleep, r :: rest =>
    t ≤ r.now ∧
      if timeout ≤ r.now then ClockSleeps timeout r.now sleep rest
      else ClockSleeps timeout (r.now + sleep) (sleep * 2) rest

theorem retryRounds_sleeps {α : Type} (timeout t sleep : Nat) (rounds : List (RetryRound α))
    (hc : ClockSleeps timeout t sleep rounds) :
    (retryRounds timeout sleep rounds).1 = [] ∨
      t + sleep * (2 ^ ((retryRounds timeout sleep rounds).1.length - 1) - 1) < timeout ∧
      ∀ i w, (retryRounds timeout sleep rounds).1[i]? = some w → w = sleep * 2 ^ i := by
  induction rounds generalizing t sleep with
  | nil => left; rfl
  | cons r rest ih =>
    obtain ⟨hle, hrest⟩ := hc
    unfold retryRounds
    by_cases ht : timeout ≤ r.now
    · rw [if_pos ht] at hrest ⊢
      rcases ih r.now sleep hrest with h | ⟨h1, h2⟩
      · left; exact h
      · right
        exact ⟨by omega, h2⟩
    · rw [if_neg ht] at hrest ⊢
      have single : ∀ i w, [sleep][i]? = some w → w = sleep * 2 ^ i := by
        intro i w h
        cases i with
        | zero => simp at h; simp [h]
        | succ j => simp at h
      cases ha : r.attempt with
      | some b =>
        right
        exact ⟨by simp; omega, single⟩
      | none =>
        simp only
        right
        rcases ih (r.now + sleep) (sleep * 2) hrest with h | ⟨h1, h2⟩
        · rw [h]
          exact ⟨by simp; omega, single⟩
        · generalize (retryRounds timeout (sleep * 2) rest).1 = l at h1 h2 ⊢
          refine ⟨?_, ?_⟩
          · simp only [List.length_cons, Nat.add_sub_cancel]
            cases hl : l.length with
            | zero => simp; omega
            | succ k =>
              rw [hl, Nat.add_sub_cancel] at h1
              have e1 : sleep * (2 ^ (k + 1) - 1) = sleep + sleep * 2 * (2 ^ k - 1) := by
                have hp : 1 ≤ 2 ^ k := Nat.one_le_two_pow
                obtain ⟨m, hm⟩ : ∃ m, 2 ^ k = m + 1 := ⟨2 ^ k - 1, by omega⟩
                rw [Nat.pow_succ, hm]
                have : (m + 1) * 2 - 1 = 1 + 2 * m := by omega
                rw [this, Nat.add_sub_cancel, Nat.mul_add, Nat.mul_one, Nat.mul_assoc]
              omega
          · intro i w hi
            cases i with
            | zero => simp at hi; simp [hi]
            | succ j =>
              rw [List.getElem?_cons_succ] at hi
              rw [h2 j w hi, Nat.pow_succ, Nat.mul_assoc, Nat.mul_comm 2]

/-- The waiting time before the i-th retry is 100 ms · 2^i, and few retries are begun before the
time-out: at most ten for bootstrapping and for a stream to a peer, at most twelve for a stream to the
relay. No waiting time comes near the limit of `time.Duration`. -/
theorem C39_attempts_bounded {α : Type} (timeout : Nat) (s : RetryScript α)
    (hc : ClockSleeps timeout 0 sleepTimeDefault s.rounds) :
    (∀ i w, (retryLoop timeout s).sleeps[i]? = some w → w = 100 * 2 ^ i) ∧
    (timeout = 60000 → (retryLoop timeout s).sleeps.length ≤ 10) ∧
    (timeout = 300000 → (retryLoop timeout s).sleeps.length ≤ 12) := by
  unfold retryLoop
  cases hf : s.first with
  | some b => simp
  | none =>
    simp only
    rcases retryRounds_sleeps timeout 0 sleepTimeDefault s.rounds hc with h | ⟨h1, h2⟩
    · rw [h]; simp
    · refine ⟨h2, ?_, ?_⟩
      · rintro rfl
        rcases Nat.lt_or_ge 10 (retryRounds 60000 sleepTimeDefault s.rounds).1.length with h | h
        · have := Nat.pow_le_pow_right (n := 2) (by decide)
            (show 10 ≤ (retryRounds 60000 sleepTimeDefault s.rounds).1.length - 1 by omega)
          simp only [sleepTimeDefault] at *
          omega
        · exact h
      · rintro rfl
        rcases Nat.lt_or_ge 12 (retryRounds 300000 sleepTimeDefault s.rounds).1.length with h | h
        · have := Nat.pow_le_pow_right (n := 2) (by decide)
            (show 12 ≤ (retryRounds 300000 sleepTimeDefault s.rounds).1.length - 1 by omega)
          simp only [sleepTimeDefault] at *
          omega
        · exact h

/-! ## C32: routing -/

/-- Deliveries to the own agent. -/
def agentDeliveries (acts : List ClientAct) : List Envelope :=
  acts.filterMap fun | .agent e => some e | .write _ _ _ => none

/-- Deliveries to the network: writes on streams for envelopes. -/
def networkDeliveries (acts : List ClientAct) : List (Bytes × Bytes) :=
  acts.filterMap fun
    | .write .envelope peer data => some (peer, data)
    | .write .address _ _ => none
    | .write .register _ _ => none
    | .agent _ => none

theorem agentDeliveries_append (a b : List ClientAct) :
    agentDeliveries (a ++ b) = agentDeliveries a ++ agentDeliveries b := List.filterMap_append

theorem networkDeliveries_append (a b : List ClientAct) :
    networkDeliveries (a ++ b) = networkDeliveries a ++ networkDeliveries b := List.filterMap_append

namespace ClientM

variable {α β : Type}

theorem bind_cases (m : ClientM α) (f : α → ClientM β) :
    (∃ acts a, m = (acts, .ok a) ∧ m.bind f = (acts ++ (f a).1, (f a).2)) ∨
    (∃ acts r, m = (acts, .error r) ∧ m.bind f = (acts, .error r)) := by
  obtain ⟨acts, r⟩ := m
  cases r with
  | ok a => left; exact ⟨acts, a, rfl, rfl⟩
  | error r => right; exact ⟨acts, r, rfl, rfl⟩

theorem onStream_acts (kind : StreamKind) (peer : Bytes) (m : PipeM α) (p : Pipe) :
    (onStream kind peer m p).1 = (m { p with sent := [] }).2.sent.map (.write kind peer) := by
  unfold onStream
  split <;> rename_i h <;> rw [h]

theorem agent_map (kind : StreamKind) (peer : Bytes) (l : List Bytes) :
    agentDeliveries (l.map (.write kind peer)) = [] := by
  induction l with
  | nil => rfl
  | cons a l ih => exact ih

theorem network_map_other (kind : StreamKind) (peer : Bytes) (l : List Bytes)
    (hk : kind ≠ .envelope) : networkDeliveries (l.map (.write kind peer)) = [] := by
  induction l with
  | nil => rfl
  | cons a l ih => cases kind <;> first | exact ih | exact absurd rfl hk

theorem network_map (peer : Bytes) (l : List Bytes) :
    networkDeliveries (l.map (.write .envelope peer)) = l.map fun d => (peer, d) := by
  induction l with
  | nil => rfl
  | cons a l ih =>
    show (peer, a) :: networkDeliveries (l.map (.write .envelope peer)) = _
    rw [ih]; rfl

/-- No action is a delivery. -/
def Quiet (m : ClientM α) : Prop := agentDeliveries m.1 = [] ∧ networkDeliveries m.1 = []

theorem quiet_pure (a : α) : Quiet (ClientM.pure a) := ⟨rfl, rfl⟩

theorem quiet_stop (r : RouteEnd) : Quiet (ClientM.stop r : ClientM α) := ⟨rfl, rfl⟩

theorem quiet_bind {m : ClientM α} {f : α → ClientM β} (hm : Quiet m) (hf : ∀ a, Quiet (f a)) :
    Quiet (m.bind f) := by
  rcases bind_cases m f with ⟨acts, a, h1, h2⟩ | ⟨acts, r, h1, h2⟩
  · rw [h1] at hm
    rw [h2]
    unfold Quiet at *
    rw [agentDeliveries_append, networkDeliveries_append, (hf a).1, (hf a).2, hm.1, hm.2]
    exact ⟨rfl, rfl⟩
  · rw [h1] at hm
    rw [h2]
    exact hm

theorem quiet_onStream (kind : StreamKind) (hk : kind ≠ .envelope) (peer : Bytes) (m : PipeM α)
    (p : Pipe) : Quiet (onStream kind peer m p) := by
  unfold Quiet
  rw [onStream_acts, agent_map, network_map_other kind peer _ hk]
  exact ⟨rfl, rfl⟩

end ClientM

open ClientM

theorem quiet_newStreamLoop (c : DhtClient) (timeout : Nat) (s : StreamScript) :
    Quiet (newStreamLoop c timeout s) := by
  unfold newStreamLoop
  split
  · exact quiet_stop _
  · exact quiet_stop _
  · split
    · apply quiet_bind
      · unfold registerAgentAddress
        split
        · exact quiet_stop _
        · exact quiet_bind (quiet_onStream _ (by decide) _ _ _) fun _ => quiet_pure _
      · exact fun _ => quiet_pure _
    · exact quiet_pure _

theorem quiet_clientLookup (c : DhtClient) (n : ClientNet) (target : Bytes) :
    Quiet (clientLookup c n target) := by
  unfold clientLookup
  apply quiet_bind (quiet_newStreamLoop _ _ _)
  intro p
  apply quiet_bind (quiet_onStream _ (by decide) _ _ _)
  rintro ⟨rec, p'⟩
  cases rec with
  | none => exact quiet_stop _
  | some r =>
    dsimp only
    split
    · exact quiet_stop _
    · exact quiet_stop _
    · split
      · exact quiet_stop _
      · exact quiet_pure _
    · exact quiet_stop _

/-- The peer returned by a look-up represents the target, with a record obtained from the relay. -/
theorem clientLookup_ok {c : DhtClient} {n : ClientNet} {target peer : Bytes} {acts : List ClientAct}
    (h : clientLookup c n target = (acts, .ok peer)) :
    ∃ r p, (performAddressLookup target p).1 = .ok (some r) ∧
      n.por r target r.peerPublicKey = .ok .success ∧ n.idFrom r.peerPublicKey = some peer := by
  unfold clientLookup at h
  rcases bind_cases (newStreamLoop c newStreamTimeoutRelayPeer n.relayStream) _ with
    ⟨a1, p, h1, h2⟩ | ⟨a1, r, h1, h2⟩
  · rw [h2] at h
    rcases bind_cases (onStream .address c.relay (performAddressLookup target) p) _ with
      ⟨a2, ⟨rec, p'⟩, h3, h4⟩ | ⟨a2, r, h3, h4⟩
    · rw [h4] at h
      have hrec : (performAddressLookup target { p with sent := [] }).1 = .ok rec := by
        unfold onStream at h3
        split at h3
        · rename_i hh
          rw [hh]
          simp only [Prod.mk.injEq, Except.ok.injEq] at h3
          rw [h3.2.1]
        · simp at h3
        · simp at h3
      cases rec with
      | none => simp [ClientM.stop] at h
      | some r =>
        dsimp only at h
        cases hp : n.por r target r.peerPublicKey with
        | panic => rw [hp] at h; simp [ClientM.stop] at h
        | err e => rw [hp] at h; simp [ClientM.stop] at h
        | ok code =>
          rw [hp] at h
          cases code
          case success =>
            dsimp only at h
            cases hi : n.idFrom r.peerPublicKey with
            | none => rw [hi] at h; simp [ClientM.stop] at h
            | some q =>
              rw [hi] at h
              simp only [ClientM.pure, Prod.mk.injEq, Except.ok.injEq] at h
              exact ⟨r, _, hrec, hp, by rw [hi, h.2]⟩
          all_goals simp [ClientM.stop] at h
    · rw [h4] at h; simp at h
  · rw [h2] at h; simp at h

/-- The ACN message that carries an envelope. -/
def wireEnvelope (c : DhtClient) (e : Envelope) : Option Bytes :=
  e.encode.bind fun eb => AcnMessage.encode (some (.aeaEnvelope eb c.myRecord))

theorem sendEnvelope_sent (eb : Bytes) (rec : Option AgentRecord) (p : Pipe) :
    (sendEnvelope eb rec { p with sent := [] }).2.sent =
      (AcnMessage.encode (some (.aeaEnvelope eb rec))).toList := by
  unfold sendEnvelope sendMessage
  cases hm : AcnMessage.encode (some (.aeaEnvelope eb rec)) with
  | none => rfl
  | some b =>
    unfold Pipe.write
    dsimp only
    split <;> simp

theorem readStatus_sent (p : Pipe) : (readStatus p).2.sent = p.sent := by
  have hr : (Pipe.read p).2.sent = p.sent := by
    unfold Pipe.read
    split <;> rfl
  unfold readStatus PipeM.bind
  cases h : Pipe.read p with
  | mk r q =>
    rw [h] at hr
    dsimp only at hr
    cases r with
    | ok buf =>
      dsimp only
      cases AcnMessage.decode buf with
      | none => exact hr
      | some m =>
        cases m with
        | none => exact hr
        | some m => cases m <;> exact hr
    | err e => exact hr
    | panic => exact hr

theorem clientAwait_acts (peer : Bytes) (p : Pipe) : (clientAwait peer p).1 = [] := by
  unfold clientAwait
  have hb := onStream_acts .envelope peer readStatus p
  rw [readStatus_sent] at hb
  generalize ClientM.onStream .envelope peer readStatus p = m at hb ⊢
  obtain ⟨acts, r⟩ := m
  cases hb
  cases r with
  | ok s =>
    obtain ⟨s, p'⟩ := s
    cases s <;> rfl
  | error r => rfl

theorem clientTransmit_acts (c : DhtClient) (e : Envelope) (peer : Bytes) (p : Pipe) :
    (clientTransmit c e peer p).1 = ((wireEnvelope c e).toList).map (.write .envelope peer) := by
  unfold clientTransmit wireEnvelope
  cases he : e.encode with
  | none => rfl
  | some eb =>
    simp only [Option.bind_some]
    have ha := onStream_acts .envelope peer (sendEnvelope eb c.myRecord) p
    rw [sendEnvelope_sent] at ha
    rw [← ha]
    rcases bind_cases (ClientM.onStream .envelope peer (sendEnvelope eb c.myRecord) p)
      (fun s => clientAwait peer s.2) with ⟨a2, ⟨s, p'⟩, h3, h4⟩ | ⟨a2, r, h3, h4⟩
    · rw [h4, h3, clientAwait_acts, List.append_nil]
    · rw [h4, h3]

/-- Sending: nothing to the own agent, and at most the envelope to the peer. -/
theorem clientSend_acts (c : DhtClient) (n : ClientNet) (e : Envelope) (peer : Bytes) :
    agentDeliveries (clientSend c n e peer).1 = [] ∧
    (networkDeliveries (clientSend c n e peer).1 = [] ∨
      ∃ data, wireEnvelope c e = some data ∧
        networkDeliveries (clientSend c n e peer).1 = [(peer, data)]) := by
  unfold clientSend
  split
  case isFalse => exact ⟨rfl, .inl rfl⟩
  have hq := quiet_newStreamLoop c newStreamTimeout (n.peerStream peer)
  rcases bind_cases (newStreamLoop c newStreamTimeout (n.peerStream peer)) (clientTransmit c e peer)
    with ⟨a1, p, h1, h2⟩ | ⟨a1, r, h1, h2⟩
  · rw [h1] at hq
    rw [h2]
    unfold Quiet at hq
    dsimp only at hq ⊢
    rw [agentDeliveries_append, networkDeliveries_append, hq.1, hq.2, List.nil_append,
      List.nil_append, clientTransmit_acts, agent_map, network_map]
    refine ⟨rfl, ?_⟩
    cases hm : wireEnvelope c e with
    | none => left; rfl
    | some d => right; exact ⟨d, rfl, rfl⟩
  · rw [h1] at hq
    rw [h2]
    exact ⟨hq.1, .inl hq.2⟩

theorem finish_acts (m : ClientM RouteEnd) : m.finish.1 = m.1 := by
  obtain ⟨acts, r⟩ := m
  cases r <;> rfl

theorem clientForward_acts (c : DhtClient) (n : ClientNet) (e : Envelope) :
    agentDeliveries (clientForward c n e).1 = [] ∧
    (networkDeliveries (clientForward c n e).1 = [] ∨
      ∃ peer data r p, (performAddressLookup e.to p).1 = .ok (some r) ∧
        n.por r e.to r.peerPublicKey = .ok .success ∧ n.idFrom r.peerPublicKey = some peer ∧
        wireEnvelope c e = some data ∧
        networkDeliveries (clientForward c n e).1 = [(peer, data)]) := by
  unfold clientForward
  have hq := quiet_clientLookup c n e.to
  rcases bind_cases (clientLookup c n e.to) (fun peer => clientSend c n e peer) with
    ⟨a1, peer, h1, h2⟩ | ⟨a1, r, h1, h2⟩
  · rw [h2]
    rw [h1] at hq
    unfold Quiet at hq
    dsimp only at hq ⊢
    rw [agentDeliveries_append, networkDeliveries_append, hq.1, hq.2, List.nil_append,
      List.nil_append]
    obtain ⟨hs1, hs2⟩ := clientSend_acts c n e peer
    refine ⟨hs1, ?_⟩
    rcases hs2 with h | ⟨data, h3, h4⟩
    · left; exact h
    · right
      obtain ⟨r, p, h5, h6, h7⟩ := clientLookup_ok h1
      exact ⟨peer, data, r, p, h5, h6, h7, h3, h4⟩
  · rw [h2]
    rw [h1] at hq
    exact ⟨hq.1, .inl hq.2⟩

/-- C32, the part that holds. An envelope of another sender is not delivered. An envelope for
another agent is not given to the own agent, and sent at most once, to a peer that represents the
target according to a valid record obtained from the relay; an envelope for the own agent is given to
it at most once. What is missing: an envelope for the own agent can be sent as well. -/
theorem C32_route_partial (c : DhtClient) (n : ClientNet) (e : Envelope) :
    (e.sender ≠ c.myAgent → clientRoute c n e = ([], .err)) ∧
    (e.to ≠ c.myAgent → agentDeliveries (clientRoute c n e).1 = []) ∧
    (agentDeliveries (clientRoute c n e).1 = [] ∨ agentDeliveries (clientRoute c n e).1 = [e]) ∧
    (networkDeliveries (clientRoute c n e).1 = [] ∨
      ∃ peer data r p, (performAddressLookup e.to p).1 = .ok (some r) ∧
        n.por r e.to r.peerPublicKey = .ok .success ∧ n.idFrom r.peerPublicKey = some peer ∧
        wireEnvelope c e = some data ∧
        networkDeliveries (clientRoute c n e).1 = [(peer, data)]) := by
  obtain ⟨hf1, hf2⟩ := clientForward_acts c n e
  refine ⟨fun h => by unfold clientRoute; rw [if_pos h], ?_, ?_, ?_⟩
  · intro h
    unfold clientRoute
    split
    · rfl
    · rw [finish_acts]
      exact hf1
  · unfold clientRoute
    split
    · left; rfl
    · split
      · split
        · left; rfl
        · split
          · split
            · split
              · right
                show e :: agentDeliveries (clientForward c n e).finish.1 = [e]
                rw [finish_acts, hf1]
              · right; rfl
            · left; rfl
          · left; rfl
      · left; rw [finish_acts]; exact hf1
  · unfold clientRoute
    split
    · left; rfl
    · split
      · split
        · left; rfl
        · split
          · split
            · split
              · have : networkDeliveries (.agent e :: (clientForward c n e).finish.1) =
                    networkDeliveries (clientForward c n e).1 := by
                  rw [finish_acts]; rfl
                dsimp only
                rw [this]
                exact hf2
              · left; rfl
            · left; rfl
          · left; rfl
      · rw [finish_acts]; exact hf2

/-- The exact effect for an envelope to the own agent that was delivered: everything done for an
envelope to another agent is done as well, and its end is the end of the call. So the call can
report an error although the envelope was delivered. -/
theorem C32_own_agent_forwards (c : DhtClient) (n : ClientNet) (e : Envelope) (answers : List Bool)
    (hs : e.sender = c.myAgent) (ht : e.to = c.myAgent) (hr : n.ready = some answers)
    (hr' : answers.contains true = true) (ha : c.hasAgent = true) (hok : n.agentOk = true) :
    clientRoute c n e = (.agent e :: (clientForward c n e).finish.1, (clientForward c n e).finish.2) := by
  unfold clientRoute
  rw [if_neg (by simp [hs]), if_pos ht, hr]
  dsimp only
  rw [if_pos hr', if_pos ha, if_pos hok]

/-! ### A concrete case -/

def c32Record : AgentRecord := 
  ⟨b! "acn", b! "fetchai", b! "me", b! "pk", b! "key", b! "sig", b! "", b! ""⟩

def c32Envelope : Envelope := ⟨b! "me", b! "me", b! "proto", b! "msg", b! ""⟩

def c32Client : DhtClient := ⟨b! "me", some c32Record, true, b! "relay"⟩

/-- The relay answers with a record of the agent at another peer, which accepts the envelope. -/
def c32Net : ClientNet where
  por := fun _ _ _ => .ok .success
  idFrom := fun _ => some (b! "other")
  ready := some [false, true]
  agentOk := true
  relayStream := ⟨⟨some (some ⟨[AcnMessage.encode (some (.lookupResponse (some c32Record)))], [true], []⟩), []⟩,
    none⟩
  addrOk := fun _ => true
  connectOk := fun _ => true
  peerStream := fun _ =>
    ⟨⟨some (some ⟨[AcnMessage.encode (some (.status (some ⟨0, []⟩)))], [true], []⟩), []⟩, none⟩

set_option maxRecDepth 100000 in
set_option maxHeartbeats 4000000 in
/-- C32 is false: the envelope is delivered to the own agent and to another peer. -/
theorem C32_counterexample :
    (clientRoute c32Client c32Net c32Envelope).2 = .ok ∧
    agentDeliveries (clientRoute c32Client c32Net c32Envelope).1 = [c32Envelope] ∧
    (networkDeliveries (clientRoute c32Client c32Net c32Envelope).1).map (·.1) = [b! "other"] := by
  decide

/-! ## Requests of others -/

/-- A client takes envelopes for its agent only, and gives them to the agent once. -/
theorem clientHandleEnvelope_iff (c : DhtClient) (agentOk : Bool) (e : Envelope) :
    (agentDeliveries (clientHandleEnvelope c agentOk e).1 =
      if e.to = c.myAgent ∧ c.hasAgent = true then [e] else []) ∧
    ((clientHandleEnvelope c agentOk e).2 = .ok () ↔
      e.to = c.myAgent ∧ c.hasAgent = true ∧ agentOk = true) := by
  unfold clientHandleEnvelope
  split
  · rename_i h
    cases agentOk <;> simp [h, agentDeliveries]
  · rename_i h
    refine ⟨rfl, ?_⟩
    simp only [reduceCtorEq, false_iff]
    rintro ⟨h1, h2, -⟩
    exact h ⟨h1, h2⟩

/-! ## Concrete cases -/

/-- The third attempt is in time; the pauses double. -/
example : retryLoop 60000 ⟨none, [⟨100, none⟩, ⟨300, some 7⟩, ⟨700, some 8⟩]⟩ = ⟨some 7, [100, 200]⟩ := by decide

/-- An attempt after the time-out is not made. -/
example : (retryLoop 60000 ⟨none, [⟨100, none⟩, ⟨60000, some 7⟩]⟩).result = none := by decide

/-- An envelope of somebody else is refused, and one for the own agent is given to it. -/
example : clientRoute c32Client c32Net { c32Envelope with sender := b! "you" } = ([], .err) := by decide
example : clientHandleEnvelope c32Client true c32Envelope = ([.agent c32Envelope], .ok ()) := by decide

end Verif
