import Verif.Props.DhtClient

/-!
# C32: when a client sends an envelope

The exact conditions for sending and for reporting success, with the time-outs of dhtclient.go:63-70.
-/

namespace Verif

open Acn ClientM

/-- A stream is there: the first attempt gave it, or the first one that succeeded did, was begun before the
time-out, and the relay has accepted the registration that follows. -/
def StreamOpened (c : DhtClient) (timeout : Nat) (s : StreamScript) (p : Pipe) : Prop :=
  s.script.first = some (some p) ∨
  (s.script.first = none ∧
    (∃ pre r post, s.script.rounds = pre ++ r :: post ∧ r.now < timeout ∧ r.attempt = some (some p) ∧
      ∀ r' ∈ pre, r'.attempt = none) ∧
    ∃ reg, s.register = some reg ∧ (sendRegister c.myRecord { reg with sent := [] }).1 = .ok ())

theorem onStream_ok {α : Type} {kind : StreamKind} {peer : Bytes} {m : PipeM α} {p p' : Pipe} {a : α} :
    (onStream kind peer m p).2 = .ok (a, p') ↔ m { p with sent := [] } = (.ok a, p') := by
  unfold onStream
  generalize m { p with sent := [] } = x
  obtain ⟨r, q⟩ := x
  cases r <;> simp

theorem clientBind_ok {α β : Type} {m : ClientM α} {f : α → ClientM β} {b : β} :
    (m.bind f).2 = .ok b ↔ ∃ a, m.2 = .ok a ∧ (f a).2 = .ok b := by
  obtain ⟨acts, r⟩ := m
  cases r <;> simp [ClientM.bind]

theorem register_ok (c : DhtClient) (o : Option Pipe) :
    (registerAgentAddress c o).2 = .ok () ↔
      ∃ reg, o = some reg ∧ (sendRegister c.myRecord { reg with sent := [] }).1 = .ok () := by
  cases o with
  | none => simp [registerAgentAddress, ClientM.stop]
  | some reg =>
    simp only [registerAgentAddress, clientBind_ok, Option.some.injEq, exists_eq_left']
    constructor
    · rintro ⟨⟨u, p'⟩, h, -⟩
      rw [onStream_ok.1 h]
    · intro h
      refine ⟨((), (sendRegister c.myRecord { reg with sent := [] }).2), onStream_ok.2 ?_, rfl⟩
      rw [← h]

/-- Opening a stream succeeds exactly then. -/
theorem newStreamLoop_ok (c : DhtClient) (timeout : Nat) (s : StreamScript) (hc : ClockForward s.script.rounds)
    (p : Pipe) : (newStreamLoop c timeout s).2 = .ok p ↔ StreamOpened c timeout s p := by
  have hr := C39_returns_iff_partial timeout s.script (some p) hc
  unfold newStreamLoop StreamOpened
  cases hf : s.script.first with
  | some o =>
    have : (retryLoop timeout s.script).result = some o := by
      unfold retryLoop
      rw [hf]
    rw [this]
    cases o <;> simp [ClientM.stop, ClientM.pure]
  | none =>
    rw [hf] at hr
    simp only [reduceCtorEq, false_or, true_and] at hr ⊢
    cases hq : (retryLoop timeout s.script).result with
    | none =>
      rw [hq] at hr
      simp only [reduceCtorEq, false_iff] at hr
      simp only [ClientM.stop, reduceCtorEq, false_iff]
      exact fun h => hr h.1
    | some o =>
      cases o with
      | none =>
        rw [hq] at hr
        simp only [Option.some.injEq, reduceCtorEq, false_iff] at hr
        simp only [ClientM.stop, reduceCtorEq, false_iff]
        exact fun h => hr h.1
      | some q =>
        rw [hq] at hr
        simp only [Option.some.injEq] at hr
        simp only [Option.isNone_none, if_true, clientBind_ok, ClientM.pure, Except.ok.injEq]
        rw [← hr]
        constructor
        · rintro ⟨⟨⟩, h1, rfl⟩
          exact ⟨rfl, (register_ok c _).1 h1⟩
        · rintro ⟨rfl, h⟩
          exact ⟨(), (register_ok c _).2 h, rfl⟩

/-- The relay has named the peer: within five minutes there was a stream, and the record it answered with is
proven and names the peer. -/
def Located (c : DhtClient) (n : ClientNet) (target peer : Bytes) : Prop :=
  ∃ p r, StreamOpened c 300000 n.relayStream p ∧ (performAddressLookup target { p with sent := [] }).1 = .ok (some r) ∧
    n.por r target r.peerPublicKey = .ok .success ∧ n.idFrom r.peerPublicKey = some peer

theorem clientLookup_iff (c : DhtClient) (n : ClientNet) (target peer : Bytes)
    (hc : ClockForward n.relayStream.script.rounds) :
    (clientLookup c n target).2 = .ok peer ↔ Located c n target peer := by
  unfold clientLookup Located
  simp only [clientBind_ok]
  constructor
  · rintro ⟨p, h1, ⟨rec, p'⟩, h2, h3⟩
    rw [newStreamLoop_ok _ _ _ hc] at h1
    have h2 := onStream_ok.1 h2
    cases rec with
    | none => simp [ClientM.stop] at h3
    | some r =>
      refine ⟨p, r, h1, by rw [h2], ?_⟩
      dsimp only at h3
      cases hp : n.por r target r.peerPublicKey with
      | panic => rw [hp] at h3; simp [ClientM.stop] at h3
      | err e => rw [hp] at h3; simp [ClientM.stop] at h3
      | ok code =>
        rw [hp] at h3
        cases code <;> first
          | (dsimp only at h3
             cases hi : n.idFrom r.peerPublicKey with
             | none => rw [hi] at h3; simp [ClientM.stop] at h3
             | some q =>
               rw [hi] at h3
               simp only [ClientM.pure, Except.ok.injEq] at h3
               exact ⟨rfl, by rw [h3]⟩)
          | simp [ClientM.stop] at h3
  · rintro ⟨p, r, h1, h2, h3, h4⟩
    refine ⟨p, (newStreamLoop_ok _ _ _ hc _).2 h1,
      (some r, (performAddressLookup target { p with sent := [] }).2), onStream_ok.2 (by rw [← h2]), ?_⟩
    simp only [h3, h4]
    rfl

/-- An envelope for another agent is sent to a peer exactly if the relay has named the peer, it can be
reached, within a minute there was a stream to it, and the envelope can be written. -/
theorem C32_sent_iff (c : DhtClient) (n : ClientNet) (e : Envelope) (peer data : Bytes)
    (hs : e.sender = c.myAgent) (ht : e.to ≠ c.myAgent) (hr : ClockForward n.relayStream.script.rounds)
    (hp : ∀ q, ClockForward (n.peerStream q).script.rounds) :
    networkDeliveries (clientRoute c n e).1 = [(peer, data)] ↔
      Located c n e.to peer ∧ n.addrOk peer = true ∧ n.connectOk peer = true ∧
      (∃ p, StreamOpened c 60000 (n.peerStream peer) p) ∧ wireEnvelope c e = some data := by
  have hroute : (clientRoute c n e).1 = (clientForward c n e).1 := by
    unfold clientRoute
    rw [if_neg (by simp [hs]), if_neg ht, finish_acts]
  rw [hroute]
  unfold clientForward
  have hq := quiet_clientLookup c n e.to
  rcases bind_cases (clientLookup c n e.to) (fun peer => clientSend c n e peer) with
    ⟨a1, q, h1, h2⟩ | ⟨a1, r, h1, h2⟩
  · rw [h2]
    rw [h1] at hq
    have hl : ∀ x, Located c n e.to x ↔ q = x := by
      intro x
      rw [← clientLookup_iff c n e.to x hr, h1]
      simp
    rw [hl]
    unfold Quiet at hq
    dsimp only at hq ⊢
    rw [networkDeliveries_append, hq.2, List.nil_append]
    unfold clientSend
    by_cases hok : (n.addrOk q && n.connectOk q) = true
    · rw [if_pos hok]
      simp only [Bool.and_eq_true] at hok
      have hq2 := quiet_newStreamLoop c newStreamTimeout (n.peerStream q)
      have hop := fun x => newStreamLoop_ok c 60000 (n.peerStream q) (hp q) x
      rcases bind_cases (newStreamLoop c newStreamTimeout (n.peerStream q)) (clientTransmit c e q)
        with ⟨a2, p, h3, h4⟩ | ⟨a2, r, h3, h4⟩
      · rw [h3] at hq2
        rw [h4]
        unfold Quiet at hq2
        dsimp only at hq2 ⊢
        rw [networkDeliveries_append, hq2.2, List.nil_append, clientTransmit_acts, network_map]
        have hopen : StreamOpened c 60000 (n.peerStream q) p := by
          rw [← hop]
          show (newStreamLoop c newStreamTimeout (n.peerStream q)).2 = _
          rw [h3]
        constructor
        · intro h
          cases hw : wireEnvelope c e with
          | none => rw [hw] at h; simp at h
          | some d =>
            rw [hw] at h
            simp at h
            obtain ⟨rfl, rfl⟩ := h
            exact ⟨rfl, hok.1, hok.2, ⟨p, hopen⟩, rfl⟩
        · rintro ⟨rfl, -, -, -, hw⟩
          rw [hw]
          rfl
      · rw [h3] at hq2
        rw [h4]
        rw [show networkDeliveries a2 = [] from hq2.2]
        simp only [List.nil_eq, reduceCtorEq, false_iff]
        rintro ⟨rfl, -, -, ⟨p, hp'⟩, -⟩
        have := (hop p).2 hp'
        rw [show newStreamLoop c 60000 (n.peerStream q) = (a2, .error r) from h3] at this
        cases this
    · rw [if_neg hok]
      simp only [ClientM.stop]
      constructor
      · intro h; cases h
      · rintro ⟨rfl, h3, h4, -⟩
        simp [h3, h4] at hok
  · rw [h2]
    rw [h1] at hq
    rw [show networkDeliveries a1 = [] from hq.2]
    constructor
    · intro h; cases h
    · rintro ⟨hl, -⟩
      rw [← clientLookup_iff c n e.to peer hr, h1] at hl
      cases hl

/-- Success is reported exactly if the envelope was sent on a stream whose write succeeded and the peer has
answered with success. -/
theorem C32_success_iff (c : DhtClient) (n : ClientNet) (e : Envelope)
    (hs : e.sender = c.myAgent) (ht : e.to ≠ c.myAgent) (hr : ClockForward n.relayStream.script.rounds)
    (hp : ∀ q, ClockForward (n.peerStream q).script.rounds) :
    (clientRoute c n e).2 = .ok ↔
      ∃ peer p eb body, Located c n e.to peer ∧ n.addrOk peer = true ∧ n.connectOk peer = true ∧
        StreamOpened c 60000 (n.peerStream peer) p ∧ e.encode = some eb ∧
        (sendEnvelope eb c.myRecord { p with sent := [] }).1 = .ok () ∧
        (readStatus { (sendEnvelope eb c.myRecord { p with sent := [] }).2 with sent := [] }).1 = .ok (some body) ∧
        body.code = 0 := by
  have hend : (clientRoute c n e).2 = .ok ↔ (clientForward c n e).2 = .ok .ok ∨ (clientForward c n e).2 = .error .ok := by
    unfold clientRoute
    rw [if_neg (by simp [hs]), if_neg ht]
    unfold ClientM.finish
    obtain ⟨acts, r⟩ := clientForward c n e
    cases r <;> simp
  have hne : ∀ {α : Type} (kind : StreamKind) (peer : Bytes) (m : PipeM α) (p : Pipe),
      (onStream kind peer m p).2 ≠ .error .ok := by
    intro α kind peer m p h
    unfold onStream at h
    generalize m { p with sent := [] } = x at h
    obtain ⟨r, q⟩ := x
    cases r <;> simp at h
  have hb : ∀ {α β : Type} (m : ClientM α) (f : α → ClientM β), m.2 ≠ .error .ok → (∀ a, (f a).2 ≠ .error .ok) →
      (m.bind f).2 ≠ .error .ok := by
    intro α β m f h1 h2
    obtain ⟨acts, r⟩ := m
    cases r with
    | ok a => exact h2 a
    | error r =>
      intro h
      apply h1
      simp only [ClientM.bind, Except.error.injEq] at h
      rw [h]
  have hsl : ∀ t s, (newStreamLoop c t s).2 ≠ .error .ok := by
    intro t s
    unfold newStreamLoop
    split
    · simp [ClientM.stop]
    · simp [ClientM.stop]
    · split
      · refine hb _ _ ?_ (by simp [ClientM.pure])
        unfold registerAgentAddress
        split
        · simp [ClientM.stop]
        · exact hb _ _ (hne _ _ _ _) (by simp [ClientM.pure])
      · simp [ClientM.pure]
  have hnerr : (clientForward c n e).2 ≠ .error .ok := by
    unfold clientForward
    refine hb _ _ ?_ ?_
    · unfold clientLookup
      refine hb _ _ (hsl _ _) fun p => hb _ _ (hne _ _ _ _) ?_
      rintro ⟨rec, p'⟩
      cases rec with
      | none => simp [ClientM.stop]
      | some r =>
        dsimp only
        split
        · simp [ClientM.stop]
        · simp [ClientM.stop]
        · split <;> simp [ClientM.stop, ClientM.pure]
        · simp [ClientM.stop]
    · intro peer
      unfold clientSend
      split
      · refine hb _ _ (hsl _ _) fun p => ?_
        unfold clientTransmit
        split
        · simp [ClientM.stop]
        · refine hb _ _ (hne _ _ _ _) fun s => ?_
          unfold clientAwait
          refine hb _ _ (hne _ _ _ _) ?_
          rintro ⟨s, p'⟩
          cases s <;> simp [ClientM.stop, ClientM.pure]
      · simp [ClientM.stop]
  rw [hend]
  simp only [hnerr, or_false]
  unfold clientForward
  rw [clientBind_ok]
  have hsend : ∀ peer, (clientSend c n e peer).2 = .ok .ok ↔
      ∃ p eb body, n.addrOk peer = true ∧ n.connectOk peer = true ∧ StreamOpened c 60000 (n.peerStream peer) p ∧
        e.encode = some eb ∧ (sendEnvelope eb c.myRecord { p with sent := [] }).1 = .ok () ∧
        (readStatus { (sendEnvelope eb c.myRecord { p with sent := [] }).2 with sent := [] }).1 = .ok (some body) ∧
        body.code = 0 := by
    intro peer
    unfold clientSend
    split
    · next hok =>
      simp only [Bool.and_eq_true] at hok
      rw [clientBind_ok]
      constructor
      · rintro ⟨p, h1, h2⟩
        have h1 := (newStreamLoop_ok c 60000 _ (hp peer) p).1 h1
        unfold clientTransmit at h2
        split at h2
        · simp [ClientM.stop] at h2
        · next eb he =>
          rw [clientBind_ok] at h2
          obtain ⟨⟨u, p1⟩, h3, h4⟩ := h2
          have h3 := onStream_ok.1 h3
          unfold clientAwait at h4
          rw [clientBind_ok] at h4
          obtain ⟨⟨s, p2⟩, h5, h6⟩ := h4
          have h5 := onStream_ok.1 h5
          cases s with
          | none => simp [ClientM.stop] at h6
          | some body =>
            refine ⟨p, eb, body, hok.1, hok.2, h1, he, by rw [h3], by rw [h3]; rw [h5], ?_⟩
            simp only [ClientM.pure, Except.ok.injEq] at h6
            split at h6
            · cases h6
            · next hcode => exact Classical.byContradiction fun h => hcode h
      · rintro ⟨p, eb, body, -, -, h1, he, h3, h5, h6⟩
        refine ⟨p, (newStreamLoop_ok c 60000 _ (hp peer) p).2 h1, ?_⟩
        unfold clientTransmit
        rw [he]
        simp only
        rw [clientBind_ok]
        refine ⟨((), (sendEnvelope eb c.myRecord { p with sent := [] }).2), onStream_ok.2 (by rw [← h3]), ?_⟩
        unfold clientAwait
        rw [clientBind_ok]
        refine ⟨(some body, (readStatus { (sendEnvelope eb c.myRecord { p with sent := [] }).2 with sent := [] }).2),
          onStream_ok.2 (by rw [← h5]), ?_⟩
        simp only [ClientM.pure]
        rw [if_neg (by rw [h6]; decide)]
    · next hok =>
      simp only [ClientM.stop, reduceCtorEq, false_iff]
      rintro ⟨p, eb, body, h1, h2, -⟩
      simp [h1, h2] at hok
  constructor
  · rintro ⟨peer, h1, h2⟩
    obtain ⟨p, eb, body, h⟩ := (hsend peer).1 h2
    exact ⟨peer, p, eb, body, (clientLookup_iff c n e.to peer hr).1 h1, h⟩
  · rintro ⟨peer, p, eb, body, h1, h⟩
    exact ⟨peer, (clientLookup_iff c n e.to peer hr).2 h1, (hsend peer).2 ⟨p, eb, body, h⟩⟩

/-- The bootstrap is tried for a minute. -/
theorem C39_bootstrap_iff (s : RetryScript Unit) (hc : ClockForward s.rounds) :
    (bootstrapLoop s).result = some () ↔
      s.first = some () ∨ (s.first = none ∧ ∃ pre r post, s.rounds = pre ++ r :: post ∧ r.now < 60000 ∧
        r.attempt = some () ∧ ∀ r' ∈ pre, r'.attempt = none) :=
  C39_returns_iff_partial 60000 s () hc

/-- The stream to the peer opens at the second attempt, in the last second. -/
example : networkDeliveries (clientRoute c32Client { c32Net with
      peerStream := fun _ => ⟨⟨none, [⟨59999, some (some ⟨[], [true], []⟩)⟩]⟩,
        some ⟨[AcnMessage.encode (some (.status (some ⟨0, []⟩)))], [true], []⟩⟩ }
      { c32Envelope with to := b! "you" }).1 |>.map (·.1) |> (· = [b! "other"]) := by
  decide +kernel

end Verif
