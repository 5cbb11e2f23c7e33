import Verif.Props.Deadly

/-!
# Property C128, whole calls

When routing an envelope, trying it again, or handling one from another peer crashes a node: the lists of
`Verif.Props.Deadly` put together.
-/

namespace Verif

namespace Deadly

open Acn

/-- The peer to which an envelope goes that is neither for the own agent nor for an agent at this peer: the one
it has registered from, or the one found. -/
def Target (s : PeerState) (n : Net) (e : Envelope) (peer : Bytes) : Prop :=
  (∃ sid, s.dhtAddresses.get e.to = some sid ∧ n.peerDecode sid = some peer) ∨
  (s.dhtAddresses.get e.to = none ∧ ∃ r, lookupAddressDHT n.por n.idFrom n.cid e.to n.rounds = .found peer r)

/-- The other peer answers the envelope with a status without body. -/
def DeadlyAnswer (n : Net) (peer : Bytes) (record : Option AgentRecord) (e : Envelope) : Prop :=
  e.Texts ∧ (∀ r, record = some r → ∀ t ∈ r.texts, IsText t) ∧
    ∃ p, n.stream peer = some p ∧ CanWrite p ∧ First Bodiless p

theorem makeAcnMessage_iff (e : Envelope) : (∃ d, makeAcnMessage e = some d) ↔ e.Texts := by
  refine Iff.trans ?_ (C19_envelope_encodes_iff e)
  unfold makeAcnMessage
  cases he : e.encode with
  | none => simp
  | some eb =>
    have : ∃ d, AcnMessage.encode (some (.aeaEnvelope eb none)) = some d :=
      (C18_acn_encodes_iff _).2 (by simp [AcnMessage.texts])
    simpa using this

/-- **C128, trying to send to whoever is found**: it crashes exactly if the look-up does or the peer found answers
with a status without body. -/
theorem C128_trying_partial (s : PeerState) (n : Net) (e : Envelope) :
    (routeDHTLookup s n e).2 = .crashed ↔
      ∃ record, envelopeRecord s e = some record ∧
        (lookupAddressDHT n.por n.idFrom n.cid e.to n.rounds = .crashed ∨
          ∃ peer r, lookupAddressDHT n.por n.idFrom n.cid e.to n.rounds = .found peer r ∧
            DeadlyAnswer n peer record e) := by
  unfold routeDHTLookup
  cases envelopeRecord s e with
  | none => simp
  | some record =>
    dsimp only
    cases hl : lookupAddressDHT n.por n.idFrom n.cid e.to n.rounds with
    | found peer r =>
      dsimp only
      rw [C128_sending_partial]
      simp [DeadlyAnswer]
    | error => simp
    | crashed => simp
    | running => simp

/-- **C128, the slow queue.** -/
theorem C128_again_partial (s : PeerState) (n : Net) (e : Envelope) :
    (slowAttempt s n e).2 = .crashed ↔ s.closing = false ∧ (routeDHTLookup s n e).2 = .crashed := by
  unfold slowAttempt
  cases s.closing <;> simp

/-- **C128, routing**: the whole list of what crashes a peer while it routes an envelope that is handed in. -/
theorem C128_routing_partial (s : PeerState) (n : Net) (e : Envelope) :
    (routeEnvelope s n e).2.2 = .crashed ↔
      ∃ record, envelopeRecord s e = some record ∧ ¬ Accepts s e ∧ e.to ≠ s.myAgent ∧
        ((∃ c, s.tcpAddresses.get e.to = some c ∧ e.Texts ∧ n.connOk = true ∧ n.ack = .panic) ∨
         (s.tcpAddresses.get e.to = none ∧
           ((∃ peer, Target s n e peer ∧ DeadlyAnswer n peer record e) ∨
            (s.dhtAddresses.get e.to = none ∧
              lookupAddressDHT n.por n.idFrom n.cid e.to n.rounds = .crashed)))) := by
  have hl := C128_trying_partial s n e
  unfold routeEnvelope
  cases hr : envelopeRecord s e with
  | none => simp
  | some record =>
    rw [hr] at hl
    dsimp only
    have hsnd := mailboxRoute_snd s e
    have hfst := mailboxRoute_fst s e
    by_cases ha : Accepts s e
    · rw [if_pos (hsnd.2 ha)]
      exact ⟨fun h => by simp at h, fun ⟨_, _, h, _⟩ => absurd ha h⟩
    rw [if_neg (fun h => ha (hsnd.1 h)), hfst ha]
    by_cases hm : e.to = s.myAgent
    · rw [if_pos hm]
      constructor
      · intro h
        exfalso
        revert h
        split
        · split
          · dsimp only; split <;> simp
          · simp
        · simp
      · exact fun ⟨_, _, _, h, _⟩ => absurd hm h
    rw [if_neg hm]
    cases ht : s.tcpAddresses.get e.to with
    | some c =>
      dsimp only
      have hd := makeAcnMessage_iff e
      cases hx : makeAcnMessage e with
      | none =>
        rw [hx] at hd
        have hd : ¬ e.Texts := fun h => by simpa using hd.2 h
        simp [hd]
      | some d =>
        have hd : e.Texts := hd.1 ⟨d, hx⟩
        cases n.connOk <;> cases n.ack <;> simp [hd, ha, hm]
    | none =>
      dsimp only
      cases hs : s.dhtAddresses.get e.to with
      | some sid =>
        dsimp only
        cases hp : n.peerDecode sid with
        | none => simp [Target, hs, hp]
        | some peer =>
          dsimp only
          rw [C128_sending_partial]
          simp [Target, hs, hp, ha, hm, DeadlyAnswer]
      | none =>
        dsimp only
        have goal : (∃ record', some record = some record' ∧ ¬ Accepts s e ∧ e.to ≠ s.myAgent ∧
            ((∃ c, (none : Option Nat) = some c ∧ e.Texts ∧ n.connOk = true ∧ n.ack = .panic) ∨
             ((none : Option Nat) = none ∧
               ((∃ peer, Target s n e peer ∧ DeadlyAnswer n peer record' e) ∨
                ((none : Option Bytes) = none ∧
                  lookupAddressDHT n.por n.idFrom n.cid e.to n.rounds = .crashed))))) ↔
            (routeDHTLookup s n e).2 = .crashed := by
          rw [hl]
          constructor
          · rintro ⟨_, rfl', _, _, ⟨_, h, _⟩ | ⟨_, ⟨peer, ⟨_, h, _⟩ | ⟨_, r, h⟩, h2⟩ | ⟨_, h⟩⟩⟩
            · simp at h
            · rw [hs] at h; simp at h
            · exact ⟨_, rfl', .inr ⟨peer, r, h, h2⟩⟩
            · exact ⟨_, rfl', .inl h⟩
          · rintro ⟨_, rfl', h | ⟨peer, r, h, h2⟩⟩
            · exact ⟨_, rfl', ha, hm, .inr ⟨rfl, .inr ⟨rfl, h⟩⟩⟩
            · exact ⟨_, rfl', ha, hm, .inr ⟨rfl, .inl ⟨peer, .inr ⟨hs, r, h⟩, h2⟩⟩⟩
        rw [goal]
        rcases routeDHTLookup s n e with ⟨acts, _ | _ | _ | _⟩ <;> simp

/-- **C128, envelopes from other peers, when they are delivered**: only the acknowledgement of a delegate client
matters. -/
theorem C128_handling_partial (s : PeerState) (n : Net) (e : Envelope) :
    (handleAeaEnvelope s n e).2.2 = .panic ↔
      ¬ Accepts s e ∧ (∃ c, s.tcpAddresses.get e.to = some c) ∧ e.Texts ∧ n.connOk = true ∧ n.ack = .panic := by
  unfold handleAeaEnvelope
  dsimp only
  have hsnd := mailboxRoute_snd s e
  have hfst := mailboxRoute_fst s e
  by_cases ha : Accepts s e
  · rw [if_pos (hsnd.2 ha)]
    simp [ha]
  rw [if_neg (fun h => ha (hsnd.1 h)), hfst ha]
  cases ht : s.tcpAddresses.get e.to with
  | some c =>
    dsimp only
    have hd := makeAcnMessage_iff e
    cases hx : makeAcnMessage e with
    | none =>
      rw [hx] at hd
      have hd : ¬ e.Texts := fun h => by simpa using hd.2 h
      simp [hd]
    | some d =>
      have hd : e.Texts := hd.1 ⟨d, hx⟩
      cases n.connOk <;> cases n.ack <;> simp [hd, ha]
  | none =>
    dsimp only
    split
    · split <;> simp
    · simp

theorem finish_crashed (m : ClientM RouteEnd) :
    m.finish.2 = .crashed ↔ m.2 = .error .crashed ∨ m.2 = .ok .crashed := by
  rcases m with ⟨acts, r | r⟩ <;> simp [ClientM.finish]

/-- **C128, routing in client mode**: a client crashes exactly if the look-up does, the opening of the stream to the
peer found does, or that peer answers with a status without body; or if an envelope of the agent to itself comes
before there is a function to ask whether the agent is ready. -/
theorem C128_client_routing_partial (c : DhtClient) (n : ClientNet) (e : Envelope) :
    (clientRoute c n e).2 = .crashed ↔
      e.sender = c.myAgent ∧
      ((e.to = c.myAgent ∧ n.ready = none) ∨
       ((e.to = c.myAgent → (∃ l, n.ready = some l ∧ l.contains true = true) ∧ c.hasAgent = true ∧ n.agentOk = true) ∧
        ((clientLookup c n e.to).2 = .error .crashed ∨
         ∃ peer, (clientLookup c n e.to).2 = .ok peer ∧ n.addrOk peer = true ∧ n.connectOk peer = true ∧
          ((newStreamLoop c newStreamTimeout (n.peerStream peer)).2 = .error .crashed ∨
           ∃ p, (newStreamLoop c newStreamTimeout (n.peerStream peer)).2 = .ok p ∧
             (e.Texts ∧ (∀ r, c.myRecord = some r → ∀ t ∈ r.texts, IsText t) ∧ CanWrite p ∧ First Bodiless p))))) := by
  have await_ok : ∀ (peer : Bytes) (q : Pipe), (clientAwait peer q).2 ≠ .ok .crashed := by
    intro peer q
    unfold clientAwait ClientM.bind
    rcases ClientM.onStream .envelope peer readStatus q with ⟨acts, r | ⟨⟨_ | b⟩, q'⟩⟩
    · simp
    · simp [ClientM.stop]
    · dsimp only [ClientM.pure]
      split <;> simp
  have send_ok : ∀ peer, (clientSend c n e peer).2 ≠ .ok .crashed := by
    intro peer
    unfold clientSend
    split
    · unfold ClientM.bind
      rcases newStreamLoop c newStreamTimeout (n.peerStream peer) with ⟨acts, r | p⟩
      · simp
      · dsimp only
        unfold clientTransmit
        split
        · simp [ClientM.stop]
        · rename_i eb _
          unfold ClientM.bind
          rcases ClientM.onStream .envelope peer (sendEnvelope eb c.myRecord) p with ⟨acts, r | ⟨_, q⟩⟩
          · simp
          · exact await_ok peer q
    · simp [ClientM.stop]
  have forward : (clientForward c n e).finish.2 = .crashed ↔
      ((clientLookup c n e.to).2 = .error .crashed ∨
         ∃ peer, (clientLookup c n e.to).2 = .ok peer ∧ n.addrOk peer = true ∧ n.connectOk peer = true ∧
          ((newStreamLoop c newStreamTimeout (n.peerStream peer)).2 = .error .crashed ∨
           ∃ p, (newStreamLoop c newStreamTimeout (n.peerStream peer)).2 = .ok p ∧
             (e.Texts ∧ (∀ r, c.myRecord = some r → ∀ t ∈ r.texts, IsText t) ∧ CanWrite p ∧ First Bodiless p))) := by
    rw [finish_crashed]
    have hno : (clientForward c n e).2 ≠ .ok .crashed := by
      unfold clientForward ClientM.bind
      rcases clientLookup c n e.to with ⟨acts, r | peer⟩
      · simp
      · exact send_ok peer
    rw [or_iff_left hno]
    unfold clientForward
    rw [bindC_crashed]
    refine or_congr Iff.rfl (exists_congr fun peer => and_congr Iff.rfl ?_)
    unfold clientSend
    by_cases hok : (n.addrOk peer && n.connectOk peer) = true
    · rw [if_pos hok, bindC_crashed]
      rw [Bool.and_eq_true] at hok
      simp only [hok.1, hok.2, true_and, C128_client_sending_partial]
    · rw [if_neg hok]
      rw [Bool.and_eq_true] at hok
      refine ⟨fun h => by simp [ClientM.stop] at h, fun h => absurd ⟨h.1, h.2.1⟩ hok⟩
  rw [← forward]
  unfold clientRoute
  by_cases hs : e.sender = c.myAgent
  · rw [if_neg (not_not_intro hs)]
    by_cases ht : e.to = c.myAgent
    · rw [if_pos ht]
      cases hr : n.ready with
      | none => simp [hs, ht]
      | some l =>
        dsimp only
        by_cases hc : l.contains true = true
        · rw [if_pos hc]
          cases hh : c.hasAgent with
          | false => simp [ht]
          | true =>
            cases ha : n.agentOk with
            | false => simp [ht]
            | true =>
              have hc' : true ∈ l := by simpa using hc
              simp [hs, hc']
        · rw [if_neg hc]
          have hc' : true ∉ l := by simpa using hc
          simp [ht, hc']
    · rw [if_neg ht]
      simp [hs, ht]
  · rw [if_pos hs]
    simp [hs]

/-! ## Cases -/

namespace DeadlyDemo

set_option maxRecDepth 100000
set_option maxHeartbeats 4000000

/-- The peer that is found crashes the one that routes with its answer. -/
example : (routeEnvelope RouteDemo.peer
    { RouteDemo.net with stream := fun _ => some ⟨[some [0x4a, 0]], [true], []⟩ } (RouteDemo.env (b! "far"))).2.2 =
    .crashed := by decide +kernel

/-- If the envelope is for a mailbox nothing can happen. -/
example : (routeEnvelope RouteDemo.peer
    { RouteDemo.net with stream := fun _ => some ⟨[some [0x4a, 0]], [true], []⟩ } (RouteDemo.env (b! "bob"))).2.2 =
    .ok := by decide +kernel

end DeadlyDemo

end Deadly

end Verif
