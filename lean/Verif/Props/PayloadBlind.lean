import Verif.Props.Routing
import Verif.Model.DhtClient
import Verif.Model.PairQueues
import Verif.Lemmas.Utf8

/-!
# Property C127

What is done with an envelope depends on its receiver and its sender only, not on what it contains.
-/

namespace Verif

namespace PayloadBlind

open Acn

/-! ## One call at a peer -/

/-- What is done, with the envelope left open. -/
inductive Slot where
  | inc | dec
  | mailbox
  | agent
  | conn (c : Nat)
  | stream (peer : Bytes) (record : Option AgentRecord)
  | slow
  deriving DecidableEq, Repr

/-- What is done with this envelope. -/
def fill (e : Envelope) : Slot → Act
  | .inc => .inc
  | .dec => .dec
  | .mailbox => .mailbox e
  | .agent => .agent e
  | .conn c => .conn c ((peerMessage e none).getD [])
  | .stream peer record => .stream peer ((peerMessage e record).getD [])
  | .slow => .slow e

/-- The envelope can be sent, and has this receiver and this sender. -/
structure Between (to sender : Bytes) (e : Envelope) : Prop where
  to : e.to = to
  sender : e.sender = sender
  texts : e.Texts

/-- Whether an ACN message with an envelope can be encoded does not depend on the envelope. -/
theorem acn_encode_iff (eb eb' : Bytes) (record : Option AgentRecord) :
    (AcnMessage.encode (some (.aeaEnvelope eb record))).isSome =
      (AcnMessage.encode (some (.aeaEnvelope eb' record))).isSome := by
  unfold AcnMessage.encode
  have : AcnMessage.utf8 (some (.aeaEnvelope eb record)) = AcnMessage.utf8 (some (.aeaEnvelope eb' record)) := by
    cases record <;> rfl
  rw [this]
  split <;> rfl

theorem encode_of_texts {e : Envelope} (h : e.Texts) : ∃ b, e.encode = some b :=
  (C19_envelope_encodes_iff e).2 h

/-- What is sent to a delegate client. -/
theorem delegate_message {e : Envelope} (h : e.Texts) :
    ∃ d, makeAcnMessage e = some d ∧ peerMessage e none = some d := by
  obtain ⟨eb, heb⟩ := encode_of_texts h
  have : (AcnMessage.encode (some (.aeaEnvelope eb none))).isSome = true := rfl
  obtain ⟨d, hd⟩ := Option.isSome_iff_exists.1 this
  exact ⟨d, by simp [makeAcnMessage, heb, hd], by simp [peerMessage, heb, hd]⟩

/-- What is read does not depend on what was written. -/
theorem readStatus_sent (p p' : Pipe) (h : p.reads = p'.reads) : (readStatus p).1 = (readStatus p').1 := by
  unfold readStatus PipeM.bind Pipe.read
  rw [h]
  cases p'.reads with
  | nil => rfl
  | cons x rest =>
    cases x with
    | none => rfl
    | some b =>
      simp only
      cases AcnMessage.decode b with
      | none => rfl
      | some m =>
        rcases m with _ | m
        · rfl
        · cases m <;> rfl

theorem newStream_plan (n : Net) (peer : Bytes) (record : Option AgentRecord) :
    ∃ (plan : List Slot) (r : RouteEnd), ∀ e : Envelope, e.Texts →
      routeWithNewStream n peer record e = (plan.map (fill e), r) := by
  cases hs : n.stream peer with
  | none => exact ⟨[.dec], .err, fun e _ => by simp [routeWithNewStream, hs, fill]⟩
  | some p0 =>
    cases hu : AcnMessage.encode (some (.aeaEnvelope [] record)) with
    | none =>
      refine ⟨[.dec], .err, fun e he => ?_⟩
      obtain ⟨eb, heb⟩ := encode_of_texts he
      have hm : AcnMessage.encode (some (.aeaEnvelope eb record)) = none := by
        have := acn_encode_iff eb [] record
        rw [hu] at this
        simpa using this
      simp [routeWithNewStream, hs, heb, sendEnvelope, sendMessage, hm, PipeM.fail, fill]
    | some x =>
      have key : ∀ e : Envelope, e.Texts → ∃ eb d, e.encode = some eb ∧
          AcnMessage.encode (some (.aeaEnvelope eb record)) = some d ∧ peerMessage e record = some d := by
        intro e he
        obtain ⟨eb, heb⟩ := encode_of_texts he
        have := acn_encode_iff eb [] record
        rw [hu] at this
        obtain ⟨d, hd⟩ := Option.isSome_iff_exists.1 (by simpa using this)
        exact ⟨eb, d, heb, hd, by simp [peerMessage, heb, hd]⟩
      rcases hw : p0.writes with _ | ⟨w, ws⟩
      · refine ⟨[.stream peer record, .dec], .err, fun e he => ?_⟩
        obtain ⟨eb, d, h1, h2, h3⟩ := key e he
        simp [routeWithNewStream, hs, h1, sendEnvelope, sendMessage, h2, Pipe.write, hw, fill, h3]
      · cases w with
        | false =>
          refine ⟨[.stream peer record, .dec], .err, fun e he => ?_⟩
          obtain ⟨eb, d, h1, h2, h3⟩ := key e he
          simp [routeWithNewStream, hs, h1, sendEnvelope, sendMessage, h2, Pipe.write, hw, fill, h3]
        | true =>
          have fin : ∀ e : Envelope, e.Texts → routeWithNewStream n peer record e =
              match (readStatus p0).1 with
              | .ok (some b) => ([.stream peer ((peerMessage e record).getD []), .dec],
                  if b.code ≠ StatusCode.success.toInt then .err else .ok)
              | .ok none => ([.stream peer ((peerMessage e record).getD [])], .crashed)
              | .err _ => ([.stream peer ((peerMessage e record).getD []), .dec], .err)
              | .panic => ([.stream peer ((peerMessage e record).getD [])], .crashed) := by
            intro e he
            obtain ⟨eb, d, h1, h2, h3⟩ := key e he
            simp only [routeWithNewStream, hs, h1, sendEnvelope, sendMessage, h2, Pipe.write, hw, h3,
              readStatus_sent { p0 with writes := ws, sent := [] ++ [d] } p0 rfl]
            rcases (readStatus p0).1 with (_ | b) | _ | _ <;> simp
          rcases hr : (readStatus p0).1 with (_ | b) | err | _
          · exact ⟨[.stream peer record], .crashed, fun e he => by rw [fin e he, hr]; rfl⟩
          · exact ⟨[.stream peer record, .dec], _, fun e he => by rw [fin e he, hr]; rfl⟩
          · exact ⟨[.stream peer record, .dec], .err, fun e he => by rw [fin e he, hr]; rfl⟩
          · exact ⟨[.stream peer record], .crashed, fun e he => by rw [fin e he, hr]; rfl⟩

/-- The record sent along depends on the sender. -/
theorem record_eq (s : PeerState) {to sender : Bytes} {e e' : Envelope} (h : Between to sender e)
    (h' : Between to sender e') : envelopeRecord s e = envelopeRecord s e' := by
  unfold envelopeRecord
  rw [h.sender, h'.sender]

theorem lookup_plan (s : PeerState) (n : Net) (to sender : Bytes) :
    ∃ (plan : List Slot) (r : RouteEnd), ∀ e, Between to sender e →
      routeDHTLookup s n e = (plan.map (fill e), r) := by
  by_cases hex : ∃ e0, Between to sender e0
  · obtain ⟨e0, h0⟩ := hex
    have hrec : ∀ e, Between to sender e → envelopeRecord s e = envelopeRecord s e0 :=
      fun e h => record_eq s h h0
    cases hr : envelopeRecord s e0 with
    | none => exact ⟨[], .err, fun e h => by simp [routeDHTLookup, hrec e h, hr]⟩
    | some record =>
      cases hl : lookupAddressDHT n.por n.idFrom n.cid to n.rounds with
      | error => exact ⟨[], .err, fun e h => by simp [routeDHTLookup, hrec e h, hr, h.to, hl]⟩
      | crashed => exact ⟨[], .crashed, fun e h => by simp [routeDHTLookup, hrec e h, hr, h.to, hl]⟩
      | running => exact ⟨[], .waiting, fun e h => by simp [routeDHTLookup, hrec e h, hr, h.to, hl]⟩
      | found peer x =>
        obtain ⟨plan, r, hp⟩ := newStream_plan n peer record
        exact ⟨plan, r, fun e h => by simp [routeDHTLookup, hrec e h, hr, h.to, hl, hp e h.texts]⟩
  · exact ⟨[], .ok, fun e h => absurd ⟨e, h⟩ hex⟩

/-- What a peer remembers of an envelope: nothing, or the envelope at the end of a mailbox. -/
def Kept (s : PeerState) (to sender : Bytes) (after : Envelope → PeerState) : Prop :=
  (∀ e, Between to sender e → after e = s) ∨
  ∃ m l, s.mailbox = some m ∧ ∀ e, Between to sender e →
    after e = { s with mailbox := some { m with envelopes := m.envelopes.set to (l ++ [e]) } }

/-- Whether the mailbox takes an envelope depends on the receiver. -/
theorem mailbox_plan (s : PeerState) (to sender : Bytes) :
    (∀ e, Between to sender e → mailboxRoute s e = (s, false)) ∨
    ∃ m l, s.mailbox = some m ∧ ∀ e, Between to sender e → mailboxRoute s e =
      ({ s with mailbox := some { m with envelopes := m.envelopes.set to (l ++ [e]) } }, true) := by
  cases hm : s.mailbox with
  | none => exact Or.inl fun e _ => by simp [mailboxRoute, hm]
  | some m =>
    have hsm : { s with mailbox := some m } = s := by rw [← hm]
    cases hg : m.envelopes.get to with
    | none => exact Or.inl fun e h => by simp [mailboxRoute, hm, Mailbox.route, h.to, hg, hsm]
    | some l =>
      by_cases hl : Mailbox.limit ≤ l.length
      · exact Or.inl fun e h => by simp [mailboxRoute, hm, Mailbox.route, h.to, hg, hl, hsm]
      · exact Or.inr ⟨m, l, rfl, fun e h => by simp [mailboxRoute, hm, Mailbox.route, h.to, hg, hl]⟩

/-- **C127, envelopes of the own agent and clients.** For each state of the peer, each behaviour of the
network and each pair of receiver and sender there is one plan: the same is done, with the same
outcome, with all envelopes between these two, whatever protocol and message they carry. -/
theorem C127_route (s : PeerState) (n : Net) (to sender : Bytes) :
    ∃ (plan : List Slot) (r : RouteEnd),
      (∀ e, Between to sender e → (routeEnvelope s n e).2 = (plan.map (fill e), r)) ∧
      Kept s to sender (fun e => (routeEnvelope s n e).1) := by
  rcases Classical.em (∃ e0, Between to sender e0) with ⟨e0, h0⟩ | hex
  rotate_left
  · exact ⟨[], .ok, fun e h => absurd ⟨e, h⟩ hex, Or.inl fun e h => absurd ⟨e, h⟩ hex⟩
  have hrec : ∀ e, Between to sender e → envelopeRecord s e = envelopeRecord s e0 :=
    fun e h => record_eq s h h0
  cases hr : envelopeRecord s e0 with
  | none =>
    exact ⟨[.inc], .err, fun e h => by simp [routeEnvelope, hrec e h, hr, fill],
      Or.inl fun e h => by simp [routeEnvelope, hrec e h, hr]⟩
  | some record =>
    rcases mailbox_plan s to sender with hmb | ⟨m, l, hm, hmb⟩
    rotate_left
    · refine ⟨[.inc, .mailbox], .ok, fun e h => ?_, Or.inr ⟨m, l, hm, fun e h => ?_⟩⟩
      · simp [routeEnvelope, hrec e h, hr, hmb e h, fill]
      · simp [routeEnvelope, hrec e h, hr, hmb e h]
    by_cases hmy : to = s.myAgent
    · by_cases hrd : awaitReady n.ready = true
      · by_cases ha : s.hasAgent = true
        · refine ⟨[.inc, .agent, .dec], if n.agentOk then .ok else .err, fun e h => ?_,
            Or.inl fun e h => ?_⟩
          · simp [routeEnvelope, hrec e h, hr, hmb e h, h.to, hmy, hrd, ha, fill]
          · simp [routeEnvelope, hrec e h, hr, hmb e h, h.to, hmy, hrd, ha]
        · refine ⟨[.inc], .err, fun e h => ?_, Or.inl fun e h => ?_⟩
          · simp [routeEnvelope, hrec e h, hr, hmb e h, h.to, hmy, hrd, ha, fill]
          · simp [routeEnvelope, hrec e h, hr, hmb e h, h.to, hmy, hrd, ha]
      · refine ⟨[.inc], .waiting, fun e h => ?_, Or.inl fun e h => ?_⟩
        · simp [routeEnvelope, hrec e h, hr, hmb e h, h.to, hmy, hrd, fill]
        · simp [routeEnvelope, hrec e h, hr, hmb e h, h.to, hmy, hrd]
    cases hd : s.tcpAddresses.get to with
    | some c =>
      refine ⟨[.inc, .dec, .conn c],
        if n.connOk then (match n.ack with | .ok _ => .ok | .err _ => .err | .panic => .crashed) else .err,
        fun e h => ?_, Or.inl fun e h => ?_⟩
      rotate_left
      · obtain ⟨d, h1, h2⟩ := delegate_message h.texts
        simp [routeEnvelope, hrec e h, hr, hmb e h, h.to, hmy, hd, h1]
      · obtain ⟨d, h1, h2⟩ := delegate_message h.texts
        simp [routeEnvelope, hrec e h, hr, hmb e h, h.to, hmy, hd, h1, fill, h2]
        cases n.connOk <;> cases n.ack <;> rfl
    | none =>
      cases hdht : s.dhtAddresses.get to with
      | some sid =>
        cases hp : n.peerDecode sid with
        | none =>
          refine ⟨[.inc, .dec], .err, fun e h => ?_, Or.inl fun e h => ?_⟩
          · simp [routeEnvelope, hrec e h, hr, hmb e h, h.to, hmy, hd, hdht, hp, fill]
          · simp [routeEnvelope, hrec e h, hr, hmb e h, h.to, hmy, hd, hdht, hp]
        | some peer =>
          obtain ⟨plan, r, hpl⟩ := newStream_plan n peer record
          refine ⟨.inc :: plan, r, fun e h => ?_, Or.inl fun e h => ?_⟩
          · simp [routeEnvelope, hrec e h, hr, hmb e h, h.to, hmy, hd, hdht, hp, hpl e h.texts, fill]
          · simp [routeEnvelope, hrec e h, hr, hmb e h, h.to, hmy, hd, hdht, hp]
      | none =>
        obtain ⟨plan, r, hpl⟩ := lookup_plan s n to sender
        by_cases hre : r = .err
        · subst hre
          refine ⟨.inc :: plan ++ [.dec] ++ (if s.closing then [] else [.slow]), .ok, fun e h => ?_,
            Or.inl fun e h => ?_⟩
          · simp only [routeEnvelope, hrec e h, hr, hmb e h, h.to, hmy, hd, hdht, hpl e h]
            cases s.closing <;> simp [fill]
          · simp [routeEnvelope, hrec e h, hr, hmb e h, h.to, hmy, hd, hdht, hpl e h]
        · refine ⟨.inc :: plan, r, fun e h => ?_, Or.inl fun e h => ?_⟩
          · simp only [routeEnvelope, hrec e h, hr, hmb e h, h.to, hmy, hd, hdht, hpl e h]
            cases r <;> simp_all [fill]
          · simp only [routeEnvelope, hrec e h, hr, hmb e h, h.to, hmy, hd, hdht, hpl e h]
            cases r <;> simp_all

/-- **C127, envelopes that could not be sent at once.** The same for later attempts. -/
theorem C127_slow (s : PeerState) (n : Net) (to sender : Bytes) :
    ∃ (plan : List Slot) (r : RouteEnd), ∀ e, Between to sender e →
      slowAttempt s n e = (plan.map (fill e), r) := by
  by_cases hc : s.closing = true
  · exact ⟨[], .ok, fun e _ => by simp [slowAttempt, hc]⟩
  · obtain ⟨plan, r, h⟩ := lookup_plan s n to sender
    exact ⟨plan, r, fun e he => by simp [slowAttempt, hc, h e he]⟩

/-- **C127, envelopes from other peers.** Here not even the sender matters. -/
theorem C127_handle (s : PeerState) (n : Net) (to : Bytes) :
    ∃ (plan : List Slot) (r : Res StatusCode Unit), ∀ sender e, Between to sender e →
      (handleAeaEnvelope s n e).2 = (plan.map (fill e), r) := by
  have hmb : (∀ sender e, Between to sender e → mailboxRoute s e = (s, false)) ∨
      ∀ sender e, Between to sender e → ∃ s', mailboxRoute s e = (s', true) := by
    cases hm : s.mailbox with
    | none => exact Or.inl fun _ e _ => by simp [mailboxRoute, hm]
    | some m =>
      have hsm : { s with mailbox := some m } = s := by rw [← hm]
      cases hg : m.envelopes.get to with
      | none => exact Or.inl fun _ e h => by simp [mailboxRoute, hm, Mailbox.route, h.to, hg, hsm]
      | some l =>
        by_cases hl : Mailbox.limit ≤ l.length
        · exact Or.inl fun _ e h => by simp [mailboxRoute, hm, Mailbox.route, h.to, hg, hl, hsm]
        · exact Or.inr fun _ e h => by simp [mailboxRoute, hm, Mailbox.route, h.to, hg, hl]
  rcases hmb with hmb | hmb
  · cases hd : s.tcpAddresses.get to with
    | some c =>
      refine ⟨[.conn c],
        if n.connOk then
          (match n.ack with | .ok _ => .ok () | .err _ => .err .errorAgentNotReady | .panic => .panic)
        else .err .errorAgentNotReady, fun sender e h => ?_⟩
      obtain ⟨d, h1, h2⟩ := delegate_message h.texts
      simp [handleAeaEnvelope, hmb sender e h, h.to, hd, h1, fill, h2]
      cases n.connOk <;> cases n.ack <;> rfl
    | none =>
      by_cases hmy : to = s.myAgent
      · by_cases ha : s.hasAgent = true
        · exact ⟨[.agent], .ok (), fun sender e h => by
            simp [handleAeaEnvelope, hmb sender e h, h.to, hmy ▸ hd, hmy, ha, fill]⟩
        · exact ⟨[], .err .errorAgentNotReady, fun sender e h => by
            simp [handleAeaEnvelope, hmb sender e h, h.to, hmy ▸ hd, hmy, ha]⟩
      · exact ⟨[], .err .errorUnknownAgentAddress, fun sender e h => by
          simp [handleAeaEnvelope, hmb sender e h, h.to, hd, hmy]⟩
  · refine ⟨[.mailbox], .ok (), fun sender e h => ?_⟩
    obtain ⟨s', hs⟩ := hmb sender e h
    simp [handleAeaEnvelope, hs, fill]

/-! ## One call in client mode -/

/-- What a client does, with the envelope left open. `other` is anything without the envelope. -/
inductive ClientSlot where
  | agent
  | envelope (peer : Bytes) (record : Option AgentRecord)
  | other (kind : StreamKind) (peer : Bytes) (data : Bytes)
  deriving DecidableEq, Repr

/-- What is done with this envelope. -/
def clientFill (e : Envelope) : ClientSlot → ClientAct
  | .agent => .agent e
  | .envelope peer record => .write .envelope peer ((peerMessage e record).getD [])
  | .other kind peer data => .write kind peer data

/-- A computation that is planned. -/
def Planned {α : Type} (to sender : Bytes) (m : Envelope → ClientM α) : Prop :=
  ∃ (plan : List ClientSlot) (r : Except RouteEnd α), ∀ e, Between to sender e →
    m e = (plan.map (clientFill e), r)

/-- What uses no envelope and gives nothing to the agent is planned. -/
theorem planned_const {α : Type} (to sender : Bytes) (m : ClientM α)
    (h : ∀ a ∈ m.1, ∃ k p d, a = .write k p d) : Planned to sender fun _ => m := by
  obtain ⟨acts, r⟩ := m
  refine ⟨acts.map fun a => match a with
    | .write k p d => .other k p d
    | .agent _ => .agent, r, fun e _ => ?_⟩
  simp only [List.map_map]
  congr 1
  have : acts = acts.map id := by simp
  rw [this, List.map_map]
  refine List.map_congr_left fun a ha => ?_
  obtain ⟨k, p, d, rfl⟩ := h a ha
  rfl

theorem planned_bind {α β : Type} {to sender : Bytes} {m : Envelope → ClientM α}
    {f : Envelope → α → ClientM β} (hm : Planned to sender m)
    (hf : ∀ a, Planned to sender fun e => f e a) : Planned to sender fun e => (m e).bind (f e) := by
  obtain ⟨plan, r, h⟩ := hm
  cases r with
  | error r => exact ⟨plan, .error r, fun e he => by simp [h e he, ClientM.bind]⟩
  | ok a =>
    obtain ⟨plan', r', h'⟩ := hf a
    exact ⟨plan ++ plan', r', fun e he => by simp [h e he, h' e he, ClientM.bind]⟩

theorem onStream_writes {α : Type} (kind : StreamKind) (peer : Bytes) (m : PipeM α) (p : Pipe) :
    ∀ a ∈ (ClientM.onStream kind peer m p).1, ∃ k p d, a = .write k p d := by
  intro a ha
  unfold ClientM.onStream at ha
  split at ha <;> · simp only [List.mem_map] at ha; obtain ⟨d, _, rfl⟩ := ha; exact ⟨_, _, _, rfl⟩

/-- Only writes. -/
def Writes {α : Type} (m : ClientM α) : Prop := ∀ a ∈ m.1, ∃ k p d, a = .write k p d

theorem writes_bind {α β : Type} {m : ClientM α} {f : α → ClientM β} (hm : Writes m)
    (hf : ∀ a, Writes (f a)) : Writes (m.bind f) := by
  obtain ⟨acts, r⟩ := m
  cases r with
  | error r => exact hm
  | ok a =>
    intro x hx
    simp only [ClientM.bind, List.mem_append] at hx
    rcases hx with hx | hx
    · exact hm x hx
    · exact hf a x hx

theorem writes_stop {α : Type} (r : RouteEnd) : Writes (ClientM.stop r : ClientM α) := by
  intro a ha; simp [ClientM.stop] at ha

theorem writes_pure {α : Type} (x : α) : Writes (ClientM.pure x) := by
  intro a ha; simp [ClientM.pure] at ha

theorem writes_newStream (c : DhtClient) (timeout : Nat) (s : StreamScript) :
    Writes (newStreamLoop c timeout s) := by
  unfold newStreamLoop
  split
  · exact writes_stop _
  · exact writes_stop _
  · split
    · refine writes_bind ?_ fun _ => writes_pure _
      unfold registerAgentAddress
      split
      · exact writes_stop _
      · exact writes_bind (onStream_writes _ _ _ _) fun _ => writes_pure _
    · exact writes_pure _

theorem writes_lookup (c : DhtClient) (n : ClientNet) (to : Bytes) : Writes (clientLookup c n to) := by
  unfold clientLookup
  refine writes_bind (writes_newStream _ _ _) fun p => writes_bind (onStream_writes _ _ _ _) fun (rec, _) => ?_
  dsimp only
  split
  · exact writes_stop _
  · split
    · exact writes_stop _
    · exact writes_stop _
    · split
      · exact writes_stop _
      · exact writes_pure _
    · exact writes_stop _

/-- What is read does not depend on what was written. -/
theorem await_sent (peer : Bytes) (p p' : Pipe) (h : p.reads = p'.reads) :
    clientAwait peer p = clientAwait peer p' := by
  have key : ∀ q : Pipe, (readStatus { q with sent := [] }).2.sent = [] := by
    intro q
    unfold readStatus PipeM.bind Pipe.read
    rcases q.reads with _ | ⟨_ | b, rest⟩
    · rfl
    · rfl
    · simp only
      rcases AcnMessage.decode b with _ | _ | m
      · rfl
      · rfl
      · cases m <;> rfl
  have h1 := readStatus_sent { p with sent := [] } { p' with sent := [] } h
  unfold clientAwait ClientM.onStream
  have e1 := key p
  have e2 := key p'
  rcases hp : readStatus { p with sent := [] } with ⟨r, q⟩
  rcases hp' : readStatus { p' with sent := [] } with ⟨r', q'⟩
  rw [hp] at h1 e1
  rw [hp'] at h1 e2
  simp only at h1 e1 e2
  subst h1
  cases r with
  | ok x => cases x <;> simp [ClientM.bind, e1, e2]
  | err x => simp [ClientM.bind, e1, e2]
  | panic => simp [ClientM.bind, e1, e2]

theorem transmit_plan (c : DhtClient) (to sender peer : Bytes) (p : Pipe) :
    Planned to sender fun e => clientTransmit c e peer p := by
  cases hu : AcnMessage.encode (some (.aeaEnvelope [] c.myRecord)) with
  | none =>
    refine ⟨[], .error .err, fun e he => ?_⟩
    obtain ⟨eb, heb⟩ := encode_of_texts he.texts
    have hm : AcnMessage.encode (some (.aeaEnvelope eb c.myRecord)) = none := by
      have := acn_encode_iff eb [] c.myRecord
      rw [hu] at this
      simpa using this
    simp [clientTransmit, heb, ClientM.onStream, sendEnvelope, sendMessage, hm, PipeM.fail, ClientM.bind]
  | some x =>
    have key : ∀ e : Envelope, e.Texts → ∃ eb d, e.encode = some eb ∧
        AcnMessage.encode (some (.aeaEnvelope eb c.myRecord)) = some d ∧
        peerMessage e c.myRecord = some d := by
      intro e he
      obtain ⟨eb, heb⟩ := encode_of_texts he
      have := acn_encode_iff eb [] c.myRecord
      rw [hu] at this
      obtain ⟨d, hd⟩ := Option.isSome_iff_exists.1 (by simpa using this)
      exact ⟨eb, d, heb, hd, by simp [peerMessage, heb, hd]⟩
    have bad : ∀ ws, (p.writes = [] ∨ p.writes = false :: ws) →
        Planned to sender fun e => clientTransmit c e peer p := by
      intro ws hw
      refine ⟨[.envelope peer c.myRecord], .error .err, fun e he => ?_⟩
      obtain ⟨eb, d, h1, h2, h3⟩ := key e he.texts
      rcases hw with hw | hw <;>
        simp [clientTransmit, h1, ClientM.onStream, sendEnvelope, sendMessage, h2, Pipe.write, hw,
          ClientM.bind, clientFill, h3]
    rcases hw : p.writes with _ | ⟨w, ws⟩
    · exact bad [] (Or.inl hw)
    · cases w with
      | false => exact bad ws (Or.inr hw)
      | true =>
        have hc : Planned to sender fun _ => clientAwait peer p := by
          refine planned_const _ _ _ ?_
          refine writes_bind (onStream_writes _ _ _ _) fun x => ?_
          obtain ⟨x, q⟩ := x
          cases x with
          | none => exact writes_stop _
          | some b => exact writes_pure _
        obtain ⟨plan, r, hpl⟩ := hc
        refine ⟨.envelope peer c.myRecord :: plan, r, fun e he => ?_⟩
        obtain ⟨eb, d, h1, h2, h3⟩ := key e he.texts
        have ha := await_sent peer { p with writes := ws, sent := [] ++ [d] } p rfl
        simp only [clientTransmit, h1, ClientM.onStream, sendEnvelope, sendMessage, h2, Pipe.write, hw,
          ClientM.bind, ha, hpl e he, List.map_cons, clientFill, h3]
        rfl

theorem forward_plan (c : DhtClient) (n : ClientNet) (to sender : Bytes) :
    Planned to sender fun e => clientForward c n e := by
  have : Planned to sender fun e => (clientLookup c n to).bind fun peer => clientSend c n e peer := by
    refine planned_bind (planned_const _ _ _ (writes_lookup c n to)) fun peer => ?_
    unfold clientSend
    split
    · exact planned_bind (planned_const _ _ _ (writes_newStream _ _ _)) fun p => transmit_plan ..
    · exact ⟨[], .error .err, fun e _ => rfl⟩
  obtain ⟨plan, r, h⟩ := this
  refine ⟨plan, r, fun e he => ?_⟩
  have := h e he
  unfold clientForward
  dsimp only at this ⊢
  rw [he.to]
  exact this

/-- **C127, client mode.** The same for a node in client mode. -/
theorem C127_client (c : DhtClient) (n : ClientNet) (to sender : Bytes) :
    ∃ (plan : List ClientSlot) (r : RouteEnd), ∀ e, Between to sender e →
      clientRoute c n e = (plan.map (clientFill e), r) := by
  by_cases hs : sender ≠ c.myAgent
  · exact ⟨[], .err, fun e h => by simp [clientRoute, h.sender, hs]⟩
  obtain ⟨plan, r, hf⟩ := forward_plan c n to sender
  obtain ⟨r', hfin⟩ : ∃ r', ∀ e, Between to sender e → (clientForward c n e).finish =
      (plan.map (clientFill e), r') := by
    cases r with
    | ok r => exact ⟨r, fun e he => by have := hf e he; dsimp only at this; rw [this]; rfl⟩
    | error r => exact ⟨r, fun e he => by have := hf e he; dsimp only at this; rw [this]; rfl⟩
  simp only [ne_eq, Decidable.not_not] at hs
  by_cases hmy : to = c.myAgent
  · cases hr : n.ready with
    | none => exact ⟨[], .crashed, fun e h => by simp [clientRoute, h.sender, hs, h.to, hmy, hr]⟩
    | some answers =>
      by_cases hc : true ∈ answers
      · by_cases ha : c.hasAgent = true
        · by_cases hok : n.agentOk = true
          · exact ⟨.agent :: plan, r', fun e h => by
              simp [clientRoute, h.sender, hs, h.to, hmy, hr, hc, ha, hok, hfin e h, clientFill]⟩
          · exact ⟨[.agent], .err, fun e h => by
              simp [clientRoute, h.sender, hs, h.to, hmy, hr, hc, ha, hok, clientFill]⟩
        · exact ⟨[], .ok, fun e h => by
            simp [clientRoute, h.sender, hs, h.to, hmy, hr, hc, ha]⟩
      · exact ⟨[], .waiting, fun e h => by
          simp [clientRoute, h.sender, hs, h.to, hmy, hr, hc]⟩
  · exact ⟨plan, r', fun e h => by simp [clientRoute, h.sender, hs, h.to, hmy, hfin e h]⟩

/-! ## Waiting envelopes -/

/-- Change the envelopes of a step. -/
def mapStep (f : Envelope → Envelope) : PairQueues.Step → PairQueues.Step
  | .recv h e => .recv h (f e)
  | .create h => .create h
  | .put h => .put h
  | .start w => .start w
  | .take w => .take w
  | .route w => .route w
  | .finish w => .finish w

/-- Change the envelope of a handler. -/
def mapHandler (f : Envelope → Envelope) : HandlerPhase → HandlerPhase
  | .ready => .ready
  | .missing e => .missing (f e)
  | .found e => .found (f e)

/-- Change the envelope of a worker. -/
def mapWorker (f : Envelope → Envelope) (w : Worker) : Worker :=
  ⟨w.pair, match w.phase with
    | .starting => .starting
    | .idle c => .idle c
    | .holding c e => .holding c (f e)
    | .busy c => .busy c⟩

/-- Change all envelopes. -/
def mapQueues (f : Envelope → Envelope) (s : PairQueues) : PairQueues :=
  ⟨fun h => mapHandler f (s.handlers h), s.chans.map (·.map f), s.table, s.workers.map (mapWorker f),
    s.received.map f, s.accepted.map f, s.routed.map f⟩

theorem mapQueues_step {f : Envelope → Envelope} (hf : ∀ e, (f e).to = e.to ∧ (f e).sender = e.sender)
    (s : PairQueues) (st : PairQueues.Step) :
    (mapQueues f s).step (mapStep f st) = mapQueues f (s.step st) := by
  have hp : ∀ e, (f e).pair = e.pair := fun e => by unfold Envelope.pair; rw [(hf e).1, (hf e).2]
  have hset : ∀ (h : Nat) (p : HandlerPhase),
      (mapQueues f s).setHandler h (mapHandler f p) = fun h' => mapHandler f (s.setHandler h p h') := by
    intro h p
    funext h'
    unfold PairQueues.setHandler mapQueues
    split <;> rfl
  have hw : ∀ w : Nat, (mapQueues f s).workers[w]? = (s.workers[w]?).map (mapWorker f) := by
    intro w; simp [mapQueues]
  have hc : ∀ c : Nat, (mapQueues f s).chans[c]? = (s.chans[c]?).map (·.map f) := by
    intro c; simp [mapQueues]
  have ht : (mapQueues f s).table = s.table := rfl
  have hh : ∀ h, (mapQueues f s).handlers h = mapHandler f (s.handlers h) := fun _ => rfl
  cases st with
  | recv h e =>
    simp only [PairQueues.step, mapStep, hh]
    cases hs : s.handlers h with
    | ready =>
      simp only [mapHandler, hp, ht]
      have : (if s.table.has e.pair = true then HandlerPhase.found (f e) else .missing (f e)) =
          mapHandler f (if s.table.has e.pair = true then .found e else .missing e) := by
        split <;> rfl
      rw [this, hset]
      simp [mapQueues]
    | missing x => rfl
    | found x => rfl
  | create h =>
    simp only [PairQueues.step, mapStep, hh]
    cases hs : s.handlers h with
    | ready => rfl
    | found x => rfl
    | missing e =>
      simp only [mapHandler, hp, ht]
      have : (mapQueues f s).setHandler h (.found (f e)) =
          fun h' => mapHandler f (s.setHandler h (.found e) h') := hset h (.found e)
      rw [this]
      simp [mapQueues, mapWorker]
  | put h =>
    simp only [PairQueues.step, mapStep, hh]
    cases hs : s.handlers h with
    | ready => rfl
    | missing x => rfl
    | found e =>
      have hr : (mapQueues f s).setHandler h .ready =
          fun h' => mapHandler f (s.setHandler h .ready h') := hset h .ready
      simp only [mapHandler, hp, ht]
      cases hg : s.table.get e.pair with
      | none => simp only [hr]; simp [mapQueues]
      | some c =>
        simp only [hc]
        have hl : ((Option.map (fun x => List.map f x) s.chans[c]?).getD []) =
            ((s.chans[c]?).getD []).map f := by cases s.chans[c]? <;> rfl
        rw [hl, List.length_map]
        split
        · rw [hr]; simp [mapQueues, List.map_set]
        · rw [hr]; simp [mapQueues]
  | start w =>
    simp only [PairQueues.step, mapStep, hw]
    rcases hs : s.workers[w]? with _ | ⟨k, ph⟩
    · rfl
    · cases ph with
      | starting =>
        simp only [Option.map_some, mapWorker, ht]
        cases s.table.get k with
        | none => rfl
        | some c => simp [mapQueues, mapWorker, List.map_set]
      | idle c => rfl
      | holding c e => rfl
      | busy c => rfl
  | take w =>
    simp only [PairQueues.step, mapStep, hw]
    rcases hs : s.workers[w]? with _ | ⟨k, ph⟩
    · rfl
    · cases ph with
      | starting => rfl
      | holding c e => rfl
      | busy c => rfl
      | idle c =>
        simp only [Option.map_some, mapWorker, hc]
        rcases hq : s.chans[c]? with _ | _ | ⟨e, rest⟩
        · rfl
        · rfl
        · simp [mapQueues, mapWorker, List.map_set]
  | route w =>
    simp only [PairQueues.step, mapStep, hw]
    rcases hs : s.workers[w]? with _ | ⟨k, ph⟩
    · rfl
    · cases ph with
      | holding c e => simp [mapQueues, mapWorker, List.map_set]
      | starting => rfl
      | idle c => rfl
      | busy c => rfl
  | finish w =>
    simp only [PairQueues.step, mapStep, hw]
    rcases hs : s.workers[w]? with _ | ⟨k, ph⟩
    · rfl
    · cases ph with
      | busy c => simp [mapQueues, mapWorker, List.map_set]
      | starting => rfl
      | idle c => rfl
      | holding c e => rfl

/-- **C127, queues.** Whatever the envelopes of clients contain, they wait and are routed in the same
order: if their contents are changed, but not receivers and senders, the same envelopes, changed, are
accepted and routed in the same order by the same steps. -/
theorem C127_queues (f : Envelope → Envelope) (hf : ∀ e, (f e).to = e.to ∧ (f e).sender = e.sender)
    (steps : List PairQueues.Step) :
    (PairQueues.run .init (steps.map (mapStep f))).accepted = (PairQueues.run .init steps).accepted.map f ∧
    (PairQueues.run .init (steps.map (mapStep f))).routed = (PairQueues.run .init steps).routed.map f := by
  have key : ∀ (steps : List PairQueues.Step) (s : PairQueues),
      PairQueues.run (mapQueues f s) (steps.map (mapStep f)) = mapQueues f (PairQueues.run s steps) := by
    intro steps
    induction steps with
    | nil => intro s; rfl
    | cons st steps ih =>
      intro s
      show PairQueues.run ((mapQueues f s).step (mapStep f st)) (steps.map (mapStep f)) = _
      rw [mapQueues_step hf]
      exact ih _
  have h := key steps .init
  have hi : mapQueues f .init = .init := rfl
  rw [hi] at h
  rw [h]
  exact ⟨rfl, rfl⟩

/-! ## Cases -/

namespace BlindDemo

open RouteDemo

set_option maxRecDepth 100000
set_option maxHeartbeats 4000000

/-- An envelope of the own agent with this protocol and message. -/
def env (to protocol message : Bytes) : Envelope := ⟨to, b! "me", protocol, message, []⟩

example : (routeEnvelope peer net (env (b! "rel") (b! "fetchai/default:1.0.0") (b! "hello"))).2 =
    ([Slot.inc, .stream (b! "rid") (some (rec (b! "me"))), .dec].map
      (fill (env (b! "rel") (b! "fetchai/default:1.0.0") (b! "hello"))), .ok) := by decide +kernel
example : (routeEnvelope peer net (env (b! "rel") (b! "x") [0, 255])).2 =
    ([Slot.inc, .stream (b! "rid") (some (rec (b! "me"))), .dec].map
      (fill (env (b! "rel") (b! "x") [0, 255])), .ok) := by
  decide +kernel
/-- Another receiver, another plan. -/
example : (routeEnvelope peer net (env (b! "ag") (b! "x") [0, 255])).2 =
    ([Slot.inc, .mailbox].map (fill (env (b! "ag") (b! "x") [0, 255])), .ok) := by decide +kernel
/-- The protocol has to be a text: no other envelope can be encoded, and none is read from a connection. -/
example : (routeEnvelope peer net (env (b! "rel") [255] (b! "hello"))).2 = ([.inc, .dec], .err) := by
  decide +kernel
example : Between (b! "rel") (b! "me") (env (b! "rel") (b! "x") [0, 255]) :=
  by
  refine ⟨rfl, rfl, Proto.isText_of_utf8Valid _ ?_, Proto.isText_of_utf8Valid _ ?_, Proto.isText_of_utf8Valid _ ?_,
    Proto.isText_of_utf8Valid _ ?_⟩ <;> decide +kernel

end BlindDemo

end PayloadBlind

end Verif
