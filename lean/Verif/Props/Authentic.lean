import Verif.Props.AgentToAgent
import Verif.Props.DhtClient
import Verif.Props.AgentPipe

/-!
# C119: where envelopes come from

All nodes that run this code together: what their agents, delegate clients and mailbox sessions hand in,
what is written on streams because of it, what arrives, and what agents are given.
-/

namespace Verif

open Acn

namespace Authentic

/-! ## The network -/

/-- The agent of a node: its record, what the node reads from its pipe, and the scheduling. -/
structure OwnAgent where
  T : AcnTexts
  record : AgentRecord
  pipe : Pipe
  steps : List AgentPipe.Step

/-- What its node has taken from the pipe. -/
def OwnAgent.node (a : OwnAgent) : AgentPipe := AgentPipe.run a.T (.connected (some a.record) a.pipe) a.steps

/-- A connection of a delegate client. -/
structure Delegate where
  T : AcnTexts
  por : PoRCheck
  txt : StatusCode → Bytes
  key : Bytes
  announce : Bool
  pipe : Pipe

/-- What its peer does because of it. -/
def Delegate.events (d : Delegate) : List DelegateEvent :=
  (delegateConnection d.T d.por d.txt d.key d.announce d.pipe).1

/-- A request to send an envelope at a mailbox service. -/
structure Post where
  mailbox : Mailbox
  request : HttpReq

/-- Everything that hands in envelopes. -/
structure World where
  agent : OwnAgent → Prop
  delegate : Delegate → Prop
  post : Post → Prop

/-- The envelopes for which `RouteEnvelope` is called: libp2p_node.go:155-164, dhtpeer.go:972-984,
mailbox.go:184. -/
inductive Submitted (W : World) (e : Envelope) : Prop
  | agent (a : OwnAgent) (ha : W.agent a) (h : e ∈ a.node.forwarded)
  | delegate (d : Delegate) (hd : W.delegate d) (h : .queued e ∈ d.events)
  | post (q : Post) (hq : W.post q) (h : Mailbox.sendEnvelope q.request q.mailbox = .forward e)

/-- Not longer than an address space. -/
def Small (e : Envelope) : Prop := ∀ eb, e.encode = some eb → eb.length < 2 ^ 64

/-- What nodes write on streams for envelopes: a peer, the queue of a peer, and a client. -/
inductive OnWire (W : World) (f : Bytes) : Prop
  | route (s : PeerState) (n : Net) (e : Envelope) (peer : Bytes) (hs : Submitted W e) (hl : Small e)
      (h : .stream peer f ∈ (routeEnvelope s n e).2.1)
  | retry (s : PeerState) (n : Net) (e : Envelope) (peer : Bytes) (hs : Submitted W e) (hl : Small e)
      (h : .stream peer f ∈ (slowAttempt s n e).1)
  | client (c : DhtClient) (n : ClientNet) (e : Envelope) (peer : Bytes) (hs : Submitted W e) (hl : Small e)
      (h : .write .envelope peer f ∈ (clientRoute c n e).1)

/-- The envelopes that handlers of streams take, if all that is read was written by such a node. -/
def Arrived (W : World) (e : Envelope) : Prop :=
  ∃ T por key p, (∀ f, some f ∈ p.reads → OnWire W f ∧ f.length < 2 ^ 64) ∧
    (receiveEnvelopeFromPeer T por key p).1 = .ok e

/-- What is done with envelopes for an agent of the node: by a peer and by a client, with what was handed
in and with what arrived. -/
inductive Done (W : World) : Act → Prop
  | route (s : PeerState) (n : Net) (e : Envelope) (a : Act) (hs : Submitted W e) (hl : Small e)
      (h : a ∈ (routeEnvelope s n e).2.1) : Done W a
  | handle (s : PeerState) (n : Net) (e : Envelope) (a : Act) (hs : Arrived W e) (hl : Small e)
      (h : a ∈ (handleAeaEnvelope s n e).2.1) : Done W a
  | clientRoute (c : DhtClient) (n : ClientNet) (e e' : Envelope) (hs : Submitted W e)
      (h : .agent e' ∈ (clientRoute c n e).1) : Done W (.agent e')
  | clientHandle (c : DhtClient) (ok : Bool) (e e' : Envelope) (hs : Arrived W e)
      (h : .agent e' ∈ (clientHandleEnvelope c ok e).1) : Done W (.agent e')

/-- An agent is given an envelope: by its node, by its mailbox, or over the connection of a delegate
client. -/
inductive Given (W : World) (e : Envelope) : Prop
  | agent (h : Done W (.agent e))
  | mailbox (h : Done W (.mailbox e))
  | conn (c : Nat) (f : Bytes) (h : Done W (.conn c f)) (hl : f.length < 2 ^ 64)
      (hf : frameEnvelope f = some e)

/-! ## Who wrote an envelope -/

/-- The envelope was written by the agent with this address: by an agent with a record of the address
over the pipe to its node, over a connection registered with a valid record of the address, or by a session of
the address. -/
inductive WrittenBy (W : World) (a : Bytes) (e : Envelope) : Prop
  | agent (x : OwnAgent) (hx : W.agent x) (ha : x.record.address = a) (f : Bytes × Bool)
      (hf : f ∈ x.node.frames) (he : frameEnvelope f.1 = some e)
  | delegate (d : Delegate) (hd : W.delegate d) (r : AgentRecord) (ha : r.address = a)
      (hr : d.por r a d.key = .ok .success) (evs : List DelegateEvent) (hreg : d.events = .registered r :: evs)
      (f : Bytes) (hf : some f ∈ d.pipe.reads) (he : frameEnvelope f = some e)
  | post (q : Post) (hq : W.post q) (ha : MailSpec.ownerOf q.mailbox q.request.session = some a)
      (b : Bytes) (hb : q.request.body = some b) (he : Envelope.decode b = some e)

/-- Sessions of mailboxes name their own address as the sender. -/
def World.Honest (W : World) : Prop :=
  ∀ q e, W.post q → Mailbox.sendEnvelope q.request q.mailbox = .forward e →
    MailSpec.ownerOf q.mailbox q.request.session = some e.sender

/-! ## Proofs -/

theorem peerMessage_frame {e : Envelope} {rec : Option AgentRecord} {d : Bytes} (h : peerMessage e rec = some d)
    (hs : Small e) (hd : d.length < 2 ^ 64) : frameEnvelope d = some e := by
  unfold peerMessage at h
  cases hee : e.encode with
  | none => rw [hee] at h; simp at h
  | some eb =>
    rw [hee] at h
    simp only [Option.bind_some] at h
    unfold frameEnvelope
    rw [show AcnMessage.decode d = some (some (.aeaEnvelope eb rec)) from C18_acn_round_trip h (AcnMessage.codeFits rfl) hd]
    exact C19_envelope_round_trip hee (hs eb hee)

theorem mem_deliveries {a : Act} {acts : List Act} (h : a ∈ acts) (hd : a.isDelivery = true) :
    a ∈ deliveries acts := List.mem_filter.2 ⟨h, hd⟩

theorem OverStream.frame {s : PeerState} {n : Net} {e : Envelope} {peer : Bytes} {acts : List Act}
    (h : OverStream s n e peer acts) {a : Act} (ha : a ∈ deliveries acts) :
    ∃ p rec d, peerMessage e rec = some d ∧ a = .stream p d := by
  obtain ⟨rec, d, _, h1, h2⟩ := h.only a ha
  exact ⟨peer, rec, d, h1, h2⟩

/-- What a delivery is made of. -/
def Holds (e : Envelope) (a : Act) : Prop :=
  a = .mailbox e ∨ a = .agent e ∨ (∃ c d, peerMessage e none = some d ∧ a = .conn c d) ∨
    ∃ p rec d, peerMessage e rec = some d ∧ a = .stream p d

theorem conn_holds {e : Envelope} {c : Nat} {a : Act}
    (h : a ∈ ((peerMessage e none).map fun d => Act.conn c d).toList) : Holds e a := by
  cases hp : peerMessage e none with
  | none => rw [hp] at h; simp at h
  | some d =>
    rw [hp] at h
    simp only [Option.map_some, Option.toList_some, List.mem_singleton] at h
    exact .inr (.inr (.inl ⟨c, d, hp, h⟩))

theorem route_holds (s : PeerState) (n : Net) (e : Envelope) {a : Act}
    (h : a ∈ deliveries (routeEnvelope s n e).2.1) : Holds e a := by
  obtain ⟨h1, h2⟩ := C31_route_partial s n e
  by_cases hs : SenderLocal s e
  · have hd := h2 hs
    split at hd
    · rw [hd] at h; exact .inl (List.mem_singleton.1 h)
    · rw [hd] at h
      split at h
      · exact .inr (.inl (List.mem_singleton.1 h))
      · simp at h
    · rw [hd] at h; exact conn_holds h
    · split at hd
      · rw [hd] at h; simp at h
      · exact .inr (.inr (.inr (OverStream.frame hd h)))
    · split at hd
      · exact .inr (.inr (.inr (OverStream.frame hd h)))
      · rw [hd] at h; simp at h
  · rw [h1 hs] at h; simp at h

theorem handle_holds (s : PeerState) (n : Net) (e : Envelope) {a : Act}
    (h : a ∈ deliveries (handleAeaEnvelope s n e).2.1) : Holds e a := by
  obtain ⟨h1, h2, h3⟩ := C31_handle s n e
  by_cases ha : Accepts s e
  · rw [h1 ha] at h; exact .inl (List.mem_singleton.1 h)
  · cases ht : s.tcpAddresses.get e.to with
    | some x => rw [h2 ha x ht] at h; exact conn_holds h
    | none =>
      rw [h3 ha ht] at h
      split at h
      · exact .inr (.inl (List.mem_singleton.1 h))
      · simp at h

theorem retry_holds (s : PeerState) (n : Net) (e : Envelope) {a : Act}
    (h : a ∈ deliveries (slowAttempt s n e).1) : Holds e a := by
  unfold slowAttempt routeDHTLookup at h
  split at h
  · simp [deliveries] at h
  cases hrec : envelopeRecord s e with
  | none => rw [hrec] at h; simp [deliveries] at h
  | some rec =>
    rw [hrec] at h
    dsimp only at h
    cases hl : lookupAddressDHT n.por n.idFrom n.cid e.to n.rounds with
    | found peer r =>
      rw [hl] at h
      have ho := overStream_of (n := n) (peer := peer) hrec (pre := []) (post := []) rfl rfl
      rw [List.nil_append, List.append_nil] at ho
      exact .inr (.inr (.inr (OverStream.frame ho h)))
    | error => rw [hl] at h; simp [deliveries] at h
    | crashed => rw [hl] at h; simp [deliveries] at h
    | running => rw [hl] at h; simp [deliveries] at h

theorem client_frame (c : DhtClient) (n : ClientNet) (e : Envelope) {peer f : Bytes}
    (h : .write .envelope peer f ∈ (clientRoute c n e).1) : peerMessage e c.myRecord = some f := by
  have hm : (peer, f) ∈ networkDeliveries (clientRoute c n e).1 := List.mem_filterMap.2 ⟨_, h, rfl⟩
  rcases (C32_route_partial c n e).2.2.2 with h0 | ⟨p, d, _, _, _, _, _, hw, h0⟩
  · rw [h0] at hm; simp at hm
  · rw [h0] at hm
    simp only [List.mem_singleton, Prod.mk.injEq] at hm
    rw [hm.2]
    exact hw

/-- What is on a wire is the message of an envelope that was handed in. -/
theorem OnWire.submitted {W : World} {f : Bytes} (h : OnWire W f) (hl : f.length < 2 ^ 64) :
    ∃ e, Submitted W e ∧ frameEnvelope f = some e := by
  have key : ∀ e, Small e → ∀ p, Holds e (.stream p f) → frameEnvelope f = some e := by
    intro e hs p hh
    rcases hh with hh | hh | ⟨_, _, _, hh⟩ | ⟨_, rec, d, hp, hh⟩
    · cases hh
    · cases hh
    · cases hh
    · cases hh
      exact peerMessage_frame hp hs hl
  cases h with
  | route s n e peer hs hsm h => exact ⟨e, hs, key e hsm peer (route_holds s n e (mem_deliveries h rfl))⟩
  | retry s n e peer hs hsm h => exact ⟨e, hs, key e hsm peer (retry_holds s n e (mem_deliveries h rfl))⟩
  | client c n e peer hs hsm h => exact ⟨e, hs, peerMessage_frame (client_frame c n e h) hsm hl⟩

theorem Arrived.submitted {W : World} {e : Envelope} (h : Arrived W e) : Submitted W e := by
  obtain ⟨T, por, key, p, hp, h⟩ := h
  obtain ⟨buf, rest, eb, r, hr, hd, he, _⟩ := (C27_record_proven_partial T por key p e).1 h
  obtain ⟨hw, hl⟩ := hp buf (by rw [hr]; simp)
  obtain ⟨e', hs, hf⟩ := hw.submitted hl
  unfold frameEnvelope at hf
  rw [hd] at hf
  dsimp only at hf
  rw [he] at hf
  cases hf
  exact hs

theorem Done.holds {W : World} {a : Act} (h : Done W a) (ha : a.isDelivery = true) :
    ∃ e, Submitted W e ∧ Holds e a ∧ ((∀ e', a ≠ .agent e') → Small e) := by
  cases h with
  | route s n e _ hs hl h => exact ⟨e, hs, route_holds s n e (mem_deliveries h ha), fun _ => hl⟩
  | handle s n e _ hs hl h => exact ⟨e, hs.submitted, handle_holds s n e (mem_deliveries h ha), fun _ => hl⟩
  | clientRoute c n e e' hs h =>
    have hm : e' ∈ agentDeliveries (Verif.clientRoute c n e).1 := List.mem_filterMap.2 ⟨_, h, rfl⟩
    refine ⟨e, hs, .inr (.inl ?_), fun hn => absurd rfl (hn e')⟩
    rcases (C32_route_partial c n e).2.2.1 with h0 | h0
    · rw [h0] at hm; simp at hm
    · rw [h0] at hm; rw [List.mem_singleton.1 hm]
  | clientHandle c ok e e' hs h =>
    have hm : e' ∈ agentDeliveries (clientHandleEnvelope c ok e).1 := List.mem_filterMap.2 ⟨_, h, rfl⟩
    refine ⟨e, hs.submitted, .inr (.inl ?_), fun hn => absurd rfl (hn e')⟩
    rw [(clientHandleEnvelope_iff c ok e).1] at hm
    split at hm
    · rw [List.mem_singleton.1 hm]
    · simp at hm

theorem mem_queuedOf {e : Envelope} {evs : List DelegateEvent} (h : .queued e ∈ evs) : e ∈ queuedOf evs := by
  induction evs with
  | nil => simp at h
  | cons ev evs ih =>
    rcases List.mem_cons.1 h with h1 | h1
    · subst h1; simp [queuedOf]
    · have h2 := ih h1
      cases ev <;> simp [queuedOf, h2]

theorem sentBy_frame {a : Bytes} {f : Bytes × Bool} {e : Envelope} (h : sentBy a f = some e) :
    frameEnvelope f.1 = some e := by
  unfold sentBy at h
  unfold frameEnvelope
  split at h
  · rename_i b r hd
    rw [hd]
    dsimp only
    split at h
    · rename_i e' he
      split at h
      · rw [he]; exact h
      · simp at h
    · simp at h
  · simp at h

/-- Who handed in an envelope: an agent or a delegate client under its own address, a session under any. -/
theorem Submitted.writer {W : World} {e : Envelope} (h : Submitted W e) :
    WrittenBy W e.sender e ∨ ∃ q, W.post q ∧ Mailbox.sendEnvelope q.request q.mailbox = .forward e := by
  cases h with
  | agent a ha h =>
    refine .inl ?_
    have hs := (C46_sender a.T a.record a.pipe a.steps e h).symm
    have hm : e ∈ sentOnly a.record.address a.node.frames := by
      rcases C46_own_envelopes a.T a.record a.pipe a.steps with h1 | ⟨_, _, h1⟩ <;>
        (unfold OwnAgent.node at h ⊢; rw [← h1]; simp [h])
    obtain ⟨f, hf, he⟩ := List.mem_filterMap.1 hm
    exact .agent a ha hs f hf (sentBy_frame he)
  | delegate d hd h =>
    refine .inl ?_
    have hq := (delegateConnection_sublist d.T d.por d.txt d.key d.announce d.pipe).subset (mem_queuedOf h)
    obtain ⟨f, hf, he⟩ := List.mem_filterMap.1 hq
    have hf' : some f ∈ d.pipe.reads := by simpa using hf
    rcases C26_sender_is_registered d.T d.por d.txt d.key d.announce d.pipe with h0 | ⟨r, evs, h0, hr, hall⟩
    · unfold Delegate.events at h; rw [h0] at h; simp at h
    · have hmem : DelegateEvent.queued e ∈ evs := by
        unfold Delegate.events at h; rw [h0] at h
        simpa using h
      rcases hall _ hmem with ⟨e', h1, h2⟩ | ⟨s, h1⟩ | h1
      · cases h1
        exact .delegate d hd r h2.symm (h2 ▸ hr) evs h0 f hf' he
      · cases h1
      · cases h1
  | post q hq h => exact .inr ⟨q, hq, h⟩

theorem Given.submitted {W : World} {e : Envelope} (h : Given W e) : Submitted W e := by
  cases h with
  | agent h =>
    obtain ⟨e', hs, hh, _⟩ := h.holds rfl
    rcases hh with hh | hh | ⟨_, _, _, hh⟩ | ⟨_, _, _, _, hh⟩ <;> cases hh
    exact hs
  | mailbox h =>
    obtain ⟨e', hs, hh, _⟩ := h.holds rfl
    rcases hh with hh | hh | ⟨_, _, _, hh⟩ | ⟨_, _, _, _, hh⟩ <;> cases hh
    exact hs
  | conn c f h hl hf =>
    obtain ⟨e', hs, hh, hsm⟩ := h.holds rfl
    rcases hh with hh | hh | ⟨_, _, hp, hh⟩ | ⟨_, _, _, _, hh⟩ <;> cases hh
    rw [peerMessage_frame hp (hsm (by simp)) hl] at hf
    cases hf
    exact hs

end Authentic

open Authentic

/-- **C119, nothing is made up.** In a network of nodes that all run this code, whatever their tables, the
network and the scheduling: an envelope that an agent is given was handed in as it is, by an agent to its own
node, by a delegate client or by a session of a mailbox. -/
theorem C119_unaltered {W : World} {e : Envelope} (h : Given W e) : Submitted W e := h.submitted

/-- **C119, the part that holds.** If sessions of mailboxes name themselves as the sender, an envelope
that an agent is given was written by the agent that it names as its sender. What is missing: sessions need
not, and nodes that run other code. -/
theorem C119_partial {W : World} (hW : W.Honest) {e : Envelope} (h : Given W e) : WrittenBy W e.sender e := by
  rcases h.submitted.writer with h1 | ⟨q, hq, hf⟩
  · exact h1
  · have hs := hW q e hq hf
    unfold Mailbox.sendEnvelope at hf
    split at hf
    · cases hf
    · rw [← ownerOf_eq, hs] at hf
      dsimp only at hf
      split at hf
      · cases hf
      · cases hf
      · rename_i body _ hb
        split at hf
        · cases hf
        · rename_i e' hd
          cases hf
          exact .post q hq hs body hb hd

/-- So nobody is given an envelope of an agent that is nowhere. -/
theorem C119_absent {W : World} (hW : W.Honest) {a : Bytes}
    (h1 : ∀ x, W.agent x → x.record.address ≠ a)
    (h2 : ∀ d r, W.delegate d → .registered r ∈ d.events → r.address ≠ a)
    (h3 : ∀ q, W.post q → MailSpec.ownerOf q.mailbox q.request.session ≠ some a)
    {e : Envelope} (h : Given W e) : e.sender ≠ a := by
  rintro rfl
  cases C119_partial hW h with
  | agent x hx ha _ _ _ => exact h1 x hx ha
  | delegate d hd r ha _ evs hreg _ _ _ => exact h2 d r hd (by rw [hreg]; simp) ha
  | post q hq ha _ _ _ => exact h3 q hq ha

/-- With any sessions: the envelope was written by its sender, or is one of a session. -/
theorem C119_or_session {W : World} {e : Envelope} (h : Given W e) :
    WrittenBy W e.sender e ∨ ∃ q, W.post q ∧ Mailbox.sendEnvelope q.request q.mailbox = .forward e :=
  h.submitted.writer

/-! ## Concrete cases -/

namespace AuthDemo

/-- The session of `eve` hands in an envelope as `bob`. -/
def forged : Post := ⟨RouteDemo.mbox, ⟨b! "POST", some (b! "s1"), (MailDemo.env (b! "ag") (b! "bob")).encode⟩⟩
/-- Only that session. -/
def eveOnly : World := ⟨fun _ => False, fun _ => False, fun q => q = forged⟩
/-- The delegate client `ag` with two envelopes. -/
def client : Delegate := ⟨HandlersDemo.T, HandlersDemo.por, fun _ => [], b! "pk", true, JourneyDemo.whole.inA⟩
/-- Only that client. -/
def agOnly : World := ⟨fun _ => False, fun d => d = client, fun _ => False⟩

set_option maxRecDepth 100000
set_option maxHeartbeats 4000000

/-- `bob` is given the envelope of `ag`. -/
theorem given : Given agOnly (JourneyDemo.env (b! "1")) :=
  .conn 3 (JourneyDemo.frame (JourneyDemo.env (b! "1")))
    (.route JourneyDemo.peer RouteDemo.net (JourneyDemo.env (b! "1")) _
      (.delegate client rfl (by decide)) (by intro eb he; revert eb; decide) (by decide))
    (by decide) (by decide)

example : agOnly.Honest := fun _ _ h => absurd h id

end AuthDemo

set_option maxRecDepth 100000 in
set_option maxHeartbeats 4000000 in
/-- **C119 is false** of sessions of mailboxes: `ag` is given an envelope of `bob`, who is nowhere. -/
theorem C119_counterexample :
    Given AuthDemo.eveOnly (MailDemo.env (b! "ag") (b! "bob")) ∧
    ¬ WrittenBy AuthDemo.eveOnly (b! "bob") (MailDemo.env (b! "ag") (b! "bob")) := by
  refine ⟨.mailbox (.route RouteDemo.peer RouteDemo.net _ _
    (.post AuthDemo.forged rfl C28_delivered_counterexample.1) ?_ ?_), ?_⟩
  · intro eb he
    have : (MailDemo.env (b! "ag") (b! "bob")).encode = some (((MailDemo.env (b! "ag") (b! "bob")).encode).getD []) := by
      decide
    rw [this] at he
    cases he
    decide
  · rw [C28_delivered_counterexample.2.2]; simp
  · intro h
    cases h with
    | agent x hx => exact hx
    | delegate d hd => exact hd
    | post q hq ha =>
      subst hq
      rw [show MailSpec.ownerOf AuthDemo.forged.mailbox AuthDemo.forged.request.session = some (b! "eve") from
        C28_delivered_counterexample.2.1] at ha
      exact absurd ha (by decide)

end Verif
