import Verif.Model.StreamEnds
import Verif.Props.Routing
import Verif.Props.DhtClient

/-!
# C114: what becomes of streams

Spec. A function that has opened a stream, or was given one, calls `Close` or `Reset` of it before it
returns. How many streams are left open after a history is a sum over its calls.
-/

namespace Verif

open Acn

namespace StreamEnd

/-- The stream was given back, or the process is gone. -/
def done : StreamEnd → Bool
  | .left => false
  | _ => true

theorem ignoring_not_panic {m : PipeM Unit} {p : Pipe} (h : (m p).1 ≠ .panic) :
    ∃ p', PipeM.ignoring m p = (.ok (), p') := by
  unfold PipeM.ignoring
  rcases hm : m p with ⟨_ | _ | _, p'⟩
  · exact ⟨p', rfl⟩
  · exact ⟨p', rfl⟩
  · rw [hm] at h; exact absurd rfl h

/-! ## Handlers -/

/-- **C114.** The handler of envelopes closes every stream: whatever arrives, whatever the node does with it,
and also if the answer cannot be written. -/
theorem C114_envelope_handler (T : AcnTexts) (por : PoRCheck) (key : Bytes)
    (handler : Envelope → Option (StatusCode × Bytes)) (p : Pipe) :
    ((handleEnvelopeStream T por key handler p).1 = .panic ∧ envelopeHandler T por key handler p = .crashed) ∨
      ((handleEnvelopeStream T por key handler p).1 ≠ .panic ∧ envelopeHandler T por key handler p = .closed) := by
  unfold envelopeHandler handleEnvelopeStream PipeM.bind
  rcases hr : receiveEnvelopeFromPeer T por key p with ⟨env | e | _, p'⟩
  · dsimp only
    cases handler env with
    | none =>
      dsimp only
      rcases hs : PipeM.ignoring sendSuccess p' with ⟨_ | _ | _, p''⟩ <;> simp [PipeM.pure]
    | some x =>
      obtain ⟨code, text⟩ := x
      dsimp only
      rcases hs : PipeM.ignoring (sendError text code) p' with ⟨_ | _ | _, p''⟩ <;> simp [PipeM.pure]
  · simp
  · simp

/-- **C114, partial.** The handler of look-ups leaves a stream exactly if it has answered with a record. -/
theorem C114_address_handler_partial (T : AcnTexts)
    (handler : Bytes → Res (StatusCode × Bytes) (Option AgentRecord)) (p : Pipe) :
    addressHandler T handler p = .left ↔ ∃ r p', handleAddressStream T handler p = (.ok r, p') := by
  unfold addressHandler handleAddressStream PipeM.bind
  rcases hr : readLookupRequest T p with ⟨address | e | _, p'⟩
  · dsimp only
    rcases hh : handler address with _ | ⟨code, text⟩ | _
    · next o =>
      cases o with
      | none => simp [PipeM.crash]
      | some r =>
        dsimp only
        rcases hs : sendLookupResponse (some r) p' with ⟨_ | _ | _, p''⟩ <;> simp [PipeM.pure]
    · dsimp only
      rcases hs : PipeM.ignoring (sendError text code) p' with ⟨_ | _ | _, p''⟩ <;> simp [PipeM.fail]
    · simp [PipeM.crash]
  · simp
  · simp

/-- **C114, partial.** The handler of registrations leaves a stream exactly if it has refused a proof. -/
theorem C114_register_handler_partial (T : AcnTexts) (por : PoRCheck) (porText : StatusCode → Bytes) (key : Bytes)
    (p : Pipe) :
    registerHandler T por porText key p = .left ↔
      ∃ r p', readRegistration T p = (.ok (some r), p') ∧ por r r.address key ≠ .panic ∧
        por r r.address key ≠ .ok .success := by
  unfold registerHandler
  rcases hr : readRegistration T p with ⟨(_ | r) | e | _, p'⟩
  · simp
  · dsimp only
    rcases hp : por r r.address key with code | _ | _
    · cases code
      case success =>
        dsimp only
        rcases hs : sendSuccess p' with ⟨_ | _ | _, p''⟩ <;> simp [hp]
      all_goals
        dsimp only
        obtain ⟨p'', hs⟩ := ignoring_not_panic (sendMessage_not_panic (some (.status (some
          ⟨StatusCode.toInt _, [porText _]⟩))) p')
        unfold sendError
        rw [hs]
        simp [hp]
    · simp [hp]
    · simp [hp]
  · simp
  · simp

/-! ## Senders -/

/-- **C114, partial.** A peer leaves the stream of an envelope exactly if it has written the envelope and the
wait for the answer has ended, whatever the answer is. -/
theorem C114_peer_send_partial (n : Net) (peer : Bytes) (record : Option AgentRecord) (e : Envelope) :
    peerSend n peer record e = some .left ↔
      ∃ p0 eb p, n.stream peer = some p0 ∧ e.encode = some eb ∧
        sendEnvelope eb record { p0 with sent := [] } = (.ok (), p) ∧ (readStatus p).1 ≠ .panic ∧
        (readStatus p).1 ≠ .ok none := by
  unfold peerSend
  cases hp : n.stream peer with
  | none => simp
  | some p0 =>
    cases he : e.encode with
    | none => simp
    | some eb =>
      dsimp only
      rcases hs : sendEnvelope eb record { p0 with sent := [] } with ⟨_ | _ | _, p⟩
      · dsimp only
        rcases hr : (readStatus p).1 with (_ | b) | _ | _
        · simp [hs, hr]
        · simp only [true_iff]
          exact ⟨p0, eb, p, rfl, rfl, hs, by rw [hr]; simp, by rw [hr]; simp⟩
        · simp only [true_iff]
          exact ⟨p0, eb, p, rfl, rfl, hs, by rw [hr]; simp, by rw [hr]; simp⟩
        · simp [hs, hr]
      · simp [hs]
      · simp [hs]

/-- **C114 is false for peers.** Every envelope that a peer delivers to another node costs it a stream. -/
theorem C114_delivered_left (n : Net) (peer : Bytes) (record : Option AgentRecord) (e : Envelope)
    (h : (routeWithNewStream n peer record e).2 = .ok) : peerSend n peer record e = some .left := by
  unfold routeWithNewStream at h
  unfold peerSend
  cases hp : n.stream peer with
  | none => simp [hp] at h
  | some p0 =>
    rw [hp] at h
    dsimp only at h ⊢
    cases he : e.encode with
    | none => simp [he] at h
    | some eb =>
      rw [he] at h
      dsimp only at h ⊢
      rcases hs : sendEnvelope eb record { p0 with sent := [] } with ⟨_ | _ | _, p⟩
      · rw [hs] at h
        dsimp only at h ⊢
        rcases hr : (readStatus p).1 with (_ | b) | _ | _
        all_goals simp [hr] at h
        rfl
      · simp [hs] at h
      · simp [hs] at h

/-- One call of a peer that sends an envelope on a stream. -/
structure PeerSend where
  net : Net
  peer : Bytes
  record : Option AgentRecord
  envelope : Envelope

/-- How many streams are left open after some calls. -/
def leftOpen (calls : List PeerSend) : Nat :=
  (calls.filter fun c => peerSend c.net c.peer c.record c.envelope == some .left).length

/-- **C114 is false for peers.** The number of streams left open is not less than that of envelopes
delivered, without a bound. -/
theorem C114_grows (calls : List PeerSend) :
    (calls.filter fun c => (routeWithNewStream c.net c.peer c.record c.envelope).2 == .ok).length ≤
      leftOpen calls := by
  unfold leftOpen
  induction calls with
  | nil => simp
  | cons c calls ih =>
    rw [List.filter_cons, List.filter_cons]
    by_cases h : (routeWithNewStream c.net c.peer c.record c.envelope).2 = .ok
    · rw [if_pos (by simp [h]), if_pos (by simp [C114_delivered_left _ _ _ _ h])]
      simpa using ih
    · rw [if_neg (by simp [h])]
      split
      · exact Nat.le_succ_of_le ih
      · exact ih

/-- **C114.** A peer resets every stream of a look-up, whatever the providers answer. -/
theorem C114_lookups (por : PoRCheck) (idFrom : Bytes → Option Bytes) (address : Bytes) (ps : List Provider) :
    ∀ x ∈ lookups por idFrom address ps, x = .reset ∨ x = .crashed := by
  induction ps with
  | nil => simp [lookups]
  | cons p ps ih =>
    rw [lookups]
    split
    · exact ih
    · split
      · simp
      · simpa using ih
      · simp
      · split
        · simp
        · simpa using ih
        · simp
        · simpa using ih

/-- **C114.** A look-up opens a stream to every provider that can be reached, up to the one with which it ends, and to
none after it. -/
theorem C114_asked (por : PoRCheck) (idFrom : Bytes → Option Bytes) (address : Bytes) (ps : List Provider) (err : Bool)
    (last : Bytes) : ∃ pre post, ps = pre ++ post ∧
      (lookups por idFrom address ps).length = (pre.filter (·.stream.isSome)).length ∧
      (∀ q, q <+: pre → q ≠ pre → ∃ e l, lookupProviders por idFrom address err last q = .exhausted e l) ∧
      ((∃ r, lookupProviders por idFrom address err last pre = .done r) ∨
        post = [] ∧ ∃ e l, lookupProviders por idFrom address err last pre = .exhausted e l) := by
  induction ps generalizing err last with
  | nil =>
    refine ⟨[], [], rfl, rfl, ?_, .inr ⟨rfl, err, last, rfl⟩⟩
    intro q hq hne
    exact absurd (List.prefix_nil.1 hq) hne
  | cons p ps ih =>
    have stop : ∀ r : LookupEnd, (∀ q err last, lookupProviders por idFrom address err last (p :: q) = .done r) →
        (lookups por idFrom address (p :: ps)).length = 1 → p.stream.isSome = true →
        ∃ pre post, p :: ps = pre ++ post ∧
          (lookups por idFrom address (p :: ps)).length = (pre.filter (·.stream.isSome)).length ∧
          (∀ q, q <+: pre → q ≠ pre → ∃ e l, lookupProviders por idFrom address err last q = .exhausted e l) ∧
          ((∃ r, lookupProviders por idFrom address err last pre = .done r) ∨
            post = [] ∧ ∃ e l, lookupProviders por idFrom address err last pre = .exhausted e l) := by
      intro r hr hl hs
      refine ⟨[p], ps, rfl, by simp [hl, hs], ?_, .inl ⟨r, hr [] err last⟩⟩
      intro q hq hne
      rcases q with _ | ⟨x, q⟩
      · exact ⟨err, last, rfl⟩
      · obtain ⟨h1, h2⟩ := List.cons_prefix_cons.1 hq
        rw [h1, List.prefix_nil.1 h2] at hne
        exact absurd rfl hne
    have go : ∀ err' : Bool, (∀ q err last, lookupProviders por idFrom address err last (p :: q) =
          lookupProviders por idFrom address err' p.id q) →
        (lookups por idFrom address (p :: ps)).length =
          (lookups por idFrom address ps).length + (if p.stream.isSome then 1 else 0) →
        ∃ pre post, p :: ps = pre ++ post ∧
          (lookups por idFrom address (p :: ps)).length = (pre.filter (·.stream.isSome)).length ∧
          (∀ q, q <+: pre → q ≠ pre → ∃ e l, lookupProviders por idFrom address err last q = .exhausted e l) ∧
          ((∃ r, lookupProviders por idFrom address err last pre = .done r) ∨
            post = [] ∧ ∃ e l, lookupProviders por idFrom address err last pre = .exhausted e l) := by
      intro err' hr hl
      obtain ⟨pre, post, h1, h2, h3, h4⟩ := ih err' p.id
      refine ⟨p :: pre, post, by rw [h1]; rfl, ?_, ?_, ?_⟩
      · rw [hl, h2, List.filter_cons]
        split <;> simp
      · intro q hq hne
        rcases q with _ | ⟨x, q⟩
        · exact ⟨err, last, rfl⟩
        · obtain ⟨h5, h6⟩ := List.cons_prefix_cons.1 hq
          subst h5
          rw [hr]
          exact h3 q h6 (fun h => hne (by rw [h]))
      · rw [hr]; exact h4
    cases hst : p.stream with
    | none => exact go true (fun q err last => by simp [lookupProviders, hst]) (by simp [lookups, hst])
    | some pipe =>
      cases hla : (performAddressLookup address pipe).1 with
      | panic => exact stop .crashed (fun q err last => by simp [lookupProviders, hst, hla]) (by simp [lookups, hst, hla]) (by simp [hst])
      | err x => exact go false (fun q err last => by simp [lookupProviders, hst, hla]) (by simp [lookups, hst, hla])
      | ok r =>
        cases r with
        | none => exact stop .crashed (fun q err last => by simp [lookupProviders, hst, hla]) (by simp [lookups, hst, hla]) (by simp [hst])
        | some r =>
          cases hp : por r address r.peerPublicKey with
          | panic => exact stop .crashed (fun q err last => by simp [lookupProviders, hst, hla, hp]) (by simp [lookups, hst, hla, hp]) (by simp [hst])
          | err x => exact go false (fun q err last => by simp [lookupProviders, hst, hla, hp]) (by simp [lookups, hst, hla, hp])
          | ok code =>
            cases code with
            | success =>
              cases hid : idFrom r.peerPublicKey with
              | none => exact stop .error (fun q err last => by simp [lookupProviders, hst, hla, hp, hid]) (by simp [lookups, hst, hla, hp]) (by simp [hst])
              | some id => exact stop (.found id (some r)) (fun q err last => by simp [lookupProviders, hst, hla, hp, hid]) (by simp [lookups, hst, hla, hp]) (by simp [hst])
            | _ => exact go false (fun q err last => by simp [lookupProviders, hst, hla, hp]) (by simp [lookups, hst, hla, hp])

/-! ## Clients -/

theorem clientRegister_not_left (c : DhtClient) (s : Option Pipe) : .left ∉ clientRegister c s := by
  unfold clientRegister
  split
  · simp
  · split <;> simp

theorem clientRegister_ok {c : DhtClient} {s : Option Pipe} {u : Unit} (h : (registerAgentAddress c s).2 = .ok u) :
    clientRegister c s = [.closed] := by
  unfold registerAgentAddress at h
  unfold clientRegister
  cases s with
  | none => simp [ClientM.stop] at h
  | some p =>
    simp only [ClientM.onStream, ClientM.bind] at h
    rcases hs : sendRegister c.myRecord { p with sent := [] } with ⟨_ | _ | _, p'⟩
    · simp [hs]
    · simp [hs]
    · simp [hs] at h

/-- A stream that is returned, and what becomes of the others. -/
theorem clientStream_spec (c : DhtClient) (timeout : Nat) (s : StreamScript) :
    (∃ p, (newStreamLoop c timeout s).2 = .ok p ∧ (clientStream c timeout s).2 = some p ∧
      ∀ x ∈ (clientStream c timeout s).1, x = .closed) ∨
    (∃ r, (newStreamLoop c timeout s).2 = .error r ∧ (clientStream c timeout s).2 = none ∧
      (clientStream c timeout s).1.count .left ≤ 1) := by
  unfold newStreamLoop clientStream
  rcases hr : (retryLoop timeout s.script).result with _ | _ | p
  · exact .inr ⟨.waiting, rfl, rfl, by simp⟩
  · exact .inr ⟨.err, rfl, rfl, by simp⟩
  · dsimp only
    split
    · rcases hg : registerAgentAddress c s.register with ⟨acts, r | u⟩
      · right
        refine ⟨r, by simp [ClientM.bind], by simp, ?_⟩
        simp only []
        rw [List.count_append, List.count_eq_zero_of_not_mem (clientRegister_not_left c s.register)]
        simp
      · left
        refine ⟨p, by simp [ClientM.bind, ClientM.pure], by simp, ?_⟩
        simp only []
        rw [clientRegister_ok (u := u) (by rw [hg])]
        simp
    · exact .inl ⟨p, rfl, rfl, by simp⟩

theorem bind_snd_ok {α β : Type} {m : ClientM α} {a : α} (h : m.2 = .ok a) (f : α → ClientM β) :
    (m.bind f).2 = (f a).2 := by
  obtain ⟨acts, r⟩ := m
  simp only at h
  subst h
  rfl

theorem bind_snd_error {α β : Type} {m : ClientM α} {r : RouteEnd} (h : m.2 = .error r) (f : α → ClientM β) :
    (m.bind f).2 = .error r := by
  obtain ⟨acts, x⟩ := m
  simp only at h
  subst h
  rfl

theorem count_closed {l : List StreamEnd} (h : ∀ x ∈ l, x = .closed) : l.count .left = 0 := by
  apply List.count_eq_zero_of_not_mem
  intro hc
  cases h _ hc

/-- The look-up: if it has a peer, its streams are closed. -/
theorem clientLookup_spec (c : DhtClient) (n : ClientNet) (target : Bytes) :
    (clientLookup c n target).count .left ≤ 1 ∧
      ∀ peer, (Verif.clientLookup c n target).2 = .ok peer → ∀ x ∈ clientLookup c n target, x = .closed := by
  unfold clientLookup Verif.clientLookup
  rcases hc : clientStream c newStreamTimeoutRelayPeer n.relayStream with ⟨ends, o⟩
  have hspec := clientStream_spec c newStreamTimeoutRelayPeer n.relayStream
  rw [hc] at hspec
  rcases hspec with ⟨p, hn, ho, hx⟩ | ⟨r, hn, ho, hx⟩
  · simp only at ho hx
    subst ho
    rw [bind_snd_ok hn]
    dsimp only
    have h0 := count_closed hx
    rcases hl : performAddressLookup target { p with sent := [] } with ⟨(_ | r) | _ | _, p'⟩
    · refine ⟨by simp [h0], fun peer h => ?_⟩
      rw [bind_snd_ok (a := (none, p')) (by simp [ClientM.onStream, hl])] at h
      simp [ClientM.stop] at h
    · have hb := bind_snd_ok (β := Bytes) (m := ClientM.onStream .address c.relay (performAddressLookup target) p)
        (a := (some r, p')) (by simp [ClientM.onStream, hl])
      simp only [hb]
      rcases hp : n.por r target r.peerPublicKey with code | _ | _
      · cases code
        case success =>
          refine ⟨by simp [h0], fun peer _ x hm => ?_⟩
          rcases List.mem_append.mp hm with hm | hm
          · exact hx x hm
          · simpa using hm
        all_goals exact ⟨by simp [h0], fun peer h => by simp [ClientM.stop] at h⟩
      · exact ⟨by simp [h0], fun peer h => by simp [ClientM.stop] at h⟩
      · exact ⟨by simp [h0], fun peer h => by simp [ClientM.stop] at h⟩
    · refine ⟨by simp [h0], fun peer h => ?_⟩
      rw [bind_snd_error (r := .err) (by simp [ClientM.onStream, hl])] at h
      cases h
    · refine ⟨by simp [h0], fun peer h => ?_⟩
      rw [bind_snd_error (r := .crashed) (by simp [ClientM.onStream, hl])] at h
      cases h
  · simp only at ho hx
    subst ho
    refine ⟨hx, fun peer h => ?_⟩
    rw [bind_snd_error hn] at h
    cases h

/-- The envelope stream: if the call ends well, it is closed. -/
theorem clientSend_spec (c : DhtClient) (n : ClientNet) (e : Envelope) (peer : Bytes) :
    (clientSend c n e peer).count .left ≤ 1 ∧
      ((Verif.clientSend c n e peer).2 = .ok .ok → ∀ x ∈ clientSend c n e peer, x = .closed) := by
  unfold clientSend Verif.clientSend
  split
  · rcases hc : clientStream c newStreamTimeout (n.peerStream peer) with ⟨ends, o⟩
    have hspec := clientStream_spec c newStreamTimeout (n.peerStream peer)
    rw [hc] at hspec
    rcases hspec with ⟨p, hn, ho, hx⟩ | ⟨r, hn, ho, hx⟩
    · simp only at ho hx
      subst ho
      rw [bind_snd_ok hn]
      dsimp only
      have h0 := count_closed hx
      unfold clientTransmit
      cases he : e.encode with
      | none => exact ⟨by simp [h0], fun h => by simp [ClientM.stop] at h⟩
      | some eb =>
        dsimp only
        rcases hs : sendEnvelope eb c.myRecord { p with sent := [] } with ⟨_ | _ | _, p'⟩
        · rw [bind_snd_ok (a := ((), p')) (by simp [ClientM.onStream, hs])]
          dsimp only
          unfold clientAwait
          rcases hr : readStatus { p' with sent := [] } with ⟨(_ | b) | _ | _, p''⟩
          · refine ⟨by simp [h0], fun h => ?_⟩
            rw [bind_snd_ok (a := (none, p'')) (by simp [ClientM.onStream, hr])] at h
            simp [ClientM.stop] at h
          · refine ⟨by simp [h0], fun _ x hm => ?_⟩
            rcases List.mem_append.mp hm with hm | hm
            · exact hx x hm
            · simpa using hm
          · refine ⟨by simp [h0], fun h => ?_⟩
            rw [bind_snd_error (r := .err) (by simp [ClientM.onStream, hr])] at h
            cases h
          · refine ⟨by simp [h0], fun h => ?_⟩
            rw [bind_snd_error (r := .crashed) (by simp [ClientM.onStream, hr])] at h
            cases h
        · refine ⟨by simp [h0], fun h => ?_⟩
          rw [bind_snd_error (r := .err) (by simp [ClientM.onStream, hs])] at h
          cases h
        · refine ⟨by simp [h0], fun h => ?_⟩
          rw [bind_snd_error (r := .crashed) (by simp [ClientM.onStream, hs])] at h
          cases h
    · simp only at ho hx
      subst ho
      refine ⟨hx, fun h => ?_⟩
      rw [bind_snd_error hn] at h
      cases h
  · exact ⟨by simp, fun h => by simp [ClientM.stop] at h⟩

/-- **C114, partial.** A client that has delivered an envelope has closed all streams it opened for it; otherwise
it leaves one at most. Missing from the property: `C114_counterexample`. -/
theorem C114_client_partial (c : DhtClient) (n : ClientNet) (e : Envelope) :
    ((Verif.clientForward c n e).2 = .ok .ok → ∀ x ∈ clientForward c n e, x = .closed) ∧
      (clientForward c n e).count .left ≤ 1 := by
  have h1 := clientLookup_spec c n e.to
  unfold clientForward Verif.clientForward
  rcases hl : (Verif.clientLookup c n e.to).2 with r | peer
  · refine ⟨fun h => ?_, by simpa using h1.1⟩
    rw [bind_snd_error hl] at h
    cases h
  · have h2 := clientSend_spec c n e peer
    have h3 := h1.2 peer hl
    refine ⟨fun h => ?_, ?_⟩
    · rw [bind_snd_ok hl] at h
      intro x hx
      rcases List.mem_append.mp hx with hx | hx
      · exact h3 x hx
      · exact h2.2 h x hx
    · rw [List.count_append, count_closed h3]
      simpa using h2.1

/-! ## What goes wrong -/

set_option maxRecDepth 100000
set_option maxHeartbeats 4000000

/-- A client whose relay peer does not know the address. -/
def unknown : ClientNet :=
  { c32Net with
      relayStream :=
        ⟨⟨some (some ⟨[AcnMessage.encode (some (.status (some ⟨20, []⟩)))], [true], []⟩), []⟩, none⟩ }

/-- A look-up stream with a request. -/
def request : Pipe := ⟨[AcnMessage.encode (some (.lookupRequest (b! "bob")))], [true], []⟩

/-- **C114 is false as stated.** A peer that delivers an envelope, and one that is told of a failure, leaves the
stream; so does a client whose relay does not know the address; so does the handler of a look-up that has
answered; and the handler of notifications always. -/
theorem C114_counterexample :
    (routeWithNewStream RouteDemo.net (b! "pk") none (RouteDemo.env (b! "far"))).2 = .ok ∧
    peerSend RouteDemo.net (b! "pk") none (RouteDemo.env (b! "far")) = some .left ∧
    (Verif.clientForward c32Client unknown c32Envelope).finish.2 = .err ∧
    clientForward c32Client unknown c32Envelope = [.left] ∧
    addressHandler ⟨fun _ => [], fun _ => []⟩ (fun a => .ok (some (RouteDemo.rec a))) request = .left ∧
    notifHandler = .left := by
  refine ⟨by decide, by decide, by decide, by decide, by decide, rfl⟩

/-- A client that delivers closes both streams. -/
example : clientForward c32Client c32Net c32Envelope = [.closed, .closed] := by decide

/-- A provider that does not answer and one that does: both streams are reset. -/
example : lookups RouteDemo.net.por RouteDemo.net.idFrom (b! "far")
    [⟨b! "x", none⟩, ⟨b! "y", some ⟨[none], [true], []⟩⟩, ⟨b! "z", some
      ⟨[AcnMessage.encode (some (.lookupResponse (some (RouteDemo.rec (b! "far")))))], [true], []⟩⟩] =
    [.reset, .reset] := by decide

/-- Three sends, one of which cannot open its stream: two streams are left. -/
example : leftOpen [⟨RouteDemo.net, b! "pk", none, RouteDemo.env (b! "a")⟩,
    ⟨{ RouteDemo.net with stream := fun _ => none }, b! "pk", none, RouteDemo.env (b! "b")⟩,
    ⟨RouteDemo.net, b! "pk", none, RouteDemo.env (b! "c")⟩] = 2 := by decide

end StreamEnd

end Verif
