import Verif.Props.EndToEnd
import Verif.Props.ClientDelivery

/-!
# C131: what a sender learns about an envelope, with clients at either end

`RouteEnvelope` of a node in client mode, or of a peer, together with `HandleAeaEnvelopeStream` and
`HandleAeaEnvelope` of the node at the other end, which may be a peer or a node in client mode, over a stream
that may break at any time.
-/

namespace Verif

open Acn ClientM

/-! ## Specification -/

/-- The node at the other end of a stream, with the behaviour of its surroundings. -/
inductive FarEnd where
  | peer (s : PeerState) (n : Net)
  | client (c : DhtClient) (agentOk : Bool)

namespace FarEnd

/-- `HandleAeaEnvelope` as the handler of the stream: dhtpeer.go:1456-1613, dhtclient.go:632-651. -/
def handler (text : StatusCode → Bytes) : FarEnd → Envelope → Option (StatusCode × Bytes)
  | .peer s n, e => peerHandler s n text e
  | .client c ok, e =>
    match (clientHandleEnvelope c ok e).2 with
    | .ok _ => none
    | .err x => some (x, text x)
    | .panic => none

/-- The node has handed the envelope over, once: a peer to whom it is addressed there, a client to its agent,
who took it. -/
def Handed (e : Envelope) : FarEnd → Prop
  | .peer s n => ∃ a, HandsOver s n e a ∧ (handleAeaEnvelope s n e).2.1 = [a]
  | .client c ok =>
    e.to = c.myAgent ∧ c.hasAgent = true ∧ ok = true ∧ (clientHandleEnvelope c ok e).1 = [.agent e]

/-- Waiting for the acknowledgement of a delegate client does not crash. -/
def Sane : FarEnd → Prop
  | .peer _ n => n.ack ≠ .panic
  | .client _ _ => True

/-- The program at the other end. -/
def receiver (T : AcnTexts) (por : PoRCheck) (key : Bytes) (text : StatusCode → Bytes) (far : FarEnd) :
    PipeM Envelope :=
  handleEnvelopeStream T por key (far.handler text)

theorem handler_none {far : FarEnd} {text : StatusCode → Bytes} {e : Envelope} (hs : far.Sane) :
    far.handler text e = none ↔ far.Handed e := by
  cases far with
  | peer s n => exact (peerHandler_none hs).trans (C78_handed_over s n e)
  | client c ok =>
    simp only [handler, Handed, clientHandleEnvelope]
    split
    · rename_i u h
      split at h
      · rename_i hc
        cases ok with
        | true => simp [hc]
        | false => simp at h
      · simp at h
    · rename_i x h
      split at h
      · cases ok with
        | true => simp at h
        | false => simp
      · rename_i hc
        simp only [reduceCtorEq, false_iff]
        rintro ⟨h1, h2, _⟩
        exact hc ⟨h1, h2⟩
    · rename_i h
      split at h
      · cases ok <;> simp at h
      · simp at h

theorem handler_noFalseError (far : FarEnd) (text : StatusCode → Bytes) : NoFalseError (far.handler text) := by
  cases far with
  | peer s n => exact peerHandler_noFalseError s n text
  | client c ok =>
    intro e t h
    simp only [handler, clientHandleEnvelope] at h
    split at h
    · simp at h
    · rename_i x hx
      split at hx
      · cases ok <;> simp at hx
        subst hx; simp at h
      · simp at hx
        subst hx; simp at h
    · simp at h

end FarEnd

/-- The stream from a client to the other end: what one reads is what the other wrote, cut off at any point. -/
structure ClientHop (c : DhtClient) (e : Envelope) (peer : Bytes) (receiver : PipeM Envelope) (pa pb : Pipe) : Prop where
  fresh : pb.sent = []
  forth : Carries (clientWritten (clientTransmit c e peer pa).1) pb.reads
  back : Carries (receiver pb).2.sent pa.reads
  size : ∀ f ∈ clientWritten (clientTransmit c e peer pa).1 ++ (receiver pb).2.sent, f.length < 2 ^ 64
  small : ∀ eb, e.encode = some eb → eb.length < 2 ^ 64

/-! ## From a client -/

/-- The call is what is done on the stream. -/
theorem clientRoute_transmit {c : DhtClient} {n : ClientNet} {e : Envelope} {peer : Bytes} {p : Pipe}
    (hs : e.sender = c.myAgent) (ht : e.to ≠ c.myAgent) (hr : ClockForward n.relayStream.script.rounds)
    (hp : ClockForward (n.peerStream peer).script.rounds) (hl : Located c n e.to peer)
    (ha : n.addrOk peer = true) (hc : n.connectOk peer = true) (ho : StreamOpened c 60000 (n.peerStream peer) p) :
    (clientRoute c n e).2 = (clientTransmit c e peer p).finish.2 := by
  have h1 := (clientLookup_iff c n e.to peer hr).2 hl
  have h2 : (newStreamLoop c newStreamTimeout (n.peerStream peer)).2 = .ok p := (newStreamLoop_ok c 60000 _ hp p).2 ho
  unfold clientRoute
  rw [if_neg (by simp [hs]), if_neg ht]
  unfold clientForward
  rcases hx : clientLookup c n e.to with ⟨a1, r1⟩
  rw [hx] at h1
  dsimp only at h1
  subst h1
  simp only [ClientM.bind, clientSend, ha, hc, Bool.and_self, if_true]
  rcases hy : newStreamLoop c newStreamTimeout (n.peerStream peer) with ⟨a2, r2⟩
  rw [hy] at h2
  dsimp only at h2
  subst h2
  dsimp only
  rcases clientTransmit c e peer p with ⟨a3, r3⟩
  cases r3 <;> rfl

/-- **C131, partial: from a client.** If a client reports success, then it has found a node for the receiver and
written the envelope to a stream to it, and whoever is at the other end, a peer or a client, has got that very
envelope with a record that is proven for the client, and has handed it over, once. Missing from the property:
an envelope may be handed over although an error is reported (`C131_lost_counterexample`). -/
theorem C131_from_client_partial {c : DhtClient} {n : ClientNet} {e : Envelope}
    (hs : e.sender = c.myAgent) (ht : e.to ≠ c.myAgent) (hr : ClockForward n.relayStream.script.rounds)
    (hp : ∀ q, ClockForward (n.peerStream q).script.rounds) (hok : (clientRoute c n e).2 = .ok) :
    ∃ peer pa, Located c n e.to peer ∧ StreamOpened c 60000 (n.peerStream peer) pa ∧
      ∀ {T : AcnTexts} {por : PoRCheck} {key : Bytes} {text : StatusCode → Bytes} {far : FarEnd} {pb : Pipe},
        far.Sane → ClientHop c e peer (far.receiver T por key text) pa pb →
        (far.receiver T por key text pb).1 = .ok e ∧ far.Handed e ∧
        ∃ r, c.myRecord = some r ∧ por r r.address key = .ok .success := by
  obtain ⟨peer, pa, eb, body, hl, ha, hc, ho, _⟩ := (C32_success_iff c n e hs ht hr hp).1 hok
  refine ⟨peer, pa, hl, ho, ?_⟩
  intro T por key text far pb hsane X
  have h := (clientRoute_transmit hs ht hr (hp peer) hl ha hc ho).symm.trans hok
  have h' : (clientTransmit c e peer pa).2 = .ok .ok := by
    have hne : (clientTransmit c e peer pa).2 ≠ .error .ok := by
      unfold clientTransmit
      split
      · simp [ClientM.stop]
      · unfold clientAwait ClientM.onStream ClientM.bind
        generalize sendEnvelope _ c.myRecord { pa with sent := [] } = x
        obtain ⟨r, q⟩ := x
        cases r with
        | err _ => simp
        | panic => simp
        | ok u =>
          dsimp only
          generalize readStatus { q with sent := [] } = y
          obtain ⟨r, q'⟩ := y
          rcases r with (_ | _) | _ | _ <;> simp [ClientM.stop, ClientM.pure]
    rcases hx : clientTransmit c e peer pa with ⟨acts, r⟩
    rw [hx] at h hne
    cases r with
    | ok r => exact congrArg Except.ok h
    | error r => exact absurd (congrArg Except.error h) hne
  obtain ⟨r, hrec, hpor, h1, h2⟩ := C55_client_envelope_agreed (far.handler_noFalseError text) X.small X.fresh
    X.forth X.back X.size h'
  exact ⟨h1, (FarEnd.handler_none hsane).1 h2, r, hrec, hpor⟩

/-! ## From a peer -/

/-- **C131, partial: from a peer.** The same for a peer that reports success without having queued the envelope,
with a client at the other end as well as a peer. -/
theorem C131_from_peer_partial {T : AcnTexts} {por : PoRCheck} {key : Bytes} {text : StatusCode → Bytes}
    {s : PeerState} {n : Net} {e : Envelope} {peer : Bytes} {far : FarEnd} {pa pb : Pipe}
    (hsane : far.Sane) (hg : GoesTo s n e peer) (X : Hop s n peer e (far.receiver T por key text) pa pb)
    (hok : (routeEnvelope s n e).2.2 = .ok) (hq : .slow e ∉ (routeEnvelope s n e).2.1) (hc : s.closing = false) :
    (far.receiver T por key text pb).1 = .ok e ∧ far.Handed e ∧
    ∃ r, envelopeRecord s e = some (some r) ∧ por r r.address key = .ok .success := by
  obtain ⟨rec, hrec, hcase⟩ := route_goesTo hg
  have h : (routeWithNewStream n peer rec e).2 = .ok := by
    rcases hcase with ⟨_, h⟩ | ⟨_, h⟩
    · rw [h] at hok; exact hok
    · rw [h] at hok hq
      split at hok
      · rename_i he
        rw [if_pos he, hc] at hq
        simp at hq
      · exact hok
  obtain ⟨r, hr, hpor, h1, h2⟩ := C55_envelope_agreed (far.handler_noFalseError text) X.small
    X.opened X.fresh (X.forth rec hrec) X.back (X.size rec hrec) h
  subst hr
  exact ⟨h1, (FarEnd.handler_none hsane).1 h2, r, hrec, hpor⟩

/-! ## Over a whole stream -/

/-- The answer to an envelope over a stream that carries everything. -/
theorem answer_exact {T : AcnTexts} {por : PoRCheck} {key : Bytes} {handler : Envelope → Option (StatusCode × Bytes)}
    (hh : NoFalseError handler) {e : Envelope} {eb d : Bytes} {r : AgentRecord} {pb q : Pipe}
    (hee : e.encode = some eb) (hm : AcnMessage.encode (some (.aeaEnvelope eb (some r))) = some d)
    (hle : eb.length < 2 ^ 64) (hld : d.length < 2 ^ 64) (fresh : pb.sent = []) (hpb : pb.reads = [some d])
    (hq : q.reads = (handleEnvelopeStream T por key handler pb).2.sent.map some)
    (hsz : ∀ f ∈ (handleEnvelopeStream T por key handler pb).2.sent, f.length < 2 ^ 64) :
    if por r r.address key = .ok .success ∧ handler e = none then
      (readStatus q).1 = .ok (some ⟨StatusCode.success.toInt, []⟩)
    else (∃ x, (readStatus q).1 = .err x) ∨
      ∃ b, (readStatus q).1 = .ok (some b) ∧ b.code ≠ StatusCode.success.toInt := by
  have hdb : AcnMessage.decode d = some (some (.aeaEnvelope eb (some r))) :=
    C18_acn_round_trip hm (AcnMessage.codeFits rfl) hld
  have hdec : Envelope.decode eb = some e := C19_envelope_round_trip hee hle
  have hempty : (handleEnvelopeStream T por key handler pb).2.sent = [] → (readStatus q).1 = .err .read := by
    intro h
    rw [h] at hq
    simp [readStatus, PipeM.bind, Pipe.read, hq]
  have hstatus : ∀ (code : StatusCode) (msgs : List Bytes),
      (handleEnvelopeStream T por key handler pb).2.sent =
        (AcnMessage.encode (some (.status (some ⟨code.toInt, msgs⟩)))).toList →
      (AcnMessage.encode (some (.status (some ⟨code.toInt, msgs⟩))) = none ∧ (readStatus q).1 = .err .read) ∨
      (readStatus q).1 = .ok (some ⟨code.toInt, msgs⟩) := by
    intro code msgs h
    cases hb : AcnMessage.encode (some (.status (some ⟨code.toInt, msgs⟩))) with
    | none => exact .inl ⟨rfl, hempty (by rw [h, hb]; rfl)⟩
    | some b =>
      rw [hb] at h
      have hdd := decode_status hb (hsz b (by rw [h]; simp))
      rw [h] at hq
      exact .inr (by simp [readStatus, PipeM.bind, Pipe.read, hq, hdd, PipeM.pure])
  have hne : ∀ code : StatusCode, code ≠ .success → code.toInt ≠ StatusCode.success.toInt :=
    fun code hc hx => hc ((C55_status_codes _ _).1 hx)
  split
  · rename_i hcond
    have h1 : readEnvelope T pb = (.ok (eb, some r), { pb with reads := [] }) :=
      readEnvelope_ok.2 ⟨d, [], hpb, rfl, hdb⟩
    have h2 : receiveEnvelopeFromPeer T por key pb = (.ok e, { pb with reads := [] }) := by
      unfold receiveEnvelopeFromPeer
      simp only [PipeM.bind, h1, hdec, hcond.1, PipeM.pure]
    have h3 : (handleEnvelopeStream T por key handler pb).2.sent =
        (AcnMessage.encode (some (.status (some ⟨StatusCode.success.toInt, []⟩)))).toList := by
      unfold handleEnvelopeStream
      rw [bind_eq h2]
      simp only [hcond.2, sendSuccess]
      obtain ⟨p', h, hs, _⟩ := ignoring_sendMessage (α := Envelope)
        (some (.status (some ⟨StatusCode.success.toInt, []⟩))) (fun _ => .pure e)
        { pb with reads := [] }
      rw [h]
      show p'.sent = _
      rw [hs, fresh]; rfl
    obtain ⟨b, hb⟩ := status_encodes (c := StatusCode.success.toInt) (msgs := []) (by simp)
    rcases hstatus .success [] h3 with ⟨hn, _⟩ | h
    · rw [hb] at hn; simp at hn
    · exact h
  · rename_i hcond
    rcases handleEnvelopeStream_sent (T := T) (por := por) (key := key) (handler := handler) hpb hdb hdec with
      hx | ⟨r', code, txt, hrr, hp, hc, hx⟩ | ⟨r', hrr, hp, ho, hx⟩
    · exact .inl ⟨_, hempty (by rw [hx, fresh])⟩
    · rw [fresh, List.nil_append] at hx
      rcases hstatus code [txt] hx with ⟨_, h⟩ | h
      · exact .inl ⟨_, h⟩
      · exact .inr ⟨_, h, hne code hc⟩
    · cases hrr
      rw [fresh, List.nil_append] at hx
      cases hhe : handler e with
      | none => exact absurd ⟨hp, hhe⟩ hcond
      | some ct =>
        obtain ⟨code, txt⟩ := ct
        rw [hhe] at hx
        have hc : code ≠ .success := by
          rintro rfl
          exact hh e txt hhe
        rcases hstatus code [txt] hx with ⟨_, h⟩ | h
        · exact .inl ⟨_, h⟩
        · exact .inr ⟨_, h, hne code hc⟩

open Classical in
/-- **C131, partial: over a whole stream.** If the stream of a client carries everything, the client learns the
result: success exactly if its record is proven and the node at the other end has handed the envelope over,
and otherwise an error. -/
theorem C131_carried_partial {T : AcnTexts} {por : PoRCheck} {key : Bytes} {text : StatusCode → Bytes}
    {c : DhtClient} {n : ClientNet} {e : Envelope} {peer d : Bytes} {r : AgentRecord} {far : FarEnd} {pa pb : Pipe}
    (hsane : far.Sane) (hs : e.sender = c.myAgent) (ht : e.to ≠ c.myAgent)
    (hr : ClockForward n.relayStream.script.rounds) (hp : ClockForward (n.peerStream peer).script.rounds)
    (hl : Located c n e.to peer) (ha : n.addrOk peer = true) (hc : n.connectOk peer = true)
    (ho : StreamOpened c 60000 (n.peerStream peer) pa) (X : ClientHop c e peer (far.receiver T por key text) pa pb)
    (hrec : c.myRecord = some r) (hd : peerMessage e (some r) = some d)
    (hw : pa.writes.head? = some true) (hpb : pb.reads = [some d])
    (hpa : pa.reads = (far.receiver T por key text pb).2.sent.map some) :
    (clientRoute c n e).2 = if por r r.address key = .ok .success ∧ far.Handed e then .ok else .err := by
  rw [clientRoute_transmit hs ht hr hp hl ha hc ho]
  obtain ⟨eb, hee, hm⟩ : ∃ eb, e.encode = some eb ∧ AcnMessage.encode (some (.aeaEnvelope eb (some r))) = some d := by
    unfold peerMessage at hd
    cases hee : e.encode with
    | none => rw [hee] at hd; simp at hd
    | some eb => rw [hee] at hd; exact ⟨eb, rfl, by simpa using hd⟩
  obtain ⟨ws, hws⟩ : ∃ ws, pa.writes = true :: ws := by
    rcases hpw : pa.writes with _ | ⟨b, ws⟩
    · rw [hpw] at hw; simp at hw
    · rw [hpw] at hw; simp only [List.head?_cons, Option.some.injEq] at hw; exact ⟨ws, by rw [hw]⟩
  have hld : d.length < 2 ^ 64 := by
    refine X.size d (List.mem_append_left _ ?_)
    rw [clientTransmit_acts, clientWritten_map]
    simp [wireEnvelope, hee, hrec, hm]
  have hx := answer_exact (far.handler_noFalseError text) (q := { pa with writes := ws, sent := [] }) hee hm
    (X.small eb hee) hld X.fresh hpb hpa fun f hf => X.size f (List.mem_append_right _ hf)
  have hsend : sendEnvelope eb c.myRecord { pa with sent := [] } = (.ok (), { pa with writes := ws, sent := [d] }) := by
    simp only [sendEnvelope, sendMessage, hrec, hm, Pipe.write, hws]
    rfl
  simp only [clientTransmit, hee, ClientM.onStream, hsend, ClientM.bind, clientAwait]
  rcases hy : readStatus { pa with writes := ws, sent := [] } with ⟨res, q⟩
  rw [hy] at hx
  dsimp only at hx
  split at hx
  · rename_i hcond
    rw [if_pos ⟨hcond.1, (FarEnd.handler_none hsane).1 hcond.2⟩, hx]
    simp [ClientM.finish, ClientM.pure]
  · rename_i hcond
    rw [if_neg fun h => hcond ⟨h.1, (FarEnd.handler_none hsane).2 h.2⟩]
    rcases hx with ⟨x, rfl⟩ | ⟨b, rfl, hb⟩
    · rfl
    · simp only [ClientM.finish, ClientM.pure]
      rw [if_pos hb]

open Classical in
/-- **C131, partial: over a whole stream from a peer.** A peer learns the result as well; an error is reported for
an envelope to a relay client, and otherwise the envelope is queued unless the peer is closing. -/
theorem C131_peer_carried_partial {T : AcnTexts} {por : PoRCheck} {key : Bytes} {text : StatusCode → Bytes}
    {s : PeerState} {n : Net} {e : Envelope} {peer d : Bytes} {r : AgentRecord} {far : FarEnd} {pa pb : Pipe}
    (hsane : far.Sane) (hg : GoesTo s n e peer) (X : Hop s n peer e (far.receiver T por key text) pa pb)
    (hr : envelopeRecord s e = some (some r)) (hd : peerMessage e (some r) = some d)
    (hw : pa.writes.head? = some true) (hpb : pb.reads = [some d])
    (hpa : pa.reads = (far.receiver T por key text pb).2.sent.map some) :
    if por r r.address key = .ok .success ∧ far.Handed e then
      (routeEnvelope s n e).2 = ([.inc, .stream peer d, .dec], .ok)
    else
      ((∃ id, destination s e = .relay id) → (routeEnvelope s n e).2 = ([.inc, .stream peer d, .dec], .err)) ∧
      (destination s e = .dht → (routeEnvelope s n e).2 =
        ([.inc, .stream peer d, .dec, .dec] ++ (if s.closing then [] else [.slow e]), .ok)) := by
  obtain ⟨rec, hrec, hcase⟩ := route_goesTo hg
  rw [hr] at hrec
  cases hrec
  obtain ⟨eb, hee, hm⟩ : ∃ eb, e.encode = some eb ∧ AcnMessage.encode (some (.aeaEnvelope eb (some r))) = some d := by
    unfold peerMessage at hd
    cases hee : e.encode with
    | none => rw [hee] at hd; simp at hd
    | some eb => rw [hee] at hd; exact ⟨eb, rfl, by simpa using hd⟩
  obtain ⟨ws, hws⟩ : ∃ ws, pa.writes = true :: ws := by
    rcases hpw : pa.writes with _ | ⟨b, ws⟩
    · rw [hpw] at hw; simp at hw
    · rw [hpw] at hw; simp only [List.head?_cons, Option.some.injEq] at hw; exact ⟨ws, by rw [hw]⟩
  have hroute : routeWithNewStream n peer (some r) e =
      match (readStatus { pa with writes := ws, sent := [d] }).1 with
        | .ok (some b) => ([.stream peer d, .dec], if b.code ≠ StatusCode.success.toInt then .err else .ok)
        | .ok none => ([.stream peer d], .crashed)
        | .err _ => ([.stream peer d, .dec], .err)
        | .panic => ([.stream peer d], .crashed) := by
    simp only [routeWithNewStream, X.opened, hee, sendEnvelope, sendMessage, hm, Pipe.write, hws]
    rfl
  have hld : d.length < 2 ^ 64 := by
    refine X.size _ hr d (List.mem_append_left _ ?_)
    rw [hroute]
    generalize (readStatus _).1 = st
    rcases st with (_ | b) | _ | _ <;> simp [streamed]
  have hx := answer_exact (far.handler_noFalseError text) (q := { pa with writes := ws, sent := [d] }) hee hm
    (X.small eb hee) hld X.fresh hpb hpa fun f hf => X.size _ hr f (List.mem_append_right _ hf)
  split at hx
  · rename_i hcond
    rw [if_pos ⟨hcond.1, (FarEnd.handler_none hsane).1 hcond.2⟩]
    rw [hx] at hroute
    simp only [ne_eq, not_true, if_false] at hroute
    rcases hcase with ⟨_, h'⟩ | ⟨_, h'⟩
    · rw [h', hroute]
    · rw [h', hroute]; simp
  · rename_i hcond
    rw [if_neg fun h => hcond ⟨h.1, (FarEnd.handler_none hsane).2 h.2⟩]
    have h : routeWithNewStream n peer (some r) e = ([.stream peer d, .dec], .err) := by
      rcases hx with ⟨x, hx⟩ | ⟨b, hx, hb⟩
      · rw [hroute, hx]
      · rw [hroute, hx]
        dsimp only
        rw [if_pos hb]
    rcases hcase with ⟨⟨id, hid⟩, h'⟩ | ⟨hid, h'⟩
    · exact ⟨fun _ => by rw [h', h], fun hx => by rw [hid] at hx; simp at hx⟩
    · refine ⟨fun ⟨id, hx⟩ => by rw [hid] at hx; simp at hx, fun _ => ?_⟩
      rw [h', h]
      simp

/-! ## Concrete cases -/

namespace FarEndDemo

/-- The receiving client: its agent is `you`. -/
def there : DhtClient := ⟨b! "you", some c32Record, true, b! "relay"⟩
/-- The envelope. -/
def env : Envelope := { c32Envelope with to := b! "you" }
/-- What the sending client writes. -/
def data : Bytes := (peerMessage env (some c32Record)).getD []
/-- The receiving end. -/
def receiving : Pipe := ⟨[some data], [true], []⟩
/-- The receiving program; `ok` is whether the agent takes the envelope. -/
def receiver (ok : Bool) : PipeM Envelope :=
  (FarEnd.client there ok).receiver HandlersDemo.T (fun _ _ _ => .ok .success) (b! "key") fun _ => b! "no"
/-- A network over which the answer gets lost. -/
def lossy : ClientNet := { c32Net with peerStream := fun _ => ⟨⟨some (some ⟨[none], [true], []⟩), []⟩, none⟩ }

set_option maxRecDepth 100000
set_option maxHeartbeats 4000000

/-- The envelope is handed over, the answer is the one that the client gets, and the client knows. -/
example : (clientRoute c32Client c32Net env).2 = .ok ∧
    networkDeliveries (clientRoute c32Client c32Net env).1 = [(b! "other", data)] ∧
    (receiver true receiving).1 = .ok env ∧
    (receiver true receiving).2.sent.map some = [AcnMessage.encode (some (.status (some ⟨0, []⟩)))] ∧
    (clientHandleEnvelope there true env).1 = [.agent env] := by decide +kernel

/-- An agent that does not take the envelope makes its client answer with an error. -/
example : (FarEnd.client there false).handler (fun _ => b! "no") env = some (.errorAgentNotReady, b! "no") := by decide

/-- The stream of the lossy network is one of those considered. -/
theorem lossy_carries : Carries [data] receiving.reads ∧ Carries (receiver true receiving).2.sent [none] :=
  ⟨⟨[data], [], [], rfl, rfl, by simp⟩, ⟨[], _, [none], rfl, rfl, by simp⟩⟩

end FarEndDemo

set_option maxRecDepth 100000 in
set_option maxHeartbeats 4000000 in
/-- **C131 is false** of errors: if the answer is lost, the client reports an error although the envelope was
handed over. -/
theorem C131_lost_counterexample :
    (clientRoute c32Client FarEndDemo.lossy FarEndDemo.env).2 = .err ∧
    networkDeliveries (clientRoute c32Client FarEndDemo.lossy FarEndDemo.env).1 = [(b! "other", FarEndDemo.data)] ∧
    (FarEndDemo.receiver true FarEndDemo.receiving).1 = .ok FarEndDemo.env ∧
    (clientHandleEnvelope FarEndDemo.there true FarEndDemo.env).1 = [.agent FarEndDemo.env] := by
  decide +kernel

end Verif
