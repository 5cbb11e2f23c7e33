import Verif.Model.Mailbox

/-!
# Routing at a peer

libs/go/libp2p_node/dht/dhtpeer/dhtpeer.go:1034-1526.

One call is one function of the tables at the time of the call and of the behaviour of the network,
given as a `Net`. The result is the list of actions in order and the outcome. Latency histograms and
logging are left out.
-/

namespace Verif

open Acn

/-- A provider found in the DHT: its peer id and the stream opened to it, `none` if opening
failed. -/
structure Provider where
  id : Bytes
  stream : Option Pipe
  deriving DecidableEq, Repr

/-- One round of `FindProvidersAsync`, and whether the context was done when asked after it. -/
structure LookupRound where
  providers : List Provider
  expired : Bool
  deriving DecidableEq, Repr

/-- How a look-up ends. `running` is a look-up that did not finish within the given rounds.
`found peer record` is the return value `(peer, record, nil)`; the record may be nil. -/
inductive LookupEnd where
  | found (peer : Bytes) (record : Option AgentRecord)
  | error
  | crashed
  | running
  deriving DecidableEq, Repr

/-- The inner loop over the providers of a round. -/
inductive ProvidersEnd where
  | done (r : LookupEnd)
  | exhausted (err : Bool) (last : Bytes)   -- outer variable `err` set?, `provider.ID`
  deriving DecidableEq, Repr

/-- The loop over the providers: dhtpeer.go:1353-1421. `err` is the outer variable of that name; the
errors of `PerformAddressLookup` and of the checks go to a variable local to the loop body. -/
def lookupProviders (por : PoRCheck) (idFrom : Bytes → Option Bytes) (address : Bytes) :
    Bool → Bytes → List Provider → ProvidersEnd
  | err, last, [] => .exhausted err last
  | _, _, p :: rest =>
    match p.stream with
    | none => lookupProviders por idFrom address true p.id rest
    | some pipe =>
      match (performAddressLookup address pipe).1 with
      | .panic => .done .crashed
      | .err _ => lookupProviders por idFrom address false p.id rest
      | .ok none => .done .crashed
      | .ok (some r) =>
        match por r address r.peerPublicKey with
        | .panic => .done .crashed
        | .err _ => lookupProviders por idFrom address false p.id rest
        | .ok .success =>
          match idFrom r.peerPublicKey with
          | none => .done .error
          | some id => .done (.found id (some r))
        | .ok _ => lookupProviders por idFrom address false p.id rest

/-- The rounds: dhtpeer.go:1350-1444 -/
def lookupRounds (por : PoRCheck) (idFrom : Bytes → Option Bytes) (address : Bytes) :
    Bool → Bytes → List LookupRound → LookupEnd
  | _, _, [] => .running
  | err, last, r :: rest =>
    match lookupProviders por idFrom address err last r.providers with
    | .done e => e
    | .exhausted err last =>
      if last = [] then
        if r.expired then .error else lookupRounds por idFrom address err last rest
      else if err then .error else .found [] none

/-- `lookupAddressDHT`: dhtpeer.go:1324-1445. `cid` tells whether the content id could be
computed. -/
def lookupAddressDHT (por : PoRCheck) (idFrom : Bytes → Option Bytes) (cid : Bool) (address : Bytes)
    (rounds : List LookupRound) : LookupEnd :=
  if cid then lookupRounds por idFrom address false [] rounds else .error

/-- Tables of a peer that matter for routing; connections are numbered. -/
structure PeerState where
  myAgent : Bytes
  myRecord : Option AgentRecord
  hasAgent : Bool                          -- `processEnvelope != nil`
  mailbox : Option Mailbox                 -- `mailboxServer`
  agentRecords : GoMap Bytes AgentRecord
  tcpAddresses : GoMap Bytes Nat
  dhtAddresses : GoMap Bytes Bytes
  closing : Bool

/-- Behaviour of everything outside during one call. -/
structure Net where
  por : PoRCheck
  idFrom : Bytes → Option Bytes
  cid : Bool
  /-- answers of `myAgentReady`, `none` if the function is not set -/
  ready : Option (List Bool)
  /-- `processEnvelope` returned nil -/
  agentOk : Bool
  /-- `WriteBytesConn` returned nil -/
  connOk : Bool
  /-- result of `AwaitAcnStatus` -/
  ack : Res Unit Unit
  /-- `peer.Decode` -/
  peerDecode : Bytes → Option Bytes
  /-- `NewStream` for envelopes to a peer -/
  stream : Bytes → Option Pipe
  /-- look-up rounds -/
  rounds : List LookupRound

/-- Actions of one call. -/
inductive Act where
  | inc | dec                                -- gauge of envelopes being routed
  | mailbox (e : Envelope)                   -- put into the mailbox
  | agent (e : Envelope)                     -- given to the peer's own agent
  | conn (c : Nat) (data : Bytes)            -- written to a delegate connection
  | stream (peer : Bytes) (data : Bytes)     -- written to a stream to a peer
  | slow (e : Envelope)                      -- put into the slow queue
  deriving DecidableEq, Repr

/-- How a call ends. `waiting` is a call that did not return. -/
inductive RouteEnd where
  | ok
  | err
  | crashed
  | waiting
  deriving DecidableEq, Repr

/-- `getEnvelopeAcnRecord`: dhtpeer.go:1034-1053. The outer `none` is the error. -/
def envelopeRecord (s : PeerState) (e : Envelope) : Option (Option AgentRecord) :=
  if e.sender = s.myAgent then some s.myRecord
  else if (match s.mailbox with | some m => m.isRegistered e.sender | none => false) = true then
    some (s.mailbox.bind fun m => m.getRecord e.sender)
  else match s.agentRecords.get e.sender with
    | some r => some (some r)
    | none => none

/-- `_routeEnvelopeWithNewStream`: dhtpeer.go:1235-1321. A nil status is dereferenced. -/
def routeWithNewStream (n : Net) (peer : Bytes) (record : Option AgentRecord) (e : Envelope) :
    List Act × RouteEnd :=
  match n.stream peer with
  | none => ([.dec], .err)
  | some p0 =>
    match e.encode with
    | none => ([.dec], .err)
    | some eb =>
      match sendEnvelope eb record { p0 with sent := [] } with
      | (.ok _, p) =>
        match (readStatus p).1 with
        | .ok (some b) =>
          (p.sent.map (.stream peer) ++ [.dec],
            if b.code ≠ StatusCode.success.toInt then .err else .ok)
        | .ok none => (p.sent.map (.stream peer), .crashed)
        | .err _ => (p.sent.map (.stream peer) ++ [.dec], .err)
        | .panic => (p.sent.map (.stream peer), .crashed)
      | (.err _, p) => (p.sent.map (.stream peer) ++ [.dec], .err)
      | (.panic, p) => (p.sent.map (.stream peer), .crashed)

/-- `_routeEnvelopeDHTLookup`: dhtpeer.go:1210-1233 -/
def routeDHTLookup (s : PeerState) (n : Net) (e : Envelope) : List Act × RouteEnd :=
  match envelopeRecord s e with
  | none => ([], .err)
  | some record =>
    match lookupAddressDHT n.por n.idFrom n.cid e.to n.rounds with
    | .found peer _ => routeWithNewStream n peer record e
    | .error => ([], .err)
    | .crashed => ([], .crashed)
    | .running => ([], .waiting)

/-- `mailboxServer.RouteEnvelope`, with no mailbox service: not accepted. -/
def mailboxRoute (s : PeerState) (e : Envelope) : PeerState × Bool :=
  match s.mailbox with
  | none => (s, false)
  | some m =>
    let (m', ok) := m.route e
    ({ s with mailbox := some m' }, ok)

/-- Waiting for the own agent: dhtpeer.go:1100-1104. -/
def awaitReady : Option (List Bool) → Bool
  | none => true
  | some l => l.contains true

/-- `MakeAcnMessageFromEnvelope`: aea/api.go:439-445 -/
def makeAcnMessage (e : Envelope) : Option Bytes :=
  e.encode.bind fun eb => AcnMessage.encode (some (.aeaEnvelope eb none))

/-- `RouteEnvelope`: dhtpeer.go:1055-1184. Putting an envelope into a full slow queue blocks; this
is not shown. -/
def routeEnvelope (s : PeerState) (n : Net) (e : Envelope) : PeerState × List Act × RouteEnd :=
  match envelopeRecord s e with
  | none => (s, [.inc], .err)
  | some record =>
    let delegate := s.tcpAddresses.get e.to
    let (s, accepted) := mailboxRoute s e
    if accepted then (s, [.inc, .mailbox e], .ok)
    else if e.to = s.myAgent then
      if awaitReady n.ready then
        if s.hasAgent then (s, [.inc, .agent e, .dec], if n.agentOk then .ok else .err)
        else (s, [.inc], .err)
      else (s, [.inc], .waiting)
    else match delegate with
      | some c =>
        match makeAcnMessage e with
        | none => (s, [.inc, .dec], .err)
        | some data =>
          (s, [.inc, .dec, .conn c data],
            if n.connOk then
              match n.ack with
              | .ok _ => .ok
              | .err _ => .err
              | .panic => .crashed
            else .err)
      | none =>
        match s.dhtAddresses.get e.to with
        | some sid =>
          match n.peerDecode sid with
          | none => (s, [.inc, .dec], .err)
          | some peer =>
            let (acts, r) := routeWithNewStream n peer record e
            (s, .inc :: acts, r)
        | none =>
          match routeDHTLookup s n e with
          | (acts, .err) =>
            (s, .inc :: acts ++ [.dec] ++ (if s.closing then [] else [.slow e]), .ok)
          | (acts, r) => (s, .inc :: acts, r)

/-- One round of `slowEnvelopeSendLoop`: dhtpeer.go:1186-1208. The error is only logged. -/
def slowAttempt (s : PeerState) (n : Net) (e : Envelope) : List Act × RouteEnd :=
  if s.closing then ([], .ok) else routeDHTLookup s n e

/-- `HandleAeaEnvelope`: dhtpeer.go:1456-1526. `ok` in place of a nil error. -/
def handleAeaEnvelope (s : PeerState) (n : Net) (e : Envelope) :
    PeerState × List Act × Res StatusCode Unit :=
  let delegate := s.tcpAddresses.get e.to
  let (s, accepted) := mailboxRoute s e
  if accepted then (s, [.mailbox e], .ok ())
  else match delegate with
    | some c =>
      match makeAcnMessage e with
      | none => (s, [], .err .errorDecode)
      | some data =>
        (s, [.conn c data],
          if n.connOk then
            match n.ack with
            | .ok _ => .ok ()
            | .err _ => .err .errorAgentNotReady
            | .panic => .panic
          else .err .errorAgentNotReady)
    | none =>
      if e.to = s.myAgent then
        if s.hasAgent then (s, [.agent e], .ok ()) else (s, [], .err .errorAgentNotReady)
      else (s, [], .err .errorUnknownAgentAddress)

/-- `HandleAeaAddressRequest`: dhtpeer.go:1533-1613. `myId` tells whether the peer id of the own key
could be computed (an error there is only logged). `running` is a look-up that has not ended. -/
def handleAddressRequest (s : PeerState) (n : Net) (myId : Bool) (address : Bytes) : LookupEnd :=
  let known (r : Option AgentRecord) : LookupEnd :=
    match r with
    | some r => .found [] (some r)
    | none => .error
  if address = s.myAgent then known (if myId then s.myRecord else none)
  else if (s.dhtAddresses.get address).isSome then known (s.agentRecords.get address)
  else if (match s.mailbox with | some m => m.isRegistered address | none => false) = true then
    known (s.mailbox.bind fun m => m.getRecord address)
  else if (s.tcpAddresses.get address).isSome then
    known (if myId then s.agentRecords.get address else none)
  else match lookupAddressDHT n.por n.idFrom n.cid address n.rounds with
    | .found _ r => known r
    | r => r

end Verif
