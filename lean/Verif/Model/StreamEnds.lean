import Verif.Model.DhtClient
import Verif.Model.AddressStream

/-!
# What becomes of streams

The calls of `Close` and `Reset` that `Verif.Model.Routing`, `DhtClient`, `PeerHandlers` and
`AddressStream` leave out: for each function of

- libs/go/libp2p_node/dht/common/handlers.go:97-176,
- libs/go/libp2p_node/dht/dhtpeer/dhtpeer.go:338-354, 1235-1321, 1355-1420, 1615-1683, 1700-1793,
- libs/go/libp2p_node/dht/dhtclient/dhtclient.go:331-365, 468-623, 683-723

how it leaves the stream it opened or was given. The functions follow the same scripts as those models.
Errors of `Close` and `Reset` are ignored by the code, here they do not occur.
-/

namespace Verif

open Acn

/-- How a function leaves a stream. `crashed` is a call that ended the process. -/
inductive StreamEnd where
  | closed | reset | left | crashed
  deriving DecidableEq, Repr

namespace StreamEnd

/-! ## Handlers -/

/-- `HandleAeaEnvelopeStream`: handlers.go:97-126 -/
def envelopeHandler (T : AcnTexts) (por : PoRCheck) (remoteKey : Bytes)
    (handler : Envelope → Option (StatusCode × Bytes)) (p : Pipe) : StreamEnd :=
  match receiveEnvelopeFromPeer T por remoteKey p with
  | (.err _, _) => .closed                                  -- line 106
  | (.panic, _) => .crashed
  | (.ok env, p') =>
    match handler env with
    | some (code, text) =>
      match PipeM.ignoring (sendError text code) p' with
      | (.panic, _) => .crashed
      | _ => .closed                                        -- line 117
    | none =>
      match PipeM.ignoring sendSuccess p' with
      | (.panic, _) => .crashed
      | _ => .closed                                        -- line 124

/-- `HandleAeaAddressStream`: handlers.go:129-176 -/
def addressHandler (T : AcnTexts) (handler : Bytes → Res (StatusCode × Bytes) (Option AgentRecord)) (p : Pipe) :
    StreamEnd :=
  match readLookupRequest T p with
  | (.err _, _) => .reset                                   -- line 140
  | (.panic, _) => .crashed
  | (.ok address, p') =>
    match handler address with
    | .panic => .crashed
    | .err (code, text) =>
      match PipeM.ignoring (sendError text code) p' with
      | (.panic, _) => .crashed
      | _ => .closed                                        -- line 158
    | .ok none => .crashed
    | .ok (some r) =>
      match sendLookupResponse (some r) p' with
      | (.ok _, _) => .left                                 -- line 169, nothing after it
      | (.err _, _) => .reset                               -- line 173
      | (.panic, _) => .crashed

/-- `handleAeaRegisterStream`: dhtpeer.go:1700-1793, until the stream is not used any more. The code sends
`err.Error()`; `porText` as in `acceptRegistration`. -/
def registerHandler (T : AcnTexts) (por : PoRCheck) (porText : StatusCode → Bytes) (key : Bytes) (p : Pipe) :
    StreamEnd :=
  match readRegistration T p with
  | (.err _, _) => .reset                                   -- line 1721
  | (.panic, _) => .crashed
  | (.ok none, _) => .crashed
  | (.ok (some r), p') =>
    match por r r.address key with
    | .panic => .crashed
    | .err _ => .left                                       -- lines 1735-1740
    | .ok .success =>
      match sendSuccess p' with
      | (.ok _, _) => .closed                               -- line 1751
      | (.err _, _) => .reset                               -- line 1746
      | (.panic, _) => .crashed
    | .ok code =>
      match PipeM.ignoring (sendError (porText code) code) p' with
      | (.panic, _) => .crashed
      | _ => .left                                          -- lines 1735-1740

/-- `handleAeaNotifStream`: dhtpeer.go:1615-1689 neither reads from the stream nor closes it. -/
def notifHandler : StreamEnd := .left

/-! ## Senders -/

/-- `_routeEnvelopeWithNewStream`: dhtpeer.go:1235-1321; `none` if no stream was opened. -/
def peerSend (n : Net) (peer : Bytes) (record : Option AgentRecord) (e : Envelope) : Option StreamEnd :=
  match n.stream peer with
  | none => none
  | some p0 =>
    match e.encode with
    | none => some .reset                                   -- line 1276
    | some eb =>
      match sendEnvelope eb record { p0 with sent := [] } with
      | (.err _, _) => some .reset                          -- line 1289
      | (.panic, _) => some .crashed
      | (.ok _, p) =>
        match (readStatus p).1 with
        | .err _ => some .left                              -- lines 1301-1308
        | .ok none => some .crashed
        | .ok (some _) => some .left                        -- lines 1309-1320
        | .panic => some .crashed

/-- The streams opened to providers of a round: dhtpeer.go:1353-1421. Each is reset before its answer is
looked at, line 1391. -/
def lookups (por : PoRCheck) (idFrom : Bytes → Option Bytes) (address : Bytes) : List Provider → List StreamEnd
  | [] => []
  | p :: rest =>
    match p.stream with
    | none => lookups por idFrom address rest
    | some pipe =>
      match (performAddressLookup address pipe).1 with
      | .panic => [.crashed]
      | .err _ => .reset :: lookups por idFrom address rest
      | .ok none => [.reset]
      | .ok (some r) =>
        match por r address r.peerPublicKey with
        | .panic => [.reset]
        | .err _ => .reset :: lookups por idFrom address rest
        | .ok .success => [.reset]
        | .ok _ => .reset :: lookups por idFrom address rest

/-- `registerAgentAddress` of a client: dhtclient.go:683-723 -/
def clientRegister (c : DhtClient) (stream : Option Pipe) : List StreamEnd :=
  match stream with
  | none => []
  | some p =>
    match sendRegister c.myRecord { p with sent := [] } with
    | (.ok _, _) => [.closed]                               -- line 720
    | (.err _, _) => [.closed]                              -- line 716
    | (.panic, _) => [.crashed]

/-- `newStreamLoopUntilTimeout`: dhtclient.go:331-365, the streams it is done with, and the one that it returns
without an error. If registering again fails, the callers forget the stream that was opened (lines 357-364). -/
def clientStream (c : DhtClient) (timeout : Nat) (s : StreamScript) : List StreamEnd × Option Pipe :=
  match (retryLoop timeout s.script).result with
  | none => ([], none)
  | some none => ([], none)
  | some (some p) =>
    if s.script.first.isNone then
      match (registerAgentAddress c s.register).2 with
      | .ok _ => (clientRegister c s.register, some p)
      | .error _ => (clientRegister c s.register ++ [.left], none)
    else ([], some p)

/-- The look-up of a client at its relay peer: dhtclient.go:468-520. The stream is closed when the record was
found to be valid, line 508. -/
def clientLookup (c : DhtClient) (n : ClientNet) (target : Bytes) : List StreamEnd :=
  match clientStream c newStreamTimeoutRelayPeer n.relayStream with
  | (ends, none) => ends
  | (ends, some p) =>
    match performAddressLookup target { p with sent := [] } with
    | (.err _, _) => ends ++ [.left]                        -- lines 487-491
    | (.panic, _) => ends ++ [.crashed]
    | (.ok none, _) => ends ++ [.crashed]
    | (.ok (some r), _) =>
      match n.por r target r.peerPublicKey with
      | .panic => ends ++ [.crashed]
      | .err _ => ends ++ [.left]                           -- lines 493-506
      | .ok .success => ends ++ [.closed]                   -- line 508
      | .ok _ => ends ++ [.left]                            -- lines 493-506

/-- The envelope stream of a client: dhtclient.go:523-623 -/
def clientSend (c : DhtClient) (n : ClientNet) (e : Envelope) (peer : Bytes) : List StreamEnd :=
  if n.addrOk peer && n.connectOk peer then
    match clientStream c newStreamTimeout (n.peerStream peer) with
    | (ends, none) => ends
    | (ends, some p) =>
      match e.encode with
      | none => ends ++ [.reset]                            -- line 575
      | some eb =>
        match sendEnvelope eb c.myRecord { p with sent := [] } with
        | (.err _, _) => ends ++ [.reset]                   -- line 586
        | (.panic, _) => ends ++ [.crashed]
        | (.ok _, p') =>
          match readStatus { p' with sent := [] } with
          | (.err _, _) => ends ++ [.reset]                 -- line 600
          | (.ok none, _) => ends ++ [.closed]              -- line 605, then the crash
          | (.ok (some _), _) => ends ++ [.closed]          -- line 605
          | (.panic, _) => ends ++ [.crashed]
  else []

/-- The streams that `RouteEnvelope` of a client has opened: dhtclient.go:468-623, after the part that gives
an envelope to the own agent. -/
def clientForward (c : DhtClient) (n : ClientNet) (e : Envelope) : List StreamEnd :=
  clientLookup c n e.to ++
    match (Verif.clientLookup c n e.to).2 with
    | .ok peer => clientSend c n e peer
    | .error _ => []

end StreamEnd

end Verif
