import Verif.Model.Acn

/-!
# Handlers of incoming connections at a peer

libs/go/libp2p_node/dht/common/handlers.go:55-126 and
libs/go/libp2p_node/dht/dhtpeer/dhtpeer.go:826-1010, 1700-1793.

The check of a proof of representation is a parameter `por record address peerKey`; in the code it
is `IsValidProofOfRepresentation`, see `Verif.Model.PoR`.
-/

namespace Verif

open Acn

/-- `IsValidProofOfRepresentation record address peerKey`. -/
abbrev PoRCheck := AgentRecord → Bytes → Bytes → Res Unit StatusCode

/-- `receiveEnvelopeFromPeer`: common/handlers.go:55-94. `remoteKey` is the public key of the other
peer in text form, empty if it could not be converted (line 78, the error is ignored).
`aeaEnvelope.Record.Address` with a nil record is a nil pointer dereference. -/
def receiveEnvelopeFromPeer (T : AcnTexts) (por : PoRCheck) (remoteKey : Bytes) : PipeM Envelope :=
  (readEnvelope T).bind fun (eb, rec) =>
    match Envelope.decode eb with
    | none =>
      (PipeM.ignoring (sendError (b! "while deserializing acn aea envelope message")
        .errorDecode)).bind fun _ => .fail .envelope
    | some env =>
      match rec with
      | none => .crash
      | some r =>
        match por r r.address remoteKey with
        | .panic => .crash
        | .err _ => .fail .peer
        | .ok .success => .pure env
        | .ok code =>
          (PipeM.ignoring (sendError (b! "incoming envelope PoR is not valid") code)).bind
            fun _ => .fail (.invalidPoR code)

/-- `HandleAeaEnvelopeStream`: common/handlers.go:96-126. `handler` is `HandleAeaEnvelope` of the
node: `none` for success, otherwise code and text of the error. The value is the envelope that was
given to the handler. -/
def handleEnvelopeStream (T : AcnTexts) (por : PoRCheck) (remoteKey : Bytes)
    (handler : Envelope → Option (StatusCode × Bytes)) : PipeM Envelope :=
  (receiveEnvelopeFromPeer T por remoteKey).bind fun env =>
    match handler env with
    | some (code, text) => (PipeM.ignoring (sendError text code)).bind fun _ => .pure env
    | none => (PipeM.ignoring sendSuccess).bind fun _ => .pure env

/-- The registration part of `handleNewDelegationConnection` (dhtpeer.go:857-890) and, with the
key of the other peer, of `handleAeaRegisterStream` (dhtpeer.go:1716-1751): read a registration,
check it, answer. `record.Address` with a nil record is a nil pointer dereference. `porText` is the
text of the error of the check. -/
def acceptRegistration (T : AcnTexts) (por : PoRCheck) (porText : StatusCode → Bytes) (key : Bytes) :
    PipeM AgentRecord :=
  (readRegistration T).bind fun rec =>
    match rec with
    | none => .crash
    | some r =>
      match por r r.address key with
      | .panic => .crash
      | .err _ => .fail .peer
      | .ok .success => sendSuccess.bind fun _ => .pure r
      | .ok code => (PipeM.ignoring (sendError (porText code) code)).bind
          fun _ => .fail (.invalidPoR code)

/-- What a delegate connection does to the rest of the peer, in order. -/
inductive DelegateEvent where
  | registered (r : AgentRecord)           -- entered into the tables, dhtpeer.go:892-903
  | queued (e : Envelope)                  -- put into the queue of its pair, dhtpeer.go:986-995
  | status (addr : Bytes) (s : StatusBody) -- `AddAcnStatusMessage(status, addr)`
  | unregistered (addr : Bytes)            -- removed from the tables, dhtpeer.go:1000-1008
  deriving DecidableEq, Repr

/-- How a delegate connection ends. -/
inductive DelegateEnd where
  | closed | crashed | refused
  deriving DecidableEq, Repr

/-- The loop of `handleNewDelegationConnection`: dhtpeer.go:923-996. The first argument is fuel;
every round consumes a read, so the number of reads plus one suffices (`delegateLoop_fuel`). -/
def delegateLoop (T : AcnTexts) (addr : Bytes) : Nat → Pipe → List DelegateEvent × DelegateEnd × Pipe
  | 0, p => ([], .closed, p)
  | f + 1, p =>
    match handleFromPipe T p with
    | (.panic, p') => ([], .crashed, p')
    | (.err _, p') => ([.unregistered addr], .closed, p')
    | (.ok (.status s), p') =>
      let (evs, r) := delegateLoop T addr f p'
      (.status addr s :: evs, r)
    | (.ok (.envelope e), p') =>
      let (evs, r) := delegateLoop T addr f p'
      if e.sender ≠ addr then (evs, r) else (.queued e :: evs, r)

/-- `handleNewDelegationConnection`: dhtpeer.go:834-1010. `announce` tells whether the announcement
of the address (lines 907-913) went well; otherwise the handler returns and the tables keep the
closed connection. -/
def delegateConnection (T : AcnTexts) (por : PoRCheck) (porText : StatusCode → Bytes) (myKey : Bytes)
    (announce : Bool) (p : Pipe) : List DelegateEvent × DelegateEnd × Pipe :=
  match acceptRegistration T por porText myKey p with
  | (.panic, p') => ([], .crashed, p')
  | (.err _, p') => ([], .refused, p')
  | (.ok r, p') =>
    if announce then
      let (evs, e) := delegateLoop T r.address (p'.reads.length + 1) p'
      (.registered r :: evs, e)
    else ([.registered r], .closed, p')

end Verif
