import Verif.Model.DhtClient
import Verif.Model.LookupTime

/-!
# How long routing takes in client mode

libs/go/libp2p_node/dht/dhtclient/dhtclient.go:63-70, 331-365, 428-623, 683-723, and the loop of main that hands the
agent's envelopes to the node one after the other, libs/go/libp2p_node/libp2p_node.go:154-163.

Time is in milliseconds, `none` is a call that never returns. Opening a stream gets a context with a time-out, so
each attempt returns; when it does is given by the network, also for an attempt whose context has expired.
`PerformAddressLookup`, `SendAgentRegisterMessage` and `ReadAcnStatus` read without a deadline, and `Connect` gets
`context.Background()`. When the time-out of a retry loop has expired, `select` takes the branch of the context in
this and in all later rounds, so the loop never ends (316-326, 349-355).

Simplification. Local work takes no time.
-/

namespace Verif

open Acn

/-- One attempt of a retry loop. -/
structure TimedTry (α : Type) where
  took : Nat
  result : Option α   -- `none` is an error
  deriving DecidableEq, Repr

/-- The body of the retry loops with its clock, entered at time `now` after attempt `k` has failed. The first
argument is fuel; each round takes time, so as much as the time-out is enough. -/
def timedRetry {α : Type} (timeout : Nat) (tries : Nat → TimedTry α) : Nat → Nat → Nat → Option (Nat × α)
  | 0, _, _ => none
  | f + 1, k, now =>
    if timeout ≤ now then none
    else
      match (tries (k + 1)).result with
      | some a => some (now + sleepTimeDefault * 2 ^ k + (tries (k + 1)).took, a)
      | none => timedRetry timeout tries f (k + 1) (now + sleepTimeDefault * 2 ^ k + (tries (k + 1)).took)

/-- First attempt and loop: how long it takes and what it returns; dhtclient.go:302-328, 337-356. -/
def timedLoop {α : Type} (timeout : Nat) (tries : Nat → TimedTry α) : Option (Nat × α) :=
  match (tries 0).result with
  | some a => some ((tries 0).took, a)
  | none => timedRetry timeout tries (timeout + 1) 0 (tries 0).took

/-- The rounds of the loop, as in the model without times. -/
def retryClock {α : Type} (timeout : Nat) (tries : Nat → TimedTry α) : Nat → Nat → Nat → List (RetryRound α)
  | 0, _, _ => []
  | f + 1, k, now =>
    if timeout ≤ now then []
    else ⟨now, (tries (k + 1)).result⟩ ::
      retryClock timeout tries f (k + 1) (now + sleepTimeDefault * 2 ^ k + (tries (k + 1)).took)

/-- A computation of the client that takes time. -/
abbrev TimedM (α : Type) := Option (Nat × ClientM α)

namespace TimedM

variable {α β : Type}

/-- Something that takes the given time. -/
def after (d : Option Nat) (m : ClientM α) : TimedM α := d.map (·, m)

/-- Sequence. -/
def bind (x : TimedM α) (f : α → TimedM β) : TimedM β :=
  match x with
  | none => none
  | some (t, (acts, .error r)) => some (t, (acts, .error r))
  | some (t, (acts, .ok a)) =>
    match f a with
    | none => none
    | some (t', m) => some (t + t', ClientM.bind (acts, .ok a) fun _ => m)

end TimedM

/-- Opening a stream, with times. -/
structure StreamTimes where
  tries : Nat → TimedTry (Option Pipe)
  register : Option Pipe
  /-- how long opening the stream for registering again takes, at most `newStreamTimeoutRelayPeer` -/
  registerOpening : Nat
  /-- how long it takes to register on it -/
  registering : Option Nat

/-- What the model without times gets. -/
def StreamTimes.script (s : StreamTimes) (timeout : Nat) : StreamScript :=
  ⟨⟨(s.tries 0).result, retryClock timeout s.tries (timeout + 1) 0 (s.tries 0).took⟩, s.register⟩

/-- `registerAgentAddress`: dhtclient.go:683-723 -/
def timedRegister (c : DhtClient) (s : StreamTimes) : TimedM Unit :=
  match s.register with
  | none => .after (some s.registerOpening) (registerAgentAddress c none)
  | some p => .after (s.registering.map (s.registerOpening + ·)) (registerAgentAddress c (some p))

/-- `newStreamLoopUntilTimeout`: dhtclient.go:331-365 -/
def timedNewStream (c : DhtClient) (timeout : Nat) (s : StreamTimes) : TimedM Pipe :=
  match timedLoop timeout s.tries with
  | none => none
  | some (t, none) => some (t, .stop .err)
  | some (t, some p) =>
    if (s.tries 0).result.isNone then
      TimedM.bind (some (t, .pure ())) fun _ => (timedRegister c s).bind fun _ => some (0, .pure p)
    else some (t, .pure p)

/-- The network during one call. -/
structure ClientTimes where
  por : PoRCheck
  idFrom : Bytes → Option Bytes
  /-- answers of `myAgentReady`, one every 100 ms; `none` if the function is not set -/
  ready : Option (List Bool)
  agentOk : Bool
  /-- how long `processEnvelope` takes -/
  agentTook : Option Nat
  relayStream : StreamTimes
  /-- how long the look-up at the relay takes -/
  lookup : Option Nat
  addrOk : Bytes → Bool
  connectOk : Bytes → Bool
  /-- how long `Connect` takes -/
  connecting : Bytes → Option Nat
  peerStream : Bytes → StreamTimes
  /-- how long it takes to send the envelope and to read the status -/
  status : Bytes → Option Nat

/-- What the model without times gets. -/
def ClientTimes.net (n : ClientTimes) : ClientNet :=
  ⟨n.por, n.idFrom, n.ready, n.agentOk, n.relayStream.script newStreamTimeoutRelayPeer, n.addrOk, n.connectOk,
    fun p => (n.peerStream p).script newStreamTimeout⟩

/-- The look-up on an open stream: dhtclient.go:484-518; a part of `clientLookup`. -/
def clientLookupOn (c : DhtClient) (n : ClientNet) (target : Bytes) (p : Pipe) : ClientM Bytes :=
  (ClientM.onStream .address c.relay (performAddressLookup target) p).bind fun (rec, _) =>
    match rec with
    | none => .stop .crashed
    | some r =>
      match n.por r target r.peerPublicKey with
      | .panic => .stop .crashed
      | .err _ => .stop .err
      | .ok .success =>
        match n.idFrom r.peerPublicKey with
        | none => .stop .err
        | some peer => .pure peer
      | .ok _ => .stop .err

/-- dhtclient.go:469-518 -/
def timedClientLookup (c : DhtClient) (n : ClientTimes) (target : Bytes) : TimedM Bytes :=
  (timedNewStream c newStreamTimeoutRelayPeer n.relayStream).bind fun p =>
    .after n.lookup (clientLookupOn c n.net target p)

/-- dhtclient.go:525-622. An envelope that cannot be encoded is not sent. -/
def timedClientSend (c : DhtClient) (n : ClientTimes) (e : Envelope) (peer : Bytes) : TimedM RouteEnd :=
  if n.addrOk peer then
    if n.connectOk peer then
      (TimedM.after (n.connecting peer) (.pure ())).bind fun _ =>
        (timedNewStream c newStreamTimeout (n.peerStream peer)).bind fun p =>
          .after (if e.encode.isSome then n.status peer else some 0) (clientTransmit c e peer p)
    else .after (n.connecting peer) (.stop .err)
  else some (0, .stop .err)

/-- dhtclient.go:469-622 -/
def timedForward (c : DhtClient) (n : ClientTimes) (e : Envelope) : TimedM RouteEnd :=
  (timedClientLookup c n e.to).bind fun peer => timedClientSend c n e peer

/-- `RouteEnvelope`: dhtclient.go:428-623. How long it takes, and its actions and result. -/
def timedClientRoute (c : DhtClient) (n : ClientTimes) (e : Envelope) : Option (Nat × List ClientAct × RouteEnd) :=
  if e.sender ≠ c.myAgent then some (0, [], .err)
  else if e.to = c.myAgent then
    match n.ready with
    | none => some (0, [], .crashed)
    | some answers =>
      if answers.contains true then
        let wait := 100 * answers.idxOf true
        if c.hasAgent then
          match n.agentTook with
          | none => none
          | some d =>
            if n.agentOk then
              match timedForward c n e with
              | none => none
              | some (t, m) => some (wait + d + t, .agent e :: m.finish.1, m.finish.2)
            else some (wait + d, [.agent e], .err)
        else some (wait, [], .ok)
      else none
  else (timedForward c n e).map fun (t, m) => (t, m.finish)

/-- When the loop of main starts to route each of the envelopes that the agent has handed over, given by the time
at which they came and the network during the call: libp2p_node.go:154-163. -/
def mainStarts (c : DhtClient) (free : Nat) (l : List (Nat × ClientTimes × Envelope)) : List (Option Nat) :=
  slowStarts (some free) (l.map fun x => (x.1, (timedClientRoute c x.2.1 x.2.2).map (·.1)))

end Verif
