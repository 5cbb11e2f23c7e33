import Verif.Model.Routing

/-!
# The node in client mode

libs/go/libp2p_node/dht/dhtclient/dhtclient.go:63-70, 298-365, 428-723.

One call is one function of the state of the client and of the behaviour of the network, like in
`Verif.Model.Routing`. Logging is left out; for the closing of streams see
`Verif.Model.StreamEnds`.
-/

namespace Verif

open Acn

/-! ## Retry loops -/

/-- One round of a retry loop: the time when `select` is executed and the outcome of the attempt,
should one be made; `none` is an error. -/
structure RetryRound (α : Type) where
  now : Nat
  attempt : Option α
  deriving DecidableEq, Repr

/-- The body of the two retry loops, entered with an error: dhtclient.go:310-327, 344-356. Times
in milliseconds, the start of the call is 0. If the context is done, the error is replaced by
another one and the loop goes on. Returns the times slept, one for each attempt, and what the last
attempt returned; `none` if the loop has not ended after the given rounds. The doubling is that of
natural numbers; the sleeping times are far below 2^63 ns, see `C39_attempts_bounded`. -/
def retryRounds {α : Type} (timeout : Nat) : Nat → List (RetryRound α) → List Nat × Option α
  | _, [] => ([], none)
  | sleep, r :: rest =>
    if timeout ≤ r.now then retryRounds timeout sleep rest
    else match r.attempt with
      | some a => ([sleep], some a)
      | none =>
        let (sleeps, res) := retryRounds timeout (sleep * 2) rest
        (sleep :: sleeps, res)

/-- `sleepTimeDefaultDuration`, in milliseconds -/
def sleepTimeDefault : Nat := 100

/-- `bootstrapTimeout` -/
def bootstrapTimeout : Nat := 60000

/-- `newStreamTimeoutRelayPeer` -/
def newStreamTimeoutRelayPeer : Nat := 300000

/-- `newStreamTimeout` -/
def newStreamTimeout : Nat := 60000

/-- A call with retries: the outcome of the first attempt and the rounds after it. -/
structure RetryScript (α : Type) where
  first : Option α
  rounds : List (RetryRound α)
  deriving DecidableEq, Repr

/-- How a retry loop ended: what the last attempt returned and the times slept before each further
attempt. `result = none` means that it has not ended. -/
structure RetryEnd (α : Type) where
  result : Option α
  sleeps : List Nat
  deriving DecidableEq, Repr

/-- First attempt and loop. -/
def retryLoop {α : Type} (timeout : Nat) (s : RetryScript α) : RetryEnd α :=
  match s.first with
  | some a => ⟨some a, []⟩
  | none =>
    let (sleeps, res) := retryRounds timeout sleepTimeDefault s.rounds
    ⟨res, sleeps⟩

/-- `bootstrapLoopUntilTimeout`: dhtclient.go:298-329. An attempt is `BootstrapConnect`. -/
def bootstrapLoop (s : RetryScript Unit) : RetryEnd Unit := retryLoop bootstrapTimeout s

/-! ## Actions of the client -/

/-- The streams opened by the client. -/
inductive StreamKind where
  | address | envelope | register
  deriving DecidableEq, Repr

/-- Actions of one call. -/
inductive ClientAct where
  | agent (e : Envelope)                                    -- given to the own agent
  | write (kind : StreamKind) (peer : Bytes) (data : Bytes) -- written to a stream
  deriving DecidableEq, Repr

/-- A computation of the client: actions, and a value or the end of the call. -/
abbrev ClientM (α : Type) := List ClientAct × Except RouteEnd α

namespace ClientM

variable {α β : Type}

/-- Return a value. -/
def pure (a : α) : ClientM α := ([], .ok a)

/-- End the call. -/
def stop (r : RouteEnd) : ClientM α := ([], .error r)

/-- Sequence. -/
def bind (m : ClientM α) (f : α → ClientM β) : ClientM β :=
  match m with
  | (acts, .ok a) => (acts ++ (f a).1, (f a).2)
  | (acts, .error r) => (acts, .error r)

/-- Use a stream; an error ends the call with an error. -/
def onStream (kind : StreamKind) (peer : Bytes) (m : PipeM α) (p : Pipe) : ClientM (α × Pipe) :=
  match m { p with sent := [] } with
  | (.ok a, p') => (p'.sent.map (.write kind peer), .ok (a, p'))
  | (.err _, p') => (p'.sent.map (.write kind peer), .error .err)
  | (.panic, p') => (p'.sent.map (.write kind peer), .error .crashed)

/-- The actions and the end of a whole call. -/
def finish (m : ClientM RouteEnd) : List ClientAct × RouteEnd :=
  match m with
  | (acts, .ok r) => (acts, r)
  | (acts, .error r) => (acts, r)

end ClientM

/-- State of a client. -/
structure DhtClient where
  myAgent : Bytes
  myRecord : Option AgentRecord
  hasAgent : Bool          -- `processEnvelope != nil`
  relay : Bytes
  deriving DecidableEq, Repr

/-- Opening a stream with retries. An attempt may return a nil stream without error. `register` is
the stream for registering again, `none` if it cannot be opened. -/
structure StreamScript where
  script : RetryScript (Option Pipe)
  register : Option Pipe
  deriving DecidableEq, Repr

/-- `registerAgentAddress`: dhtclient.go:683-723 -/
def registerAgentAddress (c : DhtClient) (stream : Option Pipe) : ClientM Unit :=
  match stream with
  | none => .stop .err
  | some p => (ClientM.onStream .register c.relay (sendRegister c.myRecord) p).bind fun _ => .pure ()

/-- `newStreamLoopUntilTimeout`: dhtclient.go:331-365. The callers return the error if there is
one. -/
def newStreamLoop (c : DhtClient) (timeout : Nat) (s : StreamScript) : ClientM Pipe :=
  match (retryLoop timeout s.script).result with
  | none => .stop .waiting
  | some none => .stop .err
  | some (some p) =>
    if s.script.first.isNone then (registerAgentAddress c s.register).bind fun _ => .pure p
    else .pure p

/-- Behaviour of everything outside during one call. -/
structure ClientNet where
  por : PoRCheck
  idFrom : Bytes → Option Bytes
  /-- answers of `myAgentReady`, `none` if the function is not set -/
  ready : Option (List Bool)
  /-- `processEnvelope` returned nil -/
  agentOk : Bool
  /-- stream to the relay for address look-up -/
  relayStream : StreamScript
  /-- the address of a peer behind the relay could be built -/
  addrOk : Bytes → Bool
  /-- `Connect` returned nil -/
  connectOk : Bytes → Bool
  /-- stream to a peer for envelopes -/
  peerStream : Bytes → StreamScript

/-- Ask the relay for the record of the target and check it: dhtclient.go:469-518. Returns the id of
the peer that represents the target. A nil record is dereferenced. -/
def clientLookup (c : DhtClient) (n : ClientNet) (target : Bytes) : ClientM Bytes :=
  (newStreamLoop c newStreamTimeoutRelayPeer n.relayStream).bind fun p =>
    (ClientM.onStream .address c.relay (performAddressLookup target) p).bind fun (rec, _) =>
      match rec with
      | none => .stop .crashed
      | some r =>
        match n.por r target r.peerPublicKey with
        | .panic => .stop .crashed
        | .err _ => .stop .err
        | .ok .success =>
          match n.idFrom r.peerPublicKey with
          | none => .stop .err
          | some peer => .pure peer
        | .ok _ => .stop .err

/-- Wait for the answer of the peer: dhtclient.go:593-622. A nil status is dereferenced. -/
def clientAwait (peer : Bytes) (p : Pipe) : ClientM RouteEnd :=
  (ClientM.onStream .envelope peer readStatus p).bind fun s =>
    match s.1 with
    | none => .stop .crashed
    | some b => .pure (if b.code ≠ StatusCode.success.toInt then .err else .ok)

/-- Write the envelope and wait for the answer: dhtclient.go:567-622 -/
def clientTransmit (c : DhtClient) (e : Envelope) (peer : Bytes) (p : Pipe) : ClientM RouteEnd :=
  match e.encode with
  | none => .stop .err
  | some eb =>
    (ClientM.onStream .envelope peer (sendEnvelope eb c.myRecord) p).bind fun s =>
      clientAwait peer s.2

/-- Send the envelope to the peer: dhtclient.go:525-622 -/
def clientSend (c : DhtClient) (n : ClientNet) (e : Envelope) (peer : Bytes) : ClientM RouteEnd :=
  if n.addrOk peer && n.connectOk peer then
    (newStreamLoop c newStreamTimeout (n.peerStream peer)).bind (clientTransmit c e peer)
  else .stop .err

/-- The part of `RouteEnvelope` that uses the network: dhtclient.go:469-622. -/
def clientForward (c : DhtClient) (n : ClientNet) (e : Envelope) : ClientM RouteEnd :=
  (clientLookup c n e.to).bind fun peer => clientSend c n e peer

/-- `RouteEnvelope`: dhtclient.go:428-623. After a delivery to the own agent the function goes on
with the network. -/
def clientRoute (c : DhtClient) (n : ClientNet) (e : Envelope) : List ClientAct × RouteEnd :=
  if e.sender ≠ c.myAgent then ([], .err)
  else if e.to = c.myAgent then
    match n.ready with
    | none => ([], .crashed)
    | some answers =>
      if answers.contains true then
        if c.hasAgent then
          if n.agentOk then
            let (acts, r) := (clientForward c n e).finish
            (.agent e :: acts, r)
          else ([.agent e], .err)
        else ([], .ok)
      else ([], .waiting)
  else (clientForward c n e).finish

/-- `HandleAeaEnvelope`: dhtclient.go:632-651 -/
def clientHandleEnvelope (c : DhtClient) (agentOk : Bool) (e : Envelope) :
    List ClientAct × Res StatusCode Unit :=
  if e.to = c.myAgent ∧ c.hasAgent = true then
    ([.agent e], if agentOk then .ok () else .err .errorAgentNotReady)
  else ([], .err .errorUnknownAgentAddress)

/-- `HandleAeaAddressRequest`: dhtclient.go:660-681 -/
def clientHandleAddressRequest (c : DhtClient) (address : Bytes) : Res StatusCode (Option AgentRecord) :=
  if address ≠ c.myAgent then .err .errorUnknownAgentAddress else .ok c.myRecord

end Verif
