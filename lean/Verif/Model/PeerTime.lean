import Verif.Model.LookupTime

/-!
# How long routing takes at a peer

libs/go/libp2p_node/dht/dhtpeer/dhtpeer.go:73-75, 90-95, 1055-1184, 1851-1870 and acn/utils.go:116-125, and the loop
of main that hands the agent's envelopes to the node one after the other, libs/go/libp2p_node/libp2p_node.go:154-163.

Time is in milliseconds, `none` is something that never happens. Writing to the connection of a delegate client has
no deadline, waiting for its status has one of 5 s. An envelope that could not be sent after a short look-up is put
into the slow queue, which waits while the queue is full.

Simplification. Local work, and the mailbox, take no time.
-/

namespace Verif

open Acn

/-- dhtpeer.go:73 -/
def acnStatusTimeout : Nat := 5000

/-- How long what is near takes during one call. -/
structure PeerTimes where
  /-- how long `processEnvelope` takes, 1108 -/
  agentTook : Option Nat
  /-- how long writing to the connection of a delegate client takes, 1132 -/
  writing : Option Nat
  /-- when the status of the delegate client comes after that, 1138 -/
  ack : Option Nat
  /-- how long the envelope waits at the slow queue, 1174 -/
  room : Option Nat
  deriving DecidableEq, Repr

/-- The status comes in time: `WaitForStatus`, acn/utils.go:116-125. At the very end of the time it is still taken. -/
def PeerTimes.inTime (pt : PeerTimes) : Bool :=
  match pt.ack with
  | some a => decide (a ≤ acnStatusTimeout)
  | none => false

/-- `AwaitAcnStatus`, dhtpeer.go:1851-1870: how long it takes and what it returns. -/
def timedAck (n : Net) (pt : PeerTimes) : Nat × RouteEnd :=
  match pt.ack with
  | some a =>
    if a ≤ acnStatusTimeout then
      (a, match n.ack with
        | .ok _ => .ok
        | .err _ => .err
        | .panic => .crashed)
    else (acnStatusTimeout, .err)
  | none => (acnStatusTimeout, .err)

/-- `RouteEnvelope`, dhtpeer.go:1055-1184, with the time at which it ends. -/
def timedPeerRoute (s : PeerState) (n : Net) (tn : NetTimes) (pt : PeerTimes) (start : Nat) (e : Envelope) :
    Option (Nat × RouteEnd) :=
  match envelopeRecord s e with
  | none => some (start, .err)
  | some record =>
    let delegate := s.tcpAddresses.get e.to
    let (s, accepted) := mailboxRoute s e
    if accepted then some (start, .ok)
    else if e.to = s.myAgent then
      let ready :=
        match n.ready with
        | none => some 0
        | some answers => if answers.contains true then some (100 * answers.idxOf true) else none
      match ready with
      | none => none
      | some wait =>
        if s.hasAgent then
          pt.agentTook.map fun d => (start + wait + d, if n.agentOk then .ok else .err)
        else some (start + wait, .err)
    else match delegate with
      | some _ =>
        match makeAcnMessage e with
        | none => some (start, .err)
        | some _ =>
          match pt.writing with
          | none => none
          | some w =>
            if n.connOk then some (start + w + (timedAck n pt).1, (timedAck n pt).2)
            else some (start + w, .err)
      | none =>
        match s.dhtAddresses.get e.to with
        | some sid =>
          match n.peerDecode sid with
          | none => some (start, .err)
          | some peer => timedStream n tn start peer record e
        | none =>
          match timedAttempt s n tn start fastLookupTimeout e with
          | none => none
          | some (t, .err) =>
            if s.closing then some (t, .ok) else pt.room.map fun w => (t + w, .ok)
          | some (t, r) => some (t, r)

/-- An envelope that the agent has handed over, and everything around when it is routed; the network may depend on
when this begins. -/
structure PeerCall where
  came : Nat
  state : PeerState
  net : Net
  times : Nat → NetTimes
  near : Nat → PeerTimes
  envelope : Envelope

/-- Route the envelope, beginning at the given time. -/
def PeerCall.route (c : PeerCall) (start : Nat) : Option (Nat × RouteEnd) :=
  timedPeerRoute c.state c.net (c.times start) (c.near start) start c.envelope

/-- When the loop of main begins to route each envelope: libp2p_node.go:154-163. `free` is when it is free. -/
def peerStarts : Option Nat → List PeerCall → List (Option Nat)
  | _, [] => []
  | none, _ :: rest => none :: peerStarts none rest
  | some free, c :: rest => some (max free c.came) :: peerStarts ((c.route (max free c.came)).map (·.1)) rest

/-- Envelopes that all come to the slow queue one after the other: when each is in the queue and when the loop takes
it, dhtpeer.go:1174 and 1186-1209. They are given by how long the call takes before it comes to the queue, and how
long the loop takes with it. `at_` is when the first call begins and `free` when the loop is free; `takes` is when
the envelopes before were taken. An envelope gets in when the one 100 before it has been taken. -/
def floodTimes (at_ free : Nat) (takes : List Nat) : List (Nat × Nat) → List (Nat × Nat)
  | [] => []
  | (fast, slow) :: rest =>
    let pushed :=
      if SlowQueue.capacity ≤ takes.length then max (at_ + fast) (takes.getD (takes.length - SlowQueue.capacity) 0)
      else at_ + fast
    let taken := max pushed free
    (pushed, taken) :: floodTimes pushed (taken + slow) (takes ++ [taken]) rest

end Verif
