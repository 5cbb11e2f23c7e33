import Verif.Model.Routing
import Verif.Model.DhtClient
import Verif.Model.PeerHandlers

/-!
# Envelopes under way between nodes

Any number of peers and clients, with everything that is done because of an envelope or a message:
libs/go/libp2p_node/dht/dhtpeer/dhtpeer.go:1055-1320 and 1456-1526, dht/dhtclient/dhtclient.go:428-651,
dht/common/handlers.go:55-126.

A state machine. Every piece of work that waits - an envelope that an agent has handed in, one in the slow
queue, a message on its way over a stream - carries the number of what caused it. Work is done in any order,
one piece at a time; the tables of nodes change in between in any way; messages arrive or get lost; strangers
can send messages of their own. What the rest of the world does during a call is given with the step, so
in particular the answer that a sender gets need not be the one that the receiver sent: more runs are
possible than in the code. Look-ups and acknowledgements are left out.
-/

namespace Verif

open Acn

/-- A node of the network. -/
inductive TrafficNode where
  | peer (s : PeerState)
  | client (c : DhtClient)

/-- What is to be done at a node. -/
inductive Task where
  | submit (e : Envelope)        -- an agent hands an envelope in
  | retry (e : Envelope)         -- an envelope in the slow queue
  | arrive (data : Bytes)        -- a message on a stream for envelopes

/-- A piece of work: the number of its cause, where it is to be done, what is to be done. -/
structure Work where
  cause : Nat
  node : Nat
  task : Task

/-- The network. `causes` lists for every cause where it came in; `sent`, `handed` and `done` are records of
the messages that were sent (cause, by whom, what), of the hand-overs (cause, where) and of the work done. -/
structure Traffic where
  nodes : Nat → TrafficNode
  todo : List Work
  causes : List Nat
  sent : List (Nat × Nat × Bytes)
  handed : List (Nat × Nat)
  done : List Nat

/-- What the rest of the world does during a piece of work. -/
structure Around where
  net : Net
  client : ClientNet
  /-- the node with a peer id -/
  nodeOf : Bytes → Nat
  T : AcnTexts
  por : PoRCheck
  /-- key of the node that a message comes from -/
  key : Bytes
  /-- whether writing the answers succeeds -/
  writes : List Bool
  agentOk : Bool

/-- What a piece of work leads to: messages, envelopes for the slow queue, and the number of hand-overs. -/
structure Outcome where
  messages : List (Bytes × Bytes)
  slow : List Envelope
  handed : Nat

namespace Traffic

/-- The outcome of a call at a peer. -/
def ofActs (acts : List Act) : Outcome where
  messages := acts.filterMap fun | .stream p d => some (p, d) | _ => none
  slow := acts.filterMap fun | .slow e => some e | _ => none
  handed := acts.countP fun | .mailbox _ | .agent _ | .conn _ _ => true | _ => false

/-- The outcome of a call at a client. -/
def ofClientActs (acts : List ClientAct) : Outcome where
  messages := acts.filterMap fun | .write .envelope p d => some (p, d) | _ => none
  slow := []
  handed := acts.countP fun | .agent _ => true | _ => false

/-- What a node does for a task. -/
def perform (a : Around) : TrafficNode → Task → Outcome
  | .peer s, .submit e => ofActs (routeEnvelope s a.net e).2.1
  | .peer s, .retry e => ofActs (slowAttempt s a.net e).1
  | .peer s, .arrive d =>
    match (receiveEnvelopeFromPeer a.T a.por a.key ⟨[some d], a.writes, []⟩).1 with
    | .ok e => ofActs (handleAeaEnvelope s a.net e).2.1
    | _ => ⟨[], [], 0⟩
  | .client c, .submit e => ofClientActs (clientRoute c a.client e).1
  | .client _, .retry _ => ⟨[], [], 0⟩
  | .client c, .arrive d =>
    match (receiveEnvelopeFromPeer a.T a.por a.key ⟨[some d], a.writes, []⟩).1 with
    | .ok e => ofClientActs (clientHandleEnvelope c a.agentOk e).1
    | _ => ⟨[], [], 0⟩

/-- Steps. -/
inductive Step where
  | submit (node : Nat) (e : Envelope)          -- an agent hands an envelope in
  | stranger (node : Nat) (data : Bytes)        -- a message of a stranger
  | tables (node : Nat) (s : TrafficNode)       -- the tables of a node change
  | lose (i : Nat)                              -- work is given up
  | work (i : Nat) (a : Around)

/-- The work that follows. -/
def followUp (a : Around) (w : Work) (o : Outcome) : List Work :=
  o.messages.map (fun m => ⟨w.cause, a.nodeOf m.1, .arrive m.2⟩) ++
    o.slow.map fun e => ⟨w.cause, w.node, .retry e⟩

/-- One step. -/
def step (s : Traffic) : Step → Traffic
  | .submit p e => { s with todo := s.todo ++ [⟨s.causes.length, p, .submit e⟩], causes := s.causes ++ [p] }
  | .stranger p d => { s with todo := s.todo ++ [⟨s.causes.length, p, .arrive d⟩], causes := s.causes ++ [p] }
  | .tables p n => { s with nodes := fun q => if q = p then n else s.nodes q }
  | .lose i => { s with todo := s.todo.eraseIdx i }
  | .work i a =>
    match s.todo[i]? with
    | none => s
    | some w =>
      let o := perform a (s.nodes w.node) w.task
      { s with
          todo := s.todo.eraseIdx i ++ followUp a w o
          sent := s.sent ++ o.messages.map fun m => (w.cause, w.node, m.2)
          handed := s.handed ++ List.replicate o.handed (w.cause, w.node)
          done := s.done ++ [w.cause] }

/-- A run. -/
def run (s : Traffic) (steps : List Step) : Traffic := steps.foldl step s

/-- A network in which nothing is under way. -/
def start (nodes : Nat → TrafficNode) : Traffic := ⟨nodes, [], [], [], [], []⟩

end Traffic

end Verif
