import Verif.Model.Routing

/-!
# Queues of envelopes from delegate clients

libs/go/libp2p_node/dht/dhtpeer/dhtpeer.go:957-996: one queue and one worker per pair of receiver and
sender, made by the first connection handler that needs it.

A state machine: handlers of any number of connections, workers, and the table `syncMessages`. One
step is one critical section of `syncMessagesLock` or one step of a worker. `received`,
`accepted` and `routed` are ghost records: envelopes taken from connections, envelopes put into a
queue, and calls of `RouteEnvelope`, each in order.
-/

namespace Verif

/-- The key of the queue: dhtpeer.go:959 -/
def Envelope.pair (e : Envelope) : Bytes := e.to ++ e.sender

/-- Where the handler of a connection is. -/
inductive HandlerPhase where
  | ready
  | missing (e : Envelope)      -- found no queue for the envelope, line 961
  | found (e : Envelope)        -- about to put the envelope, line 987
  deriving DecidableEq, Repr

/-- Where a worker is. Channels are numbered. -/
inductive WorkerPhase where
  | starting                              -- has not looked up its channel, line 972
  | idle (c : Nat)
  | holding (c : Nat) (e : Envelope)      -- took an envelope, `RouteEnvelope` not yet called
  | busy (c : Nat)                        -- inside `RouteEnvelope`
  deriving DecidableEq, Repr

/-- A worker goroutine, lines 969-984. -/
structure Worker where
  pair : Bytes
  phase : WorkerPhase
  deriving DecidableEq, Repr

/-- The state. -/
structure PairQueues where
  handlers : Nat → HandlerPhase
  chans : List (List Envelope)
  table : GoMap Bytes Nat
  workers : List Worker
  received : List Envelope
  accepted : List Envelope
  routed : List Envelope

namespace PairQueues

/-- Nothing has happened. -/
def init : PairQueues := ⟨fun _ => .ready, [], .empty, [], [], [], []⟩

/-- Capacity of a queue: dhtpeer.go:965 -/
def capacity : Nat := 1000

/-- Steps. -/
inductive Step where
  | recv (h : Nat) (e : Envelope)    -- the handler reads an envelope and looks for its queue
  | create (h : Nat)                 -- makes the queue and the worker
  | put (h : Nat)                    -- puts the envelope or discards it
  | start (w : Nat)                  -- the worker looks up its channel
  | take (w : Nat)                   -- the worker takes an envelope
  | route (w : Nat)                  -- the worker calls `RouteEnvelope`
  | finish (w : Nat)                 -- `RouteEnvelope` returned
  deriving DecidableEq, Repr

/-- Change the phase of a handler. -/
def setHandler (s : PairQueues) (h : Nat) (p : HandlerPhase) : Nat → HandlerPhase :=
  fun h' => if h' = h then p else s.handlers h'

/-- One step; a step that is not possible changes nothing. -/
def step (s : PairQueues) : Step → PairQueues
  | .recv h e =>
    match s.handlers h with
    | .ready =>
      { s with
          handlers := s.setHandler h (if s.table.has e.pair then .found e else .missing e)
          received := s.received ++ [e] }
    | _ => s
  | .create h =>
    match s.handlers h with
    | .missing e =>
      { s with
          handlers := s.setHandler h (.found e)
          table := s.table.set e.pair s.chans.length
          chans := s.chans ++ [[]]
          workers := s.workers ++ [⟨e.pair, .starting⟩] }
    | _ => s
  | .put h =>
    match s.handlers h with
    | .found e =>
      match s.table.get e.pair with
      | some c =>
        let q := (s.chans[c]?).getD []
        if q.length < capacity then
          { s with
              handlers := s.setHandler h .ready
              chans := s.chans.set c (q ++ [e])
              accepted := s.accepted ++ [e] }
        else { s with handlers := s.setHandler h .ready }
      | none => { s with handlers := s.setHandler h .ready }
    | _ => s
  | .start w =>
    match s.workers[w]? with
    | some ⟨k, .starting⟩ =>
      match s.table.get k with
      | some c => { s with workers := s.workers.set w ⟨k, .idle c⟩ }
      | none => s
    | _ => s
  | .take w =>
    match s.workers[w]? with
    | some ⟨k, .idle c⟩ =>
      match s.chans[c]? with
      | some (e :: rest) =>
        { s with workers := s.workers.set w ⟨k, .holding c e⟩, chans := s.chans.set c rest }
      | _ => s
    | _ => s
  | .route w =>
    match s.workers[w]? with
    | some ⟨k, .holding c e⟩ =>
      { s with workers := s.workers.set w ⟨k, .busy c⟩, routed := s.routed ++ [e] }
    | _ => s
  | .finish w =>
    match s.workers[w]? with
    | some ⟨k, .busy c⟩ => { s with workers := s.workers.set w ⟨k, .idle c⟩ }
    | _ => s

/-- A history. -/
def run (s : PairQueues) (steps : List Step) : PairQueues := steps.foldl step s

end PairQueues

end Verif
