import Verif.Model.Messages

/-!
# Envelope streams between two nodes

- libs/go/libp2p_node/libp2p_node.go:155-164, the loop that sends the envelopes of the agent one by one;
- libs/go/libp2p_node/dht/dhtpeer/dhtpeer.go:1186-1208, the loop of the retry queue, and 969-984, the
  worker of a delegate client's queue: further senders, each of them one by one;
- libs/go/libp2p_node/dht/dhtpeer/dhtpeer.go:1235-1320 (`_routeEnvelopeWithNewStream`) and
  libs/go/libp2p_node/dht/dhtclient/dhtclient.go:555-610: one stream for each envelope, on which the sender
  waits for a status, without a limit of time;
- libs/go/libp2p_node/dht/common/handlers.go:56-126 (`HandleAeaEnvelopeStream`): at the other node one
  goroutine for each stream, which reads the envelope, hands it over and answers.

A state machine: any number of senders at one node, and the handlers at the other. What one send does
is in `Verif.Model.Routing` and `Verif.Model.PeerHandlers`; here only the order of things is kept. Not
here: which node a stream goes to. `handed`, `told` and `broken` are ghost records.
-/

namespace Verif

/-- Where the handler of a stream is. -/
inductive StreamPhase where
  | underway             -- the envelope has not been read
  | read                 -- handlers.go:102 returned
  | over                 -- the envelope has been handed over, line 112
  | answered (ok : Bool) -- a status has been written
  deriving DecidableEq, Repr

/-- A stream that a sender opened for an envelope. -/
structure EnvelopeStream where
  sender : Nat
  envelope : Envelope
  phase : StreamPhase
  deriving DecidableEq, Repr

/-- The state. Streams are numbered as they are opened. -/
structure Streams where
  /-- the stream at which a sender waits for a status -/
  waiting : Nat → Option Nat
  streams : List EnvelopeStream
  /-- the streams whose envelopes have been handed over, in this order -/
  handed : List Nat
  /-- the streams whose status has been read by the sender -/
  told : List (Nat × Bool)
  /-- the streams on which the sender's read or write failed -/
  broken : List Nat

namespace Streams

/-- Nothing has been sent. -/
def init : Streams := ⟨fun _ => none, [], [], [], []⟩

/-- Steps. -/
inductive Step where
  | opens (s : Nat) (e : Envelope)   -- a sender opens a stream and writes
  | reads (i : Nat)                  -- the handler reads the envelope
  | refuses (i : Nat)                -- the handler answers with an error and hands nothing over
  | hands (i : Nat)                  -- the handler hands the envelope over
  | answers (i : Nat) (ok : Bool)    -- the handler answers
  | gets (s : Nat)                   -- the sender reads the status
  | breaks (s : Nat)                 -- the sender has an error from the stream
  deriving DecidableEq, Repr

/-- Change what a sender waits for. -/
def await (s : Streams) (k : Nat) (w : Option Nat) : Nat → Option Nat :=
  fun k' => if k' = k then w else s.waiting k'

/-- Change where the handler of a stream is. -/
def goes (s : Streams) (i : Nat) (x : EnvelopeStream) (p : StreamPhase) : Streams :=
  { s with streams := s.streams.set i { x with phase := p } }

/-- One step; a step that is not possible changes nothing. -/
def step (s : Streams) : Step → Streams
  | .opens k e =>
    match s.waiting k with
    | none => { s with streams := s.streams ++ [⟨k, e, .underway⟩], waiting := s.await k (some s.streams.length) }
    | some _ => s
  | .reads i =>
    match s.streams[i]? with
    | some ⟨k, e, .underway⟩ => s.goes i ⟨k, e, .underway⟩ .read
    | _ => s
  | .refuses i =>
    match s.streams[i]? with
    | some ⟨k, e, .read⟩ => s.goes i ⟨k, e, .read⟩ (.answered false)
    | _ => s
  | .hands i =>
    match s.streams[i]? with
    | some ⟨k, e, .read⟩ => { s.goes i ⟨k, e, .read⟩ .over with handed := s.handed ++ [i] }
    | _ => s
  | .answers i ok =>
    match s.streams[i]? with
    | some ⟨k, e, .over⟩ => s.goes i ⟨k, e, .over⟩ (.answered ok)
    | _ => s
  | .gets k =>
    match s.waiting k with
    | some i =>
      match s.streams[i]? with
      | some ⟨_, _, .answered ok⟩ => { s with waiting := s.await k none, told := s.told ++ [(i, ok)] }
      | _ => s
    | none => s
  | .breaks k =>
    match s.waiting k with
    | some i => { s with waiting := s.await k none, broken := s.broken ++ [i] }
    | none => s

/-- A history. -/
def run (s : Streams) (steps : List Step) : Streams := steps.foldl step s

end Streams

end Verif
