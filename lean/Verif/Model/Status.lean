import Verif.Model.Go

/-!
# Waiting for the acknowledgement of an envelope

libs/go/libp2p_node/acn/utils.go:116-125, 233-262 (`WaitForStatus`,
`SendEnvelopeMessageAndWaitForStatus`), used by aea/api.go:447-478 (`SendEnvelope`) and
aealite/connections/p2pclient.go:135-144 (`Put`), and dhtpeer.go:1843-1872 (`AddAcnStatusMessage`,
`AwaitAcnStatus`).

All of these write an envelope to a connection and then take a status from one queue per
connection. Statuses carry no reference to an envelope. The model has any number of sends on one
connection. The receiver reads the envelopes in the order of the writes and answers each once; the
number of the envelope that is answered is kept as a ghost value. A full queue blocks the reader and
loses nothing, so the queue is not bounded here.
-/

namespace Verif

/-- Where a send operation is. -/
inductive SendPhase where
  | waiting
  | returned (status : Nat × Bool)     -- the status it took: the envelope answered, success?
  | timedOut
  deriving DecidableEq, Repr

/-- The sends on one connection, numbered in the order in which they wrote their envelopes. -/
structure StatusQueue where
  sends : List SendPhase
  unanswered : List Nat
  queue : List (Nat × Bool)
  taken : List (Nat × Bool)            -- ghost: all statuses taken, in order
  deriving DecidableEq, Repr

namespace StatusQueue

/-- A new connection. -/
def init : StatusQueue := ⟨[], [], [], []⟩

/-- Steps. -/
inductive Step where
  | write                       -- the next send writes its envelope and starts to wait
  | answer (success : Bool)     -- the receiver answers the oldest unanswered envelope
  | take (i : Nat)              -- send `i` takes the oldest status
  | timeout (i : Nat)           -- send `i` gives up
  deriving DecidableEq, Repr

/-- One step; a step that is not possible changes nothing. -/
def step (s : StatusQueue) : Step → StatusQueue
  | .write => { s with sends := s.sends ++ [.waiting], unanswered := s.unanswered ++ [s.sends.length] }
  | .answer b =>
    match s.unanswered with
    | [] => s
    | j :: rest => { s with unanswered := rest, queue := s.queue ++ [(j, b)] }
  | .take i =>
    match s.sends[i]?, s.queue with
    | some .waiting, st :: rest =>
      { s with sends := s.sends.set i (.returned st), queue := rest, taken := s.taken ++ [st] }
    | _, _ => s
  | .timeout i =>
    match s.sends[i]? with
    | some .waiting => { s with sends := s.sends.set i .timedOut }
    | _ => s

/-- A history. -/
def run (s : StatusQueue) (steps : List Step) : StatusQueue := steps.foldl step s

end StatusQueue

end Verif
