import Verif.Model.Acn

/-!
# The loop of the node that receives from its agent

`listenForEnvelopes`: libs/go/libp2p_node/aea/api.go:362-402, with `HandleAcnMessageFromPipe`,
libs/go/libp2p_node/aea/utils.go:32-98, in `Verif.Acn.handleFromPipe`, and `Stop`, api.go:163-169.

A state machine of the receiving goroutine, of the goroutine that forwards envelopes to the network
(libp2p_node.go:153-163), of waits for a status, and of calls of `Stop` from elsewhere. Memory is
sequentially consistent. `Stop` also puts nil into the send queue, which ends the send loop and can block
when that queue is full, and a second call of `Stop` panics on that queue once it is closed; the send queue
is not part of this machine. `frames` is a ghost record of the data read, each with the outcome that a write
would have had at that time, `taken` one of the statuses taken.
-/

namespace Verif

namespace AgentPipe

/-- Where the goroutine is. -/
inductive Phase where
  | idle                             -- about to read
  | pushing (e : Envelope)           -- at `aea.out_queue <- envel`
  | pushed                           -- about to look at `closing`
  | pushingStatus (s : StatusBody)   -- at `aea.acn_status_chan <- status`
  | stopped
  | crashed
  deriving DecidableEq, Repr

end AgentPipe

open AgentPipe

/-- The state. -/
structure AgentPipe where
  record : Option AgentRecord        -- `aea.agent_record`
  pipe : Pipe
  phase : Phase
  closing : Bool
  closed : Bool                      -- `out_queue` is closed
  queue : List Envelope
  statuses : List StatusBody
  forwarded : List Envelope          -- taken by the forwarding goroutine
  frames : List (Bytes × Bool)
  taken : List StatusBody            -- taken by waits for a status
  deriving DecidableEq, Repr

namespace AgentPipe

/-- After `Connect`: api.go:349-357 -/
def connected (record : Option AgentRecord) (pipe : Pipe) : AgentPipe :=
  ⟨record, pipe, .idle, false, false, [], [], [], [], []⟩

/-- The data that the next read gives, if any, and the outcome of the next write. -/
def nextFrame (p : Pipe) : List (Bytes × Bool) :=
  match p.reads with
  | some b :: _ => [(b, p.writes.head? == some true)]
  | _ => []

/-- Steps. -/
inductive Step where
  | listen        -- the receiving goroutine goes on
  | forward       -- the forwarding goroutine takes an envelope
  | takeStatus    -- a wait for a status takes one
  | stop          -- `Stop` sets `closing`
  | close         -- `Stop` closes the queue
  deriving DecidableEq, Repr

/-- A step of the receiving goroutine. `errors.As(err, &PipeError)` holds exactly of errors of
`Read`. A blocked goroutine does not move. -/
def listen (T : AcnTexts) (c : AgentPipe) : AgentPipe :=
  match c.phase with
  | .idle =>
    let (r, p) := Acn.handleFromPipe T c.pipe
    let c := { c with pipe := p, frames := c.frames ++ nextFrame c.pipe }
    match r with
    | .panic => { c with phase := .crashed }
    | .err .read =>
      if c.closing then { c with phase := .stopped }
      else { c with phase := .stopped, closing := true, closed := true }
    | .err _ => c
    | .ok (.status s) => { c with phase := .pushingStatus s }
    | .ok (.envelope e) =>
      match c.record with
      | none => { c with phase := .crashed }
      | some r => if e.sender ≠ r.address then c else { c with phase := .pushing e }
  | .pushing e =>
    if c.closed then { c with phase := .crashed }
    else if c.queue.length < 100 then { c with queue := c.queue ++ [e], phase := .pushed }
    else c
  | .pushed => { c with phase := if c.closing then .stopped else .idle }
  | .pushingStatus s =>
    if c.statuses.length < 1000 then { c with statuses := c.statuses ++ [s], phase := .idle } else c
  | .stopped => c
  | .crashed => c

/-- One step. -/
def step (T : AcnTexts) (c : AgentPipe) : Step → AgentPipe
  | .listen => c.listen T
  | .forward =>
    match c.queue with
    | e :: q => { c with queue := q, forwarded := c.forwarded ++ [e] }
    | [] => c
  | .takeStatus =>
    match c.statuses with
    | s :: q => { c with statuses := q, taken := c.taken ++ [s] }
    | [] => c
  | .stop => { c with closing := true }
  | .close => if c.closing then { c with closed := true } else c

/-- A history. -/
def run (T : AcnTexts) (c : AgentPipe) (steps : List Step) : AgentPipe := steps.foldl (step T) c

end AgentPipe

end Verif
