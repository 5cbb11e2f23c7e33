import Verif.Model.Acn

/-!
# The receive loop of the lightweight client

libs/go/aealite/connections/p2pclient.go:156-206 (`Get`, `Disconnect`, `Connect`), 262-293
(`listenForEnvelopes`) and 418-482 (`HandleAcnMessageFromPipe`).

A state machine of the goroutine that receives, of one call of `Disconnect`, and of any number of calls of
`Get` and of waits for a status. The memory is sequentially consistent (the code reads `closing` without
synchronisation). `frames` is a ghost record of the data read from the node.

`proto.Unmarshal` leaves in its argument what it had decoded when it failed; this is the parameter
`rest`.
-/

namespace Verif

namespace Lite

/-- What `HandleAcnMessageFromPipe` returned: an envelope or nil, and whether there was an error; or
the status that is about to be queued. -/
inductive Handled where
  | result (envelope : Option Envelope) (failed : Bool)
  | status (s : StatusBody)
  | crash
  deriving DecidableEq, Repr

/-- `&protocols.Envelope{}` -/
def emptyEnvelope : Envelope := ⟨[], [], [], [], []⟩

/-- `HandleAcnMessageFromPipe`: p2pclient.go:418-482. The last branch of the Go switch is never taken. -/
def handle (T : AcnTexts) (rest : Bytes → Envelope) (p : Pipe) : Handled × Pipe :=
  match Pipe.read p with
  | (.ok buf, p) =>
    match Acn.decodeAcnMessage T buf with
    | .error (code, text) => (.result (some emptyEnvelope) true, (Acn.sendError text code p).2)
    | .ok (.aeaEnvelope b _) =>
      match Envelope.decode b with
      | none => (.result (some (rest b)) true,
          (Acn.sendError (b! "error on decoding envelope") .errorDecode p).2)
      | some e =>
        match Acn.sendSuccess p with
        | (.ok (), p) => (.result (some e) false, p)
        | (_, p) => (.result (some e) true, p)
    | .ok (.status none) => (.crash, p)
    | .ok (.status (some s)) => (.status s, p)
  | (_, p) => (.result none true, p)

/-- Where the receiving goroutine is. -/
inductive Phase where
  | idle                             -- about to read
  | pushing (e : Envelope)           -- at `client.outQueue <- envel`
  | pushed                           -- about to look at `closing`
  | pushingStatus (s : StatusBody)   -- at `client.acn_status_chan <- status`
  | stopped
  | crashed
  deriving DecidableEq, Repr

/-- Where `Disconnect` is. -/
inductive Closing where
  | no | flagged | socketClosed | queueClosed | done | failed
  deriving DecidableEq, Repr

end Lite

open Lite

/-- A connected client. -/
structure LiteClient where
  address : Bytes
  pipe : Pipe
  phase : Phase
  closing : Closing
  queue : List Envelope
  statuses : List StatusBody
  got : List (Option Envelope)
  frames : List Bytes
  deriving DecidableEq, Repr

namespace LiteClient

/-- The flag `client.closing`. -/
abbrev isClosing (c : LiteClient) : Bool := c.closing != .no

/-- `outQueue` is closed. -/
abbrev queueClosed (c : LiteClient) : Bool := c.closing == .queueClosed || c.closing == .done

/-- After `Connect`: p2pclient.go:195-199 -/
def connected (address : Bytes) (pipe : Pipe) : LiteClient :=
  ⟨address, pipe, .idle, .no, [], [], [], []⟩

/-- The data that the next read gives, if any. -/
def nextFrame (p : Pipe) : List Bytes :=
  match p.reads with
  | some b :: _ => [b]
  | _ => []

/-- Steps. -/
inductive Step where
  | listen                        -- the receiving goroutine goes on
  | get                           -- a call of `Get`
  | takeStatus                    -- a wait for a status takes one
  | disconnect (ok : Bool)        -- `Disconnect` goes on; `ok`: the socket could be closed
  deriving DecidableEq, Repr

/-- A step of the receiving goroutine. A blocked goroutine does not move. -/
def listen (T : AcnTexts) (rest : Bytes → Envelope) (c : LiteClient) : LiteClient :=
  match c.phase with
  | .idle =>
    let (h, p) := handle T rest c.pipe
    let c := { c with pipe := p, frames := c.frames ++ nextFrame c.pipe }
    match h with
    | .crash => { c with phase := .crashed }
    | .status s => { c with phase := .pushingStatus s }
    | .result envel failed =>
      if failed && !c.isClosing then { c with phase := .stopped }
      else
        match envel with
        | none => c
        | some e => if e.to ≠ c.address then c else { c with phase := .pushing e }
  | .pushing e =>
    if c.queueClosed then { c with phase := .crashed }
    else if c.queue.length < 10 then { c with queue := c.queue ++ [e], phase := .pushed }
    else c
  | .pushed => { c with phase := if c.isClosing then .stopped else .idle }
  | .pushingStatus s =>
    if c.closing = .done then { c with phase := .crashed }
    else if c.statuses.length < 10 then { c with statuses := c.statuses ++ [s], phase := .idle }
    else c
  | .stopped => c
  | .crashed => c

/-- One step. -/
def step (T : AcnTexts) (rest : Bytes → Envelope) (c : LiteClient) : Step → LiteClient
  | .listen => c.listen T rest
  | .get =>
    match c.queue with
    | e :: q => { c with queue := q, got := c.got ++ [some e] }
    | [] => if c.queueClosed then { c with got := c.got ++ [none] } else c
  | .takeStatus => { c with statuses := c.statuses.drop 1 }
  | .disconnect ok =>
    match c.closing with
    | .no => { c with closing := .flagged }
    | .flagged => { c with closing := if ok then .socketClosed else .failed }
    | .socketClosed => { c with closing := .queueClosed }
    | .queueClosed => { c with closing := .done }
    | .done => c
    | .failed => c

/-- A history. -/
def run (T : AcnTexts) (rest : Bytes → Envelope) (c : LiteClient) (steps : List Step) : LiteClient :=
  steps.foldl (step T rest) c

end LiteClient

end Verif
