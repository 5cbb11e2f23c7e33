import Verif.Model.LiteClient

/-!
# Starting and stopping a lightweight agent, again and again

libs/go/aealite/agent.go:60-78 (`Start`, `Put`, `Get`, `Stop`), libs/go/aealite/connections/p2pclient.go:135-152
(`Put`, `Get`), 162-206 (`Disconnect`, `Connect`), 208-260 (`registerWithRetry`), 262-297 (`listenForEnvelopes`,
`stop`) and libs/go/aealite/connections/tcpsocket.go:42-113; used like that in
libs/go/aealite_agent_example/main.go:30-83.

A state machine of one agent that is initialised: one goroutine calls `Start` and `Stop`, any number of others call
`Put` and `Get`, and every successful `Start` leaves a goroutine that receives. The socket is the same in all lives of
the agent, and its field `conn` is set by every `Start`, so a goroutine of an earlier life reads from the connection
that is there at the time. Queues are replaced too; a goroutine that waits at a queue stays with the one it found.

Connections are those that were dialled, with the data that arrived and was not read, in whole frames: that two
goroutines may also share one frame is left out. What arrived and who read what is recorded in `arrived` and `log`, and
`clean` records whether the goroutines of all earlier lives had ended when the connection was made. Of TLS only the check of the signature is here
(`accepts`), see TlsCheck for the rest, and that `crypto/tls` decrypts whole records, so that what is decrypted can
still be read after `Close` (`decrypted` counts these frames). Waiting times are left out. The assignments at the end of
`Connect` are one step.
-/

namespace Verif

namespace Life

/-- Who reads from a connection: a call of `Start`, or the goroutine that was started with a connection. -/
inductive Reader where
  | start
  | listener (born : Nat)
  deriving DecidableEq, Repr

/-- A connection to a peer. -/
structure Conn where
  accepts : Bytes → Bool
  clean : Bool
  arrived : List Bytes
  input : List Bytes
  ended : Bool            -- the peer has closed it
  closed : Bool           -- the agent has closed it
  log : List (Reader × Bytes)
  decrypted : Nat         -- how many of the frames in `input` are decrypted

/-- What a read gives: it waits, fails, or there is a frame. -/
inductive Got where
  | wait
  | fail
  | frame (f : Bytes)
  deriving DecidableEq, Repr

def Conn.read (c : Conn) : Got :=
  match c.input with
  | f :: _ => if c.closed && c.decrypted == 0 then .fail else .frame f
  | [] => if c.closed || c.ended then .fail else .wait

/-- A channel; `client.outQueue` and `client.acn_status_chan` have room for 10. -/
structure Chan (α : Type) where
  items : List α
  closed : Bool
  deriving DecidableEq, Repr

/-- Where a receiving goroutine is. -/
inductive Phase where
  | idle
  | reading (conn : Nat)                          -- in `Read` of this connection
  | failing                                       -- p2pclient.go:269: about to look at `closing` again
  | hangingUp                                     -- p2pclient.go:270: about to close the socket
  | pushing (queue : Nat) (e : Envelope)
  | pushed
  | pushingStatus (queue : Nat) (s : StatusBody)
  | stopped
  deriving DecidableEq, Repr

structure Listener where
  born : Nat
  phase : Phase
  deriving DecidableEq, Repr

/-- Where the goroutine is that calls `Start` and `Stop`. -/
inductive Main where
  | idle
  | signature                      -- tcpsocket.go:64
  | register (n : Nat)             -- p2pclient.go:228: try `n`, about to write
  | status (n : Nat)               -- and about to read the answer
  | giveUp                         -- p2pclient.go:187
  | flagged                        -- in `Disconnect`: `closing` is set
  | socketClosed
  | queueClosed
  deriving DecidableEq, Repr

/-- Where a call of `Put` is. -/
inductive PutPhase where
  | waiting (queue : Option Nat)
  | done (status : Option StatusBody)   -- `none`: time-out
  deriving DecidableEq, Repr

/-- How the process ended. -/
inductive Death where
  | panic
  | fatal         -- `log.Fatal`
  deriving DecidableEq, Repr

/-- What `Start` and `Stop` returned. -/
inductive Result where
  | started
  | notStarted
  | stopped
  deriving DecidableEq, Repr

end Life

open Life

structure AgentLife where
  address : Bytes
  closing : Bool
  conn : Option Nat
  conns : List Conn
  out : Option Nat
  outs : List (Chan Envelope)
  stat : Option Nat
  stats : List (Chan StatusBody)
  listeners : List Listener
  main : Main
  puts : List PutPhase
  results : List Result
  got : List (Option Envelope)
  dead : Option Death

namespace AgentLife

/-- After `InitFromEnv`. -/
def init (address : Bytes) : AgentLife :=
  ⟨address, false, none, [], none, [], none, [], [], .idle, [], [], [], none⟩

inductive Step where
  | start (dial : Option (Bytes → Bool))   -- `Start` is called; `none`: `tls.Dial` fails
  | stop                                   -- `Stop` is called
  | go (ok : Bool)                         -- the call goes on; `ok`: a write, or `Close`, succeeds
  | arrive (conn : Nat) (f : Bytes)        -- data from the peer
  | hangUp (conn : Nat)                    -- the peer closes the connection
  | decrypt (conn : Nat) (n : Nat)         -- a read has decrypted a record, with `n` more frames
  | listen (i : Nat) (ok : Bool)           -- goroutine `i` goes on; `ok`: its answer can be written
  | put (ok : Bool)                        -- `Put` is called; `ok`: the envelope could be written
  | putGo (j : Nat)                        -- call `j` of `Put` looks at the queue
  | putTimeout (j : Nat)
  | get                                    -- `Get` is called when there is something

/-- `sock.conn.Close()` -/
def closeConn (s : AgentLife) : AgentLife :=
  match s.conn with
  | none => { s with dead := some .panic }
  | some k => { s with conns := s.conns.modify k fun c => { c with closed := true } }

/-- The connection of the socket is open. -/
def isOpen (s : AgentLife) : Bool :=
  match s.conn with
  | none => false
  | some k => (s.conns[k]?).any fun c => !c.closed

/-- A frame is taken. -/
def take (s : AgentLife) (k : Nat) (r : Reader) (f : Bytes) : AgentLife :=
  { s with conns := s.conns.modify k fun c =>
      { c with input := c.input.drop 1, log := c.log ++ [(r, f)], decrypted := c.decrypted - 1 } }

def setPhase (s : AgentLife) (i : Nat) (p : Phase) : AgentLife :=
  { s with listeners := s.listeners.modify i fun l => { l with phase := p } }

/-- What `Start` reads. -/
def mainRead (s : AgentLife) : Got :=
  match s.conn with
  | none => .fail
  | some k => match s.conns[k]? with
    | none => .fail
    | some c => c.read

/-- The answer to the registration: acn.go:338-392. -/
def registered (f : Bytes) : Res Unit Unit :=
  match AcnMessage.decode f with
  | some (some (.status none)) => .panic
  | some (some (.status (some b))) => if b.code = StatusCode.success.toInt then .ok () else .err ()
  | _ => .err ()

/-- After a failed try. -/
def retry (s : AgentLife) (n : Nat) : AgentLife :=
  { s with main := if n + 1 < 5 then .register (n + 1) else .giveUp }

/-- The end of `Connect`: p2pclient.go:197-203 -/
def finish (s : AgentLife) : AgentLife :=
  { s with
    closing := false
    out := some s.outs.length, outs := s.outs ++ [⟨[], false⟩]
    stat := some s.stats.length, stats := s.stats ++ [⟨[], false⟩]
    listeners := s.listeners ++ [⟨s.conn.getD 0, .idle⟩]
    main := .idle, results := s.results ++ [.started] }

/-- `close(client.outQueue)`, `close(client.acn_status_chan)` -/
def closeChan {α : Type} (c : Option Nat) (cs : List (Chan α)) : Option (List (Chan α)) :=
  match c with
  | none => none
  | some k => match cs[k]? with
    | none => none
    | some ch => if ch.closed then none else some (cs.set k { ch with closed := true })

/-- The goroutine that calls `Start` and `Stop` goes on. -/
def goMain (s : AgentLife) (ok : Bool) : AgentLife :=
  match s.main with
  | .idle => s
  | .signature =>
    match s.mainRead with
    | .wait => s
    | .fail => { s with main := .idle, results := s.results ++ [.notStarted] }
    | .frame f =>
      let k := s.conn.getD 0
      let s' := s.take k .start f
      if (s.conns[k]?).any fun c => c.accepts f then { s' with main := .register 0 }
      else { s' with main := .idle, results := s.results ++ [.notStarted] }
  | .register n => if s.isOpen && ok then { s with main := .status n } else s.retry n
  | .status n =>
    match s.mainRead with
    | .wait => s
    | .fail => s.retry n
    | .frame f =>
      let s := s.take (s.conn.getD 0) .start f
      match registered f with
      | .panic => { s with dead := some .panic }
      | .err _ => s.retry n
      | .ok () => s.finish
  | .giveUp => { s.closeConn with main := .idle, results := s.results ++ [.notStarted] }
  | .flagged =>
    if s.conn = none then { s with dead := some .panic }
    else if s.isOpen && ok then { s.closeConn with main := .socketClosed }
    else { s with dead := some .fatal }
  | .socketClosed =>
    match closeChan s.out s.outs with
    | none => { s with dead := some .panic }
    | some outs => { s with outs := outs, main := .queueClosed }
  | .queueClosed =>
    match closeChan s.stat s.stats with
    | none => { s with dead := some .panic }
    | some stats => { s with stats := stats, main := .idle, results := s.results ++ [.stopped] }

/-- What `HandleAcnMessageFromPipe` makes of a frame; `ok`: the answer could be written. -/
def handled (T : AcnTexts) (rest : Bytes → Envelope) (f : Bytes) (ok : Bool) : Lite.Handled :=
  (Lite.handle T rest ⟨[some f], [ok], []⟩).1

/-- Goroutine `i`, which is `l`, goes on. Reading and answering a frame is one step; the answer goes to the connection
the socket has then. -/
def goListener (T : AcnTexts) (rest : Bytes → Envelope) (s : AgentLife) (i : Nat) (l : Listener) (ok : Bool) :
    AgentLife :=
  match l.phase with
  | .idle =>
    match s.conn with
    | none => { s with dead := some .panic }
    | some k => s.setPhase i (.reading k)
  | .reading k =>
    match s.conns[k]? with
    | none => s
    | some c =>
      match c.read with
      | .wait => s
      | .fail => s.setPhase i (if s.closing then .idle else .failing)
      | .frame f =>
        let s' := s.take k (.listener l.born) f
        match handled T rest f (ok && s.isOpen) with
        | .crash => { s' with dead := some .panic }
        | .status b =>
          match s.stat with
          | none => s'
          | some q => s'.setPhase i (.pushingStatus q b)
        | .result envel failed =>
          if s.conn = none then { s' with dead := some .panic }
          else if failed && !s.closing then s'.setPhase i .failing
          else match envel with
            | none => s'.setPhase i .idle
            | some e =>
              if e.to ≠ s.address then s'.setPhase i .idle
              else match s.out with
                | none => s'
                | some q => s'.setPhase i (.pushing q e)
  | .failing => s.setPhase i (if s.closing then .stopped else .hangingUp)
  | .hangingUp => (s.setPhase i .stopped).closeConn
  | .pushing q e =>
    match s.outs[q]? with
    | none => s
    | some ch =>
      if ch.closed then { s with dead := some .panic }
      else if ch.items.length < 10 then
        { s.setPhase i .pushed with outs := s.outs.set q { ch with items := ch.items ++ [e] } }
      else s
  | .pushed => s.setPhase i (if s.closing then .stopped else .idle)
  | .pushingStatus q b =>
    match s.stats[q]? with
    | none => s
    | some ch =>
      if ch.closed then { s with dead := some .panic }
      else if ch.items.length < 10 then
        { s.setPhase i .idle with stats := s.stats.set q { ch with items := ch.items ++ [b] } }
      else s
  | .stopped => s

/-- A call of `Put` that waits. A closed queue gives nil, and `status.Code` is then a nil dereference. -/
def goPut (s : AgentLife) (j : Nat) : AgentLife :=
  match s.puts[j]? with
  | some (.waiting (some q)) =>
    match s.stats[q]? with
    | none => s
    | some ch =>
      match ch.items with
      | b :: rest => { s with stats := s.stats.set q { ch with items := rest }, puts := s.puts.set j (.done (some b)) }
      | [] => if ch.closed then { s with dead := some .panic } else s
  | _ => s

/-- One step of a process that has not ended. -/
def stepAlive (T : AcnTexts) (rest : Bytes → Envelope) (s : AgentLife) : Step → AgentLife
  | .start dial =>
    if s.main ≠ .idle then s
    else match dial with
      | none => { s with conn := none, results := s.results ++ [.notStarted] }
      | some accepts =>
        { s with
          conn := some s.conns.length
          conns := s.conns ++ [⟨accepts, s.listeners.all fun l => l.phase == .stopped, [], [], false, false, [], 0⟩]
          main := .signature }
  | .stop => if s.main ≠ .idle then s else { s with closing := true, main := .flagged }
  | .go ok => s.goMain ok
  | .arrive k f => { s with conns := s.conns.modify k fun c => if c.ended then c else
      { c with arrived := c.arrived ++ [f], input := c.input ++ [f] } }
  | .hangUp k => { s with conns := s.conns.modify k fun c => { c with ended := true } }
  | .decrypt k n => { s with conns := s.conns.modify k fun c => if c.closed then c else { c with decrypted := n } }
  | .listen i ok =>
    match s.listeners[i]? with
    | none => s
    | some l => s.goListener T rest i l ok
  | .put ok =>
    if s.conn = none then { s with dead := some .panic }
    else if s.isOpen && ok then { s with puts := s.puts ++ [.waiting s.stat] }
    else s
  | .putGo j => s.goPut j
  | .putTimeout j =>
    match s.puts[j]? with
    | some (.waiting _) => { s with puts := s.puts.set j (.done none) }
    | _ => s
  | .get =>
    match s.out with
    | none => s
    | some q =>
      match s.outs[q]? with
      | none => s
      | some ch =>
        match ch.items with
        | e :: items => { s with outs := s.outs.set q { ch with items := items }, got := s.got ++ [some e] }
        | [] => if ch.closed then { s with got := s.got ++ [none] } else s

def step (T : AcnTexts) (rest : Bytes → Envelope) (s : AgentLife) (st : Step) : AgentLife :=
  if s.dead = none then s.stepAlive T rest st else s

/-- A history. -/
def run (T : AcnTexts) (rest : Bytes → Envelope) (s : AgentLife) (steps : List Step) : AgentLife :=
  steps.foldl (step T rest) s

end AgentLife

end Verif
