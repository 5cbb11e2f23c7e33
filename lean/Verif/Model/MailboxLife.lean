import Verif.Model.Go

/-!
# Starting and stopping the mailbox service

libs/go/libp2p_node/dht/dhtpeer/mailbox.go:254-297 (`start`, `stop`), the critical sections of 299-339
(`RouteEnvelope`, `IsAddrRegistered`, `GetAgentRecord`) and of the HTTP handlers, and
dhtpeer.go:769-780 (`launchMailboxService`), 645-647 (the call of `stop` in `Close`).

`launchMailboxService` puts the server into the peer and runs `start` in a goroutine of its own, for which
nobody waits. The streams for look-ups and envelopes are already served, so the critical sections may run at
any time, and so may `Close`. A schedule is a list of steps.

Of Go's library we use: unlocking a mutex that is not locked ends the process; `tls.Listen` returns a nil
listener together with an error; `Serve` of a nil listener dereferences it, by `Accept` or by the deferred
`Close`; `Shutdown` of a nil server dereferences it; `Serve` after `Shutdown` closes its listener and
returns.

Simplifications. A caller that waits for the mutex takes it when it is free. `Shutdown` is one step. The
contents of the tables are in `Verif.Model.Mailbox`; here a critical section is only entered and left.
-/

namespace Verif

/-- Where `start` is. -/
inductive MailStartPc where
  | begin
  | tables                 -- maps made, 256-258
  | fresh                  -- mutex replaced, 259
  | server                 -- `httpServer` set, 271-275
  | bound                  -- listening, 276
  | unbound                -- `Listen` failed, only logged, 277-279
  | serving                -- in `Serve`, 280
  | ended
  deriving DecidableEq, Repr

/-- Where a critical section is. -/
inductive MailCaller where
  | outside
  | inside
  | left
  deriving DecidableEq, Repr

/-- How the process ends. -/
inductive MailCrash where
  | unlock                 -- "sync: Unlock of unlocked RWMutex"
  | listener               -- nil listener
  | shutdown               -- nil server
  deriving DecidableEq, Repr

/-- The service in a peer. -/
structure MailLife where
  pc : MailStartPc
  locked : Bool
  http : Bool              -- `httpServer` is not nil
  shut : Bool              -- `Shutdown` has been called
  callers : List MailCaller
  crashed : Option MailCrash
  deriving DecidableEq, Repr

/-- Steps. -/
inductive MailLifeStep where
  | call                   -- somebody comes to a critical section
  | lock (i : Nat)
  | unlock (i : Nat)
  | start (listens : Bool) -- the next part of `start`; `listens` is the outcome of `tls.Listen`
  | stop
  deriving DecidableEq, Repr

namespace MailLife

/-- After `launchMailboxService`: dhtpeer.go:769-780. -/
def init : MailLife := ⟨.begin, false, false, false, [], none⟩

/-- The next part of `start`: mailbox.go:254-285. -/
def startStep (g : MailLife) (listens : Bool) : MailLife :=
  match g.pc with
  | .begin => { g with pc := .tables }
  | .tables => { g with pc := .fresh, locked := false }
  | .fresh => { g with pc := .server, http := true }
  | .server => { g with pc := if listens then .bound else .unbound }
  | .bound => { g with pc := if g.shut then .ended else .serving }
  | .unbound => { g with crashed := some .listener }
  | .serving => g
  | .ended => g

/-- One step; nothing happens after a crash. -/
def step (g : MailLife) (s : MailLifeStep) : MailLife :=
  if g.crashed.isSome then g
  else
    match s with
    | .call => { g with callers := g.callers ++ [.outside] }
    | .lock i =>
      if g.callers[i]? = some .outside ∧ g.locked = false then
        { g with locked := true, callers := g.callers.set i .inside }
      else g
    | .unlock i =>
      if g.callers[i]? = some .inside then
        if g.locked then { g with locked := false, callers := g.callers.set i .left }
        else { g with crashed := some .unlock }
      else g
    | .start listens => g.startStep listens
    | .stop =>
      if g.http then { g with shut := true, pc := if g.pc = .serving then .ended else g.pc }
      else { g with crashed := some .shutdown }

/-- A history. -/
def run (g : MailLife) (ss : List MailLifeStep) : MailLife := ss.foldl step g

end MailLife

end Verif
