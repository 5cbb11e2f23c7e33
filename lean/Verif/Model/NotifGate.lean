import Verif.Model.Go

/-!
# When the addresses of a peer's clients are announced

libs/go/libp2p_node/dht/dhtpeer/dhtpeer.go:
`handleAeaNotifStream` (1615-1689), `IsAddressAnnouncementEnabled` (1691-1698), the last part of the
registrations (delegate 896-913, relay 1762-1790, mailbox.go:64-78) and the part of `New` that joins the
network (333-397).

Any number of registrations and notifications run at the same time; a schedule is a list of steps, each of
them the next atomic part of one of them. The wait group is the one of Go's `sync` package: `Wait` returns
at once if the counter is zero, otherwise it sleeps until the counter has become zero; when it then runs
again and the counter is not zero any more (or somebody else sleeps), it panics with "WaitGroup is reused
before previous Wait has returned".

Simplifications. A loop over a table is one step, since it holds the lock that insertions need.
`attempted` is a ghost list of the addresses for which `RegisterAgentAddress` was called; its outcomes are
in `Verif.Model.Announce`. Records loaded from the storage file are left out, and so are removals from the
mailbox.
-/

namespace Verif

/-- How a client is connected. -/
inductive ClientKind where
  | delegate
  | relay
  | mailbox
  deriving DecidableEq, Repr

/-- Where a registration is, after the peer has accepted it. -/
inductive RegPc where
  | start                   -- accepted
  | asking                  -- before `Wait`, 1693; delegate and relay clients are in their table
  | waiting                 -- sleeping in `Wait`
  | woken                   -- released, but not running yet
  | passed                  -- after `Wait`
  | checked (enabled : Bool)
  | finished
  deriving DecidableEq, Repr

/-- Where a notification is. -/
inductive NotifPc where
  | start
  | added                   -- after `Add(1)`, 1634
  | ownDone                 -- own agent announced, 1647-1655
  | relaysDone              -- 1656-1666
  | looped                  -- 1668-1679
  | opened                  -- 1685-1687
  | ended                   -- after `Done`
  deriving DecidableEq, Repr

/-- Where `New` is. -/
inductive BootPc where
  | joining                 -- handlers for relay clients and notifications are set, 333-341
  | looped                  -- stored addresses announced, 366-374
  | ready                   -- announcements enabled, 378-380; the services start
  deriving DecidableEq, Repr

/-- A registration. -/
structure GateReg where
  kind : ClientKind
  addr : Bytes
  pc : RegPc
  deriving DecidableEq, Repr

/-- The state of a peer, as far as announcements are concerned. A row of the table has the kind, the
address and the registration that wrote it. -/
structure Gate where
  boot : BootPc
  enabled : Bool
  regs : List GateReg
  notifs : List NotifPc
  table : List (ClientKind × Bytes × Nat)
  attempted : List Bytes
  ownDone : Bool
  crashed : Bool
  deriving DecidableEq, Repr

/-- A step. `ok` says whether the notifying peer was found in the routing table and the own agent could
be announced. -/
inductive GateStep where
  | newReg (kind : ClientKind) (addr : Bytes)
  | reg (i : Nat)
  | newNotif
  | notif (j : Nat) (ok : Bool)
  | leave (i : Nat)
  | boot
  deriving DecidableEq, Repr

/-- Inside `Add(1)` ... `Done()`. -/
def NotifPc.counted : NotifPc → Bool
  | .start => false
  | .ended => false
  | _ => true

namespace Gate

/-- A new peer, with or without entry peers. -/
def init (entry : Bool) : Gate :=
  ⟨if entry then .joining else .ready, false, [], [], [], [], false, false⟩

/-- The counter of the wait group is zero. -/
def idle (g : Gate) : Bool := g.notifs.all fun n => !n.counted

/-- Somebody sleeps in `Wait`. -/
def sleepers (g : Gate) : Bool := g.regs.any fun r => r.pc == .waiting

/-- Writing a row of the table. -/
def insert (g : Gate) (k : ClientKind) (a : Bytes) (i : Nat) : Gate :=
  { g with table := (k, a, i) :: g.table.filter fun e => !(e.1 == k && e.2.1 == a) }

/-- Setting the place of a registration. -/
def setReg (g : Gate) (i : Nat) (r : GateReg) (pc : RegPc) : Gate :=
  { g with regs := g.regs.set i { r with pc := pc } }

/-- Announcing all clients of a kind. -/
def announceAll (g : Gate) (k : ClientKind) : Gate :=
  { g with attempted := ((g.table.filter fun e => e.1 == k).map fun e => e.2.1) ++ g.attempted }

/-- `Done`: the last one wakes the sleepers. -/
def wake (g : Gate) : Gate :=
  if g.idle then
    { g with regs := g.regs.map fun r => if r.pc = .waiting then { r with pc := .woken } else r }
  else g

/-- The next part of a registration. -/
def regStep (g : Gate) (i : Nat) (r : GateReg) : Gate :=
  match r.pc with
  | .start => (if r.kind = .mailbox then g else g.insert r.kind r.addr i).setReg i r .asking
  | .asking => g.setReg i r (if g.idle then .passed else .waiting)
  | .waiting => g
  | .woken => if g.idle && !g.sleepers then g.setReg i r .passed else { g with crashed := true }
  | .passed => g.setReg i r (.checked g.enabled)
  | .checked saw =>
    let g := if saw then { g with attempted := r.addr :: g.attempted } else g
    (if r.kind = .mailbox then g.insert .mailbox r.addr i else g).setReg i r .finished
  | .finished => g

/-- The next part of a notification. -/
def notifStep (g : Gate) (j : Nat) (pc : NotifPc) (ok : Bool) : Gate :=
  match pc with
  | .start => { g with notifs := g.notifs.set j .added }
  | .added =>
    if ok then { g with notifs := g.notifs.set j .ownDone, ownDone := true }
    else { g with notifs := g.notifs.set j .ended }.wake
  | .ownDone => { g.announceAll .relay with notifs := g.notifs.set j .relaysDone }
  | .relaysDone => { g.announceAll .delegate with notifs := g.notifs.set j .looped }
  | .looped => { g with notifs := g.notifs.set j .opened, enabled := true }
  | .opened => { g with notifs := g.notifs.set j .ended }.wake
  | .ended => g

/-- One step. Nothing happens after a crash; delegate and mailbox clients come when the services have
started. A delegate client that leaves takes the row of its address with it (1001-1003). -/
def step (g : Gate) (s : GateStep) : Gate :=
  if g.crashed then g
  else match s with
    | .newReg k a =>
      if k = .relay ∨ g.boot = .ready then { g with regs := g.regs ++ [⟨k, a, .start⟩] } else g
    | .reg i =>
      match g.regs[i]? with
      | none => g
      | some r => g.regStep i r
    | .newNotif => { g with notifs := g.notifs ++ [.start] }
    | .notif j ok =>
      match g.notifs[j]? with
      | none => g
      | some pc => g.notifStep j pc ok
    | .leave i =>
      match g.regs[i]? with
      | some ⟨.delegate, a, .finished⟩ =>
        { g with table := g.table.filter fun e => !(e.1 == .delegate && e.2.1 == a) }
      | _ => g
    | .boot =>
      match g.boot with
      | .joining => { g.announceAll .relay with boot := .looped }
      | .looped => { g with boot := .ready, enabled := true }
      | .ready => g

/-- A schedule. -/
def run (g : Gate) (ss : List GateStep) : Gate := ss.foldl step g

end Gate

end Verif
