import Verif.Model.Go

/-!
# The locks of a peer

libs/go/libp2p_node/dht/dhtpeer/dhtpeer.go and mailbox.go: every function of a peer that takes one of its locks,
as the list of its operations on locks and of the calls that wait for something else, in the order of the code.
Branches and loops are parameters; a function that returns early does a beginning of the list after which it holds
no lock. Deferred operations stand where the function returns.

The locks are `sync.RWMutex`: any number of readers or one writer; a writer that has asked keeps new readers out,
and one writer asks at a time. The wait group `enableAddressAnnouncementWg` is entered by notifications and waited
for by registrations.

Simplifications. The locks of the metrics are taken one at a time and only `Observe` in `RegisterAgentAddress` is
called while another lock is held; the other updates of metrics are left out. Of what the functions do with the data,
only the uses of the maps and of `enableAddressAnnouncement` are there, as operations `use`; a section that may write,
as `MailboxServer.RouteEnvelope`, is taken to write. The rest is in the other models.
-/

namespace Verif

/-- The locks. -/
inductive LockName where
  | group                  -- the wait group `enableAddressAnnouncementWg`
  | records                -- `agentRecordsLock`
  | tcp                    -- `tcpAddressesLock`
  | dht                    -- `dhtAddressesLock`
  | statuses               -- `acnStatusesLock`
  | sync                   -- `syncMessagesLock`
  | announced              -- `addressAnnouncedMapLock`
  | enabled                -- `enableAddressAnnouncementLock`
  | mailbox                -- `MailboxServer.lock`
  | metric                 -- the lock of a metric
  deriving DecidableEq, Repr

/-- What a function waits for or uses, other than locks. -/
inductive LockIo where
  | provide                -- `dht.Provide`, with a time-out of 3 s
  | timer                  -- a wait with a time-out
  | file                   -- the storage file
  | hangUp                 -- closing a connection
  | chan                   -- a channel of this process
  | agent                  -- the agent of the peer
  | remote                 -- another peer or a client, without a time-out
  | use (l : LockName) (w : Bool)   -- nothing: the data that the lock `l` is for is read or, if `w`, written
  deriving DecidableEq, Repr

/-- Operations. -/
inductive LockOp where
  | lock (l : LockName)
  | rlock (l : LockName)
  | enter                  -- `Wg.Add(1)`
  | release (l : LockName) -- `Unlock`, `RUnlock` or `Wg.Done()`
  | await                  -- `Wg.Wait()`
  | io (k : LockIo)
  deriving DecidableEq, Repr

open LockOp

/-- A short section that writes. -/
def sec (l : LockName) : List LockOp := [lock l, io (.use l true), release l]
/-- A short section that only reads, although it takes the lock for writing. -/
def look (l : LockName) : List LockOp := [lock l, io (.use l false), release l]
/-- A short section that reads. -/
def rsec (l : LockName) : List LockOp := [rlock l, io (.use l false), release l]

/-- How `RegisterAgentAddress` goes on: already announced, no content id, or `Provide` called. -/
inductive AnnounceCase where
  | already | noCid | provided
  deriving DecidableEq, Repr

/-- `RegisterAgentAddress`: dhtpeer.go:1794-1828 -/
def registerOps : AnnounceCase → List LockOp
  | .already => look .announced
  | .noCid => look .announced ++ sec .announced
  | .provided => look .announced ++ sec .announced ++ [io .provide] ++ sec .metric

/-- Announcing the addresses of a map in turn: dhtpeer.go:367-373, 1657-1666 and 1669-1678. -/
def announceOps (l : LockName) (cs : List AnnounceCase) : List LockOp :=
  (cs.flatMap fun c => io (.use l false) :: registerOps c) ++ [io (.use l false)]

/-- `IsAddressAnnouncementEnabled`: dhtpeer.go:1691-1698 -/
def enabledOps : List LockOp := await :: look .enabled

/-- How `getEnvelopeAcnRecord` goes on: the sender is the own agent, a mailbox client (that is still registered when
`GetAgentRecord` asks, or not), or another. -/
inductive SenderCase where
  | own | box (still : Bool) | other
  deriving DecidableEq, Repr

/-- `getEnvelopeAcnRecord`: dhtpeer.go:1034-1053, mailbox.go:325-340. `mb`: the peer has a mailbox. -/
def senderOps (mb : Bool) : SenderCase → List LockOp
  | .own => rsec .records
  | .box still =>
    rsec .records ++ (if mb then look .mailbox ++ look .mailbox ++ (if still then look .mailbox else []) else [])
  | .other => rsec .records ++ (if mb then look .mailbox else [])

/-- Where `RouteEnvelope` finds the receiver. -/
inductive TargetCase where
  | box | agent | delegate | relay
  | lookup (s : SenderCase) (slow : Bool)   -- `slow`: put into the slow queue
  deriving DecidableEq, Repr

/-- `RouteEnvelope`: dhtpeer.go:1055-1184 -/
def routeOps (mb : Bool) (s : SenderCase) (t : TargetCase) : List LockOp :=
  senderOps mb s ++ rsec .tcp ++ (if mb then sec .mailbox else []) ++
    match t with
    | .box => []
    | .agent => [io .agent]
    | .delegate => [io .remote] ++ look .statuses ++ [io .timer]
    | .relay => rsec .dht ++ [io .remote]
    | .lookup s' slow => rsec .dht ++ senderOps mb s' ++ [io .remote] ++ (if slow then [io .chan] else [])

/-- An envelope or a status from a delegate client. -/
inductive DelegateInput where
  | status
  | envelope (new : Bool)   -- `new`: the first of its pair
  deriving DecidableEq, Repr

/-- One round of the handler of a delegate connection: dhtpeer.go:920-996 and 1843-1849. -/
def delegateRound : DelegateInput → List LockOp
  | .status => [io .remote] ++ look .statuses ++ [io .chan]
  | .envelope new => [io .remote] ++ look .sync ++ (if new then sec .sync else []) ++ look .sync

/-- `handleAeaRegisterStream`: dhtpeer.go:1700-1792 -/
def relayRegisterOps (c : AnnounceCase) : List LockOp :=
  [io .remote] ++ sec .records ++ [lock .dht, io (.use .dht true), io .file, release .dht] ++
    enabledOps ++ look .announced ++ registerOps c

/-- Loading the records and announcing them, when the peer starts, and the own address, without a lock:
dhtpeer.go:357-396 and 462-508. `records` are in the file; `stored`, with bootstrap peers: the loaded addresses and the
own one are announced. -/
def loadOps (records : Nat) (stored : Option (List AnnounceCase × Option AnnounceCase)) : List LockOp :=
  (List.replicate records [io .file, io (.use .records true), io (.use .dht true)]).flatten ++
    match stored with
    | some (cs, own) =>
      announceOps .dht cs ++ [io (.use .enabled true)] ++
      (match own with
        | some c => look .announced ++ registerOps c
        | none => [])
    | none => []

/-- The programs of a peer. -/
inductive PeerProgram (mb : Bool) : List LockOp → Prop
  /-- a call of `RouteEnvelope`: main.go, or the workers of pairs, dhtpeer.go:970-983 -/
  | route (s : SenderCase) (t : TargetCase) : PeerProgram mb (routeOps mb s t)
  /-- the worker of a pair: dhtpeer.go:970-983 -/
  | worker (l : List (SenderCase × TargetCase)) :
    PeerProgram mb (look .sync ++ l.flatMap fun x => io .chan :: routeOps mb x.1 x.2)
  /-- `slowEnvelopeSendLoop`: dhtpeer.go:1186-1233 -/
  | slow (l : List SenderCase) :
    PeerProgram mb (l.flatMap fun s => io .chan :: senderOps mb s ++ [io .remote])
  /-- `HandleAeaEnvelope`: dhtpeer.go:1456-1526 -/
  | handleEnvelope (t : Option Bool) :   -- a delegate, the own agent, or neither
    PeerProgram mb ([io .remote] ++ rsec .tcp ++ (if mb then sec .mailbox else []) ++
      (match t with
        | some true => [io .remote] ++ look .statuses ++ [io .timer]
        | some false => [io .agent]
        | none => []) ++ [io .remote])
  /-- `HandleAeaAddressRequest`: dhtpeer.go:1533-1613 -/
  | addressRequest (asked : Option Bool) :   -- whether the mailbox is asked and has the address
    PeerProgram mb ([io .remote] ++ rsec .dht ++ rsec .tcp ++ rsec .records ++
      (match asked with
        | none => []
        | some found =>
          if mb then look .mailbox ++ (if found then look .mailbox ++ look .mailbox else []) else []) ++ [io .remote])
  /-- `handleAeaNotifStream`: dhtpeer.go:1615-1689. `own`, `relay` and `tcp` are the addresses. -/
  | notif (found : Bool) (own : Option AnnounceCase) (relay tcp : List AnnounceCase) :
    PeerProgram mb ([enter, io .timer] ++
      (if found then
        (match own with
          | some c => look .announced ++ registerOps c
          | none => []) ++
        ([rlock .dht] ++ announceOps .dht relay ++ [release .dht]) ++
        ([rlock .tcp] ++ announceOps .tcp tcp ++ [release .tcp]) ++
        sec .enabled
      else []) ++ [release .group])
  /-- the same, when announcing the own address fails: dhtpeer.go:1647-1652 -/
  | notifFailed (own : AnnounceCase) :
    PeerProgram mb ([enter, io .timer] ++ (look .announced ++ registerOps own) ++ [release .group])
  /-- `handleAeaRegisterStream`: dhtpeer.go:1700-1792 -/
  | register (c : AnnounceCase) : PeerProgram mb (relayRegisterOps c)
  /-- `handleNewDelegationConnection`: dhtpeer.go:846-1010 -/
  | delegate (c : Option AnnounceCase) (l : List DelegateInput) :
    PeerProgram mb ([io .remote] ++ sec .records ++ sec .tcp ++ sec .statuses ++ enabledOps ++
      (match c with
        | some c => registerOps c
        | none => []) ++
      l.flatMap delegateRound ++ [io .remote] ++ sec .tcp ++ sec .statuses)
  /-- `Close`: dhtpeer.go:616-666 -/
  | close (conns : Nat) :
    PeerProgram mb ([lock .tcp] ++ (List.replicate conns [io (.use .tcp false), io .hangUp]).flatten ++
      [release .tcp, io .timer] ++ [lock .records, io .file, release .records] ++ look .sync)
  /-- `apiRegister`: mailbox.go:37-85 -/
  | apiRegister (c : Option AnnounceCase) :
    PeerProgram mb ([io .remote] ++ enabledOps ++
      (match c with
        | some c => registerOps c
        | none => []) ++ sec .mailbox ++ [io .remote])
  /-- `apiUnregister`: mailbox.go:87-122 -/
  | apiUnregister : PeerProgram mb (look .mailbox ++ sec .mailbox)
  /-- `apiSendEnvelope`: mailbox.go:137-187 -/
  | apiSend (s : SenderCase) (t : TargetCase) :
    PeerProgram mb (look .mailbox ++ [io .remote] ++ routeOps mb s t ++ [io .remote])
  /-- `apiGetEnvelope`: mailbox.go:189-238, which writes the response before it releases the lock. `taken`: there is an
  envelope, and writing it worked -/
  | apiGet (taken : Bool) :
    PeerProgram mb ([lock .mailbox, io (.use .mailbox false), io .remote] ++
      (if taken then [io (.use .mailbox true)] else []) ++ [release .mailbox])
  /-- the same, without a body: mailbox.go:221-224 -/
  | apiGetEmpty : PeerProgram mb (look .mailbox)
  /-- the start of the peer -/
  | load (records : Nat) (stored : Option (List AnnounceCase × Option AnnounceCase)) :
    PeerProgram mb (loadOps records stored)
  /-- `MailboxServer.start`, which makes the maps and the lock, without a lock: mailbox.go:253-261 -/
  | mailboxStart : PeerProgram mb [io (.use .mailbox true)]

/-! ## Running programs at the same time -/

/-- A thread: what it has to do, which locks it holds, for writing or not, and whether it has asked for the lock it
wants for writing. -/
structure LockThread where
  ops : List LockOp
  held : List (LockName × Bool)
  asked : Bool
  deriving DecidableEq, Repr

/-- A thread that begins. -/
def LockThread.start (ops : List LockOp) : LockThread := ⟨ops, [], false⟩

namespace LockThread

/-- It holds the lock. -/
def holds (t : LockThread) (l : LockName) : Bool := t.held.any fun x => x.1 == l

/-- It holds the lock for writing. -/
def writes (t : LockThread) (l : LockName) : Bool := t.held.any fun x => x.1 == l && x.2

/-- It has asked for the lock for writing. -/
def wants (t : LockThread) (l : LockName) : Bool := t.asked && t.ops.head? == some (lock l)

/-- The thread after its next operation. -/
def done (t : LockThread) (held : List (LockName × Bool)) : LockThread := ⟨t.ops.tail, held, false⟩

end LockThread

/-- The threads of the peer. -/
abbrev LockState := List LockThread

namespace LockState

/-- What thread `i` does next, `none` if it has to wait or has ended. Asking for a lock for writing is a step of its
own. -/
def next (s : LockState) (i : Nat) : Option LockThread :=
  match s[i]? with
  | none => none
  | some t =>
    match t.ops with
    | [] => none
    | .lock l :: _ =>
      if t.asked then
        if s.any (·.holds l) then none else some (t.done ((l, true) :: t.held))
      else
        if s.any (·.wants l) || s.any (·.writes l) then none else some { t with asked := true }
    | .rlock l :: _ =>
      if s.any (·.wants l) || s.any (·.writes l) then none else some (t.done ((l, false) :: t.held))
    | .enter :: _ => some (t.done ((.group, false) :: t.held))
    | .release l :: _ => some (t.done (t.held.eraseP fun x => x.1 == l))
    | .await :: _ => if s.any (·.holds .group) then none else some (t.done t.held)
    | .io _ :: _ => some (t.done t.held)

/-- A step: thread `i` goes on, or a new thread begins. -/
inductive Step where
  | go (i : Nat)
  | spawn (ops : List LockOp)
  deriving DecidableEq, Repr

/-- One step; a thread that waits changes nothing. -/
def step (s : LockState) : Step → LockState
  | .go i =>
    match s.next i with
    | some t => s.set i t
    | none => s
  | .spawn ops => s ++ [.start ops]

/-- A history. -/
def run (s : LockState) (l : List Step) : LockState := l.foldl step s

end LockState

end Verif
