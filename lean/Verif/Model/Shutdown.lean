import Verif.Model.Go

/-!
# Closing a peer

libs/go/libp2p_node/dht/dhtpeer/dhtpeer.go:616-666 (`Close`), together with what goes on at the same time:
the handlers of delegate connections (846-1008), as far as they use the queues of `syncMessages`, and
`RouteEnvelope`, as far as it uses the slow queue (1168-1183, 1186-1209).

A schedule is a list of steps, each the next atomic part of a handler, a call of `RouteEnvelope` or a call of
`Close`. In Go, sending to a closed channel panics, also in a `select` with a default; so does closing a
channel that is closed. A blocked send panics when the channel is closed.

Connections are of `crypto/tls`, which decrypts whole records: data of a record that has been decrypted can still be
read after `conn.Close()`. `buffered` is that there is such data; it may hold any number of messages.

Simplifications. Of a queue we keep whether it is closed; a full or missing queue makes the handler discard
the envelope, which changes nothing here. The errors that `Close` collects and the parts of `Close` that have
no effect on these channels (mailbox, DHT, host, storage file) are left out.
-/

namespace Verif

/-- Where the handler of a delegate connection is. -/
inductive ConnPc where
  | registering                  -- 846-888
  | reading                      -- 923
  | missing (pair : Bytes)       -- found no queue, 961
  | found (pair : Bytes)         -- about to put the envelope, 987
  | stopped
  deriving DecidableEq, Repr

/-- A handler. -/
structure ConnHandler where
  addr : Bytes
  pc : ConnPc
  isOpen : Bool                  -- the connection is open on the side of the peer
  buffered : Bool                -- something is decrypted and not yet read
  deriving DecidableEq, Repr

/-- Where a call of `RouteEnvelope` is. -/
inductive RouterPc where
  | searching                    -- before 1171
  | sending                      -- before 1174: has seen that the peer is not closing
  | done
  deriving DecidableEq, Repr

/-- Where a call of `Close` is. -/
inductive CloserPc where
  | start
  | signalled                    -- after 623
  | flagged                      -- after 624
  | disconnected                 -- after 636-644
  | chansClosed                  -- after 659-663
  | ended                        -- after 664
  deriving DecidableEq, Repr

/-- The state. -/
structure Shutdown where
  closing : Bool                 -- the channel `closing` is closed
  isClosing : Bool
  listening : Bool
  handlers : List ConnHandler
  tcpAddresses : GoMap Bytes Nat -- numbers of handlers
  syncMessages : GoMap Bytes Bool  -- whether the queue is closed
  routers : List RouterPc
  slow : Nat                     -- envelopes in the slow queue
  slowClosed : Bool
  closers : List CloserPc
  crashed : Bool

/-- Steps. -/
inductive ShutdownStep where
  | accept (addr : Bytes)        -- a delegate client connects and will register `addr`
  | register (h : Nat)           -- its handler puts it into the table
  | buffer (h : Nat)             -- a record is decrypted that has more than is read of it
  | drain (h : Nat)              -- the last of it is read
  | recv (h : Nat) (pair : Bytes)
  | create (h : Nat)
  | put (h : Nat)
  | hangUp (h : Nat)             -- reading fails
  | route                        -- `RouteEnvelope` for an address to be looked up
  | lookupFailed (r : Nat)
  | send (r : Nat)
  | takeSlow
  | close                        -- somebody calls `Close`
  | closer (k : Nat)
  deriving DecidableEq, Repr

namespace Shutdown

/-- dhtpeer.go:76 -/
def slowQueueSize : Nat := 100

/-- A peer after `New`. -/
def init : Shutdown := ⟨false, false, true, [], .empty, .empty, [], 0, false, [], false⟩

/-- Change a handler. -/
def setHandler (g : Shutdown) (h : Nat) (c : ConnHandler) : Shutdown := { g with handlers := g.handlers.set h c }

/-- Close the connections in the table: 638-643. -/
def disconnect (g : Shutdown) : Shutdown :=
  { g with
      listening := false
      handlers := g.handlers.mapIdx fun i c =>
        if g.tcpAddresses.keys.any (fun a => g.tcpAddresses.get a == some i) then { c with isOpen := false }
        else c }

/-- The next part of a call of `Close`. -/
def closerStep (g : Shutdown) (k : Nat) : CloserPc → Shutdown
  | .start =>
    if g.closing then { g with crashed := true }
    else { g with closing := true, closers := g.closers.set k .signalled }
  | .signalled => { g with isClosing := true, closers := g.closers.set k .flagged }
  | .flagged => { g.disconnect with closers := g.closers.set k .disconnected }
  | .disconnected =>
    if g.syncMessages.keys.any (fun p => g.syncMessages.get p == some true) then { g with crashed := true }
    else
      { g with
          syncMessages := g.syncMessages.keys.foldl (fun m p => m.set p true) g.syncMessages
          closers := g.closers.set k .chansClosed }
  | .chansClosed =>
    if g.slowClosed then { g with crashed := true }
    else { g with slowClosed := true, closers := g.closers.set k .ended }
  | .ended => g

/-- One step; a step that is not possible changes nothing, and neither does any step after a crash. -/
def step (g : Shutdown) (s : ShutdownStep) : Shutdown :=
  if g.crashed then g
  else
    match s with
    | .accept a =>
      if g.listening then { g with handlers := g.handlers ++ [⟨a, .registering, true, false⟩] } else g
    | .register h =>
      match g.handlers[h]? with
      | some ⟨a, .registering, o, b⟩ =>
        { g.setHandler h ⟨a, .reading, o, b⟩ with tcpAddresses := g.tcpAddresses.set a h }
      | _ => g
    | .buffer h =>
      match g.handlers[h]? with
      | some ⟨a, pc, true, _⟩ => g.setHandler h ⟨a, pc, true, true⟩
      | _ => g
    | .drain h =>
      match g.handlers[h]? with
      | some ⟨a, pc, o, _⟩ => g.setHandler h ⟨a, pc, o, false⟩
      | _ => g
    | .recv h p =>
      match g.handlers[h]? with
      | some ⟨a, .reading, o, b⟩ =>
        if o || b then g.setHandler h ⟨a, if g.syncMessages.has p then .found p else .missing p, o, b⟩ else g
      | _ => g
    | .create h =>
      match g.handlers[h]? with
      | some ⟨a, .missing p, o, b⟩ =>
        { g.setHandler h ⟨a, .found p, o, b⟩ with syncMessages := g.syncMessages.set p false }
      | _ => g
    | .put h =>
      match g.handlers[h]? with
      | some ⟨a, .found p, o, b⟩ =>
        if g.syncMessages.get p = some true then { g with crashed := true }
        else g.setHandler h ⟨a, .reading, o, b⟩
      | _ => g
    | .hangUp h =>
      match g.handlers[h]? with
      | some ⟨a, .reading, _, _⟩ =>
        { g.setHandler h ⟨a, .stopped, false, false⟩ with tcpAddresses := g.tcpAddresses.erase a }
      | _ => g
    | .route => { g with routers := g.routers ++ [.searching] }
    | .lookupFailed r =>
      match g.routers[r]? with
      | some .searching => { g with routers := g.routers.set r (if g.isClosing then .done else .sending) }
      | _ => g
    | .send r =>
      match g.routers[r]? with
      | some .sending =>
        if g.slowClosed then { g with crashed := true }
        else if g.slow < slowQueueSize then { g with routers := g.routers.set r .done, slow := g.slow + 1 }
        else g
      | _ => g
    | .takeSlow => { g with slow := g.slow - 1 }
    | .close => { g with closers := g.closers ++ [.start] }
    | .closer k =>
      match g.closers[k]? with
      | some pc => g.closerStep k pc
      | none => g

/-- A history. -/
def run (g : Shutdown) (ss : List ShutdownStep) : Shutdown := ss.foldl step g

end Shutdown

end Verif
