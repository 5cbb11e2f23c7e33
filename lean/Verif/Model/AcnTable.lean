import Verif.Model.Go

/-!
# The acknowledgement queues of delegate clients

libs/go/libp2p_node/dht/dhtpeer/dhtpeer.go: the tables `tcpAddresses` and `acnStatuses` with the handler of delegate
connections (893-916, 925-935, 999-1009), `RouteEnvelope` to a delegate client (1082-1087, 1118-1142),
`AddAcnStatusMessage` and `AwaitAcnStatus` (1843-1870), and `WaitForStatus` (acn/utils.go:116-125).

One step is one critical section, one operation on a channel, or one message on a connection. A client answers the
envelopes on its connection in their order, or sends a status that answers nothing. Which envelope a status answers
and which address a channel was made for are ghost values. Nothing else of an envelope matters here. Sending to or
receiving from a channel that is not in the table is an operation on a nil channel, which blocks for ever.
-/

namespace Verif

/-- A status: the number of the send whose envelope it answers, if any, and whether it is a success. -/
abbrev AcnAnswer := Option Nat × Bool

/-- Where the handler of a connection is. -/
inductive AcnConn where
  | fresh
  | accepted (a : Bytes)                                  -- answered with success, line 886
  | listed (a : Bytes)                                    -- in `tcpAddresses`, line 898
  | reading (a : Bytes)                                   -- has a queue, line 903
  | adding (a : Bytes) (q : Option Nat) (s : AcnAnswer)   -- about to send the status to the channel, line 1848
  | ending (a : Bytes)                                    -- taken out of `tcpAddresses`, line 1003
  | gone (a : Bytes)                                      -- line 1008, or 914 with the tables unchanged
  deriving DecidableEq, Repr

/-- The address of a connection. -/
def AcnConn.address : AcnConn → Option Bytes
  | .fresh => none
  | .accepted a | .listed a | .reading a | .adding a _ _ | .ending a | .gone a => some a

/-- Where a call of `RouteEnvelope` to a delegate client is. -/
inductive AcnSend where
  | found (c : Nat)                -- has the connection, line 1086
  | written                        -- wrote the envelope, line 1132
  | waiting (q : Option Nat)       -- has the channel, line 1857
  | acked (s : AcnAnswer)          -- took a status
  | failed                         -- the write failed, or 5 s are over
  deriving DecidableEq, Repr

/-- The state. -/
structure AcnTable where
  conns : Nat → AcnConn
  tcp : GoMap Bytes Nat
  acn : GoMap Bytes Nat
  chans : List (Bytes × List AcnAnswer)
  sends : List (Bytes × AcnSend)
  pending : Nat → List Nat         -- the envelopes on a connection that the client has not answered

/-- Steps. -/
inductive AcnTableStep where
  | register (c : Nat) (a : Bytes)
  | list (c : Nat)
  | queue (c : Nat)
  | unannounced (c : Nat)          -- the announcement failed, lines 908-914
  | route (a : Bytes)              -- a new call
  | write (i : Nat) (ok : Bool)
  | await (i : Nat)
  | take (i : Nat)
  | timeout (i : Nat)
  | answer (c : Nat) (ok : Bool)   -- the handler reads the answer to the oldest envelope
  | stray (c : Nat) (ok : Bool)    -- the handler reads a status that answers nothing
  | put (c : Nat)
  | unlist (c : Nat)               -- the connection has ended
  | unqueue (c : Nat)
  deriving DecidableEq, Repr

namespace AcnTable

/-- A new peer. -/
def init : AcnTable := ⟨fun _ => .fresh, .empty, .empty, [], [], fun _ => []⟩

/-- Capacity of a channel: dhtpeer.go:75, 902 -/
def capacity : Nat := 1000

/-- Change the phase of a connection. -/
def setConn (g : AcnTable) (c : Nat) (p : AcnConn) : Nat → AcnConn := fun c' => if c' = c then p else g.conns c'

/-- Change the envelopes on a connection. -/
def setPending (g : AcnTable) (c : Nat) (l : List Nat) : Nat → List Nat :=
  fun c' => if c' = c then l else g.pending c'

/-- One step; a step that is not possible changes nothing. -/
def step (g : AcnTable) : AcnTableStep → AcnTable
  | .register c a =>
    match g.conns c with
    | .fresh => { g with conns := g.setConn c (.accepted a) }
    | _ => g
  | .list c =>
    match g.conns c with
    | .accepted a => { g with conns := g.setConn c (.listed a), tcp := g.tcp.set a c }
    | _ => g
  | .queue c =>
    match g.conns c with
    | .listed a =>
      { g with conns := g.setConn c (.reading a), acn := g.acn.set a g.chans.length, chans := g.chans ++ [(a, [])] }
    | _ => g
  | .unannounced c =>
    match g.conns c with
    | .reading a => { g with conns := g.setConn c (.gone a) }
    | _ => g
  | .route a =>
    match g.tcp.get a with
    | some c => { g with sends := g.sends ++ [(a, .found c)] }
    | none => g
  | .write i ok =>
    match g.sends[i]? with
    | some (a, .found c) =>
      if ok then { g with sends := g.sends.set i (a, .written), pending := g.setPending c (g.pending c ++ [i]) }
      else { g with sends := g.sends.set i (a, .failed) }
    | _ => g
  | .await i =>
    match g.sends[i]? with
    | some (a, .written) => { g with sends := g.sends.set i (a, .waiting (g.acn.get a)) }
    | _ => g
  | .take i =>
    match g.sends[i]? with
    | some (a, .waiting (some q)) =>
      match g.chans[q]? with
      | some (o, s :: rest) =>
        { g with sends := g.sends.set i (a, .acked s), chans := g.chans.set q (o, rest) }
      | _ => g
    | _ => g
  | .timeout i =>
    match g.sends[i]? with
    | some (a, .waiting _) => { g with sends := g.sends.set i (a, .failed) }
    | _ => g
  | .answer c ok =>
    match g.conns c, g.pending c with
    | .reading a, j :: rest =>
      { g with conns := g.setConn c (.adding a (g.acn.get a) (some j, ok)), pending := g.setPending c rest }
    | _, _ => g
  | .stray c ok =>
    match g.conns c with
    | .reading a => { g with conns := g.setConn c (.adding a (g.acn.get a) (none, ok)) }
    | _ => g
  | .put c =>
    match g.conns c with
    | .adding a (some q) s =>
      match g.chans[q]? with
      | some (o, l) =>
        if l.length < capacity then
          { g with conns := g.setConn c (.reading a), chans := g.chans.set q (o, l ++ [s]) }
        else g
      | none => g
    | _ => g
  | .unlist c =>
    match g.conns c with
    | .reading a => { g with conns := g.setConn c (.ending a), tcp := g.tcp.erase a }
    | _ => g
  | .unqueue c =>
    match g.conns c with
    | .ending a => { g with conns := g.setConn c (.gone a), acn := g.acn.erase a }
    | _ => g

/-- A history. -/
def run (g : AcnTable) (ss : List AcnTableStep) : AcnTable := ss.foldl step g

end AcnTable

end Verif
