import Verif.Model.RecordFile

/-!
# Relay clients that register while the peer loads its record file

libs/go/libp2p_node/dht/dhtpeer/dhtpeer.go:327-332 (registrations are served), 338-354 (then the entry peers are
notified, which takes time), 357-365 and 462-508 (then the file is opened and loaded), together with the two
critical sections of `handleAeaRegisterStream` (1758-1772).

The loader and the handlers of registrations run at the same time; a schedule is a list of steps. The loader
does not take the locks of the tables. The file is open once, for reading and for appending, so both share
its position: an append sets it to the end of the file (`O_APPEND`). Before the file is open the field
`storage` is nil, and writing to it is an error, which is only logged.

Simplifications. The loader reads through a buffer of 4096 bytes; here it reads any positive number of bytes
at a time. Storing into a map at the same time as somebody else may end the process in Go ("concurrent map
writes"); this is left out. An append is written as a whole or not at all.
-/

namespace Verif

/-- Where the loader is. -/
inductive LoadPhase where
  | closed
  | loading
  | loaded
  | failed (e : LoadErr)
  deriving DecidableEq, Repr

/-- Where a registration is. -/
inductive RelayReg where
  | accepted (r : AgentRecord) (id : Bytes)
  | recorded (r : AgentRecord) (id : Bytes)   -- in `agentRecords`
  | finished (saved : Bool)
  deriving DecidableEq, Repr

/-- A peer that starts. `count` is the number of loaded records. -/
structure StartLoad where
  file : Bytes
  off : Nat                     -- the position in the file
  buf : Bytes                   -- read, not yet used by the loader
  phase : LoadPhase
  tables : Loaded
  count : Nat
  regs : List RelayReg

/-- Steps. -/
inductive StartLoadStep where
  | register (r : AgentRecord) (id : Bytes)   -- a registration is accepted, from the peer with this id
  | record (k : Nat)
  | list (k : Nat) (written : Bool)           -- `written`: writing to the file succeeds
  | openFile
  | read (n : Nat)
  | parse
  deriving DecidableEq, Repr

namespace StartLoad

/-- A peer before its file is opened. -/
def init (file : Bytes) : StartLoad := ⟨file, 0, [], .closed, .empty, 0, []⟩

/-- There is a whole record in the buffer. -/
def ready (buf : Bytes) : Bool :=
  decide (4 ≤ buf.length) && decide (be32ToNat (buf.take 4) ≤ (buf.drop 4).length)

/-- One step; steps that are not possible change nothing. -/
def step (peerId : Bytes → Option Bytes) (broken : AgentRecord → Bytes) (g : StartLoad) :
    StartLoadStep → StartLoad
  | .register r id => { g with regs := g.regs ++ [.accepted r id] }
  | .record k =>
    match g.regs[k]? with
    | some (.accepted r id) =>
      { g with
          tables := { g.tables with records := g.tables.records.set r.address r }
          regs := g.regs.set k (.recorded r id) }
    | _ => g
  | .list k written =>
    match g.regs[k]? with
    | some (.recorded r id) =>
      let g' := { g with tables := { g.tables with dhtAddresses := g.tables.dhtAddresses.set r.address id } }
      match saveRecord broken r with
      | some w =>
        if g.phase ≠ .closed ∧ written then
          { g' with file := g.file ++ w, off := (g.file ++ w).length, regs := g.regs.set k (.finished true) }
        else { g' with regs := g.regs.set k (.finished false) }
      | none => { g' with regs := g.regs.set k (.finished false) }
    | _ => g
  | .openFile => if g.phase = .closed then { g with phase := .loading, off := 0, buf := [] } else g
  | .read n =>
    if g.phase = .loading ∧ ready g.buf = false ∧ 0 < n then
      let chunk := (g.file.drop g.off).take n
      if chunk = [] then
        { g with
            phase :=
              if g.buf.length = 0 then .loaded else if g.buf.length < 4 then .failed .size
              else .failed .line }
      else { g with buf := g.buf ++ chunk, off := g.off + chunk.length }
    else g
  | .parse =>
    if g.phase = .loading ∧ ready g.buf = true then
      let size := be32ToNat (g.buf.take 4)
      let rest := g.buf.drop 4
      match AgentRecord.decode (rest.take size) with
      | none => { g with phase := .failed .parse }
      | some r =>
        let tables := { g.tables with records := g.tables.records.set r.address r }
        match peerId r.peerPublicKey with
        | none => { g with phase := .failed .key, tables := tables }
        | some id =>
          { g with
              buf := rest.drop size
              tables := { tables with dhtAddresses := tables.dhtAddresses.set r.address id }
              count := g.count + 1 }
    else g

/-- A history. -/
def run (peerId : Bytes → Option Bytes) (broken : AgentRecord → Bytes) (g : StartLoad)
    (ss : List StartLoadStep) : StartLoad :=
  ss.foldl (step peerId broken) g

end StartLoad

end Verif
