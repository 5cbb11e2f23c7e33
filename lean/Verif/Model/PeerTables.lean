import Verif.Model.Routing
import Verif.Model.RecordFile

/-!
# The tables of a peer over time

libs/go/libp2p_node/dht/dhtpeer/dhtpeer.go:186-430 (start), 857-903, 998-1008 (delegate connections)
and 1700-1793 (relay registrations).

A state machine. The handlers of delegate connections and of registration streams run concurrently,
so every critical section is one step, and a history is any sequence of steps; steps that are not
possible change nothing. The steps of the mailbox are those of `Verif.Model.Mailbox`. The file of agent
records is appended to as a whole or, if writing fails, not at all; torn writes are the subject of C23.
Announcing, monitoring and status queues are left out, the effect of a failed announcement on the
tables is kept.
-/

namespace Verif

/-- The other end of a registration stream: the text form of its public key (hexadecimal of its raw
bytes, utils.go:245-251, for every type of key) and its peer id (`RemotePeer().Pretty()`). -/
structure Remote where
  key : Bytes
  id : Bytes
  deriving DecidableEq, Repr

/-- Where the handler of a delegate connection is. -/
inductive ConnPhase where
  | fresh
  | accepted (r : AgentRecord)      -- answered with success, line 886
  | recorded (r : AgentRecord)      -- in `agentRecords`, line 894
  | listed (r : AgentRecord)        -- in `tcpAddresses`, line 898
  | stale (r : AgentRecord)         -- announcement failed, line 911: closed, nothing removed
  | gone                            -- closed and removed, line 1002
  deriving DecidableEq, Repr

/-- Where the handler of a registration stream is. -/
inductive RelayPhase where
  | fresh
  | accepted (r : AgentRecord) (rem : Remote)    -- answered with success, line 1744
  | recorded (r : AgentRecord) (rem : Remote)    -- in `agentRecords`, line 1760
  | done
  deriving DecidableEq, Repr

/-- The state of a peer with its file. `saved` is a ghost record of what was written to the file. -/
structure Tables where
  peer : PeerState
  file : Bytes
  conns : Nat → ConnPhase
  relays : Nat → RelayPhase
  saved : List AgentRecord

/-- What is fixed for a peer: its key and the functions that are parameters elsewhere. -/
structure PeerEnv where
  T : AcnTexts
  por : PoRCheck
  porText : StatusCode → Bytes
  myKey : Bytes
  /-- `IDFromFetchAIPublicKey` and `Pretty`: `none` for keys that are not secp256k1 keys -/
  peerId : Bytes → Option Bytes
  broken : AgentRecord → Bytes

namespace Tables

/-- The option `RegisterAgentAddress`: dhtpeer/options.go:50-66. The validity dates are not copied. -/
def copyRecord (r : AgentRecord) : AgentRecord := { r with notBefore := [], notAfter := [] }

/-- The tables of a new peer with what was loaded from the file. -/
def startPeer (own : Option AgentRecord) (hasAgent mailbox : Bool) (l : Loaded) : PeerState where
  myAgent := (own.map (·.address)).getD []
  myRecord := own.map copyRecord
  hasAgent := hasAgent
  mailbox := if mailbox then some .init else none
  agentRecords := l.records
  tcpAddresses := .empty
  dhtAddresses := l.dhtAddresses
  closing := false

/-- The check of the own record: dhtpeer.go:233-252. -/
def ownOk (E : PeerEnv) (own : Option AgentRecord) : Bool :=
  match own.map copyRecord with
  | none => true
  | some r => decide (E.por r r.address E.myKey = .ok .success)

/-- `New`: dhtpeer.go:187-430, as far as it concerns the tables: the check of the own record (lines
233-252) and the loading of the file. `none` is an error; a panic of the check is `none` as well. -/
def start (E : PeerEnv) (own : Option AgentRecord) (hasAgent mailbox : Bool) (file : Bytes)
    (saved : List AgentRecord) : Option Tables :=
  if ownOk E own = true then
    match loadRecords E.peerId file with
    | .ok (l, _) => some ⟨startPeer own hasAgent mailbox l, file, fun _ => .fresh, fun _ => .fresh, saved⟩
    | _ => none
  else none

/-- Steps. -/
inductive Step where
  | delegate (c : Nat) (p : Pipe)             -- a connection registers
  | delegateRecord (c : Nat)
  | delegateConn (c : Nat)
  | delegateFail (c : Nat)                    -- the announcement failed
  | delegateEnd (c : Nat)
  | relay (k : Nat) (rem : Remote) (p : Pipe) -- a registration stream
  | relayRecord (k : Nat)
  | relayPeer (k : Nat) (written : Bool)
  | mailbox (st : Mailbox.Step)
  | route (n : Net) (e : Envelope)
  | handle (n : Net) (e : Envelope)

/-- Change the phase of a connection. -/
def setConn (s : Tables) (c : Nat) (ph : ConnPhase) : Nat → ConnPhase :=
  fun c' => if c' = c then ph else s.conns c'

/-- Change the phase of a registration stream. -/
def setRelay (s : Tables) (k : Nat) (ph : RelayPhase) : Nat → RelayPhase :=
  fun k' => if k' = k then ph else s.relays k'

/-- One step. -/
def step (E : PeerEnv) (s : Tables) : Step → Tables
  | .delegate c p =>
    match s.conns c, (acceptRegistration E.T E.por E.porText E.myKey p).1 with
    | .fresh, .ok r => { s with conns := s.setConn c (.accepted r) }
    | _, _ => s
  | .delegateRecord c =>
    match s.conns c with
    | .accepted r =>
      { s with
          peer := { s.peer with agentRecords := s.peer.agentRecords.set r.address r }
          conns := s.setConn c (.recorded r) }
    | _ => s
  | .delegateConn c =>
    match s.conns c with
    | .recorded r =>
      { s with
          peer := { s.peer with tcpAddresses := s.peer.tcpAddresses.set r.address c }
          conns := s.setConn c (.listed r) }
    | _ => s
  | .delegateFail c =>
    match s.conns c with
    | .listed r => { s with conns := s.setConn c (.stale r) }
    | _ => s
  | .delegateEnd c =>
    match s.conns c with
    | .listed r =>
      { s with
          peer := { s.peer with tcpAddresses := s.peer.tcpAddresses.erase r.address }
          conns := s.setConn c .gone }
    | _ => s
  | .relay k rem p =>
    match s.relays k, (acceptRegistration E.T E.por E.porText rem.key p).1 with
    | .fresh, .ok r => { s with relays := s.setRelay k (.accepted r rem) }
    | _, _ => s
  | .relayRecord k =>
    match s.relays k with
    | .accepted r rem =>
      { s with
          peer := { s.peer with agentRecords := s.peer.agentRecords.set r.address r }
          relays := s.setRelay k (.recorded r rem) }
    | _ => s
  | .relayPeer k written =>
    match s.relays k with
    | .recorded r rem =>
      let s := { s with
          peer := { s.peer with dhtAddresses := s.peer.dhtAddresses.set r.address rem.id }
          relays := s.setRelay k .done }
      match written, saveRecord E.broken r with
      | true, some b => { s with file := s.file ++ b, saved := s.saved ++ [r] }
      | _, _ => s
    | _ => s
  | .mailbox st =>
    { s with peer := { s.peer with mailbox := s.peer.mailbox.map fun m => (m.step E.por E.myKey st).1 } }
  | .route n e => { s with peer := (routeEnvelope s.peer n e).1 }
  | .handle n e => { s with peer := (handleAeaEnvelope s.peer n e).1 }

/-- A run of a peer. -/
def run (E : PeerEnv) (s : Tables) (steps : List Step) : Tables := steps.foldl (step E) s

/-- What the surroundings guarantee of a registration stream: the peer id of the other end is made from
its public key, so if the text of the key is that of a secp256k1 key, the peer id is the one computed
from it (the raw bytes of other types of keys have other lengths); and frames have 32-bit sizes. -/
def Sensible (E : PeerEnv) : Step → Prop
  | .relay _ rem p =>
    (∀ id, E.peerId rem.key = some id → rem.id = id) ∧ ∀ b, some b ∈ p.reads → b.length < 2 ^ 32
  | _ => True

/-- Writing to the file does not fail. -/
def Written : Step → Prop
  | .relayPeer _ written => written = true
  | _ => True

/-- The states a peer can be in: started on an empty file, run for any number of steps, stopped and
started again on its file any number of times. `ok` are the steps that may happen. -/
inductive Reachable (E : PeerEnv) (ok : Step → Prop) : Tables → Prop where
  | first {own : Option AgentRecord} {hasAgent mailbox : Bool} {s : Tables}
      (h : start E own hasAgent mailbox [] [] = some s) : Reachable E ok s
  | step {s : Tables} (st : Step) (h : Reachable E ok s) (hs : ok st) : Reachable E ok (s.step E st)
  | restart {s s' : Tables} {own : Option AgentRecord} {hasAgent mailbox : Bool} (h : Reachable E ok s)
      (h' : start E own hasAgent mailbox s.file s.saved = some s') : Reachable E ok s'

end Tables

end Verif
