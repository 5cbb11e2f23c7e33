import Verif.Model.NodeConfig
import Verif.Model.PoR

/-!
# Start of a node with its configuration

libs/go/libp2p_node/libp2p_node.go:55-150 (`main`), the options of dhtpeer/options.go and dhtclient/options.go,
the checks at the beginning of dhtpeer.go:187-249 and dhtclient.go:163-211 (`New`), `GetPeersAddrInfo`
(utils/utils.go:221-232) and the choice of the storage path (dhtpeer.go:357-361).

Keys, multiaddresses and peer ids are those of libp2p and are parameters, and so is the check of the proof of
representation (`Verif.Model.PoR`). What `New` does afterwards (making the libp2p host, joining the network)
is not part of this; `startNode` gives the settings it does it with.

A registration delay is a `float64`. Its conversion to an integer is only specified for values in the range of
64-bit integers; the result for other values is a parameter.
-/

namespace Verif

/-- A floating-point number. -/
inductive GoFloat where
  | finite (q : Rat)
  | special                      -- not a number, infinite
  deriving DecidableEq

/-- What the start asks of libp2p; `η` is `peer.AddrInfo`. -/
structure StartWorld (η : Type) where
  /-- `KeyPairFromFetchAIKey` and `FetchAIPublicKeyFromPubKey` (which does not fail): the public key as text -/
  publicKeyOf : Bytes → Option Bytes
  /-- `peer.IDFromPublicKey(...).Pretty()` for the key with this text -/
  peerIdOf : Bytes → Bytes
  /-- whether `/ip4/<host>/tcp/<port>` is a multiaddress -/
  ip4 : Bytes → Nat → Bool
  /-- whether `/dns4/<host>/tcp/<port>` is one -/
  dns4 : Bytes → Nat → Bool
  /-- `multiaddr.NewMultiaddr` and then `AddrInfoFromP2pAddr`: `none` if the first fails -/
  addrInfo : Bytes → Option (Option η)
  /-- `IsValidProofOfRepresentation` for a record, its address and a public key -/
  porCheck : AgentRecord → Bytes → Bytes → Res Unit StatusCode
  /-- the conversion of a number out of range -/
  oddInt64 : GoFloat → Int

/-- Errors of the start. -/
inductive StartErr where
  | localUri
  | publicUri
  | key
  | entryPeer
  | agentMissing
  | invalidRecord
  | noEntryPeers
  deriving DecidableEq, Repr

/-- Settings of a peer. -/
structure PeerSettings (η : Type) where
  publicKey : Bytes
  listen : Bytes × Nat
  announced : Bytes × Nat
  relay : Bool
  delegatePort : Nat             -- 0: no delegate service
  monitoringPort : Nat           -- 0: kept in memory only
  mailbox : Bytes                -- empty: no mailbox service
  entryPeers : List η
  agent : Option AgentRecord
  delay : Int                    -- nanoseconds
  storage : Bytes
  deriving DecidableEq, Repr

/-- Settings of a client. -/
structure ClientSettings (η : Type) where
  publicKey : Bytes
  entryPeers : List η
  agent : AgentRecord
  deriving DecidableEq, Repr

/-- How the node runs. -/
inductive NodeSettings (η : Type) where
  | peer (s : PeerSettings η)
  | client (s : ClientSettings η)
  deriving DecidableEq, Repr

/-- `GetPeersAddrInfo`: utils.go:221-232. `StringCast` panics if the text is no multiaddress. -/
def peersAddrInfo {η : Type} (W : StartWorld η) : List Bytes → Res StartErr (List η)
  | [] => .ok []
  | a :: as =>
    match W.addrInfo a with
    | none => .panic
    | some none => .err .entryPeer
    | some (some p) => (peersAddrInfo W as).bind fun ps => .ok (p :: ps)

/-- `int64(x)` for a float: towards zero. -/
def GoFloat.toInt64 {η : Type} (W : StartWorld η) : GoFloat → Int
  | .finite q =>
    let n := if 0 ≤ q then q.floor else q.ceil
    if -(2 ^ 63) ≤ n ∧ n < 2 ^ 63 then n else W.oddInt64 (.finite q)
  | .special => W.oddInt64 .special

/-- 64-bit two's complement. -/
def wrapInt64 (n : Int) : Int := (n + 2 ^ 63) % 2 ^ 64 - 2 ^ 63

/-- `time.Duration(delay)*1000000*time.Microsecond`, libp2p_node.go:117-121; the default is zero. -/
def delayOf {η : Type} (W : StartWorld η) (delay : Option GoFloat) : Int :=
  match delay with
  | none => 0
  | some d => if d = .finite 0 then 0 else wrapInt64 (d.toInt64 W * 1000000 * 1000)

/-- dhtpeer.go:109 -/
def defaultStorage : Bytes := b! "./agent_records_store"

/-- libp2p_node.go:122-124 and dhtpeer.go:357-361. -/
def storageOf {η : Type} (W : StartWorld η) (path publicKey : Bytes) : Bytes :=
  let path := if path ≠ [] then path else defaultStorage
  if path = defaultStorage then path ++ b! "_" ++ W.peerIdOf publicKey else path

/-- The checks of the record: dhtpeer.go:233-249, dhtclient.go:190-206. -/
def checkOwnRecord {η : Type} (W : StartWorld η) (r : AgentRecord) (publicKey : Bytes) : Res StartErr Unit :=
  match W.porCheck r r.address publicKey with
  | .ok .success => .ok ()
  | .ok _ => .err .invalidRecord
  | .err _ => .err .invalidRecord
  | .panic => .panic

/-- The part of the record that the options copy: options.go:51-57. -/
def AgentRecord.copied (r : AgentRecord) : AgentRecord := { r with notBefore := [], notAfter := [] }

/-- Start as a client. -/
def startClient {η : Type} (W : StartWorld η) (c : NodeConfig GoFloat) : Res StartErr (NodeSettings η) :=
  match W.publicKeyOf c.id with
  | none => .err .key
  | some key =>
    (peersAddrInfo W c.entryPeers).bind fun peers =>
      match c.record with
      | none => .err .agentMissing
      | some r =>
        if r.address = [] then .err .agentMissing
        else
          (checkOwnRecord W r.copied key).bind fun _ =>
            if peers.length < 1 then .err .noEntryPeers else .ok (.client ⟨key, peers, r.copied⟩)

/-- Start as a peer. -/
def startPeer {η : Type} (W : StartWorld η) (c : NodeConfig GoFloat) : Res StartErr (NodeSettings η) :=
  if W.ip4 c.host c.port = false then .err .localUri
  else if W.dns4 c.hostPublic c.portPublic = false then .err .publicUri
  else
    match W.publicKeyOf c.id with
    | none => .err .key
    | some key =>
      (peersAddrInfo W c.entryPeers).bind fun peers =>
        let settings : PeerSettings η :=
          { publicKey := key, listen := (c.host, c.port), announced := (c.hostPublic, c.portPublic)
            relay := true, delegatePort := c.portDelegate, monitoringPort := c.portMonitoring
            mailbox := c.mailboxUri, entryPeers := peers, agent := c.record.map AgentRecord.copied
            delay := delayOf W c.delay, storage := storageOf W c.storagePath key }
        match settings.agent with
        | none => .ok (.peer settings)
        | some r => (checkOwnRecord W r key).bind fun _ => .ok (.peer settings)

/-- `main`: libp2p_node.go:94-135 -/
def startNode {η : Type} (W : StartWorld η) (c : NodeConfig GoFloat) : Res StartErr (NodeSettings η) :=
  if c.runsAsPeer then startPeer W c else startClient W c

end Verif
