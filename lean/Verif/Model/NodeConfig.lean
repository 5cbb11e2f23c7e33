import Verif.Model.Label
import Verif.Model.Messages

/-!
# Initialisation of the node from its environment

`AeaApi.Init`: libs/go/libp2p_node/aea/api.go:171-332, and the choice between peer and client,
libs/go/libp2p_node/libp2p_node.go:96-105.

The environment is a function from names to values after the file given on the command line was loaded
(a variable that is not set reads as empty); failing to load it ends the process and is not modelled.
Whether an address can be resolved and listened on, and the parsing of floating-point numbers, are
parameters. Variables are not changed by logging, which is left out.
-/

namespace Verif

open DialogueLabel (splitBytes)

/-- The digit value of a character. -/
def digit? (c : UInt8) : Option Nat :=
  if 48 ≤ c.toNat ∧ c.toNat ≤ 57 then some (c.toNat - 48) else none

/-- The loop of `strconv.ParseUint(s, 10, 16)` (Go standard library), the value only: zero after a
character that is no digit, the largest value once the number is too large, whichever comes first. -/
def parseUint16Loop (n : Nat) : Bytes → Nat
  | [] => n
  | c :: cs =>
    match digit? c with
    | none => 0
    | some d => if 10 * n + d > 65535 then 65535 else parseUint16Loop (10 * n + d) cs

/-- The value of `strconv.ParseUint(s, 10, 16)`; the callers ignore the error. -/
def parseUint16 (s : Bytes) : Nat := parseUint16Loop 0 s

/-- What the node asks of its environment. -/
structure Host (δ : Type) where
  getenv : Bytes → Bytes
  resolves : Bytes → Bool
  canListen : Bytes → Bool
  parseFloat : Bytes → Option δ

/-- Errors of `Init`. -/
inductive InitErr where
  | keyOrUriMissing
  | pipesMissing
  | malformedUri (uri : Bytes)
  | unresolved
  | taken
  | delay
  deriving DecidableEq, Repr

/-- The configuration after a successful `Init`. -/
structure NodeConfig (δ : Type) where
  msgIn : Bytes
  msgOut : Bytes
  agentAddr : Bytes
  id : Bytes
  record : Option AgentRecord
  host : Bytes
  port : Nat
  hostPublic : Bytes
  portPublic : Nat
  hostDelegate : Bytes
  portDelegate : Nat
  hostMonitoring : Bytes
  portMonitoring : Nat
  entryPeers : List Bytes
  delay : Option δ                -- none: zero
  mailboxUri : Bytes
  storagePath : Bytes
  standalone : Bool
  pipe : Option (Bytes × Bytes)   -- the pipe, if it was made
  deriving DecidableEq, Repr

/-- Split a URI: api.go:240-247, 261-268, 275-282, 289-296 -/
def parseUri (uri : Bytes) : Except InitErr (Bytes × Nat) :=
  match splitBytes 58 uri with
  | h :: p :: _ => .ok (h, parseUint16 p)
  | _ => .error (.malformedUri uri)

/-- The same for a URI that may be missing. -/
def parseOptionalUri (uri : Bytes) : Except InitErr (Bytes × Nat) :=
  if uri ≠ [] then parseUri uri else .ok ([], 0)

/-- The record: api.go:199-208 -/
def recordOf (getenv : Bytes → Bytes) : Option AgentRecord :=
  let address := getenv (b! "AEA_P2P_POR_ADDRESS")
  if address ≠ [] then
    some {
      serviceId := getenv (b! "AEA_P2P_POR_SERVICE_ID")
      ledgerId := getenv (b! "AEA_P2P_POR_LEDGER_ID")
      address := address
      publicKey := getenv (b! "AEA_P2P_POR_PUBKEY")
      peerPublicKey := getenv (b! "AEA_P2P_POR_PEER_PUBKEY")
      signature := getenv (b! "AEA_P2P_POR_SIGNATURE")
      notBefore := []
      notAfter := [] }
  else none

/-- `Init` of a new `AeaApi`: api.go:171-332 -/
def initNode {δ : Type} (H : Host δ) : Except InitErr (NodeConfig δ) :=
  let msgIn := H.getenv (b! "AEA_TO_NODE")
  let msgOut := H.getenv (b! "NODE_TO_AEA")
  let agentAddr := H.getenv (b! "AEA_AGENT_ADDR")
  let id := H.getenv (b! "AEA_P2P_ID")
  let entryPeers := H.getenv (b! "AEA_P2P_ENTRY_URIS")
  let uri := H.getenv (b! "AEA_P2P_URI")
  let registrationDelay := H.getenv (b! "AEA_P2P_CFG_REGISTRATION_DELAY")
  if id = [] ∨ uri = [] then .error .keyOrUriMissing
  else
    let standalone := decide (msgIn = [] ∧ msgOut = [] ∧ agentAddr = [])
    if standalone = false ∧ (msgIn = [] ∨ msgOut = [] ∨ agentAddr = []) then .error .pipesMissing
    else
      match parseUri uri with
      | .error e => .error e
      | .ok (host, port) =>
        if H.resolves uri = false then .error .unresolved
        else if H.canListen uri = false then .error .taken
        else
          match parseOptionalUri (H.getenv (b! "AEA_P2P_URI_PUBLIC")) with
          | .error e => .error e
          | .ok (hostPublic, portPublic) =>
            match parseOptionalUri (H.getenv (b! "AEA_P2P_DELEGATE_URI")) with
            | .error e => .error e
            | .ok (hostDelegate, portDelegate) =>
              match parseOptionalUri (H.getenv (b! "AEA_P2P_URI_MONITORING")) with
              | .error e => .error e
              | .ok (hostMonitoring, portMonitoring) =>
                let finish (delay : Option δ) : NodeConfig δ :=
                  { msgIn, msgOut, agentAddr, id, record := recordOf H.getenv
                    host, port, hostPublic, portPublic, hostDelegate, portDelegate
                    hostMonitoring, portMonitoring
                    entryPeers := if entryPeers = [] then [] else splitBytes 44 entryPeers
                    delay
                    mailboxUri := H.getenv (b! "AEA_P2P_MAILBOX_URI")
                    storagePath := H.getenv (b! "AEA_P2P_CFG_STORAGE_PATH")
                    standalone
                    pipe := if standalone then none else some (msgIn, msgOut) }
                if registrationDelay = [] then .ok (finish none)
                else
                  match H.parseFloat registrationDelay with
                  | none => .error .delay
                  | some d => .ok (finish (some d))

/-- The node runs as a peer, otherwise as a client: libp2p_node.go:97 -/
def NodeConfig.runsAsPeer {δ : Type} (c : NodeConfig δ) : Bool := c.portPublic != 0

end Verif
