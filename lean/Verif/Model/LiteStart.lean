import Verif.Model.Wallet
import Verif.Model.PoR
import Verif.Model.NodeConfig

/-!
# Start-up of a lightweight agent, and signing

libs/go/aealite/agent.go:40-54 (`Agent.InitFromEnv`), libs/go/aealite/connections/p2pclient.go:88-133
(`P2PClientApi.InitFromEnv`) and `SignFetchAI` (libp2p_node/utils/utils.go:373-388,
aealite/wallet/utils.go:214-229).

`env` is the environment after `godotenv.Overload`, which both parts do with the same file. `log.Fatal`
ends the process. The client is not connected yet (otherwise `InitFromEnv` does nothing).
-/

namespace Verif

/-- A client that is initialised. -/
structure LiteConfig where
  record : AgentRecord
  host : Bytes
  port : Nat
  deriving DecidableEq, Repr

/-- `strconv.ParseUint(s, 10, 16)` with its error: no digits, another character, or out of range. -/
def parsePort (s : Bytes) : Option Nat :=
  if s = [] then none
  else s.foldl (fun acc c => acc.bind fun n => (digit? c).bind fun d =>
    if 10 * n + d > 65535 then none else some (10 * n + d)) (some 0)

/-- The record: p2pclient.go:102-108 -/
def liteRecord (env : Bytes → Bytes) : AgentRecord where
  serviceId := env (b! "AEA_P2P_POR_SERVICE_ID")
  ledgerId := env (b! "AEA_P2P_POR_LEDGER_ID")
  address := env (b! "AEA_ADDRESS")
  publicKey := env (b! "AEA_PUBLIC_KEY")
  peerPublicKey := env (b! "AEA_P2P_POR_PEER_PUBKEY")
  signature := env (b! "AEA_P2P_POR_SIGNATURE")
  notBefore := []
  notAfter := []

/-- `P2PClientApi.InitFromEnv`: p2pclient.go:88-133. A port that is no number is a panic. -/
def liteInit (P : Prims) (env : Option (Bytes → Bytes)) : Res WalletErr LiteConfig :=
  match env with
  | none => .err .fatal
  | some env =>
    let record := liteRecord env
    match verifyLedger P record.ledgerId record.peerPublicKey record.signature record.publicKey with
    | .panic => .panic
    | .err _ => .err .fatal
    | .ok false => .err .fatal
    | .ok true =>
      match parsePort (env (b! "AEA_P2P_DELEGATE_PORT")) with
      | none => .panic
      | some port => .ok ⟨record, env (b! "AEA_P2P_DELEGATE_HOST"), port⟩

/-- `Agent.InitFromEnv`: agent.go:40-54, with a connection. -/
def agentInit (P : Prims) (publicKeyOf : Bytes → Option Bytes) (env : Option (Bytes → Bytes)) :
    Res WalletErr (Wallet × LiteConfig) :=
  match walletInit P publicKeyOf env with
  | .panic => .panic
  | .err _ => .err .fatal
  | .ok w =>
    match liteInit P env with
    | .panic => .panic
    | .err e => .err e
    | .ok c => .ok (w, c)

/-- `SignFetchAI`. `sign` is `KeyPairFromFetchAIKey` followed by `Sign` of libp2p, which gives DER;
`base64Enc` is `base64.StdEncoding.EncodeToString`. -/
def signFetchAI (sign : Bytes → Bytes → Option Bytes) (base64Enc : Bytes → Bytes) (message priv : Bytes) :
    Option Bytes :=
  (sign priv message).bind fun der => (derToStr der).map base64Enc

end Verif
