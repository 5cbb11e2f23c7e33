import Verif.Model.Messages
import Verif.Model.Crypto

/-!
# Proof of representation

libs/go/libp2p_node/dht/dhtnode/utils.go:35-111.
-/

namespace Verif

/-- The ACN status codes: acn.pb.go:28-45 -/
inductive StatusCode where
  | success
  | errorUnsupportedVersion
  | errorUnexpectedPayload
  | errorGeneric
  | errorDecode
  | errorWrongAgentAddress
  | errorWrongPublicKey
  | errorInvalidProof
  | errorUnsupportedLedger
  | errorUnknownAgentAddress
  | errorAgentNotReady
  deriving DecidableEq, Repr

/-- The number of a code on the wire. -/
def StatusCode.toInt : StatusCode → Int
  | .success => 0
  | .errorUnsupportedVersion => 1
  | .errorUnexpectedPayload => 2
  | .errorGeneric => 3
  | .errorDecode => 4
  | .errorWrongAgentAddress => 10
  | .errorWrongPublicKey => 11
  | .errorInvalidProof => 12
  | .errorUnsupportedLedger => 13
  | .errorUnknownAgentAddress => 20
  | .errorAgentNotReady => 21

/-- `supportedLedgers`: dhtnode/utils.go:38 -/
def supportedLedgers : List Bytes := [b! "fetchai", b! "cosmos", b! "ethereum"]

/-- `IsValidProofOfRepresentation`: dhtnode/utils.go:40-111. The two parameters are
`utils.AgentAddressFromPublicKey` and `utils.VerifyLedgerSignature`, which may panic. The result
is the status code; the error of the Go function is nil exactly for `success`. -/
def isValidPoR (addressOf : Bytes → Bytes → Res Unit Bytes)
    (verify : Bytes → Bytes → Bytes → Bytes → Res Unit Bool)
    (record : AgentRecord) (agentAddress peerPubKey : Bytes) : Res Unit StatusCode :=
  if record.address ≠ agentAddress then .ok .errorWrongAgentAddress
  else if !supportedLedgers.contains record.ledgerId then .ok .errorUnsupportedLedger
  else if record.peerPublicKey ≠ peerPubKey then .ok .errorWrongPublicKey
  else match addressOf record.ledgerId record.publicKey with
    | .panic => .panic
    | .err _ => .ok .errorWrongAgentAddress
    | .ok a =>
      if a ≠ record.address then .ok .errorWrongAgentAddress
      else match verify record.ledgerId record.peerPublicKey record.signature record.publicKey with
        | .panic => .panic
        | .err _ => .ok .errorInvalidProof
        | .ok false => .ok .errorInvalidProof
        | .ok true => .ok .success

end Verif
