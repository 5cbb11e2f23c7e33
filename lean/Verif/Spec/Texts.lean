import Verif.Model.Messages
import Verif.Spec.Text

/-!
# The texts of a message

Which fields of a message are strings in the `.proto` files, and what Go's types guarantee of a status
code. Only the types of `Verif.Model.Messages` are used, none of its functions.
-/

namespace Verif

/-- The texts of an agent record. -/
def AgentRecord.texts (r : AgentRecord) : List Bytes :=
  [r.serviceId, r.ledgerId, r.address, r.publicKey, r.peerPublicKey, r.signature, r.notBefore,
    r.notAfter]

/-- The texts of an ACN message. The envelope is bytes. -/
def AcnMessage.texts : AcnMessage → List Bytes
  | none => []
  | some (.aeaEnvelope _ r) => (r.map AgentRecord.texts).getD []
  | some (.lookupRequest a) => [a]
  | some (.lookupResponse r) => (r.map AgentRecord.texts).getD []
  | some (.register r) => (r.map AgentRecord.texts).getD []
  | some (.status b) => (b.map StatusBody.msgs).getD []

/-- The strings of an envelope are text. -/
def Envelope.Texts (e : Envelope) : Prop := IsText e.to ∧ IsText e.sender ∧ IsText e.protocolId ∧ IsText e.uri

/-- The code of a status message fits the Go type of the enum, `int32`. -/
def AcnMessage.CodeFits (m : AcnMessage) : Prop :=
  ∀ b, m = some (.status (some b)) → -2147483648 ≤ b.code ∧ b.code ≤ 2147483647

end Verif
