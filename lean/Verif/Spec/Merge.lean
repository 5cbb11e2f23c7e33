import Verif.Model.Messages

/-!
# What two versions of a message mean together

Independent of the decoder: the published rule for protobuf messages that follow each other. A text,
bytes or number that is given again replaces the earlier one, a list grows, a message inside a message
is combined in the same way, and of the alternatives of a `oneof` the last one counts.
-/

namespace Verif.Merge

/-- The later text, if there is one. -/
def text (old new : Bytes) : Bytes := if new = [] then old else new

/-- The later number, if there is one. -/
def number (old new : Int) : Int := if new = 0 then old else new

/-- Values that may be missing. -/
def opt {α : Type} (f : α → α → α) : Option α → Option α → Option α
  | old, none => old
  | none, some new => some new
  | some old, some new => some (f old new)

/-- Agent records. -/
def record (a b : AgentRecord) : AgentRecord where
  serviceId := text a.serviceId b.serviceId
  ledgerId := text a.ledgerId b.ledgerId
  address := text a.address b.address
  publicKey := text a.publicKey b.publicKey
  peerPublicKey := text a.peerPublicKey b.peerPublicKey
  signature := text a.signature b.signature
  notBefore := text a.notBefore b.notBefore
  notAfter := text a.notAfter b.notAfter

/-- Status bodies. -/
def status (a b : StatusBody) : StatusBody := ⟨number a.code b.code, a.msgs ++ b.msgs⟩

/-- The alternatives of an ACN message. -/
def performative : Performative → Performative → Performative
  | .aeaEnvelope e r, .aeaEnvelope e' r' => .aeaEnvelope (text e e') (opt record r r')
  | .lookupRequest a, .lookupRequest a' => .lookupRequest (text a a')
  | .lookupResponse r, .lookupResponse r' => .lookupResponse (opt record r r')
  | .register r, .register r' => .register (opt record r r')
  | .status b, .status b' => .status (opt status b b')
  | _, new => new

/-- ACN messages. -/
def acn (a b : AcnMessage) : AcnMessage := opt performative a b

/-- Envelopes. -/
def envelope (a b : Envelope) : Envelope where
  to := text a.to b.to
  sender := text a.sender b.sender
  protocolId := text a.protocolId b.protocolId
  message := text a.message b.message
  uri := text a.uri b.uri

/-- Dialogue messages. -/
def dialogue (a b : DialogueMessage) : DialogueMessage where
  messageId := number a.messageId b.messageId
  starterRef := text a.starterRef b.starterRef
  responderRef := text a.responderRef b.responderRef
  target := number a.target b.target
  content := text a.content b.content

end Verif.Merge
