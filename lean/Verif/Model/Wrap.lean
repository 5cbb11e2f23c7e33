import Verif.Model.Messages
import Verif.Model.Dialogue

/-!
# Dialogue messages in envelopes

libs/go/aealite/protocols/message.go:144-239.

The content of a message is protocol specific; the type the caller passes is known here only by
`performativeOf`, which gives `none` if `proto.Unmarshal` of the content fails or no field of
it is populated (message.go:176-187, 144-156), and else the JSON name of its first populated
field.
-/

namespace Verif

open Proto

/-- Error returns of packing and unpacking. -/
inductive WErr where
  | unmarshal     -- message.go:169
  | content       -- message.go:178 and 183
  | marshal       -- message.go:227
  deriving DecidableEq, Repr

/-- `MakeResponseEnvelope`: message.go:207-239. The conversions `int32(...)` keep the low 32
bits. -/
def makeResponseEnvelope (m : Message) (protocolId content : Bytes) : Res WErr Envelope :=
  let d : DialogueMessage :=
    { messageId := toInt32 m.messageId, starterRef := m.reference.starter,
      responderRef := m.reference.responder, target := toInt32 m.target, content := content }
  if d.utf8 then
    .ok { to := m.to, sender := m.sender, protocolId := protocolId,
          message := encodeFields (AeaMessage.fields (some (.dialogue d))), uri := [] }
  else .err .marshal

/-- `GetDialogueMessageWrappedAndSetContentFromEnvelope`: message.go:162-205. A message whose
`oneof` is not a dialogue message gives a nil `dialogue_message`; its content is then empty
(message.go:174), and dereferencing it (message.go:73) would panic. `SetSender` and `SetTo`
act on a fresh wrapper and cannot fail (message.go:88, 100). Returns the wrapped message and
the content. -/
def unwrapEnvelope (structOk : Bytes → Bool) (performativeOf : Bytes → Option Bytes)
    (e : Envelope) : Res WErr (Message × Bytes) :=
  match AeaMessage.decode structOk e.message with
  | none => .err .unmarshal
  | some m =>
    let dm : Option DialogueMessage := match m with | some (.dialogue d) => some d | _ => none
    let content : Bytes := match dm with | some d => d.content | none => []
    match performativeOf content with
    | none => .err .content
    | some p =>
      match dm with
      | none => .panic
      | some d =>
        .ok ({ to := e.to, sender := e.sender, reference := ⟨d.starterRef, d.responderRef⟩,
               messageId := d.messageId, target := d.target, performative := p }, d.content)

end Verif
