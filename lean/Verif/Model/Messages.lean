import Verif.Model.Proto

/-!
# The protobuf messages of the project

Generated code: libs/go/libp2p_node/protocols/acn/v1_0_0/acn.pb.go,
libs/go/libp2p_node/aea/envelope.pb.go, libs/go/aealite/protocols/base.pb.go (aealite's copy
of the ACN messages, libs/go/aealite/protocols/acn/v1_0_0/acn.pb.go, has the same fields).
Field numbers and types are those of the `protobuf:"..."` tags of the generated structs.

Each message has three functions: `fields`, the fields `proto.Marshal` writes; `step`, what
`proto.Unmarshal` does with one field (unknown numbers and unexpected wire types are
skipped); and `encode`/`decode`. `encode` is `none` where `proto.Marshal` reports an error,
that is, when a string is not valid UTF-8.
-/

namespace Verif

open Proto

/-- Reading a proto3 string field: an error if it is not valid UTF-8. -/
def Proto.strField {M : Type} (v : Bytes) (set : Bytes → M) : Option M :=
  if utf8Valid v then some (set v) else none

/-! ## ACN messages -/

/-- `AcnMessage_AgentRecord`: acn.pb.go:227-240 -/
structure AgentRecord where
  serviceId : Bytes
  ledgerId : Bytes
  address : Bytes
  publicKey : Bytes
  peerPublicKey : Bytes
  signature : Bytes
  notBefore : Bytes
  notAfter : Bytes
  deriving DecidableEq, Repr

namespace AgentRecord

/-- The zero value, `&AgentRecord{}`. -/
def zero : AgentRecord := ⟨[], [], [], [], [], [], [], []⟩

/-- acn.pb.go:232-239 -/
def fields (r : AgentRecord) : List RawField :=
  optBytes 1 r.serviceId ++ optBytes 2 r.ledgerId ++ optBytes 3 r.address ++
  optBytes 4 r.publicKey ++ optBytes 5 r.peerPublicKey ++ optBytes 6 r.signature ++
  optBytes 7 r.notBefore ++ optBytes 8 r.notAfter

/-- All strings are valid UTF-8. -/
def utf8 (r : AgentRecord) : Bool :=
  utf8Valid r.serviceId && utf8Valid r.ledgerId && utf8Valid r.address &&
  utf8Valid r.publicKey && utf8Valid r.peerPublicKey && utf8Valid r.signature &&
  utf8Valid r.notBefore && utf8Valid r.notAfter

/-- acn.pb.go:232-239 -/
def step (r : AgentRecord) (f : RawField) : Option AgentRecord :=
  match f.num, f.val with
  | 1, .bytes v => strField v fun v => { r with serviceId := v }
  | 2, .bytes v => strField v fun v => { r with ledgerId := v }
  | 3, .bytes v => strField v fun v => { r with address := v }
  | 4, .bytes v => strField v fun v => { r with publicKey := v }
  | 5, .bytes v => strField v fun v => { r with peerPublicKey := v }
  | 6, .bytes v => strField v fun v => { r with signature := v }
  | 7, .bytes v => strField v fun v => { r with notBefore := v }
  | 8, .bytes v => strField v fun v => { r with notAfter := v }
  | _, _ => some r

/-- `proto.Marshal` of a record -/
def encode (r : AgentRecord) : Option Bytes := if r.utf8 then some (encodeFields r.fields) else none

/-- `proto.Unmarshal` into a fresh record -/
def decode (b : Bytes) : Option AgentRecord := decodeInto step zero b

end AgentRecord

/-- A sub-message field is left out when the pointer is nil. -/
def Proto.optMsg (num : Nat) (m : Option (List RawField)) : List RawField :=
  match m with
  | none => []
  | some fs => [⟨num, .bytes (encodeFields fs)⟩]

/-- `AcnMessage_StatusBody`: acn.pb.go:330-337. The enum is open: any `int32` is a code. -/
structure StatusBody where
  code : Int
  msgs : List Bytes
  deriving DecidableEq, Repr

namespace StatusBody

/-- The zero value. -/
def zero : StatusBody := ⟨0, []⟩

/-- acn.pb.go:335-336 -/
def fields (s : StatusBody) : List RawField :=
  optInt32 1 s.code ++ s.msgs.map fun m => ⟨2, .bytes m⟩

/-- All strings are valid UTF-8. -/
def utf8 (s : StatusBody) : Bool := s.msgs.all utf8Valid

/-- acn.pb.go:335-336 -/
def step (s : StatusBody) (f : RawField) : Option StatusBody :=
  match f.num, f.val with
  | 1, .varint n => some { s with code := int32OfWire n }
  | 2, .bytes v => strField v fun v => { s with msgs := s.msgs ++ [v] }
  | _, _ => some s

end StatusBody

/-- The `oneof performative` of `AcnMessage`: acn.pb.go:196-224, with the performative structs
(acn.pb.go:386-392, 433-439, 480-486, 527-534, 582-588) inlined. A `none` record or body is a
nil pointer. -/
inductive Performative where
  | aeaEnvelope (envelope : Bytes) (record : Option AgentRecord)
  | lookupRequest (address : Bytes)
  | lookupResponse (record : Option AgentRecord)
  | register (record : Option AgentRecord)
  | status (body : Option StatusBody)
  deriving DecidableEq, Repr

/-- `AcnMessage`: acn.pb.go; `none` is a message without performative. -/
abbrev AcnMessage := Option Performative

namespace Performative

/-- The field number in the `oneof`: acn.pb.go:197-213 -/
def number : Performative → Nat
  | .aeaEnvelope _ _ => 5
  | .lookupRequest _ => 6
  | .lookupResponse _ => 7
  | .register _ => 8
  | .status _ => 9

/-- Fields of the performative's own message. -/
def fields : Performative → List RawField
  | .aeaEnvelope e r => optBytes 1 e ++ optMsg 2 (r.map AgentRecord.fields)
  | .lookupRequest a => optBytes 1 a
  | .lookupResponse r => optMsg 1 (r.map AgentRecord.fields)
  | .register r => optMsg 1 (r.map AgentRecord.fields)
  | .status b => optMsg 1 (b.map StatusBody.fields)

/-- All strings are valid UTF-8. -/
def utf8 : Performative → Bool
  | .aeaEnvelope _ r => r.all AgentRecord.utf8
  | .lookupRequest a => utf8Valid a
  | .lookupResponse r => r.all AgentRecord.utf8
  | .register r => r.all AgentRecord.utf8
  | .status b => b.all StatusBody.utf8

/-- The enum value fits its type; always true of a Go value. -/
def inRange : Performative → Bool
  | .status (some b) => isInt32 b.code
  | _ => true

/-- Decoding into a record that may be there already. -/
def intoRecord (r : Option AgentRecord) (v : Bytes) : Option (Option AgentRecord) :=
  (decodeInto AgentRecord.step (r.getD .zero) v).map some

/-- Decoding one field of the performative's own message. -/
def step (p : Performative) (f : RawField) : Option Performative :=
  match p with
  | .aeaEnvelope e r =>
    match f.num, f.val with
    | 1, .bytes v => some (.aeaEnvelope v r)
    | 2, .bytes v => (intoRecord r v).map (.aeaEnvelope e)
    | _, _ => some (.aeaEnvelope e r)
  | .lookupRequest a =>
    match f.num, f.val with
    | 1, .bytes v => strField v .lookupRequest
    | _, _ => some (.lookupRequest a)
  | .lookupResponse r =>
    match f.num, f.val with
    | 1, .bytes v => (intoRecord r v).map .lookupResponse
    | _, _ => some (.lookupResponse r)
  | .register r =>
    match f.num, f.val with
    | 1, .bytes v => (intoRecord r v).map .register
    | _, _ => some (.register r)
  | .status b =>
    match f.num, f.val with
    | 1, .bytes v => (decodeInto StatusBody.step (b.getD .zero) v).map fun b => .status (some b)
    | _, _ => some (.status b)

end Performative

namespace AcnMessage

/-- The fields of the outer message. -/
def fields (m : AcnMessage) : List RawField :=
  match m with
  | none => []
  | some p => [⟨p.number, .bytes (encodeFields p.fields)⟩]

/-- All strings are valid UTF-8. -/
def utf8 (m : AcnMessage) : Bool := m.all Performative.utf8

/-- The value a `oneof` member starts from: the present one if it is the same member, an empty
one otherwise. -/
def member (m : AcnMessage) (num : Nat) (fresh : Performative) : Performative :=
  match m with
  | some p => if p.number = num then p else fresh
  | none => fresh

/-- Decoding one field of the outer message: acn.pb.go:196-213 -/
def step (m : AcnMessage) (f : RawField) : Option AcnMessage :=
  match f.num, f.val with
  | 5, .bytes v => (decodeInto Performative.step (member m 5 (.aeaEnvelope [] none)) v).map some
  | 6, .bytes v => (decodeInto Performative.step (member m 6 (.lookupRequest [])) v).map some
  | 7, .bytes v => (decodeInto Performative.step (member m 7 (.lookupResponse none)) v).map some
  | 8, .bytes v => (decodeInto Performative.step (member m 8 (.register none)) v).map some
  | 9, .bytes v => (decodeInto Performative.step (member m 9 (.status none)) v).map some
  | _, _ => some m

/-- `proto.Marshal` of an ACN message -/
def encode (m : AcnMessage) : Option Bytes := if utf8 m then some (encodeFields (fields m)) else none

/-- `proto.Unmarshal` into a fresh ACN message -/
def decode (b : Bytes) : Option AcnMessage := decodeInto step none b

end AcnMessage

/-! ## Envelopes -/

/-- `Envelope`: libp2p_node/aea/envelope.pb.go:28-38, aealite/protocols/base.pb.go:188-198 -/
structure Envelope where
  to : Bytes
  sender : Bytes
  protocolId : Bytes
  message : Bytes
  uri : Bytes
  deriving DecidableEq, Repr

namespace Envelope

/-- The zero value. -/
def zero : Envelope := ⟨[], [], [], [], []⟩

/-- envelope.pb.go:33-37 -/
def fields (e : Envelope) : List RawField :=
  optBytes 1 e.to ++ optBytes 2 e.sender ++ optBytes 3 e.protocolId ++ optBytes 4 e.message ++
  optBytes 5 e.uri

/-- All strings are valid UTF-8; `message` is bytes. -/
def utf8 (e : Envelope) : Bool :=
  utf8Valid e.to && utf8Valid e.sender && utf8Valid e.protocolId && utf8Valid e.uri

/-- envelope.pb.go:33-37 -/
def step (e : Envelope) (f : RawField) : Option Envelope :=
  match f.num, f.val with
  | 1, .bytes v => strField v fun v => { e with to := v }
  | 2, .bytes v => strField v fun v => { e with sender := v }
  | 3, .bytes v => strField v fun v => { e with protocolId := v }
  | 4, .bytes v => some { e with message := v }
  | 5, .bytes v => strField v fun v => { e with uri := v }
  | _, _ => some e

/-- `proto.Marshal` of an envelope -/
def encode (e : Envelope) : Option Bytes := if e.utf8 then some (encodeFields e.fields) else none

/-- `proto.Unmarshal` into a fresh envelope -/
def decode (b : Bytes) : Option Envelope := decodeInto step zero b

end Envelope

/-! ## Dialogue messages -/

/-- `DialogueMessage`: aealite/protocols/base.pb.go:29-39 -/
structure DialogueMessage where
  messageId : Int
  starterRef : Bytes
  responderRef : Bytes
  target : Int
  content : Bytes
  deriving DecidableEq, Repr

namespace DialogueMessage

/-- The zero value. -/
def zero : DialogueMessage := ⟨0, [], [], 0, []⟩

/-- base.pb.go:34-38 -/
def fields (d : DialogueMessage) : List RawField :=
  optInt32 1 d.messageId ++ optBytes 2 d.starterRef ++ optBytes 3 d.responderRef ++
  optInt32 4 d.target ++ optBytes 5 d.content

/-- All strings are valid UTF-8. -/
def utf8 (d : DialogueMessage) : Bool := utf8Valid d.starterRef && utf8Valid d.responderRef

/-- base.pb.go:34-38 -/
def step (d : DialogueMessage) (f : RawField) : Option DialogueMessage :=
  match f.num, f.val with
  | 1, .varint n => some { d with messageId := int32OfWire n }
  | 2, .bytes v => strField v fun v => { d with starterRef := v }
  | 3, .bytes v => strField v fun v => { d with responderRef := v }
  | 4, .varint n => some { d with target := int32OfWire n }
  | 5, .bytes v => some { d with content := v }
  | _, _ => some d

end DialogueMessage

/-- The `oneof message` of `Message`: base.pb.go:172-186. The JSON-like `Struct` body is kept as
its raw bytes. -/
inductive AeaBody where
  | body (raw : Bytes)
  | dialogue (d : DialogueMessage)
  deriving DecidableEq, Repr

/-- `Message` of base.pb.go -/
abbrev AeaMessage := Option AeaBody

namespace AeaMessage

/-- The fields of the outer message. -/
def fields (m : AeaMessage) : List RawField :=
  match m with
  | none => []
  | some (.body raw) => [⟨1, .bytes raw⟩]
  | some (.dialogue d) => [⟨2, .bytes (encodeFields d.fields)⟩]

/-- Decoding one field. `structOk` tells which bytes are a valid encoding of a `Struct`. -/
def step (structOk : Bytes → Bool) (m : AeaMessage) (f : RawField) : Option AeaMessage :=
  match f.num, f.val with
  | 1, .bytes v =>
    if structOk v then
      some (some (.body (match m with | some (.body r) => r ++ v | _ => v)))
    else none
  | 2, .bytes v =>
    (decodeInto DialogueMessage.step
      (match m with | some (.dialogue d) => d | _ => .zero) v).map fun d => some (.dialogue d)
  | _, _ => some m

/-- `proto.Unmarshal` into a fresh `Message` -/
def decode (structOk : Bytes → Bool) (b : Bytes) : Option AeaMessage :=
  decodeInto (step structOk) none b

end AeaMessage

end Verif
