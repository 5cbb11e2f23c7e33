import Verif.Model.PoR

/-!
# The ACN readers and senders

libs/go/libp2p_node/acn/utils.go:84-459 and libs/go/libp2p_node/aea/utils.go:32-98. The
functions of libs/go/aealite/connections/acn/acn.go are the same.

A pipe is a script: the outcomes of the coming `Read` and `Write` calls. Theorems quantify over
all scripts, which covers every behaviour of the other side, because the code between two calls is
deterministic. `sent` collects what was given to `Write`.
-/

namespace Verif

/-- Errors of the ACN functions, by origin. -/
inductive AcnErr where
  | read                              -- `Pipe.Read` failed
  | write                             -- `Pipe.Write` failed
  | marshal                           -- `proto.Marshal` failed
  | decode                            -- `proto.Unmarshal` of the ACN message failed
  | unexpected                        -- another kind of ACN message was expected
  | envelope                          -- `proto.Unmarshal` of the envelope failed
  | refused (code : Int)              -- the other side reported an error
  | timeout                           -- no status in time
  | invalidPoR (code : StatusCode)    -- proof of representation refused
  | peer                              -- stream could not be opened, peer id not computable
  deriving DecidableEq, Repr

/-- The state of a pipe. An exhausted script means that the call fails. -/
structure Pipe where
  reads : List (Option Bytes)
  writes : List Bool
  sent : List Bytes
  deriving DecidableEq, Repr

/-- A computation using a pipe. -/
abbrev PipeM (α : Type) := Pipe → Res AcnErr α × Pipe

namespace PipeM

variable {α β : Type}

/-- Return a value. -/
def pure (a : α) : PipeM α := fun p => (.ok a, p)

/-- Return an error. -/
def fail (e : AcnErr) : PipeM α := fun p => (.err e, p)

/-- Nil pointer dereference. -/
def crash : PipeM α := fun p => (.panic, p)

/-- Sequence; errors and panics end the computation. -/
def bind (m : PipeM α) (f : α → PipeM β) : PipeM β := fun p =>
  match m p with
  | (.ok a, p') => f a p'
  | (.err e, p') => (.err e, p')
  | (.panic, p') => (.panic, p')

/-- `ignore(err)` -/
def ignoring (m : PipeM Unit) : PipeM Unit := fun p =>
  match m p with
  | (.err _, p') => (.ok (), p')
  | r => r

end PipeM

/-- `Pipe.Read` -/
def Pipe.read : PipeM Bytes := fun p =>
  match p.reads with
  | some b :: rest => (.ok b, { p with reads := rest })
  | none :: rest => (.err .read, { p with reads := rest })
  | [] => (.err .read, p)

/-- `Pipe.Write` -/
def Pipe.write (b : Bytes) : PipeM Unit := fun p =>
  match p.writes with
  | true :: rest => (.ok (), { p with writes := rest, sent := p.sent ++ [b] })
  | false :: rest => (.err .write, { p with writes := rest, sent := p.sent ++ [b] })
  | [] => (.err .write, { p with sent := p.sent ++ [b] })

/-- The texts of the errors that are sent to the other side. They come from the protobuf library
and from its text format. -/
structure AcnTexts where
  decodeError : Bytes → Bytes
  unexpectedMessage : AcnMessage → Bytes

namespace Acn

/-- Marshal a message and write it; the common body of the senders. -/
def sendMessage (m : AcnMessage) : PipeM Unit :=
  match m.encode with
  | none => .fail .marshal
  | some b => Pipe.write b

/-- `SendAcnSuccess`: acn/utils.go:127-144 -/
def sendSuccess : PipeM Unit := sendMessage (some (.status (some ⟨StatusCode.success.toInt, []⟩)))

/-- `SendAcnError`: acn/utils.go:146-169 -/
def sendError (text : Bytes) (code : StatusCode) : PipeM Unit :=
  sendMessage (some (.status (some ⟨code.toInt, [text]⟩)))

/-- What `DecodeAcnMessage` returns without error. -/
inductive Decoded where
  | aeaEnvelope (envelope : Bytes) (record : Option AgentRecord)
  | status (body : Option StatusBody)
  deriving DecidableEq, Repr

/-- `DecodeAcnMessage`: acn/utils.go:88-114. The error is the code and the text. -/
def decodeAcnMessage (T : AcnTexts) (buf : Bytes) : Except (StatusCode × Bytes) Decoded :=
  match AcnMessage.decode buf with
  | none => .error (.errorDecode, T.decodeError buf)
  | some (some (.aeaEnvelope e r)) => .ok (.aeaEnvelope e r)
  | some (some (.status b)) => .ok (.status b)
  | some m => .error (.errorUnexpectedPayload, T.unexpectedMessage m)

/-- `"Unexpected payload"`: acn/utils.go:225, 290 (aealite writes it in lower case:
connections/acn/acn.go:187, 252). -/
def unexpectedPayloadText : Bytes := b! "Unexpected payload"

/-- `ReadAgentRegistrationMessage`: acn/utils.go:203-231. Returns the record of the message,
which may be nil. -/
def readRegistration (T : AcnTexts) : PipeM (Option AgentRecord) :=
  Pipe.read.bind fun buf =>
    match AcnMessage.decode buf with
    | none => (PipeM.ignoring (sendError (T.decodeError buf) .errorDecode)).bind fun _ =>
        .fail .decode
    | some (some (.register r)) => .pure r
    | some _ => (PipeM.ignoring (sendError unexpectedPayloadText .errorUnexpectedPayload)).bind
        fun _ => .fail .unexpected

/-- `ReadLookupRequest`: acn/utils.go:264-298 -/
def readLookupRequest (T : AcnTexts) : PipeM Bytes :=
  Pipe.read.bind fun buf =>
    match AcnMessage.decode buf with
    | none => (PipeM.ignoring (sendError (T.decodeError buf) .errorDecode)).bind fun _ =>
        .fail .decode
    | some (some (.lookupRequest a)) => .pure a
    | some _ => (PipeM.ignoring (sendError unexpectedPayloadText .errorUnexpectedPayload)).bind
        fun _ => .fail .unexpected

/-- `SendLookupRequest`: acn/utils.go:300-311 -/
def sendLookupRequest (address : Bytes) : PipeM Unit := sendMessage (some (.lookupRequest address))

/-- `ReadLookupResponse`: acn/utils.go:313-346. `status.Body.Code` with a nil body is a nil
pointer dereference. -/
def readLookupResponse : PipeM (Option AgentRecord) :=
  Pipe.read.bind fun buf =>
    match AcnMessage.decode buf with
    | none => .fail .decode
    | some (some (.lookupResponse r)) => .pure r
    | some (some (.status none)) => .crash
    | some (some (.status (some b))) => .fail (.refused b.code)
    | some _ => .fail .unexpected

/-- `SendLookupResponse`: acn/utils.go:348-359 -/
def sendLookupResponse (record : Option AgentRecord) : PipeM Unit :=
  sendMessage (some (.lookupResponse record))

/-- `SendEnvelopeMessage` with `EncodeAcnEnvelope`: acn/utils.go:171-190, 361-374 -/
def sendEnvelope (envelope : Bytes) (record : Option AgentRecord) : PipeM Unit :=
  sendMessage (some (.aeaEnvelope envelope record))

/-- `ReadAcnStatus`: acn/utils.go:401-430. Returns the body, which may be nil. -/
def readStatus : PipeM (Option StatusBody) :=
  Pipe.read.bind fun buf =>
    match AcnMessage.decode buf with
    | none => .fail .decode
    | some (some (.status b)) => .pure b
    | some _ => .fail .unexpected

/-- `SendAgentRegisterMessage`: acn/utils.go:376-399. `status.Code` with a nil status is a nil
pointer dereference. -/
def sendRegister (record : Option AgentRecord) : PipeM Unit :=
  (sendMessage (some (.register record))).bind fun _ =>
    readStatus.bind fun s =>
      match s with
      | none => .crash
      | some b => if b.code ≠ StatusCode.success.toInt then .fail (.refused b.code) else .pure ()

/-- `ReadEnvelopeMessage`: acn/utils.go:432-452. A status message is refused without answer. -/
def readEnvelope (T : AcnTexts) : PipeM (Bytes × Option AgentRecord) :=
  Pipe.read.bind fun buf =>
    match decodeAcnMessage T buf with
    | .error (code, text) => (PipeM.ignoring (sendError text code)).bind fun _ =>
        .fail (if code = .errorDecode then .decode else .unexpected)
    | .ok (.aeaEnvelope e r) => .pure (e, r)
    | .ok (.status _) => .fail .unexpected

/-- `PerformAddressLookup`: acn/utils.go:454-460 -/
def performAddressLookup (address : Bytes) : PipeM (Option AgentRecord) :=
  (sendLookupRequest address).bind fun _ => readLookupResponse

/-- What `HandleAcnMessageFromPipe` got. -/
inductive Handled where
  | envelope (e : Envelope)
  | status (s : StatusBody)      -- handed to the status queue
  deriving DecidableEq, Repr

/-- `HandleAcnMessageFromPipe`: aea/utils.go:32-98. Logging `status.Code` of a nil status is a nil
pointer dereference. The last branch of the Go switch is never taken. -/
def handleFromPipe (T : AcnTexts) : PipeM Handled :=
  Pipe.read.bind fun buf =>
    match decodeAcnMessage T buf with
    | .error (code, text) => (PipeM.ignoring (sendError text code)).bind fun _ =>
        .fail (if code = .errorDecode then .decode else .unexpected)
    | .ok (.aeaEnvelope e _) =>
      match Envelope.decode e with
      | none => (PipeM.ignoring (sendError (b! "error on decoding envelope") .errorDecode)).bind
          fun _ => .fail .envelope
      | some env => sendSuccess.bind fun _ => .pure (.envelope env)
    | .ok (.status none) => .crash
    | .ok (.status (some s)) => .pure (.status s)

end Acn

end Verif
