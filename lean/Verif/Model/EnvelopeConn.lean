import Verif.Model.Framing
import Verif.Model.Messages

/-!
# Envelopes on a connection

libs/go/libp2p_node/utils/utils.go:652-670 (`WriteEnvelopeConn`, `ReadEnvelopeConn`). With an error `ReadEnvelopeConn`
also returns an envelope, empty or filled in part; callers that look at it are not modelled.
-/

namespace Verif

/-- Errors of reading and writing envelopes. -/
inductive EnvConnErr where
  | proto
  | frame (e : FErr)
  deriving DecidableEq, Repr

/-- `WriteEnvelopeConn`: the bytes put on the wire. -/
def writeEnvelopeConn (e : Envelope) : Res EnvConnErr Bytes :=
  match e.encode with
  | none => .err .proto
  | some data =>
    match writeBytes data with
    | .ok w => .ok w
    | .err x => .err (.frame x)
    | .panic => .panic

/-- `ReadEnvelopeConn` -/
def readEnvelopeConn (cs : List Bytes) : Res EnvConnErr Envelope × List Bytes :=
  match readConn (some maxMessageSize) cs with
  | (.ok data, cs) =>
    match Envelope.decode data with
    | none => (.err .proto, cs)
    | some e => (.ok e, cs)
  | (.err x, cs) => (.err (.frame x), cs)
  | (.panic, cs) => (.panic, cs)

end Verif
