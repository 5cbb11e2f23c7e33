import Verif.Model.Acn

/-!
# The handler of look-up streams

libs/go/libp2p_node/dht/common/handlers.go:128-176.
-/

namespace Verif

open Acn

/-- `HandleAeaAddressStream`: common/handlers.go:129-176. `handler` is `HandleAeaAddressRequest` of the
node: a record or nil, or code and text of the error. For a nil record without error the handler logs
`acnError.Err` of a nil error and crashes. The value is the record that was sent. -/
def handleAddressStream (T : AcnTexts) (handler : Bytes → Res (StatusCode × Bytes) (Option AgentRecord)) :
    PipeM AgentRecord :=
  (readLookupRequest T).bind fun address =>
    match handler address with
    | .panic => .crash
    | .err (code, text) => (PipeM.ignoring (sendError text code)).bind fun _ => .fail (.refused code.toInt)
    | .ok none => .crash
    | .ok (some r) => (sendLookupResponse (some r)).bind fun _ => .pure r

end Verif
