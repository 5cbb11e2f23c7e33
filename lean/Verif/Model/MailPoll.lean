import Verif.Model.Mailbox

/-!
# Responses of the mailbox on their way to the client

`apiGetEnvelope` (libs/go/libp2p_node/dht/dhtpeer/mailbox.go:192-238) removes the envelope from the
mailbox if `res.Write` returned nil (lines 233-237). The `http.ResponseWriter` of net/http collects
the beginning of a response and sends it when the handler has returned, so `Write` of a body that
fits into its buffers (of 2048 and 4096 bytes, the second also for the header) always returns nil. A
longer body goes to the connection, and `Write` returns its error. What the operating system took
need not arrive either. net/http is not part of the repository; this much is assumed, and how much
fits is a parameter `room`.
-/

namespace Verif

namespace MailPoll

open Mailbox

/-- What happens to a response: the connection is already broken and writing to it fails, or it
takes the data but they are lost, or they arrive. -/
inductive Fate where
  | broken | lost | arrives
  deriving DecidableEq, Repr

/-- Whether `Write` of the body returns nil. -/
def writeOk (room : Nat) (f : Fate) (body : Bytes) : Bool :=
  decide (body.length ≤ room) || f != .broken

/-- The body that `apiGetEnvelope` writes, if any: mailbox.go:206-231 -/
def bodyFor (session : Option Bytes) (s : Mailbox) : Bytes :=
  match s.sessionAddr session with
  | none => []
  | some addr =>
    match (s.envelopes.get addr).getD [] with
    | [] => []
    | e :: _ => e.encode.getD []

/-- One request for an envelope, and what the client receives: mailbox.go:192-238. -/
def poll (room : Nat) (session : Option Bytes) (f : Fate) (s : Mailbox) : Mailbox × Option Resp :=
  let (s', r) := s.getEnvelope ⟨b! "GET", session, none⟩ (writeOk room f (bodyFor session s))
  (s', if f = .arrives then some r else none)

/-- Requests one after another. -/
def polls (room : Nat) (session : Option Bytes) : List Fate → Mailbox → Mailbox × List (Option Resp)
  | [], s => (s, [])
  | f :: fs, s =>
    let (s1, r) := poll room session f s
    let (s2, rs) := polls room session fs s1
    (s2, r :: rs)

end MailPoll

end Verif
