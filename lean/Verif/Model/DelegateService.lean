import Verif.Model.Go

/-!
# The loop that accepts delegate connections

libs/go/libp2p_node/dht/dhtpeer/dhtpeer.go:790-824 (`handleDelegateService`) and
libs/go/libp2p_node/dht/dhtpeer/utils.go:33-42 (`TLSListener.Accept`).

`Accept` writes the signature to the new connection before it returns. The first write on a TLS connection
does the handshake, so it waits for the client; no deadline is set. Only then the loop starts the handler of
the connection and accepts the next one.

Times are numbers of some unit. A connection that is in the queue of the operating system stays there until
it is accepted; the size of this queue is not modelled.
-/

namespace Verif

/-- A client that connects. -/
structure Incoming where
  /-- when it connects -/
  arrives : Nat
  /-- how long the handshake and the write take; `none`: the client never answers -/
  takes : Option Nat
  /-- whether they succeed -/
  ok : Bool
  deriving DecidableEq, Repr

/-- What becomes of a connection that leaves `Accept`. -/
inductive Served where
  /-- the handler is started -/
  | handled (at_ : Nat)
  /-- the error is logged; nobody closes the connection: utils.go:40-41, dhtpeer.go:808-815 -/
  | leftOpen (at_ : Nat)
  deriving DecidableEq, Repr

/-- The loop, for the clients in the order in which they connect: one result for each connection that leaves
`Accept`. `now` is when `Accept` is called. -/
def acceptLoop (now : Nat) : List Incoming → List Served
  | [] => []
  | c :: cs =>
    match c.takes with
    | none => []
    | some t =>
      let done := max now c.arrives + t
      (if c.ok then .handled done else .leftOpen done) :: acceptLoop done cs

end Verif
