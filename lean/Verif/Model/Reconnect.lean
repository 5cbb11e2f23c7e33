import Verif.Model.Go

/-!
# A client that loses its relay peer

`Notifee.Disconnected`: libs/go/libp2p_node/dht/dhtclient/dhtclient.go:95-134, and `Close`, lines 394-417.

The loop of one call, as a function of what happens in each of its rounds. Nothing is ever sent to the channel
`closing`, so a receive from it succeeds exactly if `Close` has closed it. Time is not modelled; an attempt
takes at most five seconds, then there is a pause of one second.
-/

namespace Verif

namespace Reconnect

/-- A round of the loop. -/
inductive Round where
  | closed                  -- `closing` is closed
  | attempt (ok : Bool)     -- otherwise: `Connect`
  deriving DecidableEq, Repr

/-- Where a call is. -/
inductive Outcome where
  | ignored                 -- another peer
  | stopped                 -- returned as the client is closing
  | reconnected
  | trying
  deriving DecidableEq, Repr

/-- The loop: lines 110-132. The number of attempts and the outcome after the given rounds. -/
def loop : List Round → Nat × Outcome
  | [] => (0, .trying)
  | .closed :: _ => (0, .stopped)
  | .attempt true :: _ => (1, .reconnected)
  | .attempt false :: rest =>
    let (n, o) := loop rest
    (n + 1, o)

/-- `Disconnected`, for the loss of a connection to `remote`. -/
def disconnected (relay remote : Bytes) (rounds : List Round) : Nat × Outcome :=
  if remote ≠ relay then (0, .ignored) else loop rounds

end Reconnect

end Verif
