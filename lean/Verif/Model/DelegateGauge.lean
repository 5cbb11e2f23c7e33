import Verif.Model.PeerHandlers

/-!
# The metrics of delegate connections

`handleNewDelegationConnection`: libs/go/libp2p_node/dht/dhtpeer/dhtpeer.go:834-1010, as far as it changes
`service_delegate_clients_count` (`nbrConns`, lines 863, 881, 888, 918, 938) and
`service_delegate_clients_count_all` (`nbrClients`, line 919).

A state machine of any number of connections. A metric is a `float64`, changed by one at a time under its
lock (monitoring/file.go:47-67); it is a whole number here, which is exact below 2^53.
-/

namespace Verif

/-- Where the handler of a connection is. -/
inductive DelegateConnPhase where
  | fresh            -- accepted, the registration is not decided
  | refused          -- returned at line 864, 882 or 889
  | unannounced      -- returned at line 911
  | serving          -- in the loop, lines 923-996
  | ended            -- left the loop
  deriving DecidableEq, Repr

/-- The connections with the two metrics. -/
structure DelegateGauge where
  conns : List DelegateConnPhase
  gauge : Int
  clients : Nat
  crashed : Bool
  deriving DecidableEq, Repr

namespace DelegateGauge

/-- A new peer. -/
def init : DelegateGauge := ⟨[], 0, 0, false⟩

/-- Steps. -/
inductive Step where
  | accept                                       -- a new connection
  | register (i : Nat) (p : Pipe) (announced : Bool)
  | finish (i : Nat)                             -- reading failed in the loop
  | crash (i : Nat)                              -- a status message without a status in the loop
  deriving DecidableEq, Repr

/-- One step; a step that is not possible changes nothing. `announced` tells whether the announcement of
the address went well or is not due (lines 907-913). -/
def step (T : AcnTexts) (por : PoRCheck) (porText : StatusCode → Bytes) (myKey : Bytes) (s : DelegateGauge)
    (st : Step) : DelegateGauge :=
  if s.crashed then s
  else match st with
    | .accept => { s with conns := s.conns ++ [.fresh] }
    | .register i p announced =>
      if s.conns[i]? = some .fresh then
        match (acceptRegistration T por porText myKey p).1 with
        | .panic => { s with crashed := true }
        | .err _ => { s with conns := s.conns.set i .refused, gauge := s.gauge - 1 }
        | .ok _ =>
          if announced then
            { s with conns := s.conns.set i .serving, gauge := s.gauge + 1, clients := s.clients + 1 }
          else { s with conns := s.conns.set i .unannounced }
      else s
    | .finish i =>
      if s.conns[i]? = some .serving then
        { s with conns := s.conns.set i .ended, gauge := s.gauge - 1 }
      else s
    | .crash i => if s.conns[i]? = some .serving then { s with crashed := true } else s

/-- A history. -/
def run (T : AcnTexts) (por : PoRCheck) (porText : StatusCode → Bytes) (myKey : Bytes) (s : DelegateGauge)
    (steps : List Step) : DelegateGauge :=
  steps.foldl (step T por porText myKey) s

end DelegateGauge

end Verif
