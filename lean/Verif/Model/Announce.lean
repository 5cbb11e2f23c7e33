import Verif.Model.Routing

/-!
# Announcing addresses, and the table of delegate connections

libs/go/libp2p_node/dht/dhtpeer/dhtpeer.go:1795-1841 and 892-913, 1000-1008.
-/

namespace Verif

/-- Outcome of `dht.Provide`. -/
inductive ProvideEnd where
  | provided
  | deadline        -- `context.DeadlineExceeded`
  | failed          -- any other error
  deriving DecidableEq, Repr

/-- Where a call of `RegisterAgentAddress` is. -/
inductive AnnouncePhase where
  | start
  | checked                  -- the address was not announced, line 1798
  | marked                   -- `setAddressAnnounced` done, line 1803
  | returned (ok : Bool)
  deriving DecidableEq, Repr

/-- Any number of calls in progress. `log` is a ghost record of the outcomes of `Provide` (or of
`ComputeCID`, counted as `failed`). -/
structure Announcer where
  announced : List Bytes
  calls : List (Bytes × AnnouncePhase)
  log : List (Bytes × ProvideEnd)
  deriving DecidableEq, Repr

namespace Announcer

/-- Nothing announced: dhtpeer.go:200 -/
def init : Announcer := ⟨[], [], []⟩

/-- Steps: a new call, or the next atomic part of a call. `outcome` is used when the call comes
to `Provide`. -/
inductive Step where
  | call (addr : Bytes)
  | go (i : Nat) (outcome : ProvideEnd)
  deriving DecidableEq, Repr

/-- `RegisterAgentAddress`: dhtpeer.go:1795-1828. -/
def step (s : Announcer) : Step → Announcer
  | .call addr => { s with calls := s.calls ++ [(addr, .start)] }
  | .go i outcome =>
    match s.calls[i]? with
    | none => s
    | some (addr, .start) =>
      if s.announced.contains addr then { s with calls := s.calls.set i (addr, .returned true) }
      else { s with calls := s.calls.set i (addr, .checked) }
    | some (addr, .checked) =>
      { s with announced := addr :: s.announced, calls := s.calls.set i (addr, .marked) }
    | some (addr, .marked) =>
      { s with
          calls := s.calls.set i (addr, .returned (outcome != .failed))
          log := s.log ++ [(addr, outcome)] }
    | some (_, .returned _) => s

/-- A history. -/
def run (s : Announcer) (steps : List Step) : Announcer := steps.foldl step s

end Announcer

/-- The table `tcpAddresses` after an event of connection `c`. -/
def tableStep (t : GoMap Bytes Nat) : Nat × DelegateEvent → GoMap Bytes Nat
  | (c, .registered r) => t.set r.address c
  | (_, .unregistered a) => t.erase a
  | _ => t

/-- The table after any interleaving of events of any connections. -/
def table (evs : List (Nat × DelegateEvent)) : GoMap Bytes Nat := evs.foldl tableStep GoMap.empty

end Verif
