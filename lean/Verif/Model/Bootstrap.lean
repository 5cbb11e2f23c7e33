import Verif.Model.Go

/-!
# Connecting to the bootstrap peers

libs/go/libp2p_node/utils/utils.go:130-200, `BootstrapConnect`.

One goroutine per peer calls `Connect` and sends a failure to a channel with room for one error per
peer. A schedule is a list of peer numbers: the goroutine of that peer returns from `Connect`. What
`Connect` answers is a parameter. Later the function looks for each peer in the routing table, every
5 ms, until it is there or 5 s have passed; what it finds is a script, one entry per round. A script
that ends before the peer is found or the time is over leaves the call waiting.
-/

namespace Verif

/-- The goroutines: those still connecting and the errors in the channel, oldest first. -/
structure Dials where
  pending : List Nat
  errs : List Bytes
  deriving DecidableEq, Repr

/-- After the loop of lines 142-166 started the goroutines. -/
def Dials.init (n : Nat) : Dials := ⟨List.range n, []⟩

/-- The goroutine of peer `i` returns from `Connect`: lines 150-165. `connect i` is the error, if
there is one. A send to a full channel of capacity `cap` waits. -/
def Dials.step (connect : Nat → Option Bytes) (cap : Nat) (d : Dials) (i : Nat) : Dials :=
  if i ∈ d.pending then
    match connect i with
    | none => { d with pending := d.pending.erase i }
    | some e =>
      if d.errs.length < cap then ⟨d.pending.erase i, d.errs ++ [e]⟩ else d
  else d

/-- All completions of a schedule. -/
def Dials.run (connect : Nat → Option Bytes) (cap : Nat) (schedule : List Nat) (d : Dials) : Dials :=
  schedule.foldl (Dials.step connect cap) d

/-- One round of the loop of lines 188-196: whether the peer is in the table, and if it is not,
whether `select` took the expired context. -/
structure TableRound where
  found : Bool
  expired : Bool
  deriving DecidableEq, Repr

/-- How the wait for one peer ends. -/
inductive TableWait
  | found
  | expired
  | waiting
  deriving DecidableEq, Repr

/-- Lines 186-196 for one peer. -/
def waitInTable : List TableRound → TableWait
  | [] => .waiting
  | r :: rs =>
    if r.found then .found
    else if r.expired then .expired
    else waitInTable rs

/-- What the call returns. -/
inductive BootstrapEnd
  | ok
  | notEnoughPeers
  | allFailed (last : Bytes)
  | notInTable (peer : Nat)
  | waiting
  deriving DecidableEq, Repr

/-- The errors the call returns. -/
def BootstrapEnd.isError : BootstrapEnd → Bool
  | .notEnoughPeers | .allFailed _ | .notInTable _ => true
  | .ok | .waiting => false

/-- Lines 182-197. The list is the rest of the peers, from peer `i`. -/
def waitAllInTable (rounds : Nat → List TableRound) : Nat → Nat → BootstrapEnd
  | _, 0 => .ok
  | i, n + 1 =>
    match waitInTable (rounds i) with
    | .found => waitAllInTable rounds (i + 1) n
    | .expired => .notInTable i
    | .waiting => .waiting

/-- Lines 171-178: `for err = range errs` counts the errors and keeps the last. -/
def drainErrs : List Bytes → Nat → Option Bytes → Nat × Option Bytes
  | [], count, last => (count, last)
  | e :: es, count, _ => drainErrs es (count + 1) (some e)

/-- Line 180: `err.Error()` of the last error; a nil error crashes. -/
def allFailedWith : Option Bytes → Res Empty BootstrapEnd
  | some e => .ok (.allFailed e)
  | none => .panic

/-- `BootstrapConnect` with `n` peers: utils.go:130-200 -/
def bootstrapConnect (connect : Nat → Option Bytes) (schedule : List Nat)
    (rounds : Nat → List TableRound) (n : Nat) : Res Empty BootstrapEnd :=
  if n < 1 then .ok .notEnoughPeers
  else
    let d := Dials.run connect n schedule (Dials.init n)
    if d.pending ≠ [] then .ok .waiting
    else
      let (count, last) := drainErrs d.errs 0 none
      if count = n then allFailedWith last
      else .ok (waitAllInTable rounds 0 n)

end Verif
