import Verif.Model.Go

/-!
# The metrics of a peer

libs/go/libp2p_node/dht/monitoring/file.go:30-87, 108-234 (`FileMonitoring`), and the use that a peer makes of
its monitoring service: dhtpeer.go:517-580 (`setupMonitoring`, `addMonitoringMetrics`) and the calls of
`GetGauge`, `GetCounter` and `GetHistogram` there.

Gauges and counters are pointers to a number; the numbers are in a heap. Amounts are whole numbers, which is
exact for `float64` below 2^53. Of a histogram the number of observations is kept (its last count, see
`Verif.Model.Monitoring`). The locks make every method atomic. A look-up of an unknown name returns a nil
pointer next to `false`; the peer ignores the second value, and using the pointer panics.
-/

namespace Verif

/-- The kinds of metrics. -/
inductive MetricKind where
  | gauge | counter | histogram
  deriving DecidableEq, Repr

/-- The monitoring service with all pointers that were handed out, each with the name it was asked for
(a ghost). -/
structure FileMonitor where
  tables : MetricKind → GoMap Bytes Nat      -- `gaugeDict`, `counterDict`, `histoDict`
  values : List Int                          -- the heap
  handles : List (MetricKind × Bytes × Option Nat)
  crashed : Bool

namespace FileMonitor

/-- `NewFileMonitoring`: file.go:121-140 -/
def new : FileMonitor := ⟨fun _ => .empty, [], [], false⟩

/-- Steps. -/
inductive Step where
  | create (k : MetricKind) (name : Bytes)   -- `NewGauge` etc.: 142-148, 155-160, 167-179
  | look (k : MetricKind) (name : Bytes)     -- `GetGauge` etc.: 150-153, 162-165, 181-184
  | add (h : Nat) (n : Int)                  -- `Inc`, `Dec`, `Add`, `Sub`, `Observe`: 47-67, 74-83
  | set (h : Nat) (n : Int)                  -- `Set`: 35-40
  deriving DecidableEq, Repr

/-- Replace the table of a kind. -/
def setTable (m : FileMonitor) (k : MetricKind) (t : GoMap Bytes Nat) : MetricKind → GoMap Bytes Nat :=
  fun k' => if k' = k then t else m.tables k'

/-- Change the number behind a pointer; `none` is the nil pointer. -/
def write (m : FileMonitor) (h : Nat) (f : Int → Int) : FileMonitor :=
  match m.handles[h]? with
  | some (_, _, some r) => { m with values := m.values.set r (f (m.values.getD r 0)) }
  | some (_, _, none) => { m with crashed := true }
  | none => m

/-- One step. -/
def step (m : FileMonitor) (st : Step) : FileMonitor :=
  if m.crashed then m
  else match st with
    | .create k name =>
      { m with
          tables := m.setTable k ((m.tables k).set name m.values.length)
          values := m.values ++ [0]
          handles := m.handles ++ [(k, name, some m.values.length)] }
    | .look k name => { m with handles := m.handles ++ [(k, name, (m.tables k).get name)] }
    | .add h n => m.write h (· + n)
    | .set h n => m.write h fun _ => n

/-- A history. -/
def run (m : FileMonitor) (steps : List Step) : FileMonitor := steps.foldl step m

/-- The value of a metric, as `getStats` reads it. -/
def value (m : FileMonitor) (k : MetricKind) (name : Bytes) : Option Int :=
  ((m.tables k).get name).map fun r => m.values.getD r 0

/-- The line of a metric: file.go:217-218, 221-222. `fmtE` is `fmt.Sprintf("%e", _)`. -/
def statLine (fmtE : Int → Bytes) (ns : Bytes) (m : FileMonitor) (e : Bytes × Nat) : Bytes :=
  ns ++ b! "_" ++ e.1 ++ b! " " ++ fmtE (m.values.getD e.2 0) ++ b! "\n"

/-- `getStats`: file.go:214-226. The two lists are the gauges and the counters in the order in which the maps
are iterated. -/
def getStats (fmtE : Int → Bytes) (ns : Bytes) (m : FileMonitor) (gauges counters : List (Bytes × Nat)) : Bytes :=
  (gauges.map (statLine fmtE ns m)).flatten ++ (counters.map (statLine fmtE ns m)).flatten

/-- `addMonitoringMetrics`: dhtpeer.go:537-580, with the names of lines 97-107. -/
def peerMetrics : List Step :=
  [.create .histogram (b! "dht_op_latency_store"),
   .create .histogram (b! "dht_op_latency_lookup"),
   .create .histogram (b! "op_latency_register"),
   .create .histogram (b! "op_latency_route"),
   .create .gauge (b! "op_route_count"),
   .create .counter (b! "op_route_count_all"),
   .create .counter (b! "op_route_count_success"),
   .create .gauge (b! "service_delegate_clients_count"),
   .create .counter (b! "service_delegate_clients_count_all"),
   .create .gauge (b! "service_relay_clients_count"),
   .create .counter (b! "service_relay_clients_count_all")]

/-- The metrics that the peer looks up: dhtpeer.go:384, 844-846, 1058-1061, 1247-1248, 1331, 1620, 1706-1708,
1805. -/
def peerLooks : List (MetricKind × Bytes) :=
  [(.histogram, b! "op_latency_register"),
   (.gauge, b! "service_delegate_clients_count"),
   (.counter, b! "service_delegate_clients_count_all"),
   (.gauge, b! "op_route_count"),
   (.counter, b! "op_route_count_all"),
   (.counter, b! "op_route_count_success"),
   (.histogram, b! "op_latency_route"),
   (.histogram, b! "dht_op_latency_lookup"),
   (.counter, b! "service_relay_clients_count_all"),
   (.histogram, b! "dht_op_latency_store")]

end FileMonitor

/-- Whether the file is written: `closing` of file.go:118 and the loop of `Start`. -/
structure MonitorFile where
  write : Bool
  closing : Option Bool        -- nil, or a channel and whether it is closed
  loops : Nat                  -- calls of `Start` in their loop
  crashed : Bool
  deriving DecidableEq, Repr

namespace MonitorFile

/-- A new one. -/
def new (write : Bool) : MonitorFile := ⟨write, none, 0, false⟩

/-- Calls. -/
inductive Step where
  | start         -- `Start`: 186-193
  | round         -- a loop looks at `closing`: 194-207
  | stop          -- `Stop`: 210-212; closing nil or a closed channel panics
  deriving DecidableEq, Repr

/-- One step. -/
def step (m : MonitorFile) (st : Step) : MonitorFile :=
  if m.crashed then m
  else match st with
    | .start => if m.closing.isSome ∨ m.write = false then m else { m with closing := some false, loops := m.loops + 1 }
    | .round => if m.closing = some true then { m with loops := m.loops - 1 } else m
    | .stop =>
      match m.closing with
      | some false => { m with closing := some true }
      | _ => { m with crashed := true }

/-- A history. -/
def run (m : MonitorFile) (steps : List Step) : MonitorFile := steps.foldl step m

end MonitorFile

end Verif
