import Verif.Model.FileMonitor

/-!
# Monitoring with Prometheus

libs/go/libp2p_node/dht/monitoring/prometheus.go (`PrometheusMonitoring`) and its use by a peer,
dhtpeer.go:517-580.

The services of a process share two things: the default registry of the Prometheus library and the default
request router of `net/http`. Of the libraries we use: `promauto` panics if the full name is already
registered or is not a metric name, and `NewHistogram` panics if its buckets are not increasing; adding a
negative amount to a counter panics; `http.Handle` panics if the path is already taken.

The numbers of a service behave as those of `Verif.Model.FileMonitor`, of which each service has one. `Start`
is three steps, since it takes no lock; serving ends when the server is closed, and `ListenAndServe` that
fails is only logged. The buckets are whole numbers here. Exemplars, labels and the text of the page are left
out.
-/

namespace Verif

/-- A service. -/
structure PromService where
  ns : Bytes
  monitor : FileMonitor
  running : Bool

/-- Where a call of `Start` is. -/
inductive PromStartPc where
  | checked                -- `running` was false, 119-121
  | handled                -- path registered, 123
  | served                 -- `running` set, 125-126
  deriving DecidableEq, Repr

/-- A process. -/
structure PromProcess where
  registry : List Bytes
  routed : Bool            -- `/metrics` is registered
  services : List PromService
  starts : List (Nat × PromStartPc)
  crashed : Bool

namespace PromProcess

/-- At first. -/
def init : PromProcess := ⟨[], false, [], [], false⟩

/-- `BuildFQName` without a subsystem. -/
def fullName (ns name : Bytes) : Bytes :=
  if name = [] then [] else if ns = [] then name else ns ++ b! "_" ++ name

/-- Letters, `_` and `:`. -/
def nameStart (c : UInt8) : Bool :=
  (decide (97 ≤ c) && decide (c ≤ 122)) || (decide (65 ≤ c) && decide (c ≤ 90)) || c == 95 || c == 58

/-- `model.IsValidMetricName` -/
def validName (n : Bytes) : Bool :=
  match n with
  | [] => false
  | c :: cs => nameStart c && cs.all fun x => nameStart x || (decide (48 ≤ x) && decide (x ≤ 57))

/-- Strictly increasing. -/
def increasing : List Int → Bool
  | a :: b :: rest => decide (a < b) && increasing (b :: rest)
  | _ => true

/-- Steps. `NewPrometheusMonitoring`: prometheus.go:47-63; the making of metrics: prometheus.go:65-74, 81-90, 97-111;
looking them up: prometheus.go:76-79, 92-95, 113-116; `Start`: prometheus.go:118-127. `Stop`, `Info` and `Timer`,
prometheus.go:129-138, only end the server, give a text and make a timer. -/
inductive Step where
  | new (ns : Bytes)                                                  -- `NewPrometheusMonitoring`
  | create (s : Nat) (k : MetricKind) (name : Bytes) (buckets : List Int)  -- 65-74, 81-90, 97-111
  | use (s : Nat) (st : FileMonitor.Step)      -- look-ups 76-79, 92-95, 113-116, and changes of a metric
  | start (s : Nat)                            -- a call of `Start`
  | goOn (i : Nat)                             -- the next part of a call of `Start`
  deriving DecidableEq, Repr

/-- Change a service. -/
def setService (p : PromProcess) (s : Nat) (v : PromService) : PromProcess := { p with services := p.services.set s v }

/-- A change that the library refuses: a negative amount on a counter. -/
def badAmount (m : FileMonitor) : FileMonitor.Step → Bool
  | .add h n =>
    match m.handles[h]? with
    | some (.counter, _, _) => decide (n < 0)
    | _ => false
  | _ => false

/-- One step. -/
def step (p : PromProcess) (st : Step) : PromProcess :=
  if p.crashed then p
  else
    match st with
    | .new ns => { p with services := p.services ++ [⟨ns, .new, false⟩] }
    | .create s k name buckets =>
      match p.services[s]? with
      | none => p
      | some v =>
        let full := fullName v.ns name
        if validName full = false ∨ full ∈ p.registry ∨ (k = .histogram ∧ increasing buckets = false) then
          { p with crashed := true }
        else
          { p.setService s { v with monitor := v.monitor.step (.create k name) } with
              registry := p.registry ++ [full] }
    | .use s st =>
      match p.services[s]? with
      | none => p
      | some v =>
        match st with
        | .create _ _ => p
        | st =>
          if badAmount v.monitor st then { p with crashed := true }
          else
            let m := v.monitor.step st
            { p.setService s { v with monitor := m } with crashed := m.crashed }
    | .start s =>
      match p.services[s]? with
      | none => p
      | some v => if v.running then p else { p with starts := p.starts ++ [(s, .checked)] }
    | .goOn i =>
      match p.starts[i]? with
      | some (s, .checked) =>
        if p.routed then { p with crashed := true }
        else { p with routed := true, starts := p.starts.set i (s, .handled) }
      | some (s, .handled) =>
        match p.services[s]? with
        | none => p
        | some v => { p.setService s { v with running := true } with starts := p.starts.set i (s, .served) }
      | _ => p

/-- A history. -/
def run (p : PromProcess) (ss : List Step) : PromProcess := ss.foldl step p

/-- dhtpeer.go:97 -/
def peerNamespace : Bytes := b! "acn"

/-- `latencyBucketsMicroSeconds`: dhtpeer.go:114 -/
def peerBuckets : List Int := [100, 500, 1000, 10000, 100000, 500000, 1000000]

/-- `addMonitoringMetrics` on service `s`. -/
def createPeerMetrics (s : Nat) : List Step :=
  FileMonitor.peerMetrics.filterMap fun
    | .create k name => some (.create s k name peerBuckets)
    | _ => none

/-- `setupMonitoring` with a monitoring port, for the `s`-th service of the process. -/
def setupPeer (s : Nat) : List Step := .new peerNamespace :: createPeerMetrics s

end PromProcess

end Verif
