import Verif.Props.AgentToAgent
import Verif.Props.Streams

/-!
# C79: from one peer to another

The field `calls` of `Journey` and the field `called` of `Journey.Smooth` say that the envelopes come to the peer
of the receiver in the order in which the peer of the sender routed them. When the peers are two, this follows
from C113: the worker of the pair's queue at the first peer is one of the senders there, the calls at the second
peer are those of the handlers of its streams.
-/

namespace Verif

/-- The way between two peers, of the envelopes that `a` sends to `b`: `routed` at the first peer, and `calls` at
the second. -/
structure Crossing (a b : Bytes) (routed calls : List Envelope) where
  steps : List Streams.Step
  /-- the worker of the queue -/
  worker : Nat
  /-- it sends what it takes from the queue -/
  sent : (between a b ((Streams.run .init steps).sentBy worker)).Sublist (between a b routed)
  /-- the second peer calls for what is handed over -/
  handed : (between a b calls).Sublist (between a b ((Streams.run .init steps).handedFrom worker))
  /-- no stream of the worker breaks -/
  unbroken : ∀ i ∈ (Streams.run .init steps).broken, (Streams.run .init steps).owner i ≠ some worker

/-- **C79, between peers.** If no stream breaks, the calls at the second peer are for envelopes routed at the first,
each at most once and in this order: what `Journey.calls` asks for. -/
theorem C79_crossing {a b : Bytes} {routed calls : List Envelope} (c : Crossing a b routed calls) :
    (between a b calls).Sublist (between a b routed) :=
  (c.handed.trans ((Streams.C113_unbroken c.steps c.worker c.unbroken).filter _)).trans c.sent

/-- **C79, between peers.** If besides everything is sent, no failure is reported, nothing is waited for and every
envelope handed over leads to its call, all of them arrive: what `Journey.Smooth.called` asks for. -/
theorem C79_crossing_all {a b : Bytes} {routed calls : List Envelope} (c : Crossing a b routed calls)
    (hs : between a b ((Streams.run .init c.steps).sentBy c.worker) = between a b routed)
    (hh : between a b calls = between a b ((Streams.run .init c.steps).handedFrom c.worker))
    (hw : (Streams.run .init c.steps).waiting c.worker = none)
    (hf : ∀ i, (i, false) ∈ (Streams.run .init c.steps).told →
      (Streams.run .init c.steps).owner i ≠ some c.worker) : between a b calls = between a b routed := by
  rw [hh, Streams.C113_all c.steps c.worker hw c.unbroken hf, hs]

/-- If a stream may break, the order may be lost: the calls are the other way round. -/
theorem C79_crossing_counterexample :
    let s := Streams.run .init Streams.overtaking
    between (b! "alice") (b! "bob") (s.sentBy 0) = [Streams.word 1, Streams.word 2] ∧
      between (b! "alice") (b! "bob") (s.handedFrom 0) = [Streams.word 2, Streams.word 1] := by
  decide

/-- Two envelopes of `alice` to `bob` over two streams, and one of another worker between them. -/
def crossingDemo : Crossing (b! "alice") (b! "bob") [Streams.word 1, Streams.word 2] [Streams.word 1, Streams.word 2] where
  steps := [.opens 0 (Streams.word 1), .opens 1 (Streams.word 7), .reads 1, .reads 0, .hands 0, .answers 0 true, .gets 0,
    .opens 0 (Streams.word 2), .hands 1, .reads 2, .hands 2, .breaks 1, .answers 2 true, .gets 0]
  worker := 0
  sent := by decide
  handed := by decide
  unbroken := by decide

example : between (b! "alice") (b! "bob") [Streams.word 1, Streams.word 2] = [Streams.word 1, Streams.word 2] := by decide

end Verif
