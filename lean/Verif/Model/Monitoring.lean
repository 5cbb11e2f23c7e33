import Verif.Model.Go

/-!
# Metrics kept in memory

libs/go/libp2p_node/dht/monitoring/file.go:89-106, 165-184 and service.go:50-83.

Numbers of type `float64` are a parameter `α` with its comparison, so that not-a-number and
infinities are covered. The locks make every method atomic.
-/

namespace Verif

/-- `FileHistogram`: file.go:89-93. The counts are 64-bit. -/
structure FileHistogram (α : Type) where
  buckets : List α
  counts : List Nat
  deriving DecidableEq, Repr

namespace FileHistogram

variable {α : Type}

/-- `NewHistogram`: file.go:165-178 -/
def new (buckets : List α) : FileHistogram α := ⟨buckets, List.replicate (buckets.length + 1) 0⟩

/-- `counts[i] += 1` -/
def inc (counts : List Nat) (i : Nat) : Res Empty (List Nat) :=
  match counts[i]? with
  | some n => .ok (counts.set i ((n + 1) % 2 ^ 64))
  | none => .panic

/-- The loop of `Observe`: file.go:97-103. The list is the rest of the buckets, from index `i`. -/
def observeFrom (le : α → α → Bool) (value : α) : List α → Nat → List Nat → Res Empty (List Nat)
  | [], i, counts => inc counts i
  | b :: bs, i, counts =>
    if le value b then
      match inc counts i with
      | .ok counts => observeFrom le value bs (i + 1) counts
      | .err e => .err e
      | .panic => .panic
    else observeFrom le value bs (i + 1) counts

/-- `Observe`: file.go:95-106 -/
def observe (le : α → α → Bool) (h : FileHistogram α) (value : α) : Res Empty (FileHistogram α) :=
  match observeFrom le value h.buckets 0 h.counts with
  | .ok counts => .ok { h with counts }
  | .err e => .err e
  | .panic => .panic

/-- A sequence of observations. -/
def observeAll (le : α → α → Bool) : FileHistogram α → List α → Res Empty (FileHistogram α)
  | h, [] => .ok h
  | h, v :: vs =>
    match observe le h v with
    | .ok h => observeAll le h vs
    | .err e => .err e
    | .panic => .panic

end FileHistogram

end Verif
