import Verif.Model.Go

/-!
# `helpers.Set`

Model of /repo/libs/go/aealite/helpers/base.go.
-/

namespace Verif

/-- `Set`: base.go:34-36, a map from elements to `bool`. `Generic` (`interface{}`)
is replaced by a type of comparable elements (an uncomparable dynamic type would
make the Go map panic; the code base only stores strings and labels). -/
structure GSet (α : Type) [DecidableEq α] where
  container : GoMap α Bool

namespace GSet

variable {α : Type} [DecidableEq α]

/-- `NewSet`: base.go:94-98 -/
def new : GSet α := ⟨GoMap.empty⟩

/-- `Add`: base.go:55-57 -/
def add (s : GSet α) (x : α) : GSet α := ⟨s.container.set x true⟩

/-- `Remove`: base.go:60-62 -/
def remove (s : GSet α) (x : α) : GSet α := ⟨s.container.erase x⟩

/-- `Contains`: base.go:65-68 (`val && ok`; a missing key gives `false, false`) -/
def contains (s : GSet α) (x : α) : Bool :=
  match s.container.get x with
  | some val => val && true
  | none => false && false

/-- `AddFromArray`: base.go:39-43 -/
def addFromArray (s : GSet α) (xs : List α) : GSet α := xs.foldl add s

/-- `ToArray`: base.go:46-52; the order of the result is unspecified in Go -/
def toArray (s : GSet α) : List α := s.container.keys

/-- `Size`: base.go:71-73 -/
def size (s : GSet α) : Nat := s.container.size

/-- `Copy`: base.go:76-82; `order` is the iteration order Go picked -/
def copyIn (order : List α) : GSet α := order.foldl add new

/-- `Difference`: base.go:85-91; `order1` and `order2` are the orders in which Go iterates over
the two sets -/
def differenceIn (order1 order2 : List α) : GSet α := order2.foldl remove (copyIn order1)

/-- `NewSetFromArray`: base.go:101-113 -/
def fromArray (xs : List α) : GSet α := new.addFromArray xs

end GSet

/-- A program's sets. A Go `Set` value is a reference to a map, so the maps live in a heap and
a set is named by its position. -/
abbrev SetHeap (α : Type) [DecidableEq α] := List (GSet α)

/-- Operations on sets; the iteration orders Go picks are part of the operation. -/
inductive SetOp (α : Type) where
  | newSet
  | newFromArray (xs : List α)
  | add (p : Nat) (x : α)
  | addFromArray (p : Nat) (xs : List α)
  | remove (p : Nat) (x : α)
  | copy (p : Nat) (order : List α)
  | difference (p q : Nat) (order1 order2 : List α)

/-- Whether the operation's arguments exist and its iteration orders list the keys of the maps
iterated over, each once. -/
def SetOp.possible {α : Type} [DecidableEq α] (h : SetHeap α) : SetOp α → Prop
  | .newSet => True
  | .newFromArray _ => True
  | .add p _ => p < h.length
  | .addFromArray p _ => p < h.length
  | .remove p _ => p < h.length
  | .copy p o => ∃ s, h[p]? = some s ∧ o.Perm s.toArray
  | .difference p q o1 o2 => ∃ s t, h[p]? = some s ∧ h[q]? = some t ∧
      o1.Perm s.toArray ∧ o2.Perm t.toArray

/-- Executing an operation: writes go to the map the set refers to, `Copy`, `Difference` and the
constructors allocate a new map. -/
def SetOp.exec {α : Type} [DecidableEq α] (h : SetHeap α) : SetOp α → SetHeap α
  | .newSet => h ++ [GSet.new]
  | .newFromArray xs => h ++ [GSet.fromArray xs]
  | .add p x => h.modify p (GSet.add · x)
  | .addFromArray p xs => h.modify p (GSet.addFromArray · xs)
  | .remove p x => h.modify p (GSet.remove · x)
  | .copy _ o => h ++ [GSet.copyIn o]
  | .difference _ _ o1 o2 => h ++ [GSet.differenceIn o1 o2]

end Verif
