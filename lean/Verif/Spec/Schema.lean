import Verif.Model.Schema
import Verif.Spec.Text

/-!
# What the values of a definition are

`Typed`: the Go values of the generated types. `Good`: what the compiler of definitions guarantees.
-/

namespace Verif.PB

variable {T : Type}

/-- The zero values: the number zero, the `double` whose bits are all zero, the empty text. -/
def IsZeroVal : Val → Prop
  | .num i => i = 0
  | .dbl b => b = List.replicate 8 0
  | .str b => b = []
  | .msg _ => False

/-- The key of an entry of a map: the value of its first field. -/
def entryKey : Val → Option Val
  | .msg ((k :: _) :: _) => some k
  | _ => none

/-- How many values a field may have. The zero value of a single field is no value. The keys of a map
differ. -/
def CardOk (c : Card) (vs : List Val) : Prop :=
  match c with
  | .one => vs = [] ∨ ∃ v, vs = [v] ∧ ¬ IsZeroVal v
  | .oneof _ => vs.length ≤ 1
  | .many => True
  | .map => (vs.map entryKey).Nodup
  | .always => vs.length = 1

/-- At most one member of a `oneof` is there. -/
def Exclusive (ds : List (Field T)) (m : List (List Val)) : Prop :=
  ∀ (i j : Nat) (d e : Field T) (g : Nat), i ≠ j → ds[i]? = some d → ds[j]? = some e →
    d.card = .oneof g → e.card = .oneof g → m.getD i [] = [] ∨ m.getD j [] = []

mutual

/-- A value of a kind. -/
def Typed (S : Schema T) (k : Kind T) : Val → Prop
  | .num i =>
    match k with
    | .int32 | .enum => -2 ^ 31 ≤ i ∧ i < 2 ^ 31
    | .int64 => -2 ^ 63 ≤ i ∧ i < 2 ^ 63
    | .bool => i = 0 ∨ i = 1
    | _ => False
  | .dbl b =>
    match k with
    | .double => b.length = 8
    | _ => False
  | .str _ =>
    match k with
    | .string | .bytes => True
    | _ => False
  | .msg fs =>
    match k with
    | .msg t => TypedFields S (S t) fs ∧ Exclusive (S t) fs
    | _ => False

/-- Values of a kind. -/
def TypedAll (S : Schema T) (k : Kind T) : List Val → Prop
  | [] => True
  | v :: vs => Typed S k v ∧ TypedAll S k vs

/-- A list of values for every field. -/
def TypedFields (S : Schema T) (ds : List (Field T)) : List (List Val) → Prop
  | [] => ds = []
  | vs :: rest =>
    match ds with
    | [] => False
    | d :: ds => CardOk d.card vs ∧ TypedAll S d.kind vs ∧ TypedFields S ds rest

end

/-- A message of a definition. -/
def IsMessage (S : Schema T) (t : T) (m : List (List Val)) : Prop := TypedFields S (S t) m ∧ Exclusive (S t) m

/-- `Within S k v k' v'`: the value `v'` of the kind `k'` is the value `v` of the kind `k`, or is somewhere in
it. -/
inductive Within (S : Schema T) : Kind T → Val → Kind T → Val → Prop where
  | here (k : Kind T) (v : Val) : Within S k v k v
  | inside {t : T} {fs : List (List Val)} {i : Nat} {d : Field T} {vs : List Val} {v v' : Val} {k' : Kind T} :
      (S t)[i]? = some d → fs[i]? = some vs → v ∈ vs → Within S d.kind v k' v' →
      Within S (.msg t) (.msg fs) k' v'

/-- All strings in the message are text. -/
def StringsAreText (S : Schema T) (t : T) (m : List (List Val)) : Prop :=
  ∀ b, Within S (.msg t) (.msg m) .string (.str b) → IsText b

mutual

/-- How deep messages are nested in a value. -/
def depth : Val → Nat
  | .num _ => 0
  | .dbl _ => 0
  | .str _ => 0
  | .msg fs => depthFields fs + 1

/-- The largest of a list. -/
def depthAll : List Val → Nat
  | [] => 0
  | v :: vs => max (depth v) (depthAll vs)

/-- The largest of a message. -/
def depthFields : List (List Val) → Nat
  | [] => 0
  | vs :: rest => max (depthAll vs) (depthFields rest)

end

/-- How deep a message is nested: 1 if it contains no other. -/
def nesting (m : List (List Val)) : Nat := depthFields m + 1

/-- Definitions as the compiler accepts and completes them: field numbers differ and are in range, maps have
entries, and nothing else has. -/
structure Good (S : Schema T) : Prop where
  nums : ∀ t, ((S t).map (·.num)).Nodup
  range : ∀ t, ∀ d ∈ S t, 1 ≤ d.num ∧ d.num ≤ 536870911
  maps : ∀ t, ∀ d ∈ S t, d.card = .map → ∃ e k v, d.kind = .msg e ∧
    S e = [⟨1, k, .always⟩, ⟨2, v, .always⟩] ∧ (k = .int32 ∨ k = .int64 ∨ k = .bool ∨ k = .string)
  plain : ∀ t, ∀ d ∈ S t, d.card ≠ .map → ∀ e, d.kind = .msg e → ∀ x ∈ S e, x.card ≠ .always

end Verif.PB
