import Verif.Model.Proto

/-!
# Messages by their definition

How google.golang.org/protobuf writes and reads a message from its definition (`internal/impl`, the coder of a
message; not in /repo), for the kinds of fields that the definitions in /repo use. The definitions are in
`Verif.Model.Definitions`.

A definition is a list of fields; a message has for every field of its definition a list of values, in the
order of the definition: none or one for a single field, any number for a repeated one. The value 0, the empty
string and the empty bytes of a single field count as none, as in proto3. A map is a list of entries, which
are messages of two fields that are always there; the order is the one in which Go iterates the map.

Simplifications: fields are written in the order of the definition; unknown fields are skipped and not kept.
The limit on nesting, if the library has one, is a parameter: `readLimited` has one, `read` has none.
-/

namespace Verif.PB

open Proto

/-- The types of values that are used. -/
inductive Kind (T : Type) where
  | int32 | int64 | bool | enum | double | string | bytes
  | msg (t : T)

/-- How often a field occurs. `always` are the two fields of an entry of a map. -/
inductive Card where
  | one
  | oneof (group : Nat)
  | many
  | map
  | always
  deriving DecidableEq

/-- A field of a definition. -/
structure Field (T : Type) where
  num : Nat
  kind : Kind T
  card : Card

/-- Definitions, by the name of the message. -/
abbrev Schema (T : Type) := T → List (Field T)

/-- Values: numbers (also booleans and enums), the eight bytes of a `double`, strings and bytes, messages. -/
inductive Val where
  | num (i : Int)
  | dbl (b : Bytes)
  | str (b : Bytes)
  | msg (fs : List (List Val))

/-- Kinds whose repeated fields are written packed. -/
def Kind.packs {T : Type} : Kind T → Bool
  | .int32 | .int64 | .bool | .enum | .double => true
  | .string | .bytes | .msg _ => false

/-! ## Writing -/

/-- The bytes of numbers that are packed. -/
def packBytes : List WireVal → Bytes
  | [] => []
  | .varint n :: ws => varint n ++ packBytes ws
  | .fixed64 b :: ws => b ++ packBytes ws
  | _ :: ws => packBytes ws

/-- The fields on the wire of one field of a message. -/
def rawField {T : Type} (d : Field T) (ws : List WireVal) : List RawField :=
  if d.card = .many ∧ d.kind.packs = true then
    match ws with
    | [] => []
    | ws => [⟨d.num, .bytes (packBytes ws)⟩]
  else ws.map fun w => ⟨d.num, w⟩

variable {T : Type}

mutual

/-- A value on the wire. -/
def wire (S : Schema T) (k : Kind T) : Val → WireVal
  | .num i => .varint (int32ToWire i)
  | .dbl b => .fixed64 b
  | .str b => .bytes b
  | .msg fs =>
    match k with
    | .msg t => .bytes (encodeFields (rawFields S (S t) fs))
    | _ => .bytes []

/-- All values of a field. -/
def wires (S : Schema T) (k : Kind T) : List Val → List WireVal
  | [] => []
  | v :: vs => wire S k v :: wires S k vs

/-- All fields of a message. -/
def rawFields (S : Schema T) (ds : List (Field T)) : List (List Val) → List RawField
  | [] => []
  | vs :: rest =>
    match ds with
    | [] => []
    | d :: ds => rawField d (wires S d.kind vs) ++ rawFields S ds rest

end

/-- The bytes of a message. -/
def bytesOf (S : Schema T) (t : T) (m : List (List Val)) : Bytes := encodeFields (rawFields S (S t) m)

mutual

/-- All strings are valid UTF-8. -/
def texts (S : Schema T) (k : Kind T) : Val → Bool
  | .num _ => true
  | .dbl _ => true
  | .str b =>
    match k with
    | .string => utf8Valid b
    | _ => true
  | .msg fs =>
    match k with
    | .msg t => textsFields S (S t) fs
    | _ => true

/-- All strings of a field. -/
def textsAll (S : Schema T) (k : Kind T) : List Val → Bool
  | [] => true
  | v :: vs => texts S k v && textsAll S k vs

/-- All strings of a message. -/
def textsFields (S : Schema T) (ds : List (Field T)) : List (List Val) → Bool
  | [] => true
  | vs :: rest =>
    match ds with
    | [] => true
    | d :: ds => textsAll S d.kind vs && textsFields S ds rest

end

/-- `proto.Marshal` -/
def write (S : Schema T) (t : T) (m : List (List Val)) : Option Bytes :=
  if textsFields S (S t) m then some (bytesOf S t m) else none

/-! ## Reading -/

/-- An `int64` on the wire. -/
def int64OfWire (n : Nat) : Int :=
  let k : Nat := n % 2 ^ 64
  if k < 2 ^ 63 then (k : Int) else (k : Int) - 2 ^ 64

/-- The value of a field of an entry that is missing. -/
def zeroOf (S : Schema T) : Kind T → Val
  | .int32 | .int64 | .bool | .enum => .num 0
  | .double => .dbl [0, 0, 0, 0, 0, 0, 0, 0]
  | .string | .bytes => .str []
  | .msg t => .msg ((S t).map fun _ => [])

/-- A new message. -/
def fresh (S : Schema T) (ds : List (Field T)) : List (List Val) :=
  ds.map fun d => if d.card = .always then [zeroOf S d.kind] else []

/-- What a single field does not distinguish from none. -/
def isZero : Val → Bool
  | .num i => i == 0
  | .dbl b => b == [0, 0, 0, 0, 0, 0, 0, 0]
  | .str b => b == []
  | .msg _ => false

/-- What reads a message into one that is there already. -/
abbrev Reader (T : Type) := T → List (List Val) → Bytes → Option (List (List Val))

/-- Reading one value; `old` is the value that is there. `some none` is an unexpected type, which is skipped. -/
def readVal (S : Schema T) (sub : Reader T) (k : Kind T) (old : Option Val) (w : WireVal) : Option (Option Val) :=
  match k, w with
  | .int32, .varint n => some (some (.num (int32OfWire n)))
  | .enum, .varint n => some (some (.num (int32OfWire n)))
  | .int64, .varint n => some (some (.num (int64OfWire n)))
  | .bool, .varint n => some (some (.num (if n = 0 then 0 else 1)))
  | .double, .fixed64 b => some (some (.dbl b))
  | .string, .bytes b => if utf8Valid b then some (some (.str b)) else none
  | .bytes, .bytes b => some (some (.str b))
  | .msg t, .bytes b =>
    (sub t (match old with | some (.msg fs) => fs | _ => fresh S (S t)) b).map fun fs => some (.msg fs)
  | _, _ => some none

/-- One packed number. -/
def unpackOne (S : Schema T) (sub : Reader T) (k : Kind T) (b : Bytes) : Option (Val × Bytes) :=
  match k with
  | .double => (takeExact 8 b).map fun (v, r) => (.dbl v, r)
  | k =>
    (consumeVarint b).bind fun (n, r) =>
      match readVal S sub k none (.varint n) with
      | some (some v) => some (v, r)
      | _ => none

/-- Packed numbers. The first argument is fuel; every round consumes at least one byte. -/
def unpack (S : Schema T) (sub : Reader T) (k : Kind T) : Nat → Bytes → Option (List Val)
  | _, [] => some []
  | 0, _ :: _ => none
  | f + 1, b :: bs =>
    (unpackOne S sub k (b :: bs)).bind fun (v, r) => (unpack S sub k f r).map (v :: ·)

/-- The key of an entry. -/
inductive MapKey where
  | num (i : Int)
  | str (b : Bytes)
  | other
  deriving DecidableEq

/-- The key of an entry. -/
def keyOf : Val → MapKey
  | .msg ((.num i :: _) :: _) => .num i
  | .msg ((.str b :: _) :: _) => .str b
  | _ => .other

/-- Setting an entry of a map. -/
def setEntry (es : List Val) (e : Val) : List Val :=
  if es.any fun x => keyOf x == keyOf e then es.map fun x => if keyOf x = keyOf e then e else x else es ++ [e]

/-- Setting a member of a `oneof` removes the others. -/
def clearGroup (g : Nat) : List (Field T) → List (List Val) → List (List Val)
  | d :: ds, vs :: rest => (if d.card = .oneof g then [] else vs) :: clearGroup g ds rest
  | _, rest => rest

/-- Reading one field into the `i`-th field of the message. -/
def readField (S : Schema T) (sub : Reader T) (ds : List (Field T)) (d : Field T) (i : Nat)
    (m : List (List Val)) (w : WireVal) : Option (List (List Val)) :=
  let vs := m.getD i []
  match d.card with
  | .one =>
    (readVal S sub d.kind vs.head? w).map fun
      | some v => m.set i (if isZero v then [] else [v])
      | none => m
  | .always =>
    (readVal S sub d.kind vs.head? w).map fun
      | some v => m.set i [v]
      | none => m
  | .oneof g =>
    (readVal S sub d.kind vs.head? w).map fun
      | some v => (clearGroup g ds m).set i [v]
      | none => m
  | .map =>
    (readVal S sub d.kind none w).map fun
      | some v => m.set i (setEntry vs v)
      | none => m
  | .many =>
    match d.kind.packs, w with
    | true, .bytes b => (unpack S sub d.kind b.length b).map fun xs => m.set i (vs ++ xs)
    | _, w =>
      (readVal S sub d.kind none w).map fun
        | some v => m.set i (vs ++ [v])
        | none => m

/-- Reading one field: that of the definition which has its number, if there is one. -/
def readRaw (S : Schema T) (sub : Reader T) (ds : List (Field T)) (m : List (List Val)) (f : RawField) :
    Option (List (List Val)) :=
  match ds.findIdx? fun d => d.num == f.num with
  | none => some m
  | some i =>
    match ds[i]? with
    | none => some m
    | some d => readField S sub ds d i m f.val

/-- Reading into a message that is there already, with a limit on nesting. -/
def readInto (S : Schema T) : Nat → Reader T
  | 0, _, _, _ => none
  | n + 1, t, m, b => decodeInto (readRaw S (readInto S n) (S t)) m b

/-- `proto.Unmarshal` with a limit on nesting -/
def readLimited (S : Schema T) (n : Nat) (t : T) (b : Bytes) : Option (List (List Val)) :=
  readInto S n t (fresh S (S t)) b

/-- `proto.Unmarshal` without one: the nesting of a message is below its length. -/
def read (S : Schema T) (t : T) (b : Bytes) : Option (List (List Val)) := readLimited S (b.length + 1) t b

end Verif.PB
