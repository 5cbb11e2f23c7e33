import Verif.Model.Go

/-!
# Protobuf wire format

The Go code encodes and decodes its messages with google.golang.org/protobuf
(`proto.Marshal`, `proto.Unmarshal`), whose source is not in /repo. This file models the
published wire format as that library implements it (package `encoding/protowire` and the
message coder of package `internal/impl`): varints of at most ten bytes, tags, the wire types
0, 1, 2, 3/4 (groups, skipped) and 5, last-value-wins for scalars, merging of repeated
sub-messages, and UTF-8 validation of proto3 strings on both sides.

Simplifications: unknown fields are skipped and not kept for re-encoding; the limit of 10000
on the nesting of unknown groups is not modelled.
-/

namespace Verif.Proto

/-! ## UTF-8 -/

/-- A continuation byte. -/
def isCont (b : UInt8) : Bool := 0x80 ≤ b && b ≤ 0xBF

/-- `utf8.Valid` of the Go standard library: well-formed UTF-8, without surrogates and without
overlong forms. -/
def utf8Valid : Bytes → Bool
  | [] => true
  | b0 :: r0 =>
    if b0 < 0x80 then utf8Valid r0
    else match r0 with
    | [] => false
    | b1 :: r1 =>
      if 0xC2 ≤ b0 && b0 ≤ 0xDF then isCont b1 && utf8Valid r1
      else match r1 with
      | [] => false
      | b2 :: r2 =>
        if b0 == 0xE0 then 0xA0 ≤ b1 && b1 ≤ 0xBF && isCont b2 && utf8Valid r2
        else if b0 == 0xED then 0x80 ≤ b1 && b1 ≤ 0x9F && isCont b2 && utf8Valid r2
        else if 0xE1 ≤ b0 && b0 ≤ 0xEF then isCont b1 && isCont b2 && utf8Valid r2
        else match r2 with
        | [] => false
        | b3 :: r3 =>
          if b0 == 0xF0 then 0x90 ≤ b1 && b1 ≤ 0xBF && isCont b2 && isCont b3 && utf8Valid r3
          else if b0 == 0xF4 then 0x80 ≤ b1 && b1 ≤ 0x8F && isCont b2 && isCont b3 && utf8Valid r3
          else if 0xF1 ≤ b0 && b0 ≤ 0xF3 then
            isCont b1 && isCont b2 && isCont b3 && utf8Valid r3
          else false

/-! ## Varints -/

/-- `AppendVarint`, seven bits per byte, low bits first. The first argument is fuel. -/
def varintAux : Nat → Nat → Bytes
  | 0, n => [n.toUInt8]
  | f + 1, n =>
    if n < 128 then [n.toUInt8] else (n % 128 + 128).toUInt8 :: varintAux f (n / 128)

/-- `protowire.AppendVarint` -/
def varint (n : Nat) : Bytes := varintAux n n

/-- `protowire.ConsumeVarint`; the first argument is the number of bytes that may still come
before the tenth. `none` is a truncated or overflowing varint. -/
def consumeVarintAux : Nat → Bytes → Option (Nat × Bytes)
  | _, [] => none
  | 0, y :: rest => if y < 2 then some (y.toNat, rest) else none
  | f + 1, y :: rest =>
    if y < 128 then some (y.toNat, rest)
    else match consumeVarintAux f rest with
      | some (v, rest') => some (y.toNat - 128 + 128 * v, rest')
      | none => none

/-- `protowire.ConsumeVarint` -/
def consumeVarint (b : Bytes) : Option (Nat × Bytes) := consumeVarintAux 9 b

/-! ## Fields -/

/-- A field value on the wire. `group` is a skipped group. -/
inductive WireVal where
  | varint (n : Nat)
  | fixed64 (b : Bytes)
  | bytes (b : Bytes)
  | group
  | fixed32 (b : Bytes)
  deriving DecidableEq, Repr

/-- Field number and value. -/
structure RawField where
  num : Nat
  val : WireVal
  deriving DecidableEq, Repr

/-- A tag: field number and wire type. Field numbers are 1 to 2^29-1. -/
def consumeTag (b : Bytes) : Option (Nat × Nat × Bytes) :=
  match consumeVarint b with
  | none => none
  | some (tag, rest) =>
    if tag / 8 < 1 ∨ 536870911 < tag / 8 then none else some (tag / 8, tag % 8, rest)

/-- The first `n` bytes, if there are as many. -/
def takeExact (n : Nat) (b : Bytes) : Option (Bytes × Bytes) :=
  if b.length < n then none else some (b.take n, b.drop n)

/-- `protowire.ConsumeFieldValue` for the types that are no groups. -/
def consumeScalar (typ : Nat) (b : Bytes) : Option (WireVal × Bytes) :=
  match typ with
  | 0 => (consumeVarint b).map fun (v, r) => (.varint v, r)
  | 1 => (takeExact 8 b).map fun (v, r) => (.fixed64 v, r)
  | 2 => (consumeVarint b).bind fun (n, r) => (takeExact n r).map fun (v, r') => (.bytes v, r')
  | 5 => (takeExact 4 b).map fun (v, r) => (.fixed32 v, r)
  | _ => none

/-- Skipping a group: the stack of open group numbers, innermost first. The first argument is
fuel; every round consumes at least one byte. -/
def skipGroup : Nat → List Nat → Bytes → Option Bytes
  | _, [], b => some b
  | 0, _ :: _, _ => none
  | f + 1, g :: stack, b =>
    match consumeTag b with
    | none => none
    | some (num, typ, rest) =>
      if typ = 4 then (if num = g then skipGroup f stack rest else none)
      else if typ = 3 then skipGroup f (num :: g :: stack) rest
      else match consumeScalar typ rest with
        | none => none
        | some (_, rest') => skipGroup f (g :: stack) rest'

/-- `protowire.ConsumeFieldValue` -/
def consumeValue (num typ : Nat) (b : Bytes) : Option (WireVal × Bytes) :=
  if typ = 3 then (skipGroup (b.length + 1) [num] b).map fun r => (.group, r)
  else consumeScalar typ b

/-- The field loop of `unmarshalPointer`, as a list of raw fields. The first argument is fuel. -/
def parseAux : Nat → Bytes → Option (List RawField)
  | _, [] => some []
  | 0, _ :: _ => none
  | f + 1, b :: bs =>
    match consumeTag (b :: bs) with
    | none => none
    | some (num, typ, rest) =>
      match consumeValue num typ rest with
      | none => none
      | some (v, rest') => (parseAux f rest').map (⟨num, v⟩ :: ·)

/-- All fields of an encoded message. -/
def parse (b : Bytes) : Option (List RawField) := parseAux b.length b

/-- Encoding one field. Groups are never written. -/
def encodeField (f : RawField) : Bytes :=
  match f.val with
  | .varint n => varint (f.num * 8) ++ varint n
  | .fixed64 b => varint (f.num * 8 + 1) ++ b
  | .bytes b => varint (f.num * 8 + 2) ++ varint b.length ++ b
  | .group => []
  | .fixed32 b => varint (f.num * 8 + 5) ++ b

/-- Encoding a list of fields. -/
def encodeFields (fs : List RawField) : Bytes := (fs.map encodeField).flatten

/-- Decoding into an existing message: every field in turn updates it. -/
def decodeInto {M : Type} (step : M → RawField → Option M) (m : M) (b : Bytes) : Option M :=
  (parse b).bind fun fs => fs.foldlM step m

/-! ## Field kinds -/

/-- A proto3 string or bytes field is left out when empty. -/
def optBytes (num : Nat) (b : Bytes) : List RawField := if b = [] then [] else [⟨num, .bytes b⟩]

/-- A proto3 `int32` or enum value on the wire: sign-extended to 64 bits. -/
def int32ToWire (i : Int) : Nat := if i < 0 then (i + 2 ^ 64).toNat else i.toNat

/-- Reading it back: the low 32 bits, as a signed number. -/
def int32OfWire (n : Nat) : Int :=
  let k : Nat := n % 2 ^ 32
  if k < 2 ^ 31 then (k : Int) else (k : Int) - 2 ^ 32

/-- A proto3 `int32` or enum field is left out when zero. -/
def optInt32 (num : Nat) (i : Int) : List RawField :=
  if i = 0 then [] else [⟨num, .varint (int32ToWire i)⟩]

/-- The values of `int32`. -/
def isInt32 (i : Int) : Bool := -2 ^ 31 ≤ i && i < 2 ^ 31

/-- Go's conversion `int32(x)` of a 64-bit `int`. -/
def toInt32 (i : Int) : Int := int32OfWire (i % 2 ^ 32).toNat

end Verif.Proto
