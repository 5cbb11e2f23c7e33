import Verif.Model.Definitions
import Verif.Model.RawDesc

/-!
# What the descriptors in the generated code say

Generated code gives the library the definition of its messages as the bytes of a `FileDescriptorProto` and a list of
indices (`protoimpl.TypeBuilder`, e.g. libs/go/aealite/protocols/base.pb.go:387-400). The library (google.golang.org/
protobuf, `internal/filedesc` and `internal/filetype`; not in /repo) reads the bytes by the definitions of
google/protobuf/descriptor.proto, numbers the enums and messages of the file (the declarations of a scope before those
nested in them), and takes the type of every field that has one from the list of indices. Fields are written in the
order of their numbers.

Only those fields of descriptor.proto are here that have to do with how messages are written and read. A descriptor
with something that `Verif.Model.Schema` does not cover has no table.
-/

namespace Verif.PB

/-! ## Definitions of google/protobuf/descriptor.proto -/

/-- The messages of descriptor.proto that are used. -/
inductive DescMsg where
  | file | message | field | enum | enumValue | messageOptions | fieldOptions

/-- Their fields. `oneof` is for fields of which it matters whether they are there. -/
def desc : Schema DescMsg
  | .file => [⟨2, .string, .one⟩, ⟨4, .msg .message, .many⟩, ⟨5, .msg .enum, .many⟩, ⟨12, .string, .one⟩]
  | .message => [⟨1, .string, .one⟩, ⟨2, .msg .field, .many⟩, ⟨3, .msg .message, .many⟩, ⟨4, .msg .enum, .many⟩,
      ⟨7, .msg .messageOptions, .one⟩]
  | .field => [⟨1, .string, .one⟩, ⟨3, .int32, .one⟩, ⟨4, .enum, .one⟩, ⟨5, .enum, .one⟩, ⟨6, .string, .one⟩,
      ⟨8, .msg .fieldOptions, .one⟩, ⟨9, .int32, .oneof 0⟩, ⟨17, .bool, .one⟩]
  | .enum => [⟨1, .string, .one⟩, ⟨2, .msg .enumValue, .many⟩]
  | .enumValue => [⟨1, .string, .one⟩, ⟨2, .int32, .one⟩]
  | .messageOptions => [⟨7, .bool, .one⟩]
  | .fieldOptions => [⟨2, .bool, .oneof 0⟩]

/-- A string of a message. -/
def strAt (m : List (List Val)) (i : Nat) : Bytes :=
  match m.getD i [] with
  | [.str b] => b
  | _ => []

/-- A number of a message, if it is there. -/
def numAt? (m : List (List Val)) (i : Nat) : Option Int :=
  match m.getD i [] with
  | [.num n] => some n
  | _ => none

/-- A number of a message. -/
def numAt (m : List (List Val)) (i : Nat) : Int := (numAt? m i).getD 0

/-- The messages in a field of a message. -/
def msgsAt (m : List (List Val)) (i : Nat) : List (List (List Val)) :=
  (m.getD i []).filterMap fun
    | .msg fs => some fs
    | _ => none

/-! ## Messages and enums of a file -/

/-- The full name of what is declared in a scope. -/
def within (scope name : Bytes) : Bytes := scope ++ [46] ++ name

/-- The messages of a scope and those nested in them, in the order in which they are numbered. The first argument is
fuel: messages are nested at most as deep as the descriptor is long. -/
def declared : Nat → Bytes → List (List (List Val)) → List (Bytes × List (List Val))
  | 0, _, _ => []
  | n + 1, scope, ms =>
    (ms.map fun m => (within scope (strAt m 0), m)) ++
      ms.flatMap fun m => declared n (within scope (strAt m 0)) (msgsAt m 2)

/-- The enums of a scope and those nested in its messages, in the order in which they are numbered. -/
def declaredEnums : Nat → Bytes → List (List (List Val)) → List (List (List Val)) → List (Bytes × List (List Val))
  | 0, _, _, _ => []
  | n + 1, scope, es, ms =>
    (es.map fun e => (within scope (strAt e 0), e)) ++
      ms.flatMap fun m => declaredEnums n (within scope (strAt m 0)) (msgsAt m 3) (msgsAt m 2)

/-- A file: its messages and enums by their full names. -/
structure FileDesc where
  syntax_ : Bytes
  messages : List (Bytes × List (List Val))
  enums : List (Bytes × List (List Val))

/-- Reading a descriptor. -/
def fileOf (raw : Bytes) : Option FileDesc :=
  (read desc .file raw).map fun f =>
    { syntax_ := strAt f 3
      messages := declared raw.length (within [] (strAt f 0)) (msgsAt f 1)
      enums := declaredEnums raw.length (within [] (strAt f 0)) (msgsAt f 2) (msgsAt f 1) }

/-! ## Fields -/

/-- `FieldDescriptorProto.Type` -/
def kindOf (ty : Int) (name : Bytes) : Option (Kind Bytes) :=
  match ty with
  | 1 => some .double
  | 3 => some .int64
  | 5 => some .int32
  | 8 => some .bool
  | 9 => some .string
  | 11 => some (.msg name)
  | 12 => some .bytes
  | 14 => some .enum
  | _ => none

/-- The message is an entry of a map. -/
def isEntry (m : List (List Val)) : Bool := (msgsAt m 4).any fun o => numAt o 0 != 0

/-- How often a field occurs: by its label, the `oneof` of which it is a member, and whether it is of an entry or of
entries. -/
def cardOf (entries : List Bytes) (ofEntry : Bool) (f : List (List Val)) : Option Card :=
  if numAt f 7 ≠ 0 then none
  else if numAt f 2 = 3 then
    if numAt f 3 = 11 && entries.contains (strAt f 4) then some .map
    else if (msgsAt f 5).any fun o => (numAt? o 0).isSome then none
    else some .many
  else if numAt f 2 = 1 then
    match numAt? f 6 with
    | some g => some (.oneof g.toNat)
    | none => some (if ofEntry then .always else .one)
  else none

/-- A field. -/
def fieldOf (entries : List Bytes) (ofEntry : Bool) (f : List (List Val)) : Option (Field Bytes) :=
  match kindOf (numAt f 3) (strAt f 4), cardOf entries ofEntry f with
  | some k, some c => some ⟨(numAt f 1).toNat, k, c⟩
  | _, _ => none

/-- Putting a field where its number belongs. -/
def insertField (d : Field Bytes) : List (Field Bytes) → List (Field Bytes)
  | [] => [d]
  | e :: es => if d.num ≤ e.num then d :: e :: es else e :: insertField d es

/-- The fields in the order of their numbers. -/
def sortFields : List (Field Bytes) → List (Field Bytes)
  | [] => []
  | d :: ds => insertField d (sortFields ds)

/-- All of a list, if all are there. -/
def allOf {α β : Type} (f : α → Option β) : List α → Option (List β)
  | [] => some []
  | a :: as =>
    match f a, allOf f as with
    | some b, some bs => some (b :: bs)
    | _, _ => none

/-- The definitions of the messages of a file, by their full names. -/
def tableOf (raw : Bytes) : Option (List (Bytes × List (Field Bytes))) :=
  (fileOf raw).bind fun f =>
    if f.syntax_ ≠ b! "proto3" then none
    else
      let entries := (f.messages.filter fun m => isEntry m.2).map (·.1)
      allOf (fun m => (allOf (fieldOf entries (isEntry m.2)) (msgsAt m.2 1)).map fun ds => (m.1, sortFields ds))
        f.messages

/-- The definitions of the messages of a file as a schema. -/
def schemaOf (tbl : List (Bytes × List (Field Bytes))) : Schema Bytes := fun name => (tbl.lookup name).getD []

/-- The values of an enum. -/
def valuesOf (raw : Bytes) (name : Bytes) : Option (List (Bytes × Int)) :=
  (fileOf raw).bind fun f => (f.enums.lookup name).map fun e => (msgsAt e 1).map fun v => (strAt v 0, numAt v 1)

/-- The names and numbers of the fields of all messages of a file, which are named without the package. -/
def fieldNames (raw : Bytes) : Option (List (Bytes × List (Bytes × Int))) :=
  (read desc .file raw).map fun f =>
    (declared raw.length [] (msgsAt f 1)).map fun m => (m.1, (msgsAt m.2 1).map fun d => (strAt d 0, numAt d 1))

/-- The values of all enums of a file, which are named without the package. -/
def enumValues (raw : Bytes) : Option (List (Bytes × List (Bytes × Int))) :=
  (read desc .file raw).map fun f =>
    (declaredEnums raw.length [] (msgsAt f 2) (msgsAt f 1)).map fun e =>
      (e.1, (msgsAt e.2 1).map fun v => (strAt v 0, numAt v 1))

/-! ## Types by index -/

/-- The names of the types of all fields that have one, in the order of the messages and their fields. -/
def typeNames (raw : Bytes) : Option (List Bytes) :=
  (fileOf raw).map fun f =>
    f.messages.flatMap fun m =>
      ((msgsAt m.2 1).filter fun d => numAt d 3 = 11 || numAt d 3 = 14).map (strAt · 4)

/-- The types that the indices of the generated code stand for: `depIdxs.Get` of `internal/filetype`; the last number is
where those of fields begin. An index is of an enum or a message of the file or of one of the types of other files,
which `ext` are. -/
def typesByIndex (raw : Bytes) (ext : List Bytes) (deps : List Nat) (count : Nat) : Option (List Bytes) :=
  (fileOf raw).bind fun f =>
    let types := f.enums.map (·.1) ++ f.messages.map (·.1) ++ ext
    (deps[deps.length - 1]?).bind fun start =>
      allOf (fun j => (deps[start + j]?).bind fun i => types[i]?) (List.range count)

/-! ## `google.protobuf.Struct` -/

/-- The definitions of google/protobuf/struct.proto, to which base.pb.go refers (base.pb.go:22, 327). -/
def structTable : List (Bytes × List (Field Bytes)) :=
  [(b! ".google.protobuf.Struct", [⟨1, .msg (b! ".google.protobuf.Struct.FieldsEntry"), .map⟩]),
    (b! ".google.protobuf.Value",
      [⟨1, .enum, .oneof 0⟩, ⟨2, .double, .oneof 0⟩, ⟨3, .string, .oneof 0⟩, ⟨4, .bool, .oneof 0⟩,
        ⟨5, .msg (b! ".google.protobuf.Struct"), .oneof 0⟩, ⟨6, .msg (b! ".google.protobuf.ListValue"), .oneof 0⟩]),
    (b! ".google.protobuf.ListValue", [⟨1, .msg (b! ".google.protobuf.Value"), .many⟩]),
    (b! ".google.protobuf.Struct.FieldsEntry", [⟨1, .string, .always⟩, ⟨2, .msg (b! ".google.protobuf.Value"), .always⟩])]

end Verif.PB
