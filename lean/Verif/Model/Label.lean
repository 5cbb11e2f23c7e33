import Verif.Model.Go

/-!
# Dialogue references and labels

Model of /repo/libs/go/aealite/protocols/dialogue_label.go (data types, accessors and
the text form; the JSON form is in `Verif.Model.LabelJson`).
-/

namespace Verif

/-- `UnassignedDialogueReference`: dialogue.go:38 -/
abbrev unassigned : Bytes := []

/-- `DialogueReference`: dialogue_label.go:30-33 -/
structure DialogueReference where
  starter : Bytes
  responder : Bytes
  deriving DecidableEq, Repr

/-- `DialogueLabel`: dialogue_label.go:42-46 -/
structure DialogueLabel where
  reference : DialogueReference
  opponent : Bytes
  starterAddr : Bytes
  deriving DecidableEq, Repr

namespace DialogueLabel

/-- `IsSelfInitiated`: dialogue_label.go:64-66 -/
def isSelfInitiated (l : DialogueLabel) : Bool := l.starterAddr != l.opponent

/-- `IncompleteVersion`: dialogue_label.go:79-85 -/
def incompleteVersion (l : DialogueLabel) : DialogueLabel :=
  { reference := { starter := l.reference.starter, responder := unassigned }
    opponent := l.opponent
    starterAddr := l.starterAddr }

/-- `DialogueLabelStringSeparator = "_"`: dialogue.go:39 -/
abbrev separator : UInt8 := 95

/-- `strings.Join(parts, sep)` for a one-byte separator (Go standard library). -/
def joinBytes (sep : UInt8) : List Bytes → Bytes
  | [] => []
  | [x] => x
  | x :: y :: rest => x ++ sep :: joinBytes sep (y :: rest)

/-- `strings.Split(s, sep)` for a one-byte separator (Go standard library). -/
def splitBytes (sep : UInt8) : Bytes → List Bytes
  | [] => [[]]
  | c :: cs =>
    if c = sep then [] :: splitBytes sep cs
    else match splitBytes sep cs with
      | [] => [[c]]
      | p :: ps => (c :: p) :: ps

/-- `String`: dialogue_label.go:120-125 -/
def toStr (l : DialogueLabel) : Bytes :=
  joinBytes separator [l.reference.starter, l.reference.responder, l.opponent, l.starterAddr]

/-- `FromString`: dialogue_label.go:128-137. The Go method overwrites its receiver; here
the new value is returned. The error carries the number of parts found. -/
def fromStr (s : Bytes) : Res Nat DialogueLabel :=
  let result := splitBytes separator s
  match result with
  | [a, b, c, d] => .ok { reference := ⟨a, b⟩, opponent := c, starterAddr := d }
  | _ => .err result.length

end DialogueLabel

end Verif
