import Verif.Model.Dialogue

/-!
# Dialogue store and dialogue collection

Model of /repo/libs/go/aealite/protocols/storage.go and dialogues.go.

Dialogues are shared by pointer between the store's two indices and the user, so they
live in a heap: a dialogue is named by its position in `heap`. Nothing is ever removed
from the heap (Go's garbage collector is invisible).

A call has a resulting state even when it returns an error, because the Go code
modifies the store before it detects some errors.
-/

namespace Verif

/-- Pointer to a dialogue: index into the heap. -/
abbrev Ptr := Nat

/-- State of `Dialogues` together with its `SimpleDialogueStorage` (dialogues.go:55-67,
storage.go:46-52). Go's back pointers between the two are implicit. -/
structure Sys where
  self : Bytes
  keepTerminal : Bool
  rules : RulesDecl
  heap : List Dialogue
  byLabel : GoMap DialogueLabel Ptr
  byAddress : GoMap Bytes (List Ptr)
  incomplete : GoMap DialogueLabel DialogueLabel
  terminal : GSet DialogueLabel

namespace Sys

/-- `NewDialogues`, `NewSimpleDialogueStorage`: dialogues.go:386-416, storage.go:166-175 -/
def new (self : Bytes) (keepTerminal : Bool) (rules : RulesDecl) : Sys where
  self := self
  keepTerminal := keepTerminal
  rules := rules
  heap := []
  byLabel := GoMap.empty
  byAddress := GoMap.empty
  incomplete := GoMap.empty
  terminal := GSet.new

/-- Write through a dialogue pointer. -/
def setHeap (s : Sys) (p : Ptr) (d : Dialogue) : Sys := { s with heap := s.heap.set p d }

/-- The value of a map entry that may be missing: Go's zero value, the nil slice. -/
def addressList (s : Sys) (a : Bytes) : List Ptr := (s.byAddress.get a).getD []

/-- `AddDialogue`: storage.go:87-98, for the dialogue at `p`. -/
def addDialogue (s : Sys) (p : Ptr) (d : Dialogue) : Sys :=
  let d := { d with callbacks := d.callbacks + 1 }
  { s with
    heap := s.heap.set p d
    byLabel := s.byLabel.set d.label p
    byAddress := s.byAddress.set d.label.opponent (s.addressList d.label.opponent ++ [p]) }

/-- Position at which the search loop of `removeDialogueFromArray` stops: storage.go:155-159.
If no element matches, Go's `index` variable holds the last position. -/
def searchIndex (heap : List Dialogue) (l : DialogueLabel) : List Ptr → Nat
  | [] => 0
  | [_] => 0
  | p :: q :: rest =>
    if (heap[p]?.map (·.label)) = some l then 0
    else searchIndex heap l (q :: rest) + 1

/-- `removeDialogueFromArray`: storage.go:152-162. On an empty array `array[index+1:]` is
out of range and panics. -/
def removeFromArray (heap : List Dialogue) (array : List Ptr) (l : DialogueLabel) :
    Res DErr (List Ptr) :=
  let index := searchIndex heap l array
  if array.length < index + 1 then .panic
  else .ok (array.take index ++ array.drop (index + 1))

/-- `RemoveDialogue`: storage.go:99-112. `none` is a panic. -/
def removeDialogue (s : Sys) (l : DialogueLabel) : Res DErr Sys :=
  let ok := s.byLabel.has l
  let s1 := { s with
    byLabel := s.byLabel.erase l
    incomplete := s.incomplete.erase l
    terminal := s.terminal.remove l }
  if ok then
    (removeFromArray s1.heap (s1.addressList l.opponent) l).bind fun arr =>
      .ok { s1 with byAddress := s1.byAddress.set l.opponent arr }
  else .ok s1

/-- `DialogueTerminalStateCallback`: storage.go:80-86 -/
def terminalCallback (s : Sys) (l : DialogueLabel) : Res DErr Sys :=
  if s.keepTerminal then .ok { s with terminal := s.terminal.add l }
  else s.removeDialogue l

/-- Running the registered callbacks: dialogue.go:262-264. -/
def runCallbacks (s : Sys) (l : DialogueLabel) : Nat → Res DErr Sys
  | 0 => .ok s
  | n + 1 => (s.terminalCallback l).bind fun s' => runCallbacks s' l n

/-- `GetDialogue` of the store: storage.go:113-115, and `GetDialogueFromLabel`: dialogues.go:295-297; `none` is nil -/
def getByLabel (s : Sys) (l : DialogueLabel) : Option Ptr := s.byLabel.get l

/-- `GetDialoguesWithCounterparty`: storage.go:117-123 and dialogues.go:80-82 -/
def withCounterparty (s : Sys) (a : Bytes) : List Ptr := s.addressList a

/-- `IsInIncomplete`: storage.go:124-127 -/
def isInIncomplete (s : Sys) (l : DialogueLabel) : Bool := s.incomplete.has l

/-- `SetIncompleteDialogue`: storage.go:129-134 -/
def setIncomplete (s : Sys) (i c : DialogueLabel) : Sys :=
  { s with incomplete := s.incomplete.set i c }

/-- `IsDialoguePresent`: storage.go:135-138 -/
def isPresent (s : Sys) (l : DialogueLabel) : Bool := s.byLabel.has l

/-- `GetLatestLabel`: storage.go:140-148, and `getLatestLabel`: dialogues.go:291-293 -/
def latestLabel (s : Sys) (l : DialogueLabel) : DialogueLabel :=
  match s.incomplete.get l with
  | some r => r
  | none => l

/-- `GetDialoguesInTerminalState`: storage.go:56-66 -/
def inTerminalState (s : Sys) : List Ptr :=
  s.terminal.toArray.filterMap fun l => s.byLabel.get l

/-- `GetDialoguesInActiveState`: storage.go:68-76 -/
def inActiveState (s : Sys) : List Ptr :=
  (s.byLabel.entries.filter fun e => !s.terminal.contains e.1).map (·.2)

/-- `dialogue.update` through a pointer, with callbacks: dialogue.go:237-267.
A pointer outside the heap cannot exist in Go; it is treated as a nil dereference. -/
def dialogueUpdate (s : Sys) (p : Ptr) (m : Message) : Sys × Res DErr Message :=
  match s.heap[p]? with
  | none => (s, .panic)
  | some d =>
    match d.updateCore m with
    | .panic => (s, .panic)
    | .err e => (s, .err e)
    | .ok (d', m', isTerminal) =>
      let s1 := s.setHeap p d'
      if isTerminal then
        match s1.runCallbacks d'.label d'.callbacks with
        | .ok s2 => (s2, .ok m')
        | .err e => (s1, .err e)
        | .panic => (s1, .panic)
      else (s1, .ok m')

/-- `create`: dialogues.go:355-384 -/
def create (s : Sys) (incompleteLabel : DialogueLabel) (completeLabel : Option DialogueLabel) :
    Sys × Res DErr Ptr :=
  if s.isInIncomplete incompleteLabel then (s, .err .incompletePresent)
  else
    let (s1, label) := match completeLabel with
      | none => (s, incompleteLabel)
      | some c => (s.setIncomplete incompleteLabel c, c)
    if s1.isPresent label then (s1, .err .labelPresent)
    else
      let d := Dialogue.new label s1.self s1.rules
      let p := s1.heap.length
      let s2 := { s1 with heap := s1.heap ++ [d] }
      (s2.addDialogue p d, .ok p)

/-- `createSelfInitiated`: dialogues.go:299-321 -/
def createSelfInitiated (s : Sys) (opponent : Bytes) (ref : DialogueReference) :
    Sys × Res DErr Ptr :=
  if ref.starter ≠ unassigned ∧ ref.responder = unassigned then
    s.create { reference := ref, opponent := opponent, starterAddr := s.self } none
  else (s, .err .preassignedResponder)

/-- `createOpponentInitiated`: dialogues.go:323-353; `nonce` is the value
`generateDialogueNonce()` returns, dialogues.go:38-49 (empty when the random source fails, dialogues.go:45-47) -/
def createOpponentInitiated (s : Sys) (opponent : Bytes) (ref : DialogueReference)
    (nonce : Bytes) : Sys × Res DErr Ptr :=
  if ref.starter ≠ unassigned ∧ ref.responder = unassigned then
    s.create { reference := ref, opponent := opponent, starterAddr := opponent }
      (some { reference := ⟨ref.starter, nonce⟩, opponent := opponent, starterAddr := opponent })
  else (s, .err .preassignedResponder)

/-- `createDialogue`: dialogues.go:137-153; `ok none` is the `nil, nil` return of line 150 -/
def createDialogue (s : Sys) (counterparty : Bytes) (initial : Message) :
    Sys × Res DErr (Option Ptr) :=
  match s.createSelfInitiated counterparty initial.reference with
  | (s1, .err e) => (s1, .err e)
  | (s1, .panic) => (s1, .panic)
  | (s1, .ok p) =>
    match s1.dialogueUpdate p initial with
    | (s2, .ok _) => (s2, .ok (some p))
    | (s2, .err _) => (s2, .ok none)
    | (s2, .panic) => (s2, .panic)

/-- `Create`: dialogues.go:99-120; returns the message and the dialogue pointer. The
errors of `SetSender`/`SetTo` on the fresh message are ignored there because its fields
are empty. -/
def createNew (s : Sys) (counterparty performative nonce : Bytes) :
    Sys × Res DErr (Message × Option Ptr) :=
  let initial : Message :=
    { to := counterparty, sender := s.self, reference := ⟨nonce, unassigned⟩,
      messageId := startingMessageId, target := startingTarget, performative := performative }
  match s.createDialogue counterparty initial with
  | (s1, .ok p) => (s1, .ok (initial, p))
  | (s1, .err e) => (s1, .err e)
  | (s1, .panic) => (s1, .panic)

/-- `CreateWithMessage`: dialogues.go:122-135 -/
def createWithMessage (s : Sys) (counterparty : Bytes) (initial : Message) :
    Sys × Res DErr (Option Ptr) :=
  match initial.setSender s.self with
  | .err e => (s, .err e)
  | .panic => (s, .panic)
  | .ok m1 =>
    match m1.setTo counterparty with
    | .err e => (s, .err e)
    | .panic => (s, .panic)
    | .ok m2 => s.createDialogue counterparty m2

/-- `counterpartyFromMessage`: dialogues.go:92-97 -/
def counterparty (s : Sys) (m : Message) : Bytes := if m.sender == s.self then m.to else m.sender

/-- `GetDialogue`: dialogues.go:264-289 -/
def getDialogue (s : Sys) (m : Message) : Option Ptr :=
  let cp := s.counterparty m
  let selfLabel : DialogueLabel := { reference := m.reference, opponent := cp, starterAddr := s.self }
  let otherLabel : DialogueLabel := { reference := m.reference, opponent := cp, starterAddr := cp }
  match s.getByLabel (s.latestLabel selfLabel) with
  | some p => some p
  | none => s.getByLabel (s.latestLabel otherLabel)

/-- `completeDialogueReference`: dialogues.go:223-262 -/
def completeReference (s : Sys) (m : Message) : Sys × Res DErr Unit :=
  let starterRef := m.reference.starter
  let responderRef := m.reference.responder
  if ¬ (starterRef ≠ unassigned ∧ responderRef ≠ unassigned) then (s, .err .incompleteReference)
  else
    let inc : DialogueLabel :=
      { reference := ⟨starterRef, unassigned⟩, opponent := m.sender, starterAddr := s.self }
    if s.isPresent inc && !s.isInIncomplete inc then
      match s.getByLabel inc with
      | none => (s, .err .dialogueNotFound)
      | some p =>
        match s.removeDialogue inc with
        | .panic => (s, .panic)
        | .err e => (s, .err e)
        | .ok s1 =>
          let final : DialogueLabel :=
            { reference := m.reference, opponent := inc.opponent, starterAddr := inc.starterAddr }
          match s1.heap[p]? with
          | none => (s1, .panic)
          | some d =>
            match d.updateLabel final with
            | .panic => (s1, .panic)
            | .err e => (s1, .err e)
            | .ok d1 => ((s1.addDialogue p d1).setIncomplete inc final, .ok ())
    else (s, .ok ())

/-- The last part of `Update`, for the dialogue found or created: dialogues.go:204-219 -/
def updateFound (s : Sys) (m : Message) (isNew : Bool) (found : Option Ptr) :
    Sys × Res DErr (Option Ptr) :=
  match found with
  | none => (s, .ok none)
  | some p =>
    match s.dialogueUpdate p m with
    | (s1, .ok _) => (s1, .ok (some p))
    | (s1, .panic) => (s1, .panic)
    | (s1, .err e) =>
      if isNew then
        match s1.heap[p]? with
        | none => (s1, .panic)
        | some d =>
          match s1.removeDialogue d.label with
          | .ok s2 => (s2, .err e)
          | .err e' => (s1, .err e')
          | .panic => (s1, .panic)
      else (s1, .err e)

/-- `Update`: dialogues.go:155-221; `ok none` is the `nil, nil` return. -/
def update (s : Sys) (m : Message) (nonce : Bytes) : Sys × Res DErr (Option Ptr) :=
  if ¬ (m.hasSender ∧ m.sender ≠ s.self) then (s, .err .notByOther)
  else if ¬ m.hasTo then (s, .err .toNotSet)
  else if m.to ≠ s.self then (s, .err .wrongTo)
  else
    let starterRefAssigned := m.reference.starter != unassigned
    let responderRefAssigned := m.reference.responder != unassigned
    let isStartingMsgId := m.messageId == startingMessageId
    let isStartingTarget := m.messageId == startingTarget
    let isInvalidLabel := !starterRefAssigned && responderRefAssigned
    let isNewDialogue := starterRefAssigned && !responderRefAssigned && isStartingMsgId
    let isIncompleteNotInitial :=
      starterRefAssigned && !responderRefAssigned && !isStartingMsgId && !isStartingTarget
    if isInvalidLabel then s.updateFound m isNewDialogue none
    else if isNewDialogue then
      match s.createOpponentInitiated m.sender m.reference nonce with
      | (s1, .ok p) => s1.updateFound m isNewDialogue (some p)
      | (s1, .err e) => (s1, .err e)
      | (s1, .panic) => (s1, .panic)
    else if isIncompleteNotInitial then s.updateFound m isNewDialogue (s.getDialogue m)
    else
      match s.completeReference m with
      | (s1, .ok _) => s1.updateFound m isNewDialogue (s1.getDialogue m)
      | (s1, .err e) => (s1, .err e)
      | (s1, .panic) => (s1, .panic)

/-- `Reply`: dialogue.go:292-342, on the dialogue at `p` -/
def reply (s : Sys) (p : Ptr) (performative : Bytes) (targetMessage : Option Message)
    (targetPtr : Option Int) : Sys × Res DErr Message :=
  match s.heap[p]? with
  | none => (s, .panic)
  | some d =>
    match d.replyMessage performative targetMessage targetPtr with
    | .panic => (s, .panic)
    | .err e => (s, .err e)
    | .ok m => s.dialogueUpdate p m

end Sys

/-- One call of the public API. `nonce` is the random value drawn during the call. -/
inductive Call where
  | create (counterparty performative nonce : Bytes)
  | createWith (counterparty : Bytes) (initial : Message)
  | update (m : Message) (nonce : Bytes)
  | reply (p : Ptr) (performative : Bytes) (targetMessage : Option Message) (targetPtr : Option Int)

/-- What a call reports to its caller. -/
inductive Report where
  | accepted (p : Option Ptr) (m : Option Message)
  | failed (e : DErr)
  | crashed
  deriving DecidableEq, Repr

/-- The reported outcome of a call result. -/
def Res.report {α : Type} (f : α → Report) : Res DErr α → Report
  | .ok a => f a
  | .err e => .failed e
  | .panic => .crashed

/-- Executing one API call. -/
def Sys.call (s : Sys) : Call → Sys × Report
  | .create cp perf nonce =>
    let (s', r) := s.createNew cp perf nonce
    (s', r.report fun (m, p) => .accepted p (some m))
  | .createWith cp m =>
    let (s', r) := s.createWithMessage cp m
    (s', r.report fun p => .accepted p none)
  | .update m nonce =>
    let (s', r) := s.update m nonce
    (s', r.report fun p => .accepted p none)
  | .reply p perf tm t =>
    let (s', r) := s.reply p perf tm t
    (s', r.report fun m => .accepted (some p) (some m))

/-- States an agent can be in: after `NewDialogues` and any finite history of API calls,
none of which crashed the process. `Reply` needs a dialogue pointer, so its argument is
one that exists. -/
inductive Reachable (self : Bytes) (keep : Bool) (rules : RulesDecl) : Sys → Prop where
  | init : Reachable self keep rules (Sys.new self keep rules)
  | step {s : Sys} (c : Call) : Reachable self keep rules s → (s.call c).2 ≠ .crashed →
      Reachable self keep rules (s.call c).1

end Verif
