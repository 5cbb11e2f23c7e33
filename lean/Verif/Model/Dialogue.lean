import Verif.Model.Set
import Verif.Model.Label

/-!
# Messages and single dialogues

Model of /repo/libs/go/aealite/protocols/dialogue.go and of the message type of
message.go.

Simplifications:
* `MessageId` (Go `int`, 64 bit) is an unbounded integer. Wire messages carry
  `int32` ids, so the two differ only after 2^63 messages in one dialogue, or when
  a caller of `Reply` passes the target -2^63, whose absolute value is itself in Go.
* The message body (`map[string]interface{}`) is never read by this code and is left out.
* `role` is computed by a user function and never read; it is left out.
-/

namespace Verif

/-- `DialogueMessageWrapper`: message.go:51-60 -/
structure Message where
  to : Bytes
  sender : Bytes
  reference : DialogueReference
  messageId : Int
  target : Int
  performative : Bytes
  deriving DecidableEq, Repr

/-- Error returns of the dialogue layer, one constructor per error value in the Go code. -/
inductive DErr where
  | senderAlreadySet        -- message.go:90
  | toAlreadySet            -- message.go:102
  | notBelonging            -- dialogue.go:244
  | emptyReply              -- dialogue.go:299
  | targetMismatch          -- dialogue.go:316
  | noTargetMessage         -- dialogue.go:321
  | targetNotInDialogue     -- dialogue.go:325
  | wrongStarterReference   -- dialogue.go:374, 404
  | wrongStartingId         -- dialogue.go:381
  | badInitialPerformative  -- dialogue.go:391
  | wrongStartingTarget     -- dialogue.go:430
  | zeroTarget              -- dialogue.go:434
  | targetTooLarge          -- dialogue.go:448
  | targetNotFound          -- dialogue.go:454
  | badReplyPerformative    -- dialogue.go:461
  | wrongMessageId          -- dialogue.go:475
  | labelCannotBeUpdated    -- dialogue.go:531
  | notByOther              -- dialogues.go:157
  | toNotSet                -- dialogues.go:162
  | wrongTo                 -- dialogues.go:165
  | incompleteReference     -- dialogues.go:228
  | dialogueNotFound        -- dialogues.go:244
  | preassignedResponder    -- dialogues.go:307, 330
  | incompletePresent       -- dialogues.go:362
  | labelPresent            -- dialogues.go:372
  deriving DecidableEq, Repr

namespace Message

/-- `HasSender`: message.go:128-130 -/
def hasSender (m : Message) : Bool := m.sender != []

/-- `HasTo`: message.go:132-134. The Go code tests the *sender* field. -/
def hasTo (m : Message) : Bool := m.sender != []

/-- `SetSender`: message.go:88-94 -/
def setSender (m : Message) (a : Bytes) : Res DErr Message :=
  if m.sender ≠ [] then .err .senderAlreadySet else .ok { m with sender := a }

/-- `SetTo`: message.go:100-106 -/
def setTo (m : Message) (a : Bytes) : Res DErr Message :=
  if m.to ≠ [] then .err .toAlreadySet else .ok { m with to := a }

end Message

/-- `StartingMessageId`: dialogue.go:36 -/
def startingMessageId : Int := 1

/-- `StartingTarget`: dialogue.go:37 -/
def startingTarget : Int := 0

/-- `abs`: dialogue.go:54-59 -/
def absId (id : Int) : Int := if id < 0 then -id else id

/-- `max`: dialogue.go:44-52; `list[0]` panics on an empty list -/
def maxIds : List Int → Res DErr Int
  | [] => .panic
  | x :: xs => .ok (xs.foldl (fun m y => if m < y then y else m) x)

/-- The rule declaration given by the user: the three arguments of `NewRules`, dialogue.go:69-70. -/
structure RulesDecl where
  initial : List Bytes
  terminal : List Bytes
  validReplies : GoMap Bytes (List Bytes)

/-- `Rules`: dialogue.go:63-67 -/
structure Rules where
  initial : GSet Bytes
  terminal : GSet Bytes
  validReplies : GoMap Bytes (GSet Bytes)

/-- `NewRules`: dialogue.go:69-95 -/
def newRules (d : RulesDecl) : Rules where
  initial := d.initial.foldl GSet.add GSet.new
  terminal := d.terminal.foldl GSet.add GSet.new
  validReplies :=
    d.validReplies.entries.foldl
      (fun m e => m.set e.1 (e.2.foldl GSet.add GSet.new)) GoMap.empty

/-- `Dialogue`: dialogue.go:140-150. `callbacks` is the number of times the callback of
the store was registered (the only callbacks the library registers; callbacks a user
adds are assumed not to touch the store). -/
structure Dialogue where
  label : DialogueLabel
  selfAddress : Bytes
  outgoing : List Message
  incoming : List Message
  lastMessageId : Int
  orderedIds : List Int
  rules : Rules
  callbacks : Nat

namespace Dialogue

/-- `NewDialogue`: dialogue.go:537-555 -/
def new (label : DialogueLabel) (self : Bytes) (rules : RulesDecl) : Dialogue where
  label := label
  selfAddress := self
  outgoing := []
  incoming := []
  lastMessageId := 0
  orderedIds := []
  rules := newRules rules
  callbacks := 0

/-- `IsSelfInitiated`: dialogue.go:187-189 -/
def isSelfInitiated (d : Dialogue) : Bool := d.label.starterAddr != d.label.opponent

/-- `LastIncomingMessage`: dialogue.go:191-196 -/
def lastIncoming (d : Dialogue) : Option Message := d.incoming.getLast?

/-- `LastOutgoingMessage`: dialogue.go:198-203 -/
def lastOutgoing (d : Dialogue) : Option Message := d.outgoing.getLast?

/-- `LastMessage`: dialogue.go:205-215 -/
def lastMessage (d : Dialogue) : Option Message :=
  if d.lastMessageId = 0 then none
  else match d.lastIncoming with
    | some m => if m.messageId = d.lastMessageId then some m else d.lastOutgoing
    | none => d.lastOutgoing

/-- `isEmpty`: dialogue.go:217-219 -/
def isEmpty (d : Dialogue) : Bool := d.outgoing.length == 0 && d.incoming.length == 0

/-- `isMessageBySelf`: dialogue.go:228-230 -/
def isMessageBySelf (d : Dialogue) (m : Message) : Bool := m.sender == d.selfAddress

/-- `counterPartyFromMessage`: dialogue.go:221-226 -/
def counterParty (d : Dialogue) (m : Message) : Bytes :=
  if d.isMessageBySelf m then m.to else m.sender

/-- `checkLabelBelongsToDialogue`: dialogue.go:354-356 -/
def checkLabel (d : Dialogue) (l : DialogueLabel) : Bool :=
  l == d.label || l == d.label.incompleteVersion

/-- `isBelongingToDialogue`: dialogue.go:269-290 -/
def isBelonging (d : Dialogue) (m : Message) : Bool :=
  let opponent := d.counterParty m
  let label : DialogueLabel :=
    if d.isSelfInitiated then
      { reference := ⟨m.reference.starter, unassigned⟩
        opponent := opponent
        starterAddr := d.selfAddress }
    else
      { reference := m.reference
        opponent := opponent
        starterAddr := opponent }
  d.checkLabel label

/-- Indexing a Go slice: a negative or too large index panics. -/
def goIndex (l : List Message) (i : Int) : Res DErr Message :=
  if i < 0 then .panic
  else match l[i.toNat]? with
    | some m => .ok m
    | none => .panic

/-- `getMessageById`: dialogue.go:481-504; `ok none` is Go's `nil` result -/
def getMessageById (d : Dialogue) (id : Int) : Res DErr (Option Message) :=
  if d.isEmpty then .ok none
  else if id = 0 then .ok none
  else
    let messages := if decide (0 < id) = d.isSelfInitiated then d.outgoing else d.incoming
    match messages.getLast? with
    | none => .ok none
    | some last =>
      if absId last.messageId < absId id then .ok none
      else (goIndex messages (absId id - 1)).bind fun m => .ok (some m)

/-- `hasMessageId`: dialogue.go:232-235 -/
def hasMessageId (d : Dialogue) (id : Int) : Res DErr Bool :=
  (d.getMessageById id).bind fun m => .ok m.isSome

/-- `getOutgoingNextMessageId`: dialogue.go:506-515 -/
def nextOutgoingId (d : Dialogue) : Int :=
  let next := match d.lastOutgoing with
    | some m => absId m.messageId + 1
    | none => startingMessageId
  if d.isSelfInitiated then next else 0 - next

/-- `getIncomingNextMessageId`: dialogue.go:517-526. The Go code continues from the id of
the last message in *either* direction. -/
def nextIncomingId (d : Dialogue) : Int :=
  let next := match d.lastIncoming with
    | some _ => absId d.lastMessageId + 1
    | none => startingMessageId
  if d.isSelfInitiated then 0 - next else next

/-- `validateMessageTarget`: dialogue.go:422-464 -/
def validateMessageTarget (d : Dialogue) (m : Message) : Res DErr Unit :=
  if m.messageId = startingMessageId then
    if m.target = startingTarget then .ok () else .err .wrongStartingTarget
  else if m.target = startingTarget then .err .zeroTarget
  else
    let latestIds :=
      (match d.lastIncoming with | some x => [absId x.messageId] | none => []) ++
      (match d.lastOutgoing with | some x => [absId x.messageId] | none => [])
    (maxIds latestIds).bind fun mx =>
      if mx < absId m.target then .err .targetTooLarge
      else (d.getMessageById m.target).bind fun tm =>
        match tm with
        | none => .err .targetNotFound
        | some t =>
          let valid := match d.rules.validReplies.get t.performative with
            | some s => s.contains m.performative
            | none => false
          if valid then .ok () else .err .badReplyPerformative

/-- `validateMessageId`: dialogue.go:466-479 -/
def validateMessageId (d : Dialogue) (m : Message) : Res DErr Unit :=
  let isOutgoing := m.to != d.selfAddress
  let next := if isOutgoing then d.nextOutgoingId else d.nextIncomingId
  if m.messageId ≠ next then .err .wrongMessageId else .ok ()

/-- `basicValidationInitialMessage`: dialogue.go:365-395 -/
def validateInitial (d : Dialogue) (m : Message) : Res DErr Unit :=
  if d.label.reference.starter ≠ m.reference.starter then .err .wrongStarterReference
  else if m.messageId ≠ startingMessageId then .err .wrongStartingId
  else (d.validateMessageTarget m).bind fun _ =>
    if d.rules.initial.contains m.performative then .ok () else .err .badInitialPerformative

/-- `basicValidationNonInitialMessage`: dialogue.go:397-420 -/
def validateNonInitial (d : Dialogue) (m : Message) : Res DErr Unit :=
  if d.label.reference.starter ≠ m.reference.starter then .err .wrongStarterReference
  else (d.validateMessageId m).bind fun _ => d.validateMessageTarget m

/-- `validateNextMessage` / `basicValidation`: dialogue.go:344-363 -/
def validateNext (d : Dialogue) (m : Message) : Res DErr Unit :=
  if d.isEmpty then d.validateInitial m else d.validateNonInitial m

/-- The sender is filled in when missing: dialogue.go:238-241 -/
def withSender (d : Dialogue) (msg : Message) : Message :=
  if msg.hasSender then msg else { msg with sender := d.selfAddress }

/-- Recording an accepted message: dialogue.go:250-258 -/
def record (d : Dialogue) (m : Message) : Dialogue :=
  let d1 :=
    if d.isMessageBySelf m then { d with outgoing := d.outgoing ++ [m] }
    else { d with incoming := d.incoming ++ [m] }
  { d1 with lastMessageId := m.messageId
            orderedIds := d1.orderedIds ++ [m.messageId] }

/-- `update` without the callbacks: dialogue.go:237-260. Returns the new dialogue, the
message as recorded, and whether the terminal callbacks have to run (lines 261-265; they
are run by the store model, `Verif.Model.Dialogues`). On error the dialogue is unchanged. -/
def updateCore (d : Dialogue) (msg : Message) : Res DErr (Dialogue × Message × Bool) :=
  let m := d.withSender msg
  if ¬ d.isBelonging m then .err .notBelonging
  else (d.validateNext m).bind fun _ =>
    .ok (d.record m, m, d.rules.terminal.contains m.performative)

/-- The part of `Reply` before `update`: dialogue.go:297-335. Builds the reply message. -/
def replyMessage (d : Dialogue) (performative : Bytes) (targetMessage : Option Message)
    (targetPtr : Option Int) : Res DErr Message :=
  match d.lastMessage with
  | none => .err .emptyReply
  | some last =>
    let resolved : Res DErr (Int × Option Message) :=
      match targetMessage, targetPtr with
      | none, some t => (d.getMessageById t).bind fun tm => .ok (t, tm)
      | none, none => .ok (last.messageId, some last)
      | some tm, none => .ok (tm.messageId, some tm)
      | some tm, some t => if t ≠ tm.messageId then .err .targetMismatch else .ok (t, some tm)
    resolved.bind fun (target, tm) =>
      match tm with
      | none => .err .noTargetMessage
      | some _ =>
        (d.hasMessageId target).bind fun found =>
          if found then
            .ok { reference := d.label.reference
                  messageId := d.nextOutgoingId
                  sender := d.selfAddress
                  to := d.label.opponent
                  target := target
                  performative := performative }
          else .err .targetNotInDialogue

/-- `updateDialogueLabel`: dialogue.go:528-535 -/
def updateLabel (d : Dialogue) (final : DialogueLabel) : Res DErr Dialogue :=
  if d.label.reference.responder = unassigned ∧ final.reference.responder = unassigned then
    .err .labelCannotBeUpdated
  else .ok { d with label := final }

end Dialogue

end Verif
