import Verif.Model.Dialogues

/-!
# Specification vocabulary for dialogues

Independent of the validation code: a dialogue is a sequence of accepted messages, and
the declared rules say which sequences are allowed.
-/

namespace Verif

/-- `ms` is the sequence of messages, in the order of acceptance, that the dialogue records:
its three observable records (own messages, counterparty's messages, ids in order) are
projections of `ms`. -/
structure IsHistory (me : Bytes) (d : Dialogue) (ms : List Message) : Prop where
  outgoing : d.outgoing = ms.filter (fun m => m.sender == me)
  incoming : d.incoming = ms.filter (fun m => m.sender != me)
  ids : d.orderedIds = ms.map (fun m => m.messageId)

/-- `p` is declared as a valid reply to `t`. -/
def IsValidReply (rules : RulesDecl) (t p : Bytes) : Prop :=
  ∃ l, rules.validReplies.get t = some l ∧ p ∈ l

/-- A message sequence allowed by the declared rules. -/
structure FollowsRules (rules : RulesDecl) (ms : List Message) : Prop where
  first : ∀ m rest, ms = m :: rest →
    m.messageId = 1 ∧ m.target = 0 ∧ m.performative ∈ rules.initial
  later : ∀ pre m post, ms = pre ++ m :: post → pre ≠ [] →
    m.target ≠ 0 ∧ ∃ t ∈ pre, IsValidReply rules t.performative m.performative

/-- The agent itself opened the dialogue. -/
def OpenedBySelf (me : Bytes) (d : Dialogue) : Prop := d.label.starterAddr = me

/-- Own messages carry the ids 1,2,3,... (if the agent opened the dialogue) or -1,-2,-3,... -/
def OwnIdsConsecutive (me : Bytes) (d : Dialogue) : Prop :=
  ∀ (i : Nat) (m : Message), d.outgoing[i]? = some m →
    (OpenedBySelf me d → m.messageId = (i : Int) + 1) ∧
    (¬ OpenedBySelf me d → m.messageId = -((i : Int) + 1))

/-- The counterparty's messages carry the ids -1,-2,-3,... (if the agent opened the
dialogue) or 1,2,3,... -/
def PeerIdsConsecutive (me : Bytes) (d : Dialogue) : Prop :=
  ∀ (i : Nat) (m : Message), d.incoming[i]? = some m →
    (OpenedBySelf me d → m.messageId = -((i : Int) + 1)) ∧
    (¬ OpenedBySelf me d → m.messageId = (i : Int) + 1)

/-- The numbering of the counterparty's messages that the library really enforces, for the
messages `ms` of a dialogue in the order of acceptance. `self` says that the agent opened the
dialogue. Apart from the very first message of the dialogue, the counterparty's first message
has the id ±1, and every further one continues from the id of the message recorded just
before it, *whoever sent that*. -/
def IncomingLaw (me : Bytes) (self : Prop) (ms : List Message) : Prop :=
  ∀ pre m post, ms = pre ++ m :: post → m.sender ≠ me → ∀ last, pre.getLast? = some last →
    ((∀ x ∈ pre, x.sender = me) → m.messageId.natAbs = 1) ∧
    ((∃ x ∈ pre, x.sender ≠ me) → m.messageId.natAbs = last.messageId.natAbs + 1) ∧
    (self → m.messageId < 0) ∧ (¬ self → 0 < m.messageId)

/-- Two dialogue values record the same messages. -/
structure SameMessages (d d' : Dialogue) : Prop where
  outgoing : d'.outgoing = d.outgoing
  incoming : d'.incoming = d.incoming
  ids : d'.orderedIds = d.orderedIds
  last : d'.lastMessageId = d.lastMessageId

/-- `s'` is reached from `s` by finitely many calls, none of which crashed the process and
each of which satisfies `P` at the time it is made. -/
inductive Later (P : Sys → Call → Prop) : Sys → Sys → Prop where
  | refl (s : Sys) : Later P s s
  | step {s s1 : Sys} (c : Call) : Later P s s1 → P s1 c → (s1.call c).2 ≠ .crashed →
      Later P s (s1.call c).1

/-- No restriction on the calls. -/
def AnyCall : Sys → Call → Prop := fun _ _ => True

/-- The random source works: the reference drawn while processing a message is not empty. -/
def NonceWorks : Sys → Call → Prop
  | _, .update _ nonce => nonce ≠ []
  | _, _ => True

/-- The call reports that it did not accept a message. -/
def Report.isRefusal : Report → Prop
  | .failed _ => True
  | .accepted none _ => True
  | _ => False

/-- Everything the agent can observe about dialogues with counterparties other than `x` is
the same in `s'` as in `s`. -/
structure OthersUntouched (x : Bytes) (s s' : Sys) : Prop where
  /-- the dialogue objects -/
  dialogues : ∀ (p : Nat) (d : Dialogue), s.heap[p]? = some d → d.label.opponent ≠ x →
    s'.heap[p]? = some d
  /-- look-up by label -/
  byLabel : ∀ l : DialogueLabel, l.opponent ≠ x → s'.getByLabel l = s.getByLabel l
  /-- the list of dialogues of a counterparty -/
  byCounterparty : ∀ a : Bytes, a ≠ x → s'.withCounterparty a = s.withCounterparty a
  /-- look-up by message -/
  byMessage : ∀ m : Message, s.counterparty m ≠ x → s'.getDialogue m = s.getDialogue m
  /-- terminal or not -/
  terminal : ∀ l : DialogueLabel, l.opponent ≠ x →
    s'.terminal.contains l = s.terminal.contains l

/-- `Reply` is only called on dialogues that are in the store or whose reference is complete;
in particular not on a dialogue that was terminated and dropped before the counterparty
answered. -/
def Orderly : Sys → Call → Prop
  | s, .reply p _ _ _ => ∀ d, s.heap[p]? = some d →
      s.getByLabel d.label = some p ∨ d.label.reference.responder ≠ []
  | _, _ => True

/-- The dialogue at `p` is in the store. -/
def Stored (s : Sys) (p : Ptr) : Prop := ∃ l, s.getByLabel l = some p

/-- `m` is an opening message of another agent for the agent `me`. -/
structure IsOpening (me : Bytes) (m : Message) : Prop where
  sender : m.sender ≠ [] ∧ m.sender ≠ me
  receiver : m.to = me
  reference : m.reference.starter ≠ [] ∧ m.reference.responder = []
  id : m.messageId = 1

/-- Everything the agent can observe through the store is the same in `s'` as in `s`: the
existing dialogues, look-up by label, the lists per counterparty, and which dialogues are
active or terminal. -/
structure SameView (s s' : Sys) : Prop where
  dialogues : ∀ (p : Nat) (d : Dialogue), s.heap[p]? = some d → s'.heap[p]? = some d
  byLabel : ∀ l, s'.getByLabel l = s.getByLabel l
  byCounterparty : ∀ a, s'.withCounterparty a = s.withCounterparty a
  active : ∀ p, p ∈ s'.inActiveState ↔ p ∈ s.inActiveState
  terminal : ∀ p, p ∈ s'.inTerminalState ↔ p ∈ s.inTerminalState

end Verif
