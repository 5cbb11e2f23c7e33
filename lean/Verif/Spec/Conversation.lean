import Verif.Spec.Dialogue

/-!
# Specification vocabulary for conversations between two agents

One agent has opened a dialogue, the other has accepted the opening message. They go on by plain
replies (`Reply` with the default target), and every message is delivered before the next one is
sent. Meanwhile both may be busy with third parties.
-/

namespace Verif

/-- The two ends of a dialogue. -/
inductive Side where
  | opener
  | responder
  deriving DecidableEq, Repr

/-- One message of the conversation: who speaks, and the performative. `nonce` is the random
value the receiver would draw if it had to create a dialogue. -/
structure Turn where
  side : Side
  performative : Bytes
  nonce : Bytes

/-- The turns of one side. -/
def turnsOf (x : Side) (ts : List Turn) : Nat := (ts.filter fun t => t.side == x).length

/-- `from` replies in its dialogue `p`; the other agent processes the message, which must end up
in its dialogue `q`. -/
def deliver (sender : Sys) (p : Ptr) (receiver : Sys) (q : Ptr) (perf nonce : Bytes) :
    Option (Sys × Sys) :=
  match sender.call (.reply p perf none none) with
  | (s1, .accepted _ (some m)) =>
    match receiver.call (.update m nonce) with
    | (s2, .accepted (some r) _) => if r = q then some (s1, s2) else none
    | _ => none
  | _ => none

/-- One turn: the pair is (opener, responder). -/
def speak (pA pB : Ptr) (x : Sys × Sys) (t : Turn) : Option (Sys × Sys) :=
  match t.side with
  | .opener => deliver x.1 pA x.2 pB t.performative t.nonce
  | .responder => (deliver x.2 pB x.1 pA t.performative t.nonce).map fun y => (y.2, y.1)

/-- The call is about the counterparty `x`. -/
def Concerns (x : Bytes) (s : Sys) : Call → Prop
  | .create cp _ _ => cp = x
  | .createWith cp _ => cp = x
  | .update m _ => m.sender = x
  | .reply p _ _ _ => ∀ d, s.heap[p]? = some d → d.label.opponent = x

/-- The call is about the dialogue with `x` whose opener chose the reference `n`. -/
def ConcernsDialogue (x n : Bytes) (s : Sys) : Call → Prop
  | .create cp _ nonce => cp = x ∧ nonce = n
  | .createWith cp m => cp = x ∧ m.reference.starter = n
  | .update m _ => m.sender = x ∧ m.reference.starter = n
  | .reply p _ _ _ => ∀ d, s.heap[p]? = some d →
      d.label.opponent = x ∧ d.label.reference.starter = n

/-- The call is not about the counterparty `x`. -/
def ThirdParty (x : Bytes) (s : Sys) (c : Call) : Prop := ∃ z, z ≠ x ∧ Concerns z s c

/-- The call is not about the dialogue with `x` whose opener chose the reference `n`; it may be about
another dialogue with `x`. -/
def OtherDialogue (x n : Bytes) (s : Sys) (c : Call) : Prop :=
  ∃ z k, (z ≠ x ∨ k ≠ n) ∧ ConcernsDialogue z k s c

/-- A conversation: the turns accepted so far and the states reached. Between turns the agents may
make other calls, restricted by `busyA` and `busyB`. -/
inductive ConversationAmid (busyA busyB : Sys → Call → Prop) (pA pB : Ptr) (start : Sys × Sys) :
    List Turn → Sys × Sys → Prop where
  | start : ConversationAmid busyA busyB pA pB start [] start
  | turn {ts : List Turn} {x y : Sys × Sys} (t : Turn) :
      ConversationAmid busyA busyB pA pB start ts x →
      speak pA pB x t = some y → ConversationAmid busyA busyB pA pB start (ts ++ [t]) y
  | openerBusy {ts : List Turn} {x : Sys × Sys} (c : Call) :
      ConversationAmid busyA busyB pA pB start ts x → busyA x.1 c → (x.1.call c).2 ≠ .crashed →
      ConversationAmid busyA busyB pA pB start ts ((x.1.call c).1, x.2)
  | responderBusy {ts : List Turn} {x : Sys × Sys} (c : Call) :
      ConversationAmid busyA busyB pA pB start ts x → busyB x.2 c → (x.2.call c).2 ≠ .crashed →
      ConversationAmid busyA busyB pA pB start ts (x.1, (x.2.call c).1)

/-- Between turns both agents may make any calls about third parties. -/
abbrev Conversation (a b : Bytes) (pA pB : Ptr) (start : Sys × Sys) :
    List Turn → Sys × Sys → Prop :=
  ConversationAmid (ThirdParty b) (ThirdParty a) pA pB start

/-- Which turn `t` can follow the turns `ts` (the opening message included): both rule tables
must allow the performative as a reply to the last one, and the speaker may change only if both
sides have spoken equally often, or to let the responder speak for the first time. -/
def MayFollow (rulesA rulesB : RulesDecl) (ts : List Turn) (t : Turn) : Prop :=
  ∃ last, ts.getLast? = some last ∧
    IsValidReply rulesA last.performative t.performative ∧
    IsValidReply rulesB last.performative t.performative ∧
    (t.side = last.side ∨ turnsOf .opener ts = turnsOf .responder ts ∨
      (t.side = .responder ∧ turnsOf .responder ts = 0))

/-- Every turn may follow the ones before it. -/
def Lawful (rulesA rulesB : RulesDecl) (opening : Turn) (ts : List Turn) : Prop :=
  ∀ pre t post, ts = pre ++ t :: post → MayFollow rulesA rulesB (opening :: pre) t

end Verif
