import Verif.Spec.Conversation

/-!
# Specification vocabulary for conversations whose messages travel

As in `Spec/Conversation.lean` one agent has opened a dialogue, the other has accepted the opening
message, and both go on by plain replies. But a message now takes its time: between being sent and
being processed, both agents may send further messages. The network delivers a message at most
once; it may delay it, overtake it by others, or lose it.
-/

namespace Verif.CrossTalk

/-- Two agents and the messages under way between them. -/
structure Pair where
  opener : Sys
  responder : Sys
  flying : List Message

/-- The message a call hands to the caller for sending. -/
def sent : Report → List Message
  | .accepted _ (some m) => [m]
  | _ => []

/-- `x` replies in its dialogue; an accepted message is under way. -/
def Pair.speak (pA pB : Ptr) (w : Pair) (x : Side) (perf : Bytes) : Pair × Report :=
  match x with
  | .opener =>
    let r := w.opener.call (.reply pA perf none none)
    ({ w with opener := r.1, flying := w.flying ++ sent r.2 }, r.2)
  | .responder =>
    let r := w.responder.call (.reply pB perf none none)
    ({ w with responder := r.1, flying := w.flying ++ sent r.2 }, r.2)

/-- `x` processes the message `m`, number `i` of those under way. -/
def Pair.hear (w : Pair) (x : Side) (i : Nat) (m : Message) (nonce : Bytes) : Pair × Report :=
  match x with
  | .opener =>
    let r := w.opener.call (.update m nonce)
    ({ w with opener := r.1, flying := w.flying.eraseIdx i }, r.2)
  | .responder =>
    let r := w.responder.call (.update m nonce)
    ({ w with responder := r.1, flying := w.flying.eraseIdx i }, r.2)

/-- The opener has recorded a message of the responder. -/
def Heard (pA : Ptr) (w : Pair) : Prop := ∃ d, w.opener.heap[pA]? = some d ∧ d.incoming ≠ []

/-- What can come about from `start`, as long as no call crashes its agent. `may` restricts what the
two say when, `busyA` and `busyB` what else they do meanwhile. -/
inductive TalkAmid (busyA busyB : Sys → Call → Prop) (a b : Bytes) (pA pB : Ptr)
    (may : Side → Bytes → Pair → Prop) (start : Pair) : Pair → Prop where
  | start : TalkAmid busyA busyB a b pA pB may start start
  | speaks {w : Pair} (x : Side) (perf : Bytes) : TalkAmid busyA busyB a b pA pB may start w →
      may x perf w → (w.speak pA pB x perf).2 ≠ .crashed →
      TalkAmid busyA busyB a b pA pB may start (w.speak pA pB x perf).1
  | hears {w : Pair} (x : Side) (i : Nat) (m : Message) (nonce : Bytes) :
      TalkAmid busyA busyB a b pA pB may start w → w.flying[i]? = some m →
      m.to = (match x with | .opener => a | .responder => b) →
      (w.hear x i m nonce).2 ≠ .crashed →
      TalkAmid busyA busyB a b pA pB may start (w.hear x i m nonce).1
  | lost {w : Pair} (i : Nat) : TalkAmid busyA busyB a b pA pB may start w →
      TalkAmid busyA busyB a b pA pB may start { w with flying := w.flying.eraseIdx i }
  | openerBusy {w : Pair} (c : Call) : TalkAmid busyA busyB a b pA pB may start w →
      busyA w.opener c → (w.opener.call c).2 ≠ .crashed →
      TalkAmid busyA busyB a b pA pB may start { w with opener := (w.opener.call c).1 }
  | responderBusy {w : Pair} (c : Call) : TalkAmid busyA busyB a b pA pB may start w →
      busyB w.responder c → (w.responder.call c).2 ≠ .crashed →
      TalkAmid busyA busyB a b pA pB may start { w with responder := (w.responder.call c).1 }

/-- Each may be busy with third parties at any time. -/
abbrev Talk (a b : Bytes) (pA pB : Ptr) (may : Side → Bytes → Pair → Prop) (start : Pair) :
    Pair → Prop :=
  TalkAmid (ThirdParty b) (ThirdParty a) a b pA pB may start

/-- Nothing is under way yet. -/
def atRest (x : Sys × Sys) : Pair := ⟨x.1, x.2, []⟩

/-- Saying `perf` does not make an agent drop the dialogue. -/
def Kept (keepA keepB : Bool) (rulesA rulesB : RulesDecl) (perf : Bytes) : Prop :=
  (perf ∈ rulesA.terminal → keepA = true) ∧ (perf ∈ rulesB.terminal → keepB = true)

/-- Each side has said more than either has heard. -/
def Apart (dA dB : Dialogue) : Prop :=
  dA.incoming.length < dA.outgoing.length ∧ dB.incoming.length < dA.outgoing.length ∧
  dA.incoming.length < dB.outgoing.length ∧ dB.incoming.length < dB.outgoing.length

/-- The agents say what they like, as long as it does not make them drop the dialogue. -/
def Anything (keepA keepB : Bool) (rulesA rulesB : RulesDecl) (_ : Side) (perf : Bytes)
    (_ : Pair) : Prop := Kept keepA keepB rulesA rulesB perf

/-- In addition the opener waits for the first answer. -/
def Waiting (keepA keepB : Bool) (rulesA rulesB : RulesDecl) (pA : Ptr) (x : Side) (perf : Bytes)
    (w : Pair) : Prop := Kept keepA keepB rulesA rulesB perf ∧ (x = .opener → Heard pA w)

end Verif.CrossTalk
