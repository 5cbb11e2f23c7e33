import Verif.Lemmas.Accept
import Verif.Props.AgentToAgent
import Verif.Props.Messages
import Verif.Props.Dialogue1

/-!
# Property C132

What a dialogue has recorded of the other agent is what the dialogues of that agent have said, in this order and
each message at most once: the store of dialogues, the envelope around a message and the way of envelopes from
agent to agent put together.
-/

namespace Verif

open Acn

/-! ## What the dialogues of one agent take and say -/

/-- The message that a dialogue of the agent has taken in a call, with the dialogue. -/
def taken (s : Sys) (c : Call) : List (Ptr × Message) :=
  match c, (s.call c).2 with
  | .update m _, .accepted (some p) _ => [(p, m)]
  | _, _ => []

/-- The message that a dialogue of the agent has said in a call, with the dialogue. -/
def uttered (s : Sys) (c : Call) : List (Ptr × Message) :=
  match c, (s.call c).2 with
  | .create _ _ _, .accepted (some p) (some m) => [(p, m)]
  | .createWith other m, .accepted (some p) _ => [(p, { m with sender := s.self, to := other })]
  | .reply p _ _ _, .accepted _ (some m) => [(p, m)]
  | _, _ => []

/-- Calls one after the other. -/
def afterCalls (s : Sys) : List Call → Sys
  | [] => s
  | c :: cs => afterCalls (s.call c).1 cs

/-- None of them crashes. -/
def Unhurt (s : Sys) : List Call → Prop
  | [] => True
  | c :: cs => (s.call c).2 ≠ .crashed ∧ Unhurt (s.call c).1 cs

/-- What the dialogues have taken. -/
def allTaken (s : Sys) : List Call → List (Ptr × Message)
  | [] => []
  | c :: cs => taken s c ++ allTaken (s.call c).1 cs

/-- What the dialogues have said. -/
def allSaid (s : Sys) : List Call → List (Ptr × Message)
  | [] => []
  | c :: cs => uttered s c ++ allSaid (s.call c).1 cs

/-- What the agent was given. -/
def givenTo (cs : List Call) : List Message :=
  cs.filterMap fun | .update m _ => some m | _ => none

/-- The part that belongs to one dialogue. -/
def inDialogue (p : Ptr) (l : List (Ptr × Message)) : List Message := (l.filter (·.1 == p)).map (·.2)

theorem inDialogue_append (p : Ptr) (l l' : List (Ptr × Message)) :
    inDialogue p (l ++ l') = inDialogue p l ++ inDialogue p l' := by
  simp [inDialogue]

/-- The messages of the dialogues in a heap: taken and said. -/
def logs (h : List Dialogue) (p : Ptr) : List Message × List Message :=
  match h[p]? with
  | some d => (d.incoming, d.outgoing)
  | none => ([], [])

theorem logs_append {h : List Dialogue} {d : Dialogue} (h1 : d.incoming = []) (h2 : d.outgoing = []) :
    logs (h ++ [d]) = logs h := by
  funext p
  unfold logs
  by_cases hp : p < h.length
  · rw [List.getElem?_append_left hp]
  · have hp := Nat.le_of_not_lt hp
    rw [List.getElem?_append_right hp, List.getElem?_eq_none (l := h) hp]
    cases hx : p - h.length with
    | zero => simp [h1, h2]
    | succ n => simp

theorem logs_set {h : List Dialogue} {p : Ptr} {d d' : Dialogue} (hd : h[p]? = some d) :
    logs (h.set p d') = fun q => if q = p then (d'.incoming, d'.outgoing) else logs h q := by
  funext q
  unfold logs
  by_cases hq : q = p
  · subst hq
    rw [getElem?_set_self_of_some hd, if_pos rfl]
  · rw [List.getElem?_set_ne (fun e => hq e.symm), if_neg hq]

namespace Sys

theorem create_logs {s s' : Sys} {i : DialogueLabel} {c : Option DialogueLabel} {r : Res DErr Ptr}
    (h : s.create i c = (s', r)) : logs s'.heap = logs s.heap := by
  cases r with
  | ok p => rw [(Sys.create_heap h).2.1]; exact logs_append rfl rfl
  | err e =>
    rcases Sys.create_cases h with ⟨_, rfl, _⟩ | ⟨_, rfl, _⟩ | ⟨h, _⟩
    · rfl
    · cases c <;> rfl
    · simp at h
  | panic => rcases Sys.create_cases h with ⟨h, _⟩ | ⟨h, _⟩ | ⟨h, _⟩ <;> simp at h

theorem createSelfInitiated_logs {s s' : Sys} {o : Bytes} {ref : DialogueReference} {r : Res DErr Ptr}
    (h : s.createSelfInitiated o ref = (s', r)) : logs s'.heap = logs s.heap := by
  rcases createSelfInitiated_cases h with ⟨_, rfl⟩ | ⟨_, _, h⟩
  · rfl
  · exact create_logs h

theorem createOpponentInitiated_logs {s s' : Sys} {o n : Bytes} {ref : DialogueReference} {r : Res DErr Ptr}
    (h : s.createOpponentInitiated o ref n = (s', r)) : logs s'.heap = logs s.heap := by
  rcases createOpponentInitiated_cases h with ⟨_, rfl⟩ | ⟨_, _, h⟩
  · rfl
  · exact create_logs h

theorem completeReference_logs {s s' : Sys} {m : Message} {r : Res DErr Unit}
    (h : s.completeReference m = (s', r)) (hr : r ≠ .panic) : logs s'.heap = logs s.heap := by
  rcases completeReference_cases h with hp | ⟨e, rfl, _⟩ | ⟨_, _, _, rfl | ⟨p, s1, d, hp, _, hrm, hd, rfl⟩⟩
  · exact absurd hp hr
  · rw [completeReference_err h]
  · rfl
  · have hheap := (removeDialogue_ok hrm).2.2.2.1
    show logs (s1.heap.set p _) = _
    rw [logs_set hd, hheap]
    funext q
    by_cases hq : q = p
    · subst hq
      rw [if_pos rfl]
      rw [hheap] at hd
      simp [logs, hd]
    · rw [if_neg hq]

/-- A message by the agent itself is said, one by another is taken. -/
theorem dialogueUpdate_logs {me : Bytes} {keep : Bool} {rules : RulesDecl} {s s' : Sys} {p : Ptr}
    {m m' : Message} (hi : SInv me keep rules s) (h : s.dialogueUpdate p m = (s', .ok m'))
    (hs : m.sender ≠ [] ∨ m.sender = me) :
    m' = m ∧ logs s'.heap = fun q => if q = p then
        if m.sender = me then ((logs s.heap p).1, (logs s.heap p).2 ++ [m])
        else ((logs s.heap p).1 ++ [m], (logs s.heap p).2)
      else logs s.heap q := by
  obtain ⟨d, d', t, hd, hc, hheap⟩ := dialogueUpdate_ok h
  obtain ⟨h1, _, _, _, h5⟩ := Dialogue.updateCore_ok hc
  have hm : m' = m := by
    rw [h1]
    unfold Dialogue.withSender Message.hasSender
    split
    · rfl
    · rename_i hn
      rcases hs with hs | hs
      · exact absurd (by simpa using hs) hn
      · rw [(hi.heap p d hd).selfAddr, ← hs]
  subst hm
  refine ⟨rfl, ?_⟩
  rw [hheap, logs_set hd, h5, Dialogue.record_eq, (hi.heap p d hd).selfAddr]
  funext q
  by_cases hq : q = p
  · rw [if_pos hq, if_pos hq]
    simp only [logs, hd]
    split <;> rfl
  · rw [if_neg hq, if_neg hq]

theorem createDialogue_logs {me : Bytes} {keep : Bool} {rules : RulesDecl} {s s' : Sys} {cp : Bytes} {m : Message}
    {r : Res DErr (Option Ptr)} (hi : SInv me keep rules s) (hs : m.sender = me)
    (h : s.createDialogue cp m = (s', r)) (hr : r ≠ .panic) :
    logs s'.heap = fun q => ((logs s.heap q).1, (logs s.heap q).2 ++ if r = .ok (some q) then [m] else []) := by
  rcases createDialogue_cases h with ⟨e, rfl, h'⟩ | hp | ⟨s1, p, hc, h⟩
  · rw [createSelfInitiated_logs h']; simp
  · exact absurd hp hr
  · have hl := createSelfInitiated_logs hc
    have hi1 : SInv me keep rules s1 := hi.createSelfInitiated hc
    rcases h with ⟨m', hu, rfl⟩ | ⟨e, hu, rfl⟩
    · rw [(dialogueUpdate_logs hi1 hu (.inr hs)).2, hl, hs]
      funext q
      by_cases hq : q = p
      · subst hq; simp
      · simp [hq, Ne.symm hq]
    · rw [dialogueUpdate_err hu, hl]; simp

theorem updateFound_logs {me : Bytes} {keep : Bool} {rules : RulesDecl} {s s' : Sys} {m : Message} {isNew : Bool}
    {f : Option Ptr} {r : Res DErr (Option Ptr)} (hi : SInv me keep rules s) (hs : m.sender ≠ me)
    (hn : m.sender ≠ []) (h : s.updateFound m isNew f = (s', r)) (hr : r ≠ .panic) :
    logs s'.heap = fun q => ((logs s.heap q).1 ++ (if r = .ok (some q) then [m] else []), (logs s.heap q).2) := by
  rcases updateFound_cases h with ⟨_, rfl, rfl⟩ | hp | ⟨p, _, ⟨m', hu, rfl⟩ | ⟨e, _, rfl, ⟨_, rfl⟩ | ⟨_, d, _, hrm⟩⟩⟩
  · simp
  · exact absurd hp hr
  · rw [(dialogueUpdate_logs hi hu (.inl hn)).2]
    funext q
    by_cases hq : q = p
    · subst hq; simp [hs]
    · simp [hq, Ne.symm hq]
  · simp
  · rw [(removeDialogue_ok hrm).2.2.2.1]; simp

theorem update_logs {me : Bytes} {keep : Bool} {rules : RulesDecl} {s s' : Sys} {m : Message} {n : Bytes}
    {r : Res DErr (Option Ptr)} (hi : SInv me keep rules s) (h : s.update m n = (s', r)) (hr : r ≠ .panic) :
    logs s'.heap = fun q => ((logs s.heap q).1 ++ (if r = .ok (some q) then [m] else []), (logs s.heap q).2) := by
  rcases update_cases h with ⟨_, rfl, rfl, _⟩ | ⟨hn, hs, _, hcase⟩
  · simp
  rw [hi.selfEq] at hs
  rcases hcase with ⟨_, _, rfl, rfl⟩ | ⟨_, _, _, ⟨s1, p, hc, hf⟩ | ⟨e, hc, rfl⟩ | ⟨_, hp⟩⟩ |
    ⟨_, _, _, _, hf⟩ | ⟨_, ⟨s1, hc, hf⟩ | ⟨e, hc, rfl⟩ | ⟨_, hp⟩⟩
  · simp
  · rw [updateFound_logs (hi.createOpponentInitiated hs hc) hs hn hf hr, createOpponentInitiated_logs hc]
  · rw [createOpponentInitiated_logs hc]; simp
  · exact absurd hp hr
  · exact updateFound_logs hi hs hn hf hr
  · rw [updateFound_logs (hi.completeReference hc (by simp)) hs hn hf hr, completeReference_logs hc (by simp)]
  · rw [completeReference_logs hc (by simp)]; simp
  · exact absurd hp hr

/-- What a call adds to the dialogues is what they take and say in it. -/
theorem call_logs {me : Bytes} {keep : Bool} {rules : RulesDecl} {s : Sys} (hi : SInv me keep rules s) (c : Call)
    (hc : (s.call c).2 ≠ .crashed) (q : Ptr) :
    logs (s.call c).1.heap q =
      ((logs s.heap q).1 ++ inDialogue q (taken s c), (logs s.heap q).2 ++ inDialogue q (uttered s c)) := by
  cases c with
  | create cp perf nonce =>
    simp only [taken, uttered]
    simp only [Sys.call] at hc ⊢
    rcases hr : s.createNew cp perf nonce with ⟨s', r⟩
    rw [hr] at hc
    obtain ⟨r0, hd, rfl⟩ := Sys.createNew_cases hr
    have hnp : r0 ≠ .panic := by rintro rfl; exact hc rfl
    rw [createDialogue_logs hi (by exact hi.selfEq) hd hnp]
    rcases r0 with (_ | p) | e | _
    · simp [Res.bind, Res.report, inDialogue]
    · by_cases hq : p = q <;> simp [Res.bind, Res.report, inDialogue, hq]
    · simp [Res.bind, Res.report, inDialogue]
    · exact absurd rfl hnp
  | createWith cp m =>
    simp only [taken, uttered]
    simp only [Sys.call] at hc ⊢
    rcases hr : s.createWithMessage cp m with ⟨s', r⟩
    rw [hr] at hc
    have hnp : r ≠ .panic := by rintro rfl; exact hc rfl
    rcases Sys.createWithMessage_cases hr with ⟨e, rfl, rfl⟩ | ⟨_, _, hd⟩
    · simp [Res.report, inDialogue]
    · rw [createDialogue_logs hi (by exact hi.selfEq) hd hnp]
      rcases r with (_ | p) | e | _
      · simp [Res.report, inDialogue]
      · by_cases hq : p = q <;> simp [Res.report, inDialogue, hq]
      · simp [Res.report, inDialogue]
      · exact absurd rfl hnp
  | update m nonce =>
    simp only [taken, uttered]
    simp only [Sys.call] at hc ⊢
    rcases hr : s.update m nonce with ⟨s', r⟩
    rw [hr] at hc
    have hnp : r ≠ .panic := by rintro rfl; exact hc rfl
    rw [update_logs hi hr hnp]
    rcases r with (_ | p) | e | _
    · simp [Res.report, inDialogue]
    · by_cases hq : p = q <;> simp [Res.report, inDialogue, hq]
    · simp [Res.report, inDialogue]
    · exact absurd rfl hnp
  | reply p perf tm tp =>
    simp only [taken, uttered]
    simp only [Sys.call] at hc ⊢
    rcases hr : s.reply p perf tm tp with ⟨s', r⟩
    rw [hr] at hc
    have hnp : r ≠ .panic := by rintro rfl; exact hc rfl
    rcases reply_cases hr with h' | ⟨e, rfl, rfl⟩ | ⟨d, m, hd, hm, hu⟩
    · exact absurd h' hnp
    · simp [Res.report, inDialogue]
    · rcases r with m' | e | _
      · have hs : m.sender = me := by
          rw [(Dialogue.replyMessage_ok hm).2.2.1, (hi.heap p d hd).selfAddr]
        obtain ⟨rfl, hl⟩ := dialogueUpdate_logs hi hu (.inr hs)
        rw [hl]
        by_cases hq : p = q
        · subst hq; simp [Res.report, inDialogue, hs]
        · simp [Res.report, inDialogue, hq, Ne.symm hq]
      · rw [dialogueUpdate_err hu]; simp [Res.report, inDialogue]
      · exact absurd rfl hnp

end Sys

theorem afterCalls_logs {me : Bytes} {keep : Bool} {rules : RulesDecl} (q : Ptr) : ∀ (cs : List Call) {s : Sys},
    SInv me keep rules s → Unhurt s cs →
    SInv me keep rules (afterCalls s cs) ∧ logs (afterCalls s cs).heap q =
      ((logs s.heap q).1 ++ inDialogue q (allTaken s cs), (logs s.heap q).2 ++ inDialogue q (allSaid s cs))
  | [], s, hi, _ => by simpa [afterCalls, allTaken, allSaid, inDialogue] using hi
  | c :: cs, s, hi, hu => by
    obtain ⟨h1, h2⟩ := afterCalls_logs q cs (hi.call c hu.1) hu.2
    refine ⟨h1, ?_⟩
    show logs (afterCalls (s.call c).1 cs).heap q = _
    rw [h2, Sys.call_logs hi c hu.1]
    simp only [allTaken, allSaid, inDialogue_append, List.append_assoc]

/-- **C132, one agent.** A dialogue's messages of the other agent are those given to the agent that this dialogue has
taken, in this order; its own are those it has said, in this order. -/
theorem C132_recorded {me : Bytes} {keep : Bool} {rules : RulesDecl} {cs : List Call}
    (hu : Unhurt (Sys.new me keep rules) cs) {p : Ptr} {d : Dialogue}
    (hd : (afterCalls (Sys.new me keep rules) cs).heap[p]? = some d) :
    d.incoming = inDialogue p (allTaken (Sys.new me keep rules) cs) ∧
    d.outgoing = inDialogue p (allSaid (Sys.new me keep rules) cs) := by
  have h := (afterCalls_logs p cs SInv.init hu).2
  simp only [logs, hd] at h
  simpa [Sys.new] using h

/-- **C132, one agent.** A message that is given to an agent is taken by at most one of its dialogues, and the dialogues
take messages in the order in which they are given. -/
theorem C132_taken_once : ∀ (cs : List Call) (s : Sys), ((allTaken s cs).map (·.2)).Sublist (givenTo cs)
  | [], _ => List.Sublist.slnil
  | c :: cs, s => by
    have ih := C132_taken_once cs (s.call c).1
    have hg : givenTo (c :: cs) = givenTo [c] ++ givenTo cs := by
      cases c <;> rfl
    rw [allTaken, List.map_append, hg]
    refine List.Sublist.append ?_ ih
    unfold taken
    split
    · exact List.Sublist.refl _
    · exact List.nil_sublist _

/-! ## Two agents -/

/-- An agent puts a message of a dialogue into an envelope. Message id and target are 32-bit numbers, and the content
has the performative that the dialogue has recorded. -/
def Packs (performativeOf : Bytes → Option Bytes) (m : Message) (e : Envelope) : Prop :=
  ∃ protocolId content, makeResponseEnvelope m protocolId content = .ok e ∧
    performativeOf content = some m.performative ∧
    (-2147483648 ≤ m.messageId ∧ m.messageId ≤ 2147483647) ∧
    (-2147483648 ≤ m.target ∧ m.target ≤ 2147483647) ∧ e.message.length < 2 ^ 64

/-- The message an agent finds in an envelope. -/
def opened (structOk : Bytes → Bool) (performativeOf : Bytes → Option Bytes) (e : Envelope) : Option Message :=
  match unwrapEnvelope structOk performativeOf e with
  | .ok (m, _) => some m
  | _ => none

theorem opened_packs {structOk : Bytes → Bool} {performativeOf : Bytes → Option Bytes} {m : Message} {e : Envelope}
    (h : Packs performativeOf m e) : opened structOk performativeOf e = some m := by
  obtain ⟨pid, content, h1, h2, h3, h4, h5⟩ := h
  unfold opened
  rw [C15_message_survives_partial h1 h2 h3 h4 h5]

/-- What agent `a` says in its dialogues with agent `b` goes into envelopes, the envelopes go over the network, and
`b` gives what it finds in the envelopes it gets to its dialogues. Both may do anything else as well: `a` need not
send everything, nor `b` look at everything, and both talk to others. -/
structure Correspondence (a b : Bytes) where
  journey : Journey a b
  structOk : Bytes → Bool
  performativeOf : Bytes → Option Bytes
  /-- the sender -/
  keepA : Bool
  rulesA : RulesDecl
  callsA : List Call
  unhurtA : Unhurt (Sys.new a keepA rulesA) callsA
  letters : List (Message × Envelope)
  spoken : (letters.map (·.1)).Sublist ((allSaid (Sys.new a keepA rulesA) callsA).map (·.2))
  packed : ∀ x ∈ letters, Packs performativeOf x.1 x.2
  sent : journey.sent = letters.map (·.2)
  /-- the receiver -/
  keepB : Bool
  rulesB : RulesDecl
  callsB : List Call
  unhurtB : Unhurt (Sys.new b keepB rulesB) callsB
  given : ((givenTo callsB).filter fun m => m.sender == a).Sublist
    (journey.got.filterMap (opened structOk performativeOf))

namespace Correspondence

variable {a b : Bytes}

/-- What the sender's dialogues have said. -/
def said (c : Correspondence a b) : List (Ptr × Message) := allSaid (Sys.new a c.keepA c.rulesA) c.callsA

/-- What the receiver's dialogues have taken of the sender. -/
def heard (c : Correspondence a b) : List (Ptr × Message) :=
  (allTaken (Sys.new b c.keepB c.rulesB) c.callsB).filter fun x => x.2.sender == a

/-- The sender in the end. -/
def sender (c : Correspondence a b) : Sys := afterCalls (Sys.new a c.keepA c.rulesA) c.callsA

/-- The receiver in the end. -/
def receiver (c : Correspondence a b) : Sys := afterCalls (Sys.new b c.keepB c.rulesB) c.callsB

theorem opened_sent (c : Correspondence a b) :
    c.journey.sent.filterMap (opened c.structOk c.performativeOf) = c.letters.map (·.1) := by
  rw [c.sent, List.filterMap_map]
  have h : ∀ l : List (Message × Envelope), (∀ x ∈ l, Packs c.performativeOf x.1 x.2) →
      l.filterMap (opened c.structOk c.performativeOf ∘ fun x => x.2) = l.map (·.1) := by
    intro l
    induction l with
    | nil => intro _; rfl
    | cons x l ih =>
      intro hl
      have hx : (opened c.structOk c.performativeOf ∘ fun x => x.2) x = some x.1 := opened_packs (hl x (by simp))
      rw [List.filterMap_cons_some hx, ih fun y hy => hl y (by simp [hy])]
      rfl
  exact h _ c.packed

end Correspondence

theorem filter_sublist_filter {α : Type} {p q : α → Bool} : ∀ {l : List α},
    (∀ x ∈ l, p x = true → q x = true) → (l.filter p).Sublist (l.filter q)
  | [], _ => List.Sublist.slnil
  | x :: l, h => by
    have ih := filter_sublist_filter fun y hy => h y (List.mem_cons_of_mem x hy)
    rw [List.filter_cons, List.filter_cons]
    split
    · rename_i hp
      rw [if_pos (h x (by simp) hp)]
      exact ih.cons_cons x
    · split
      · exact ih.cons x
      · exact ih

/-- **C132, partial.** What the dialogues of an agent have taken of another agent is what that agent's dialogues
have said: unaltered, in this order, and each message is taken at most once, whatever dialogue takes it. Missing from
the property: envelopes that pass through the retry queue of a peer (see `Journey`), which may arrive twice. -/
theorem C132_heard_partial {a b : Bytes} (c : Correspondence a b) :
    (c.heard.map (·.2)).Sublist (c.said.map (·.2)) := by
  have h1 : (c.heard.map (·.2)).Sublist ((givenTo c.callsB).filter fun m => m.sender == a) := by
    have := (C132_taken_once c.callsB (Sys.new b c.keepB c.rulesB)).filter fun m => m.sender == a
    rwa [List.filter_map] at this
  have h2 : (c.journey.got.filterMap (opened c.structOk c.performativeOf)).Sublist (c.letters.map (·.1)) := by
    rw [← c.opened_sent]
    exact (C79_in_order_partial c.journey).filterMap _
  exact ((h1.trans c.given).trans h2).trans c.spoken

/-- **C132, partial, each dialogue.** Where the two dialogues belong together - the sender has only one dialogue with
the receiver that has this reference - the receiver's dialogue has recorded of the sender what the sender's dialogue has
said, in this order and each message at most once. -/
theorem C132_dialogue_partial {a b : Bytes} (c : Correspondence a b) {p q : Ptr} {dA dB : Dialogue}
    (hA : c.sender.heap[p]? = some dA) (hB : c.receiver.heap[q]? = some dB) (hb : dB.label.opponent = a)
    (hr : dB.label.reference.starter = dA.label.reference.starter)
    (honly : ∀ p' d', c.sender.heap[p']? = some d' → d'.label.opponent = b →
      d'.label.reference.starter = dA.label.reference.starter → p' = p) :
    dB.incoming.Sublist dA.outgoing := by
  have hiA := (afterCalls_logs 0 c.callsA SInv.init c.unhurtA).1
  have hiB := (afterCalls_logs 0 c.callsB SInv.init c.unhurtB).1
  have hdB := hiB.heap q dB hB
  rw [(C132_recorded c.unhurtA hA).2]
  have hin := (C132_recorded c.unhurtB hB).1
  have h1 : dB.incoming.Sublist (c.heard.map (·.2)) := by
    rw [hin]
    refine List.Sublist.map _ (filter_sublist_filter fun x hx hq => ?_)
    have hm : x.2 ∈ dB.incoming := by
      rw [hin]
      exact List.mem_map.2 ⟨x, List.mem_filter.2 ⟨hx, hq⟩, rfl⟩
    rw [(hdB.sentByPeer _ hm).1, hb]
    exact beq_self_eq_true a
  have h2 := (h1.trans (C132_heard_partial c)).filter fun m =>
    m.to == b && m.reference.starter == dA.label.reference.starter
  rw [List.filter_eq_self.2 (fun m hm => by
    rw [(hdB.sentByPeer m hm).2.1, hdB.starterRef m (.inr hm), hr]; simp), List.filter_map] at h2
  refine h2.trans (List.Sublist.map _ (filter_sublist_filter fun x hx hP => ?_))
  -- what was said to the receiver with this reference was said in this dialogue
  simp only [Function.comp_apply, Bool.and_eq_true, beq_iff_eq] at hP
  have hsome : ∃ d', c.sender.heap[x.1]? = some d' ∧ x.2 ∈ d'.outgoing := by
    have hl := (afterCalls_logs x.1 c.callsA SInv.init c.unhurtA).2
    have hx2 : x.2 ∈ (logs c.sender.heap x.1).2 := by
      show x.2 ∈ (logs (afterCalls (Sys.new a c.keepA c.rulesA) c.callsA).heap x.1).2
      rw [hl]
      exact List.mem_append_right _ (List.mem_map.2 ⟨x, List.mem_filter.2 ⟨hx, by simp⟩, rfl⟩)
    unfold logs at hx2
    split at hx2
    · rename_i d' hd'; exact ⟨d', hd', hx2⟩
    · simp at hx2
  obtain ⟨d', hd', hm⟩ := hsome
  have hd := hiA.heap x.1 d' hd'
  simp only [beq_iff_eq]
  exact honly x.1 d' hd' (by rw [← (hd.sentBySelf _ hm).2, hP.1]) (by rw [← hd.starterRef _ (.inl hm), hP.2])

/-- What was said to an agent with the reference of a dialogue was said in this dialogue, where the sender has no other
dialogue with the agent that has this reference. -/
theorem said_in {a b : Bytes} {keep : Bool} {rules : RulesDecl} {cs : List Call}
    (hu : Unhurt (Sys.new a keep rules) cs) {p : Ptr} {d : Dialogue}
    (hd : (afterCalls (Sys.new a keep rules) cs).heap[p]? = some d)
    (honly : ∀ p' d', (afterCalls (Sys.new a keep rules) cs).heap[p']? = some d' → d'.label.opponent = b →
      d'.label.reference.starter = d.label.reference.starter → p' = p)
    {x : Ptr × Message} (hx : x ∈ allSaid (Sys.new a keep rules) cs) (ht : x.2.to = b)
    (hr : x.2.reference.starter = d.label.reference.starter) : x.2 ∈ d.outgoing := by
  have hi := (afterCalls_logs 0 cs SInv.init hu).1
  have hx2 : x.2 ∈ (logs (afterCalls (Sys.new a keep rules) cs).heap x.1).2 := by
    rw [(afterCalls_logs x.1 cs SInv.init hu).2]
    exact List.mem_append_right _ (List.mem_map.2 ⟨x, List.mem_filter.2 ⟨hx, by simp⟩, rfl⟩)
  unfold logs at hx2
  split at hx2
  · rename_i d' hd'
    have hd1 := hi.heap x.1 d' hd'
    have hp := honly x.1 d' hd' (by rw [← (hd1.sentBySelf _ hx2).2, ht]) (by rw [← hd1.starterRef _ (.inl hx2), hr])
    rw [hp, hd] at hd'
    cases hd'
    exact hx2
  · simp at hx2

/-- **C132, any network.** The network may lose, repeat and reorder what the sender's dialogues say, as long as it
brings the receiver nothing else in the sender's name. Where the two dialogues belong together and the messages of the sender are
numbered one after the other, as the numbering is meant, the receiver's dialogue has recorded of the sender the first
messages that the sender's dialogue has said, all of them up to some point. -/
theorem C132_any_network {a b : Bytes} {keepA keepB : Bool} {rulesA rulesB : RulesDecl} {callsA callsB : List Call}
    (hA : Unhurt (Sys.new a keepA rulesA) callsA) (hB : Unhurt (Sys.new b keepB rulesB) callsB)
    (hsaid : ∀ m ∈ givenTo callsB, m.sender = a → m.to = b →
      m ∈ (allSaid (Sys.new a keepA rulesA) callsA).map (·.2))
    {p q : Ptr} {dA dB : Dialogue}
    (hpA : (afterCalls (Sys.new a keepA rulesA) callsA).heap[p]? = some dA)
    (hqB : (afterCalls (Sys.new b keepB rulesB) callsB).heap[q]? = some dB) (hb : dB.label.opponent = a)
    (hr : dB.label.reference.starter = dA.label.reference.starter)
    (honly : ∀ p' d', (afterCalls (Sys.new a keepA rulesA) callsA).heap[p']? = some d' → d'.label.opponent = b →
      d'.label.reference.starter = dA.label.reference.starter → p' = p)
    (hopen : dA.label.starterAddr = a ↔ dB.label.starterAddr ≠ b) (hids : PeerIdsConsecutive b dB) :
    dB.incoming <+: dA.outgoing := by
  have hdA := (afterCalls_logs 0 callsA SInv.init hA).1.heap p dA hpA
  have hdB := (afterCalls_logs 0 callsB SInv.init hB).1.heap q dB hqB
  have hmem : ∀ m ∈ dB.incoming, m ∈ dA.outgoing := by
    intro m hm
    have hg : m ∈ givenTo callsB := by
      refine (C132_taken_once callsB (Sys.new b keepB rulesB)).subset ?_
      have := (C132_recorded hB hqB).1
      rw [this] at hm
      obtain ⟨x, hx, rfl⟩ := List.mem_map.1 hm
      exact List.mem_map.2 ⟨x, (List.mem_filter.1 hx).1, rfl⟩
    obtain ⟨x, hx, rfl⟩ := List.mem_map.1 (hsaid m hg (by rw [(hdB.sentByPeer m hm).1, hb]) (hdB.sentByPeer m hm).2.1)
    exact said_in hA hpA honly hx (hdB.sentByPeer _ hm).2.1 (by rw [hdB.starterRef _ (.inr hm), hr])
  rw [List.prefix_iff_getElem?]
  intro i hi
  have hget : dB.incoming[i]? = some dB.incoming[i] := List.getElem?_eq_getElem hi
  obtain ⟨j, hj⟩ := List.mem_iff_getElem?.1 (hmem _ (List.getElem_mem hi))
  obtain ⟨h1, h2⟩ := hids i _ hget
  obtain ⟨h3, h4⟩ := hdA.ownIds j _ hj
  have hij : j = i := by
    by_cases h : dA.label.starterAddr = a
    · have e1 := h3 h
      have e2 := h2 (hopen.1 h)
      omega
    · have e1 := h4 h
      have e2 := h1 (Classical.not_not.1 fun hn => h (hopen.2 hn))
      omega
  subst hij
  exact hj

/-- The messages of the other side are numbered one after the other where the agent has said nothing itself and did
not open the dialogue. -/
theorem listener_numbered {me : Bytes} {rules : RulesDecl} {d : Dialogue} (hi : DInv me rules d)
    (ho : d.outgoing = []) (hs : d.label.starterAddr ≠ me) : PeerIdsConsecutive me d := by
  obtain ⟨ms, hh, hf, hl⟩ := hi.history
  have hall : ∀ m ∈ ms, m.sender ≠ me := by
    intro m hm he
    have : m ∈ d.outgoing := by rw [hh.outgoing]; exact List.mem_filter.2 ⟨hm, by simp [he]⟩
    rw [ho] at this
    simp at this
  have hin : d.incoming = ms := by
    rw [hh.incoming]
    exact List.filter_eq_self.2 fun m hm => by simp [hall m hm]
  rw [PeerIdsConsecutive, hin]
  have key : ∀ (i : Nat) (m : Message), ms[i]? = some m → m.messageId = (i : Int) + 1 := by
    intro i
    induction i with
    | zero =>
      intro m hm
      cases hms : ms with
      | nil => rw [hms] at hm; simp at hm
      | cons x rest =>
        rw [hms] at hm
        simp only [List.getElem?_cons_zero, Option.some.injEq] at hm
        rw [← hm, (hf.first x rest hms).1]
        rfl
    | succ i ih =>
      intro m hm
      obtain ⟨hlt, he⟩ := List.getElem?_eq_some_iff.1 hm
      have hsplit : ms = ms.take (i + 1) ++ m :: ms.drop (i + 2) := by
        rw [← he, ← List.drop_eq_getElem_cons hlt, List.take_append_drop]
      have hlast : (ms.take (i + 1)).getLast? = some ms[i] := by
        rw [List.getLast?_eq_getElem?, List.length_take, List.getElem?_take]
        have : min (i + 1) ms.length - 1 = i := by omega
        rw [this, if_pos (by omega), List.getElem?_eq_getElem (by omega)]
      have hprev := ih ms[i] (List.getElem?_eq_getElem (by omega))
      have hm' : m ∈ ms := List.mem_of_getElem? hm
      obtain ⟨_, h2, _, h4⟩ := hl _ m _ hsplit (hall m hm') _ hlast
      have h5 := h2 ⟨ms[i], List.mem_of_getLast? hlast, hall _ (List.getElem_mem (by omega))⟩
      have h6 := h4 hs
      omega
  intro i m hm
  exact ⟨fun h => absurd h hs, fun _ => key i m hm⟩

/-- **C132, any network, a listener.** The network may lose, repeat and reorder what the sender's dialogues say, as
long as it brings the receiver nothing else in the sender's name. A dialogue that the sender has opened and in which the receiver
has not answered has recorded the first messages that the sender's dialogue has said, all of them up to some point:
nothing is missing in between, nothing is there twice. `C132_counterexample` shows that one answer is enough for a
repeated message to be taken again. -/
theorem C132_listener {a b : Bytes} {keepA keepB : Bool} {rulesA rulesB : RulesDecl} {callsA callsB : List Call}
    (hA : Unhurt (Sys.new a keepA rulesA) callsA) (hB : Unhurt (Sys.new b keepB rulesB) callsB)
    (hsaid : ∀ m ∈ givenTo callsB, m.sender = a → m.to = b →
      m ∈ (allSaid (Sys.new a keepA rulesA) callsA).map (·.2))
    {p q : Ptr} {dA dB : Dialogue}
    (hpA : (afterCalls (Sys.new a keepA rulesA) callsA).heap[p]? = some dA)
    (hqB : (afterCalls (Sys.new b keepB rulesB) callsB).heap[q]? = some dB) (hb : dB.label.opponent = a)
    (hr : dB.label.reference.starter = dA.label.reference.starter)
    (honly : ∀ p' d', (afterCalls (Sys.new a keepA rulesA) callsA).heap[p']? = some d' → d'.label.opponent = b →
      d'.label.reference.starter = dA.label.reference.starter → p' = p)
    (hopenA : dA.label.starterAddr = a) (hopenB : dB.label.starterAddr ≠ b) (hquiet : dB.outgoing = []) :
    dB.incoming <+: dA.outgoing :=
  C132_any_network hA hB hsaid hpA hqB hb hr honly ⟨fun _ => hopenB, fun _ => hopenA⟩
    (listener_numbered ((afterCalls_logs 0 callsB SInv.init hB).1.heap q dB hqB) hquiet hopenB)

/-- **C132, if nothing fails.** If the sender sends all that its dialogues say to the receiver, nothing fails on the
way, and the receiver gives everything it finds to its dialogues, then they are given exactly what was said to it, in
this order. -/
theorem C132_all_given {a b : Bytes} (c : Correspondence a b) (hs : c.journey.Smooth)
    (hall : c.letters.map (·.1) = (c.said.map (·.2)).filter fun m => m.to == b)
    (hread : c.journey.client.phase.over = false ∧ c.journey.client.queue = [] ∧ c.journey.client.phase.held = [])
    (hgiven : ((givenTo c.callsB).filter fun m => m.sender == a) =
      c.journey.got.filterMap (opened c.structOk c.performativeOf)) :
    ((givenTo c.callsB).filter fun m => m.sender == a) = (c.said.map (·.2)).filter fun m => m.to == b := by
  have h := C79_all_arrive c.journey hs hread.1
  rw [hread.2.1, hread.2.2, List.append_nil, List.append_nil] at h
  rw [hgiven, ← hall, ← c.opened_sent, ← h]
  rfl

/-! ## A concrete case -/

namespace HeardDemo

/-- A call for proposals may be repeated. -/
def rules : RulesDecl := ⟨[b! "cfp"], [], GoMap.empty.set (b! "cfp") [b! "cfp", b! "propose"]⟩
/-- `ag` opens a dialogue with `bob` and goes on before there is an answer. -/
def callsA : List Call := [.create (b! "bob") (b! "cfp") (b! "n"), .reply 0 (b! "cfp") none none]
/-- The two messages. -/
def m1 : Message := ⟨b! "bob", b! "ag", ⟨b! "n", []⟩, 1, 0, b! "cfp"⟩
def m2 : Message := ⟨b! "bob", b! "ag", ⟨b! "n", []⟩, 2, 1, b! "cfp"⟩
/-- `bob` gets them, and a message of another agent in between. -/
def callsB : List Call :=
  [.update m1 (b! "r"), .update ⟨b! "bob", b! "eve", ⟨b! "x", []⟩, 1, 0, b! "cfp"⟩ (b! "r2"), .update m2 (b! "r3")]
/-- Content that consists of the performative. -/
def performativeOf (x : Bytes) : Option Bytes := if x = [] then none else some x
/-- Envelope of a message. -/
def env (m : Message) : Envelope :=
  match makeResponseEnvelope m (b! "p") (b! "cfp") with
  | .ok e => e
  | _ => ⟨[], [], [], [], []⟩
/-- Calls at the peer. -/
def call (m : Message) : DeliveryCall := ⟨false, JourneyDemo.peer, RouteDemo.net, env m⟩
/-- Steps of the queues. -/
def steps : List PairQueues.Step :=
  [.recv 0 (env m1), .create 0, .put 0, .recv 0 (env m2), .start 0, .take 0, .put 0, .route 0, .finish 0, .take 0,
   .route 0]
/-- What is written to the connection of `bob`. -/
def out : List Output := [.answer JourneyDemo.status, .call (call m1), .call (call m2)]
/-- The frame of a message. -/
def frame (m : Message) : Bytes := JourneyDemo.frame (env m)

set_option maxRecDepth 100000
set_option maxHeartbeats 4000000

theorem small_env (m : Message) (h : m = m1 ∨ m = m2) {d eb : Bytes} (he : (env m).encode = some eb)
    (hd : peerMessage (env m) none = some d) : eb.length < 2 ^ 64 ∧ d.length < 2 ^ 64 := by
  rcases h with rfl | rfl
  · have h1 : (env m1).encode = some ((env m1).encode.getD []) := by decide +kernel
    have h2 : peerMessage (env m1) none = some (frame m1) := by decide +kernel
    rw [h1] at he
    rw [h2] at hd
    cases he; cases hd
    decide +kernel
  · have h1 : (env m2).encode = some ((env m2).encode.getD []) := by decide +kernel
    have h2 : peerMessage (env m2) none = some (frame m2) := by decide +kernel
    rw [h1] at he
    rw [h2] at hd
    cases he; cases hd
    decide +kernel

/-- The way of the two envelopes. -/
def journey : Journey (b! "ag") (b! "bob") where
  wrote := [HandlersDemo.reg, frame m1, frame m2]
  T := HandlersDemo.T
  por := HandlersDemo.por
  txt := fun _ => []
  key := b! "pk"
  announce := true
  inA := ⟨[some HandlersDemo.reg, some (frame m1), some (frame m2), none], [true, true, true], []⟩
  wireA := ⟨_, [], [none], (List.append_nil _).symm, rfl, by simp⟩
  own := fun _ => 0
  steps := steps
  queues := by
    intro h e he
    simp only [steps, List.mem_cons, reduceCtorEq, PairQueues.Step.recv.injEq, List.not_mem_nil, false_or,
      or_false] at he
    rcases he with he | he <;> exact he.1.symm
  taken := by decide +kernel
  conn := 3
  out := out
  answers := by
    intro f hf
    simp only [out, List.mem_cons, Output.answer.injEq, reduceCtorEq, List.not_mem_nil, or_false] at hf
    subst hf
    decide +kernel
  calls := by decide +kernel
  small := by
    intro k d eb hk he hd
    have hk' : k = call m1 ∨ k = call m2 := by
      simpa [out, List.mem_cons, Output.call.injEq] using hk
    rcases hk' with rfl | rfl
    · exact small_env m1 (.inl rfl) he hd
    · exact small_env m2 (.inr rfl) he hd
  T' := HandlersDemo.T
  rest := fun _ => ⟨[], [], [], [], []⟩
  inB := ⟨[some JourneyDemo.status, some (frame m1), some (frame m2)], [true, true], []⟩
  wireB := ⟨[JourneyDemo.status, frame m1, frame m2], [], [], by decide +kernel, rfl, by simp⟩
  clientSteps := [.listen, .listen, .listen, .listen, .listen, .listen, .get, .listen, .get]
  connected := .inl (by simp)

/-- The correspondence of the two. -/
def both : Correspondence (b! "ag") (b! "bob") where
  journey := journey
  structOk := fun _ => true
  performativeOf := performativeOf
  keepA := true
  rulesA := rules
  callsA := callsA
  unhurtA := by refine ⟨?_, ?_, trivial⟩ <;> decide +kernel
  letters := [(m1, env m1), (m2, env m2)]
  spoken := by decide +kernel
  packed := by
    intro x hx
    simp only [List.mem_cons, List.not_mem_nil, or_false] at hx
    rcases hx with rfl | rfl
    · exact ⟨b! "p", b! "cfp", rfl, rfl, by decide, by decide, by decide +kernel⟩
    · exact ⟨b! "p", b! "cfp", rfl, rfl, by decide, by decide, by decide +kernel⟩
  sent := by decide +kernel
  keepB := true
  rulesB := rules
  callsB := callsB
  unhurtB := by refine ⟨?_, ?_, ?_, trivial⟩ <;> decide +kernel
  given := by decide +kernel

/-- Both messages are heard, in the dialogue that the first has opened. -/
example : both.heard = [(0, m1), (0, m2)] ∧ both.said = [(0, m1), (0, m2)] ∧
    (both.receiver.heap[0]?.map (·.incoming)) = some [m1, m2] ∧
    (both.sender.heap[0]?.map (·.outgoing)) = some [m1, m2] := by
  decide +kernel

/-- A third message. -/
def m3 : Message := ⟨b! "bob", b! "ag", ⟨b! "n", []⟩, 3, 2, b! "cfp"⟩

/-- The network repeats and reorders what the opener says: the listener's dialogue has the three messages in order. -/
def shuffled : List Call :=
  [.update m1 (b! "r"), .update m3 (b! "r"), .update m2 (b! "r"), .update m1 (b! "s"), .update m2 (b! "r"),
    .update m3 (b! "r"), .update m3 (b! "r")]

set_option maxRecDepth 100000 in
set_option maxHeartbeats 4000000 in
example : givenTo shuffled = [m1, m3, m2, m1, m2, m3, m3] ∧
    (afterCalls (Sys.new (b! "bob") true rules) shuffled).heap[0]?.map (fun d =>
      (d.incoming, d.outgoing, d.label.opponent, d.label.starterAddr)) =
      some ([m1, m2, m3], [], b! "ag", b! "ag") := by
  decide +kernel

end HeardDemo

open HeardDemo in
set_option maxRecDepth 100000 in
set_option maxHeartbeats 4000000 in
/-- **C132** fails for an envelope that arrives twice, as the retry queue makes possible (`C78_twice_counterexample`):
the opener has said three things, the responder has answered once, and the second message arrives again. The dialogue
takes it again, as if it had been said after the third. -/
theorem C132_counterexample :
    ∃ callsA callsB : List Call,
      Unhurt (Sys.new (b! "ag") true rules) callsA ∧ Unhurt (Sys.new (b! "bob") true rules) callsB ∧
      (allSaid (Sys.new (b! "ag") true rules) callsA).map (·.2) = [m1, m2, m3] ∧
      givenTo callsB = [m1, m2, m3, m2] ∧
      ((afterCalls (Sys.new (b! "bob") true rules) callsB).heap[0]?.map (·.incoming)) = some [m1, m2, m3, m2] := by
  refine ⟨[.create (b! "bob") (b! "cfp") (b! "n"), .reply 0 (b! "cfp") none none, .reply 0 (b! "cfp") none none],
    [.update m1 (b! "r"), .update m2 (b! "r"), .update m3 (b! "r"), .reply 0 (b! "propose") none none,
      .update m2 (b! "r")], ?_, ?_, ?_, ?_, ?_⟩
  · refine ⟨?_, ?_, ?_, trivial⟩ <;> decide +kernel
  · refine ⟨?_, ?_, ?_, ?_, ?_, trivial⟩ <;> decide +kernel
  all_goals decide +kernel

end Verif
