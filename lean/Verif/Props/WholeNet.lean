import Verif.Props.Heard
import Verif.Props.Authentic

/-!
# Property C133

What the dialogues of two agents have recorded, when all nodes between them run this code: whatever is lost, repeated
or reordered on the way, and whatever anybody else does.
-/

namespace Verif

open Acn Authentic

namespace WholeNet

/-- Two agents in a network of nodes that all run this code. What agent `a` writes to agent `b` under its own name are
messages of its dialogues, or nothing in which `b` finds a message. What `b` gives its dialogues in the name of `a`,
it has found in envelopes that it was given. Everybody else may do anything, except that sessions of mailboxes name
themselves as the sender (see `C119_counterexample`). -/
structure Setting (a b : Bytes) where
  W : World
  structOk : Bytes → Bool
  performativeOf : Bytes → Option Bytes
  /-- the sender -/
  keepA : Bool
  rulesA : RulesDecl
  callsA : List Call
  unhurtA : Unhurt (Sys.new a keepA rulesA) callsA
  written : ∀ e, WrittenBy W a e → e.sender = a → e.to = b → opened structOk performativeOf e = none ∨
    ∃ x ∈ allSaid (Sys.new a keepA rulesA) callsA, Packs performativeOf x.2 e
  /-- the receiver -/
  keepB : Bool
  rulesB : RulesDecl
  callsB : List Call
  unhurtB : Unhurt (Sys.new b keepB rulesB) callsB
  found : ∀ m ∈ givenTo callsB, m.sender = a → ∃ e, Given W e ∧ opened structOk performativeOf e = some m

namespace Setting

variable {a b : Bytes}

/-- The sender in the end. -/
def sender (c : Setting a b) : Sys := afterCalls (Sys.new a c.keepA c.rulesA) c.callsA

/-- The receiver in the end. -/
def receiver (c : Setting a b) : Sys := afterCalls (Sys.new b c.keepB c.rulesB) c.callsB

end Setting

/-- A message found in an envelope has its sender and addressee. -/
theorem opened_names {structOk : Bytes → Bool} {performativeOf : Bytes → Option Bytes} {e : Envelope} {m : Message}
    (h : opened structOk performativeOf e = some m) : m.sender = e.sender ∧ m.to = e.to := by
  unfold opened at h
  split at h
  · rename_i m' c hu
    cases h
    unfold unwrapEnvelope at hu
    split at hu
    · cases hu
    · simp only at hu
      split at hu
      · cases hu
      · split at hu
        · cases hu
        · cases hu
          exact ⟨rfl, rfl⟩
  · cases h

theorem hsaid {a b : Bytes} (c : Setting a b) (hW : c.W.Honest) :
    ∀ m ∈ givenTo c.callsB, m.sender = a → m.to = b →
      m ∈ (allSaid (Sys.new a c.keepA c.rulesA) c.callsA).map (·.2) := by
  intro m hm hs ht
  obtain ⟨e, hg, ho⟩ := c.found m hm hs
  obtain ⟨h1, h2⟩ := opened_names ho
  have hes : e.sender = a := by rw [← h1, hs]
  have hw := C119_partial hW hg
  rw [hes] at hw
  rcases c.written e hw hes (by rw [← h2, ht]) with hn | ⟨x, hx, hp⟩
  · rw [hn] at ho; cases ho
  · rw [opened_packs hp] at ho
    cases ho
    exact List.mem_map.2 ⟨x, hx, rfl⟩

/-- What is recorded was given. -/
theorem recorded_given {a b : Bytes} (c : Setting a b) {q : Ptr} {dB : Dialogue}
    (hB : c.receiver.heap[q]? = some dB) {m : Message} (hm : m ∈ dB.incoming) : m ∈ givenTo c.callsB := by
  refine (C132_taken_once c.callsB (Sys.new b c.keepB c.rulesB)).subset ?_
  rw [(C132_recorded c.unhurtB hB).1] at hm
  obtain ⟨x, hx, rfl⟩ := List.mem_map.1 hm
  exact List.mem_map.2 ⟨x, (List.mem_filter.1 hx).1, rfl⟩

/-- What is said is recorded. -/
theorem said_recorded {a b : Bytes} (c : Setting a b) {x : Ptr × Message}
    (hx : x ∈ allSaid (Sys.new a c.keepA c.rulesA) c.callsA) :
    ∃ (p : Ptr) (dA : Dialogue), c.sender.heap[p]? = some dA ∧ x.2 ∈ dA.outgoing := by
  have hx2 : x.2 ∈ (logs c.sender.heap x.1).2 := by
    show x.2 ∈ (logs (afterCalls (Sys.new a c.keepA c.rulesA) c.callsA).heap x.1).2
    rw [(afterCalls_logs x.1 c.callsA SInv.init c.unhurtA).2]
    exact List.mem_append_right _ (List.mem_map.2 ⟨x, List.mem_filter.2 ⟨hx, by simp⟩, rfl⟩)
  unfold logs at hx2
  split at hx2
  · rename_i d' hd'; exact ⟨x.1, d', hd', hx2⟩
  · simp at hx2

/-- **C133, partial, what was said.** Whatever is recorded of agent `a` in a dialogue of agent `b` was said by a
dialogue of `a`, as it is. Missing from the property: sessions of mailboxes that name another sender. -/
theorem C133_said_partial {a b : Bytes} (c : Setting a b) (hW : c.W.Honest) {q : Ptr} {dB : Dialogue}
    (hB : c.receiver.heap[q]? = some dB) {m : Message} (hm : m ∈ dB.incoming) (hs : m.sender = a) :
    ∃ (p : Ptr) (dA : Dialogue), c.sender.heap[p]? = some dA ∧ m ∈ dA.outgoing := by
  have hdB := (afterCalls_logs 0 c.callsB SInv.init c.unhurtB).1.heap q dB hB
  obtain ⟨x, hx, rfl⟩ := List.mem_map.1 (hsaid c hW m (recorded_given c hB hm) hs (hdB.sentByPeer m hm).2.1)
  exact said_recorded c hx

/-- **C133, whatever sessions do.** Whatever is recorded of agent `a` in a dialogue of agent `b` was said by a dialogue
of `a`, or a session of a mailbox has handed it in. So nothing but such a session can put words into the dialogue. -/
theorem C133_or_session {a b : Bytes} (c : Setting a b) {q : Ptr} {dB : Dialogue}
    (hB : c.receiver.heap[q]? = some dB) {m : Message} (hm : m ∈ dB.incoming) (hs : m.sender = a) :
    (∃ (p : Ptr) (dA : Dialogue), c.sender.heap[p]? = some dA ∧ m ∈ dA.outgoing) ∨
    ∃ x e, c.W.post x ∧ Mailbox.sendEnvelope x.request x.mailbox = .forward e ∧
      opened c.structOk c.performativeOf e = some m := by
  have hdB := (afterCalls_logs 0 c.callsB SInv.init c.unhurtB).1.heap q dB hB
  obtain ⟨e, hgiven, ho⟩ := c.found m (recorded_given c hB hm) hs
  rcases C119_or_session hgiven with hw | ⟨x, hx, hf⟩
  · obtain ⟨h1, h2⟩ := opened_names ho
    have hes : e.sender = a := by rw [← h1, hs]
    rw [hes] at hw
    rcases c.written e hw hes (by rw [← h2, (hdB.sentByPeer m hm).2.1]) with hn | ⟨x, hx, hp⟩
    · rw [hn] at ho; cases ho
    · rw [opened_packs hp] at ho
      cases ho
      exact .inl (said_recorded c hx)
  · exact .inr ⟨x, e, hx, hf, ho⟩

/-- **C133, partial, each dialogue.** Where the two dialogues belong together - the sender has only one dialogue with
the receiver under this reference - everything that the receiver's dialogue has recorded of the sender was said in the
sender's dialogue. -/
theorem C133_dialogue_partial {a b : Bytes} (c : Setting a b) (hW : c.W.Honest) {p q : Ptr} {dA dB : Dialogue}
    (hA : c.sender.heap[p]? = some dA) (hB : c.receiver.heap[q]? = some dB) (hb : dB.label.opponent = a)
    (hr : dB.label.reference.starter = dA.label.reference.starter)
    (honly : ∀ p' d', c.sender.heap[p']? = some d' → d'.label.opponent = b →
      d'.label.reference.starter = dA.label.reference.starter → p' = p) :
    ∀ m ∈ dB.incoming, m ∈ dA.outgoing := by
  intro m hm
  have hdB := (afterCalls_logs 0 c.callsB SInv.init c.unhurtB).1.heap q dB hB
  obtain ⟨p', dA', hA', hm'⟩ := C133_said_partial c hW hB hm (by rw [(hdB.sentByPeer m hm).1, hb])
  have hdA' := (afterCalls_logs 0 c.callsA SInv.init c.unhurtA).1.heap p' dA' hA'
  have hp := honly p' dA' hA' (by rw [← (hdA'.sentBySelf m hm').2, (hdB.sentByPeer m hm).2.1])
    (by rw [← hdA'.starterRef m (.inl hm'), hdB.starterRef m (.inr hm), hr])
  subst hp
  rw [hA] at hA'
  cases hA'
  exact hm'

/-- **C133, partial, in order.** In a dialogue that `a` has opened and in which `b` has not answered, the messages
recorded of `a` are the first messages that `a` has said in it, all of them up to some point, whatever was lost,
repeated or reordered on the way. The sender has only one dialogue with `b` under this reference. -/
theorem C133_in_order_partial {a b : Bytes} (c : Setting a b) (hW : c.W.Honest) {p q : Ptr} {dA dB : Dialogue}
    (hA : c.sender.heap[p]? = some dA) (hB : c.receiver.heap[q]? = some dB) (hb : dB.label.opponent = a)
    (hr : dB.label.reference.starter = dA.label.reference.starter)
    (honly : ∀ p' d', c.sender.heap[p']? = some d' → d'.label.opponent = b →
      d'.label.reference.starter = dA.label.reference.starter → p' = p)
    (hopenA : dA.label.starterAddr = a) (hopenB : dB.label.starterAddr ≠ b) (hquiet : dB.outgoing = []) :
    dB.incoming <+: dA.outgoing :=
  C132_listener c.unhurtA c.unhurtB (hsaid c hW) hA hB hb hr honly hopenA hopenB hquiet

/-- **C133, partial, nobody else.** If `a` has said nothing to `b`, then no dialogue of `b` has a message of `a`,
whatever everybody else does. -/
theorem C133_silent_partial {a b : Bytes} (c : Setting a b) (hW : c.W.Honest)
    (hno : ∀ (p : Ptr) (dA : Dialogue), c.sender.heap[p]? = some dA → dA.label.opponent = b → dA.outgoing = [])
    {q : Ptr} {dB : Dialogue} (hB : c.receiver.heap[q]? = some dB) (hb : dB.label.opponent = a) :
    dB.incoming = [] := by
  have hdB := (afterCalls_logs 0 c.callsB SInv.init c.unhurtB).1.heap q dB hB
  cases hin : dB.incoming with
  | nil => rfl
  | cons m rest =>
    have hm : m ∈ dB.incoming := by rw [hin]; simp
    obtain ⟨p, dA, hA, hmA⟩ := C133_said_partial c hW hB hm (by rw [(hdB.sentByPeer m hm).1, hb])
    have hdA := (afterCalls_logs 0 c.callsA SInv.init c.unhurtA).1.heap p dA hA
    have := hno p dA hA (by rw [← (hdA.sentBySelf m hmA).2, (hdB.sentByPeer m hm).2.1])
    rw [this] at hmA
    simp at hmA

/-! ## Concrete cases -/

namespace Demo

set_option maxRecDepth 100000
set_option maxHeartbeats 4000000

/-- The delegate client `ag` writes its two messages. -/
def client : Delegate :=
  ⟨HandlersDemo.T, HandlersDemo.por, fun _ => [], b! "pk", true,
    ⟨[some HandlersDemo.reg, some (HeardDemo.frame HeardDemo.m1), some (HeardDemo.frame HeardDemo.m2), none],
      [true, true, true], []⟩⟩
/-- Only that client. -/
def world : World := ⟨fun _ => False, fun d => d = client, fun _ => False⟩

theorem small (m : Message) (h : m = HeardDemo.m1 ∨ m = HeardDemo.m2) : Small (HeardDemo.env m) := by
  intro eb he
  have hd : ∃ d, peerMessage (HeardDemo.env m) none = some d := by
    rcases h with rfl | rfl
    · exact ⟨HeardDemo.frame HeardDemo.m1, by decide +kernel⟩
    · exact ⟨HeardDemo.frame HeardDemo.m2, by decide +kernel⟩
  obtain ⟨d, hd⟩ := hd
  exact (HeardDemo.small_env m h he hd).1

/-- `bob` is given the envelopes. -/
theorem given (m : Message) (h : m = HeardDemo.m1 ∨ m = HeardDemo.m2) : Given world (HeardDemo.env m) := by
  rcases h with rfl | rfl
  · exact .conn 3 (HeardDemo.frame HeardDemo.m1)
      (.route JourneyDemo.peer RouteDemo.net (HeardDemo.env HeardDemo.m1) _
        (.delegate client rfl (by decide +kernel)) (small _ (.inl rfl)) (by decide +kernel))
      (by decide +kernel) (by decide +kernel)
  · exact .conn 3 (HeardDemo.frame HeardDemo.m2)
      (.route JourneyDemo.peer RouteDemo.net (HeardDemo.env HeardDemo.m2) _
        (.delegate client rfl (by decide +kernel)) (small _ (.inr rfl)) (by decide +kernel))
      (by decide +kernel) (by decide +kernel)

/-- `bob` gets the messages again and again. -/
def callsB : List Call :=
  [.update HeardDemo.m2 (b! "r"), .update HeardDemo.m1 (b! "r"), .update HeardDemo.m1 (b! "s"),
    .update HeardDemo.m2 (b! "r"), .update HeardDemo.m2 (b! "r")]

/-- `ag` and `bob` in that world. -/
def setting : Setting (b! "ag") (b! "bob") where
  W := world
  structOk := fun _ => true
  performativeOf := HeardDemo.performativeOf
  keepA := true
  rulesA := HeardDemo.rules
  callsA := HeardDemo.callsA
  unhurtA := HeardDemo.both.unhurtA
  written := by
    intro e h _ _
    have hcase : e = HeardDemo.env HeardDemo.m1 ∨ e = HeardDemo.env HeardDemo.m2 := by
      cases h with
      | agent x hx => exact absurd hx id
      | post q hq => exact absurd hq id
      | delegate d hd r ha hr evs hreg f hf he =>
        cases hd
        have hall : ∀ f, some f ∈ client.pipe.reads → frameEnvelope f = none ∨
            frameEnvelope f = some (HeardDemo.env HeardDemo.m1) ∨
            frameEnvelope f = some (HeardDemo.env HeardDemo.m2) := by
          intro f hf
          simp only [client, List.mem_cons, Option.some.injEq, reduceCtorEq, List.not_mem_nil, or_false] at hf
          rcases hf with rfl | rfl | rfl <;> decide +kernel
        rcases hall f hf with h | h | h <;> rw [h] at he
        · cases he
        · exact .inl (Option.some.inj he).symm
        · exact .inr (Option.some.inj he).symm
    right
    rcases hcase with rfl | rfl
    · exact ⟨(0, HeardDemo.m1), by decide +kernel, HeardDemo.both.packed (HeardDemo.m1, _) (by decide +kernel)⟩
    · exact ⟨(0, HeardDemo.m2), by decide +kernel, HeardDemo.both.packed (HeardDemo.m2, _) (by decide +kernel)⟩
  keepB := true
  rulesB := HeardDemo.rules
  callsB := callsB
  unhurtB := by refine ⟨?_, ?_, ?_, ?_, ?_, trivial⟩ <;> decide +kernel
  found := by
    intro m hm _
    have hm' : m = HeardDemo.m1 ∨ m = HeardDemo.m2 := by
      have : m ∈ [HeardDemo.m2, HeardDemo.m1, HeardDemo.m1, HeardDemo.m2, HeardDemo.m2] := hm
      simp only [List.mem_cons, List.not_mem_nil, or_false] at this
      rcases this with h | h | h | h | h <;> simp [h]
    refine ⟨HeardDemo.env m, given m hm', ?_⟩
    rcases hm' with rfl | rfl <;> decide +kernel

example : setting.W.Honest := fun _ _ h => absurd h id

example : (setting.receiver.heap[0]?.map fun d => (d.incoming, d.outgoing)) =
      some ([HeardDemo.m1, HeardDemo.m2], []) ∧
    (setting.sender.heap[0]?.map (·.outgoing)) = some [HeardDemo.m1, HeardDemo.m2] := by
  decide +kernel

/-- A message in the name of `bob`. -/
def lie : Message := ⟨b! "ag", b! "bob", ⟨b! "n", []⟩, 1, 0, b! "cfp"⟩
/-- The session of `eve` hands it in. -/
def forged : Post := ⟨RouteDemo.mbox, ⟨b! "POST", some (b! "s1"), (HeardDemo.env lie).encode⟩⟩
/-- Only that session. -/
def eveOnly : World := ⟨fun _ => False, fun _ => False, fun q => q = forged⟩

theorem given_forged : Given eveOnly (HeardDemo.env lie) := by
  refine .mailbox (.route RouteDemo.peer RouteDemo.net (HeardDemo.env lie) _
    (.post forged rfl (by decide +kernel)) ?_ (by decide +kernel))
  intro eb he
  have : (HeardDemo.env lie).encode = some ((HeardDemo.env lie).encode.getD []) := by decide +kernel
  rw [this] at he
  cases he
  decide +kernel

/-- `bob` does nothing, `ag` gets the message. -/
def deceived : Setting (b! "bob") (b! "ag") where
  W := eveOnly
  structOk := fun _ => true
  performativeOf := HeardDemo.performativeOf
  keepA := true
  rulesA := HeardDemo.rules
  callsA := []
  unhurtA := trivial
  written := by
    intro e h _ _
    cases h with
    | agent x hx => exact absurd hx id
    | delegate d hd => exact absurd hd id
    | post q hq ha =>
      cases hq
      have : MailSpec.ownerOf forged.mailbox forged.request.session = some (b! "eve") := by decide +kernel
      rw [this] at ha
      exact absurd ha (by decide)
  keepB := true
  rulesB := HeardDemo.rules
  callsB := [.update lie (b! "r")]
  unhurtB := ⟨by decide +kernel, trivial⟩
  found := by
    intro m hm _
    have hm' : m = lie := by
      have : m ∈ [lie] := hm
      simpa using this
    subst hm'
    exact ⟨HeardDemo.env lie, given_forged, by decide +kernel⟩

end Demo

/-- **C133 is false** of sessions of mailboxes: the dialogue of `ag` has recorded a message of `bob`, who has said
nothing at all and has written nothing. -/
theorem C133_counterexample : ∃ c : Setting (b! "bob") (b! "ag"), c.sender.heap = [] ∧
    (∀ e, ¬ WrittenBy c.W (b! "bob") e) ∧ (c.receiver.heap[0]?.map (·.incoming)) = some [Demo.lie] := by
  refine ⟨Demo.deceived, rfl, ?_, by decide +kernel⟩
  intro e h
  cases h with
  | agent x hx => exact absurd hx id
  | delegate d hd => exact absurd hd id
  | post q hq ha =>
    cases hq
    have : MailSpec.ownerOf Demo.forged.mailbox Demo.forged.request.session = some (b! "eve") := by decide +kernel
    rw [this] at ha
    exact absurd ha (by decide)

end WholeNet

end Verif
