import Verif.Lemmas.FrameAll

/-!
# Properties C01, C02, C03, C07, C09

About single dialogues and what calls leave alone. All theorems are about every state
reachable by API calls with arbitrary arguments.
-/

namespace Verif

/-! ## A concrete agent for the examples

Rules of a small negotiation protocol. The agent `me` opens a dialogue with `bob`, who
answers, and `eve` opens one with the agent. -/

namespace Demo

def rules : RulesDecl where
  initial := [b! "cfp"]
  terminal := [b! "accept", b! "decline"]
  validReplies :=
    ((((GoMap.empty.set (b! "cfp") [b! "propose", b! "decline"]).set (b! "propose")
      [b! "counter", b! "accept", b! "decline"]).set (b! "counter")
      [b! "counter", b! "propose", b! "accept"]).set (b! "accept") []).set (b! "decline") []

def me : Bytes := b! "me"

def msg (sender to starter responder : Bytes) (id target : Int) (perf : Bytes) : Message :=
  { to := to, sender := sender, reference := ⟨starter, responder⟩, messageId := id,
    target := target, performative := perf }

def s0 : Sys := Sys.new me false rules

/-- `me` opens a dialogue with `bob` under the reference `n1`. -/
def c1 : Call := .create (b! "bob") (b! "cfp") (b! "n1")
def s1 : Sys := (s0.call c1).1

/-- `bob` answers and so completes the reference. -/
def c2 : Call := .update (msg (b! "bob") me (b! "n1") (b! "r1") (-1) 1 (b! "propose")) (b! "z")
def s2 : Sys := (s1.call c2).1

/-- `eve` opens a dialogue with `me`. -/
def c3 : Call := .update (msg (b! "eve") me (b! "e1") [] 1 0 (b! "cfp")) (b! "n2")
def s3 : Sys := (s2.call c3).1

/-- `me` sends a counter proposal to `bob`. -/
def c4 : Call := .reply 0 (b! "counter") none none
def s4 : Sys := (s3.call c4).1

theorem r0 : Reachable me false rules s0 := Reachable.init
theorem r1 : Reachable me false rules s1 := Reachable.step c1 r0 (by decide)
theorem r2 : Reachable me false rules s2 := Reachable.step c2 r1 (by decide)
theorem r3 : Reachable me false rules s3 := Reachable.step c3 r2 (by decide)
theorem r4 : Reachable me false rules s4 := Reachable.step c4 r3 (by decide)

/-- The example is not degenerate: three messages in the first dialogue, one in the second. -/
example : s4.heap.map (fun d => (d.outgoing.length, d.incoming.length)) = [(2, 1), (0, 1)] := by
  decide

end Demo

/-! ## C01 -/

/-- **C01.** Every dialogue an agent holds records a message sequence allowed by the rules the
user declared: the first message has id 1, target 0 and an initial performative; every later
one has a non-zero target and a performative that is a declared reply to that of some earlier
message. -/
theorem C01_recorded_messages_follow_rules {me : Bytes} {keep : Bool} {rules : RulesDecl}
    {s : Sys} (h : Reachable me keep rules s) {d : Dialogue} (hd : d ∈ s.heap) :
    ∃ ms, IsHistory me d ms ∧ FollowsRules rules ms := by
  obtain ⟨p, hp⟩ := List.getElem?_of_mem hd
  obtain ⟨ms, h1, h2, _⟩ := (h.inv.heap p d hp).history
  exact ⟨ms, h1, h2⟩

/-- Non-vacuity: the first dialogue of the demo agent has a history of three messages. -/
example : ∃ d ∈ Demo.s4.heap, ∃ ms, IsHistory Demo.me d ms ∧ FollowsRules Demo.rules ms ∧
    ms.length = 3 := by
  have hd : Demo.s4.heap[0]'(by decide) ∈ Demo.s4.heap := List.getElem_mem _
  obtain ⟨ms, h1, h2⟩ := C01_recorded_messages_follow_rules Demo.r4 hd
  refine ⟨_, hd, ms, h1, h2, ?_⟩
  have := congrArg List.length h1.ids
  rw [List.length_map] at this
  rw [← this]
  decide

/-! ## C02 -/

/-- **C02.** A call that reports an error, or ignores the message, leaves the message
histories of every existing dialogue exactly as they were. (Holds in every state, reachable
or not.) -/
theorem C02_refused_call_keeps_histories (s : Sys) (c : Call) (h : (s.call c).2.isRefusal)
    {p : Nat} {d : Dialogue} (hd : s.heap[p]? = some d) :
    ∃ d', (s.call c).1.heap[p]? = some d' ∧ SameMessages d d' :=
  Sys.call_same s c h p d hd

/-- Non-vacuity: a message with a wrong id is refused, in a state with two dialogues. -/
example : (Demo.s4.call (.update (Demo.msg (b! "bob") Demo.me (b! "n1") (b! "r1") (-7) 1
    (b! "propose")) (b! "z"))).2.isRefusal := by
  have : (Demo.s4.call (.update (Demo.msg (b! "bob") Demo.me (b! "n1") (b! "r1") (-7) 1
    (b! "propose")) (b! "z"))).2 = .failed .wrongMessageId := by decide
  rw [this]; trivial

/-! ## C03 -/

/-- **C03.** In every dialogue the agent's own messages carry the ids 1, 2, 3, ... if the agent
opened the dialogue, and -1, -2, -3, ... if the counterparty did. -/
theorem C03_own_messages_numbered {me : Bytes} {keep : Bool} {rules : RulesDecl}
    {s : Sys} (h : Reachable me keep rules s) {d : Dialogue} (hd : d ∈ s.heap) :
    OwnIdsConsecutive me d := by
  obtain ⟨p, hp⟩ := List.getElem?_of_mem hd
  exact (h.inv.heap p d hp).ownIds

/-- Non-vacuity: the demo agent has sent the messages 1 and 2 in its first dialogue. -/
example : (Demo.s4.heap[0]?.map fun d => d.outgoing.map (·.messageId)) = some [1, 2] := by decide

/-! ## C07 -/

/-- **C07.** Processing a message whose sender is `m.sender` leaves everything about dialogues
with other counterparties as it was: the dialogues themselves, look-up by label, by
counterparty and by message, and whether they are terminal. -/
theorem C07_other_counterparties_untouched {me : Bytes} {keep : Bool} {rules : RulesDecl}
    {s : Sys} (h : Reachable me keep rules s) (m : Message) (nonce : Bytes)
    (hc : (s.call (.update m nonce)).2 ≠ .crashed) :
    OthersUntouched m.sender s (s.call (.update m nonce)).1 := by
  simp only [Sys.call] at hc ⊢
  rcases hr : s.update m nonce with ⟨s', r⟩
  rw [hr] at hc
  refine (Frame.update h.inv hr ?_).others ?_
  · rintro rfl; exact hc rfl
  · intro l l' hl; exact (h.minv.key l l' hl).2.2.2.1

/-- **C07.** The same for every call of the API: a call about the counterparty `x` (opening a
dialogue with it, processing its message, replying to it) leaves everything about the others as
it was. -/
theorem C07_any_call {me : Bytes} {keep : Bool} {rules : RulesDecl} {s : Sys}
    (h : Reachable me keep rules s) {x : Bytes} (c : Call) (hx : Concerns x s c)
    (hc : (s.call c).2 ≠ .crashed) : OthersUntouched x s (s.call c).1 :=
  (Frame.call h.inv hx hc).others fun l l' hl => (h.minv.key l l' hl).2.2.2.1

/-- Non-vacuity: `eve`'s opening message does not crash, and `bob`'s dialogue is there. -/
example : (Demo.s2.call Demo.c3).2 ≠ .crashed ∧
    (Demo.s2.heap[0]?.map fun d => d.label.opponent) = some (b! "bob") := by decide

/-! ## C09 -/

/-- **C09.** A dialogue never changes its starter reference, counterparty or starter address,
and its responder reference never changes once it is set; messages once recorded stay, in
order. -/
theorem C09_reference_immutable {me : Bytes} {keep : Bool} {rules : RulesDecl} {s s' : Sys}
    (h : Reachable me keep rules s) (hl : Later AnyCall s s') {p : Nat} {d : Dialogue}
    (hd : s.heap[p]? = some d) :
    ∃ d', s'.heap[p]? = some d' ∧
      d'.label.reference.starter = d.label.reference.starter ∧
      d'.label.opponent = d.label.opponent ∧
      d'.label.starterAddr = d.label.starterAddr ∧
      (d.label.reference.responder ≠ [] →
        d'.label.reference.responder = d.label.reference.responder) ∧
      d.outgoing <+: d'.outgoing ∧ d.incoming <+: d'.incoming ∧ d.orderedIds <+: d'.orderedIds := by
  obtain ⟨d', hd', he⟩ := (Later.evolves h.inv hl).2 p d hd
  exact ⟨d', hd', he.starter, he.opponent, he.starterAddr, he.responder, he.outgoing,
    he.incoming, he.ids⟩

/-- Non-vacuity: between `s2` and `s4` two calls happen, and the first dialogue's reference is
complete. -/
example : Later AnyCall Demo.s2 Demo.s4 ∧
    (Demo.s2.heap[0]?.map fun d => d.label.reference) = some ⟨b! "n1", b! "r1"⟩ :=
  ⟨.step Demo.c4 (.step Demo.c3 (.refl _) trivial (by decide)) trivial (by decide), by decide⟩

end Verif
