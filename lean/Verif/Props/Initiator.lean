import Verif.Props.Numbering

/-!
# C63: an agent knows which dialogues it has opened
-/

namespace Verif

/-- `ms` begins with a message of `me`. -/
def BeginsWith (me : Bytes) (ms : List Message) : Prop := ∃ m rest, ms = m :: rest ∧ m.sender = me

/-- The dialogue and its label agree on who opened it. -/
theorem C63_label_agrees (d : Dialogue) : d.label.isSelfInitiated = d.isSelfInitiated := rfl

/-- **C63, partial.** A dialogue that is not empty, with another agent, begins with a message of the agent
itself exactly if it counts as opened by the agent and the counterparty has not used the id 1 in it. Missing
from the property: dialogues of the agent with itself, and dialogues that the agent failed to open. -/
theorem C63_initiator_partial {me : Bytes} {keep : Bool} {rules : RulesDecl} {s : Sys}
    (h : Reachable me keep rules s) {d : Dialogue} (hd : d ∈ s.heap) (hne : d.isEmpty = false)
    (ho : d.label.opponent ≠ me) :
    ∃ ms, IsHistory me d ms ∧
      (BeginsWith me ms ↔ d.isSelfInitiated = true ∧ ∀ m ∈ d.incoming, m.messageId ≠ 1) := by
  obtain ⟨p, hp⟩ := List.getElem?_of_mem hd
  have hi := h.inv.heap p d hp
  obtain ⟨ms, h1, h2, h3⟩ := hi.history
  refine ⟨ms, h1, ?_⟩
  rw [Dialogue.selfInit_iff hi ho]
  cases ms with
  | nil =>
    have := h1.nil_iff.1 rfl
    rw [this] at hne
    cases hne
  | cons m rest =>
    have hid := (h2.first m rest rfl).1
    constructor
    · rintro ⟨m', rest', he, hs⟩
      simp only [List.cons.injEq] at he
      obtain ⟨rfl, rfl⟩ := he
      have h0 : d.outgoing[0]? = some m := by rw [h1.outgoing]; simp [hs]
      have hown := hi.ownIds 0 m h0
      have hop : OpenedBySelf me d := by
        apply Classical.byContradiction
        intro hn
        have := hown.2 hn
        omega
      refine ⟨hop, ?_⟩
      intro x hx
      have hx' : x ∈ m :: rest := (h1.mem_iff x).2 (.inr hx)
      have hxs : x.sender ≠ me := by
        rw [h1.incoming] at hx
        simpa using (List.mem_filter.1 hx).2
      rcases List.mem_cons.1 hx' with rfl | hxr
      · exact absurd hs hxs
      · obtain ⟨a, b, rfl⟩ := List.append_of_mem hxr
        have hl : ∃ last, (m :: a).getLast? = some last := by
          cases hh : (m :: a).getLast? with
          | none => simp at hh
          | some l => exact ⟨l, rfl⟩
        obtain ⟨l, hl⟩ := hl
        have := (h3 (m :: a) x b (by simp) hxs l hl).2.2.1 hop
        omega
    · rintro ⟨_, hno⟩
      refine ⟨m, rest, rfl, ?_⟩
      apply Classical.byContradiction
      intro hs
      refine hno m ?_ hid
      rw [h1.incoming]
      simp [hs]

/-- **C63, partial.** A dialogue that does not count as opened by the agent begins with a message of the
counterparty. -/
theorem C63_other_opened_partial {me : Bytes} {keep : Bool} {rules : RulesDecl} {s : Sys}
    (h : Reachable me keep rules s) {d : Dialogue} (hd : d ∈ s.heap) (hne : d.isEmpty = false)
    (ho : d.label.opponent ≠ me) (hs : d.isSelfInitiated = false) :
    ∃ ms m rest, IsHistory me d ms ∧ ms = m :: rest ∧ m.sender = d.label.opponent := by
  obtain ⟨ms, h1, hiff⟩ := C63_initiator_partial h hd hne ho
  obtain ⟨p, hp⟩ := List.getElem?_of_mem hd
  have hi := h.inv.heap p d hp
  cases ms with
  | nil =>
    have := h1.nil_iff.1 rfl
    rw [this] at hne
    cases hne
  | cons m rest =>
    refine ⟨_, m, rest, h1, rfl, ?_⟩
    have hm : m.sender ≠ me := by
      intro hm
      have := (hiff.1 ⟨m, rest, rfl, hm⟩).1
      rw [this] at hs
      cases hs
    refine (hi.sentByPeer m ?_).1
    rw [h1.incoming]
    simp [hm]

/-- Both kinds occur. -/
example : Demo.s4.heap.map (fun d => (d.isSelfInitiated, d.incoming.map (·.messageId))) =
    [(true, [-1]), (false, [1])] := by decide

/-- **C63 is false** in a dialogue of the agent with itself: it has one message, sent by the agent, but does
not count as opened by it. -/
theorem C63_counterexample :
    ∃ s : Sys, Reachable Demo.me false Demo.rules s ∧ ∃ d ∈ s.heap, d.isSelfInitiated = false ∧
      d.outgoing.length = 1 ∧ d.incoming = [] := by
  exact ⟨Demo.runCalls Demo.s0 [.create Demo.me (b! "cfp") (b! "n1")],
    Demo.runCalls_reachable Demo.r0 _ (by decide), _, List.getElem_mem (n := 0) (by decide),
    by decide, by decide, by decide⟩

/-- **C63 is false** after an opening that failed: the dialogue counts as opened by the agent, but its only
message is one of the counterparty. -/
theorem C63_failed_opening_counterexample :
    ∃ s : Sys, Reachable Demo.me false Demo.rules s ∧ ∃ d ∈ s.heap, d.isSelfInitiated = true ∧
      d.outgoing = [] ∧ d.incoming.length = 1 := by
  exact ⟨Demo.runCalls Demo.s0 [.create (b! "bob") (b! "propose") (b! "n1"),
    .update (Demo.msg (b! "bob") Demo.me (b! "n1") (b! "r1") 1 0 (b! "cfp")) (b! "z")],
    Demo.runCalls_reachable Demo.r0 _ (by decide), _, List.getElem_mem (n := 0) (by decide),
    by decide, by decide, by decide⟩

end Verif
