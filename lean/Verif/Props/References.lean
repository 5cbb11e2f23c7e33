import Verif.Lemmas.FrameRef
import Verif.Props.Dialogue1

/-! Dialogues with the same counterparty do not disturb each other. -/

namespace Verif

/-- Everything that can be looked up about dialogues other than those with `x` and starter reference `n` is
the same in `s'` as in `s`. -/
structure OtherReferencesUntouched (x n : Bytes) (s s' : Sys) : Prop where
  dialogues : ∀ (p : Nat) (d : Dialogue), s.heap[p]? = some d →
    ¬ (d.label.opponent = x ∧ d.label.reference.starter = n) → s'.heap[p]? = some d
  byLabel : ∀ l : DialogueLabel, ¬ (l.opponent = x ∧ l.reference.starter = n) →
    s'.getByLabel l = s.getByLabel l
  byMessage : ∀ m : Message, ¬ (s.counterparty m = x ∧ m.reference.starter = n) →
    s'.getDialogue m = s.getDialogue m
  terminal : ∀ l : DialogueLabel, ¬ (l.opponent = x ∧ l.reference.starter = n) →
    s'.terminal.contains l = s.terminal.contains l

theorem RefFrame.untouched {x n : Bytes} {s s' : Sys} (h : RefFrame x n s s') (hm : MInv s) :
    OtherReferencesUntouched x n s s' where
  dialogues := h.heap
  byLabel := h.byLabel
  byMessage m hx := by
    have hcp : s'.counterparty m = s.counterparty m := by
      simp only [Sys.counterparty, h.selfEq]
    have key : ∀ l : DialogueLabel, ¬ About x n l →
        s'.getByLabel (s'.latestLabel l) = s.getByLabel (s.latestLabel l) := by
      intro l hl
      have e : s'.latestLabel l = s.latestLabel l := by
        simp only [Sys.latestLabel, h.incomplete l hl]
      rw [e]
      apply h.byLabel
      unfold Sys.latestLabel
      cases hg : s.incomplete.get l with
      | none => exact hl
      | some l' =>
        obtain ⟨_, _, e1, e2, _⟩ := hm.key l l' hg
        simp only [About, e1, e2]
        exact hl
    unfold Sys.getDialogue
    simp only [hcp, h.selfEq]
    rw [key ⟨m.reference, s.counterparty m, s.self⟩ hx,
      key ⟨m.reference, s.counterparty m, s.counterparty m⟩ hx]
  terminal := h.terminal

/-- **C07.** Processing a message leaves also the other dialogues with its sender as they were: all that have
another starter reference. -/
theorem C07_other_references_untouched {me : Bytes} {keep : Bool} {rules : RulesDecl}
    {s : Sys} (h : Reachable me keep rules s) (m : Message) (nonce : Bytes)
    (hc : (s.call (.update m nonce)).2 ≠ .crashed) :
    OtherReferencesUntouched m.sender m.reference.starter s (s.call (.update m nonce)).1 := by
  simp only [Sys.call] at hc ⊢
  rcases hr : s.update m nonce with ⟨s', r⟩
  rw [hr] at hc
  refine (RefFrame.update h.inv hr ?_).untouched h.minv
  rintro rfl; exact hc rfl

/-- Non-vacuity: a second dialogue of `bob` is opened beside the first, which is untouched and found. -/
example :
    let s := (Sys.call (Sys.new (b! "ann") false Demo.rules)
      (.update ⟨b! "ann", b! "bob", ⟨b! "n1", []⟩, 1, 0, b! "cfp"⟩ (b! "r1"))).1
    let c : Call := .update ⟨b! "ann", b! "bob", ⟨b! "n2", []⟩, 1, 0, b! "cfp"⟩ (b! "r2")
    (s.call c).2 = .accepted (some 1) none ∧
    (s.call c).1.getByLabel ⟨⟨b! "n1", b! "r1"⟩, b! "bob", b! "bob"⟩ = some 0 := by decide

end Verif
