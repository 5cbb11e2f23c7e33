import Verif.Lemmas.Mapping
import Verif.Spec.Conversation

/-! Calls about one counterparty leave everything about the others as it was. -/

namespace Verif

theorem Frame.ownUpdate {s s' : Sys} {p : Ptr} {d : Dialogue} {m : Message} {r : Res DErr Message}
    (hd : s.heap[p]? = some d) (hu : s.dialogueUpdate p m = (s', r)) (hr : r ≠ .panic) :
    Frame d.label.opponent s s' := by
  rcases Sys.dialogueUpdate_cases hu with hp | ⟨_, _, rfl⟩ | ⟨d0, d', m', t, hd0, hc, _, ht⟩
  · exact absurd hp hr
  · exact Frame.refl _ _
  · rw [hd] at hd0
    simp only [Option.some.injEq] at hd0
    subst hd0
    have hl : d'.label = d.label := by
      rw [(Dialogue.updateCore_ok hc).2.2.2.2, Dialogue.record_eq]
    have hf := Frame.setHeap (d' := d') hd rfl
    split at ht
    · have := Frame.runCallbacks ht
      rw [hl] at this
      exact hf.trans this
    · rw [ht]; exact hf

theorem Frame.createSelfInitiated {s s' : Sys} {o : Bytes} {ref : DialogueReference}
    {r : Res DErr Ptr} (h : s.createSelfInitiated o ref = (s', r)) : Frame o s s' := by
  rcases Sys.createSelfInitiated_cases h with ⟨_, rfl⟩ | ⟨_, _, h⟩
  · exact Frame.refl _ _
  · rcases Sys.create_cases h with ⟨_, rfl, _⟩ | ⟨_, rfl, _⟩ | ⟨_, _, _, rfl⟩
    · exact Frame.refl _ _
    · exact Frame.refl _ _
    · exact Frame.alloc _ ⟨ref, o, s.self⟩ _ rfl

theorem Frame.createDialogue {s s' : Sys} {cp : Bytes} {m : Message} {r : Res DErr (Option Ptr)}
    (h : s.createDialogue cp m = (s', r)) (hr : r ≠ .panic) : Frame cp s s' := by
  rcases Sys.createDialogue_cases h with ⟨e, _, h⟩ | hp | ⟨s1, p, hc, h⟩
  · exact Frame.createSelfInitiated h
  · exact absurd hp hr
  · refine (Frame.createSelfInitiated hc).trans ?_
    rcases Sys.createSelfInitiated_cases hc with ⟨he, _⟩ | ⟨_, _, hcr⟩
    · simp at he
    obtain ⟨hp, hheap, _⟩ := Sys.create_heap hcr
    have hd : s1.heap[p]? = some { Dialogue.new ⟨m.reference, cp, s.self⟩ s.self s.rules with
        callbacks := 1 } := by
      rw [hheap, hp, List.getElem?_append_right (Nat.le_refl _), Nat.sub_self]
      rfl
    rcases h with ⟨m', hu, _⟩ | ⟨e, hu, _⟩
    · exact Frame.ownUpdate hd hu (by simp)
    · exact Frame.ownUpdate hd hu (by simp)

/-- Any call about `x` leaves everything about other counterparties as it was. -/
theorem Frame.call {me : Bytes} {keep : Bool} {rules : RulesDecl} {s : Sys} {x : Bytes} {c : Call}
    (hi : SInv me keep rules s) (hx : Concerns x s c) (hc : (s.call c).2 ≠ .crashed) :
    Frame x s (s.call c).1 := by
  cases c with
  | create cp perf nonce =>
    simp only [Sys.call] at hc ⊢
    rcases hr : s.createNew cp perf nonce with ⟨s', r⟩
    rw [hr] at hc
    obtain ⟨r0, hd, hr0⟩ := Sys.createNew_cases hr
    have hcp : cp = x := hx
    subst hcp
    refine Frame.createDialogue hd ?_
    rintro rfl
    rw [hr0] at hc
    exact hc rfl
  | createWith cp m =>
    simp only [Sys.call] at hc ⊢
    rcases hr : s.createWithMessage cp m with ⟨s', r⟩
    rw [hr] at hc
    have hcp : cp = x := hx
    subst hcp
    rcases Sys.createWithMessage_cases hr with ⟨_, _, rfl⟩ | ⟨_, _, hd⟩
    · exact Frame.refl _ _
    · refine Frame.createDialogue hd ?_
      rintro rfl
      exact hc rfl
  | update m nonce =>
    simp only [Sys.call] at hc ⊢
    rcases hr : s.update m nonce with ⟨s', r⟩
    rw [hr] at hc
    have hcp : m.sender = x := hx
    subst hcp
    refine Frame.update hi hr ?_
    rintro rfl
    exact hc rfl
  | reply p perf tm tp =>
    simp only [Sys.call] at hc ⊢
    rcases hr : s.reply p perf tm tp with ⟨s', r⟩
    rw [hr] at hc
    rcases Sys.reply_cases hr with h' | ⟨_, _, rfl⟩ | ⟨d, m, hd, _, hu⟩
    · subst h'; exact absurd rfl hc
    · exact Frame.refl _ _
    · rw [← hx d hd]
      refine Frame.ownUpdate hd hu ?_
      rintro rfl
      exact hc rfl

end Verif
