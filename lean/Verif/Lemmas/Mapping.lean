import Verif.Lemmas.Frame

/-! Invariant of the map from incomplete to complete labels and of the terminal set. -/

namespace Verif

structure MInv (s : Sys) : Prop where
  key : ∀ l l' : DialogueLabel, s.incomplete.get l = some l' →
    l.reference.responder = [] ∧ l.reference.starter ≠ [] ∧
    l'.reference.starter = l.reference.starter ∧ l'.opponent = l.opponent ∧
    l'.starterAddr = l.starterAddr
  terminal : s.terminal.AllTrue

theorem MInv.init (me : Bytes) (keep : Bool) (rules : RulesDecl) : MInv (Sys.new me keep rules) :=
  ⟨by intro l l' h; simp [Sys.new] at h, GSet.allTrue_new⟩

theorem MInv.removeDialogue {s s' : Sys} {l : DialogueLabel} (hm : MInv s)
    (h : s.removeDialogue l = .ok s') : MInv s' := by
  obtain ⟨_, _, _, _, _, h6, h7, _⟩ := Sys.removeDialogue_ok h
  constructor
  · intro a b hab
    rw [h6, GoMap.get_erase] at hab
    split at hab
    · simp at hab
    · exact hm.key a b hab
  · rw [h7]; exact hm.terminal.remove l

theorem MInv.terminalCallback {s s' : Sys} {l : DialogueLabel} (hm : MInv s)
    (h : s.terminalCallback l = .ok s') : MInv s' := by
  unfold Sys.terminalCallback at h
  split at h
  · simp only [Res.ok.injEq] at h
    subst h
    exact ⟨hm.key, hm.terminal.add l⟩
  · exact hm.removeDialogue h

theorem MInv.runCallbacks {n : Nat} {s s' : Sys} {l : DialogueLabel} (hm : MInv s)
    (h : s.runCallbacks l n = .ok s') : MInv s' := by
  induction n generalizing s with
  | zero => simp only [Sys.runCallbacks, Res.ok.injEq] at h; subst h; exact hm
  | succ n ih =>
    unfold Sys.runCallbacks at h
    rw [Res.bind_eq_ok] at h
    obtain ⟨s1, h1, h2⟩ := h
    exact ih (hm.terminalCallback h1) h2

theorem MInv.dialogueUpdate {s s' : Sys} {p : Ptr} {m : Message} {r : Res DErr Message}
    (hm : MInv s) (h : s.dialogueUpdate p m = (s', r)) (hr : r ≠ .panic) : MInv s' := by
  rcases Sys.dialogueUpdate_cases h with hp | ⟨_, _, rfl⟩ | ⟨d, d', m', t, hd, hc, _, ht⟩
  · exact absurd hp hr
  · exact hm
  · have h1 : MInv (s.setHeap p d') := ⟨hm.key, hm.terminal⟩
    split at ht
    · exact h1.runCallbacks ht
    · rw [ht]; exact h1

theorem MInv.setIncomplete {s : Sys} (hm : MInv s) {i c : DialogueLabel}
    (h : i.reference.responder = [] ∧ i.reference.starter ≠ [] ∧
      c.reference.starter = i.reference.starter ∧ c.opponent = i.opponent ∧
      c.starterAddr = i.starterAddr) : MInv (s.setIncomplete i c) := by
  constructor
  · intro a b hab
    change (s.incomplete.set i c).get a = some b at hab
    rw [GoMap.get_set] at hab
    split at hab
    · rename_i e
      simp only [Option.some.injEq] at hab
      subst hab; subst e
      exact h
    · exact hm.key a b hab
  · exact hm.terminal

theorem MInv.create {s s' : Sys} {i : DialogueLabel} {c : Option DialogueLabel}
    {r : Res DErr Ptr} (hm : MInv s)
    (hk : ∀ c', c = some c' → i.reference.responder = [] ∧ i.reference.starter ≠ [] ∧
      c'.reference.starter = i.reference.starter ∧ c'.opponent = i.opponent ∧
      c'.starterAddr = i.starterAddr)
    (h : s.create i c = (s', r)) : MInv s' := by
  have h1 : MInv (s.mapped i c) := by
    cases c with
    | none => exact hm
    | some c => exact hm.setIncomplete (hk c rfl)
  rcases Sys.create_cases h with ⟨_, rfl, _⟩ | ⟨_, rfl, _⟩ | ⟨_, _, _, rfl⟩
  · exact hm
  · exact h1
  · exact ⟨h1.key, h1.terminal⟩

theorem MInv.createSelfInitiated {s s' : Sys} {o : Bytes} {ref : DialogueReference}
    {r : Res DErr Ptr} (hm : MInv s) (h : s.createSelfInitiated o ref = (s', r)) : MInv s' := by
  rcases Sys.createSelfInitiated_cases h with ⟨_, rfl⟩ | ⟨_, _, h⟩
  · exact hm
  · exact hm.create (by simp) h

theorem MInv.createOpponentInitiated {s s' : Sys} {o n : Bytes} {ref : DialogueReference}
    {r : Res DErr Ptr} (hm : MInv s) (h : s.createOpponentInitiated o ref n = (s', r)) :
    MInv s' := by
  rcases Sys.createOpponentInitiated_cases h with ⟨_, rfl⟩ | ⟨h1, h2, h⟩
  · exact hm
  · refine hm.create ?_ h
    intro c' hc'
    simp only [Option.some.injEq] at hc'
    subst hc'
    exact ⟨h2, h1, rfl, rfl, rfl⟩

theorem MInv.createDialogue {s s' : Sys} {cp : Bytes} {m : Message} {r : Res DErr (Option Ptr)}
    (hm : MInv s) (h : s.createDialogue cp m = (s', r)) (hr : r ≠ .panic) : MInv s' := by
  rcases Sys.createDialogue_cases h with ⟨e, _, h⟩ | hp | ⟨s1, p, hc, h⟩
  · exact hm.createSelfInitiated h
  · exact absurd hp hr
  · rcases h with ⟨m', hu, _⟩ | ⟨e, hu, _⟩
    · exact (hm.createSelfInitiated hc).dialogueUpdate hu (by simp)
    · exact (hm.createSelfInitiated hc).dialogueUpdate hu (by simp)

theorem MInv.completeReference {s s' : Sys} {m : Message} {r : Res DErr Unit} (hm : MInv s)
    (h : s.completeReference m = (s', r)) (hr : r ≠ .panic) : MInv s' := by
  rcases Sys.completeReference_cases h with hp | ⟨e, rfl, _⟩ |
    ⟨_, h1, _, rfl | ⟨p, s1, d, hp, _, hrm, hd, rfl⟩⟩
  · exact absurd hp hr
  · rw [Sys.completeReference_err h]; exact hm
  · exact hm
  · have h2 := hm.removeDialogue hrm
    refine MInv.setIncomplete ?_ ?_
    · exact ⟨h2.key, h2.terminal⟩
    · exact ⟨rfl, h1, rfl, rfl, rfl⟩

theorem MInv.updateFound {s s' : Sys} {m : Message} {isNew : Bool} {f : Option Ptr}
    {r : Res DErr (Option Ptr)} (hm : MInv s) (h : s.updateFound m isNew f = (s', r))
    (hr : r ≠ .panic) : MInv s' := by
  rcases Sys.updateFound_cases h with ⟨_, rfl, _⟩ | hp | ⟨p, _, ⟨m', hu, _⟩ | ⟨e, _, _, ⟨_, rfl⟩ | ⟨_, d, _, hrm⟩⟩⟩
  · exact hm
  · exact absurd hp hr
  · exact hm.dialogueUpdate hu (by simp)
  · exact hm
  · exact hm.removeDialogue hrm

theorem MInv.update {s s' : Sys} {m : Message} {n : Bytes} {r : Res DErr (Option Ptr)}
    (hm : MInv s) (h : s.update m n = (s', r)) (hnp : r ≠ .panic) : MInv s' := by
  rcases Sys.update_cases h with ⟨_, _, rfl, _⟩ | ⟨_, _, _, hcase⟩
  · exact hm
  rcases hcase with ⟨_, _, rfl, _⟩ | ⟨_, _, _, ⟨s1, p, hc, hf⟩ | ⟨e, hc, _⟩ | ⟨_, hp⟩⟩ |
    ⟨_, _, _, _, hf⟩ | ⟨_, ⟨s1, hc, hf⟩ | ⟨e, hc, _⟩ | ⟨_, hp⟩⟩
  · exact hm
  · exact (hm.createOpponentInitiated hc).updateFound hf hnp
  · exact hm.createOpponentInitiated hc
  · exact absurd hp hnp
  · exact hm.updateFound hf hnp
  · exact (hm.completeReference hc (by simp)).updateFound hf hnp
  · exact hm.completeReference hc (by simp)
  · exact absurd hp hnp

theorem MInv.reply {s s' : Sys} {p : Ptr} {perf : Bytes} {tm : Option Message}
    {tp : Option Int} {r : Res DErr Message} (hm : MInv s) (h : s.reply p perf tm tp = (s', r))
    (hr : r ≠ .panic) : MInv s' := by
  rcases Sys.reply_cases h with h' | ⟨_, _, rfl⟩ | ⟨d, m, _, _, hu⟩
  · exact absurd h' hr
  · exact hm
  · exact hm.dialogueUpdate hu hr

theorem MInv.call {s : Sys} (hm : MInv s) (c : Call) (hc : (s.call c).2 ≠ .crashed) :
    MInv (s.call c).1 := by
  refine Sys.call_cases hc (P := MInv) ?_ ?_ ?_ hm
  · intro cp m s' r _ _ h hr; exact hm.createDialogue h hr
  · intro m n s' r _ h hr; exact hm.update h hr
  · intro p perf tm tp s' r _ h hr; exact hm.reply h hr

theorem Reachable.minv {me : Bytes} {keep : Bool} {rules : RulesDecl} {s : Sys}
    (h : Reachable me keep rules s) : MInv s := by
  induction h with
  | init => exact MInv.init _ _ _
  | step c _ hc ih => exact ih.call c hc

theorem Reachable.later {me : Bytes} {keep : Bool} {rules : RulesDecl} {P : Sys → Call → Prop}
    {s s' : Sys} (h : Reachable me keep rules s) (hl : Later P s s') :
    Reachable me keep rules s' := by
  induction hl with
  | refl => exact h
  | step c _ _ hc ih => exact Reachable.step c ih hc

end Verif
