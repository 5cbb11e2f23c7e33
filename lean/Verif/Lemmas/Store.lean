import Verif.Lemmas.DialogueInv

/-! Lemmas about the store and the unconditional system invariant. -/

namespace Verif

namespace Sys

theorem removeFromArray_not_err {heap : List Dialogue} {a : List Ptr} {l : DialogueLabel} {e : DErr} :
    removeFromArray heap a l ≠ .err e := by
  unfold removeFromArray
  simp only
  split <;> simp

theorem removeDialogue_ok {s s' : Sys} {l : DialogueLabel} (h : s.removeDialogue l = .ok s') :
    s'.self = s.self ∧ s'.keepTerminal = s.keepTerminal ∧ s'.rules = s.rules ∧
    s'.heap = s.heap ∧ s'.byLabel = s.byLabel.erase l ∧ s'.incomplete = s.incomplete.erase l ∧
    s'.terminal = s.terminal.remove l ∧
    (if s.byLabel.has l = true then
      ∃ arr, removeFromArray s.heap (s.addressList l.opponent) l = .ok arr ∧
        s'.byAddress = s.byAddress.set l.opponent arr
     else s'.byAddress = s.byAddress) := by
  unfold removeDialogue at h
  simp only at h
  by_cases hh : s.byLabel.has l = true
  · rw [if_pos hh, Res.bind_eq_ok] at h
    obtain ⟨arr, h1, h2⟩ := h
    simp only [Res.ok.injEq] at h2
    subst h2
    refine ⟨rfl, rfl, rfl, rfl, rfl, rfl, rfl, ?_⟩
    rw [if_pos hh]
    exact ⟨arr, h1, rfl⟩
  · rw [if_neg hh] at h
    simp only [Res.ok.injEq] at h
    subst h
    refine ⟨rfl, rfl, rfl, rfl, rfl, rfl, rfl, ?_⟩
    rw [if_neg hh]

theorem removeDialogue_not_err {s : Sys} {l : DialogueLabel} {e : DErr} :
    s.removeDialogue l ≠ .err e := by
  unfold removeDialogue
  simp only
  split
  · rw [ne_eq, Res.bind_eq_err]
    rintro (h | ⟨_, _, h⟩)
    · exact removeFromArray_not_err h
    · simp at h
  · simp

theorem terminalCallback_not_err {s : Sys} {l : DialogueLabel} {e : DErr} :
    s.terminalCallback l ≠ .err e := by
  unfold terminalCallback
  split
  · simp
  · exact removeDialogue_not_err

theorem runCallbacks_not_err {n : Nat} {s : Sys} {l : DialogueLabel} {e : DErr} :
    s.runCallbacks l n ≠ .err e := by
  induction n generalizing s with
  | zero => simp [runCallbacks]
  | succ n ih =>
    unfold runCallbacks
    rw [ne_eq, Res.bind_eq_err]
    rintro (h | ⟨_, _, h⟩)
    · exact terminalCallback_not_err h
    · exact ih h

end Sys

/-- `s'` differs from `s` in the indices only, and its label index is a part of that of `s`. -/
structure Shrinks (s s' : Sys) : Prop where
  self : s'.self = s.self
  keep : s'.keepTerminal = s.keepTerminal
  rules : s'.rules = s.rules
  heap : s'.heap = s.heap
  byLabel : ∀ l p, s'.byLabel.get l = some p → s.byLabel.get l = some p

theorem Shrinks.refl (s : Sys) : Shrinks s s := ⟨rfl, rfl, rfl, rfl, fun _ _ h => h⟩

theorem Shrinks.trans {a b c : Sys} (h1 : Shrinks a b) (h2 : Shrinks b c) : Shrinks a c :=
  ⟨h2.self.trans h1.self, h2.keep.trans h1.keep, h2.rules.trans h1.rules,
   h2.heap.trans h1.heap, fun l p h => h1.byLabel l p (h2.byLabel l p h)⟩

namespace Sys

theorem removeDialogue_shrinks {s s' : Sys} {l : DialogueLabel} (h : s.removeDialogue l = .ok s') :
    Shrinks s s' := by
  obtain ⟨h1, h2, h3, h4, h5, _⟩ := removeDialogue_ok h
  refine ⟨h1, h2, h3, h4, ?_⟩
  intro l' p hp
  rw [h5, GoMap.get_erase] at hp
  split at hp
  · simp at hp
  · exact hp

theorem terminalCallback_shrinks {s s' : Sys} {l : DialogueLabel}
    (h : s.terminalCallback l = .ok s') : Shrinks s s' := by
  unfold terminalCallback at h
  split at h
  · simp only [Res.ok.injEq] at h
    subst h
    exact ⟨rfl, rfl, rfl, rfl, fun _ _ h => h⟩
  · exact removeDialogue_shrinks h

theorem runCallbacks_shrinks {n : Nat} {s s' : Sys} {l : DialogueLabel}
    (h : s.runCallbacks l n = .ok s') : Shrinks s s' := by
  induction n generalizing s with
  | zero => simp only [runCallbacks, Res.ok.injEq] at h; subst h; exact Shrinks.refl s
  | succ n ih =>
    unfold runCallbacks at h
    rw [Res.bind_eq_ok] at h
    obtain ⟨s1, h1, h2⟩ := h
    exact (terminalCallback_shrinks h1).trans (ih h2)

/-- The possible results of `dialogue.update` through a pointer. -/
theorem dialogueUpdate_cases {s s' : Sys} {p : Ptr} {msg : Message} {r : Res DErr Message}
    (h : s.dialogueUpdate p msg = (s', r)) :
    r = .panic ∨ (∃ e, r = .err e ∧ s' = s) ∨
    ∃ d d' m t, s.heap[p]? = some d ∧ d.updateCore msg = .ok (d', m, t) ∧ r = .ok m ∧
      (if t = true then (s.setHeap p d').runCallbacks d'.label d'.callbacks = .ok s'
       else s' = s.setHeap p d') := by
  unfold dialogueUpdate at h
  cases hd : s.heap[p]? with
  | none => rw [hd] at h; simp only [Prod.mk.injEq] at h; exact Or.inl h.2.symm
  | some d =>
    rw [hd] at h
    simp only at h
    cases hu : d.updateCore msg with
    | panic => rw [hu] at h; simp only [Prod.mk.injEq] at h; exact Or.inl h.2.symm
    | err e =>
      rw [hu] at h
      simp only [Prod.mk.injEq] at h
      exact Or.inr (Or.inl ⟨e, h.2.symm, h.1.symm⟩)
    | ok x =>
      obtain ⟨d', m, t⟩ := x
      rw [hu] at h
      simp only at h
      by_cases ht : t = true
      · rw [if_pos ht] at h
        cases hc : (s.setHeap p d').runCallbacks d'.label d'.callbacks with
        | panic => rw [hc] at h; simp only [Prod.mk.injEq] at h; exact Or.inl h.2.symm
        | err e => exact absurd hc runCallbacks_not_err
        | ok s2 =>
          rw [hc] at h
          simp only [Prod.mk.injEq] at h
          refine Or.inr (Or.inr ⟨d, d', m, t, rfl, hu, h.2.symm, ?_⟩)
          rw [if_pos ht, hc, h.1]
      · rw [if_neg ht] at h
        simp only [Prod.mk.injEq] at h
        refine Or.inr (Or.inr ⟨d, d', m, t, rfl, hu, h.2.symm, ?_⟩)
        rw [if_neg ht, h.1]

end Sys

/-- Invariant of every reachable state. -/
structure SInv (me : Bytes) (keep : Bool) (rules : RulesDecl) (s : Sys) : Prop where
  selfEq : s.self = me
  keepEq : s.keepTerminal = keep
  rulesEq : s.rules = rules
  heap : ∀ (p : Nat) (d : Dialogue), s.heap[p]? = some d → DInv me rules d
  label : ∀ (l : DialogueLabel) (p : Nat), s.byLabel.get l = some p → ∃ d, s.heap[p]? = some d ∧ d.label = l

section
variable {me : Bytes} {keep : Bool} {rules : RulesDecl}

theorem SInv.shrinks {s s' : Sys} (h : SInv me keep rules s) (hs : Shrinks s s') :
    SInv me keep rules s' where
  selfEq := by rw [hs.self, h.selfEq]
  keepEq := by rw [hs.keep, h.keepEq]
  rulesEq := by rw [hs.rules, h.rulesEq]
  heap := by rw [hs.heap]; exact h.heap
  label := by rw [hs.heap]; exact fun l p hp => h.label l p (hs.byLabel l p hp)

theorem getElem?_set_cases {α : Type} {l : List α} {i j : Nat} {a b : α}
    (h : (l.set i a)[j]? = some b) : (j = i ∧ b = a) ∨ (j ≠ i ∧ l[j]? = some b) := by
  by_cases hij : j = i
  · subst hij
    rw [List.getElem?_set] at h
    simp only [if_true] at h
    split at h
    · simp at h; exact Or.inl ⟨rfl, h.symm⟩
    · simp at h
  · rw [List.getElem?_set_ne (fun e => hij e.symm)] at h
    exact Or.inr ⟨hij, h⟩

theorem getElem?_set_self_of_some {α : Type} {l : List α} {i : Nat} {a b : α}
    (h : l[i]? = some b) : (l.set i a)[i]? = some a := by
  obtain ⟨hlt, _⟩ := List.getElem?_eq_some_iff.1 h
  rw [List.getElem?_set]
  simp [hlt]

theorem SInv.setHeap {s : Sys} (h : SInv me keep rules s) {p : Ptr} {d d' : Dialogue}
    (hd : s.heap[p]? = some d) (hl : d'.label = d.label) (hi : DInv me rules d') :
    SInv me keep rules (s.setHeap p d') where
  selfEq := h.selfEq
  keepEq := h.keepEq
  rulesEq := h.rulesEq
  heap := by
    intro q x hx
    rcases getElem?_set_cases hx with ⟨_, rfl⟩ | ⟨_, hx⟩
    · exact hi
    · exact h.heap q x hx
  label := by
    intro l q hq
    obtain ⟨x, hx, hxl⟩ := h.label l q hq
    by_cases hqp : q = p
    · subst hqp
      refine ⟨d', getElem?_set_self_of_some hd, ?_⟩
      rw [hd] at hx
      simp only [Option.some.injEq] at hx
      rw [hl, hx, hxl]
    · exact ⟨x, by rw [← hx]; exact List.getElem?_set_ne (fun e => hqp e.symm), hxl⟩

theorem SInv.dialogueUpdate {s s' : Sys} {p : Ptr} {msg : Message} {r : Res DErr Message}
    (h : SInv me keep rules s) (hu : s.dialogueUpdate p msg = (s', r)) (hr : r ≠ .panic)
    (ho : ∀ d, s.heap[p]? = some d → Offered me d msg) : SInv me keep rules s' := by
  rcases Sys.dialogueUpdate_cases hu with hp | ⟨e, _, rfl⟩ | ⟨d, d', m, t, hd, hc, _, ht⟩
  · exact absurd hp hr
  · exact h
  · have hd' := (h.heap p d hd).update (ho d hd) hc
    have hl : d'.label = d.label := by
      rw [(Dialogue.updateCore_ok hc).2.2.2.2, Dialogue.record_eq]
    have h1 := h.setHeap hd hl hd'
    split at ht
    · exact h1.shrinks (Sys.runCallbacks_shrinks ht)
    · rw [ht]; exact h1

/-- Allocating a fresh dialogue and adding it to the store. -/
theorem SInv.alloc {s : Sys} (h : SInv me keep rules s) {l : DialogueLabel}
    (hk : l.starterAddr = me ∨ (l.starterAddr = l.opponent ∧ l.opponent ≠ me)) :
    SInv me keep rules (({ s with heap := s.heap ++ [Dialogue.new l s.self s.rules] } : Sys).addDialogue
      s.heap.length (Dialogue.new l s.self s.rules)) where
  selfEq := h.selfEq
  keepEq := h.keepEq
  rulesEq := h.rulesEq
  heap := by
    intro q x hx
    rcases getElem?_set_cases hx with ⟨_, rfl⟩ | ⟨hne, hx⟩
    · rw [h.selfEq, h.rulesEq]; exact DInv.new hk
    · rw [List.getElem?_append] at hx
      split at hx
      · exact h.heap q x hx
      · rename_i hlt
        have : q - s.heap.length ≠ 0 := by omega
        obtain ⟨k, hk⟩ := Nat.exists_eq_succ_of_ne_zero this
        rw [hk] at hx
        simp at hx
  label := by
    intro l' q hq
    simp only [Sys.addDialogue] at hq ⊢
    rw [GoMap.get_set] at hq
    split at hq
    · rename_i hl
      simp only [Option.some.injEq] at hq
      subst hq
      refine ⟨_, getElem?_set_self_of_some (b := Dialogue.new l s.self s.rules) (by simp), ?_⟩
      exact hl.symm
    · obtain ⟨x, hx, hxl⟩ := h.label l' q hq
      have hlt : q < s.heap.length := (List.getElem?_eq_some_iff.1 hx).1
      refine ⟨x, ?_, hxl⟩
      rw [List.getElem?_set_ne (by omega), List.getElem?_append_left hlt]
      exact hx

/-- The state after the optional `setIncompleteDialogue` of `create`. -/
def Sys.mapped (s : Sys) (i : DialogueLabel) : Option DialogueLabel → Sys
  | none => s
  | some c => s.setIncomplete i c

/-- Results of `create`. -/
theorem Sys.create_cases {s s' : Sys} {i : DialogueLabel} {c : Option DialogueLabel}
    {r : Res DErr Ptr} (h : s.create i c = (s', r)) :
    (r = .err .incompletePresent ∧ s' = s ∧ s.incomplete.has i = true) ∨
    (r = .err .labelPresent ∧ s' = s.mapped i c ∧ s.incomplete.has i = false ∧ s.byLabel.has (c.getD i) = true) ∨
    (r = .ok s.heap.length ∧ s.incomplete.has i = false ∧ s.byLabel.has (c.getD i) = false ∧
      s' = ({ s.mapped i c with heap := (s.mapped i c).heap ++ [Dialogue.new (c.getD i) (s.mapped i c).self (s.mapped i c).rules] } : Sys).addDialogue
        (s.mapped i c).heap.length (Dialogue.new (c.getD i) (s.mapped i c).self (s.mapped i c).rules)) := by
  unfold Sys.create at h
  by_cases h1 : s.isInIncomplete i = true
  · rw [if_pos h1] at h
    simp only [Prod.mk.injEq] at h
    exact Or.inl ⟨h.2.symm, h.1.symm, h1⟩
  · rw [if_neg h1] at h
    have h1 : s.incomplete.has i = false := by simpa [Sys.isInIncomplete] using h1
    cases c with
    | none =>
      simp only [Option.getD_none] at h ⊢
      by_cases h2 : s.isPresent i = true
      · rw [if_pos h2] at h
        simp only [Prod.mk.injEq] at h
        exact Or.inr (Or.inl ⟨h.2.symm, h.1.symm, h1, h2⟩)
      · rw [if_neg h2] at h
        simp only [Prod.mk.injEq] at h
        exact Or.inr (Or.inr ⟨h.2.symm, h1, by simpa [Sys.isPresent] using h2, h.1.symm⟩)
    | some c =>
      simp only [Option.getD_some] at h ⊢
      by_cases h2 : (s.setIncomplete i c).isPresent c = true
      · rw [if_pos h2] at h
        simp only [Prod.mk.injEq] at h
        exact Or.inr (Or.inl ⟨h.2.symm, h.1.symm, h1, h2⟩)
      · rw [if_neg h2] at h
        simp only [Prod.mk.injEq] at h
        exact Or.inr (Or.inr ⟨h.2.symm, h1,
          by simpa [Sys.isPresent, Sys.setIncomplete] using h2, h.1.symm⟩)

theorem SInv.setIncomplete {s : Sys} (h : SInv me keep rules s) (i c : DialogueLabel) :
    SInv me keep rules (s.setIncomplete i c) :=
  ⟨h.selfEq, h.keepEq, h.rulesEq, h.heap, h.label⟩

theorem SInv.create {s s' : Sys} {i : DialogueLabel} {c : Option DialogueLabel}
    {r : Res DErr Ptr} (h : SInv me keep rules s)
    (hk : (c.getD i).starterAddr = me ∨
      ((c.getD i).starterAddr = (c.getD i).opponent ∧ (c.getD i).opponent ≠ me))
    (hc : s.create i c = (s', r)) : SInv me keep rules s' := by
  rcases Sys.create_cases hc with ⟨_, rfl, _⟩ | ⟨_, rfl, _⟩ | ⟨_, _, _, rfl⟩
  · exact h
  · cases c with
    | none => exact h
    | some c => exact h.setIncomplete i c
  · cases c with
    | none => exact h.alloc hk
    | some c => exact (h.setIncomplete i c).alloc hk

/-- The dialogue just created. -/
theorem Sys.create_heap {s s' : Sys} {i : DialogueLabel} {c : Option DialogueLabel} {p : Ptr}
    (hc : s.create i c = (s', .ok p)) :
    p = s.heap.length ∧
    s'.heap = s.heap ++ [{ Dialogue.new (c.getD i) s.self s.rules with callbacks := 1 }] ∧
    s'.byLabel = s.byLabel.set (c.getD i) p := by
  rcases Sys.create_cases hc with ⟨h, _⟩ | ⟨h, _⟩ | ⟨h, _, _, h'⟩
  · simp at h
  · simp at h
  · simp only [Res.ok.injEq] at h
    subst h
    cases c with
    | none => subst h'; refine ⟨rfl, ?_, rfl⟩; simp [Sys.addDialogue, Dialogue.new, Sys.mapped]
    | some c =>
      subst h'
      refine ⟨rfl, ?_, rfl⟩
      simp [Sys.addDialogue, Dialogue.new, Sys.mapped, Sys.setIncomplete]

/-- Results of `createSelfInitiated` and `createOpponentInitiated` in terms of `create`. -/
theorem Sys.createSelfInitiated_cases {s s' : Sys} {o : Bytes} {ref : DialogueReference}
    {r : Res DErr Ptr} (h : s.createSelfInitiated o ref = (s', r)) :
    (r = .err .preassignedResponder ∧ s' = s) ∨
    (ref.starter ≠ [] ∧ ref.responder = [] ∧
      s.create { reference := ref, opponent := o, starterAddr := s.self } none = (s', r)) := by
  unfold Sys.createSelfInitiated at h
  split at h
  · rename_i hr; exact Or.inr ⟨hr.1, hr.2, h⟩
  · simp only [Prod.mk.injEq] at h; exact Or.inl ⟨h.2.symm, h.1.symm⟩

theorem Sys.createOpponentInitiated_cases {s s' : Sys} {o nonce : Bytes} {ref : DialogueReference}
    {r : Res DErr Ptr} (h : s.createOpponentInitiated o ref nonce = (s', r)) :
    (r = .err .preassignedResponder ∧ s' = s) ∨
    (ref.starter ≠ [] ∧ ref.responder = [] ∧
      s.create { reference := ref, opponent := o, starterAddr := o }
        (some { reference := ⟨ref.starter, nonce⟩, opponent := o, starterAddr := o }) = (s', r)) := by
  unfold Sys.createOpponentInitiated at h
  split at h
  · rename_i hr; exact Or.inr ⟨hr.1, hr.2, h⟩
  · simp only [Prod.mk.injEq] at h; exact Or.inl ⟨h.2.symm, h.1.symm⟩

theorem SInv.createSelfInitiated {s s' : Sys} {o : Bytes} {ref : DialogueReference}
    {r : Res DErr Ptr} (h : SInv me keep rules s)
    (hc : s.createSelfInitiated o ref = (s', r)) : SInv me keep rules s' := by
  rcases Sys.createSelfInitiated_cases hc with ⟨_, rfl⟩ | ⟨_, _, hc⟩
  · exact h
  · refine SInv.create h ?_ hc
    exact Or.inl h.selfEq

theorem SInv.createOpponentInitiated {s s' : Sys} {o nonce : Bytes} {ref : DialogueReference}
    {r : Res DErr Ptr} (h : SInv me keep rules s) (ho : o ≠ me)
    (hc : s.createOpponentInitiated o ref nonce = (s', r)) : SInv me keep rules s' := by
  rcases Sys.createOpponentInitiated_cases hc with ⟨_, rfl⟩ | ⟨_, _, hc⟩
  · exact h
  · refine SInv.create h ?_ hc
    exact Or.inr ⟨rfl, ho⟩

/-- Results of `createDialogue`. -/
theorem Sys.createDialogue_cases {s s' : Sys} {cp : Bytes} {m : Message}
    {r : Res DErr (Option Ptr)} (h : s.createDialogue cp m = (s', r)) :
    (∃ e, r = .err e ∧ s.createSelfInitiated cp m.reference = (s', .err e)) ∨
    (r = .panic) ∨
    (∃ s1 p, s.createSelfInitiated cp m.reference = (s1, .ok p) ∧
      ((∃ m', s1.dialogueUpdate p m = (s', .ok m') ∧ r = .ok (some p)) ∨
       (∃ e, s1.dialogueUpdate p m = (s', .err e) ∧ r = .ok none))) := by
  unfold Sys.createDialogue at h
  rcases hc : s.createSelfInitiated cp m.reference with ⟨s1, r1⟩
  rw [hc] at h
  cases r1 with
  | err e => simp only [Prod.mk.injEq] at h; exact Or.inl ⟨e, h.2.symm, by rw [h.1]⟩
  | panic => simp only [Prod.mk.injEq] at h; exact Or.inr (Or.inl h.2.symm)
  | ok p =>
    simp only at h
    rcases hu : s1.dialogueUpdate p m with ⟨s2, r2⟩
    rw [hu] at h
    cases r2 with
    | ok m' =>
      simp only [Prod.mk.injEq] at h
      exact Or.inr (Or.inr ⟨s1, p, rfl, Or.inl ⟨m', by rw [hu, h.1], h.2.symm⟩⟩)
    | err e =>
      simp only [Prod.mk.injEq] at h
      exact Or.inr (Or.inr ⟨s1, p, rfl, Or.inr ⟨e, by rw [hu, h.1], h.2.symm⟩⟩)
    | panic => simp only [Prod.mk.injEq] at h; exact Or.inr (Or.inl h.2.symm)

theorem SInv.createDialogue {s s' : Sys} {cp : Bytes} {m : Message} {r : Res DErr (Option Ptr)}
    (h : SInv me keep rules s) (hs : m.sender = me) (ht : m.to = cp)
    (hc : s.createDialogue cp m = (s', r)) (hr : r ≠ .panic) : SInv me keep rules s' := by
  rcases Sys.createDialogue_cases hc with ⟨e, _, hc⟩ | hp | ⟨s1, p, hc1, hc2⟩
  · exact h.createSelfInitiated hc
  · exact absurd hp hr
  · have h1 := h.createSelfInitiated hc1
    rcases Sys.createSelfInitiated_cases hc1 with ⟨he, _⟩ | ⟨_, _, hcr⟩
    · simp at he
    obtain ⟨hp, hheap, _⟩ := Sys.create_heap hcr
    have ho : ∀ d, s1.heap[p]? = some d → Offered me d m := by
      intro d hd
      rw [hheap, hp] at hd
      simp at hd
      subst hd
      refine Offered.own hs ?_ ?_ ?_
      · simpa [Dialogue.new] using ht
      · intro _; simpa [Dialogue.new] using h.selfEq
      · intro he; simp [Dialogue.new, Dialogue.isEmpty] at he
    rcases hc2 with ⟨m', hu, _⟩ | ⟨e, hu, _⟩
    · exact h1.dialogueUpdate hu (by simp) ho
    · exact h1.dialogueUpdate hu (by simp) ho

/-- Results of `completeReference`. -/
theorem Sys.completeReference_cases {s s' : Sys} {m : Message} {r : Res DErr Unit}
    (h : s.completeReference m = (s', r)) :
    r = .panic ∨ (∃ e, r = .err e ∧ (s' = s ∨ e = .labelCannotBeUpdated)) ∨
    (r = .ok () ∧ m.reference.starter ≠ [] ∧ m.reference.responder ≠ [] ∧
      (s' = s ∨
       ∃ p s1 d, s.byLabel.get ⟨⟨m.reference.starter, []⟩, m.sender, s.self⟩ = some p ∧
        s.incomplete.has ⟨⟨m.reference.starter, []⟩, m.sender, s.self⟩ = false ∧
        s.removeDialogue ⟨⟨m.reference.starter, []⟩, m.sender, s.self⟩ = .ok s1 ∧
        s1.heap[p]? = some d ∧
        s' = (s1.addDialogue p { d with label := ⟨m.reference, m.sender, s.self⟩ }).setIncomplete
          ⟨⟨m.reference.starter, []⟩, m.sender, s.self⟩ ⟨m.reference, m.sender, s.self⟩)) := by
  unfold Sys.completeReference at h
  simp only [unassigned] at h
  split at h
  · simp only [Prod.mk.injEq] at h
    exact Or.inr (Or.inl ⟨_, h.2.symm, Or.inl h.1.symm⟩)
  rename_i href
  have href := Classical.not_not.1 href
  split at h
  case isFalse =>
    simp only [Prod.mk.injEq] at h
    exact Or.inr (Or.inr ⟨h.2.symm, href.1, href.2, Or.inl h.1.symm⟩)
  rename_i hg
  simp only [Bool.and_eq_true, Bool.not_eq_true'] at hg
  cases hp : s.getByLabel ⟨⟨m.reference.starter, []⟩, m.sender, s.self⟩ with
  | none =>
    rw [hp] at h
    simp only [Prod.mk.injEq] at h
    exact Or.inr (Or.inl ⟨_, h.2.symm, Or.inl h.1.symm⟩)
  | some p =>
    rw [hp] at h
    simp only at h
    cases hrm : s.removeDialogue ⟨⟨m.reference.starter, []⟩, m.sender, s.self⟩ with
    | panic => rw [hrm] at h; simp only [Prod.mk.injEq] at h; exact Or.inl h.2.symm
    | err e => exact absurd hrm Sys.removeDialogue_not_err
    | ok s1 =>
      rw [hrm] at h
      simp only at h
      cases hd : s1.heap[p]? with
      | none => rw [hd] at h; simp only [Prod.mk.injEq] at h; exact Or.inl h.2.symm
      | some d =>
        rw [hd] at h
        simp only at h
        unfold Dialogue.updateLabel at h
        split at h
        · rename_i he
          split at he
          · simp at he
          · simp at he
        · rename_i he
          simp only [Prod.mk.injEq] at h
          split at he
          · simp only [Res.err.injEq] at he
            exact Or.inr (Or.inl ⟨_, h.2.symm, Or.inr he.symm⟩)
          · simp at he
        · rename_i d1 he
          simp only [Prod.mk.injEq] at h
          split at he
          · simp at he
          · simp only [Res.ok.injEq] at he
            refine Or.inr (Or.inr ⟨h.2.symm, href.1, href.2, Or.inr ⟨p, s1, d, hp, ?_, rfl, hd, ?_⟩⟩)
            · exact hg.2
            · rw [← h.1, ← he]

/-- The error branch of `updateDialogueLabel` is never taken, because both references of
the message are set. -/
theorem Sys.completeReference_err {s s' : Sys} {m : Message} {e : DErr}
    (h : s.completeReference m = (s', .err e)) : s' = s := by
  by_cases hr : m.reference.starter ≠ [] ∧ m.reference.responder ≠ []
  · rcases Sys.completeReference_cases h with hp | ⟨e', he, h' | h'⟩ | ⟨hp, _⟩
    · simp at hp
    · exact h'
    · exfalso
      subst h'
      simp only [Res.err.injEq] at he
      subst he
      unfold Sys.completeReference at h
      simp only [unassigned] at h
      rw [if_neg (by simpa using hr)] at h
      split at h
      · split at h
        · simp at h
        · split at h
          · simp at h
          · rename_i hrm; exact Sys.removeDialogue_not_err hrm
          · split at h
            · simp at h
            · rename_i d hd
              have : d.updateLabel ⟨m.reference, m.sender, s.self⟩ =
                  .ok { d with label := ⟨m.reference, m.sender, s.self⟩ } := by
                unfold Dialogue.updateLabel
                rw [if_neg]
                rintro ⟨_, hx⟩
                exact hr.2 hx
              rw [this] at h
              simp at h
      · simp at h
    · simp at hp
  · unfold Sys.completeReference at h
    simp only [unassigned] at h
    rw [if_pos hr] at h
    simp only [Prod.mk.injEq] at h
    exact h.1.symm

theorem SInv.completeReference {s s' : Sys} {m : Message} {r : Res DErr Unit}
    (h : SInv me keep rules s) (hc : s.completeReference m = (s', r)) (hr : r ≠ .panic) :
    SInv me keep rules s' := by
  rcases Sys.completeReference_cases hc with hp | ⟨e, rfl, _⟩ | ⟨_, _, _, rfl | ⟨p, s1, d, hp, _, hrm, hd, rfl⟩⟩
  · exact absurd hp hr
  · rw [Sys.completeReference_err hc]; exact h
  · exact h
  · have h1 := h.shrinks (Sys.removeDialogue_shrinks hrm)
    have hbl := (Sys.removeDialogue_ok hrm).2.2.2.2.1
    have hheap := (Sys.removeDialogue_ok hrm).2.2.2.1
    obtain ⟨d0, hd0, hl0⟩ := h.label _ _ hp
    rw [hheap, hd0] at hd
    simp only [Option.some.injEq] at hd
    subst hd
    apply SInv.setIncomplete
    have hdl : d0.label.reference.starter = m.reference.starter := by rw [hl0]
    have hdo : d0.label.opponent = m.sender := by rw [hl0]
    have hds : d0.label.starterAddr = s.self := by rw [hl0]
    refine ⟨h1.selfEq, h1.keepEq, h1.rulesEq, ?_, ?_⟩
    · intro q x hx
      rcases getElem?_set_cases hx with ⟨_, rfl⟩ | ⟨_, hx⟩
      · have := (h.heap p d0 hd0).relabel (r := m.reference.responder) (n := 1)
        rw [hdl, hdo, hds] at this
        exact this
      · exact h1.heap q x hx
    · intro l q hq
      simp only [Sys.addDialogue] at hq ⊢
      rw [GoMap.get_set] at hq
      split at hq
      · rename_i hl
        simp only [Option.some.injEq] at hq
        subst hq
        refine ⟨_, getElem?_set_self_of_some (b := d0) (by rw [hheap]; exact hd0), ?_⟩
        exact hl.symm
      · obtain ⟨x, hx, hxl⟩ := h1.label l q hq
        have hqp : q ≠ p := by
          rintro rfl
          rw [hheap, hd0] at hx
          simp only [Option.some.injEq] at hx
          rw [← hx, hl0] at hxl
          rw [hbl, ← hxl] at hq
          simp at hq
        refine ⟨x, ?_, hxl⟩
        rw [List.getElem?_set_ne (fun e => hqp e.symm)]
        exact hx

/-- Results of `updateFound`. -/
theorem Sys.updateFound_cases {s s' : Sys} {m : Message} {isNew : Bool} {f : Option Ptr}
    {r : Res DErr (Option Ptr)} (h : s.updateFound m isNew f = (s', r)) :
    (f = none ∧ s' = s ∧ r = .ok none) ∨ r = .panic ∨
    (∃ p, f = some p ∧
      ((∃ m', s.dialogueUpdate p m = (s', .ok m') ∧ r = .ok (some p)) ∨
       (∃ e, s.dialogueUpdate p m = (s, .err e) ∧ r = .err e ∧
        ((isNew = false ∧ s' = s) ∨
         (isNew = true ∧ ∃ d, s.heap[p]? = some d ∧ s.removeDialogue d.label = .ok s'))))) := by
  unfold Sys.updateFound at h
  cases f with
  | none => simp only [Prod.mk.injEq] at h; exact Or.inl ⟨rfl, h.1.symm, h.2.symm⟩
  | some p =>
    simp only at h
    rcases hu : s.dialogueUpdate p m with ⟨s1, r1⟩
    rw [hu] at h
    cases r1 with
    | ok m' =>
      simp only [Prod.mk.injEq] at h
      exact Or.inr (Or.inr ⟨p, rfl, Or.inl ⟨m', by rw [hu, h.1], h.2.symm⟩⟩)
    | panic => simp only [Prod.mk.injEq] at h; exact Or.inr (Or.inl h.2.symm)
    | err e =>
      have hs1 : s1 = s := by
        rcases Sys.dialogueUpdate_cases hu with hp | ⟨_, _, h'⟩ | ⟨_, _, _, _, _, _, hp, _⟩
        · simp at hp
        · exact h'
        · simp at hp
      subst hs1
      simp only at h
      by_cases hn : isNew = true
      · rw [if_pos hn] at h
        cases hd : s1.heap[p]? with
        | none => rw [hd] at h; simp only [Prod.mk.injEq] at h; exact Or.inr (Or.inl h.2.symm)
        | some d =>
          rw [hd] at h
          simp only at h
          cases hrm : s1.removeDialogue d.label with
          | panic => rw [hrm] at h; simp only [Prod.mk.injEq] at h; exact Or.inr (Or.inl h.2.symm)
          | err e' => exact absurd hrm Sys.removeDialogue_not_err
          | ok s2 =>
            rw [hrm] at h
            simp only [Prod.mk.injEq] at h
            refine Or.inr (Or.inr ⟨p, rfl, Or.inr ⟨e, hu, h.2.symm, Or.inr ⟨hn, d, hd, ?_⟩⟩⟩)
            rw [hrm, h.1]
      · rw [if_neg hn] at h
        simp only [Prod.mk.injEq] at h
        exact Or.inr (Or.inr ⟨p, rfl, Or.inr ⟨e, hu, h.2.symm,
          Or.inl ⟨by simpa using hn, h.1.symm⟩⟩⟩)

theorem SInv.updateFound {s s' : Sys} {m : Message} {isNew : Bool} {f : Option Ptr}
    {r : Res DErr (Option Ptr)} (h : SInv me keep rules s)
    (h1 : m.sender ≠ me) (h2 : m.sender ≠ []) (h3 : m.to = me)
    (hu : s.updateFound m isNew f = (s', r)) (hr : r ≠ .panic) : SInv me keep rules s' := by
  have ho : ∀ (p : Nat) (d : Dialogue), s.heap[p]? = some d → Offered me d m := fun _ _ _ => Offered.other h1 h2 h3
  rcases Sys.updateFound_cases hu with ⟨_, rfl, _⟩ | hp | ⟨p, _, ⟨m', hd, _⟩ | ⟨e, hd, _, ⟨_, rfl⟩ | ⟨_, d, _, hrm⟩⟩⟩
  · exact h
  · exact absurd hp hr
  · exact h.dialogueUpdate hd (by simp) (ho p)
  · exact h
  · exact h.shrinks (Sys.removeDialogue_shrinks hrm)

/-- The branches of `Update`. -/
theorem Sys.update_cases {s s' : Sys} {m : Message} {nonce : Bytes} {r : Res DErr (Option Ptr)}
    (h : s.update m nonce = (s', r)) :
    (∃ e, r = .err e ∧ s' = s ∧ ¬ (m.sender ≠ [] ∧ m.sender ≠ s.self ∧ m.to = s.self)) ∨
    (m.sender ≠ [] ∧ m.sender ≠ s.self ∧ m.to = s.self ∧
      ((m.reference.starter = [] ∧ m.reference.responder ≠ [] ∧ s' = s ∧ r = .ok none) ∨
       (m.reference.starter ≠ [] ∧ m.reference.responder = [] ∧ m.messageId = 1 ∧
        ((∃ s1 p, s.createOpponentInitiated m.sender m.reference nonce = (s1, .ok p) ∧
            s1.updateFound m true (some p) = (s', r)) ∨
         (∃ e, s.createOpponentInitiated m.sender m.reference nonce = (s', .err e) ∧ r = .err e) ∨
         (s.createOpponentInitiated m.sender m.reference nonce = (s', .panic) ∧ r = .panic))) ∨
       (m.reference.starter ≠ [] ∧ m.reference.responder = [] ∧ m.messageId ≠ 1 ∧ m.messageId ≠ 0 ∧
        s.updateFound m false (s.getDialogue m) = (s', r)) ∨
       (((m.reference.starter ≠ [] ∧ m.reference.responder ≠ []) ∨
         (m.reference.starter = [] ∧ m.reference.responder = []) ∨
         (m.reference.starter ≠ [] ∧ m.reference.responder = [] ∧ m.messageId = 0)) ∧
        ((∃ s1, s.completeReference m = (s1, .ok ()) ∧
            s1.updateFound m false (s1.getDialogue m) = (s', r)) ∨
         (∃ e, s.completeReference m = (s', .err e) ∧ r = .err e) ∨
         (s.completeReference m = (s', .panic) ∧ r = .panic))))) := by
  unfold Sys.update at h
  by_cases c1 : m.hasSender = true ∧ m.sender ≠ s.self
  case neg =>
    rw [if_pos c1] at h
    simp only [Prod.mk.injEq] at h
    refine Or.inl ⟨_, h.2.symm, h.1.symm, ?_⟩
    rintro ⟨hx, hy, _⟩
    exact c1 ⟨by simpa [Message.hasSender] using hx, hy⟩
  rw [if_neg (by exact not_not_intro c1)] at h
  have hs : m.sender ≠ [] := by simpa [Message.hasSender] using c1.1
  have hto : m.hasTo = true := c1.1
  rw [if_neg (by simp [hto])] at h
  by_cases c2 : m.to = s.self
  case neg =>
    rw [if_pos c2] at h
    simp only [Prod.mk.injEq] at h
    exact Or.inl ⟨_, h.2.symm, h.1.symm, fun hx => c2 hx.2.2⟩
  rw [if_neg (by exact not_not_intro c2)] at h
  refine Or.inr ⟨hs, c1.2, c2, ?_⟩
  simp only [unassigned, startingMessageId, startingTarget] at h
  by_cases e1 : m.reference.starter = [] <;> by_cases e2 : m.reference.responder = []
  · -- both unassigned
    simp only [e1, e2, bne_self_eq_false, Bool.not_false, Bool.false_and,
      Bool.false_eq_true, if_false, Bool.and_false] at h
    refine Or.inr (Or.inr (Or.inr ⟨Or.inr (Or.inl ⟨e1, e2⟩), ?_⟩))
    rcases hc : s.completeReference m with ⟨s1, r1⟩
    rw [hc] at h
    cases r1 with
    | ok u => exact Or.inl ⟨s1, rfl, h⟩
    | err e => simp only [Prod.mk.injEq] at h; exact Or.inr (Or.inl ⟨e, by rw [h.1], h.2.symm⟩)
    | panic => simp only [Prod.mk.injEq] at h; exact Or.inr (Or.inr ⟨by rw [h.1], h.2.symm⟩)
  · -- invalid label
    have e2' : (m.reference.responder != []) = true := by simpa using e2
    simp only [e1, bne_self_eq_false, Bool.not_false, e2', Bool.true_and, if_true] at h
    simp only [Sys.updateFound, Prod.mk.injEq] at h
    exact Or.inl ⟨e1, e2, h.1.symm, h.2.symm⟩
  · have e1' : (m.reference.starter != []) = true := by simpa using e1
    simp only [e1', e2, bne_self_eq_false, Bool.not_false, Bool.not_true, Bool.false_and,
      Bool.true_and, Bool.false_eq_true, if_false] at h
    by_cases e3 : m.messageId = 1
    · simp only [e3, beq_self_eq_true, if_true] at h
      refine Or.inr (Or.inl ⟨e1, e2, e3, ?_⟩)
      rcases hc : s.createOpponentInitiated m.sender m.reference nonce with ⟨s1, r1⟩
      rw [hc] at h
      cases r1 with
      | ok p => exact Or.inl ⟨s1, p, rfl, h⟩
      | err e => simp only [Prod.mk.injEq] at h; exact Or.inr (Or.inl ⟨e, by rw [h.1], h.2.symm⟩)
      | panic => simp only [Prod.mk.injEq] at h; exact Or.inr (Or.inr ⟨by rw [h.1], h.2.symm⟩)
    · have e3' : (m.messageId == 1) = false := by simpa using e3
      simp only [e3', Bool.false_eq_true, if_false, Bool.not_false, Bool.true_and] at h
      by_cases e4 : m.messageId = 0
      · simp only [e4, beq_self_eq_true, Bool.not_true, Bool.false_eq_true, if_false] at h
        refine Or.inr (Or.inr (Or.inr ⟨Or.inr (Or.inr ⟨e1, e2, e4⟩), ?_⟩))
        rcases hc : s.completeReference m with ⟨s1, r1⟩
        rw [hc] at h
        cases r1 with
        | ok u => exact Or.inl ⟨s1, rfl, h⟩
        | err e => simp only [Prod.mk.injEq] at h; exact Or.inr (Or.inl ⟨e, by rw [h.1], h.2.symm⟩)
        | panic => simp only [Prod.mk.injEq] at h; exact Or.inr (Or.inr ⟨by rw [h.1], h.2.symm⟩)
      · have e4' : (m.messageId == 0) = false := by simpa using e4
        simp only [e4', Bool.not_false, if_true] at h
        exact Or.inr (Or.inr (Or.inl ⟨e1, e2, e3, e4, h⟩))
  · have e1' : (m.reference.starter != []) = true := by simpa using e1
    have e2' : (m.reference.responder != []) = true := by simpa using e2
    simp only [e1', e2', Bool.not_true, Bool.false_and, Bool.true_and, Bool.false_eq_true,
      if_false] at h
    refine Or.inr (Or.inr (Or.inr ⟨Or.inl ⟨e1, e2⟩, ?_⟩))
    rcases hc : s.completeReference m with ⟨s1, r1⟩
    rw [hc] at h
    cases r1 with
    | ok u => exact Or.inl ⟨s1, rfl, h⟩
    | err e => simp only [Prod.mk.injEq] at h; exact Or.inr (Or.inl ⟨e, by rw [h.1], h.2.symm⟩)
    | panic => simp only [Prod.mk.injEq] at h; exact Or.inr (Or.inr ⟨by rw [h.1], h.2.symm⟩)

theorem SInv.update {s s' : Sys} {m : Message} {nonce : Bytes} {r : Res DErr (Option Ptr)}
    (h : SInv me keep rules s) (hu : s.update m nonce = (s', r)) (hr : r ≠ .panic) :
    SInv me keep rules s' := by
  rcases Sys.update_cases hu with ⟨_, _, rfl, _⟩ | ⟨h1, h2, h3, hcase⟩
  · exact h
  rw [h.selfEq] at h2 h3
  rcases hcase with ⟨_, _, rfl, _⟩ | ⟨_, _, _, ⟨s1, p, hc, hf⟩ | ⟨e, hc, _⟩ | ⟨_, hp⟩⟩ |
    ⟨_, _, _, _, hf⟩ | ⟨_, ⟨s1, hc, hf⟩ | ⟨e, hc, _⟩ | ⟨_, hp⟩⟩
  · exact h
  · exact (h.createOpponentInitiated h2 hc).updateFound h2 h1 h3 hf hr
  · exact h.createOpponentInitiated h2 hc
  · exact absurd hp hr
  · exact h.updateFound h2 h1 h3 hf hr
  · exact (h.completeReference hc (by simp)).updateFound h2 h1 h3 hf hr
  · exact h.completeReference hc (by simp)
  · exact absurd hp hr

/-- The message `Reply` offers to the dialogue. -/
theorem Dialogue.replyMessage_ok {d : Dialogue} {perf : Bytes} {tm : Option Message}
    {tp : Option Int} {m : Message} (h : d.replyMessage perf tm tp = .ok m) :
    d.isEmpty = false ∧ m.target ≠ 0 ∧ m.sender = d.selfAddress ∧ m.to = d.label.opponent ∧
    m.reference = d.label.reference ∧ m.messageId = d.nextOutgoingId ∧ m.performative = perf ∧
    ∃ x, d.getMessageById m.target = .ok (some x) := by
  unfold Dialogue.replyMessage at h
  cases hl : d.lastMessage with
  | none => rw [hl] at h; simp at h
  | some last =>
    rw [hl] at h
    simp only at h
    rw [Res.bind_eq_ok] at h
    obtain ⟨⟨target, tmsg⟩, _, h⟩ := h
    simp only at h
    cases tmsg with
    | none => simp at h
    | some y =>
      simp only at h
      rw [Res.bind_eq_ok] at h
      obtain ⟨found, hf, h⟩ := h
      cases found with
      | false => simp at h
      | true =>
        simp only [if_true, Res.ok.injEq] at h
        unfold Dialogue.hasMessageId at hf
        rw [Res.bind_eq_ok] at hf
        obtain ⟨om, hom, hf⟩ := hf
        simp only [Res.ok.injEq] at hf
        obtain ⟨x, rfl⟩ := Option.isSome_iff_exists.1 hf
        subst h
        refine ⟨?_, (Dialogue.getMessageById_some hom).1, rfl, rfl, rfl, rfl, rfl, x, hom⟩
        by_cases he : d.isEmpty = true
        · exfalso
          obtain ⟨e1, e2⟩ := (Dialogue.isEmpty_iff d).1 he
          unfold Dialogue.lastMessage Dialogue.lastIncoming Dialogue.lastOutgoing at hl
          rw [e1, e2] at hl
          split at hl <;> simp at hl
        · simpa using he

theorem Sys.reply_cases {s s' : Sys} {p : Ptr} {perf : Bytes} {tm : Option Message}
    {tp : Option Int} {r : Res DErr Message} (h : s.reply p perf tm tp = (s', r)) :
    r = .panic ∨ (∃ e, r = .err e ∧ s' = s) ∨
    ∃ d m, s.heap[p]? = some d ∧ d.replyMessage perf tm tp = .ok m ∧
      s.dialogueUpdate p m = (s', r) := by
  unfold Sys.reply at h
  cases hd : s.heap[p]? with
  | none => rw [hd] at h; simp only [Prod.mk.injEq] at h; exact Or.inl h.2.symm
  | some d =>
    rw [hd] at h
    simp only at h
    cases hm : d.replyMessage perf tm tp with
    | panic => rw [hm] at h; simp only [Prod.mk.injEq] at h; exact Or.inl h.2.symm
    | err e =>
      rw [hm] at h
      simp only [Prod.mk.injEq] at h
      exact Or.inr (Or.inl ⟨e, h.2.symm, h.1.symm⟩)
    | ok m => rw [hm] at h; exact Or.inr (Or.inr ⟨d, m, rfl, hm, h⟩)

theorem SInv.reply {s s' : Sys} {p : Ptr} {perf : Bytes} {tm : Option Message}
    {tp : Option Int} {r : Res DErr Message} (h : SInv me keep rules s)
    (hr : s.reply p perf tm tp = (s', r)) (hp : r ≠ .panic) : SInv me keep rules s' := by
  rcases Sys.reply_cases hr with h' | ⟨_, _, rfl⟩ | ⟨d, m, hd, hm, hu⟩
  · exact absurd h' hp
  · exact h
  · obtain ⟨he, ht, hs, hto, _⟩ := Dialogue.replyMessage_ok hm
    refine h.dialogueUpdate hu hp ?_
    intro d' hd'
    rw [hd] at hd'
    simp only [Option.some.injEq] at hd'
    subst hd'
    refine Offered.own (by rw [hs]; exact (h.heap p d hd).selfAddr) hto ?_ (fun _ => ht)
    intro he'; rw [he] at he'; simp at he'

/-- Results of `CreateWithMessage`. -/
theorem Sys.createWithMessage_cases {s s' : Sys} {cp : Bytes} {m : Message}
    {r : Res DErr (Option Ptr)} (h : s.createWithMessage cp m = (s', r)) :
    (∃ e, r = .err e ∧ s' = s) ∨
    (m.sender = [] ∧ m.to = [] ∧
      s.createDialogue cp { m with sender := s.self, to := cp } = (s', r)) := by
  unfold Sys.createWithMessage Message.setSender Message.setTo at h
  by_cases h1 : m.sender = []
  · by_cases h2 : m.to = []
    · simp only [h1, h2, ne_eq, not_true, if_false] at h
      exact Or.inr ⟨h1, h2, h⟩
    · simp only [h1, h2, ne_eq, not_true, if_false, not_false_eq_true, if_true, Prod.mk.injEq] at h
      exact Or.inl ⟨_, h.2.symm, h.1.symm⟩
  · simp only [h1, ne_eq, not_false_eq_true, if_true, Prod.mk.injEq] at h
    exact Or.inl ⟨_, h.2.symm, h.1.symm⟩

/-- The message built by `Create`. -/
def Sys.freshMessage (s : Sys) (cp perf nonce : Bytes) : Message :=
  { to := cp, sender := s.self, reference := ⟨nonce, []⟩, messageId := 1, target := 0,
    performative := perf }

theorem Sys.createNew_cases {s s' : Sys} {cp perf nonce : Bytes}
    {r : Res DErr (Message × Option Ptr)} (h : s.createNew cp perf nonce = (s', r)) :
    ∃ r0, s.createDialogue cp (s.freshMessage cp perf nonce) = (s', r0) ∧
      r = r0.bind (fun p => .ok (s.freshMessage cp perf nonce, p)) := by
  unfold Sys.createNew at h
  simp only [startingMessageId, startingTarget, unassigned] at h
  rcases hc : s.createDialogue cp (s.freshMessage cp perf nonce) with ⟨s1, r1⟩
  have hc' := hc
  unfold Sys.freshMessage at hc'
  rw [hc'] at h
  cases r1 <;> simp only [Prod.mk.injEq] at h <;> refine ⟨_, by rw [h.1], ?_⟩ <;>
    rw [← h.2] <;> rfl

/-- Every non-crashing call preserves the invariant. -/
theorem SInv.call {s : Sys} (h : SInv me keep rules s) (c : Call)
    (hc : (s.call c).2 ≠ .crashed) : SInv me keep rules (s.call c).1 := by
  cases c with
  | create cp perf nonce =>
    simp only [Sys.call] at hc ⊢
    rcases hr : s.createNew cp perf nonce with ⟨s', r⟩
    rw [hr] at hc
    obtain ⟨r0, hd, hr0⟩ := Sys.createNew_cases hr
    refine h.createDialogue (by simpa [Sys.freshMessage] using h.selfEq)
      (by simp [Sys.freshMessage]) hd ?_
    rintro rfl
    rw [hr0] at hc
    exact hc rfl
  | createWith cp m =>
    simp only [Sys.call] at hc ⊢
    rcases hr : s.createWithMessage cp m with ⟨s', r⟩
    rw [hr] at hc
    rcases Sys.createWithMessage_cases hr with ⟨_, _, rfl⟩ | ⟨_, _, hd⟩
    · exact h
    · refine h.createDialogue (by simpa using h.selfEq) rfl hd ?_
      rintro rfl
      exact hc rfl
  | update m nonce =>
    simp only [Sys.call] at hc ⊢
    rcases hr : s.update m nonce with ⟨s', r⟩
    rw [hr] at hc
    refine h.update hr ?_
    rintro rfl
    exact hc rfl
  | reply p perf tm tp =>
    simp only [Sys.call] at hc ⊢
    rcases hr : s.reply p perf tm tp with ⟨s', r⟩
    rw [hr] at hc
    refine h.reply hr ?_
    rintro rfl
    exact hc rfl

theorem SInv.init : SInv me keep rules (Sys.new me keep rules) where
  selfEq := rfl
  keepEq := rfl
  rulesEq := rfl
  heap := by intro p d h; simp [Sys.new] at h
  label := by intro l p h; simp [Sys.new] at h

theorem Reachable.inv {s : Sys} (h : Reachable me keep rules s) : SInv me keep rules s := by
  induction h with
  | init => exact SInv.init
  | step c _ hc ih => exact ih.call c hc

end

end Verif
