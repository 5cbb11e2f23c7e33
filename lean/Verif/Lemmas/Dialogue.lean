import Verif.Lemmas.Set
import Verif.Spec.Dialogue

/-! Lemmas about a single dialogue. -/

namespace Verif

theorem Res.bind_eq_ok {ε α β : Type} {r : Res ε α} {f : α → Res ε β} {b : β} :
    r.bind f = .ok b ↔ ∃ a, r = .ok a ∧ f a = .ok b := by
  cases r <;> simp [Res.bind]

theorem Res.bind_eq_panic {ε α β : Type} {r : Res ε α} {f : α → Res ε β} :
    r.bind f = .panic ↔ r = .panic ∨ ∃ a, r = .ok a ∧ f a = .panic := by
  cases r <;> simp [Res.bind]

theorem Res.bind_eq_err {ε α β : Type} {r : Res ε α} {f : α → Res ε β} {e : ε} :
    r.bind f = .err e ↔ r = .err e ∨ ∃ a, r = .ok a ∧ f a = .err e := by
  cases r <;> simp [Res.bind]

theorem Res.ite_err_eq_ok {ε α : Type} {c : Prop} [Decidable c] {e : ε} {r : Res ε α} {b : α} :
    (if c then .err e else r) = .ok b ↔ ¬ c ∧ r = .ok b := by
  by_cases h : c <;> simp [h]

theorem Res.ite_ok_err_eq_ok {ε α : Type} {c : Prop} [Decidable c] {e : ε} {a b : α} :
    (if c then Res.ok a else Res.err e) = .ok b ↔ c ∧ a = b := by
  by_cases h : c <;> simp [h]

namespace Dialogue

theorem isEmpty_iff (d : Dialogue) : d.isEmpty = true ↔ d.outgoing = [] ∧ d.incoming = [] := by
  simp [isEmpty]

theorem record_eq (d : Dialogue) (m : Message) : d.record m = { d with
      outgoing := if m.sender = d.selfAddress then d.outgoing ++ [m] else d.outgoing
      incoming := if m.sender = d.selfAddress then d.incoming else d.incoming ++ [m]
      lastMessageId := m.messageId
      orderedIds := d.orderedIds ++ [m.messageId] } := by
  by_cases hs : m.sender = d.selfAddress <;> simp [record, isMessageBySelf, hs]

/-- The result of a successful `update`. -/
theorem updateCore_ok {d d' : Dialogue} {msg m : Message} {t : Bool}
    (h : d.updateCore msg = .ok (d', m, t)) :
    m = d.withSender msg ∧ d.isBelonging m = true ∧ d.validateNext m = .ok () ∧
    t = d.rules.terminal.contains m.performative ∧ d' = d.record m := by
  unfold updateCore at h
  simp only at h
  rw [Res.ite_err_eq_ok, Res.bind_eq_ok] at h
  obtain ⟨hb, _, hv, h⟩ := h
  simp only [Res.ok.injEq, Prod.mk.injEq] at h
  obtain ⟨h1, h2, h3⟩ := h
  subst h2
  exact ⟨rfl, Classical.not_not.1 hb, hv, h3.symm, h1.symm⟩

theorem validateMessageTarget_start {d : Dialogue} {m : Message}
    (h : d.validateMessageTarget m = .ok ()) (hid : m.messageId = 1) : m.target = 0 := by
  unfold validateMessageTarget at h
  rw [if_pos (by exact hid), Res.ite_ok_err_eq_ok] at h
  exact h.1

theorem validateInitial_ok {d : Dialogue} {m : Message} (h : d.validateInitial m = .ok ()) :
    d.label.reference.starter = m.reference.starter ∧ m.messageId = 1 ∧ m.target = 0 ∧
    d.rules.initial.contains m.performative = true := by
  unfold validateInitial at h
  rw [Res.ite_err_eq_ok, Res.ite_err_eq_ok, Res.bind_eq_ok] at h
  obtain ⟨h1, h2, _, h3, h4⟩ := h
  rw [Res.ite_ok_err_eq_ok] at h4
  have h2 : m.messageId = 1 := Classical.not_not.1 h2
  exact ⟨Classical.not_not.1 h1, h2, validateMessageTarget_start h3 h2, h4.1⟩

theorem goIndex_ok {l : List Message} {i : Int} {m : Message} (h : goIndex l i = .ok m) :
    0 ≤ i ∧ l[i.toNat]? = some m := by
  unfold goIndex at h
  split at h
  · simp at h
  · split at h
    · rename_i x hx; simp at h; subst h; exact ⟨by omega, hx⟩
    · simp at h

/-- The list in which `getMessageById` looks an id up. -/
def idList (d : Dialogue) (id : Int) : List Message :=
  if decide (0 < id) = d.isSelfInitiated then d.outgoing else d.incoming

theorem getMessageById_some {d : Dialogue} {id : Int} {m : Message}
    (h : d.getMessageById id = .ok (some m)) :
    id ≠ 0 ∧ (d.idList id)[(absId id - 1).toNat]? = some m ∧
    ∃ l, (d.idList id).getLast? = some l ∧ absId id ≤ absId l.messageId := by
  unfold getMessageById at h
  split at h
  · simp at h
  split at h
  · simp at h
  rename_i hid
  change (match (d.idList id).getLast? with | none => _ | some last => _) = _ at h
  cases hl : (d.idList id).getLast? with
  | none => rw [hl] at h; simp at h
  | some l =>
    rw [hl] at h
    simp only at h
    split at h
    · simp at h
    rename_i hle
    rw [Res.bind_eq_ok] at h
    obtain ⟨x, hx, hm⟩ := h
    simp only [Res.ok.injEq, Option.some.injEq] at hm
    subst hm
    exact ⟨hid, (goIndex_ok hx).2, l, rfl, by omega⟩

theorem idList_mem {d : Dialogue} {id : Int} {m : Message} (h : m ∈ d.idList id) :
    m ∈ d.outgoing ∨ m ∈ d.incoming := by
  unfold idList at h
  split at h
  · exact Or.inl h
  · exact Or.inr h

theorem validateMessageTarget_ok {d : Dialogue} {m : Message}
    (h : d.validateMessageTarget m = .ok ()) (hid : m.messageId ≠ 1) :
    m.target ≠ 0 ∧ ∃ t, d.getMessageById m.target = .ok (some t) ∧
      (match d.rules.validReplies.get t.performative with
        | some s => s.contains m.performative
        | none => false) = true := by
  unfold validateMessageTarget at h
  rw [if_neg (by exact hid), Res.ite_err_eq_ok] at h
  obtain ⟨ht, h⟩ := h
  refine ⟨ht, ?_⟩
  simp only at h
  rw [Res.bind_eq_ok] at h
  obtain ⟨mx, _, h⟩ := h
  rw [Res.ite_err_eq_ok, Res.bind_eq_ok] at h
  obtain ⟨_, tm, htm, h⟩ := h
  cases tm with
  | none => simp at h
  | some t =>
    simp only at h
    rw [Res.ite_ok_err_eq_ok] at h
    exact ⟨t, htm, h.1⟩

theorem validateNonInitial_ok {d : Dialogue} {m : Message} (h : d.validateNonInitial m = .ok ()) :
    d.label.reference.starter = m.reference.starter ∧
    m.messageId = (if m.to = d.selfAddress then d.nextIncomingId else d.nextOutgoingId) ∧
    d.validateMessageTarget m = .ok () := by
  unfold validateNonInitial at h
  rw [Res.ite_err_eq_ok, Res.bind_eq_ok] at h
  obtain ⟨h1, _, h2, h3⟩ := h
  refine ⟨Classical.not_not.1 h1, ?_, h3⟩
  unfold validateMessageId at h2
  simp only at h2
  rw [Res.ite_err_eq_ok] at h2
  have h4 := Classical.not_not.1 h2.1
  rw [h4]
  by_cases h5 : m.to = d.selfAddress <;> simp [h5]

/-- Belonging means: same counterparty. -/
theorem isBelonging_opponent {d : Dialogue} {m : Message} (h : d.isBelonging m = true) :
    d.counterParty m = d.label.opponent := by
  unfold isBelonging checkLabel at h
  simp only [Bool.or_eq_true, beq_iff_eq] at h
  by_cases hs : d.isSelfInitiated = true
  · simp only [hs, if_true] at h
    rcases h with h | h
    · rw [← h]
    · have := congrArg DialogueLabel.opponent h
      simpa [DialogueLabel.incompleteVersion] using this
  · simp only [hs] at h
    rcases h with h | h
    · have := congrArg DialogueLabel.opponent h
      simpa using this
    · have := congrArg DialogueLabel.opponent h
      simpa [DialogueLabel.incompleteVersion] using this

theorem isBelonging_starterAddr {d : Dialogue} {m : Message} (h : d.isBelonging m = true) :
    d.label.starterAddr = if d.isSelfInitiated then d.selfAddress else d.label.opponent := by
  unfold isBelonging checkLabel at h
  simp only [Bool.or_eq_true, beq_iff_eq] at h
  by_cases hs : d.isSelfInitiated = true
  · simp only [hs, if_true] at h ⊢
    rcases h with h | h
    · rw [← h]
    · have := congrArg DialogueLabel.starterAddr h
      simpa [DialogueLabel.incompleteVersion] using this.symm
  · simp only [hs]
    simp only [isSelfInitiated, bne_iff_ne, ne_eq, Classical.not_not] at hs
    simpa using hs

end Dialogue

theorem absId_eq (i : Int) : absId i = i.natAbs := by
  unfold absId; split <;> omega

end Verif
