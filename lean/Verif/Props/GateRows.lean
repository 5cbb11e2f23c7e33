import Verif.Props.NotifGate

/-!
# C65: the table of a peer's clients
-/

namespace Verif

/-- A registration writes its row: delegate and relay clients first, mailbox clients last. -/
def WritesRow (g : Gate) (s : GateStep) (k : ClientKind) (a : Bytes) (i : Nat) : Prop :=
  s = .reg i ∧ ∃ r, g.regs[i]? = some r ∧ r.kind = k ∧ r.addr = a ∧
    ((k ≠ .mailbox ∧ r.pc = .start) ∨ (k = .mailbox ∧ ∃ saw, r.pc = .checked saw))

/-- A delegate client leaves and takes the row of its address with it. -/
def RemovesRow (g : Gate) (s : GateStep) (k : ClientKind) (a : Bytes) : Prop :=
  k = .delegate ∧ ∃ j, s = .leave j ∧ g.regs[j]? = some ⟨.delegate, a, .finished⟩

theorem mem_insert_row (g : Gate) (k : ClientKind) (a : Bytes) (i : Nat) (k' : ClientKind) (a' : Bytes) (i' : Nat) :
    (k', a', i') ∈ (g.insert k a i).table ↔
      (k' = k ∧ a' = a ∧ i' = i) ∨ ((k', a', i') ∈ g.table ∧ ¬ (k' = k ∧ a' = a)) := by
  simp only [Gate.insert, List.mem_cons, Prod.mk.injEq, List.mem_filter, Bool.not_eq_true', Bool.and_eq_false_iff,
    beq_eq_false_iff_ne, ne_eq, Classical.not_and_iff_not_or_not]

/-- **C65.** The rows after each step: the row the step writes, in place of any other with its kind and address, and
all the others, without that of a delegate client that leaves. -/
theorem C65_rows (g : Gate) (s : GateStep) (k : ClientKind) (a : Bytes) (i : Nat) (hc : g.crashed = false) :
    (k, a, i) ∈ (g.step s).table ↔
      WritesRow g s k a i ∨
        ((k, a, i) ∈ g.table ∧ (∀ j, ¬ WritesRow g s k a j) ∧ ¬ RemovesRow g s k a) := by
  have hsame : ∀ g' : Gate, g'.table = g.table → (∀ j, ¬ WritesRow g s k a j) → ¬ RemovesRow g s k a →
      ((k, a, i) ∈ g'.table ↔ WritesRow g s k a i ∨
        ((k, a, i) ∈ g.table ∧ (∀ j, ¬ WritesRow g s k a j) ∧ ¬ RemovesRow g s k a)) := by
    intro g' ht hw hr
    rw [ht]
    constructor
    · intro h; exact .inr ⟨h, hw, hr⟩
    · rintro (h | h)
      · exact absurd h (hw i)
      · exact h.1
  have hwake : ∀ g' : Gate, g'.wake.table = g'.table := by
    intro g'; unfold Gate.wake; split <;> rfl
  unfold Gate.step
  rw [if_neg (by simp [hc])]
  cases s with
  | newReg k' b =>
    dsimp only
    split <;> exact hsame _ rfl (by rintro j ⟨h, _⟩; cases h) (by rintro ⟨_, j, h, _⟩; cases h)
  | newNotif => exact hsame _ rfl (by rintro j ⟨h, _⟩; cases h) (by rintro ⟨_, j, h, _⟩; cases h)
  | boot =>
    dsimp only
    split <;> exact hsame _ rfl (by rintro j ⟨h, _⟩; cases h) (by rintro ⟨_, j, h, _⟩; cases h)
  | notif j ok =>
    dsimp only
    split
    · exact hsame _ rfl (by rintro j ⟨h, _⟩; cases h) (by rintro ⟨_, j, h, _⟩; cases h)
    · refine hsame _ ?_ (by rintro j ⟨h, _⟩; cases h) (by rintro ⟨_, j, h, _⟩; cases h)
      unfold Gate.notifStep
      split <;> (try split) <;> first | rfl | exact hwake _
  | leave j =>
    dsimp only
    split
    · rename_i b hb
      simp only [List.mem_filter, Bool.not_eq_true', Bool.and_eq_false_iff, beq_eq_false_iff_ne, ne_eq]
      constructor
      · rintro ⟨h, hn⟩
        refine .inr ⟨h, (by rintro j ⟨h, _⟩; cases h), ?_⟩
        rintro ⟨rfl, j', hj, hr⟩
        cases hj
        rw [hb] at hr
        simp only [Option.some.injEq, GateReg.mk.injEq, true_and, and_true] at hr
        rcases hn with hn | hn
        · exact hn rfl
        · exact hn hr.symm
      · rintro (⟨h, _⟩ | ⟨h, _, hr⟩)
        · cases h
        · refine ⟨h, ?_⟩
          by_cases hk : k = .delegate
          · right
            rintro rfl
            exact hr ⟨hk, j, rfl, hb⟩
          · exact .inl hk
    · rename_i hb
      refine hsame _ rfl (by rintro j ⟨h, _⟩; cases h) ?_
      rintro ⟨_, j', hj, hr⟩
      cases hj
      exact hb _ hr
  | reg j =>
    have hrem : ¬ RemovesRow g (.reg j) k a := by rintro ⟨_, j', h, _⟩; cases h
    dsimp only
    split
    · rename_i hr
      refine hsame _ rfl ?_ hrem
      rintro j' ⟨h, r, h', _⟩
      cases h
      rw [hr] at h'
      cases h'
    · rename_i r hr
      have hins : ∀ g' : Gate, g'.table = (g.insert r.kind r.addr j).table →
          (r.kind ≠ .mailbox ∧ r.pc = .start) ∨ (r.kind = .mailbox ∧ ∃ saw, r.pc = .checked saw) →
          ((k, a, i) ∈ g'.table ↔ WritesRow g (.reg j) k a i ∨
            ((k, a, i) ∈ g.table ∧ (∀ j', ¬ WritesRow g (.reg j) k a j') ∧ ¬ RemovesRow g (.reg j) k a)) := by
        intro g' ht hw
        rw [ht, mem_insert_row]
        constructor
        · rintro (⟨rfl, rfl, rfl⟩ | ⟨h, hn⟩)
          · exact .inl ⟨rfl, r, hr, rfl, rfl, hw⟩
          · refine .inr ⟨h, ?_, hrem⟩
            rintro j' ⟨hj, r', hr', rfl, rfl, _⟩
            cases hj
            rw [hr] at hr'
            cases hr'
            exact hn ⟨rfl, rfl⟩
        · rintro (⟨hj, r', hr', rfl, rfl, _⟩ | ⟨h, hn, _⟩)
          · cases hj
            rw [hr] at hr'
            cases hr'
            exact .inl ⟨rfl, rfl, rfl⟩
          · refine .inr ⟨h, ?_⟩
            rintro ⟨rfl, rfl⟩
            exact hn j ⟨rfl, r, hr, rfl, rfl, hw⟩
      have hno : ∀ g' : Gate, g'.table = g.table →
          ¬ ((r.kind ≠ .mailbox ∧ r.pc = .start) ∨ (r.kind = .mailbox ∧ ∃ saw, r.pc = .checked saw)) →
          ((k, a, i) ∈ g'.table ↔ WritesRow g (.reg j) k a i ∨
            ((k, a, i) ∈ g.table ∧ (∀ j', ¬ WritesRow g (.reg j) k a j') ∧ ¬ RemovesRow g (.reg j) k a)) := by
        intro g' ht hw
        refine hsame _ ht ?_ hrem
        rintro j' ⟨hj, r', hr', rfl, rfl, h⟩
        cases hj
        rw [hr] at hr'
        cases hr'
        exact hw h
      unfold Gate.regStep
      cases hpc : r.pc with
      | start =>
        dsimp only
        by_cases hm : r.kind = .mailbox
        · rw [if_pos hm]
          exact hno _ rfl (by rw [hpc]; simp [hm])
        · rw [if_neg hm]
          exact hins _ rfl (.inl ⟨hm, hpc⟩)
      | asking => exact hno _ rfl (by rw [hpc]; simp)
      | waiting => exact hno _ rfl (by rw [hpc]; simp)
      | woken => dsimp only; split <;> exact hno _ rfl (by rw [hpc]; simp)
      | passed => exact hno _ rfl (by rw [hpc]; simp)
      | finished => exact hno _ rfl (by rw [hpc]; simp)
      | checked saw =>
        dsimp only
        by_cases hm : r.kind = .mailbox
        · rw [if_pos hm]
          refine hins _ ?_ (.inr ⟨hm, saw, hpc⟩)
          rw [hm]
          cases saw <;> rfl
        · rw [if_neg hm]
          refine hno _ ?_ (by rw [hpc]; simp [hm])
          cases saw <;> rfl

/-- **C65.** At the beginning there is none, and after a crash nothing changes. -/
theorem C65_rows_start (entry : Bool) (g : Gate) (s : GateStep) :
    (Gate.init entry).table = [] ∧ (g.crashed = true → g.step s = g) := by
  refine ⟨rfl, fun h => ?_⟩
  simp [Gate.step, h]

/-- A client that registers twice, and another kind with the same address. -/
example :
    ((Gate.init false).run (GateDemo.client .delegate [1] 0 ++ GateDemo.client .delegate [1] 1 ++
      GateDemo.client .relay [1] 2)).table = [(.relay, [1], 2), (.delegate, [1], 1)] := by decide

end Verif
