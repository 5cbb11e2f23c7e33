import Verif.Lemmas.FrameAll

/-! An incoming message changes at most the dialogues with its sender and its starter reference. -/

namespace Verif

/-- The label of a dialogue with `x` whose reference starts with `n`. -/
def About (x n : Bytes) (l : DialogueLabel) : Prop := l.opponent = x ∧ l.reference.starter = n

/-- The parts of the state that concern other dialogues are unchanged. -/
structure RefFrame (x n : Bytes) (s s' : Sys) : Prop where
  selfEq : s'.self = s.self
  heap : ∀ (p : Nat) (d : Dialogue), s.heap[p]? = some d → ¬ About x n d.label → s'.heap[p]? = some d
  byLabel : ∀ l : DialogueLabel, ¬ About x n l → s'.byLabel.get l = s.byLabel.get l
  incomplete : ∀ l : DialogueLabel, ¬ About x n l → s'.incomplete.get l = s.incomplete.get l
  terminal : ∀ l : DialogueLabel, ¬ About x n l → s'.terminal.contains l = s.terminal.contains l

theorem RefFrame.refl (x n : Bytes) (s : Sys) : RefFrame x n s s :=
  ⟨rfl, fun _ _ h _ => h, fun _ _ => rfl, fun _ _ => rfl, fun _ _ => rfl⟩

theorem RefFrame.trans {x n : Bytes} {a b c : Sys} (h1 : RefFrame x n a b) (h2 : RefFrame x n b c) :
    RefFrame x n a c :=
  ⟨h2.selfEq.trans h1.selfEq, fun p d h hx => h2.heap p d (h1.heap p d h hx) hx,
   fun l h => (h2.byLabel l h).trans (h1.byLabel l h),
   fun l h => (h2.incomplete l h).trans (h1.incomplete l h),
   fun l h => (h2.terminal l h).trans (h1.terminal l h)⟩

section
variable {x n : Bytes} {s s' : Sys}

theorem RefFrame.removeDialogue {l : DialogueLabel} (hl : About x n l) (h : s.removeDialogue l = .ok s') :
    RefFrame x n s s' := by
  obtain ⟨h1, _, _, h4, h5, h6, h7, _⟩ := Sys.removeDialogue_ok h
  have key : ∀ l', ¬ About x n l' → l' ≠ l := by rintro l' hn rfl; exact hn hl
  refine ⟨h1, ?_, ?_, ?_, ?_⟩
  · intro p d hd _; rw [h4]; exact hd
  · intro l' hl'; rw [h5, GoMap.get_erase_ne]; exact key l' hl'
  · intro l' hl'; rw [h6, GoMap.get_erase_ne]; exact key l' hl'
  · intro l' hl'
    rw [h7, Bool.eq_iff_iff, GSet.contains_remove]; simp [key l' hl']

theorem RefFrame.terminalCallback {l : DialogueLabel} (hl : About x n l)
    (h : s.terminalCallback l = .ok s') : RefFrame x n s s' := by
  unfold Sys.terminalCallback at h
  split at h
  · simp only [Res.ok.injEq] at h
    subst h
    refine ⟨rfl, fun _ _ h _ => h, fun _ _ => rfl, fun _ _ => rfl, ?_⟩
    intro l' hl'
    have hne : l' ≠ l := by rintro rfl; exact hl' hl
    show (s.terminal.add l).contains l' = _
    rw [Bool.eq_iff_iff, GSet.contains_add]; simp [hne]
  · exact RefFrame.removeDialogue hl h

theorem RefFrame.runCallbacks {k : Nat} {l : DialogueLabel} (hl : About x n l)
    (h : s.runCallbacks l k = .ok s') : RefFrame x n s s' := by
  induction k generalizing s with
  | zero => simp only [Sys.runCallbacks, Res.ok.injEq] at h; subst h; exact RefFrame.refl _ _ _
  | succ k ih =>
    unfold Sys.runCallbacks at h
    rw [Res.bind_eq_ok] at h
    obtain ⟨s1, h1, h2⟩ := h
    exact (RefFrame.terminalCallback hl h1).trans (ih h2)

theorem RefFrame.setHeap {p : Ptr} {d d' : Dialogue}
    (hd : s.heap[p]? = some d) (hx : About x n d.label) : RefFrame x n s (s.setHeap p d') := by
  refine ⟨rfl, ?_, fun _ _ => rfl, fun _ _ => rfl, fun _ _ => rfl⟩
  intro q y hy hne
  have hqp : q ≠ p := by
    rintro rfl
    rw [hd] at hy
    simp only [Option.some.injEq] at hy
    subst hy
    exact hne hx
  show (s.heap.set p d')[q]? = some y
  rw [List.getElem?_set_ne (fun e => hqp e.symm)]
  exact hy

/-- A change of one dialogue, by whatever message. -/
theorem RefFrame.ownUpdate {p : Ptr} {d : Dialogue} {m : Message} {r : Res DErr Message}
    (hd : s.heap[p]? = some d) (hx : About x n d.label) (hu : s.dialogueUpdate p m = (s', r))
    (hr : r ≠ .panic) : RefFrame x n s s' := by
  rcases Sys.dialogueUpdate_cases hu with hp | ⟨_, _, rfl⟩ | ⟨d0, d', m', t, hd0, hc, _, ht⟩
  · exact absurd hp hr
  · exact RefFrame.refl _ _ _
  · rw [hd] at hd0
    simp only [Option.some.injEq] at hd0
    subst hd0
    have hl : d'.label = d.label := by
      rw [(Dialogue.updateCore_ok hc).2.2.2.2, Dialogue.record_eq]
    have hf := RefFrame.setHeap (d' := d') hd hx
    split at ht
    · exact hf.trans (RefFrame.runCallbacks (by rw [hl]; exact hx) ht)
    · rw [ht]; exact hf

/-- A dialogue that accepts a message of the other side is about that message. -/
theorem about_of_updateCore {me : Bytes} {rules : RulesDecl} {d d' : Dialogue} {m m' : Message} {t : Bool}
    (hdi : DInv me rules d) (h1 : m.sender ≠ me) (h2 : m.sender ≠ []) (hc : d.updateCore m = .ok (d', m', t)) :
    About m.sender m.reference.starter d.label := by
  obtain ⟨e1, hb, hv, _, _⟩ := Dialogue.updateCore_ok hc
  have hm : d.withSender m = m := by simp [Dialogue.withSender, Message.hasSender, h2]
  rw [hm] at e1
  subst e1
  have hop := Dialogue.isBelonging_opponent hb
  have hself : d.isMessageBySelf m' = false := by
    simp [Dialogue.isMessageBySelf, hdi.selfAddr, h1]
  simp only [Dialogue.counterParty, hself] at hop
  refine ⟨hop.symm, ?_⟩
  unfold Dialogue.validateNext at hv
  cases he : d.isEmpty with
  | true => rw [he] at hv; exact (Dialogue.validateInitial_ok hv).1
  | false => rw [he] at hv; exact (Dialogue.validateNonInitial_ok hv).1

theorem RefFrame.dialogueUpdate {me : Bytes} {keep : Bool} {rules : RulesDecl}
    {p : Ptr} {m : Message} {r : Res DErr Message} (hi : SInv me keep rules s)
    (h1 : m.sender ≠ me) (h2 : m.sender ≠ [])
    (hu : s.dialogueUpdate p m = (s', r)) (hr : r ≠ .panic) :
    RefFrame m.sender m.reference.starter s s' := by
  rcases Sys.dialogueUpdate_cases hu with hp | ⟨_, _, rfl⟩ | ⟨d, d', m', t, hd, hc, _, ht⟩
  · exact absurd hp hr
  · exact RefFrame.refl _ _ _
  · exact RefFrame.ownUpdate hd (about_of_updateCore (hi.heap p d hd) h1 h2 hc) hu hr

theorem RefFrame.setIncomplete (s : Sys) {i : DialogueLabel} (c : DialogueLabel) (hi : About x n i) :
    RefFrame x n s (s.setIncomplete i c) := by
  refine ⟨rfl, fun _ _ h _ => h, fun _ _ => rfl, ?_, fun _ _ => rfl⟩
  intro l hl
  show (s.incomplete.set i c).get l = _
  rw [GoMap.get_set_ne]
  rintro rfl; exact hl hi

theorem RefFrame.alloc (s : Sys) (d : Dialogue) (hd : About x n d.label) :
    RefFrame x n s (({ s with heap := s.heap ++ [d] } : Sys).addDialogue s.heap.length d) := by
  refine ⟨rfl, ?_, ?_, fun _ _ => rfl, fun _ _ => rfl⟩
  · intro q y hy _
    have hlt : q < s.heap.length := (List.getElem?_eq_some_iff.1 hy).1
    show ((s.heap ++ [d]).set s.heap.length _)[q]? = some y
    rw [List.getElem?_set_ne (by omega), List.getElem?_append_left hlt]
    exact hy
  · intro l' hl
    show (s.byLabel.set d.label _).get l' = _
    rw [GoMap.get_set_ne]
    rintro rfl; exact hl hd

theorem RefFrame.createOpponentInitiated {o k : Bytes} {ref : DialogueReference}
    {r : Res DErr Ptr} (h : s.createOpponentInitiated o ref k = (s', r)) : RefFrame o ref.starter s s' := by
  rcases Sys.createOpponentInitiated_cases h with ⟨_, rfl⟩ | ⟨_, _, h⟩
  · exact RefFrame.refl _ _ _
  · have hm : RefFrame o ref.starter s (s.mapped ⟨ref, o, o⟩ (some ⟨⟨ref.starter, k⟩, o, o⟩)) :=
      RefFrame.setIncomplete s ⟨⟨ref.starter, k⟩, o, o⟩ ⟨rfl, rfl⟩
    rcases Sys.create_cases h with ⟨_, rfl, _⟩ | ⟨_, rfl, _⟩ | ⟨_, _, _, rfl⟩
    · exact RefFrame.refl _ _ _
    · exact hm
    · exact hm.trans (RefFrame.alloc _ _ ⟨rfl, rfl⟩)

theorem RefFrame.completeReference {me : Bytes} {keep : Bool} {rules : RulesDecl}
    {m : Message} {r : Res DErr Unit} (hi : SInv me keep rules s)
    (h : s.completeReference m = (s', r)) (hr : r ≠ .panic) :
    RefFrame m.sender m.reference.starter s s' := by
  rcases Sys.completeReference_cases h with hp | ⟨e, rfl, _⟩ |
    ⟨_, _, _, rfl | ⟨p, s1, d, hp, _, hrm, hd, rfl⟩⟩
  · exact absurd hp hr
  · rw [Sys.completeReference_err h]; exact RefFrame.refl _ _ _
  · exact RefFrame.refl _ _ _
  · have h1 : RefFrame m.sender m.reference.starter s s1 := RefFrame.removeDialogue ⟨rfl, rfl⟩ hrm
    obtain ⟨d0, hd0, hl0⟩ := hi.label _ _ hp
    have hd0' := hd0
    rw [← (Sys.removeDialogue_ok hrm).2.2.2.1] at hd0'
    rw [hd] at hd0'
    simp only [Option.some.injEq] at hd0'
    subst hd0'
    refine (h1.trans ?_).trans (RefFrame.setIncomplete _ (i := ⟨⟨m.reference.starter, []⟩, m.sender, s.self⟩) _
      ⟨rfl, rfl⟩)
    refine ⟨rfl, ?_, ?_, fun _ _ => rfl, fun _ _ => rfl⟩
    · intro q y hy hne
      have hqp : q ≠ p := by
        rintro rfl
        rw [hd] at hy
        simp only [Option.some.injEq] at hy
        subst hy
        rw [hl0] at hne
        exact hne ⟨rfl, rfl⟩
      show (s1.heap.set p _)[q]? = some y
      rw [List.getElem?_set_ne (fun e => hqp e.symm)]
      exact hy
    · intro l' hl
      show (s1.byLabel.set _ _).get l' = _
      rw [GoMap.get_set_ne]
      rintro rfl; exact hl ⟨rfl, rfl⟩

theorem RefFrame.updateFound {me : Bytes} {keep : Bool} {rules : RulesDecl}
    {m : Message} {isNew : Bool} {f : Option Ptr} {r : Res DErr (Option Ptr)}
    (hi : SInv me keep rules s) (h1 : m.sender ≠ me) (h2 : m.sender ≠ [])
    (hn : isNew = true → ∀ (p : Nat) (d : Dialogue), f = some p → s.heap[p]? = some d →
      About m.sender m.reference.starter d.label)
    (h : s.updateFound m isNew f = (s', r)) (hr : r ≠ .panic) :
    RefFrame m.sender m.reference.starter s s' := by
  rcases Sys.updateFound_cases h with ⟨_, rfl, _⟩ | hp | ⟨p, hf, ⟨m', hu, _⟩ | ⟨e, _, _, ⟨_, rfl⟩ | ⟨hnew, d, hd, hrm⟩⟩⟩
  · exact RefFrame.refl _ _ _
  · exact absurd hp hr
  · exact RefFrame.dialogueUpdate hi h1 h2 hu (by simp)
  · exact RefFrame.refl _ _ _
  · exact RefFrame.removeDialogue (hn hnew p d hf hd) hrm

/-- An incoming message leaves every dialogue with another counterparty or another starter reference as it
was. -/
theorem RefFrame.update {me : Bytes} {keep : Bool} {rules : RulesDecl}
    {m : Message} {k : Bytes} {r : Res DErr (Option Ptr)} (hi : SInv me keep rules s)
    (h : s.update m k = (s', r)) (hnp : r ≠ .panic) : RefFrame m.sender m.reference.starter s s' := by
  rcases Sys.update_cases h with ⟨_, _, rfl, _⟩ | ⟨h1, h2, h3, hcase⟩
  · exact RefFrame.refl _ _ _
  rw [hi.selfEq] at h2 h3
  rcases hcase with ⟨_, _, rfl, _⟩ | ⟨_, _, _, ⟨s1, p, hc, hf⟩ | ⟨e, hc, _⟩ | ⟨_, hp⟩⟩ |
    ⟨_, _, _, _, hf⟩ | ⟨_, ⟨s1, hc, hf⟩ | ⟨e, hc, _⟩ | ⟨_, hp⟩⟩
  · exact RefFrame.refl _ _ _
  · have hi1 := hi.createOpponentInitiated h2 hc
    refine (RefFrame.createOpponentInitiated hc).trans (RefFrame.updateFound hi1 h2 h1 ?_ hf hnp)
    rcases Sys.createOpponentInitiated_cases hc with ⟨he, _⟩ | ⟨_, _, hcr⟩
    · simp at he
    obtain ⟨hp, hheap, _⟩ := Sys.create_heap hcr
    rintro - q d hq hd
    simp only [Option.some.injEq] at hq
    subst hq
    rw [hheap, hp] at hd
    simp at hd
    subst hd
    exact ⟨rfl, rfl⟩
  · exact RefFrame.createOpponentInitiated hc
  · exact absurd hp hnp
  · exact RefFrame.updateFound hi h2 h1 (by simp) hf hnp
  · have hi1 := hi.completeReference hc (by simp)
    exact (RefFrame.completeReference hi hc (by simp)).trans
      (RefFrame.updateFound hi1 h2 h1 (by simp) hf hnp)
  · exact RefFrame.completeReference hi hc (by simp)
  · exact absurd hp hnp

theorem RefFrame.createSelfInitiated {o : Bytes} {ref : DialogueReference} {r : Res DErr Ptr}
    (h : s.createSelfInitiated o ref = (s', r)) : RefFrame o ref.starter s s' := by
  rcases Sys.createSelfInitiated_cases h with ⟨_, rfl⟩ | ⟨_, _, h⟩
  · exact RefFrame.refl _ _ _
  · rcases Sys.create_cases h with ⟨_, rfl, _⟩ | ⟨_, rfl, _⟩ | ⟨_, _, _, rfl⟩
    · exact RefFrame.refl _ _ _
    · exact RefFrame.refl _ _ _
    · exact RefFrame.alloc _ _ ⟨rfl, rfl⟩

theorem RefFrame.createDialogue {cp : Bytes} {m : Message} {r : Res DErr (Option Ptr)}
    (h : s.createDialogue cp m = (s', r)) (hr : r ≠ .panic) : RefFrame cp m.reference.starter s s' := by
  rcases Sys.createDialogue_cases h with ⟨e, _, h⟩ | hp | ⟨s1, p, hc, h⟩
  · exact RefFrame.createSelfInitiated h
  · exact absurd hp hr
  · refine (RefFrame.createSelfInitiated hc).trans ?_
    rcases Sys.createSelfInitiated_cases hc with ⟨he, _⟩ | ⟨_, _, hcr⟩
    · simp at he
    obtain ⟨hp, hheap, _⟩ := Sys.create_heap hcr
    have hd : s1.heap[p]? = some { Dialogue.new ⟨m.reference, cp, s.self⟩ s.self s.rules with
        callbacks := 1 } := by
      rw [hheap, hp, List.getElem?_append_right (Nat.le_refl _), Nat.sub_self]
      rfl
    rcases h with ⟨m', hu, _⟩ | ⟨e, hu, _⟩
    · exact RefFrame.ownUpdate hd ⟨rfl, rfl⟩ hu (by simp)
    · exact RefFrame.ownUpdate hd ⟨rfl, rfl⟩ hu (by simp)

/-- Any call about one dialogue leaves everything about the others as it was. -/
theorem RefFrame.call {me : Bytes} {keep : Bool} {rules : RulesDecl} {c : Call}
    (hi : SInv me keep rules s) (hx : ConcernsDialogue x n s c) (hc : (s.call c).2 ≠ .crashed) :
    RefFrame x n s (s.call c).1 := by
  cases c with
  | create cp perf nonce =>
    simp only [Sys.call] at hc ⊢
    rcases hr : s.createNew cp perf nonce with ⟨s', r⟩
    rw [hr] at hc
    obtain ⟨r0, hd, hr0⟩ := Sys.createNew_cases hr
    obtain ⟨rfl, rfl⟩ := hx
    have := RefFrame.createDialogue hd (by rintro rfl; rw [hr0] at hc; exact hc rfl)
    exact this
  | createWith cp m =>
    simp only [Sys.call] at hc ⊢
    rcases hr : s.createWithMessage cp m with ⟨s', r⟩
    rw [hr] at hc
    obtain ⟨rfl, rfl⟩ := hx
    rcases Sys.createWithMessage_cases hr with ⟨_, _, rfl⟩ | ⟨_, _, hd⟩
    · exact RefFrame.refl _ _ _
    · have := RefFrame.createDialogue hd (by rintro rfl; exact hc rfl)
      exact this
  | update m nonce =>
    simp only [Sys.call] at hc ⊢
    rcases hr : s.update m nonce with ⟨s', r⟩
    rw [hr] at hc
    obtain ⟨rfl, rfl⟩ := hx
    refine RefFrame.update hi hr ?_
    rintro rfl
    exact hc rfl
  | reply p perf tm tp =>
    simp only [Sys.call] at hc ⊢
    rcases hr : s.reply p perf tm tp with ⟨s', r⟩
    rw [hr] at hc
    rcases Sys.reply_cases hr with h' | ⟨_, _, rfl⟩ | ⟨d, m, hd, _, hu⟩
    · subst h'; exact absurd rfl hc
    · exact RefFrame.refl _ _ _
    · refine RefFrame.ownUpdate hd (hx d hd) hu ?_
      rintro rfl
      exact hc rfl

end

end Verif
