import Verif.Lemmas.Index

/-! Openings by a counterparty are remembered. -/

namespace Verif

/-- Dialogues opened by counterparties have a complete reference. -/
def NInv (me : Bytes) (s : Sys) : Prop :=
  ∀ (p : Nat) (d : Dialogue), s.heap[p]? = some d → d.label.starterAddr ≠ me →
    d.label.reference.responder ≠ []

namespace Sys

theorem dialogueUpdate_length {s s' : Sys} {p : Ptr} {m : Message} {r : Res DErr Message}
    (h : s.dialogueUpdate p m = (s', r)) (hr : r ≠ .panic) : s'.heap.length = s.heap.length := by
  rcases dialogueUpdate_cases h with hp | ⟨_, _, rfl⟩ | ⟨d, d', m', t, hd, hc, _, ht⟩
  · exact absurd hp hr
  · rfl
  · have h1 : (s.setHeap p d').heap.length = s.heap.length := by
      show (s.heap.set p d').length = _
      simp
    split at ht
    · rw [(runCallbacks_shrinks ht).heap, h1]
    · rw [ht, h1]

theorem completeReference_length {s s' : Sys} {m : Message} {r : Res DErr Unit}
    (h : s.completeReference m = (s', r)) (hr : r ≠ .panic) :
    s'.heap.length = s.heap.length := by
  rcases completeReference_cases h with hp | ⟨e, rfl, _⟩ |
    ⟨_, _, _, rfl | ⟨p, s1, d, hp, _, hrm, hd, rfl⟩⟩
  · exact absurd hp hr
  · rw [completeReference_err h]
  · rfl
  · show (s1.heap.set p _).length = _
    rw [List.length_set, (removeDialogue_ok hrm).2.2.2.1]

theorem updateFound_length {s s' : Sys} {m : Message} {isNew : Bool} {f : Option Ptr}
    {r : Res DErr (Option Ptr)} (h : s.updateFound m isNew f = (s', r)) (hr : r ≠ .panic) :
    s'.heap.length = s.heap.length := by
  rcases updateFound_cases h with ⟨_, rfl, _⟩ | hp | ⟨p, _, ⟨m', hu, _⟩ | ⟨e, _, _, ⟨_, rfl⟩ | ⟨_, d, _, hrm⟩⟩⟩
  · rfl
  · exact absurd hp hr
  · exact dialogueUpdate_length hu (by simp)
  · rfl
  · rw [(removeDialogue_ok hrm).2.2.2.1]

end Sys

theorem NInv.evolve {me : Bytes} {s s' : Sys} (h : NInv me s) (he : HeapEvolves s.heap s'.heap)
    (hl : s'.heap.length = s.heap.length) : NInv me s' := by
  intro p d hd hs
  have hlt : p < s.heap.length := by rw [← hl]; exact (List.getElem?_eq_some_iff.1 hd).1
  obtain ⟨d', hd', hev⟩ := he p s.heap[p] (by simp [hlt])
  rw [hd] at hd'
  simp only [Option.some.injEq] at hd'
  subst hd'
  have := h p s.heap[p] (by simp [hlt]) (by rw [← hev.starterAddr]; exact hs)
  rw [hev.responder this]
  exact this

theorem NInv.create {me : Bytes} {s s' : Sys} {i : DialogueLabel} {c : Option DialogueLabel}
    {r : Res DErr Ptr} (h : NInv me s)
    (hk : (c.getD i).starterAddr ≠ me → (c.getD i).reference.responder ≠ [])
    (hc : s.create i c = (s', r)) : NInv me s' := by
  cases r with
  | panic => rcases Sys.create_cases hc with ⟨h, _⟩ | ⟨h, _⟩ | ⟨h, _⟩ <;> simp at h
  | err e =>
    rcases Sys.create_cases hc with ⟨_, rfl, _⟩ | ⟨_, rfl, _⟩ | ⟨h, _⟩
    · exact h
    · cases c <;> exact h
    · simp at h
  | ok p =>
    obtain ⟨_, h2, _⟩ := Sys.create_heap hc
    intro q d hd hs
    rw [h2, List.getElem?_append] at hd
    split at hd
    · exact h q d hd hs
    · cases hk' : q - s.heap.length with
      | zero =>
        rw [hk'] at hd
        simp only [List.getElem?_cons_zero, Option.some.injEq] at hd
        subst hd
        exact hk hs
      | succ k => rw [hk'] at hd; simp at hd

/-- The mapping of an incomplete label of a counterparty's opening persists. -/
def Remembers (k : DialogueLabel) (s s' : Sys) : Prop :=
  s.incomplete.has k = true → s'.incomplete.has k = true

theorem Remembers.removeDialogue {k l : DialogueLabel} {s s' : Sys} (hne : k ≠ l)
    (h : s.removeDialogue l = .ok s') : Remembers k s s' := by
  intro hk
  rw [GoMap.has_iff] at hk ⊢
  rw [(Sys.removeDialogue_ok h).2.2.2.2.2.1, GoMap.get_erase_ne _ hne]
  exact hk

theorem Remembers.runCallbacks {n : Nat} {k l : DialogueLabel} {s s' : Sys} (hne : k ≠ l)
    (h : s.runCallbacks l n = .ok s') : Remembers k s s' := by
  induction n generalizing s with
  | zero => simp only [Sys.runCallbacks, Res.ok.injEq] at h; subst h; exact id
  | succ n ih =>
    unfold Sys.runCallbacks at h
    rw [Res.bind_eq_ok] at h
    obtain ⟨s1, h1, h2⟩ := h
    refine fun hk => ih h2 ?_
    unfold Sys.terminalCallback at h1
    split at h1
    · simp only [Res.ok.injEq] at h1; subst h1; exact hk
    · exact Remembers.removeDialogue hne h1 hk

section
variable {me : Bytes} {keep : Bool} {rules : RulesDecl}

theorem Remembers.dialogueUpdate {k : DialogueLabel} {s s' : Sys} {p : Ptr} {m : Message}
    {r : Res DErr Message}
    (hne : ∀ d, s.heap[p]? = some d → k ≠ d.label)
    (h : s.dialogueUpdate p m = (s', r)) (hr : r ≠ .panic) : Remembers k s s' := by
  rcases Sys.dialogueUpdate_cases h with hp | ⟨_, _, rfl⟩ | ⟨d, d', m', t, hd, hc, _, ht⟩
  · exact absurd hp hr
  · exact id
  · have hl : d'.label = d.label := by
      rw [(Dialogue.updateCore_ok hc).2.2.2.2, Dialogue.record_eq]
    split at ht
    · exact fun hk => Remembers.runCallbacks (by rw [hl]; exact hne d hd) ht hk
    · rw [ht]; exact id

theorem Remembers.set {k : DialogueLabel} {s : Sys} (i c : DialogueLabel) :
    Remembers k s (s.setIncomplete i c) := by
  intro hk
  rw [GoMap.has_iff] at hk ⊢
  show ∃ v, (s.incomplete.set i c).get k = some v
  rw [GoMap.get_set]
  split
  · exact ⟨_, rfl⟩
  · exact hk

theorem Remembers.create {k : DialogueLabel} {s s' : Sys} {i : DialogueLabel}
    {c : Option DialogueLabel} {r : Res DErr Ptr} (h : s.create i c = (s', r)) :
    Remembers k s s' := by
  have h1 : Remembers k s (s.mapped i c) := by
    cases c with
    | none => exact id
    | some c => exact Remembers.set i c
  rcases Sys.create_cases h with ⟨_, rfl, _⟩ | ⟨_, rfl, _⟩ | ⟨_, _, _, rfl⟩
  · exact id
  · exact h1
  · exact h1

theorem NInv.label_ne {s : Sys} (hn : NInv me s) {k : DialogueLabel} (hk1 : k.starterAddr ≠ me)
    (hk2 : k.reference.responder = []) (p : Nat) (d : Dialogue) (hd : s.heap[p]? = some d) :
    k ≠ d.label := by
  rintro rfl
  exact hn p d hd hk1 hk2

theorem opening_step {s : Sys} (hi : SInv me keep rules s) (hn : NInv me s) (c : Call)
    (hc : (s.call c).2 ≠ .crashed) (hw : NonceWorks s c) :
    NInv me (s.call c).1 ∧ ∀ k : DialogueLabel, k.starterAddr ≠ me →
      k.reference.responder = [] → Remembers k s (s.call c).1 := by
  refine Sys.call_cases hc (P := fun s' => NInv me s' ∧ ∀ k : DialogueLabel, k.starterAddr ≠ me →
      k.reference.responder = [] → Remembers k s s') ?_ ?_ ?_ ⟨hn, fun _ _ _ => id⟩
  · intro cp m s' r hms hmt h hr
    have base : ∀ {s1 r1}, s.createSelfInitiated cp m.reference = (s1, r1) →
        NInv me s1 ∧ ∀ k : DialogueLabel, Remembers k s s1 := by
      intro s1 r1 h
      rcases Sys.createSelfInitiated_cases h with ⟨_, rfl⟩ | ⟨_, _, h⟩
      · exact ⟨hn, fun _ => id⟩
      · refine ⟨hn.create ?_ h, fun k => Remembers.create h⟩
        intro hx
        exact absurd hi.selfEq hx
    rcases Sys.createDialogue_cases h with ⟨e, _, h⟩ | hp | ⟨s1, p, hc1, h⟩
    · exact ⟨(base h).1, fun k _ _ => (base h).2 k⟩
    · exact absurd hp hr
    · obtain ⟨hn1, hr1⟩ := base hc1
      have fin : ∀ {r'}, s1.dialogueUpdate p m = (s', r') → r' ≠ .panic → NInv me s' ∧
          ∀ k : DialogueLabel, k.starterAddr ≠ me → k.reference.responder = [] →
            Remembers k s s' := by
        intro r' hu hr'
        refine ⟨hn1.evolve (Sys.dialogueUpdate_evolves hu hr') (Sys.dialogueUpdate_length hu hr'), ?_⟩
        intro k hk1 hk2 hk
        exact Remembers.dialogueUpdate (hn1.label_ne hk1 hk2 p) hu hr' (hr1 k hk)
      rcases h with ⟨m', hu, _⟩ | ⟨e, hu, _⟩
      · exact fin hu (by simp)
      · exact fin hu (by simp)
  · intro m n s' r hcm h hr
    have hnonce : n ≠ [] := by subst hcm; exact hw
    have found : ∀ {s1 : Sys} {isNew f}, NInv me s1 → s1.updateFound m isNew f = (s', r) →
        NInv me s' ∧ ∀ k : DialogueLabel, k.starterAddr ≠ me → k.reference.responder = [] →
          Remembers k s1 s' := by
      intro s1 isNew f hn1 hf
      refine ⟨hn1.evolve (Sys.updateFound_evolves hf hr) (Sys.updateFound_length hf hr), ?_⟩
      intro k hk1 hk2
      rcases Sys.updateFound_cases hf with ⟨_, rfl, _⟩ | hp | ⟨p, _, ⟨m', hu, _⟩ | ⟨e, _, _, ⟨_, rfl⟩ | ⟨_, d, hd, hrm⟩⟩⟩
      · exact id
      · exact absurd hp hr
      · exact Remembers.dialogueUpdate (hn1.label_ne hk1 hk2 p) hu (by simp)
      · exact id
      · exact Remembers.removeDialogue (hn1.label_ne hk1 hk2 p d hd) hrm
    have opp : ∀ {s1 r1}, s.createOpponentInitiated m.sender m.reference n = (s1, r1) →
        NInv me s1 ∧ ∀ k : DialogueLabel, Remembers k s s1 := by
      intro s1 r1 h
      rcases Sys.createOpponentInitiated_cases h with ⟨_, rfl⟩ | ⟨_, _, h⟩
      · exact ⟨hn, fun _ => id⟩
      · refine ⟨NInv.create hn ?_ h, fun k => Remembers.create h⟩
        exact fun _ => hnonce
    have comp : ∀ {s1 r1}, s.completeReference m = (s1, r1) → r1 ≠ .panic →
        NInv me s1 ∧ ∀ k : DialogueLabel, k.starterAddr ≠ me → Remembers k s s1 := by
      intro s1 r1 h hr1
      refine ⟨hn.evolve (Sys.completeReference_evolves hi h hr1)
        (Sys.completeReference_length h hr1), ?_⟩
      intro k hk1
      rcases Sys.completeReference_cases h with hp | ⟨e, rfl, _⟩ |
        ⟨_, _, _, rfl | ⟨p, s2, d, hp, _, hrm, hd, rfl⟩⟩
      · exact absurd hp hr1
      · rw [Sys.completeReference_err h]; exact id
      · exact id
      · intro hk
        refine Remembers.set _ _ ?_
        show s2.incomplete.has k = true
        refine Remembers.removeDialogue ?_ hrm hk
        rintro rfl
        exact hk1 hi.selfEq
    rcases Sys.update_cases h with ⟨_, _, rfl, _⟩ | ⟨h1, h2, h3, hcase⟩
    · exact ⟨hn, fun _ _ _ => id⟩
    rcases hcase with ⟨_, _, rfl, _⟩ | ⟨_, _, _, ⟨s1, p, hc, hf⟩ | ⟨e, hc, _⟩ | ⟨_, hp⟩⟩ |
      ⟨_, _, _, _, hf⟩ | ⟨_, ⟨s1, hc, hf⟩ | ⟨e, hc, _⟩ | ⟨_, hp⟩⟩
    · exact ⟨hn, fun _ _ _ => id⟩
    · obtain ⟨hn1, hr1⟩ := opp hc
      obtain ⟨hn2, hr2⟩ := found hn1 hf
      exact ⟨hn2, fun k hk1 hk2 hk => hr2 k hk1 hk2 (hr1 k hk)⟩
    · exact ⟨(opp hc).1, fun k _ _ => (opp hc).2 k⟩
    · exact absurd hp hr
    · exact found hn hf
    · obtain ⟨hn1, hr1⟩ := comp hc (by simp)
      obtain ⟨hn2, hr2⟩ := found hn1 hf
      exact ⟨hn2, fun k hk1 hk2 hk => hr2 k hk1 hk2 (hr1 k hk1 hk)⟩
    · exact ⟨(comp hc (by simp)).1, fun k hk1 _ => (comp hc (by simp)).2 k hk1⟩
    · exact absurd hp hr
  · intro p perf tm tp s' r _ h hr
    refine ⟨?_, ?_⟩
    · refine hn.evolve (Sys.reply_evolves h hr) ?_
      rcases Sys.reply_cases h with h' | ⟨_, _, rfl⟩ | ⟨d, m, hd, hm, hu⟩
      · exact absurd h' hr
      · rfl
      · exact Sys.dialogueUpdate_length hu hr
    · intro k hk1 hk2
      rcases Sys.reply_cases h with h' | ⟨_, _, rfl⟩ | ⟨d, m, hd, hm, hu⟩
      · exact absurd h' hr
      · exact id
      · exact Remembers.dialogueUpdate (hn.label_ne hk1 hk2 p) hu hr

theorem NInv.init (me : Bytes) (keep : Bool) (rules : RulesDecl) : NInv me (Sys.new me keep rules) := by
  intro p d hd; simp [Sys.new] at hd

theorem opening_later {s s' : Sys} (hi : SInv me keep rules s) (hn : NInv me s)
    (h : Later NonceWorks s s') : SInv me keep rules s' ∧ NInv me s' ∧
      ∀ k : DialogueLabel, k.starterAddr ≠ me → k.reference.responder = [] → Remembers k s s' := by
  induction h with
  | refl => exact ⟨hi, hn, fun _ _ _ => id⟩
  | step c _ hw hc ih =>
    obtain ⟨h1, h2, h3⟩ := ih
    obtain ⟨h4, h5⟩ := opening_step h1 h2 c hc hw
    exact ⟨h1.call c hc, h4, fun k hk1 hk2 hk => h5 k hk1 hk2 (h3 k hk1 hk2 hk)⟩

/-- An initial message marks its reference as used, whatever becomes of it. -/
theorem opening_marks {s s' : Sys} (hi : SInv me keep rules s) (hn : NInv me s) {m : Message}
    {n : Bytes} {r : Res DErr (Option Ptr)} (hnonce : n ≠ [])
    (h1 : m.sender ≠ []) (h2 : m.sender ≠ me) (h3 : m.to = me)
    (h4 : m.reference.starter ≠ []) (h5 : m.reference.responder = []) (h6 : m.messageId = 1)
    (h : s.update m n = (s', r)) (hr : r ≠ .panic) :
    s'.incomplete.has ⟨m.reference, m.sender, m.sender⟩ = true := by
  have key : ∀ {s1 r1}, s.createOpponentInitiated m.sender m.reference n = (s1, r1) →
      r1 ≠ .panic → s1.incomplete.has ⟨m.reference, m.sender, m.sender⟩ = true := by
    intro s1 r1 hc hr1
    rcases Sys.createOpponentInitiated_cases hc with ⟨rfl, rfl⟩ | ⟨_, _, hcr⟩
    · exfalso
      unfold Sys.createOpponentInitiated at hc
      rw [if_pos ⟨h4, h5⟩] at hc
      rcases Sys.create_cases hc with ⟨h, _⟩ | ⟨h, _⟩ | ⟨h, _⟩ <;> simp at h
    · have hset : (s.incomplete.set ⟨m.reference, m.sender, m.sender⟩
          ⟨⟨m.reference.starter, n⟩, m.sender, m.sender⟩).has ⟨m.reference, m.sender, m.sender⟩ = true := by
        rw [GoMap.has_iff]; exact ⟨_, GoMap.get_set_self _ _ _⟩
      rcases Sys.create_cases hcr with ⟨_, rfl, h⟩ | ⟨_, rfl, _⟩ | ⟨_, _, _, rfl⟩
      · exact h
      · exact hset
      · exact hset
  rcases Sys.update_cases h with ⟨_, _, _, hx⟩ | ⟨_, _, _, hcase⟩
  · rw [hi.selfEq] at hx; exact absurd ⟨h1, h2, h3⟩ hx
  rcases hcase with ⟨hx, _⟩ | ⟨_, _, _, ⟨s1, p, hc, hf⟩ | ⟨e, hc, _⟩ | ⟨_, hp⟩⟩ |
    ⟨_, _, hx, _⟩ | ⟨hx, _⟩
  · exact absurd hx h4
  · have hk := key hc (by simp)
    have hi1 := hi.createOpponentInitiated h2 hc
    have hn1 : NInv me s1 := by
      rcases Sys.createOpponentInitiated_cases hc with ⟨he, _⟩ | ⟨_, _, hcr⟩
      · simp at he
      · refine NInv.create hn ?_ hcr
        exact fun _ => hnonce
    have hlne := fun q d => hn1.label_ne (k := ⟨m.reference, m.sender, m.sender⟩) h2 h5 q d
    rcases Sys.updateFound_cases hf with ⟨_, rfl, _⟩ | hp | ⟨p, _, ⟨m', hu, _⟩ | ⟨e, _, _, ⟨_, rfl⟩ | ⟨_, d, hd, hrm⟩⟩⟩
    · exact hk
    · exact absurd hp hr
    · exact Remembers.dialogueUpdate (hlne p) hu (by simp) hk
    · exact hk
    · exact Remembers.removeDialogue (hlne p d hd) hrm hk
  · exact key hc (by simp)
  · exact absurd hp hr
  · exact absurd h6 hx
  · rcases hx with ⟨_, hx⟩ | ⟨hx, _⟩ | ⟨_, _, hx⟩
    · exact absurd h5 hx
    · exact absurd hx h4
    · rw [h6] at hx; simp at hx

/-- A marked reference cannot be opened. -/
theorem opening_refused {s : Sys} {m : Message} {n : Bytes}
    (h1 : m.sender ≠ []) (h2 : m.sender ≠ s.self) (h3 : m.to = s.self)
    (h4 : m.reference.starter ≠ []) (h5 : m.reference.responder = []) (h6 : m.messageId = 1)
    (hk : s.incomplete.has ⟨m.reference, m.sender, m.sender⟩ = true) :
    s.update m n = (s, .err .incompletePresent) := by
  have hc : s.createOpponentInitiated m.sender m.reference n = (s, .err .incompletePresent) := by
    unfold Sys.createOpponentInitiated
    rw [if_pos ⟨h4, h5⟩]
    unfold Sys.create
    rw [if_pos (by exact hk)]
  rcases hu : s.update m n with ⟨s', r⟩
  rcases Sys.update_cases hu with ⟨_, _, _, hx⟩ | ⟨_, _, _, hcase⟩
  · exact absurd ⟨h1, h2, h3⟩ hx
  rcases hcase with ⟨hx, _⟩ | ⟨_, _, _, ⟨s1, p, hc', hf⟩ | ⟨e, hc', he⟩ | ⟨hc', hp⟩⟩ |
    ⟨_, _, hx, _⟩ | ⟨hx, _⟩
  · exact absurd hx h4
  · rw [hc] at hc'; simp at hc'
  · rw [hc] at hc'
    simp only [Prod.mk.injEq, Res.err.injEq] at hc'
    rw [he, ← hc'.1, ← hc'.2]
  · rw [hc] at hc'; simp at hc'
  · exact absurd h6 hx
  · rcases hx with ⟨_, hx⟩ | ⟨hx, _⟩ | ⟨_, _, hx⟩
    · exact absurd h5 hx
    · exact absurd hx h4
    · rw [h6] at hx; simp at hx

end

end Verif
