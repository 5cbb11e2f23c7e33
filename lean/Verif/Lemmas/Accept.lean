import Verif.Lemmas.Index

/-! When a call accepts a message into a dialogue, and when it panics. -/

namespace Verif

section
variable {me : Bytes} {keep : Bool} {rules : RulesDecl}

theorem Sys.completeReference_length {s s' : Sys} {m : Message} {r : Res DErr Unit}
    (h : s.completeReference m = (s', r)) (hr : r ≠ .panic) : s'.heap.length = s.heap.length := by
  rcases Sys.completeReference_cases h with hp | ⟨e, rfl, _⟩ |
    ⟨_, _, _, rfl | ⟨p, s1, d, hp, _, hrm, hd, rfl⟩⟩
  · exact absurd hp hr
  · rw [Sys.completeReference_err h]
  · rfl
  · have hheap := (Sys.removeDialogue_ok hrm).2.2.2.1
    show (s1.heap.set p _).length = _
    rw [List.length_set, hheap]

theorem Sys.dialogueUpdate_ok {s s' : Sys} {p : Ptr} {msg m : Message}
    (h : s.dialogueUpdate p msg = (s', .ok m)) :
    ∃ d d' t, s.heap[p]? = some d ∧ d.updateCore msg = .ok (d', m, t) ∧
      s'.heap = s.heap.set p d' := by
  rcases Sys.dialogueUpdate_cases h with hp | ⟨_, hp, _⟩ | ⟨d, d', m', t, hd, hc, hr, ht⟩
  · simp at hp
  · simp at hp
  · simp only [Res.ok.injEq] at hr
    subst hr
    refine ⟨d, d', t, hd, hc, ?_⟩
    split at ht
    · exact (Sys.runCallbacks_shrinks ht).heap
    · rw [ht]; rfl

/-- What an accepted incoming message looks like from the inside. -/
theorem Sys.update_accepted {s s' : Sys} {m : Message} {n : Bytes} {p : Ptr}
    (hi : SInv me keep rules s) (h : s.update m n = (s', .ok (some p))) :
    m.sender ≠ [] ∧ m.sender ≠ me ∧ m.to = me ∧
    ∃ s1 d1 d' t, SInv me keep rules s1 ∧ s1.heap[p]? = some d1 ∧
      d1.updateCore m = .ok (d', m, t) ∧ s'.heap[p]? = some d' ∧
      ((p = s.heap.length ∧ d1.isEmpty = true) ∨
        ∃ d, s.heap[p]? = some d ∧ SameMessages d d1 ∧ Evolves d d1) := by
  rcases Sys.update_cases h with ⟨_, hp, _⟩ | ⟨h1, h2, h3, hcase⟩
  · simp at hp
  rw [hi.selfEq] at h2 h3
  refine ⟨h1, h2, h3, ?_⟩
  have found : ∀ {s1 : Sys} {isNew f}, SInv me keep rules s1 →
      s1.updateFound m isNew f = (s', .ok (some p)) →
      f = some p ∧ ∃ d1 d' t, s1.heap[p]? = some d1 ∧ d1.updateCore m = .ok (d', m, t) ∧
        s'.heap[p]? = some d' := by
    intro s1 isNew f hi1 hf
    rcases Sys.updateFound_cases hf with ⟨_, _, hp⟩ | hp | ⟨q, hq, ⟨m', hd, he⟩ | ⟨e, _, hp, _⟩⟩
    · simp at hp
    · simp at hp
    · simp only [Res.ok.injEq, Option.some.injEq] at he
      subst he
      obtain ⟨d, d', t, hd1, hc, hheap⟩ := Sys.dialogueUpdate_ok hd
      have hm : m' = m := by
        rw [(Dialogue.updateCore_ok hc).1]
        simp [Dialogue.withSender, Message.hasSender, h1]
      subst hm
      refine ⟨hq, d, d', t, hd1, hc, ?_⟩
      rw [hheap]
      exact getElem?_set_self_of_some hd1
    · simp at hp
  have old : ∀ {s1 : Sys} {d1 : Dialogue}, HeapSame s.heap s1.heap →
      HeapEvolves s.heap s1.heap →
      s1.heap.length = s.heap.length → s1.heap[p]? = some d1 →
      ∃ d, s.heap[p]? = some d ∧ SameMessages d d1 ∧ Evolves d d1 := by
    intro s1 d1 hs he hl hd
    have hlt := (List.getElem?_eq_some_iff.1 hd).1
    rw [hl] at hlt
    obtain ⟨d', hd', hsm⟩ := hs p _ (List.getElem?_eq_getElem hlt)
    obtain ⟨d'', hd'', hev⟩ := he p _ (List.getElem?_eq_getElem hlt)
    rw [hd] at hd' hd''
    simp only [Option.some.injEq] at hd' hd''
    subst hd'
    subst hd''
    exact ⟨_, List.getElem?_eq_getElem hlt, hsm, hev⟩
  rcases hcase with ⟨_, _, _, hp⟩ | ⟨_, _, _, ⟨s1, q, hc, hf⟩ | ⟨e, _, hp⟩ | ⟨_, hp⟩⟩ |
    ⟨_, _, _, _, hf⟩ | ⟨_, ⟨s1, hc, hf⟩ | ⟨e, hc, hp⟩ | ⟨_, hp⟩⟩
  · simp at hp
  · have hi1 := hi.createOpponentInitiated h2 hc
    obtain ⟨hq, d1, d', t, a1, a2, a3⟩ := found hi1 hf
    simp only [Option.some.injEq] at hq
    subst hq
    refine ⟨s1, d1, d', t, hi1, a1, a2, a3, Or.inl ?_⟩
    rcases Sys.createOpponentInitiated_cases hc with ⟨he, _⟩ | ⟨_, _, hcr⟩
    · simp at he
    obtain ⟨hp, hheap, _⟩ := Sys.create_heap hcr
    refine ⟨hp, ?_⟩
    rw [hheap, hp, List.getElem?_append_right (Nat.le_refl _), Nat.sub_self] at a1
    simp only [List.getElem?_cons_zero, Option.some.injEq] at a1
    rw [← a1]
    rfl
  · simp at hp
  · simp at hp
  · obtain ⟨_, d1, d', t, a1, a2, a3⟩ := found hi hf
    exact ⟨s, d1, d', t, hi, a1, a2, a3, Or.inr ⟨d1, a1, SameMessages.refl d1, Evolves.refl d1⟩⟩
  · have hi1 := hi.completeReference hc (by simp)
    obtain ⟨_, d1, d', t, a1, a2, a3⟩ := found hi1 hf
    refine ⟨s1, d1, d', t, hi1, a1, a2, a3, Or.inr ?_⟩
    exact old (Sys.completeReference_same hc (by simp)) (Sys.completeReference_evolves hi hc (by simp)) (Sys.completeReference_length hc (by simp)) a1
  · simp at hp
  · simp at hp

/-- The same for an accepted reply. -/
theorem Sys.reply_accepted {s s' : Sys} {p : Ptr} {perf : Bytes} {tm : Option Message}
    {tp : Option Int} {m : Message} (hi : SInv me keep rules s)
    (h : s.reply p perf tm tp = (s', .ok m)) :
    ∃ d d' t, s.heap[p]? = some d ∧ d.isEmpty = false ∧ m.sender = me ∧
      m.to = d.label.opponent ∧ m.target ≠ 0 ∧ m.reference = d.label.reference ∧
      m.messageId = d.nextOutgoingId ∧ m.performative = perf ∧
      d.updateCore m = .ok (d', m, t) ∧ s'.heap[p]? = some d' := by
  rcases Sys.reply_cases h with hp | ⟨_, hp, _⟩ | ⟨d, m0, hd, hm, hdu⟩
  · simp at hp
  · simp at hp
  · obtain ⟨he, htg, hs, hto, href, hid, hpf, _⟩ := Dialogue.replyMessage_ok hm
    obtain ⟨d2, d', t, hd2, hc, hheap⟩ := Sys.dialogueUpdate_ok hdu
    rw [hd] at hd2
    simp only [Option.some.injEq] at hd2
    subst hd2
    have hself := (hi.heap p d hd).selfAddr
    have hmm : m = m0 := by
      rw [(Dialogue.updateCore_ok hc).1]
      unfold Dialogue.withSender
      split
      · rfl
      · have : m0 = { m0 with sender := d.selfAddress } := by
          rw [← hs]
        exact this.symm
    subst hmm
    refine ⟨d, d', t, hd, he, by rw [hs]; exact hself, hto, htg, href, hid, hpf, hc, ?_⟩
    rw [hheap]
    exact getElem?_set_self_of_some hd

/-! ### Panics -/

/-- The id `t` lies in a gap of the counterparty's ids: it is not larger than the last one, but
there are fewer messages. -/
def Gap (d : Dialogue) (t : Int) : Prop :=
  ∃ last, d.incoming.getLast? = some last ∧ d.incoming.length < t.natAbs ∧
    t.natAbs ≤ last.messageId.natAbs

theorem Dialogue.getMessageById_panic {d : Dialogue} (h : DInv me rules d) {t : Int}
    (hp : d.getMessageById t = .panic) : Gap d t := by
  unfold Dialogue.getMessageById at hp
  split at hp
  · simp at hp
  split at hp
  · simp at hp
  rename_i hne
  simp only at hp
  split at hp
  · simp at hp
  rename_i last hlast
  split at hp
  · simp at hp
  rename_i hle
  rw [Res.bind_eq_panic] at hp
  rcases hp with hp | ⟨_, _, hp⟩
  · unfold Dialogue.goIndex at hp
    simp only [absId_eq] at hp hle
    rw [if_neg (by omega)] at hp
    split at hp
    · simp at hp
    · rename_i hnone
      rw [List.getElem?_eq_none_iff] at hnone
      split at hlast
      · -- own messages have no gap
        rename_i hc
        rw [if_pos hc] at hnone
        exfalso
        have hidx : d.outgoing[d.outgoing.length - 1]? = some last := by
          rw [← hlast, List.getLast?_eq_getElem?]
        have hpos : 0 < d.outgoing.length := by
          rcases Nat.eq_zero_or_pos d.outgoing.length with h0 | h0
          · rw [List.length_eq_zero_iff] at h0; rw [h0] at hlast; simp at hlast
          · exact h0
        have := h.ownIds _ _ hidx
        by_cases ho : OpenedBySelf me d
        · have := this.1 ho; omega
        · have := this.2 ho; omega
      · rename_i hc
        rw [if_neg hc] at hnone
        exact ⟨last, hlast, by omega, by omega⟩
  · simp at hp

theorem Dialogue.validateMessageTarget_panic {d : Dialogue} (h : DInv me rules d)
    (he : d.isEmpty = false) {m : Message} (hp : d.validateMessageTarget m = .panic) :
    Gap d m.target := by
  unfold Dialogue.validateMessageTarget at hp
  split at hp
  · split at hp <;> simp at hp
  split at hp
  · simp at hp
  simp only at hp
  rw [Res.bind_eq_panic] at hp
  rcases hp with hp | ⟨mx, _, hp⟩
  · exfalso
    have hne : d.outgoing ≠ [] ∨ d.incoming ≠ [] := by
      by_cases h1 : d.outgoing = []
      · by_cases h2 : d.incoming = []
        · rw [(Dialogue.isEmpty_iff d).2 ⟨h1, h2⟩] at he; simp at he
        · exact Or.inr h2
      · exact Or.inl h1
    unfold Dialogue.lastIncoming Dialogue.lastOutgoing at hp
    cases h1 : d.incoming.getLast? with
    | some x => rw [h1] at hp; simp [maxIds] at hp
    | none =>
      cases h2 : d.outgoing.getLast? with
      | some x => rw [h1, h2] at hp; simp [maxIds] at hp
      | none =>
        rw [List.getLast?_eq_none_iff] at h1 h2
        rcases hne with h | h
        · exact h h2
        · exact h h1
  · split at hp
    · simp at hp
    rw [Res.bind_eq_panic] at hp
    rcases hp with hp | ⟨tm, _, hp⟩
    · exact Dialogue.getMessageById_panic h hp
    · split at hp
      · simp at hp
      · split at hp <;> split at hp <;> simp at hp

theorem Dialogue.updateCore_panic {d : Dialogue} (h : DInv me rules d) {msg : Message}
    (hp : d.updateCore msg = .panic) : Gap d msg.target := by
  have ht : (d.withSender msg).target = msg.target := by
    unfold Dialogue.withSender; split <;> rfl
  rw [← ht]
  unfold Dialogue.updateCore at hp
  simp only at hp
  split at hp
  · simp at hp
  rw [Res.bind_eq_panic] at hp
  rcases hp with hp | ⟨_, _, hp⟩
  · unfold Dialogue.validateNext at hp
    split at hp
    · exfalso
      unfold Dialogue.validateInitial at hp
      split at hp
      · simp at hp
      split at hp
      · simp at hp
      rename_i hid
      rw [Res.bind_eq_panic] at hp
      rcases hp with hp | ⟨_, _, hp⟩
      · unfold Dialogue.validateMessageTarget at hp
        rw [if_pos (Classical.not_not.1 hid)] at hp
        split at hp <;> simp at hp
      · split at hp <;> simp at hp
    · rename_i he
      unfold Dialogue.validateNonInitial at hp
      split at hp
      · simp at hp
      rw [Res.bind_eq_panic] at hp
      rcases hp with hp | ⟨_, _, hp⟩
      · unfold Dialogue.validateMessageId at hp
        simp only at hp
        split at hp <;> split at hp <;> simp at hp
      · exact Dialogue.validateMessageTarget_panic h (by simpa using he) hp
  · simp at hp

theorem Gap.same {d d' : Dialogue} (h : SameMessages d d') {t : Int} (hg : Gap d' t) : Gap d t := by
  obtain ⟨l, h1, h2, h3⟩ := hg
  rw [h.incoming] at h1 h2
  exact ⟨l, h1, h2, h3⟩

/-- An update through a pointer panics only because of a gap. -/
theorem XInv.dialogueUpdate_panic {s s' : Sys} {p : Ptr} {m : Message} {d : Dialogue}
    (hi : SInv me keep rules s) (hx : XInv s) (hset : Settled s p) (hd : s.heap[p]? = some d)
    (ho : Offered me d m) (h : s.dialogueUpdate p m = (s', .panic)) : Gap d m.target := by
  unfold Sys.dialogueUpdate at h
  rw [hd] at h
  simp only at h
  cases hc : d.updateCore m with
  | panic => exact Dialogue.updateCore_panic (hi.heap p d hd) hc
  | err e => rw [hc] at h; simp at h
  | ok a =>
    obtain ⟨d', m', t⟩ := a
    rw [hc] at h
    simp only at h
    split at h
    · exfalso
      have hl : d'.label = d.label := by
        rw [(Dialogue.updateCore_ok hc).2.2.2.2, Dialogue.record_eq]
      have hx1 := hx.setHeap hd hl
      have hi1 := hi.setHeap hd hl ((hi.heap p d hd).update ho hc)
      obtain ⟨s2, h2⟩ := hx1.runCallbacks_total hi1 (l := d'.label) (n := d'.callbacks)
        (by rw [hl]; exact hset d hd)
      rw [h2] at h
      simp at h
    · simp at h

theorem XInv.updateFound_panic {s s' : Sys} {m : Message} {isNew : Bool} {f : Option Ptr}
    (hi : SInv me keep rules s) (hx : XInv s)
    (h1 : m.sender ≠ me) (h2 : m.sender ≠ []) (h3 : m.to = me)
    (hset : ∀ p, f = some p → Settled s p ∧ ∃ d, s.heap[p]? = some d)
    (hu : s.updateFound m isNew f = (s', .panic)) :
    ∃ p d, f = some p ∧ s.heap[p]? = some d ∧ Gap d m.target := by
  cases f with
  | none => simp [Sys.updateFound] at hu
  | some p =>
    obtain ⟨hs, d, hd⟩ := hset p rfl
    refine ⟨p, d, rfl, hd, ?_⟩
    unfold Sys.updateFound at hu
    simp only at hu
    rcases hdu : s.dialogueUpdate p m with ⟨s1, r⟩
    rw [hdu] at hu
    cases r with
    | ok x => simp at hu
    | panic => exact hx.dialogueUpdate_panic hi hs hd (Offered.other h1 h2 h3) hdu
    | err e =>
      exfalso
      simp only at hu
      have hs1 := Sys.dialogueUpdate_err hdu
      subst hs1
      split at hu
      · rw [hd] at hu
        simp only at hu
        obtain ⟨s2, h2⟩ := hx.removeDialogue_total hi d.label
        rw [h2] at hu
        simp at hu
      · simp at hu

theorem Sys.create_not_panic {s s' : Sys} {i : DialogueLabel} {c : Option DialogueLabel} :
    s.create i c ≠ (s', .panic) := by
  intro h
  rcases Sys.create_cases h with ⟨h, _⟩ | ⟨h, _⟩ | ⟨h, _⟩ <;> simp at h

theorem XInv.completeReference_not_panic {s s' : Sys} {m : Message} (hi : SInv me keep rules s)
    (hx : XInv s) : s.completeReference m ≠ (s', .panic) := by
  intro h
  unfold Sys.completeReference at h
  simp only at h
  split at h
  · simp at h
  split at h
  · cases hg : s.getByLabel ⟨⟨m.reference.starter, []⟩, m.sender, s.self⟩ with
    | none => rw [hg] at h; simp at h
    | some p =>
      rw [hg] at h
      simp only at h
      obtain ⟨s1, h1⟩ := hx.removeDialogue_total hi ⟨⟨m.reference.starter, []⟩, m.sender, s.self⟩
      rw [h1] at h
      simp only at h
      obtain ⟨d, hd, _⟩ := hi.label _ _ hg
      have hd1 : s1.heap[p]? = some d := by rw [(Sys.removeDialogue_ok h1).2.2.2.1]; exact hd
      rw [hd1] at h
      simp only at h
      unfold Dialogue.updateLabel at h
      split at h
      · rename_i hu; split at hu <;> simp at hu
      · simp at h
      · simp at h
  · simp at h

theorem XInv.update_panic {s s' : Sys} {m : Message} {n : Bytes}
    (hi : SInv me keep rules s) (hx : XInv s) (h : s.update m n = (s', .panic)) :
    ∃ (p : Nat) (d : Dialogue), s.heap[p]? = some d ∧ Gap d m.target := by
  rcases Sys.update_cases h with ⟨_, hp, _⟩ | ⟨h1, h2, h3, hcase⟩
  · simp at hp
  rw [hi.selfEq] at h2 h3
  have fnd : ∀ {s1 : Sys}, SInv me keep rules s1 → ∀ p, s1.getDialogue m = some p →
      Settled s1 p ∧ ∃ d, s1.heap[p]? = some d := by
    intro s1 hi1 p hp
    refine ⟨Settled.getDialogue hi1 hp, ?_⟩
    obtain ⟨l, hl⟩ := Sys.getDialogue_some hp
    obtain ⟨d, hd, _⟩ := hi1.label l p hl
    exact ⟨d, hd⟩
  rcases hcase with ⟨_, _, _, hp⟩ | ⟨_, _, _, ⟨s1, q, hc, hf⟩ | ⟨e, _, hp⟩ | ⟨hc, hp⟩⟩ |
    ⟨_, _, _, _, hf⟩ | ⟨_, ⟨s1, hc, hf⟩ | ⟨e, hc, hp⟩ | ⟨hc, hp⟩⟩
  · simp at hp
  · exfalso
    have hi1 := hi.createOpponentInitiated h2 hc
    have hx1 := hx.createOpponentInitiated hi h2 hc
    rcases Sys.createOpponentInitiated_cases hc with ⟨he, _⟩ | ⟨_, _, hcr⟩
    · simp at he
    obtain ⟨hp, hheap, hbl⟩ := Sys.create_heap hcr
    have hd : s1.heap[q]? = some { Dialogue.new ⟨⟨m.reference.starter, n⟩, m.sender, m.sender⟩
        s.self s.rules with callbacks := 1 } := by
      rw [hheap, hp, List.getElem?_append_right (Nat.le_refl _), Nat.sub_self]
      rfl
    obtain ⟨p, d, hq, hd', hg⟩ := hx1.updateFound_panic hi1 h2 h1 h3 (by
      intro p hp'
      simp only [Option.some.injEq] at hp'
      subst hp'
      refine ⟨Settled.stored hi1 (l := ⟨⟨m.reference.starter, n⟩, m.sender, m.sender⟩) ?_, _, hd⟩
      rw [hbl]
      exact GoMap.get_set_self _ _ _) hf
    simp only [Option.some.injEq] at hq
    subst hq
    rw [hd] at hd'
    simp only [Option.some.injEq] at hd'
    obtain ⟨l, hl, _⟩ := hg
    rw [← hd'] at hl
    simp [Dialogue.new] at hl
  · simp at hp
  · rcases Sys.createOpponentInitiated_cases hc with ⟨he, _⟩ | ⟨_, _, hcr⟩
    · simp at he
    · exact absurd hcr Sys.create_not_panic
  · obtain ⟨p, d, _, hd, hg⟩ := hx.updateFound_panic hi h2 h1 h3 (fnd hi) hf
    exact ⟨p, d, hd, hg⟩
  · have hi1 := hi.completeReference hc (by simp)
    have hx1 := hx.completeReference hi hc (by simp)
    obtain ⟨p, d1, _, hd1, hg⟩ := hx1.updateFound_panic hi1 h2 h1 h3 (fnd hi1) hf
    have hlt := (List.getElem?_eq_some_iff.1 hd1).1
    rw [Sys.completeReference_length hc (by simp)] at hlt
    obtain ⟨d', hd', hsm⟩ := Sys.completeReference_same hc (by simp) p _ (List.getElem?_eq_getElem hlt)
    rw [hd1] at hd'
    simp only [Option.some.injEq] at hd'
    subst hd'
    exact ⟨p, _, List.getElem?_eq_getElem hlt, hg.same hsm⟩
  · simp at hp
  · exact absurd hc (hx.completeReference_not_panic hi)

theorem Dialogue.replyMessage_panic {d : Dialogue} (h : DInv me rules d) {perf : Bytes}
    {tm : Option Message} {tp : Option Int} (hp : d.replyMessage perf tm tp = .panic) :
    ∃ t, Gap d t := by
  unfold Dialogue.replyMessage at hp
  cases hl : d.lastMessage with
  | none => rw [hl] at hp; simp at hp
  | some last =>
    rw [hl] at hp
    simp only at hp
    rw [Res.bind_eq_panic] at hp
    rcases hp with hp | ⟨⟨t, x⟩, _, hp⟩
    · split at hp
      · rw [Res.bind_eq_panic] at hp
        rcases hp with hp | ⟨_, _, hp⟩
        · exact ⟨_, Dialogue.getMessageById_panic h hp⟩
        · simp at hp
      · simp at hp
      · simp at hp
      · split at hp <;> simp at hp
    · simp only at hp
      split at hp
      · simp at hp
      · rw [Res.bind_eq_panic] at hp
        rcases hp with hp | ⟨b, _, hp⟩
        · unfold Dialogue.hasMessageId at hp
          rw [Res.bind_eq_panic] at hp
          rcases hp with hp | ⟨_, _, hp⟩
          · exact ⟨_, Dialogue.getMessageById_panic h hp⟩
          · simp at hp
        · split at hp <;> simp at hp

theorem XInv.reply_panic {s s' : Sys} {p : Ptr} {perf : Bytes} {tm : Option Message}
    {tp : Option Int} {d : Dialogue} (hi : SInv me keep rules s) (hx : XInv s)
    (hset : Settled s p) (hd : s.heap[p]? = some d)
    (h : s.reply p perf tm tp = (s', .panic)) : ∃ t, Gap d t := by
  unfold Sys.reply at h
  rw [hd] at h
  simp only at h
  cases hm : d.replyMessage perf tm tp with
  | panic => exact Dialogue.replyMessage_panic (hi.heap p d hd) hm
  | err e => rw [hm] at h; simp at h
  | ok m =>
    rw [hm] at h
    simp only at h
    obtain ⟨he, ht, hs, hto, _⟩ := Dialogue.replyMessage_ok hm
    refine ⟨_, hx.dialogueUpdate_panic hi hset hd ?_ h⟩
    exact Offered.own (by rw [hs]; exact (hi.heap p d hd).selfAddr) hto
      (by intro he'; rw [he] at he'; simp at he') (fun _ => ht)

theorem XInv.createDialogue_not_panic {s s' : Sys} {cp : Bytes} {m : Message}
    (hi : SInv me keep rules s) (hx : XInv s) (hs : m.sender = me) (ht : m.to = cp) :
    s.createDialogue cp m ≠ (s', .panic) := by
  intro h
  unfold Sys.createDialogue at h
  rcases hc : s.createSelfInitiated cp m.reference with ⟨s1, r⟩
  rw [hc] at h
  cases r with
  | err e => simp at h
  | panic =>
    rcases Sys.createSelfInitiated_cases hc with ⟨he, _⟩ | ⟨_, _, hcr⟩
    · simp at he
    · exact Sys.create_not_panic hcr
  | ok p =>
    simp only at h
    have hi1 := hi.createSelfInitiated hc
    have hx1 := hx.createSelfInitiated hi hc
    rcases Sys.createSelfInitiated_cases hc with ⟨he, _⟩ | ⟨_, _, hcr⟩
    · simp at he
    obtain ⟨hp, hheap, hbl⟩ := Sys.create_heap hcr
    have hd : s1.heap[p]? = some { Dialogue.new ⟨m.reference, cp, s.self⟩
        s.self s.rules with callbacks := 1 } := by
      rw [hheap, hp, List.getElem?_append_right (Nat.le_refl _), Nat.sub_self]
      rfl
    rcases hdu : s1.dialogueUpdate p m with ⟨s2, r⟩
    rw [hdu] at h
    cases r with
    | ok x => simp at h
    | err e => simp at h
    | panic =>
      have := hx1.dialogueUpdate_panic hi1 (Settled.stored hi1 (l := ⟨m.reference, cp, s.self⟩) (by
        rw [hbl]; exact GoMap.get_set_self _ _ _)) hd (Offered.own hs ht (fun _ => hi.selfEq)
          (by intro he; simp [Dialogue.new, Dialogue.isEmpty] at he)) hdu
      obtain ⟨l, hl, _⟩ := this
      simp [Dialogue.new] at hl

end

end Verif
