import Verif.Lemmas.Dialogue

/-! The invariant of a single dialogue, and its preservation by accepted messages. -/

namespace Verif

/-- What is true of every dialogue in the heap of a reachable agent state. -/
structure DInv (me : Bytes) (rules : RulesDecl) (d : Dialogue) : Prop where
  selfAddr : d.selfAddress = me
  rulesEq : d.rules = newRules rules
  kind : d.label.starterAddr = me ∨
    (d.label.starterAddr = d.label.opponent ∧ d.label.opponent ≠ me)
  history : ∃ ms, IsHistory me d ms ∧ FollowsRules rules ms ∧ IncomingLaw me (OpenedBySelf me d) ms
  lastIs : ∀ x, d.orderedIds.getLast? = some x → d.lastMessageId = x
  ownIds : OwnIdsConsecutive me d
  lastId : d.isEmpty = false → d.lastMessageId ≠ 0
  peerFirst : d.label.starterAddr ≠ me → d.isEmpty = false → d.incoming ≠ []
  sentBySelf : ∀ m ∈ d.outgoing, m.sender = me ∧ m.to = d.label.opponent
  sentByPeer : ∀ m ∈ d.incoming, m.sender = d.label.opponent ∧ m.to = me ∧ m.sender ≠ me
  starterRef : ∀ m, m ∈ d.outgoing ∨ m ∈ d.incoming →
    m.reference.starter = d.label.reference.starter
  peerBound : ∀ m ∈ d.incoming, m.messageId ≠ 0
  registered : 1 ≤ d.callbacks

/-- The messages the library passes to `update`. -/
inductive Offered (me : Bytes) (d : Dialogue) (m : Message) : Prop where
  | own : m.sender = me → m.to = d.label.opponent →
      (d.isEmpty = true → d.label.starterAddr = me) →
      (d.isEmpty = false → m.target ≠ 0) → Offered me d m
  | other : m.sender ≠ me → m.sender ≠ [] → m.to = me → Offered me d m

theorem FollowsRules.snoc_first {rules : RulesDecl} {m : Message}
    (h : m.messageId = 1 ∧ m.target = 0 ∧ m.performative ∈ rules.initial) :
    FollowsRules rules [m] := by
  constructor
  · intro x rest hx
    simp only [List.cons.injEq] at hx
    rw [← hx.1]; exact h
  · intro pre x post hx hp
    cases pre with
    | nil => exact absurd rfl hp
    | cons a pre => simp at hx

theorem FollowsRules.snoc {rules : RulesDecl} {ms : List Message} {m : Message}
    (h : FollowsRules rules ms) (hne : ms ≠ []) (ht : m.target ≠ 0)
    (hr : ∃ t ∈ ms, IsValidReply rules t.performative m.performative) :
    FollowsRules rules (ms ++ [m]) := by
  constructor
  · intro x rest hx
    cases ms with
    | nil => exact absurd rfl hne
    | cons a ms =>
      simp only [List.cons_append, List.cons.injEq] at hx
      rw [← hx.1]; exact h.first a ms rfl
  · intro pre x post hx hp
    rcases List.eq_nil_or_concat post with hpost | ⟨post', y, hpost⟩
    · subst hpost
      have := List.append_inj' (s₁ := ms) (t₁ := [m]) (s₂ := pre) (t₂ := [x]) hx rfl
      simp only [List.cons.injEq, and_true] at this
      rw [← this.1, ← this.2]
      exact ⟨ht, hr⟩
    · rw [List.concat_eq_append] at hpost
      subst hpost
      have hx' : ms ++ [m] = (pre ++ x :: post') ++ [y] := by simpa using hx
      have := List.append_inj' hx' rfl
      exact h.later pre x post' this.1 hp

/-- A statement about all positions of a list, extended by one element. -/
theorem forall_split_snoc {α : Type} {P : List α → α → Prop} {ms : List α} {x : α}
    (h : ∀ pre m post, ms = pre ++ m :: post → P pre m) (hx : P ms x) :
    ∀ pre m post, ms ++ [x] = pre ++ m :: post → P pre m := by
  intro pre m post he
  rcases List.eq_nil_or_concat post with hpost | ⟨post', y, hpost⟩
  · subst hpost
    have := List.append_inj' (s₁ := ms) (t₁ := [x]) (s₂ := pre) (t₂ := [m]) he rfl
    simp only [List.cons.injEq, and_true] at this
    rw [← this.1, ← this.2]
    exact hx
  · rw [List.concat_eq_append] at hpost
    subst hpost
    have he' : ms ++ [x] = (pre ++ m :: post') ++ [y] := by simpa using he
    have := List.append_inj' he' rfl
    exact h pre m post' this.1

theorem IsHistory.mem_iff {me : Bytes} {d : Dialogue} {ms : List Message}
    (h : IsHistory me d ms) (m : Message) : m ∈ ms ↔ m ∈ d.outgoing ∨ m ∈ d.incoming := by
  rw [h.outgoing, h.incoming]
  simp only [List.mem_filter]
  by_cases hs : m.sender = me <;> simp [hs]

theorem IsHistory.nil_iff {me : Bytes} {d : Dialogue} {ms : List Message}
    (h : IsHistory me d ms) : ms = [] ↔ d.isEmpty = true := by
  rw [Dialogue.isEmpty_iff]
  constructor
  · intro e; subst e; exact ⟨by simpa using h.outgoing, by simpa using h.incoming⟩
  · rintro ⟨h1, h2⟩
    apply List.eq_nil_iff_forall_not_mem.2
    intro m hm
    rw [h.mem_iff, h1, h2] at hm
    simp at hm

theorem IsHistory.snoc {me : Bytes} {d : Dialogue} {ms : List Message}
    (h : IsHistory me d ms) (hself : d.selfAddress = me) (m : Message) :
    IsHistory me (d.record m) (ms ++ [m]) := by
  rw [Dialogue.record_eq]
  constructor
  · by_cases hs : m.sender = me <;> simp [hs, hself, h.outgoing]
  · by_cases hs : m.sender = me <;> simp [hs, hself, h.incoming]
  · simp [h.ids]

namespace Dialogue

theorem nextOutgoingId_eq {me : Bytes} {rules : RulesDecl} {d : Dialogue}
    (h : DInv me rules d) :
    d.nextOutgoingId = if d.isSelfInitiated then (d.outgoing.length : Int) + 1
      else -((d.outgoing.length : Int) + 1) := by
  unfold nextOutgoingId
  have key : (match d.lastOutgoing with
      | some m => absId m.messageId + 1
      | none => startingMessageId) = (d.outgoing.length : Int) + 1 := by
    unfold lastOutgoing
    cases hl : d.outgoing.getLast? with
    | none =>
      rw [List.getLast?_eq_none_iff] at hl
      simp [hl, startingMessageId]
    | some m =>
      have hne : d.outgoing ≠ [] := by intro e; rw [e] at hl; simp at hl
      have hidx : d.outgoing[d.outgoing.length - 1]? = some m := by
        rw [← hl, List.getLast?_eq_getElem?]
      have hpos : 0 < d.outgoing.length := List.length_pos_iff.2 hne
      have := h.ownIds _ _ hidx
      simp only [absId_eq]
      by_cases ho : OpenedBySelf me d
      · have := this.1 ho; omega
      · have := this.2 ho; omega
  by_cases hs : d.isSelfInitiated = true
  · simp only [hs, if_true]; exact key
  · simp only [hs, Bool.false_eq_true, if_false, Int.zero_sub]; exact congrArg _ key

theorem selfInit_iff {me : Bytes} {rules : RulesDecl} {d : Dialogue} (h : DInv me rules d)
    (hne : d.label.opponent ≠ me) : d.isSelfInitiated = true ↔ OpenedBySelf me d := by
  unfold isSelfInitiated OpenedBySelf
  rcases h.kind with hk | ⟨hk, ho⟩
  · simp [hk, Ne.symm hne]
  · simp [hk, ho]

end Dialogue

theorem withSender_of_offered {me : Bytes} {d : Dialogue} {m : Message}
    (hs : d.selfAddress = me) (h : Offered me d m) : d.withSender m = m := by
  unfold Dialogue.withSender Message.hasSender
  cases h with
  | own h1 =>
    by_cases hm : m.sender = []
    · simp only [hm, bne_self_eq_false, Bool.false_eq_true, if_false]
      rw [hs, ← h1]
    · simp [hm]
  | other h1 h2 => simp [h2]

/-- Preservation of the invariant by an accepted message. -/
theorem DInv.update {me : Bytes} {rules : RulesDecl} {d d' : Dialogue} {msg m : Message}
    {t : Bool} (h : DInv me rules d) (ho : Offered me d msg)
    (hu : d.updateCore msg = .ok (d', m, t)) : DInv me rules d' := by
  obtain ⟨hm, hb, hv, _, hd'⟩ := Dialogue.updateCore_ok hu
  rw [withSender_of_offered h.selfAddr ho] at hm
  subst hm
  subst hd'
  have hopp := Dialogue.isBelonging_opponent hb
  obtain ⟨ms, hms, hfr, hlaw⟩ := h.history
  have hself := h.selfAddr
  -- facts that depend on the message being initial or not
  have hopenIff : OpenedBySelf me (d.record m) ↔ OpenedBySelf me d := by
    rw [Dialogue.record_eq]; exact Iff.rfl
  have key : (∃ ms, IsHistory me (d.record m) ms ∧ FollowsRules rules ms ∧
        IncomingLaw me (OpenedBySelf me d) ms) ∧
      (m.sender = me →
        (OpenedBySelf me d → m.messageId = (d.outgoing.length : Int) + 1) ∧
        (¬ OpenedBySelf me d → m.messageId = -((d.outgoing.length : Int) + 1))) ∧
      m.messageId ≠ 0 ∧
      m.reference.starter = d.label.reference.starter := by
    by_cases hemp : d.isEmpty = true
    · -- initial message
      unfold Dialogue.validateNext at hv
      rw [if_pos hemp] at hv
      obtain ⟨h1, h2, h3, h4⟩ := Dialogue.validateInitial_ok hv
      rw [h.rulesEq, newRules_initial] at h4
      have hnil : ms = [] := hms.nil_iff.2 hemp
      refine ⟨⟨ms ++ [m], hms.snoc hself m, ?_, ?_⟩, ?_, by omega, h1.symm⟩
      · subst hnil; exact FollowsRules.snoc_first ⟨h2, h3, h4⟩
      · refine forall_split_snoc hlaw ?_
        intro _ last hlast
        rw [hnil] at hlast
        simp at hlast
      · intro hsend
        have hout := ((Dialogue.isEmpty_iff d).1 hemp).1
        rw [hout]
        cases ho with
        | own _ _ hs _ =>
          have := hs hemp
          exact ⟨fun _ => by simp [h2], fun hno => absurd this hno⟩
        | other h1 _ _ => exact absurd hsend h1
    · -- later message
      have hemp' : d.isEmpty = false := by simpa using hemp
      unfold Dialogue.validateNext at hv
      rw [if_neg hemp] at hv
      obtain ⟨h1, h2, h3⟩ := Dialogue.validateNonInitial_ok hv
      rw [hself] at h2
      have hid : m.messageId ≠ 1 := by
        intro hid1
        have ht0 := Dialogue.validateMessageTarget_start h3 hid1
        cases ho with
        | own _ _ _ hs => exact hs hemp' ht0
        | other ho1 ho2 ho3 =>
          rw [if_pos ho3] at h2
          have hop : d.label.opponent = m.sender := by
            rw [← hopp]; simp [Dialogue.counterParty, Dialogue.isMessageBySelf, hself, ho1]
          unfold Dialogue.nextIncomingId at h2
          simp only [hid1] at h2
          by_cases hsi : d.isSelfInitiated = true
          · simp only [hsi, if_true] at h2
            cases hl : d.lastIncoming with
            | none => rw [hl] at h2; simp [startingMessageId] at h2
            | some x => rw [hl] at h2; simp only [absId_eq] at h2; omega
          · simp only [hsi] at h2
            have hst : d.label.starterAddr ≠ me := by
              intro hst
              have := (Dialogue.selfInit_iff h (by rw [hop]; exact ho1)).2 hst
              exact hsi this
            have hinc := h.peerFirst hst hemp'
            cases hl : d.lastIncoming with
            | none =>
              unfold Dialogue.lastIncoming at hl
              rw [List.getLast?_eq_none_iff] at hl
              exact hinc hl
            | some x =>
              rw [hl] at h2
              have := h.lastId hemp'
              simp only [absId_eq] at h2
              simp at h2
              omega
      obtain ⟨htne, tm, htm, hrep⟩ := Dialogue.validateMessageTarget_ok h3 hid
      rw [h.rulesEq] at hrep
      have hrep := (newRules_valid rules _ _).1 hrep
      have htmem : tm ∈ ms := by
        rw [hms.mem_iff]
        have := (Dialogue.getMessageById_some htm).2.1
        exact Dialogue.idList_mem (List.mem_of_getElem? this)
      have hne : ms ≠ [] := by rw [ne_eq, hms.nil_iff]; exact hemp
      have hnext : m.sender = me → m.messageId = d.nextOutgoingId := by
        intro hsend
        have hto : m.to = d.label.opponent := by
          rw [← hopp]; simp [Dialogue.counterParty, Dialogue.isMessageBySelf, hself, hsend]
        by_cases hos : m.to = me
        · -- dialogue with oneself: the expected id would be 1
          exfalso
          rw [if_pos hos] at h2
          have hinc : d.incoming = [] := by
            apply List.eq_nil_iff_forall_not_mem.2
            intro x hx
            have := h.sentByPeer x hx
            exact this.2.2 (by rw [this.1, ← hto, hos])
          have hnsi : d.isSelfInitiated = false := by
            unfold Dialogue.isSelfInitiated
            rcases h.kind with hk | ⟨_, hk⟩
            · simp [hk, ← hto, hos]
            · exact absurd (by rw [← hto, hos]) hk
          unfold Dialogue.nextIncomingId Dialogue.lastIncoming at h2
          simp [hinc, hnsi, startingMessageId] at h2
          exact hid h2
        · rw [if_neg hos] at h2; exact h2
      refine ⟨⟨ms ++ [m], hms.snoc hself m, hfr.snoc hne htne ⟨tm, htmem, hrep⟩, ?_⟩, ?_, ?_, h1.symm⟩
      · refine forall_split_snoc hlaw ?_
        intro hsend last hlast
        have hto : m.to = me := by
          cases ho with
          | own h1 => exact absurd h1 hsend
          | other _ _ h3 => exact h3
        have hop : d.label.opponent = m.sender := by
          rw [← hopp]; simp [Dialogue.counterParty, Dialogue.isMessageBySelf, hself, hsend]
        have hiff := Dialogue.selfInit_iff h (by rw [hop]; exact hsend)
        have hlid : d.lastMessageId = last.messageId := by
          apply h.lastIs
          rw [hms.ids, List.getLast?_map, hlast]
          rfl
        rw [if_pos hto] at h2
        have habs : m.messageId.natAbs = (match d.lastIncoming with
            | some _ => last.messageId.natAbs + 1
            | none => 1) := by
          rw [h2]
          unfold Dialogue.nextIncomingId
          rw [hlid]
          cases d.lastIncoming <;> by_cases hsi : d.isSelfInitiated = true <;>
            simp only [hsi, if_true, startingMessageId, absId_eq] <;> simp <;> omega
        have hnone : d.lastIncoming = none ↔ ∀ x ∈ ms, x.sender = me := by
          unfold Dialogue.lastIncoming
          rw [List.getLast?_eq_none_iff, hms.incoming]
          simp
        refine ⟨?_, ?_, ?_, ?_⟩
        · intro hall
          rw [hnone.2 hall] at habs
          exact habs
        · rintro ⟨x, hx, hxs⟩
          cases hl : d.lastIncoming with
          | none => exact absurd (hnone.1 hl x hx) hxs
          | some y => rw [hl] at habs; exact habs
        · intro hob
          rw [h2]
          unfold Dialogue.nextIncomingId
          rw [if_pos (hiff.2 hob)]
          cases d.lastIncoming <;> simp only [startingMessageId, absId_eq] <;> omega
        · intro hob
          rw [h2]
          unfold Dialogue.nextIncomingId
          rw [if_neg (fun c => hob (hiff.1 c))]
          cases d.lastIncoming <;> simp only [startingMessageId, absId_eq] <;> omega
      · intro hsend
        have hid2 := hnext hsend
        rw [Dialogue.nextOutgoingId_eq h] at hid2
        have hto : m.to = d.label.opponent := by
          rw [← hopp]; simp [Dialogue.counterParty, Dialogue.isMessageBySelf, hself, hsend]
        by_cases hos : d.label.opponent = me
        · -- as above: impossible for a dialogue with oneself
          exfalso
          have hnsi : d.isSelfInitiated = false := by
            unfold Dialogue.isSelfInitiated
            rcases h.kind with hk | ⟨_, hk⟩
            · simp [hk, hos]
            · exact absurd hos hk
          rw [hto, hos] at h2
          simp only [if_true] at h2
          have hinc : d.incoming = [] := by
            apply List.eq_nil_iff_forall_not_mem.2
            intro x hx
            have := h.sentByPeer x hx
            exact this.2.2 (by rw [this.1, hos])
          unfold Dialogue.nextIncomingId Dialogue.lastIncoming at h2
          simp [hinc, hnsi, startingMessageId] at h2
          exact hid h2
        · have hiff := Dialogue.selfInit_iff h hos
          constructor
          · intro hob; rw [if_pos (hiff.2 hob)] at hid2; exact hid2
          · intro hob
            rw [if_neg (fun c => hob (hiff.1 c))] at hid2; exact hid2
      · rw [h2]
        by_cases hto : m.to = me
        · rw [if_pos hto]
          unfold Dialogue.nextIncomingId
          cases d.lastIncoming <;> simp only [startingMessageId, absId_eq] <;>
            by_cases hsi : d.isSelfInitiated = true <;> simp [hsi] <;> omega
        · rw [if_neg hto, Dialogue.nextOutgoingId_eq h]
          by_cases hsi : d.isSelfInitiated = true <;> simp [hsi] <;> omega
  obtain ⟨k1, k2, k3, k4⟩ := key
  have hrec := Dialogue.record_eq d m
  refine
    { selfAddr := by rw [hrec]; exact hself
      rulesEq := by rw [hrec]; exact h.rulesEq
      kind := by rw [hrec]; exact h.kind
      history := by simpa only [hopenIff] using k1
      lastIs := by intro x hx; rw [hrec] at hx ⊢; simpa using hx
      ownIds := ?_
      lastId := by intro _; rw [hrec]; exact k3
      peerFirst := ?_
      sentBySelf := ?_
      sentByPeer := ?_
      starterRef := ?_
      peerBound := ?_
      registered := by rw [hrec]; exact h.registered }
  · intro i x hx
    have hopen : OpenedBySelf me (d.record m) ↔ OpenedBySelf me d := by
      rw [hrec]; exact Iff.rfl
    rw [hopen]
    rw [hrec] at hx
    simp only [hself] at hx
    by_cases hs : m.sender = me
    · simp only [hs, if_true] at hx
      rw [List.getElem?_append] at hx
      split at hx
      · exact h.ownIds i x hx
      · rename_i hlt
        have hi : i = d.outgoing.length := by
          have := List.getElem?_eq_some_iff.1 hx
          obtain ⟨hlen, _⟩ := this
          simp at hlen; omega
        subst hi
        simp at hx
        subst hx
        exact k2 hs
    · simp only [hs, if_false] at hx
      exact h.ownIds i x hx
  · intro hst _
    rw [hrec] at hst ⊢
    simp only [hself]
    by_cases hs : m.sender = me
    · simp only [hs, if_true]
      by_cases hemp : d.isEmpty = true
      · exfalso
        cases ho with
        | own _ _ hk _ => exact hst (hk hemp)
        | other h1 _ _ => exact h1 hs
      · exact h.peerFirst hst (by simpa using hemp)
    · simp [hs]
  · intro x hx
    rw [hrec] at hx ⊢
    simp only [hself] at hx
    by_cases hs : m.sender = me
    · simp only [hs, if_true, List.mem_append, List.mem_singleton] at hx
      rcases hx with hx | hx
      · exact h.sentBySelf x hx
      · subst hx
        refine ⟨hs, ?_⟩
        rw [← hopp]; simp [Dialogue.counterParty, Dialogue.isMessageBySelf, hself, hs]
    · simp only [hs, if_false] at hx
      exact h.sentBySelf x hx
  · intro x hx
    rw [hrec] at hx ⊢
    simp only [hself] at hx
    by_cases hs : m.sender = me
    · simp only [hs, if_true] at hx
      exact h.sentByPeer x hx
    · simp only [hs, if_false, List.mem_append, List.mem_singleton] at hx
      rcases hx with hx | hx
      · exact h.sentByPeer x hx
      · subst hx
        refine ⟨?_, ?_, hs⟩
        · rw [← hopp]; simp [Dialogue.counterParty, Dialogue.isMessageBySelf, hself, hs]
        · cases ho with
          | own h1 => exact absurd h1 hs
          | other _ _ h3 => exact h3
  · intro x hx
    rw [hrec] at hx ⊢
    simp only [hself] at hx ⊢
    have : (x ∈ d.outgoing ∨ x ∈ d.incoming) ∨ x = m := by
      by_cases hs : m.sender = me
      · simp only [hs, if_true, List.mem_append, List.mem_singleton] at hx
        rcases hx with (hx | hx) | hx
        · exact Or.inl (Or.inl hx)
        · exact Or.inr hx
        · exact Or.inl (Or.inr hx)
      · simp only [hs, if_false, List.mem_append, List.mem_singleton] at hx
        rcases hx with hx | hx | hx
        · exact Or.inl (Or.inl hx)
        · exact Or.inl (Or.inr hx)
        · exact Or.inr hx
    rcases this with hx | hx
    · exact h.starterRef x hx
    · subst hx; exact k4
  · intro x hx
    rw [hrec] at hx
    simp only [hself] at hx
    by_cases hs : m.sender = me
    · simp only [hs, if_true] at hx
      exact h.peerBound x hx
    · simp only [hs, if_false, List.mem_append, List.mem_singleton] at hx
      rcases hx with hx | hx
      · exact h.peerBound x hx
      · subst hx; exact k3

/-- A fresh dialogue satisfies the invariant. -/
theorem DInv.new {me : Bytes} {rules : RulesDecl} {l : DialogueLabel}
    (hk : l.starterAddr = me ∨ (l.starterAddr = l.opponent ∧ l.opponent ≠ me)) :
    DInv me rules { Dialogue.new l me rules with callbacks := 1 } where
  selfAddr := rfl
  rulesEq := rfl
  kind := hk
  history := ⟨[], ⟨rfl, rfl, rfl⟩, ⟨by simp, by simp⟩, by intro pre m post he; simp at he⟩
  lastIs := by intro x hx; simp [Dialogue.new] at hx
  ownIds := by intro i m h; simp [Dialogue.new] at h
  lastId := by intro h; simp [Dialogue.new, Dialogue.isEmpty] at h
  peerFirst := by intro _ h; simp [Dialogue.new, Dialogue.isEmpty] at h
  sentBySelf := by intro m h; simp [Dialogue.new] at h
  sentByPeer := by intro m h; simp [Dialogue.new] at h
  starterRef := by intro m h; simp [Dialogue.new] at h
  peerBound := by intro m h; simp [Dialogue.new] at h
  registered := by simp

/-- Completing the reference of a dialogue preserves the invariant. -/
theorem DInv.relabel {me : Bytes} {rules : RulesDecl} {d : Dialogue} (h : DInv me rules d)
    {r : Bytes} {n : Nat} :
    DInv me rules { d with
      label := { reference := ⟨d.label.reference.starter, r⟩
                 opponent := d.label.opponent
                 starterAddr := d.label.starterAddr }
      callbacks := d.callbacks + n } where
  selfAddr := h.selfAddr
  rulesEq := h.rulesEq
  kind := h.kind
  history := by
    obtain ⟨ms, hms, hf⟩ := h.history
    exact ⟨ms, ⟨hms.outgoing, hms.incoming, hms.ids⟩, hf⟩
  lastIs := h.lastIs
  ownIds := h.ownIds
  lastId := h.lastId
  peerFirst := h.peerFirst
  sentBySelf := h.sentBySelf
  sentByPeer := h.sentByPeer
  starterRef := h.starterRef
  peerBound := h.peerBound
  registered := by have := h.registered; simp only; omega

end Verif
