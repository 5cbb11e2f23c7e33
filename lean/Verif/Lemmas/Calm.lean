import Verif.Lemmas.FrameAll
import Verif.Props.Numbering

/-! Dialogues of an agent that never opens one and answers no message more than once: the ids the
counterparties may use have no gaps, so the library never panics. -/

namespace Verif

/-- A dialogue opened by the counterparty in which the agent did not say more than the counterparty. The
agent says only what `P` allows and hears only what `Q` allows. -/
structure Calm (P Q : Bytes → Prop) (me : Bytes) (d : Dialogue) : Prop where
  says : ∀ m ∈ d.outgoing, P m.performative
  hears : ∀ m ∈ d.incoming, Q m.performative
  starter : d.label.starterAddr ≠ me
  fewer : d.outgoing.length ≤ d.incoming.length
  ids : ∀ (i : Nat) (m : Message), d.incoming[i]? = some m → m.messageId.natAbs ≤ i + 1
  below : ∀ l, d.incoming.getLast? = some l → d.outgoing.length ≤ l.messageId.natAbs

section
variable {P Q : Bytes → Prop} {me : Bytes} {keep : Bool} {rules : RulesDecl} {d : Dialogue}

theorem Calm.no_gap (h : Calm P Q me d) (t : Int) : ¬ Gap d t := by
  rintro ⟨l, hl, h1, h2⟩
  rw [List.getLast?_eq_getElem?] at hl
  have := h.ids _ _ hl
  have hpos : 0 < d.incoming.length := by
    have := (List.getElem?_eq_some_iff.1 hl).1; omega
  omega

/-- The id of the last message is bounded by both counts. -/
theorem Calm.lastId (h : Calm P Q me d) (hi : DInv me rules d) (hne : d.isEmpty = false) :
    d.lastMessageId.natAbs ≤ d.incoming.length ∧ d.outgoing.length ≤ d.lastMessageId.natAbs := by
  obtain ⟨ms, hh, _⟩ := hi.history
  rcases List.eq_nil_or_concat ms with rfl | ⟨init, x, hx⟩
  · exfalso
    have : d.isEmpty = true := (Dialogue.isEmpty_iff d).2 ⟨by simpa using hh.outgoing, by simpa using hh.incoming⟩
    rw [this] at hne; simp at hne
  · rw [List.concat_eq_append] at hx
    subst hx
    have hlast : d.lastMessageId = x.messageId := by
      apply hi.lastIs
      rw [hh.ids]
      simp
    rw [hlast]
    by_cases hs : x.sender = me
    · have ho : d.outgoing.getLast? = some x := by rw [hh.outgoing]; simp [hs]
      have hpos : 0 < d.outgoing.length := by
        cases ho' : d.outgoing with
        | nil => rw [ho'] at ho; simp at ho
        | cons => simp
      rw [List.getLast?_eq_getElem?] at ho
      have := (hi.ownIds _ _ ho).2 h.starter
      have hf := h.fewer
      omega
    · have ho : d.incoming.getLast? = some x := by rw [hh.incoming]; simp [hs]
      have hb := h.below x ho
      have hpos : 0 < d.incoming.length := by
        cases ho' : d.incoming with
        | nil => rw [ho'] at ho; simp at ho
        | cons => simp
      rw [List.getLast?_eq_getElem?] at ho
      have := h.ids _ _ ho
      omega

/-- The counterparty's message. -/
theorem Calm.peer (h : Calm P Q me d) (hi : DInv me rules d) {m m' : Message} {d' : Dialogue} {t : Bool}
    (hQ : Q m.performative)
    (h1 : m.sender ≠ me) (h2 : m.sender ≠ []) (h3 : m.to = me) (hu : d.updateCore m = .ok (d', m', t)) :
    m' = m ∧ t = rules.terminal.contains m.performative ∧ d'.label = d.label ∧
    d'.incoming = d.incoming ++ [m] ∧ d'.outgoing = d.outgoing ∧
    d.outgoing.length < m.messageId.natAbs ∧ d.outgoing.length ≤ d.incoming.length ∧ Calm P Q me d' := by
  obtain ⟨e1, _, hv, ht, e2⟩ := Dialogue.updateCore_ok hu
  have hws : d.withSender m = m := by simp [Dialogue.withSender, Message.hasSender, h2]
  rw [hws] at e1
  subst e1
  have hrec : d' =
      { d with incoming := d.incoming ++ [m'], orderedIds := d.orderedIds ++ [m'.messageId], lastMessageId := m'.messageId } := by
    rw [e2, Dialogue.record_eq, if_neg (by rw [hi.selfAddr]; exact h1),
      if_neg (by rw [hi.selfAddr]; exact h1)]
  have hterm : t = rules.terminal.contains m'.performative := by
    rw [ht, hi.rulesEq]
    have := newRules_terminal rules m'.performative
    cases hc : (newRules rules).terminal.contains m'.performative with
    | true => exact (List.contains_iff_mem.2 (this.1 hc)).symm
    | false =>
      cases hc' : rules.terminal.contains m'.performative with
      | false => rfl
      | true => rw [this.2 (List.contains_iff_mem.1 hc')] at hc; simp at hc
  have hself : d.isSelfInitiated = false := by
    rcases hi.kind with hk | ⟨hk, _⟩
    · exact absurd hk h.starter
    · simp [Dialogue.isSelfInitiated, hk]
  have hid : d.outgoing.length < m'.messageId.natAbs ∧ m'.messageId.natAbs ≤ d.incoming.length + 1 := by
    unfold Dialogue.validateNext at hv
    cases he : d.isEmpty with
    | true =>
      rw [he] at hv
      obtain ⟨_, hv, _⟩ := Dialogue.validateInitial_ok hv
      obtain ⟨e3, e4⟩ := (Dialogue.isEmpty_iff d).1 he
      rw [e3, e4, hv]
      simp
    | false =>
      rw [he] at hv
      obtain ⟨_, hv, _⟩ := Dialogue.validateNonInitial_ok hv
      rw [if_pos (by rw [h3, hi.selfAddr])] at hv
      obtain ⟨b1, b2⟩ := h.lastId hi he
      have hne := hi.peerFirst h.starter he
      have : d.nextIncomingId = d.lastMessageId.natAbs + 1 := by
        unfold Dialogue.nextIncomingId Dialogue.lastIncoming
        cases hx : d.incoming.getLast? with
        | none => rw [List.getLast?_eq_none_iff] at hx; exact absurd hx hne
        | some x => simp [hself, absId_eq]
      omega
  refine ⟨rfl, hterm, by rw [hrec], by rw [hrec], by rw [hrec], hid.1, h.fewer, ?_⟩
  rw [hrec]
  refine ⟨h.says, ?_, h.starter, ?_, ?_, ?_⟩
  · intro y hy
    rcases List.mem_append.1 hy with hy | hy
    · exact h.hears y hy
    · simp at hy; subst hy; exact hQ
  · have := h.fewer; simp; omega
  · intro i y hy
    simp only at hy
    rcases Nat.lt_or_ge i d.incoming.length with hlt | hge
    · rw [List.getElem?_append_left hlt] at hy; exact h.ids i y hy
    · rw [List.getElem?_append_right hge] at hy
      have : i - d.incoming.length = 0 := by
        rcases Nat.eq_zero_or_pos (i - d.incoming.length) with e | e
        · exact e
        · rw [List.getElem?_eq_none (by simp; omega)] at hy; simp at hy
      rw [this] at hy
      simp at hy
      subst hy
      omega
  · intro l hl
    simp at hl
    subst hl
    simp; omega

/-- The agent's own message, when it has said less than the counterparty. -/
theorem Calm.own (h : Calm P Q me d) (hi : DInv me rules d) {m m' : Message} {d' : Dialogue} {t : Bool}
    (hP : P m.performative) (h1 : m.sender = me) (hu : d.updateCore m = .ok (d', m', t))
    (hl : d.outgoing.length < d.incoming.length)
    (hb : ∀ l, d.incoming.getLast? = some l → d.outgoing.length < l.messageId.natAbs) :
    d' =
      { d with outgoing := d.outgoing ++ [m], orderedIds := d.orderedIds ++ [m.messageId], lastMessageId := m.messageId } ∧ m' = m ∧ Calm P Q me d' := by
  obtain ⟨e1, _, hv, ht, e2⟩ := Dialogue.updateCore_ok hu
  have hws : d.withSender m = m := by
    unfold Dialogue.withSender
    split
    · rfl
    · rw [hi.selfAddr, ← h1]
  rw [hws] at e1
  subst e1
  have hrec : d' =
      { d with outgoing := d.outgoing ++ [m'], orderedIds := d.orderedIds ++ [m'.messageId], lastMessageId := m'.messageId } := by
    rw [e2, Dialogue.record_eq, if_pos (by rw [hi.selfAddr]; exact h1),
      if_pos (by rw [hi.selfAddr]; exact h1)]
  refine ⟨hrec, rfl, ?_⟩
  rw [hrec]
  refine ⟨?_, h.hears, h.starter, by simp; omega, h.ids, ?_⟩
  · intro y hy
    rcases List.mem_append.1 hy with hy | hy
    · exact h.says y hy
    · simp at hy; subst hy; exact hP
  intro l hl'
  have := hb l hl'
  simp; omega

/-- All dialogues are calm. -/
def AllCalm (P Q : Bytes → Prop) (me : Bytes) (s : Sys) : Prop := ∀ (p : Nat) (d : Dialogue), s.heap[p]? = some d → Calm P Q me d

/-- The dialogue just updated by a message of the counterparty. -/
structure Addressed (me : Bytes) (rules : RulesDecl) (m : Message) (s : Sys) (p : Nat) (d : Dialogue) : Prop where
  here : s.heap[p]? = some d
  last : d.incoming.getLast? = some m
  fewer : d.outgoing.length < d.incoming.length
  below : d.outgoing.length < m.messageId.natAbs
  settled : m.performative ∉ rules.terminal → Settled s p

theorem AllCalm.updateFound {s s' : Sys} {m : Message} {isNew : Bool} {f : Option Ptr}
    {r : Res DErr (Option Ptr)} (hq : AllCalm P Q me s) (hi : SInv me keep rules s) (hQ : Q m.performative)
    (h1 : m.sender ≠ me) (h2 : m.sender ≠ []) (h3 : m.to = me) (hset : ∀ p, f = some p → Settled s p)
    (hu : s.updateFound m isNew f = (s', r)) (hr : r ≠ .panic) :
    AllCalm P Q me s' ∧ ∀ p, r = .ok (some p) → ∃ d, Addressed me rules m s' p d := by
  rcases Sys.updateFound_cases hu with ⟨_, rfl, e⟩ | hp | ⟨p, hf, ⟨m', hd, he⟩ | ⟨e, hd, he, ⟨_, rfl⟩ | ⟨_, d, _, hrm⟩⟩⟩
  · exact ⟨hq, by intro p hp; rw [e] at hp; simp at hp⟩
  · exact absurd hp hr
  · rcases Sys.dialogueUpdate_cases hd with hp | ⟨_, hp, _⟩ | ⟨d, d', m2, t, hd1, hc, _, ht⟩
    · simp at hp
    · simp at hp
    · obtain ⟨e1, e2, e3, e4, e5, e6, e7, e8⟩ := (hq p d hd1).peer (hi.heap p d hd1) hQ h1 h2 h3 hc
      have hheap : s'.heap = s.heap.set p d' := by
        split at ht
        · exact (Sys.runCallbacks_shrinks ht).heap
        · rw [ht]; rfl
      refine ⟨?_, ?_⟩
      · intro q x hx
        rw [hheap] at hx
        rcases getElem?_set_cases hx with ⟨_, rfl⟩ | ⟨_, hx⟩
        · exact e8
        · exact hq q x hx
      · intro q hq'
        rw [he] at hq'
        simp only [Res.ok.injEq, Option.some.injEq] at hq'
        subst hq'
        refine ⟨d', ⟨?_, ?_, ?_, ?_, ?_⟩⟩
        · rw [hheap]; exact getElem?_set_self_of_some hd1
        · rw [e4]; simp
        · rw [e4, e5]; simp; omega
        · rw [e5]; exact e6
        · intro hn x hx
          have htf : t = false := by
            rw [e2]
            cases hc : rules.terminal.contains m.performative with
            | false => rfl
            | true => exact absurd (List.contains_iff_mem.1 hc) hn
          rw [htf] at ht
          simp only [Bool.false_eq_true, if_false] at ht
          have hx' : x = d' := by
            rw [hheap, getElem?_set_self_of_some hd1] at hx
            simpa using hx.symm
          rw [hx', ht, e3]
          exact hset p hf d hd1
  · exact ⟨hq, by intro p hp; rw [he] at hp; simp at hp⟩
  · refine ⟨?_, by intro p hp; rw [he] at hp; simp at hp⟩
    intro q x hx
    rw [(Sys.removeDialogue_shrinks hrm).heap] at hx
    exact hq q x hx

/-- Completing a reference changes nothing. -/
theorem AllCalm.completeReference {s s' : Sys} {m : Message} {r : Res DErr Unit} (hq : AllCalm P Q me s)
    (hi : SInv me keep rules s) (h : s.completeReference m = (s', r)) :
    s' = s ∧ (r = .ok () ↔ m.reference.starter ≠ [] ∧ m.reference.responder ≠ []) := by
  have hab : ∀ l : DialogueLabel, l.starterAddr = me → s.byLabel.get l = none := by
    intro l hl
    cases hg : s.byLabel.get l with
    | none => rfl
    | some p =>
      obtain ⟨d, hd, rfl⟩ := hi.label l p hg
      exact absurd hl (hq p d hd).starter
  unfold Sys.completeReference at h
  simp only [unassigned] at h
  split at h
  · rename_i hc
    simp only [Prod.mk.injEq] at h
    obtain ⟨h1, h2⟩ := h
    refine ⟨h1.symm, ?_⟩
    rw [← h2]
    simp only [reduceCtorEq, false_iff]
    intro hn; exact hc (by simpa using hn)
  · rename_i hc
    have hp : s.isPresent ⟨⟨m.reference.starter, []⟩, m.sender, s.self⟩ = false := by
      unfold Sys.isPresent
      rw [GoMap.has_eq_false_iff]
      exact hab _ hi.selfEq
    rw [hp] at h
    simp only [Bool.false_and, Bool.false_eq_true, if_false, Prod.mk.injEq] at h
    refine ⟨h.1.symm, ?_⟩
    rw [← h.2]
    simpa using hc

theorem AllCalm.createOpponentInitiated {s s' : Sys} {o n : Bytes} {ref : DialogueReference} {r : Res DErr Ptr}
    (hq : AllCalm P Q me s) (ho : o ≠ me)
    (h : s.createOpponentInitiated o ref n = (s', r)) : AllCalm P Q me s' := by
  rcases Sys.createOpponentInitiated_cases h with ⟨_, rfl⟩ | ⟨_, _, h⟩
  · exact hq
  rcases Sys.create_cases h with ⟨_, rfl, _⟩ | ⟨_, rfl, _⟩ | ⟨e, _, _, _⟩
  · exact hq
  · exact hq
  · rw [e] at h
    obtain ⟨_, hheap, _⟩ := Sys.create_heap h
    intro p d hd
    rw [hheap] at hd
    rcases Nat.lt_or_ge p s.heap.length with hlt | hge
    · rw [List.getElem?_append_left hlt] at hd; exact hq p d hd
    · rw [List.getElem?_append_right hge] at hd
      have hm := List.mem_of_getElem? hd
      simp only [List.mem_singleton] at hm
      subst hm
      refine ⟨by simp [Dialogue.new], by simp [Dialogue.new], ho, by simp [Dialogue.new], ?_, ?_⟩
      · intro i m hm; simp [Dialogue.new] at hm
      · intro l hl; simp [Dialogue.new] at hl

theorem AllCalm.update {s s' : Sys} {m : Message} {n : Bytes} {r : Res DErr (Option Ptr)} (hq : AllCalm P Q me s)
    (hi : SInv me keep rules s) (hx : XInv s) (hQ : Q m.performative) (h : s.update m n = (s', r)) :
    r ≠ .panic ∧ AllCalm P Q me s' ∧ ∀ p, r = .ok (some p) → ∃ d, Addressed me rules m s' p d := by
  have hr : r ≠ .panic := by
    rintro rfl
    obtain ⟨p, d, hd, hg⟩ := hx.update_panic hi h
    exact (hq p d hd).no_gap _ hg
  refine ⟨hr, ?_⟩
  rcases Sys.update_cases h with ⟨e, he, rfl, _⟩ | ⟨h1, h2, h3, hcase⟩
  · exact ⟨hq, by intro p hp; rw [he] at hp; simp at hp⟩
  rw [hi.selfEq] at h2 h3
  rcases hcase with ⟨_, _, rfl, he⟩ | ⟨_, _, _, ⟨s1, p, hc, hf⟩ | ⟨e, hc, he⟩ | ⟨_, hp⟩⟩ |
    ⟨_, _, _, _, hf⟩ | ⟨_, ⟨s1, hc, hf⟩ | ⟨e, hc, he⟩ | ⟨_, hp⟩⟩
  · exact ⟨hq, by intro p hp; rw [he] at hp; simp at hp⟩
  · have hi1 := hi.createOpponentInitiated h2 hc
    refine (hq.createOpponentInitiated h2 hc).updateFound hi1 hQ h2 h1 h3 ?_ hf hr
    intro q hq
    simp only [Option.some.injEq] at hq
    subst hq
    rcases Sys.createOpponentInitiated_cases hc with ⟨he, _⟩ | ⟨_, _, hcr⟩
    · simp at he
    obtain ⟨_, _, hbl⟩ := Sys.create_heap hcr
    refine Settled.stored hi1 (l := ⟨⟨m.reference.starter, n⟩, m.sender, m.sender⟩) ?_
    rw [hbl]
    exact GoMap.get_set_self _ _ _
  · exact ⟨hq.createOpponentInitiated h2 hc, by intro p hp; rw [he] at hp; simp at hp⟩
  · exact absurd hp hr
  · exact hq.updateFound hi hQ h2 h1 h3 (fun p hp => Settled.getDialogue hi hp) hf hr
  · obtain ⟨rfl, _⟩ := hq.completeReference hi hc
    exact hq.updateFound hi hQ h2 h1 h3 (fun p hp => Settled.getDialogue hi hp) hf hr
  · obtain ⟨rfl, _⟩ := hq.completeReference hi hc
    exact ⟨hq, by intro p hp; rw [he] at hp; simp at hp⟩
  · exact absurd hp hr

/-- The answer to the message just recorded. -/
theorem AllCalm.reply {s s' : Sys} {m : Message} {p : Ptr} {d : Dialogue} {perf : Bytes} {tm : Option Message}
    {tp : Option Int} {r : Res DErr Message} (hq : AllCalm P Q me s) (hi : SInv me keep rules s) (hx : XInv s)
    (ha : Addressed me rules m s p d) (hP : P perf) (hn : m.performative ∉ rules.terminal)
    (h : s.reply p perf tm tp = (s', r)) : r ≠ .panic ∧ AllCalm P Q me s' := by
  have hr : r ≠ .panic := by
    rintro rfl
    obtain ⟨t, hg⟩ := hx.reply_panic hi (ha.settled hn) ha.here h
    exact (hq p d ha.here).no_gap _ hg
  refine ⟨hr, ?_⟩
  rcases Sys.reply_cases h with hp | ⟨_, _, rfl⟩ | ⟨d0, m0, hd, hm, hdu⟩
  · exact absurd hp hr
  · exact hq
  · rw [ha.here] at hd
    simp only [Option.some.injEq] at hd
    subst hd
    rcases Sys.dialogueUpdate_cases hdu with hp | ⟨_, _, rfl⟩ | ⟨d1, d', m2, t, hd1, hc, _, ht⟩
    · exact absurd hp hr
    · exact hq
    · rw [ha.here] at hd1
      simp only [Option.some.injEq] at hd1
      subst hd1
      have hdi := hi.heap p d ha.here
      obtain ⟨_, _, hs, _, _, _, hpf, _⟩ := Dialogue.replyMessage_ok hm
      obtain ⟨_, _, hcalm⟩ := (hq p d ha.here).own hdi (by rw [hpf]; exact hP)
        (by rw [hs, hdi.selfAddr]) hc ha.fewer
        (by intro l hl; rw [ha.last] at hl; simp only [Option.some.injEq] at hl; subst hl; exact ha.below)
      have hheap : s'.heap = s.heap.set p d' := by
        split at ht
        · exact (Sys.runCallbacks_shrinks ht).heap
        · rw [ht]; rfl
      intro q x hx
      rw [hheap] at hx
      rcases getElem?_set_cases hx with ⟨_, rfl⟩ | ⟨_, hx⟩
      · exact hcalm
      · exact hq q x hx

/-- When `Update` finds no dialogue. -/
theorem AllCalm.update_none_iff {s : Sys} {m : Message} {n : Bytes} (hq : AllCalm P Q me s)
    (hi : SInv me keep rules s) (hx : XInv s) (hm : MInv s) :
    (s.update m n).2 = .ok none ↔
      m.sender ≠ [] ∧ m.sender ≠ me ∧ m.to = me ∧
      ((m.reference.starter = [] ∧ m.reference.responder ≠ []) ∨
       (m.reference.starter ≠ [] ∧
        (m.reference.responder ≠ [] ∨ (m.messageId ≠ 1 ∧ m.messageId ≠ 0)) ∧
        s.byLabel.get (s.latestLabel ⟨m.reference, m.sender, m.sender⟩) = none)) := by
  have hab : ∀ l : DialogueLabel, l.starterAddr = me → s.byLabel.get l = none := by
    intro l hl
    cases hg : s.byLabel.get l with
    | none => rfl
    | some p =>
      obtain ⟨d, hd, rfl⟩ := hi.label l p hg
      exact absurd hl (hq p d hd).starter
  have hget : m.sender ≠ me → s.getDialogue m = s.byLabel.get (s.latestLabel ⟨m.reference, m.sender, m.sender⟩) := by
    intro hs
    have hcp : s.counterparty m = m.sender := by
      unfold Sys.counterparty
      rw [hi.selfEq]
      simp [hs]
    unfold Sys.getDialogue
    simp only
    rw [hcp]
    have h1 : s.getByLabel (s.latestLabel ⟨m.reference, m.sender, s.self⟩) = none := by
      unfold Sys.getByLabel
      apply hab
      unfold Sys.latestLabel
      cases hg : s.incomplete.get ⟨m.reference, m.sender, s.self⟩ with
      | none => exact hi.selfEq
      | some c => rw [(hm.key _ _ hg).2.2.2.2]; exact hi.selfEq
    rw [h1]
    rfl
  have hfound : ∀ {s1 s' : Sys} {isNew f r}, s1.updateFound m isNew f = (s', r) → (r = .ok none ↔ f = none) := by
    intro s1 s' isNew f r hf
    rcases Sys.updateFound_cases hf with ⟨e, _, e'⟩ | e | ⟨p, e, ⟨_, _, e'⟩ | ⟨_, _, e', _⟩⟩
    · simp [e, e']
    · constructor
      · intro h; rw [h] at e; simp at e
      · intro h; rw [h] at hf; simp [Sys.updateFound] at hf; rw [hf.2]
    · simp [e, e']
    · simp [e, e']
  rcases hu : s.update m n with ⟨s', r⟩
  simp only
  rcases Sys.update_cases hu with ⟨e, he, _, hn⟩ | ⟨h1, h2, h3, hcase⟩
  · rw [hi.selfEq] at hn
    rw [he]
    simp only [reduceCtorEq, false_iff]
    intro hh; exact hn ⟨hh.1, hh.2.1, hh.2.2.1⟩
  rw [hi.selfEq] at h2 h3
  simp only [ne_eq, h1, h2, h3, not_false_eq_true, true_and]
  rcases hcase with ⟨e1, e2, _, he⟩ | ⟨e1, e2, e3, ⟨s1, p, hc, hf⟩ | ⟨e, hc, he⟩ | ⟨_, he⟩⟩ |
    ⟨e1, e2, e3, e4, hf⟩ | ⟨hh, ⟨s1, hc, hf⟩ | ⟨e, hc, he⟩ | ⟨hc, he⟩⟩
  · simp [he, e1, e2]
  · rw [hfound hf]; simp [e1, e2, e3]
  · simp [he, e1, e2, e3]
  · simp [he, e1, e2, e3]
  · rw [hfound hf, hget h2]; simp [e1, e2, e3, e4]
  · obtain ⟨rfl, hok⟩ := hq.completeReference hi hc
    obtain ⟨e1, e2⟩ := hok.1 rfl
    rw [hfound hf, hget h2]
    simp [e1, e2]
  · obtain ⟨_, hok⟩ := hq.completeReference hi hc
    have hno : ¬ (m.reference.starter ≠ [] ∧ m.reference.responder ≠ []) := fun h => by
      have := hok.2 h; simp at this
    rw [he]
    rcases hh with hh | ⟨e1, e2⟩ | ⟨e1, e2, e3⟩
    · exact absurd hh hno
    · simp [e1, e2]
    · simp [e2, e3]
  · exact absurd hc (hx.completeReference_not_panic hi)

end

end Verif
