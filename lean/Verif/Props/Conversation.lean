import Verif.Lemmas.Talk
import Verif.Lemmas.FrameAll

/-!
# Properties C52 and C53

What a default reply is, and which conversations between two agents that both run the library get
through.
-/

namespace Verif

/-! ## C52 -/

/-- `LastMessage` returns the message recorded last. -/
theorem DInv.lastMessage_id {me : Bytes} {rules : RulesDecl} {d : Dialogue} (h : DInv me rules d)
    {l : Message} (hl : d.lastMessage = some l) : l.messageId = d.lastMessageId := by
  unfold Dialogue.lastMessage at hl
  split at hl
  · simp at hl
  obtain ⟨ms, hh, _⟩ := h.history
  rcases List.eq_nil_or_concat ms with rfl | ⟨init, x, hx⟩
  · have h1 := hh.outgoing
    have h2 := hh.incoming
    simp only [List.filter_nil] at h1 h2
    unfold Dialogue.lastIncoming Dialogue.lastOutgoing at hl
    rw [h1, h2] at hl
    simp at hl
  · rw [List.concat_eq_append] at hx
    subst hx
    have hlast : d.lastMessageId = x.messageId := by
      apply h.lastIs
      rw [hh.ids]
      simp
    by_cases hs : x.sender = me
    · have ho : d.lastOutgoing = some x := by
        unfold Dialogue.lastOutgoing
        rw [hh.outgoing]
        simp [hs]
      rw [ho] at hl
      cases hi : d.lastIncoming with
      | none => rw [hi] at hl; simp at hl; rw [← hl, hlast]
      | some y =>
        rw [hi] at hl
        simp only at hl
        split at hl
        · simp at hl; subst hl; assumption
        · simp at hl; rw [← hl, hlast]
    · have hi : d.lastIncoming = some x := by
        unfold Dialogue.lastIncoming
        rw [hh.incoming]
        simp [hs]
      rw [hi] at hl
      simp [hlast] at hl
      rw [← hl, hlast]

/-- **C52.** A reply with the default target that is accepted carries the next own id, answers the
message recorded last (whoever sent it), goes to the counterparty under the dialogue's reference,
and is appended to the own messages of that dialogue, of which it becomes the last message. -/
theorem C52_default_reply {me : Bytes} {keep : Bool} {rules : RulesDecl} {s : Sys}
    (h : Reachable me keep rules s) {p : Ptr} {perf : Bytes} {q : Option Ptr} {m : Message}
    (hacc : (s.call (.reply p perf none none)).2 = .accepted q (some m)) :
    ∃ d d', s.heap[p]? = some d ∧ (s.call (.reply p perf none none)).1.heap[p]? = some d' ∧
      q = some p ∧ m.sender = me ∧ m.to = d.label.opponent ∧ m.reference = d.label.reference ∧
      m.performative = perf ∧
      m.messageId.natAbs = d.outgoing.length + 1 ∧ (0 < m.messageId ↔ OpenedBySelf me d) ∧
      d.orderedIds.getLast? = some m.target ∧
      d'.outgoing = d.outgoing ++ [m] ∧ d'.incoming = d.incoming ∧
      d'.orderedIds = d.orderedIds ++ [m.messageId] ∧ d'.label = d.label := by
  have hr := call_reply_accepted hacc
  have hq : q = some p := by
    have e : (s.call (.reply p perf none none)).2 =
      (s.reply p perf none none).2.report fun m => .accepted (some p) (some m) := rfl
    rw [e, hr] at hacc
    simp only [Res.report, Report.accepted.injEq] at hacc
    exact hacc.1.symm
  generalize (s.call (.reply p perf none none)).1 = s' at hr ⊢
  have hi := h.inv
  rcases Sys.reply_cases hr with hp | ⟨_, hp, _⟩ | ⟨d, m0, hd, hm, hdu⟩
  · simp at hp
  · simp at hp
  obtain ⟨he, htg, hs, hto, href, hid, hpf, _⟩ := Dialogue.replyMessage_ok hm
  obtain ⟨d2, d', t, hd2, hc, hheap⟩ := Sys.dialogueUpdate_ok hdu
  rw [hd] at hd2
  simp only [Option.some.injEq] at hd2
  subst hd2
  have hdi := hi.heap p d hd
  obtain ⟨hm1, hbel, _, _, hrec⟩ := Dialogue.updateCore_ok hc
  have hmm : m = m0 := by
    rw [hm1]
    unfold Dialogue.withSender
    split
    · rfl
    · have : m0 = { m0 with sender := d.selfAddress } := by rw [← hs]
      exact this.symm
  subst hmm
  have hlast : d.lastMessageId = m.target := by
    unfold Dialogue.replyMessage at hm
    cases hlm : d.lastMessage with
    | none => rw [hlm] at hm; simp at hm
    | some l =>
      rw [hlm] at hm
      simp only [Res.bind] at hm
      have htl : m.target = l.messageId := by
        cases hh : d.hasMessageId l.messageId with
        | ok bb =>
          rw [hh] at hm
          cases bb with
          | true => simp only [if_true, Res.ok.injEq] at hm; rw [← hm]
          | false => simp at hm
        | err e => rw [hh] at hm; simp at hm
        | panic => rw [hh] at hm; simp at hm
      rw [htl]
      exact (hdi.lastMessage_id hlm).symm
  have hids : d.orderedIds.getLast? = some m.target := by
    obtain ⟨ms, hh, _⟩ := hdi.history
    cases hg : d.orderedIds.getLast? with
    | none =>
      exfalso
      rw [List.getLast?_eq_none_iff, hh.ids, List.map_eq_nil_iff] at hg
      rw [(hh.nil_iff).1 hg] at he
      simp at he
    | some x => rw [← hlast, hdi.lastIs x hg]
  have hmid := hid
  rw [Dialogue.nextOutgoingId_eq hdi] at hmid
  rw [Dialogue.record_eq, hs] at hrec
  simp only [if_true] at hrec
  refine ⟨d, d', hd, ?_, hq, by rw [hs]; exact hdi.selfAddr, hto, href, hpf, ?_, ?_, hids, ?_⟩
  · rw [hheap]; exact getElem?_set_self_of_some hd
  · rw [hmid]; split <;> omega
  · rw [hmid]
    have hne : d.label.opponent ≠ me := by
      intro e
      have hn : d.isSelfInitiated = false := by
        unfold Dialogue.isSelfInitiated
        rcases hdi.kind with hk | ⟨_, hk⟩
        · rw [hk, e]; simp
        · exact absurd e hk
      have hv := (Dialogue.updateCore_ok hc).2.2.1
      unfold Dialogue.validateNext at hv
      rw [he] at hv
      simp only [Bool.false_eq_true, if_false] at hv
      have h2 := (Dialogue.validateNonInitial_ok hv).2.1
      rw [if_pos (by rw [hto, e, hdi.selfAddr]), hmid, hn] at h2
      unfold Dialogue.nextIncomingId at h2
      rw [hn] at h2
      simp only [Bool.false_eq_true, if_false, startingMessageId, absId_eq] at h2
      split at h2 <;> omega
    have := Dialogue.selfInit_iff hdi hne
    by_cases hsi : d.isSelfInitiated = true
    · rw [if_pos hsi]; constructor
      · intro _; exact this.1 hsi
      · intro _; omega
    · rw [if_neg hsi]; constructor
      · intro _; omega
      · intro hx; exact absurd (this.2 hx) hsi
  · rw [hrec]; exact ⟨rfl, rfl, rfl, rfl⟩

/-! ## C53 -/

/-- The address of a side. -/
def sideAddress (a b : Bytes) : Side → Bytes
  | .opener => a
  | .responder => b

/-- The messages `hs` are the turns `ts`. -/
def Transcript (a b : Bytes) (ts : List Turn) (hs : List Message) : Prop :=
  hs.map (fun m => (m.sender, m.performative)) =
    ts.map (fun t => (sideAddress a b t.side, t.performative))

theorem Transcript.append {a b : Bytes} {ts : List Turn} {hs : List Message}
    (h : Transcript a b ts hs) {m : Message} {t : Turn} (h1 : m.sender = sideAddress a b t.side)
    (h2 : m.performative = t.performative) : Transcript a b (ts ++ [t]) (hs ++ [m]) := by
  unfold Transcript at *
  simp [h, h1, h2]

theorem Transcript.count {a b : Bytes} (hab : a ≠ b) {ts : List Turn} {hs : List Message}
    (h : Transcript a b ts hs) (x : Side) : (said (sideAddress a b x) hs).length = turnsOf x ts := by
  have key : ∀ (y : Side), (sideAddress a b y == sideAddress a b x) = (y == x) := by
    intro y
    have h1 : (a == b) = false := by simpa using hab
    have h2 : (b == a) = false := by simpa using hab.symm
    cases x <;> cases y <;> simp only [sideAddress, h1, h2, beq_self_eq_true] <;> rfl
  have e1 : (said (sideAddress a b x) hs).length =
      ((hs.map fun m => (m.sender, m.performative)).filter fun q => q.1 == sideAddress a b x).length := by
    rw [List.filter_map, List.length_map]
    rfl
  rw [e1, h, List.filter_map, List.length_map]
  unfold turnsOf
  congr 2
  funext t
  exact key t.side

theorem Transcript.last {a b : Bytes} {ts : List Turn} {hs : List Message}
    (h : Transcript a b ts hs) {l : Message} (hl : hs.getLast? = some l) :
    ∃ t, ts.getLast? = some t ∧ l.sender = sideAddress a b t.side ∧
      l.performative = t.performative := by
  have e := congrArg List.getLast? h
  rw [List.getLast?_map, List.getLast?_map, hl] at e
  cases ht : ts.getLast? with
  | none => rw [ht] at e; simp at e
  | some t =>
    rw [ht] at e
    simp at e
    exact ⟨t, rfl, e.1, e.2⟩

/-- The responder after accepting the opening message. -/
theorem opening_accepted {a b perf n nb : Bytes} {keep : Bool} {rules : RulesDecl} {s : Sys}
    {p : Ptr} {x : Option Message} (hi : SInv b keep rules s) (hmi : MInv s) (hn : n ≠ [])
    (hfree : ∀ r, s.byLabel.get ⟨⟨n, r⟩, a, b⟩ = none)
    (hkeep : perf ∈ rules.terminal → keep = true)
    (hacc : (s.call (.update ⟨b, a, ⟨n, []⟩, 1, 0, perf⟩ nb)).2 = .accepted (some p) x) :
    ResponderSide a b n nb keep rules p [⟨b, a, ⟨n, []⟩, 1, 0, perf⟩]
      (s.call (.update ⟨b, a, ⟨n, []⟩, 1, 0, perf⟩ nb)).1 := by
  obtain ⟨m, hm⟩ : ∃ m : Message, m = ⟨b, a, ⟨n, []⟩, 1, 0, perf⟩ := ⟨_, rfl⟩
  rw [← hm] at hacc ⊢
  have hu := call_update_accepted hacc
  have hi1 : SInv b keep rules (s.call (.update m nb)).1 := hi.call _ (by rw [hacc]; simp)
  have hm1 : MInv (s.call (.update m nb)).1 := hmi.call _ (by rw [hacc]; simp)
  generalize (s.call (.update m nb)).1 = s1 at hu hi1 hm1 ⊢
  rcases Sys.update_cases hu with ⟨_, hp, _⟩ | ⟨h1, h2, h3, hcase⟩
  · simp at hp
  rw [hi.selfEq] at h2 h3
  have hms : m.sender = a := by rw [hm]
  have hab : a ≠ b := by rw [← hms]; exact h2
  rcases hcase with ⟨hh, _⟩ | ⟨_, _, _, ⟨s0, p0, hc, hf⟩ | ⟨e, _, hp⟩ | ⟨_, hp⟩⟩ |
    ⟨_, _, hh, _⟩ | ⟨hh, _⟩
  · rw [hm] at hh; exact absurd hh hn
  · rcases Sys.createOpponentInitiated_cases hc with ⟨he, _⟩ | ⟨_, _, hcr⟩
    · simp at he
    obtain ⟨hp, hheap, hbl⟩ := Sys.create_heap hcr
    have hinc : s0.incomplete = s.incomplete.set ⟨⟨n, []⟩, a, a⟩ ⟨⟨n, nb⟩, a, a⟩ := by
      rcases Sys.create_cases hcr with ⟨he, _⟩ | ⟨he, _⟩ | ⟨_, _, _, hs0⟩
      · simp at he
      · simp at he
      · rw [hs0, hm]; rfl
    rcases Sys.updateFound_cases hf with ⟨hp', _⟩ | hp' | ⟨q', hq, ⟨m', hdu, he⟩ | ⟨e, _, hp', _⟩⟩
    · simp at hp'
    · simp at hp'
    · simp only [Option.some.injEq] at hq
      subst hq
      simp only [Res.ok.injEq, Option.some.injEq] at he
      subst he
      have hd0 : s0.heap[p]? = some { Dialogue.new ⟨⟨n, nb⟩, a, a⟩ b rules with callbacks := 1 } := by
        rw [hheap, hp, List.getElem?_append_right (Nat.le_refl _), Nat.sub_self, hi.selfEq,
          hi.rulesEq, hm]
        rfl
      obtain ⟨d, d', t, hd, hcc, _⟩ := Sys.dialogueUpdate_ok hdu
      obtain ⟨hm', _, _, htt, hrec⟩ := Dialogue.updateCore_ok hcc
      have hi0 := hi.createOpponentInitiated (by rw [hms]; exact hab) hc
      have hd' := hd
      rw [hd0] at hd'
      simp only [Option.some.injEq] at hd'
      have hws : d.withSender m = m := by
        simp [Dialogue.withSender, Message.hasSender, h1]
      rw [hws] at hm'
      subst hm'
      obtain ⟨ts, hts⟩ := dialogueUpdate_keep hd hcc (by
        intro h
        rw [htt, ← hd'] at h
        rw [hi0.keepEq]
        refine hkeep ((newRules_terminal rules perf).1 ?_)
        rw [hm] at h
        exact h)
      rw [hts] at hdu
      simp only [Prod.mk.injEq, and_true] at hdu
      rw [← hdu] at hi1 hm1 ⊢
      refine ⟨hi1, hm1, ⟨d', getElem?_set_self_of_some hd, ?_⟩, ?_, ?_, ?_⟩
      · have hsa : said a [m'] = [m'] := by simp [said, hms]
        have hsb : said b [m'] = [] := by simp [said, hms, hab]
        rw [hrec, ← hd', Dialogue.record_eq]
        have hid : m'.messageId = 1 := by rw [hm]
        refine ⟨hab.symm, rfl, rfl, rfl, ?_, ?_, rfl, ?_, ?_, ?_, ?_, ?_⟩
        · simp [hsb, hms, hab, Dialogue.new]
        · simp [hsa, hms, hab, Dialogue.new]
        · intro l hl; simp at hl; simp [hl]
        · intro y hy; simp at hy; subst hy; exact Or.inr hms
        · intro i y hy; rw [hsb] at hy; simp at hy
        · intro i y hy
          rw [hsa] at hy
          cases i with
          | zero => simp at hy; subst hy; rw [hid]; simp [signed]
          | succ i => simp at hy
        · simp [hsa]
      · show s0.byLabel.get _ = some p
        rw [hbl, hm]
        exact GoMap.get_set_self _ _ _
      · show s0.incomplete.get _ = _
        rw [hinc]
        exact GoMap.get_set_self _ _ _
      · intro r
        show s0.byLabel.get _ = none
        rw [hbl, hm, GoMap.get_set_ne]
        · exact hfree r
        · intro e; simp at e; exact hab.symm e.2
    · simp at hp'
  · simp at hp
  · simp at hp
  · rw [hm] at hh; exact absurd rfl hh
  · rw [hm] at hh
    rcases hh with ⟨_, hh⟩ | ⟨hh, _⟩ | ⟨_, _, hh⟩
    · exact absurd rfl hh
    · exact absurd hh hn
    · simp at hh

/-- The opener after `Create`. -/
theorem create_opener {a b perf n nb : Bytes} {keep : Bool} {rules : RulesDecl} {s : Sys} {p : Ptr}
    {x : Option Message} (hi : SInv a keep rules s) (hmi : MInv s) (hab : a ≠ b)
    (hacc : (s.call (.create b perf n)).2 = .accepted (some p) x)
    (hkeep : perf ∈ rules.terminal → keep = true) :
    n ≠ [] ∧ x = some ⟨b, a, ⟨n, []⟩, 1, 0, perf⟩ ∧
    OpenerSide a b n nb keep rules p [⟨b, a, ⟨n, []⟩, 1, 0, perf⟩] (s.call (.create b perf n)).1 := by
  obtain ⟨hn, hx, c1, c2, c3, d, c4, c5, c6, c7, c8, c9, c10⟩ := create_accepted hi hacc hkeep
  have hi1 : SInv a keep rules (s.call (.create b perf n)).1 := hi.call _ (by rw [hacc]; simp)
  have hm1 : MInv (s.call (.create b perf n)).1 := hmi.call _ (by rw [hacc]; simp)
  refine ⟨hn, hx, ?_⟩
  generalize (s.call (.create b perf n)).1 = s1 at *
  have hsa : said a [⟨b, a, ⟨n, []⟩, 1, 0, perf⟩] = [⟨b, a, ⟨n, []⟩, 1, 0, perf⟩] := by simp [said]
  have hsb : said b [⟨b, a, ⟨n, []⟩, 1, 0, perf⟩] = [] := by simp [said, hab]
  have hids : d.orderedIds = [1] := by
    obtain ⟨ms, hh, _⟩ := (hi1.heap p d c4).history
    have h1 := hh.incoming
    have h2 := hh.outgoing
    rw [c7] at h1
    rw [c6] at h2
    have hall : ∀ y ∈ ms, (y.sender == a) = true := by
      intro y hy
      have := List.filter_eq_nil_iff.1 h1.symm y hy
      simpa using this
    rw [List.filter_eq_self.2 hall] at h2
    rw [hh.ids, ← h2]
    rfl
  refine ⟨hi1, hm1, ⟨d, c4, ?_⟩, fun _ => ⟨c1, c2, c3⟩, fun h => absurd hsb h⟩
  rw [if_pos hsb]
  refine ⟨hab, c5, c9, c10, by rw [hsa]; exact c6, by rw [hsb]; exact c7, by rw [hids]; rfl, ?_, ?_, ?_, ?_, ?_⟩
  · intro l hl; simp at hl; rw [c8, ← hl]
  · intro y hy; simp at hy; subst hy; exact Or.inl rfl
  · intro i y hy
    rw [hsa] at hy
    cases i with
    | zero => simp at hy; subst hy; simp [signed]
    | succ i => simp at hy
  · intro i y hy; rw [hsb] at hy; simp at hy
  · simp [hsa]

/-- What the two agents share: `a` opened a dialogue with `b`, `b` accepted the opening message.
Both may have done anything before; `b` has not itself opened a dialogue with `a` under the same
random value. Performatives that are terminal for an agent make it drop the dialogue unless it
keeps terminal dialogues. -/
structure Opened (a b perf na nb : Bytes) (keepA keepB : Bool) (rulesA rulesB : RulesDecl)
    (pA pB : Ptr) (sA sB : Sys) : Prop where
  reachableA : Reachable a keepA rulesA sA
  reachableB : Reachable b keepB rulesB sB
  distinct : a ≠ b
  address : a ≠ [] ∧ b ≠ []
  nonce : nb ≠ []
  free : ∀ r, sB.getByLabel ⟨⟨na, r⟩, a, b⟩ = none
  kept : (perf ∈ rulesA.terminal → keepA = true) ∧ (perf ∈ rulesB.terminal → keepB = true)
  opens : ∃ m0 x, (sA.call (.create b perf na)).2 = .accepted (some pA) (some m0) ∧
    (sB.call (.update m0 nb)).2 = .accepted (some pB) x

/-- The states after the opening message has been delivered. -/
def openedStates (a b perf na nb : Bytes) (sA sB : Sys) : Sys × Sys :=
  ((sA.call (.create b perf na)).1, (sB.call (.update ⟨b, a, ⟨na, []⟩, 1, 0, perf⟩ nb)).1)

section
variable {a b perf na nb : Bytes} {keepA keepB : Bool} {rulesA rulesB : RulesDecl} {pA pB : Ptr}
  {sA sB : Sys} {ok : Sys → Prop} {busyA busyB : Sys → Call → Prop}

theorem Opened.sides (h : Opened a b perf na nb keepA keepB rulesA rulesB pA pB sA sB) :
    na ≠ [] ∧
    OpenerSide a b na nb keepA rulesA pA [⟨b, a, ⟨na, []⟩, 1, 0, perf⟩]
      (openedStates a b perf na nb sA sB).1 ∧
    ResponderSide a b na nb keepB rulesB pB [⟨b, a, ⟨na, []⟩, 1, 0, perf⟩]
      (openedStates a b perf na nb sA sB).2 := by
  obtain ⟨m0, x, h1, h2⟩ := h.opens
  obtain ⟨hn, hx, hA⟩ := create_opener (nb := nb) h.reachableA.inv h.reachableA.minv h.distinct h1 h.kept.1
  simp only [Option.some.injEq] at hx
  subst hx
  exact ⟨hn, hA, opening_accepted h.reachableB.inv h.reachableB.minv hn h.free h.kept.2 h2⟩

theorem Opened.states_ok (h : Opened a b perf na nb keepA keepB rulesA rulesB pA pB sA sB)
    (hh : Harmless a b na keepA keepB rulesA rulesB ok busyA busyB) (hokA : ok sA) (hokB : ok sB) :
    ok (openedStates a b perf na nb sA sB).1 ∧ ok (openedStates a b perf na nb sA sB).2 := by
  obtain ⟨m0, x, h1, h2⟩ := h.opens
  obtain ⟨hn, hx, _⟩ := create_opener (nb := nb) h.reachableA.inv h.reachableA.minv h.distinct h1 h.kept.1
  simp only [Option.some.injEq] at hx
  subst hx
  exact ⟨hh.orderly h.reachableA.inv h.reachableA.minv hokA trivial (by rw [h1]; simp),
    hh.orderly h.reachableB.inv h.reachableB.minv hokB trivial (by rw [h2]; simp)⟩

/-- Both sides of a conversation hold the same messages. -/
theorem conversation_inv (h : Opened a b perf na nb keepA keepB rulesA rulesB pA pB sA sB)
    (hh : Harmless a b na keepA keepB rulesA rulesB ok busyA busyB) (hokA : ok sA) (hokB : ok sB)
    {ts : List Turn} {x : Sys × Sys}
    (hc : ConversationAmid busyA busyB pA pB (openedStates a b perf na nb sA sB) ts x)
    (hk : ∀ t ∈ ts, (t.performative ∈ rulesA.terminal → keepA = true) ∧
      (t.performative ∈ rulesB.terminal → keepB = true)) :
    ∃ hs, OpenerSide a b na nb keepA rulesA pA hs x.1 ∧
      ResponderSide a b na nb keepB rulesB pB hs x.2 ∧
      Transcript a b (⟨.opener, perf, nb⟩ :: ts) hs ∧ ok x.1 ∧ ok x.2 := by
  obtain ⟨hna, hA0, hB0⟩ := h.sides
  induction hc with
  | start =>
    obtain ⟨h1, h2⟩ := h.states_ok hh hokA hokB
    exact ⟨_, hA0, hB0, rfl, h1, h2⟩
  | @turn ts x y t _ hsp ih =>
    obtain ⟨hs, hA, hB, htr, hxA, hxB⟩ := ih (fun u hu => hk u (List.mem_append_left _ hu))
    have hkt := hk t (by simp)
    obtain ⟨dA, _, hvA⟩ := hA.view
    obtain ⟨l, hl, _⟩ := hvA.exists_last
    unfold speak at hsp
    cases hside : t.side with
    | opener =>
      rw [hside] at hsp
      simp only at hsp
      have hturn := opener_turn hA hB h.distinct h.address.1 hna h.nonce hl t.performative t.nonce
        hkt.1 hkt.2
      by_cases hcond : IsValidReply rulesA l.performative t.performative ∧
          IsValidReply rulesB l.performative t.performative ∧
          (said a hs).length = (said l.sender hs).length
      · obtain ⟨sA', sB', m, hd, hm1, hm2, hA', hB'⟩ := hturn.1 hcond
        rw [hd] at hsp
        simp only [Option.some.injEq] at hsp
        subst hsp
        obtain ⟨e1, n1, m', e2, n2⟩ := deliver_calls hd
        refine ⟨hs ++ [m], hA', hB', ?_, ?_, ?_⟩
        · exact htr.append (t := t) (by rw [hside]; exact hm1) hm2
        · rw [e1]; exact hh.orderly hA.inv hA.minv hxA (hA.orderly _) n1
        · rw [e2]; exact hh.orderly hB.inv hB.minv hxB trivial n2
      · rw [hturn.2 hcond] at hsp
        simp at hsp
    | responder =>
      rw [hside] at hsp
      simp only at hsp
      have hturn := responder_turn hA hB h.distinct h.address.2 hna h.nonce hl t.performative t.nonce
        hkt.1 hkt.2
      by_cases hcond : IsValidReply rulesA l.performative t.performative ∧
          IsValidReply rulesB l.performative t.performative ∧
          (said b hs = [] ∨ (said b hs).length = (said l.sender hs).length)
      · obtain ⟨sA', sB', m, hd, hm1, hm2, hA', hB'⟩ := hturn.1 hcond
        rw [hd] at hsp
        simp only [Option.map_some, Option.some.injEq] at hsp
        subst hsp
        obtain ⟨e1, n1, m', e2, n2⟩ := deliver_calls hd
        refine ⟨hs ++ [m], hA', hB', ?_, ?_, ?_⟩
        · exact htr.append (t := t) (by rw [hside]; exact hm1) hm2
        · rw [e2]; exact hh.orderly hA.inv hA.minv hxA trivial n2
        · rw [e1]; exact hh.orderly hB.inv hB.minv hxB (hB.orderly _) n1
      · rw [hturn.2 hcond] at hsp
        simp at hsp
  | @openerBusy ts x c _ hb hcr ih =>
    obtain ⟨hs, hA, hB, htr, hxA, hxB⟩ := ih hk
    obtain ⟨hx', hf⟩ := hh.opener hA.inv hA.minv hxA hb hcr
    exact ⟨hs, hA.frame (hA.inv.call c hcr) (hA.minv.call c hcr) hf, hB, htr, hx', hxB⟩
  | @responderBusy ts x c _ hb hcr ih =>
    obtain ⟨hs, hA, hB, htr, hxA, hxB⟩ := ih hk
    obtain ⟨hx', hf⟩ := hh.responder hB.inv hB.minv hxB hb hcr
    exact ⟨hs, hA, hB.frame (hB.inv.call c hcr) (hB.minv.call c hcr) hf, htr, hxA, hx'⟩

/-- Which turn is accepted, whatever harmless calls are made meanwhile. -/
theorem next_turn_iff (h : Opened a b perf na nb keepA keepB rulesA rulesB pA pB sA sB)
    (hh : Harmless a b na keepA keepB rulesA rulesB ok busyA busyB) (hokA : ok sA) (hokB : ok sB)
    {ts : List Turn} {x : Sys × Sys}
    (hc : ConversationAmid busyA busyB pA pB (openedStates a b perf na nb sA sB) ts x) (t : Turn)
    (hk : ∀ u ∈ ts ++ [t], (u.performative ∈ rulesA.terminal → keepA = true) ∧
      (u.performative ∈ rulesB.terminal → keepB = true)) :
    (speak pA pB x t).isSome = true ↔ MayFollow rulesA rulesB (⟨.opener, perf, nb⟩ :: ts) t := by
  obtain ⟨hs, hA, hB, htr, _⟩ := conversation_inv h hh hokA hokB hc (fun u hu => hk u (List.mem_append_left _ hu))
  have hkt := hk t (by simp)
  obtain ⟨hna, _, _⟩ := h.sides
  obtain ⟨dA, _, hvA⟩ := hA.view
  obtain ⟨l, hl, _⟩ := hvA.exists_last
  obtain ⟨lt, hlt, hls, hlp⟩ := htr.last hl
  have hca := htr.count h.distinct .opener
  have hcb := htr.count h.distinct .responder
  have hcl : (said l.sender hs).length = turnsOf lt.side (⟨.opener, perf, nb⟩ :: ts) := by
    rw [hls]; exact htr.count h.distinct lt.side
  simp only [sideAddress] at hca hcb
  have hpos : 0 < turnsOf .opener (⟨.opener, perf, nb⟩ :: ts) := by
    simp [turnsOf]
  unfold speak
  cases hside : t.side with
  | opener =>
    simp only
    have hturn := opener_turn hA hB h.distinct h.address.1 hna h.nonce hl t.performative t.nonce
      hkt.1 hkt.2
    rw [hlp, hca, hcl] at hturn
    constructor
    · intro hsome
      apply Classical.byContradiction
      intro hno
      rw [hturn.2] at hsome
      · simp at hsome
      · rintro ⟨h1, h2, h3⟩
        refine hno ⟨lt, hlt, h1, h2, ?_⟩
        rw [hside]
        cases hl2 : lt.side with
        | opener => exact Or.inl rfl
        | responder => rw [hl2] at h3; exact Or.inr (Or.inl h3)
    · rintro ⟨lt', hlt', h1, h2, h3⟩
      rw [hlt] at hlt'
      simp only [Option.some.injEq] at hlt'
      subst hlt'
      obtain ⟨_, _, _, hd, _⟩ := hturn.1 ⟨h1, h2, by
        rw [hside] at h3
        rcases h3 with h3 | h3 | ⟨h3, _⟩
        · rw [← h3]
        · cases hl2 : lt.side with
          | opener => rfl
          | responder => exact h3
        · simp at h3⟩
      rw [hd]
      rfl
  | responder =>
    simp only [Option.isSome_map]
    have hturn := responder_turn hA hB h.distinct h.address.2 hna h.nonce hl t.performative t.nonce
      hkt.1 hkt.2
    rw [hlp, hcb, hcl, ← List.length_eq_zero_iff, hcb] at hturn
    constructor
    · intro hsome
      apply Classical.byContradiction
      intro hno
      rw [hturn.2] at hsome
      · simp at hsome
      · rintro ⟨h1, h2, h3⟩
        refine hno ⟨lt, hlt, h1, h2, ?_⟩
        rw [hside]
        rcases h3 with h3 | h3
        · exact Or.inr (Or.inr ⟨rfl, h3⟩)
        · cases hl2 : lt.side with
          | opener => rw [hl2] at h3; exact Or.inr (Or.inl h3.symm)
          | responder => exact Or.inl rfl
    · rintro ⟨lt', hlt', h1, h2, h3⟩
      rw [hlt] at hlt'
      simp only [Option.some.injEq] at hlt'
      subst hlt'
      obtain ⟨_, _, _, hd, _⟩ := hturn.1 ⟨h1, h2, by
        rw [hside] at h3
        rcases h3 with h3 | h3 | ⟨_, h3⟩
        · exact Or.inr (by rw [← h3])
        · cases hl2 : lt.side with
          | opener => exact Or.inr h3.symm
          | responder => exact Or.inr rfl
        · exact Or.inl h3⟩
      rw [hd]
      rfl

/-- Which conversations get through, whatever harmless calls are made meanwhile. -/
theorem conversation_iff (h : Opened a b perf na nb keepA keepB rulesA rulesB pA pB sA sB)
    (hh : Harmless a b na keepA keepB rulesA rulesB ok busyA busyB) (hokA : ok sA) (hokB : ok sB)
    (ts : List Turn)
    (hk : ∀ u ∈ ts, (u.performative ∈ rulesA.terminal → keepA = true) ∧
      (u.performative ∈ rulesB.terminal → keepB = true)) :
    (∃ x, ConversationAmid busyA busyB pA pB (openedStates a b perf na nb sA sB) ts x) ↔
      Lawful rulesA rulesB ⟨.opener, perf, nb⟩ ts := by
  constructor
  · rintro ⟨x, hc⟩
    induction hc with
    | start => intro pre t post e; simp at e
    | @turn ts x y t hc hsp ih =>
      refine forall_split_snoc (ih fun u hu => hk u (List.mem_append_left _ hu)) ?_
      refine (next_turn_iff h hh hokA hokB hc t hk).1 ?_
      rw [hsp]
      rfl
    | openerBusy c _ _ _ ih => exact ih hk
    | responderBusy c _ _ _ ih => exact ih hk
  · generalize hn : ts.length = n
    induction n generalizing ts with
    | zero =>
      intro _
      rw [List.length_eq_zero_iff] at hn
      subst hn
      exact ⟨_, .start⟩
    | succ n ih =>
      intro hl
      rcases List.eq_nil_or_concat ts with rfl | ⟨init, t, ht⟩
      · simp at hn
      · rw [List.concat_eq_append] at ht
        subst ht
        obtain ⟨x, hx⟩ := ih init (fun u hu => hk u (List.mem_append_left _ hu)) (by simpa using hn)
          (fun pre u post e => hl pre u (post ++ [t]) (by rw [e]; simp))
        have := (next_turn_iff h hh hokA hokB hx t hk).2 (hl init t [] rfl)
        obtain ⟨y, hy⟩ := Option.isSome_iff_exists.1 this
        exact ⟨y, .turn t hx hy⟩

/-- Both hold the same history, whatever harmless calls are made meanwhile. -/
theorem same_history (h : Opened a b perf na nb keepA keepB rulesA rulesB pA pB sA sB)
    (hh : Harmless a b na keepA keepB rulesA rulesB ok busyA busyB) (hokA : ok sA) (hokB : ok sB)
    {ts : List Turn} {x : Sys × Sys}
    (hc : ConversationAmid busyA busyB pA pB (openedStates a b perf na nb sA sB) ts x)
    (hk : ∀ t ∈ ts, (t.performative ∈ rulesA.terminal → keepA = true) ∧
      (t.performative ∈ rulesB.terminal → keepB = true)) :
    ∃ hs dA dB, x.1.heap[pA]? = some dA ∧ x.2.heap[pB]? = some dB ∧
      IsHistory a dA hs ∧ IsHistory b dB hs ∧
      Transcript a b (⟨.opener, perf, nb⟩ :: ts) hs ∧
      dA.label.reference.starter = na ∧ dB.label.reference = ⟨na, nb⟩ ∧
      (turnsOf .responder ts ≠ 0 → dA.label.reference = ⟨na, nb⟩) := by
  obtain ⟨hs, hA, hB, htr, _⟩ := conversation_inv h hh hokA hokB hc hk
  obtain ⟨dA, hdA, hvA⟩ := hA.view
  obtain ⟨dB, hdB, hvB⟩ := hB.view
  have hist : ∀ {me other : Bytes} {o : Bool} {r : DialogueReference} {rules : RulesDecl} {d : Dialogue},
      View me other o r rules hs d → IsHistory me d hs := by
    intro me other o r rules d v
    refine ⟨v.out, ?_, v.order⟩
    rw [v.inc]
    unfold said
    apply List.filter_congr
    intro m hm
    have hne := v.ne
    rcases v.parties m hm with e | e
    · rw [e]; simp [hne]
    · rw [e]; simp [hne.symm]
  refine ⟨hs, dA, dB, hdA, hdB, hist hvA, hist hvB, htr, ?_, ?_, ?_⟩
  · rw [hvA.label]
  · rw [hvB.label]
  · intro hn
    have hcb := htr.count h.distinct .responder
    simp only [sideAddress] at hcb
    rw [hvA.label]
    simp only
    rw [if_neg]
    intro e
    rw [e] at hcb
    apply hn
    simpa [turnsOf] using hcb.symm

/-- **C53.** After any conversation so far, the next turn is accepted into the other agent's
dialogue exactly if the law `MayFollow` holds: both rule tables allow the performative, and the
speaker changes only when both have spoken equally often (or to let the responder speak for the
first time). Both agents may have been busy with third parties. -/
theorem C53_next_turn_iff (h : Opened a b perf na nb keepA keepB rulesA rulesB pA pB sA sB)
    {ts : List Turn} {x : Sys × Sys}
    (hc : Conversation a b pA pB (openedStates a b perf na nb sA sB) ts x) (t : Turn)
    (hk : ∀ u ∈ ts ++ [t], (u.performative ∈ rulesA.terminal → keepA = true) ∧
      (u.performative ∈ rulesB.terminal → keepB = true)) :
    (speak pA pB x t).isSome = true ↔ MayFollow rulesA rulesB (⟨.opener, perf, nb⟩ :: ts) t :=
  next_turn_iff h harmless_thirdParty trivial trivial hc t hk

/-- **C53.** The conversations that get through are exactly the lawful ones. -/
theorem C53_conversation_iff (h : Opened a b perf na nb keepA keepB rulesA rulesB pA pB sA sB)
    (ts : List Turn)
    (hk : ∀ u ∈ ts, (u.performative ∈ rulesA.terminal → keepA = true) ∧
      (u.performative ∈ rulesB.terminal → keepB = true)) :
    (∃ x, Conversation a b pA pB (openedStates a b perf na nb sA sB) ts x) ↔
      Lawful rulesA rulesB ⟨.opener, perf, nb⟩ ts :=
  conversation_iff h harmless_thirdParty trivial trivial ts hk

/-- **C53.** In every conversation both dialogues hold the same history: the opening message and
the turns, in order. -/
theorem C53_same_history (h : Opened a b perf na nb keepA keepB rulesA rulesB pA pB sA sB)
    {ts : List Turn} {x : Sys × Sys}
    (hc : Conversation a b pA pB (openedStates a b perf na nb sA sB) ts x)
    (hk : ∀ t ∈ ts, (t.performative ∈ rulesA.terminal → keepA = true) ∧
      (t.performative ∈ rulesB.terminal → keepB = true)) :
    ∃ hs dA dB, x.1.heap[pA]? = some dA ∧ x.2.heap[pB]? = some dB ∧
      IsHistory a dA hs ∧ IsHistory b dB hs ∧
      Transcript a b (⟨.opener, perf, nb⟩ :: ts) hs ∧
      dA.label.reference.starter = na ∧ dB.label.reference = ⟨na, nb⟩ ∧
      (turnsOf .responder ts ≠ 0 → dA.label.reference = ⟨na, nb⟩) :=
  same_history h harmless_thirdParty trivial trivial hc hk

/-- The speakers take turns strictly. -/
def Alternating : Side → List Turn → Prop
  | _, [] => True
  | last, t :: ts => t.side ≠ last ∧ Alternating t.side ts

/-- **C53.** The natural conversation, in which the two agents take turns, never gets beyond the
opener's second message: the responder's second message is always refused by the opener. -/
theorem C53_alternating_stuck (h : Opened a b perf na nb keepA keepB rulesA rulesB pA pB sA sB)
    {ts : List Turn} {x : Sys × Sys}
    (hc : Conversation a b pA pB (openedStates a b perf na nb sA sB) ts x)
    (hk : ∀ t ∈ ts, (t.performative ∈ rulesA.terminal → keepA = true) ∧
      (t.performative ∈ rulesB.terminal → keepB = true))
    (halt : Alternating .opener ts) : ts.length ≤ 2 := by
  have hl := (C53_conversation_iff h ts hk).1 ⟨x, hc⟩
  match ts, halt, hl with
  | [], _, _ => simp
  | [_], _, _ => simp
  | [_, _], _, _ => simp
  | t1 :: t2 :: t3 :: rest, halt, hl =>
    exfalso
    obtain ⟨h1, h2, h3, _⟩ := halt
    have e1 : t1.side = .responder := by cases e : t1.side with
      | opener => exact absurd e h1
      | responder => rfl
    have e2 : t2.side = .opener := by cases e : t2.side with
      | opener => rfl
      | responder => rw [e, e1] at h2; exact absurd rfl h2
    have e3 : t3.side = .responder := by cases e : t3.side with
      | opener => rw [e, e2] at h3; exact absurd rfl h3
      | responder => rfl
    obtain ⟨last, hlast, _, _, hcond⟩ := hl [t1, t2] t3 rest rfl
    simp at hlast
    subst hlast
    rw [e3, e2] at hcond
    rcases hcond with hcond | hcond | ⟨_, hcond⟩
    · simp at hcond
    · simp [turnsOf, e1, e2] at hcond
    · simp [turnsOf, e1, e2] at hcond

end

/-! ### Concrete cases -/

namespace Chat

/-- One performative that may follow itself. -/
def rules : RulesDecl where
  initial := [b! "hi"]
  terminal := [b! "bye"]
  validReplies := GoMap.empty.set (b! "hi") [b! "hi", b! "bye"]

def sA : Sys := Sys.new (b! "ann") false rules
def sB : Sys := Sys.new (b! "bob") false rules
def x0 : Sys × Sys := openedStates (b! "ann") (b! "bob") (b! "hi") (b! "n") (b! "r") sA sB
def ann : Turn := ⟨.opener, b! "hi", b! "z"⟩
def bob : Turn := ⟨.responder, b! "hi", b! "z"⟩

theorem opened : Opened (b! "ann") (b! "bob") (b! "hi") (b! "n") (b! "r") false false rules rules
    0 0 sA sB where
  reachableA := .init
  reachableB := .init
  distinct := by decide
  address := by decide
  nonce := by decide
  free := by intro r; rfl
  kept := by decide
  opens := ⟨⟨b! "bob", b! "ann", ⟨b! "n", []⟩, 1, 0, b! "hi"⟩, none, by decide, by decide⟩

/-- All turns are accepted. -/
def talk (x : Sys × Sys) : List Turn → Bool
  | [] => true
  | t :: ts => match speak 0 0 x t with
    | some y => talk y ts
    | none => false

/-- Bob answers, Ann answers, Bob's next message is refused. If Ann sends two messages first and Bob
answers with two, Ann can go on, but Bob cannot answer again before he has caught up. -/
example : talk x0 [bob, ann] = true ∧ talk x0 [bob, ann, bob] = false ∧
    talk x0 [ann, bob, bob, ann, ann, bob] = false ∧
    talk x0 [ann, bob, bob, ann, ann, ann] = true ∧ talk x0 [bob, bob] = true ∧
    talk x0 [bob, bob, ann] = false := by decide

end Chat

/-- Non-vacuity of C52: Ann's second message. -/
example : (Chat.x0.1.call (.reply 0 (b! "hi") none none)).2 =
    .accepted (some 0) (some ⟨b! "bob", b! "ann", ⟨b! "n", []⟩, 2, 1, b! "hi"⟩) := by decide

/-- Non-vacuity of C53: the conversation "Bob, Ann" exists and is alternating. -/
example : ∃ x, Conversation (b! "ann") (b! "bob") 0 0 Chat.x0 [Chat.bob, Chat.ann] x := by
  refine (C53_conversation_iff Chat.opened _ (by decide)).2 ?_
  intro pre t post e
  rcases pre with _ | ⟨p1, _ | ⟨p2, pre⟩⟩
  · simp only [List.nil_append, List.cons.injEq] at e
    obtain ⟨rfl, _⟩ := e
    exact ⟨_, rfl, ⟨_, rfl, by decide⟩, ⟨_, rfl, by decide⟩, by decide⟩
  · simp only [List.cons_append, List.nil_append, List.cons.injEq] at e
    obtain ⟨rfl, rfl, _⟩ := e
    exact ⟨_, rfl, ⟨_, rfl, by decide⟩, ⟨_, rfl, by decide⟩, by decide⟩
  · simp at e

end Verif
