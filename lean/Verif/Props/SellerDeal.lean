import Verif.Lemmas.FrameRef
import Verif.Props.Conversation
import Verif.Props.Seller

/-! A buyer who keeps to the protocol gets its deal from the seller agent, whatever else happens. -/

namespace Verif

open Proto

/-! ## The responder's side of a conversation -/

section
variable {a b na nb : Bytes} {keep : Bool} {rules : RulesDecl} {p : Ptr} {hs : List Message} {s s' : Sys}

/-- A new opening message with an allowed performative is accepted. -/
theorem opening_ok {perf : Bytes} (hi : SInv b keep rules s) (hab : a ≠ b) (ha : a ≠ []) (hna : na ≠ [])
    (hperf : perf ∈ rules.initial) (hnt : perf ∉ rules.terminal)
    (h1 : s.incomplete.get ⟨⟨na, []⟩, a, a⟩ = none) (h2 : s.byLabel.get ⟨⟨na, nb⟩, a, a⟩ = none) :
    ∃ p, (s.update ⟨b, a, ⟨na, []⟩, 1, 0, perf⟩ nb).2 = .ok (some p) := by
  obtain ⟨m, hm⟩ : ∃ m : Message, m = ⟨b, a, ⟨na, []⟩, 1, 0, perf⟩ := ⟨_, rfl⟩
  rw [← hm]
  have hself := hi.selfEq
  have hx : s.update m nb = (match s.createOpponentInitiated m.sender m.reference nb with
      | (s1, .ok p) => s1.updateFound m true (some p)
      | (s1, .err e) => (s1, .err e)
      | (s1, .panic) => (s1, .panic)) := by
    unfold Sys.update
    rw [if_neg (by rw [hm, hself]; simp [Message.hasSender, ha, hab]),
      if_neg (by rw [hm]; simp [Message.hasTo, ha]), if_neg (by rw [hm, hself]; simp)]
    have e1 : (m.reference.starter != unassigned) = true := by rw [hm]; simpa [unassigned] using hna
    have e2 : (m.reference.responder != unassigned) = false := by rw [hm]; simp [unassigned]
    have e3 : (m.messageId == startingMessageId) = true := by rw [hm]; simp [startingMessageId]
    simp only [e1, e2, e3]
    rfl
  rw [hx]
  have hc : ∃ s1 d, s.createOpponentInitiated m.sender m.reference nb = (s1, .ok s.heap.length) ∧
      s1.heap[s.heap.length]? = some d ∧
      d = { Dialogue.new ⟨⟨na, nb⟩, a, a⟩ b rules with callbacks := 1 } := by
    unfold Sys.createOpponentInitiated
    rw [if_pos (by rw [hm]; simp [unassigned, hna])]
    unfold Sys.create
    rw [if_neg (by
      rw [hm]
      unfold Sys.isInIncomplete
      rw [(GoMap.has_eq_false_iff _ _).2 h1]
      simp)]
    dsimp only
    rw [if_neg (by
      rw [hm]
      show ¬ (s.byLabel.has _ = true)
      rw [(GoMap.has_eq_false_iff _ _).2 h2]
      simp)]
    refine ⟨_, _, rfl, ?_, rfl⟩
    rw [hm, ← hi.selfEq, ← hi.rulesEq]
    simp [Sys.addDialogue, Sys.setIncomplete, Dialogue.new]
  obtain ⟨s1, d, hc, hd, hdd⟩ := hc
  rw [hc]
  dsimp only
  have hinit : d.rules.initial.contains perf = true := by
    rw [hdd]
    exact (newRules_initial rules perf).2 hperf
  have hterm : d.rules.terminal.contains perf = false := by
    rw [hdd]
    cases ht : (newRules rules).terminal.contains perf with
    | false => exact ht
    | true => exact absurd ((newRules_terminal rules perf).1 ht) hnt
  have hws : d.withSender m = m := by
    rw [hm]; simp [Dialogue.withSender, Message.hasSender, ha]
  have hb : d.isBelonging m = true := by
    unfold Dialogue.isBelonging Dialogue.counterParty Dialogue.isMessageBySelf Dialogue.checkLabel
      Dialogue.isSelfInitiated
    rw [hdd, hm]
    simp [Dialogue.new, hab, DialogueLabel.incompleteVersion, unassigned]
  have hv : d.validateNext m = .ok () := by
    unfold Dialogue.validateNext
    have he : d.isEmpty = true := by rw [hdd]; rfl
    rw [he]
    simp only [if_true]
    unfold Dialogue.validateInitial
    rw [if_neg (by rw [hdd, hm]; simp [Dialogue.new]), if_neg (by rw [hm]; simp [startingMessageId])]
    have ht : d.validateMessageTarget m = .ok () := by
      unfold Dialogue.validateMessageTarget
      rw [if_pos (by rw [hm]; rfl), if_pos (by rw [hm]; rfl)]
    rw [ht]
    have : m.performative = perf := by rw [hm]
    simp [Res.bind, this, hinit]
  have hu : d.updateCore m = .ok (d.record m, m, false) := by
    unfold Dialogue.updateCore
    simp only
    rw [hws, hb, hv]
    have : m.performative = perf := by rw [hm]
    simp [Res.bind, this, hterm]
  unfold Sys.updateFound Sys.dialogueUpdate
  simp only
  rw [hd]
  simp only
  rw [hu]
  exact ⟨s.heap.length, rfl⟩

/-- The next message of the opener is recorded. -/
theorem ResponderSide.hear (h : ResponderSide a b na nb keep rules p hs s) (hab : a ≠ b) (ha : a ≠ [])
    (hna : na ≠ []) (hnb : nb ≠ []) {l : Message} (hl : hs.getLast? = some l) {perf : Bytes} (nz : Bytes)
    (hk : perf ∈ rules.terminal → keep = true) (hv : IsValidReply rules l.performative perf)
    (heq : (said a hs).length = (said l.sender hs).length) {m : Message}
    (hm : m = ⟨b, a, ⟨na, nb⟩, signed true ((said a hs).length + 1), l.messageId, perf⟩) :
    ∃ s', s.update m nz = (s', .ok (some p)) ∧ ResponderSide a b na nb keep rules p (hs ++ [m]) s' := by
  obtain ⟨d, hd, v⟩ := h.view
  have hpos : 0 < (said a hs).length := by simpa using v.said_opener_length
  have hroute := h.route hab ha hna hnb hpos (Or.inr rfl) hm nz
  obtain ⟨ts, hts⟩ := (View.found_step h.inv hd v hl perf hk ha ⟨rfl, fun _ => Or.inl rfl⟩ hm).1
    ⟨hv, Or.inr heq⟩
  rw [hts] at hroute
  have hms : m.sender = a := by rw [hm]
  refine ⟨_, hroute, h.inv.update hroute (by simp), h.minv.update hroute (by simp),
    ⟨d.record m, getElem?_set_self_of_some hd, ?_⟩, h.stored, h.mapped, h.free⟩
  exact v.record (Or.inr hms) (fun e => absurd (hms.symm.trans e) hab) (fun _ => by rw [hm]; rfl)

/-- The answer to the last message is recorded. -/
theorem ResponderSide.say (h : ResponderSide a b na nb keep rules p hs s) {l : Message}
    (hl : hs.getLast? = some l) {perf : Bytes} (hk : perf ∈ rules.terminal → keep = true)
    (hv : IsValidReply rules l.performative perf) {m : Message}
    (hm : m = ⟨a, b, ⟨na, nb⟩, signed false ((said b hs).length + 1), l.messageId, perf⟩) :
    ∃ s', s.reply p perf (some l) none = (s', .ok m) ∧
      ResponderSide a b na nb keep rules p (hs ++ [m]) s' := by
  obtain ⟨d, hd, v⟩ := h.view
  have hr : s.reply p perf (some l) none = s.dialogueUpdate p m := by
    have : d.replyMessage perf (some l) none = d.replyMessage perf none none := by
      unfold Dialogue.replyMessage
      rw [v.lastMessage hl]
    unfold Sys.reply
    rw [hd]
    simp only
    rw [this, v.reply hl, hm]
  obtain ⟨ts, hts⟩ := dialogueUpdate_keep hd ((v.own hl perf hm).1 hv)
    (by rw [newRules_terminal, h.inv.keepEq]; exact hk)
  rw [hts] at hr
  have hms : m.sender = b := by rw [hm]
  refine ⟨_, hr, h.inv.reply hr (by simp), h.minv.reply hr (by simp),
    ⟨d.record m, getElem?_set_self_of_some hd, ?_⟩, h.stored, h.mapped, h.free⟩
  exact v.record (Or.inl hms) (fun _ => by rw [hm]) (fun e => absurd (e.symm.trans hms) v.ne.symm)

theorem ResponderSide.refFrame {x n : Bytes} (h : ResponderSide a b na nb keep rules p hs s)
    (hi : SInv b keep rules s') (hm : MInv s') (hx : ¬ (a = x ∧ na = n)) (hf : RefFrame x n s s') :
    ResponderSide a b na nb keep rules p hs s' := by
  obtain ⟨d, hd, hv⟩ := h.view
  have hl : ¬ About x n d.label := by rw [hv.label]; exact hx
  refine ⟨hi, hm, ⟨d, hf.heap p d hd hl, hv⟩, ?_, ?_, ?_⟩
  · rw [hf.byLabel ⟨⟨na, nb⟩, a, a⟩ hx]; exact h.stored
  · rw [hf.incomplete ⟨⟨na, []⟩, a, a⟩ hx]; exact h.mapped
  · intro r; rw [hf.byLabel ⟨⟨na, r⟩, a, b⟩ hx]; exact h.free r

/-- The message that ends the conversation removes the dialogue. -/
theorem ResponderSide.finish (h : ResponderSide a b na nb false rules p hs s) (hab : a ≠ b) (ha : a ≠ [])
    (hna : na ≠ []) (hnb : nb ≠ []) {l : Message} (hl : hs.getLast? = some l) {perf : Bytes} (nz : Bytes)
    (ht : perf ∈ rules.terminal) (hv : IsValidReply rules l.performative perf)
    (heq : (said a hs).length = (said l.sender hs).length) {m : Message}
    (hm : m = ⟨b, a, ⟨na, nb⟩, signed true ((said a hs).length + 1), l.messageId, perf⟩)
    (hnp : (s.update m nz).2 ≠ .panic) :
    ∃ s', s.update m nz = (s', .ok (some p)) ∧ s'.byLabel.get ⟨⟨na, nb⟩, a, a⟩ = none := by
  obtain ⟨d, hd, v⟩ := h.view
  have hpos : 0 < (said a hs).length := by simpa using v.said_opener_length
  have hroute := h.route hab ha hna hnb hpos (Or.inr rfl) hm nz
  rw [hroute] at hnp ⊢
  have ho := ((v.incoming hl perf ha ⟨rfl, fun _ => Or.inl rfl⟩ hm).1 (Or.inr heq)).1 hv
  rcases hf : s.updateFound m false (some p) with ⟨s', r⟩
  rw [hf] at hnp
  rcases Sys.updateFound_cases hf with ⟨e, _⟩ | hp | ⟨q, e, ⟨m', hu, hr⟩ | ⟨e', hu, _⟩⟩
  · simp at e
  · exact absurd hp hnp
  · simp only [Option.some.injEq] at e
    subst e
    refine ⟨s', by rw [hr], ?_⟩
    rcases Sys.dialogueUpdate_cases hu with hp | ⟨_, hp, _⟩ | ⟨d0, d', m1, t, hd0, hc, _, htt⟩
    · simp at hp
    · simp at hp
    rw [hd] at hd0
    simp only [Option.some.injEq] at hd0
    subst hd0
    rw [ho] at hc
    simp only [Res.ok.injEq, Prod.mk.injEq] at hc
    obtain ⟨rfl, rfl, rfl⟩ := hc
    rw [if_pos ((newRules_terminal rules perf).2 ht)] at htt
    have hlab : (d.record m).label = ⟨⟨na, nb⟩, a, a⟩ := by
      rw [Dialogue.record_eq]; exact v.label
    have hreg : 1 ≤ (d.record m).callbacks := by
      rw [Dialogue.record_eq]; exact (h.inv.heap p d hd).registered
    rw [hlab] at htt
    cases hcb : (d.record m).callbacks with
    | zero => omega
    | succ k =>
      rw [hcb] at htt
      unfold Sys.runCallbacks at htt
      rw [Res.bind_eq_ok] at htt
      obtain ⟨s1, e1, e2⟩ := htt
      unfold Sys.terminalCallback at e1
      rw [if_neg (by show ¬ (s.keepTerminal = true); rw [h.inv.keepEq]; simp)] at e1
      have e3 : s1.byLabel.get ⟨⟨na, nb⟩, a, a⟩ = none := by
        rw [(Sys.removeDialogue_ok e1).2.2.2.2.1, GoMap.get_erase]
        simp
      cases hg : s'.byLabel.get ⟨⟨na, nb⟩, a, a⟩ with
      | none => rfl
      | some q =>
        have := (Sys.runCallbacks_shrinks e2).byLabel _ _ hg
        rw [e3] at this; simp at this
  · simp only [Option.some.injEq] at e
    subst e
    exfalso
    rcases Sys.dialogueUpdate_cases hu with hp | ⟨_, hp, _⟩ | ⟨d0, d', m1, t, hd0, hc, hp, _⟩
    · simp at hp
    · unfold Sys.dialogueUpdate at hu
      rw [hd] at hu
      simp only at hu
      rw [ho] at hu
      simp only at hu
      rw [if_pos ((newRules_terminal rules perf).2 ht)] at hu
      split at hu
      · simp at hu
      · rename_i hrc; exact absurd hrc Sys.runCallbacks_not_err
      · simp at hu
    · simp at hp

end

namespace Seller

variable {structOk : Bytes → Bool} {address : Bytes} {s : Sys}

/-- Handling an envelope leaves the dialogues with other agents or other starter references as they were. -/
theorem Inv.refFrame {e : Envelope} {n : Bytes} {m : Message} (h : Inv address s) (hm : Hears structOk e m)
    (hc : (Seller.handle structOk s e n).2 ≠ .crashed) :
    RefFrame m.sender m.reference.starter s (Seller.handle structOk s e n).1 := by
  rw [handle_heard hm] at hc ⊢
  rcases hu : s.update m n with ⟨s1, r⟩
  rw [hu] at hc
  obtain ⟨hr, _, hadd⟩ := h.calm.update h.inv h.xinv (hears_fields hm).2.2.2.2.2.2 hu
  have hf := RefFrame.update h.inv hu hr
  have hi1 := h.inv.update hu hr
  cases r with
  | panic => exact absurd rfl hr
  | err x => exact hf
  | ok p =>
    simp only at hc ⊢
    cases ha : answer m.performative with
    | none => exact hf
    | some pc =>
      obtain ⟨perf, content⟩ := pc
      rw [ha] at hc
      simp only at hc ⊢
      cases p with
      | none => simp at hc
      | some p =>
        obtain ⟨d, hd⟩ := hadd p rfl
        have hdi := hi1.heap p d hd.here
        have hmem : m ∈ d.incoming := List.mem_of_getLast? hd.last
        have hab : About m.sender m.reference.starter d.label :=
          ⟨(hdi.sentByPeer m hmem).1.symm, (hdi.starterRef m (Or.inr hmem)).symm⟩
        simp only at hc ⊢
        rcases hrep : s1.reply p perf (some m) none with ⟨s2, r2⟩
        rw [hrep] at hc
        have hf2 : r2 ≠ .panic → RefFrame m.sender m.reference.starter s1 s2 := by
          intro hr2
          rcases Sys.reply_cases hrep with h' | ⟨_, _, rfl⟩ | ⟨d', m', hd', _, hu'⟩
          · exact absurd h' hr2
          · exact RefFrame.refl _ _ _
          · rw [hd.here] at hd'
            simp only [Option.some.injEq] at hd'
            subst hd'
            exact RefFrame.ownUpdate hd.here hab hu' hr2
        cases r2 with
        | panic => simp at hc
        | err x => exact hf.trans (hf2 (by simp))
        | ok r =>
          simp only at hc ⊢
          cases hmk : makeResponseEnvelope r fipaProtocol content with
          | panic => exact absurd hmk makeResponse_not_panic
          | err x => exact hf.trans (hf2 (by simp))
          | ok env => exact hf.trans (hf2 (by simp))

/-- Envelopes that carry no message of `a` with the starter reference `na` are handled, and none crashes the
agent. -/
inductive Aside (structOk : Bytes → Bool) (a na : Bytes) (s : Sys) : Sys → Prop where
  | nothing : Aside structOk a na s s
  | next {s' : Sys} (e : Envelope) (nonce : Bytes) : Aside structOk a na s s' →
      (∀ m, Hears structOk e m → ¬ (m.sender = a ∧ m.reference.starter = na)) →
      (handle structOk s' e nonce).2 ≠ .crashed → Aside structOk a na s (handle structOk s' e nonce).1

theorem Aside.reached {a na : Bytes} {s' : Sys} (h : Aside structOk a na s s')
    (hr : Reached structOk address s) : Reached structOk address s' := by
  induction h with
  | nothing => exact hr
  | next e n _ _ hc ih => exact .next e n ih hc

theorem Aside.side {a na nb : Bytes} {s' : Sys} {p : Ptr} {hs : List Message}
    (h : Aside structOk a na s s') (hr : Reached structOk address s)
    (hb : ResponderSide a address na nb false rules p hs s) :
    ResponderSide a address na nb false rules p hs s' := by
  induction h with
  | nothing => exact hb
  | @next s1 e n h1 hm hc ih =>
    have hr1 := h1.reached hr
    by_cases hx : ∃ m, Hears structOk e m
    · obtain ⟨m, hx⟩ := hx
      have hi := (Reached.next e n hr1 hc).inv
      exact ih.refFrame hi.inv hi.minv (fun e => hm m hx ⟨e.1.symm, e.2.symm⟩) (hr1.inv.refFrame hx hc)
    · rw [(handle_unheard hx).1]; exact ih

/-- A starter reference the counterparty has not used is free. -/
theorem Aside.unused {a na : Bytes} (h : Aside structOk a na (start address) s) (l : DialogueLabel)
    (hl : l.opponent = a ∧ l.reference.starter = na) :
    s.incomplete.get l = none ∧ s.byLabel.get l = none := by
  induction h with
  | nothing => simp [start, Sys.new]
  | @next s1 e n h1 hm hc ih =>
    by_cases hx : ∃ m, Hears structOk e m
    · obtain ⟨m, hx⟩ := hx
      have hf := (h1.reached Reached.start).inv.refFrame hx hc
      have hl' : ¬ About m.sender m.reference.starter l := by
        rintro ⟨e1, e2⟩
        exact hm m hx ⟨e1.symm.trans hl.1, e2.symm.trans hl.2⟩
      rw [hf.incomplete l hl', hf.byLabel l hl']
      exact ih
    · rw [(handle_unheard hx).1]; exact ih

/-- The envelope in which the agent sends the message. -/
def Carries (env : Envelope) (m : Message) (content : Bytes) : Prop :=
  env.to = m.to ∧ env.sender = m.sender ∧ env.protocolId = b! "fetchai/fipa:1.0.0" ∧
  env.message = encodeFields (AeaMessage.fields (some (.dialogue
    ⟨m.messageId, m.reference.starter, m.reference.responder, m.target, content⟩)))

theorem carries {m : Message} {content : Bytes} (hid : isInt32 m.messageId = true) (ht : isInt32 m.target = true)
    (hu : utf8Valid m.reference.starter = true ∧ utf8Valid m.reference.responder = true) :
    ∃ env, makeResponseEnvelope m fipaProtocol content = .ok env ∧ Carries env m content := by
  have e1 := (toInt32_eq_iff m.messageId).2 hid
  have e2 := (toInt32_eq_iff m.target).2 ht
  unfold makeResponseEnvelope
  dsimp only
  rw [e1, e2, if_pos (by simp [DialogueMessage.utf8, hu])]
  exact ⟨_, rfl, rfl, rfl, rfl, rfl⟩

/-- **C77.** A buyer that opens with an unused reference and keeps to the protocol gets its deal, whatever
other envelopes the agent handles in between: its `cfp` is answered by a proposal, its `accept` of the proposal
by a match, and its `end` completes the interaction and frees the dialogue. -/
theorem C77_deal {a na nb : Bytes} (h : Reached structOk address s) (ha : a ≠ []) (hab : a ≠ address)
    (hna : na ≠ []) (hnb : nb ≠ []) (hu : IsText nb)
    (hf1 : s.incomplete.get ⟨⟨na, []⟩, a, a⟩ = none) (hf2 : s.byLabel.get ⟨⟨na, nb⟩, a, a⟩ = none)
    {e1 : Envelope} (he1 : Hears structOk e1 ⟨address, a, ⟨na, []⟩, 1, 0, b! "cfp"⟩) :
    ∃ s1 env1, handle structOk s e1 nb = (s1, .sent env1) ∧
      Carries env1 ⟨a, address, ⟨na, nb⟩, -1, 1, b! "propose"⟩ proposeContent ∧
      ∀ s2, Aside structOk a na s1 s2 → ∀ (e2 : Envelope) (n2 : Bytes),
        Hears structOk e2 ⟨address, a, ⟨na, nb⟩, 2, -1, b! "accept"⟩ →
        ∃ s3 env2, handle structOk s2 e2 n2 = (s3, .sent env2) ∧
          Carries env2 ⟨a, address, ⟨na, nb⟩, -2, 2, b! "match_accept"⟩ matchContent ∧
          ∀ s4, Aside structOk a na s3 s4 → ∀ (e3 : Envelope) (n3 : Bytes),
            Hears structOk e3 ⟨address, a, ⟨na, nb⟩, 3, -2, b! "end"⟩ →
            ∃ s5, handle structOk s4 e3 n3 = (s5, .complete) ∧
              s5.byLabel.get ⟨⟨na, nb⟩, a, a⟩ = none := by
  have hi := h.inv
  have hun : utf8Valid na = true := (hears_fields he1).2.2.2.2.1
  have hu := (utf8Valid_iff nb).2 hu
  -- the request
  obtain ⟨p, hp⟩ := opening_ok (nb := nb) (perf := b! "cfp") hi.inv hab ha hna (by decide) (by decide) hf1 hf2
  rcases hup : s.update ⟨address, a, ⟨na, []⟩, 1, 0, b! "cfp"⟩ nb with ⟨t1, r1⟩
  rw [hup] at hp
  simp only at hp
  subst hp
  have hcall : s.call (.update ⟨address, a, ⟨na, []⟩, 1, 0, b! "cfp"⟩ nb) = (t1, .accepted (some p) none) := by
    rw [call_update_eq, hup]; rfl
  have hfree : ∀ r, s.byLabel.get ⟨⟨na, r⟩, a, address⟩ = none := by
    intro r
    cases hg : s.byLabel.get ⟨⟨na, r⟩, a, address⟩ with
    | none => rfl
    | some q =>
      obtain ⟨d, hd, hl⟩ := hi.inv.label _ _ hg
      exact absurd (by rw [hl]) (hi.calm q d hd).starter
  have hside := opening_accepted (perf := b! "cfp") (nb := nb) (p := p) (x := none) hi.inv hi.minv hna hfree (keep := false)
    (by intro hh; exact absurd hh (by decide)) (by rw [hcall])
  rw [hcall] at hside
  simp only at hside
  obtain ⟨s1, hrep1, hside1⟩ := hside.say (l := ⟨address, a, ⟨na, []⟩, 1, 0, b! "cfp"⟩) rfl (perf := b! "propose")
    (by intro hh; exact absurd hh (by decide)) (by show IsValidReply rules (b! "cfp") (b! "propose"); exact ⟨_, rfl, by decide⟩)
    (m := ⟨a, address, ⟨na, nb⟩, -1, 1, b! "propose"⟩) (by simp [said, hab, signed])
  obtain ⟨env1, hmk1, hcar1⟩ := carries (m := ⟨a, address, ⟨na, nb⟩, -1, 1, b! "propose"⟩)
    (content := proposeContent) (by show isInt32 (-1) = true; decide) (by show isInt32 1 = true; decide) ⟨hun, hu⟩
  have hh1 : handle structOk s e1 nb = (s1, .sent env1) := by
    rw [handle_heard he1, hup]
    have : answer (b! "cfp") = some (b! "propose", proposeContent) := rfl
    simp only [this, hrep1, hmk1]
  refine ⟨s1, env1, hh1, hcar1, ?_⟩
  intro s2 has2 e2 n2 he2
  have hr1 : Reached structOk address s1 := by
    have := Reached.next e1 nb h (by rw [hh1]; simp)
    rwa [hh1] at this
  have hside2 := has2.side hr1 hside1
  have hr2 := has2.reached hr1
  -- the acceptance
  have l1 : (said a [⟨address, a, ⟨na, []⟩, 1, 0, b! "cfp"⟩, ⟨a, address, ⟨na, nb⟩, -1, 1, b! "propose"⟩]).length = 1 := by
    simp [said, Ne.symm hab]
  have l2 : (said address [⟨address, a, ⟨na, []⟩, 1, 0, b! "cfp"⟩, ⟨a, address, ⟨na, nb⟩, -1, 1, b! "propose"⟩]).length = 1 := by
    simp [said, hab]
  obtain ⟨t2, hup2, hsidet2⟩ := hside2.hear hab ha hna hnb (l := ⟨a, address, ⟨na, nb⟩, -1, 1, b! "propose"⟩) rfl
    (perf := b! "accept") n2 (by intro hh; exact absurd hh (by decide))
    (by show IsValidReply rules (b! "propose") (b! "accept"); exact ⟨_, rfl, by decide⟩)
    (by show (said a _).length = (said address _).length; exact l1.trans l2.symm)
    (m := ⟨address, a, ⟨na, nb⟩, 2, -1, b! "accept"⟩) (by
      show _ = (⟨address, a, ⟨na, nb⟩, signed true ((said a [_, _]).length + 1), -1, b! "accept"⟩ : Message)
      rw [l1]; rfl)
  obtain ⟨s3, hrep2, hside3⟩ := hsidet2.say (l := ⟨address, a, ⟨na, nb⟩, 2, -1, b! "accept"⟩) rfl
    (perf := b! "match_accept") (by intro hh; exact absurd hh (by decide))
    (by show IsValidReply rules (b! "accept") (b! "match_accept"); exact ⟨_, rfl, by decide⟩)
    (m := ⟨a, address, ⟨na, nb⟩, -2, 2, b! "match_accept"⟩) (by simp [said, hab, signed])
  obtain ⟨env2, hmk2, hcar2⟩ := carries (m := ⟨a, address, ⟨na, nb⟩, -2, 2, b! "match_accept"⟩)
    (content := matchContent) (by show isInt32 (-2) = true; decide) (by show isInt32 2 = true; decide) ⟨hun, hu⟩
  have hh2 : handle structOk s2 e2 n2 = (s3, .sent env2) := by
    rw [handle_heard he2, hup2]
    have : answer (b! "accept") = some (b! "match_accept", matchContent) := rfl
    simp only [this, hrep2, hmk2]
  refine ⟨s3, env2, hh2, hcar2, ?_⟩
  intro s4 has4 e3 n3 he3
  have hr3 : Reached structOk address s3 := by
    have := Reached.next e2 n2 hr2 (by rw [hh2]; simp)
    rwa [hh2] at this
  have hside4 := has4.side hr3 hside3
  have hr4 := has4.reached hr3
  have hnp : (s4.update ⟨address, a, ⟨na, nb⟩, 3, -2, b! "end"⟩ n3).2 ≠ .panic := by
    rcases hup3 : s4.update ⟨address, a, ⟨na, nb⟩, 3, -2, b! "end"⟩ n3 with ⟨t, r⟩
    exact (hr4.inv.calm.update hr4.inv.inv hr4.inv.xinv (hears_fields he3).2.2.2.2.2.2 hup3).1
  obtain ⟨s5, hup3, hgone⟩ := hside4.finish hab ha hna hnb (l := ⟨a, address, ⟨na, nb⟩, -2, 2, b! "match_accept"⟩) rfl
    (perf := b! "end") n3 (by decide)
    (by show IsValidReply rules (b! "match_accept") (b! "end"); exact ⟨_, rfl, by decide⟩)
    (by simp [said, hab, Ne.symm hab])
    (m := ⟨address, a, ⟨na, nb⟩, 3, -2, b! "end"⟩) (by simp [said, Ne.symm hab, signed]) hnp
  refine ⟨s5, ?_, hgone⟩
  rw [handle_heard he3, hup3]
  rfl

/-- The precondition of `C77_deal` holds for every reference the buyer has not used before. -/
theorem C77_unused {a na : Bytes} (h : Aside structOk a na (start address) s) (nb : Bytes) :
    Reached structOk address s ∧ s.incomplete.get ⟨⟨na, []⟩, a, a⟩ = none ∧
      s.byLabel.get ⟨⟨na, nb⟩, a, a⟩ = none :=
  ⟨h.reached .start, (h.unused _ ⟨rfl, rfl⟩).1, (h.unused _ ⟨rfl, rfl⟩).2⟩

/-! ### Concrete conversations -/

namespace Shop

/-- An envelope of `buyer` for `seller` whose content is an empty member of the given number. -/
def env (buyer : Bytes) (ref : DialogueReference) (id target : Int) (num : UInt8) : Envelope where
  to := b! "seller"
  sender := buyer
  protocolId := fipaProtocol
  message := encodeFields (AeaMessage.fields (some (.dialogue
    ⟨id, ref.starter, ref.responder, target, emptyMember num⟩)))
  uri := []

/-- The agent handles envelopes; the outcomes, without the envelopes sent. -/
def outcomes (s : Sys) : List Envelope → List Outcome
  | [] => []
  | e :: es =>
    match handle (fun _ => true) s e (b! "r") with
    | (s', .sent x) => .sent { x with message := [] } :: outcomes s' es
    | (s', o) => o :: outcomes s' es

/-- An envelope sent to the buyer, without its message. -/
def reply (buyer : Bytes) : Outcome := .sent ⟨buyer, b! "seller", fipaProtocol, [], []⟩

def ref0 : DialogueReference := ⟨b! "n", []⟩
def ref1 : DialogueReference := ⟨b! "n", b! "r"⟩

end Shop

open Shop

/-- Non-vacuity of C77: two buyers in turn, with a stranger's `end` in between. -/
example : outcomes (start (b! "seller"))
    [env (b! "ann") ref0 1 0 7, env (b! "bob") ref0 1 0 7, env (b! "eve") ⟨[], b! "x"⟩ 1 0 9,
     env (b! "ann") ref1 2 (-1) 5, env (b! "bob") ref1 2 (-1) 5,
     env (b! "ann") ref1 3 (-2) 9, env (b! "bob") ref1 3 (-2) 9] =
    [reply (b! "ann"), reply (b! "bob"), .complete, reply (b! "ann"), reply (b! "bob"), .complete, .complete] := by
  decide +kernel

/-- **C77, after a counter-proposal: false.** The buyer proposes in turn, which the rules allow; the agent does
not support it but records it. The buyer then accepts its own proposal, gets a match, and cannot end: the `end`
with the next id of the buyer is refused, because the agent counts ids of both sides together. -/
theorem C77_counterexample : outcomes (start (b! "seller"))
    [env (b! "ann") ref0 1 0 7, env (b! "ann") ref1 2 (-1) 13, env (b! "ann") ref1 3 2 5,
     env (b! "ann") ref1 4 (-2) 9] =
    [reply (b! "ann"), .unsupported, reply (b! "ann"), .refused .wrongMessageId] := by
  decide +kernel

/-- **C76, one deal for one acceptance: false.** The same proposal can be accepted again and again; each time
the agent confirms. -/
theorem C76_repeated_counterexample : outcomes (start (b! "seller"))
    [env (b! "ann") ref0 1 0 7, env (b! "ann") ref1 2 (-1) 5, env (b! "ann") ref1 3 (-1) 5,
     env (b! "ann") ref1 4 (-1) 5] =
    [reply (b! "ann"), reply (b! "ann"), reply (b! "ann"), reply (b! "ann")] := by
  decide +kernel

/-- **C76, the protocol's performatives: false.** `accept_w_inform` is an allowed reply to a proposal, but what
arrives is its JSON name, which is not. -/
theorem C76_name_counterexample : outcomes (start (b! "seller"))
    [env (b! "ann") ref0 1 0 7, env (b! "ann") ref1 2 (-1) 6] =
    [reply (b! "ann"), .refused .badReplyPerformative] ∧
    IsValidReply rules (b! "propose") (b! "accept_w_inform") :=
  ⟨by decide +kernel, ⟨_, rfl, by decide⟩⟩

end Seller

end Verif
