import Verif.Props.Numbering

/-!
# Property C16

Two agents: `a` opens a dialogue with `b`, `b` replies, the reply reaches the dialogue of `a`.
-/

namespace Verif

theorem call_update_eq (s : Sys) (m : Message) (n : Bytes) :
    s.call (.update m n) = ((s.update m n).1, (s.update m n).2.report fun p => .accepted p none) := rfl

theorem call_update_accepted {s : Sys} {m : Message} {n : Bytes} {p : Ptr} {x : Option Message}
    (h : (s.call (.update m n)).2 = .accepted (some p) x) :
    s.update m n = ((s.call (.update m n)).1, .ok (some p)) := by
  rw [call_update_eq] at h ⊢
  simp only at h ⊢
  cases hr : (s.update m n).2 with
  | ok q => rw [hr] at h; simp [Res.report] at h; rw [← h.1, ← hr]
  | err e => rw [hr] at h; simp [Res.report] at h
  | panic => rw [hr] at h; simp [Res.report] at h

theorem call_reply_accepted {s : Sys} {p : Ptr} {perf : Bytes} {tm : Option Message}
    {tp : Option Int} {q : Option Ptr} {m : Message}
    (h : (s.call (.reply p perf tm tp)).2 = .accepted q (some m)) :
    s.reply p perf tm tp = ((s.call (.reply p perf tm tp)).1, .ok m) := by
  have e : s.call (.reply p perf tm tp) = ((s.reply p perf tm tp).1,
    (s.reply p perf tm tp).2.report fun m => .accepted (some p) (some m)) := rfl
  rw [e] at h ⊢
  simp only at h ⊢
  cases hr : (s.reply p perf tm tp).2 with
  | ok q => rw [hr] at h; simp [Res.report] at h; rw [← h.2, ← hr]
  | err e => rw [hr] at h; simp [Res.report] at h
  | panic => rw [hr] at h; simp [Res.report] at h

theorem searchIndex_lt (heap : List Dialogue) (l : DialogueLabel) (arr : List Ptr) (h : arr ≠ []) :
    Sys.searchIndex heap l arr < arr.length := by
  induction arr with
  | nil => exact absurd rfl h
  | cons a arr ih =>
    cases arr with
    | nil => simp [Sys.searchIndex]
    | cons b rest =>
      unfold Sys.searchIndex
      split
      · simp
      · have := ih (by simp)
        simp only [List.length_cons] at this ⊢
        omega

/-- Removing a stored dialogue does not panic if its counterparty's list is not empty. -/
theorem removeDialogue_total {s : Sys} {l : DialogueLabel} (h : s.addressList l.opponent ≠ []) :
    ∃ s', s.removeDialogue l = .ok s' := by
  unfold Sys.removeDialogue
  simp only
  split
  · unfold Sys.removeFromArray
    simp only
    have := searchIndex_lt s.heap l _ h
    rw [if_neg (by
      show ¬ (s.addressList l.opponent).length <
        Sys.searchIndex s.heap l (s.addressList l.opponent) + 1
      omega)]
    exact ⟨_, rfl⟩
  · exact ⟨_, rfl⟩

/-- The state of the opener after `Create`. -/
theorem create_accepted {a b perf n : Bytes} {keep : Bool} {rules : RulesDecl} {s : Sys} {p : Ptr}
    {x : Option Message} (hi : SInv a keep rules s)
    (hacc : (s.call (.create b perf n)).2 = .accepted (some p) x)
    (hkeep : perf ∈ rules.terminal → keep = true) :
    let s' := (s.call (.create b perf n)).1
    let m : Message := ⟨b, a, ⟨n, []⟩, 1, 0, perf⟩
    let l : DialogueLabel := ⟨⟨n, []⟩, b, a⟩
    n ≠ [] ∧ x = some m ∧ s'.byLabel.get l = some p ∧ s'.incomplete.get l = none ∧
      s'.addressList b ≠ [] ∧
      ∃ d, s'.heap[p]? = some d ∧ d.label = l ∧ d.outgoing = [m] ∧ d.incoming = [] ∧
        d.lastMessageId = 1 ∧ d.selfAddress = a ∧ d.rules = newRules rules := by
  intro s' m l
  rcases hu : s.createNew b perf n with ⟨s2, r⟩
  have e1 : s.call (.create b perf n) = (s2, r.report fun (m, p) => .accepted p (some m)) := by
    simp [Sys.call, hu]
  have hs' : s' = s2 := by simp only [s', e1]
  rw [e1] at hacc
  simp only at hacc
  obtain ⟨r0, hd, hr0⟩ := Sys.createNew_cases hu
  have hfm : s.freshMessage b perf n = m := by
    unfold Sys.freshMessage; rw [hi.selfEq]
  rw [hfm] at hd hr0
  have hr : r0 = .ok (some p) ∧ x = some m := by
    subst hr0
    cases r0 with
    | ok q => simp only [Res.bind, Res.report, Report.accepted.injEq] at hacc; rw [hacc.1]; exact ⟨rfl, hacc.2.symm⟩
    | err e => simp [Res.bind, Res.report] at hacc
    | panic => simp [Res.bind, Res.report] at hacc
  obtain ⟨hr, hx⟩ := hr
  subst hr
  rcases Sys.createDialogue_cases hd with ⟨e, he, _⟩ | hp | ⟨s1, q, hc1, ⟨m', hdu, he⟩ | ⟨e, _, he⟩⟩
  · simp at he
  · simp at hp
  · simp only [Res.ok.injEq, Option.some.injEq] at he
    subst he
    have hi1 := hi.createSelfInitiated hc1
    rcases Sys.createSelfInitiated_cases hc1 with ⟨he, _⟩ | ⟨hn, _, hcr⟩
    · simp at he
    rw [hi.selfEq] at hcr
    rcases Sys.create_cases hcr with ⟨he, _⟩ | ⟨he, _⟩ | ⟨hp, hinc, hpres, hs1⟩
    · simp at he
    · simp at he
    obtain ⟨hp, hheap, hbl⟩ := Sys.create_heap hcr
    have hbl1 : s1.byLabel.get l = some p := by rw [hbl]; exact GoMap.get_set_self _ _ _
    have hinc1 : s1.incomplete.get l = none := by
      rw [hs1]
      rw [GoMap.has_eq_false_iff] at hinc
      exact hinc
    have hadr1 : s1.addressList b ≠ [] := by
      rw [hs1]
      have := Sys.addressList_set s b b (s.addressList b ++ [s.heap.length]) (({ s.mapped ⟨m.reference, b, a⟩ none with
        heap := (s.mapped ⟨m.reference, b, a⟩ none).heap ++ [Dialogue.new ((none : Option DialogueLabel).getD ⟨m.reference, b, a⟩)
          (s.mapped ⟨m.reference, b, a⟩ none).self (s.mapped ⟨m.reference, b, a⟩ none).rules] } : Sys).addDialogue
        (s.mapped ⟨m.reference, b, a⟩ none).heap.length (Dialogue.new ((none : Option DialogueLabel).getD ⟨m.reference, b, a⟩)
          (s.mapped ⟨m.reference, b, a⟩ none).self (s.mapped ⟨m.reference, b, a⟩ none).rules)) rfl
      rw [this]
      simp
    have hd1 : s1.heap[p]? = some { Dialogue.new l a rules with callbacks := 1 } := by
      rw [hheap, hp, List.getElem?_append_right (Nat.le_refl _), Nat.sub_self, hi.selfEq, hi.rulesEq]
      rfl
    rcases Sys.dialogueUpdate_cases hdu with hp' | ⟨_, hp', _⟩ | ⟨d, d', m1, t, hdd, hc, hr, ht⟩
    · simp at hp'
    · simp at hp'
    rw [hd1] at hdd
    simp only [Option.some.injEq] at hdd
    obtain ⟨hm1, _, _, htt, hdrec⟩ := Dialogue.updateCore_ok hc
    have hws : d.withSender m = m := by
      rw [← hdd]
      exact withSender_of_offered (me := a) rfl (Offered.own rfl rfl (fun _ => rfl)
        (by intro he; simp [Dialogue.new, Dialogue.isEmpty] at he))
    rw [hws] at hm1
    subst hm1
    rw [← hdd] at hdrec htt
    rw [Dialogue.record_eq] at hdrec
    have hterm : t = true → keep = true := by
      intro h
      rw [h] at htt
      exact hkeep ((newRules_terminal rules perf).1 htt.symm)
    have hout : s'.byLabel = s1.byLabel ∧ s'.incomplete = s1.incomplete ∧
        s'.byAddress = s1.byAddress ∧ s'.heap = s1.heap.set p d' := by
      rw [hs']
      split at ht
      · rename_i htr
        have hk := hterm htr
        have : ∀ (k : Nat) (u u' : Sys) (l : DialogueLabel), u.keepTerminal = true →
            u.runCallbacks l k = .ok u' → u'.byLabel = u.byLabel ∧ u'.incomplete = u.incomplete ∧
              u'.byAddress = u.byAddress ∧ u'.heap = u.heap := by
          intro k
          induction k with
          | zero => intro u u' l _ h; simp only [Sys.runCallbacks, Res.ok.injEq] at h; subst h; exact ⟨rfl, rfl, rfl, rfl⟩
          | succ k ih =>
            intro u u' l hku h
            unfold Sys.runCallbacks at h
            rw [Res.bind_eq_ok] at h
            obtain ⟨u1, h1, h2⟩ := h
            unfold Sys.terminalCallback at h1
            rw [if_pos hku] at h1
            simp only [Res.ok.injEq] at h1
            subst h1
            exact ih { u with terminal := u.terminal.add l } u' l hku h2
        exact this _ _ _ _ (by show s1.keepTerminal = true; rw [hi1.keepEq]; exact hk) ht
      · rw [ht]; exact ⟨rfl, rfl, rfl, rfl⟩
    obtain ⟨o1, o2, o3, o4⟩ := hout
    refine ⟨hn, hx, by rw [o1]; exact hbl1, by rw [o2]; exact hinc1, ?_, d', ?_, ?_⟩
    · unfold Sys.addressList; rw [o3]; exact hadr1
    · rw [o4]; exact getElem?_set_self_of_some hd1
    · rw [hdrec]
      simp [Dialogue.new, m]
  · simp at he

/-- The state of the responder after an opening message and a plain reply. -/
theorem opening_reply {a b perf perf2 n nb : Bytes} {keep : Bool} {rules : RulesDecl} {s : Sys}
    {p : Ptr} {x : Option Message} {q : Option Ptr} {m1 : Message} (hi : SInv b keep rules s)
    (hn : n ≠ [])
    (hacc : (s.call (.update ⟨b, a, ⟨n, []⟩, 1, 0, perf⟩ nb)).2 = .accepted (some p) x)
    (hrep : ((s.call (.update ⟨b, a, ⟨n, []⟩, 1, 0, perf⟩ nb)).1.call
      (.reply p perf2 none none)).2 = .accepted q (some m1)) :
    m1 = ⟨a, b, ⟨n, nb⟩, -1, 1, perf2⟩ ∧
    ∃ d, ((s.call (.update ⟨b, a, ⟨n, []⟩, 1, 0, perf⟩ nb)).1.call
      (.reply p perf2 none none)).1.heap[p]? = some d ∧ d.label = ⟨⟨n, nb⟩, a, a⟩ := by
  have hu := call_update_accepted hacc
  have hr := call_reply_accepted hrep
  have hi1 : SInv b keep rules (s.call (.update ⟨b, a, ⟨n, []⟩, 1, 0, perf⟩ nb)).1 :=
    hi.call _ (by rw [hacc]; simp)
  generalize (s.call (.update ⟨b, a, ⟨n, []⟩, 1, 0, perf⟩ nb)).1 = s1 at hu hr hi1 ⊢
  generalize (s1.call (.reply p perf2 none none)).1 = s2 at hr ⊢
  -- the dialogue after the opening message
  have hd1 : ∃ d, s1.heap[p]? = some d ∧ d.label = ⟨⟨n, nb⟩, a, a⟩ ∧ d.outgoing = [] ∧
      d.lastMessageId = 1 ∧ d.lastMessage = some ⟨b, a, ⟨n, []⟩, 1, 0, perf⟩ := by
    rcases Sys.update_cases hu with ⟨_, hp, _⟩ | ⟨h1, h2, h3, hcase⟩
    · simp at hp
    rw [hi.selfEq] at h2 h3
    rcases hcase with ⟨hh, _⟩ | ⟨_, _, _, ⟨s0, p0, hc, hf⟩ | ⟨e, _, hp⟩ | ⟨_, hp⟩⟩ |
      ⟨_, _, hh, _⟩ | ⟨hh, _⟩
    · exact absurd hh hn
    · rcases Sys.createOpponentInitiated_cases hc with ⟨he, _⟩ | ⟨_, _, hcr⟩
      · simp at he
      obtain ⟨hp, hheap, _⟩ := Sys.create_heap hcr
      rcases Sys.updateFound_cases hf with ⟨hp', _⟩ | hp' | ⟨q', hq, ⟨m', hdu, he⟩ | ⟨e, _, hp', _⟩⟩
      · simp at hp'
      · simp at hp'
      · simp only [Option.some.injEq] at hq
        subst hq
        simp only [Res.ok.injEq, Option.some.injEq] at he
        subst he
        obtain ⟨d, d', t, hd, hcc, hh⟩ := Sys.dialogueUpdate_ok hdu
        have hd0 : s0.heap[p]? = some { Dialogue.new ⟨⟨n, nb⟩, a, a⟩ b rules with callbacks := 1 } := by
          rw [hheap, hp, List.getElem?_append_right (Nat.le_refl _), Nat.sub_self, hi.selfEq,
            hi.rulesEq]
          rfl
        refine ⟨d', by rw [hh]; exact getElem?_set_self_of_some hd, ?_⟩
        obtain ⟨hm', _, _, _, hrec⟩ := Dialogue.updateCore_ok hcc
        rw [hd0] at hd
        simp only [Option.some.injEq] at hd
        have hws : d.withSender ⟨b, a, ⟨n, []⟩, 1, 0, perf⟩ = ⟨b, a, ⟨n, []⟩, 1, 0, perf⟩ := by
          simp only at h1
          simp [Dialogue.withSender, Message.hasSender, h1]
        rw [hm', hws, ← hd, Dialogue.record_eq] at hrec
        simp only at h2
        rw [hrec]
        simp [Dialogue.new, h2, Dialogue.lastMessage, Dialogue.lastIncoming]
      · simp at hp'
    · simp at hp
    · simp at hp
    · exact absurd rfl hh
    · rcases hh with ⟨_, hh⟩ | ⟨hh, _⟩ | ⟨_, _, hh⟩
      · exact absurd rfl hh
      · exact absurd hh hn
      · simp at hh
  obtain ⟨d, hd, hl, hout, hlid, hlm⟩ := hd1
  rcases Sys.reply_cases hr with hp | ⟨_, hp, _⟩ | ⟨d2, m0, hd2, hm0, hdu⟩
  · simp at hp
  · simp at hp
  rw [hd] at hd2
  simp only [Option.some.injEq] at hd2
  subst hd2
  have hdi := hi1.heap p d hd
  have hm0' : m0 = ⟨a, b, ⟨n, nb⟩, -1, 1, perf2⟩ := by
    obtain ⟨_, _, e1, e2, e3, e4, e5, _⟩ := Dialogue.replyMessage_ok hm0
    have e6 : m0.target = 1 := by
      unfold Dialogue.replyMessage at hm0
      rw [hlm] at hm0
      simp only [Res.bind] at hm0
      cases hh : d.hasMessageId 1 with
      | ok bb =>
        rw [hh] at hm0
        cases bb with
        | true => simp only [if_true, Res.ok.injEq] at hm0; rw [← hm0]
        | false => simp at hm0
      | err e => rw [hh] at hm0; simp at hm0
      | panic => rw [hh] at hm0; simp at hm0
    have e7 : d.nextOutgoingId = -1 := by
      unfold Dialogue.nextOutgoingId Dialogue.lastOutgoing Dialogue.isSelfInitiated
      rw [hout, hl]
      simp [startingMessageId]
    rw [hl] at e2 e3
    rw [hdi.selfAddr] at e1
    rw [e7] at e4
    cases m0
    simp only at e1 e2 e3 e4 e5 e6
    subst e1 e2 e3 e4 e5 e6
    rfl
  obtain ⟨d3, d', t, hd3, hc3, hh3⟩ := Sys.dialogueUpdate_ok hdu
  rw [hd] at hd3
  simp only [Option.some.injEq] at hd3
  subst hd3
  obtain ⟨hm1, _, _, _, hrec⟩ := Dialogue.updateCore_ok hc3
  have hws : d.withSender m0 = m0 := by
    unfold Dialogue.withSender
    split
    · rfl
    · rw [hm0', hdi.selfAddr]
  constructor
  · rw [hm1, hws, hm0']
  · refine ⟨d', by rw [hh3]; exact getElem?_set_self_of_some hd, ?_⟩
    rw [hrec, Dialogue.record_eq]
    exact hl

/-- **C16.** Agent `a` opens a dialogue with agent `b`; `b` accepts the opening message and replies
to it; `a` processes the reply. If the rules of `a` allow the reply, it is accepted into the
dialogue `a` opened, and afterwards both dialogues carry the same complete reference, made
of the two random values. Both agents may have done anything before. (If the opening
performative is terminal for `a`, `a` must keep terminal dialogues, otherwise it has dropped
the dialogue.) -/
theorem C16_reply_reaches_dialogue {a b perf perf2 na nb nz : Bytes} {keepA keepB : Bool}
    {rulesA rulesB : RulesDecl} {sA sB : Sys}
    (hA : Reachable a keepA rulesA sA) (hB : Reachable b keepB rulesB sB)
    (hab : a ≠ b) (hb : b ≠ []) (hnb : nb ≠ [])
    (hkeep : perf ∈ rulesA.terminal → keepA = true) (hrep : IsValidReply rulesA perf perf2)
    {pA pB : Ptr} {m0 m1 : Message} {x : Option Message} {q : Option Ptr}
    -- a opens, b accepts, b replies
    (h1 : (sA.call (.create b perf na)).2 = .accepted (some pA) (some m0))
    (h2 : (sB.call (.update m0 nb)).2 = .accepted (some pB) x)
    (h3 : ((sB.call (.update m0 nb)).1.call (.reply pB perf2 none none)).2 = .accepted q (some m1)) :
    ∃ dA dB,
      (((sA.call (.create b perf na)).1.call (.update m1 nz)).2 = .accepted (some pA) none) ∧
      (((sA.call (.create b perf na)).1.call (.update m1 nz)).1.heap[pA]? = some dA) ∧
      ((((sB.call (.update m0 nb)).1.call (.reply pB perf2 none none)).1).heap[pB]? = some dB) ∧
      dA.label.reference = ⟨na, nb⟩ ∧ dB.label.reference = ⟨na, nb⟩ ∧
      dA.incoming = [m1] ∧ dA.outgoing = [m0] := by
  obtain ⟨hna, hm0, c1, c2, c3, d, c4, c5, c6, c7, c8, c9, c10⟩ := create_accepted hA.inv h1 hkeep
  simp only [Option.some.injEq] at hm0
  subst hm0
  obtain ⟨hm1, dB, hdB, hlB⟩ := opening_reply hB.inv hna h2 h3
  have hiA : SInv a keepA rulesA (sA.call (.create b perf na)).1 := hA.inv.call _ (by rw [h1]; simp)
  have hmA : MInv (sA.call (.create b perf na)).1 := hA.minv.call _ (by rw [h1]; simp)
  generalize (sA.call (.create b perf na)).1 = s1 at *
  -- completing the reference
  obtain ⟨s2, hs2⟩ := removeDialogue_total (s := s1) (l := ⟨⟨na, []⟩, b, a⟩) c3
  obtain ⟨r1, r2, r3, r4, r5, r6, r7, r8⟩ := Sys.removeDialogue_ok hs2
  have hd2 : s2.heap[pA]? = some d := by rw [r4]; exact c4
  obtain ⟨d1, hd1eq⟩ : ∃ d1, d1 = { d with label := ⟨⟨na, nb⟩, b, a⟩, callbacks := d.callbacks + 1 } :=
    ⟨_, rfl⟩
  obtain ⟨s3, hs3⟩ : ∃ s3, s3 = (s2.addDialogue pA { d with label := ⟨⟨na, nb⟩, b, a⟩ }).setIncomplete
      ⟨⟨na, []⟩, b, a⟩ ⟨⟨na, nb⟩, b, a⟩ := ⟨_, rfl⟩
  have hcomp : s1.completeReference m1 = (s3, .ok ()) := by
    unfold Sys.completeReference
    rw [hm1]
    simp only
    rw [if_neg (by simp [hna, hnb])]
    have hp1 : s1.isPresent ⟨⟨na, []⟩, b, s1.self⟩ = true := by
      unfold Sys.isPresent; rw [hiA.selfEq, GoMap.has_iff]; exact ⟨pA, c1⟩
    have hp2 : s1.isInIncomplete ⟨⟨na, []⟩, b, s1.self⟩ = false := by
      unfold Sys.isInIncomplete; rw [hiA.selfEq, GoMap.has_eq_false_iff]; exact c2
    have hp3 : s1.getByLabel ⟨⟨na, []⟩, b, s1.self⟩ = some pA := by
      unfold Sys.getByLabel; rw [hiA.selfEq]; exact c1
    have hs2' : s1.removeDialogue ⟨⟨na, []⟩, b, s1.self⟩ = .ok s2 := by rw [hiA.selfEq]; exact hs2
    rw [hp1, hp2]
    simp only [Bool.not_false, Bool.and_self, if_true]
    rw [hp3]
    simp only
    rw [hs2']
    simp only
    rw [hd2]
    simp only
    have hul : d.updateLabel ⟨⟨na, nb⟩, b, s1.self⟩ = .ok { d with label := ⟨⟨na, nb⟩, b, s1.self⟩ } := by
      unfold Dialogue.updateLabel
      rw [if_neg (by simp [hnb])]
    rw [hul]
    simp only
    rw [hs3, hiA.selfEq]
  have hi3 : SInv a keepA rulesA s3 := hiA.completeReference hcomp (by simp)
  have hm3 : MInv s3 := hmA.completeReference hcomp (by simp)
  have hd3 : s3.heap[pA]? = some d1 := by
    rw [hs3, hd1eq]
    exact getElem?_set_self_of_some hd2
  have hb3 : s3.byLabel.get ⟨⟨na, nb⟩, b, a⟩ = some pA := by
    rw [hs3]
    exact GoMap.get_set_self _ _ _
  have hself3 : s3.self = a := hi3.selfEq
  have hget : s3.getDialogue m1 = some pA := by
    unfold Sys.getDialogue Sys.counterparty
    rw [hm1, hself3]
    simp only
    have hbe : (b == a) = false := by simpa using fun h => hab h.symm
    rw [hbe]
    simp only [Bool.false_eq_true, if_false]
    have hll : s3.latestLabel ⟨⟨na, nb⟩, b, a⟩ = ⟨⟨na, nb⟩, b, a⟩ := by
      unfold Sys.latestLabel
      cases hg : s3.incomplete.get ⟨⟨na, nb⟩, b, a⟩ with
      | none => rfl
      | some l' => exact absurd (hm3.key _ _ hg).1 hnb
    rw [hll]
    have : s3.getByLabel ⟨⟨na, nb⟩, b, a⟩ = some pA := hb3
    rw [this]
  -- the dialogue accepts the reply
  have hvalid : d1.updateCore m1 = .ok (d1.record m1, m1, d1.rules.terminal.contains perf2) := by
    have hsi : d1.isSelfInitiated = true := by
      rw [hd1eq]; simp [Dialogue.isSelfInitiated, hab]
    have hsa : d1.selfAddress = a := by rw [hd1eq]; exact c9
    have hws : d1.withSender m1 = m1 := by
      rw [hm1]; simp [Dialogue.withSender, Message.hasSender, hb]
    have hbel : d1.isBelonging m1 = true := by
      have hba : ¬ b = a := fun h => hab h.symm
      unfold Dialogue.isBelonging
      rw [hsi, hm1]
      simp [Dialogue.counterParty, Dialogue.isMessageBySelf, c9, hba, Dialogue.checkLabel, hd1eq,
        DialogueLabel.incompleteVersion]
    have hlast : d1.lastIncoming = none := by
      rw [hd1eq]; simp [Dialogue.lastIncoming, c7]
    have hlo : d1.lastOutgoing = some ⟨b, a, ⟨na, []⟩, 1, 0, perf⟩ := by
      rw [hd1eq]; simp [Dialogue.lastOutgoing, c6]
    have hne : d1.isEmpty = false := by rw [hd1eq]; simp [Dialogue.isEmpty, c6]
    have hgm : d1.getMessageById 1 = .ok (some ⟨b, a, ⟨na, []⟩, 1, 0, perf⟩) := by
      unfold Dialogue.getMessageById
      rw [hne, hsi]
      simp [hd1eq, c6, absId, Dialogue.goIndex, Res.bind]
    have hvt : d1.validateMessageTarget m1 = .ok () := by
      unfold Dialogue.validateMessageTarget
      rw [hlast, hlo, hm1]
      simp only [startingMessageId, startingTarget]
      rw [if_neg (by omega), if_neg (by omega)]
      simp only [List.nil_append, maxIds, List.foldl_nil, Res.bind]
      rw [hgm]
      simp only
      have hr1 : d1.rules = newRules rulesA := by rw [hd1eq]; exact c10
      rw [hr1]
      have := (newRules_valid rulesA perf perf2).2 hrep
      rw [if_neg (Int.lt_irrefl _)]
      split at this
      · rename_i hg
        rw [hg]
        simp only [this, if_true]
      · simp at this
    have hvn : d1.validateNext m1 = .ok () := by
      unfold Dialogue.validateNext
      rw [hne]
      simp only [Bool.false_eq_true, if_false]
      unfold Dialogue.validateNonInitial
      rw [if_neg (by rw [hd1eq, hm1]; simp)]
      have : d1.validateMessageId m1 = .ok () := by
        unfold Dialogue.validateMessageId Dialogue.nextIncomingId
        rw [hlast, hsa, hsi, hm1]
        simp [startingMessageId]
      rw [this]
      exact hvt
    unfold Dialogue.updateCore
    simp only
    rw [hws, hbel]
    simp only [not_true, if_false]
    rw [hvn]
    simp only [Res.bind]
    rw [hm1]
  have hnotnew : s1.update m1 nz = s3.updateFound m1 false (some pA) := by
    unfold Sys.update
    have hba : ¬ b = a := fun h => hab h.symm
    rw [hcomp]
    simp only
    rw [hget, hm1]
    simp [Message.hasSender, Message.hasTo, hb, hiA.selfEq, hba, hna, hnb, unassigned,
      startingMessageId]
  -- the terminal callbacks cannot fail: the list of the counterparty is not empty
  have hlist3 : s3.addressList b ≠ [] := by
    have := Sys.addressList_set s2 b b (s2.addressList b ++ [pA]) s3 (by rw [hs3]; rfl)
    rw [this]
    simp
  have hrun : ∀ (k : Nat) (u : Sys) (l : DialogueLabel),
      (u.addressList l.opponent ≠ [] ∨ u.byLabel.get l = none) →
      ∃ u', u.runCallbacks l k = .ok u' ∧ u'.heap = u.heap := by
    intro k
    induction k with
    | zero => intro u l _; exact ⟨u, rfl, rfl⟩
    | succ k ih =>
      intro u l hl
      unfold Sys.runCallbacks
      unfold Sys.terminalCallback
      split
      · obtain ⟨u', hu', hh⟩ := ih { u with terminal := u.terminal.add l } l hl
        exact ⟨u', hu', hh⟩
      · obtain ⟨u1, hu1⟩ : ∃ u1, u.removeDialogue l = .ok u1 := by
          rcases hl with hl | hl
          · exact removeDialogue_total hl
          · unfold Sys.removeDialogue
            have : u.byLabel.has l = false := by rw [GoMap.has_eq_false_iff]; exact hl
            simp only [this]
            exact ⟨_, rfl⟩
        rw [hu1]
        simp only [Res.bind]
        obtain ⟨u', hu', hh⟩ := ih u1 l (Or.inr (by
          rw [(Sys.removeDialogue_ok hu1).2.2.2.2.1]; simp))
        exact ⟨u', hu', by rw [hh, (Sys.removeDialogue_ok hu1).2.2.2.1]⟩
  have hlab : (d1.record m1).label = ⟨⟨na, nb⟩, b, a⟩ := by
    rw [Dialogue.record_eq, hd1eq]
  have hdu : ∃ s4, s3.dialogueUpdate pA m1 = (s4, .ok m1) ∧
      s4.heap = s3.heap.set pA (d1.record m1) := by
    unfold Sys.dialogueUpdate
    rw [hd3]
    simp only
    rw [hvalid]
    simp only
    split
    · obtain ⟨u', hu', hh⟩ := hrun (d1.record m1).callbacks (s3.setHeap pA (d1.record m1))
        (d1.record m1).label (Or.inl (by rw [hlab]; exact hlist3))
      rw [hu']
      exact ⟨u', rfl, by rw [hh]; rfl⟩
    · exact ⟨_, rfl, rfl⟩
  obtain ⟨s4, hs4, hheap4⟩ := hdu
  have hfinal : s1.update m1 nz = (s4, .ok (some pA)) := by
    rw [hnotnew]
    unfold Sys.updateFound
    simp only
    rw [hs4]
  refine ⟨d1.record m1, dB, ?_, ?_, hdB, ?_, by rw [hlB], ?_, ?_⟩
  · rw [call_update_eq, hfinal]; rfl
  · rw [call_update_eq, hfinal]
    show s4.heap[pA]? = _
    rw [hheap4]
    exact getElem?_set_self_of_some hd3
  · rw [hlab]
  · have hba : ¬ b = a := fun h => hab h.symm
    rw [Dialogue.record_eq, hd1eq, hm1]; simp [c7, c9, hba]
  · have hba : ¬ b = a := fun h => hab h.symm
    rw [Dialogue.record_eq, hd1eq, hm1]; simp [c6, c9, hba]

/-- Non-vacuity: the demo agent, with two dialogues already, opens one with an agent `zoe` that
has the same rules. -/
example :
    let sB := Sys.new (b! "zoe") false Demo.rules
    let m0 := Demo.msg Demo.me (b! "zoe") (b! "n9") [] 1 0 (b! "cfp")
    (Demo.s4.call (.create (b! "zoe") (b! "cfp") (b! "n9"))).2 = .accepted (some 2) (some m0) ∧
    (sB.call (.update m0 (b! "x9"))).2 = .accepted (some 0) none ∧
    (∃ m1, ((sB.call (.update m0 (b! "x9"))).1.call (.reply 0 (b! "propose") none none)).2 =
      .accepted (some 0) (some m1)) ∧
    (b! "cfp") ∉ Demo.rules.terminal ∧ IsValidReply Demo.rules (b! "cfp") (b! "propose") :=
  ⟨by decide, by decide, ⟨_, rfl⟩, by decide, [b! "propose", b! "decline"], by decide, by decide⟩

end Verif
