import Verif.Lemmas.CrossTalk

/-! Lemmas for conversations whose messages travel: the store around the dialogues. -/

namespace Verif.CrossTalk

/-- The opener's store: the dialogue `d` at `p` is found by its label, which is complete once a
message of the responder has come in. -/
structure OpenerSeat (a b na nb : Bytes) (keep : Bool) (rules : RulesDecl) (p : Ptr) (d : Dialogue)
    (s : Sys) : Prop where
  inv : SInv a keep rules s
  minv : MInv s
  heap : s.heap[p]? = some d
  place : (d.label = ⟨⟨na, []⟩, b, a⟩ ∧ s.byLabel.get ⟨⟨na, []⟩, b, a⟩ = some p ∧
      s.incomplete.get ⟨⟨na, []⟩, b, a⟩ = none ∧ s.addressList b ≠ []) ∨
    (d.label = ⟨⟨na, nb⟩, b, a⟩ ∧ s.byLabel.get ⟨⟨na, nb⟩, b, a⟩ = some p ∧
      s.byLabel.get ⟨⟨na, []⟩, b, a⟩ = none)

/-- The responder's store. -/
structure ResponderSeat (a b na nb : Bytes) (keep : Bool) (rules : RulesDecl) (p : Ptr) (d : Dialogue)
    (s : Sys) : Prop where
  inv : SInv b keep rules s
  minv : MInv s
  heap : s.heap[p]? = some d
  label : d.label = ⟨⟨na, nb⟩, a, a⟩
  stored : s.byLabel.get ⟨⟨na, nb⟩, a, a⟩ = some p
  mapped : s.incomplete.get ⟨⟨na, []⟩, a, a⟩ = some ⟨⟨na, nb⟩, a, a⟩
  free : ∀ r, s.byLabel.get ⟨⟨na, r⟩, a, b⟩ = none

section
variable {a b na nb : Bytes} {keep : Bool} {rules : RulesDecl} {p : Ptr} {d : Dialogue} {s : Sys}

/-- A message of the responder finds the opener's dialogue, whose reference is then complete. -/
theorem OpenerSeat.route (h : OpenerSeat a b na nb keep rules p d s)
    (hab : a ≠ b) (hb : b ≠ []) (hna : na ≠ []) (hnb : nb ≠ []) {m : Message}
    (hms : m.sender = b) (hmt : m.to = a) (hmr : m.reference = ⟨na, nb⟩) (nz : Bytes) :
    ∃ s1 d1, s.update m nz = s1.updateFound m false (some p) ∧
      OpenerSeat a b na nb keep rules p d1 s1 ∧
      ∃ cb, d1 = { d with label := ⟨⟨na, nb⟩, b, a⟩, callbacks := cb } := by
  obtain ⟨i, t, perf, hm⟩ : ∃ i t perf, m = ⟨a, b, ⟨na, nb⟩, i, t, perf⟩ :=
    ⟨m.messageId, m.target, m.performative, by rw [← hms, ← hmt, ← hmr]⟩
  have hself := h.inv.selfEq
  have hd := h.heap
  obtain ⟨s1, d1, hcomp, hd1, hv1, hb1, hb2⟩ : ∃ s1 d1, s.completeReference m = (s1, .ok ()) ∧
      s1.heap[p]? = some d1 ∧ (∃ cb, d1 = { d with label := ⟨⟨na, nb⟩, b, a⟩, callbacks := cb }) ∧
      s1.byLabel.get ⟨⟨na, nb⟩, b, a⟩ = some p ∧ s1.byLabel.get ⟨⟨na, []⟩, b, a⟩ = none := by
    rcases h.place with ⟨_, c1, c2, c3⟩ | ⟨hl, c1, c2⟩
    · obtain ⟨s2, hs2⟩ := removeDialogue_total (s := s) (l := ⟨⟨na, []⟩, b, a⟩) c3
      obtain ⟨r1, r2, r3, r4, r5, r6, r7, r8⟩ := Sys.removeDialogue_ok hs2
      have hd2 : s2.heap[p]? = some d := by rw [r4]; exact hd
      refine ⟨(s2.addDialogue p { d with label := ⟨⟨na, nb⟩, b, a⟩ }).setIncomplete
        ⟨⟨na, []⟩, b, a⟩ ⟨⟨na, nb⟩, b, a⟩,
        { d with label := ⟨⟨na, nb⟩, b, a⟩, callbacks := d.callbacks + 1 }, ?_, ?_, ⟨_, rfl⟩, ?_, ?_⟩
      · unfold Sys.completeReference
        rw [hm]
        simp only [unassigned]
        rw [if_neg (by simp [hna, hnb])]
        have hp1 : s.isPresent ⟨⟨na, []⟩, b, s.self⟩ = true := by
          unfold Sys.isPresent; rw [hself, GoMap.has_iff]; exact ⟨p, c1⟩
        have hp2 : s.isInIncomplete ⟨⟨na, []⟩, b, s.self⟩ = false := by
          unfold Sys.isInIncomplete; rw [hself, GoMap.has_eq_false_iff]; exact c2
        have hp3 : s.getByLabel ⟨⟨na, []⟩, b, s.self⟩ = some p := by
          unfold Sys.getByLabel; rw [hself]; exact c1
        have hs2' : s.removeDialogue ⟨⟨na, []⟩, b, s.self⟩ = .ok s2 := by rw [hself]; exact hs2
        rw [hp1, hp2]
        simp only [Bool.not_false, Bool.and_self, if_true]
        rw [hp3]
        simp only
        rw [hs2']
        simp only
        rw [hd2]
        simp only
        have hul : d.updateLabel ⟨⟨na, nb⟩, b, s.self⟩ = .ok { d with label := ⟨⟨na, nb⟩, b, s.self⟩ } := by
          unfold Dialogue.updateLabel
          rw [if_neg (by simp [hnb, unassigned])]
        rw [hul]
        simp only
        rw [hself]
      · exact getElem?_set_self_of_some hd2
      · exact GoMap.get_set_self _ _ _
      · show (s2.byLabel.set _ _).get _ = none
        rw [GoMap.get_set_ne, r5, GoMap.get_erase_self]
        intro e; simp at e; exact hnb e
    · refine ⟨s, d, ?_, hd, ⟨d.callbacks, by rw [← hl]⟩, c1, c2⟩
      unfold Sys.completeReference
      simp only
      rw [if_neg (by rw [hm]; simp [hna, hnb, unassigned])]
      have : s.isPresent ⟨⟨m.reference.starter, unassigned⟩, m.sender, s.self⟩ = false := by
        unfold Sys.isPresent
        rw [GoMap.has_eq_false_iff, hself, hm]
        exact c2
      rw [this]
      simp
  have hi1 := h.inv.completeReference hcomp (by simp)
  have hm1 := h.minv.completeReference hcomp (by simp)
  have hself1 := hi1.selfEq
  have hlab : d1.label = ⟨⟨na, nb⟩, b, a⟩ := by obtain ⟨cb, rfl⟩ := hv1; rfl
  refine ⟨s1, d1, ?_, ⟨hi1, hm1, hd1, Or.inr ⟨hlab, hb1, hb2⟩⟩, hv1⟩
  have hget : s1.getDialogue m = some p := by
    unfold Sys.getDialogue Sys.counterparty
    rw [hm, hself1]
    simp only
    have hbe : (b == a) = false := by simpa using fun h => hab h.symm
    rw [hbe]
    simp only [Bool.false_eq_true, if_false]
    have hll : s1.latestLabel ⟨⟨na, nb⟩, b, a⟩ = ⟨⟨na, nb⟩, b, a⟩ := by
      unfold Sys.latestLabel
      cases hg : s1.incomplete.get ⟨⟨na, nb⟩, b, a⟩ with
      | none => rfl
      | some l' => exact absurd (hm1.key _ _ hg).1 hnb
    rw [hll]
    have : s1.getByLabel ⟨⟨na, nb⟩, b, a⟩ = some p := hb1
    rw [this]
  have hba : ¬ b = a := fun h => hab h.symm
  have hre : (m.reference.responder != unassigned) = true := by
    rw [hm]; simpa [unassigned] using hnb
  have hst : (m.reference.starter != unassigned) = true := by rw [hm]; simpa [unassigned] using hna
  unfold Sys.update
  rw [if_neg (by rw [hm, hself]; simp [Message.hasSender, hb, hba]),
    if_neg (by rw [hm]; simp [Message.hasTo, hb]), if_neg (by rw [hm, hself]; simp)]
  simp only [hre, hst]
  simp [hcomp, hget]

/-- A message of the opener finds the responder's dialogue. -/
theorem ResponderSeat.route (h : ResponderSeat a b na nb keep rules p d s)
    (hab : a ≠ b) (ha : a ≠ []) (hna : na ≠ []) (hnb : nb ≠ []) {m : Message} {n : Nat} (hn : 0 < n)
    (hms : m.sender = a) (hmt : m.to = b)
    (hmr : m.reference = ⟨na, []⟩ ∨ m.reference = ⟨na, nb⟩) (hid : m.messageId = signed true (n + 1))
    (nz : Bytes) : s.update m nz = s.updateFound m false (some p) := by
  rcases hmr with hr | hr
  · exact responder_route h.inv h.minv h.stored h.mapped h.free hab ha hna hnb hn
      (r := []) (perf := m.performative) (t := m.target) (Or.inl rfl)
      (by rw [← hid, ← hr, ← hms, ← hmt]) nz
  · exact responder_route h.inv h.minv h.stored h.mapped h.free hab ha hna hnb hn
      (r := nb) (perf := m.performative) (t := m.target) (Or.inr rfl)
      (by rw [← hid, ← hr, ← hms, ← hmt]) nz

theorem OpenerSeat.frame {s' : Sys} (h : OpenerSeat a b na nb keep rules p d s)
    (hi : SInv a keep rules s') (hm : MInv s') (hf : Spared b na s s') :
    OpenerSeat a b na nb keep rules p d s' := by
  refine ⟨hi, hm, hf.heap p d h.heap ?_, ?_⟩
  · rcases h.place with ⟨hl, _⟩ | ⟨hl, _⟩ <;> rw [hl] <;> exact ⟨rfl, rfl⟩
  · rcases h.place with ⟨hl, h1, h2, h3⟩ | ⟨hl, h1, h2⟩
    · refine Or.inl ⟨hl, ?_, ?_, hf.listed _ _ ⟨rfl, rfl⟩ h1 h3⟩
      · rw [hf.byLabel _ ⟨rfl, rfl⟩]; exact h1
      · rw [hf.incomplete _ ⟨rfl, rfl⟩]; exact h2
    · exact Or.inr ⟨hl, by rw [hf.byLabel _ ⟨rfl, rfl⟩]; exact h1,
        by rw [hf.byLabel _ ⟨rfl, rfl⟩]; exact h2⟩

theorem ResponderSeat.frame {s' : Sys} (h : ResponderSeat a b na nb keep rules p d s)
    (hi : SInv b keep rules s') (hm : MInv s') (hf : Spared a na s s') :
    ResponderSeat a b na nb keep rules p d s' := by
  refine ⟨hi, hm, hf.heap p d h.heap (by rw [h.label]; exact ⟨rfl, rfl⟩), h.label, ?_, ?_, ?_⟩
  · rw [hf.byLabel _ ⟨rfl, rfl⟩]; exact h.stored
  · rw [hf.incomplete _ ⟨rfl, rfl⟩]; exact h.mapped
  · intro r; rw [hf.byLabel _ ⟨rfl, rfl⟩]; exact h.free r

/-- Speaking in a dialogue that is in the store is orderly. -/
theorem OpenerSeat.orderly (h : OpenerSeat a b na nb keep rules p d s) (perf : Bytes) :
    Orderly s (.reply p perf none none) := by
  intro d' hd
  left
  rw [h.heap] at hd
  simp only [Option.some.injEq] at hd
  subst hd
  unfold Sys.getByLabel
  rcases h.place with ⟨hl, h1, _⟩ | ⟨hl, h1, _⟩ <;> rw [hl] <;> exact h1

theorem ResponderSeat.orderly (h : ResponderSeat a b na nb keep rules p d s) (perf : Bytes) :
    Orderly s (.reply p perf none none) := by
  intro d' hd
  left
  rw [h.heap] at hd
  simp only [Option.some.injEq] at hd
  subst hd
  unfold Sys.getByLabel
  rw [h.label]
  exact h.stored

/-- The store after the dialogue has recorded a message. -/
theorem OpenerSeat.put {m : Message} {ts : GSet DialogueLabel}
    (h : OpenerSeat a b na nb keep rules p d s)
    (hi : SInv a keep rules { s.setHeap p (d.record m) with terminal := ts })
    (hm : MInv { s.setHeap p (d.record m) with terminal := ts }) :
    OpenerSeat a b na nb keep rules p (d.record m) { s.setHeap p (d.record m) with terminal := ts } := by
  refine ⟨hi, hm, getElem?_set_self_of_some h.heap, ?_⟩
  have : (d.record m).label = d.label := by rw [Dialogue.record_eq]
  rw [this]
  exact h.place

theorem ResponderSeat.put {m : Message} {ts : GSet DialogueLabel}
    (h : ResponderSeat a b na nb keep rules p d s)
    (hi : SInv b keep rules { s.setHeap p (d.record m) with terminal := ts })
    (hm : MInv { s.setHeap p (d.record m) with terminal := ts }) :
    ResponderSeat a b na nb keep rules p (d.record m) { s.setHeap p (d.record m) with terminal := ts } := by
  refine ⟨hi, hm, getElem?_set_self_of_some h.heap, ?_, h.stored, h.mapped, h.free⟩
  have : (d.record m).label = d.label := by rw [Dialogue.record_eq]
  rw [this]
  exact h.label

end

/-! ### Calls -/

section
variable {me other : Bytes} {o : Bool} {keep : Bool} {rules : RulesDecl} {p : Ptr} {d : Dialogue}
  {s : Sys}

/-- A default reply crashes the agent, is refused, or is recorded. -/
theorem say_step (hi : SInv me keep rules s) (hd : s.heap[p]? = some d) (e : End me other o rules d)
    {perf : Bytes} (hk : perf ∈ rules.terminal → keep = true) :
    ((s.call (.reply p perf none none)).2 = .crashed ∧ ∃ t, Gap d t) ∨
    (∃ er, s.call (.reply p perf none none) = (s, .failed er)) ∨
    (∃ ts m, d.replyMessage perf none none = .ok m ∧ s.call (.reply p perf none none) =
      ({ s.setHeap p (d.record m) with terminal := ts }, .accepted (some p) (some m))) := by
  have hcall : ∀ r, s.reply p perf none none = r → s.call (.reply p perf none none) =
      (r.1, r.2.report fun m => .accepted (some p) (some m)) := by
    rintro r rfl; rfl
  cases hr : d.replyMessage perf none none with
  | panic =>
    left
    have : s.reply p perf none none = (s, .panic) := by
      unfold Sys.reply; rw [hd]; simp only; rw [hr]
    rw [hcall _ this]
    exact ⟨rfl, Dialogue.replyMessage_panic e.dinv hr⟩
  | err er =>
    right; left
    have : s.reply p perf none none = (s, .err er) := by
      unfold Sys.reply; rw [hd]; simp only; rw [hr]
    rw [hcall _ this]
    exact ⟨er, rfl⟩
  | ok m =>
    have h1 : s.reply p perf none none = s.dialogueUpdate p m := by
      unfold Sys.reply; rw [hd]; simp only; rw [hr]
    obtain ⟨hs, _, _, hpf, _, _⟩ := e.reply hr
    rw [hcall _ h1]
    cases hu : d.updateCore m with
    | panic =>
      left
      have : s.dialogueUpdate p m = (s, .panic) := by
        unfold Sys.dialogueUpdate; rw [hd]; simp only; rw [hu]
      rw [this]
      exact ⟨rfl, _, Dialogue.updateCore_panic e.dinv hu⟩
    | err er =>
      right; left
      rw [dialogueUpdate_refused hd hu]
      exact ⟨er, rfl⟩
    | ok r =>
      right; right
      obtain ⟨d', m', t⟩ := r
      obtain ⟨hm1, _, _, ht, hrec⟩ := Dialogue.updateCore_ok hu
      have hmm : m' = m := by
        rw [hm1]
        unfold Dialogue.withSender
        split
        · rfl
        · have : m = { m with sender := d.selfAddress } := by rw [e.dinv.selfAddr, ← hs]
          exact this.symm
      subst hmm
      obtain ⟨ts, hts⟩ := dialogueUpdate_keep hd hu (by
        rw [ht, e.dinv.rulesEq, newRules_terminal, hi.keepEq, hpf]; exact hk)
      refine ⟨ts, m', rfl, ?_⟩
      rw [hts, hrec]
      rfl

/-- A message that reached the dialogue crashes the agent, is refused, or is recorded. -/
theorem hear_step (hi : SInv me keep rules s) (hd : s.heap[p]? = some d) (e : End me other o rules d)
    {m : Message} (hs : m.sender = other) (hother : other ≠ []) (hto : m.to = me)
    (hk : m.performative ∈ rules.terminal → keep = true) :
    (s.updateFound m false (some p) = (s, .panic) ∧ ∃ t, Gap d t) ∨
    (∃ er, s.updateFound m false (some p) = (s, .err er)) ∨
    (Accepts me other o d m ∧ ∃ ts, s.updateFound m false (some p) =
      ({ s.setHeap p (d.record m) with terminal := ts }, .ok (some p))) := by
  unfold Sys.updateFound
  simp only
  cases hu : d.updateCore m with
  | panic =>
    left
    have : s.dialogueUpdate p m = (s, .panic) := by
      unfold Sys.dialogueUpdate; rw [hd]; simp only; rw [hu]
    rw [this]
    exact ⟨rfl, _, Dialogue.updateCore_panic e.dinv hu⟩
  | err er =>
    right; left
    rw [dialogueUpdate_refused hd hu]
    exact ⟨er, by simp⟩
  | ok r =>
    right; right
    obtain ⟨d', m', t⟩ := r
    obtain ⟨_, _, _, ht, _⟩ := Dialogue.updateCore_ok hu
    obtain ⟨hrec, hmm, hacc⟩ := e.accepts hs hother hto hu
    subst hmm
    obtain ⟨ts, hts⟩ := dialogueUpdate_keep hd hu (by
      rw [ht, e.dinv.rulesEq, newRules_terminal, hi.keepEq]; exact hk)
    refine ⟨hacc, ts, ?_⟩
    rw [hts, hrec]

/-- The label and the callbacks of a dialogue do not matter to what it has recorded. -/
theorem End.relabel (e : End me other o rules d) {d' : Dialogue} {l : DialogueLabel} {cb : Nat}
    (hd' : d' = { d with label := l, callbacks := cb }) (hdi : DInv me rules d')
    (h1 : l.opponent = other) (h2 : l.starterAddr = if o then me else other) :
    End me other o rules d' := by
  subst hd'
  exact ⟨e.ne, hdi, h1, h2, e.spoken, e.ids, e.last⟩

end

end Verif.CrossTalk
