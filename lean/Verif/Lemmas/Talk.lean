import Verif.Props.TwoParty
import Verif.Lemmas.FrameRef

/-! Lemmas for conversations between two agents: what one agent's dialogue accepts when it holds a
given history of the messages of both sides. -/

namespace Verif

/-- Ids of one side: positive for the opener, negative for the responder. -/
def signed (opener : Bool) (n : Nat) : Int := if opener then (n : Int) else -(n : Int)

theorem natAbs_signed (o : Bool) (n : Nat) : (signed o n).natAbs = n := by
  unfold signed; cases o <;> simp

/-- The messages of `x` in a history. -/
def said (x : Bytes) (hs : List Message) : List Message := hs.filter fun m => m.sender == x

theorem said_append (x : Bytes) (hs : List Message) (m : Message) :
    said x (hs ++ [m]) = if m.sender = x then said x hs ++ [m] else said x hs := by
  unfold said
  rw [List.filter_append]
  by_cases h : m.sender = x <;> simp [h]

theorem said_getLast {x : Bytes} {hs : List Message} {l : Message} (h : hs.getLast? = some l)
    (hx : l.sender = x) : (said x hs).getLast? = some l := by
  obtain ⟨init, rfl⟩ : ∃ init, hs = init ++ [l] := by
    rcases List.eq_nil_or_concat hs with rfl | ⟨init, y, rfl⟩
    · simp at h
    · simp at h; subst h; exact ⟨init, by simp⟩
  rw [said_append, if_pos hx]
  simp

/-- The messages of `x` are numbered 1,2,3,… or -1,-2,-3,… -/
def Ids (x : Bytes) (o : Bool) (hs : List Message) : Prop :=
  ∀ (i : Nat) (m : Message), (said x hs)[i]? = some m → m.messageId = signed o (i + 1)

theorem Ids.append {x : Bytes} {o : Bool} {hs : List Message} (h : Ids x o hs) {m : Message}
    (hm : m.sender = x → m.messageId = signed o ((said x hs).length + 1)) : Ids x o (hs ++ [m]) := by
  intro i y hy
  rw [said_append] at hy
  split at hy
  · rename_i hs'
    rcases Nat.lt_or_ge i (said x hs).length with hi | hi
    · rw [List.getElem?_append_left hi] at hy; exact h i y hy
    · rw [List.getElem?_append_right hi] at hy
      have : i - (said x hs).length = 0 := by
        rcases Nat.eq_zero_or_pos (i - (said x hs).length) with e | e
        · exact e
        · rw [List.getElem?_eq_none (by simp; omega)] at hy; simp at hy
      rw [this] at hy
      simp at hy
      subst hy
      rw [hm hs', show i = (said x hs).length by omega]
  · exact h i y hy

theorem Ids.last {x : Bytes} {o : Bool} {hs : List Message} (h : Ids x o hs) {l : Message}
    (hl : (said x hs).getLast? = some l) :
    l.messageId = signed o (said x hs).length ∧ 0 < (said x hs).length := by
  have hne : said x hs ≠ [] := by intro e; rw [e] at hl; simp at hl
  have hpos : 0 < (said x hs).length := List.length_pos_iff.2 hne
  have hidx : (said x hs)[(said x hs).length - 1]? = some l := by
    rw [← hl, List.getLast?_eq_getElem?]
  have := h _ _ hidx
  rw [show (said x hs).length - 1 + 1 = (said x hs).length by omega] at this
  exact ⟨this, hpos⟩

/-- The dialogue `d` of the agent `me` with `other` holds exactly the history `hs`. -/
structure View (me other : Bytes) (opened : Bool) (ref : DialogueReference) (rules : RulesDecl)
    (hs : List Message) (d : Dialogue) : Prop where
  ne : me ≠ other
  label : d.label = ⟨ref, other, if opened then me else other⟩
  self : d.selfAddress = me
  rules : d.rules = newRules rules
  out : d.outgoing = said me hs
  inc : d.incoming = said other hs
  order : d.orderedIds = hs.map (·.messageId)
  last : ∀ l, hs.getLast? = some l → d.lastMessageId = l.messageId
  parties : ∀ m ∈ hs, m.sender = me ∨ m.sender = other
  mine : Ids me opened hs
  theirs : Ids other (!opened) hs
  openerSpoke : said (if opened then me else other) hs ≠ []

section
variable {me other : Bytes} {opened : Bool} {ref : DialogueReference} {rules : RulesDecl}
  {hs : List Message} {d : Dialogue}

theorem View.selfInit (v : View me other opened ref rules hs d) : d.isSelfInitiated = opened := by
  unfold Dialogue.isSelfInitiated
  rw [v.label]
  have := v.ne
  cases opened <;> simp [this]

theorem View.notEmpty (v : View me other opened ref rules hs d) : d.isEmpty = false := by
  cases h : d.isEmpty with
  | false => rfl
  | true =>
    rw [Dialogue.isEmpty_iff, v.out, v.inc] at h
    have := v.openerSpoke
    cases opened
    · exact absurd h.2 this
    · exact absurd h.1 this

theorem View.exists_last (v : View me other opened ref rules hs d) :
    ∃ l, hs.getLast? = some l ∧ (l.sender = me ∨ l.sender = other) := by
  cases h : hs.getLast? with
  | none =>
    rw [List.getLast?_eq_none_iff] at h
    have := v.openerSpoke
    subst h
    exact absurd rfl this
  | some l => exact ⟨l, rfl, v.parties l (List.mem_of_getLast? h)⟩

/-- The id of the last message is the number of messages of its sender. -/
theorem View.lastId (v : View me other opened ref rules hs d) {l : Message}
    (hl : hs.getLast? = some l) :
    (l.sender = me → l.messageId = signed opened (said me hs).length ∧ 0 < (said me hs).length) ∧
    (l.sender = other → l.messageId = signed (!opened) (said other hs).length ∧
      0 < (said other hs).length) :=
  ⟨fun h => v.mine.last (said_getLast hl h), fun h => v.theirs.last (said_getLast hl h)⟩

theorem View.lastMessage (v : View me other opened ref rules hs d) {l : Message}
    (hl : hs.getLast? = some l) : d.lastMessage = some l := by
  have hid := v.lastId hl
  have h0 : l.messageId ≠ 0 := by
    rcases v.parties l (List.mem_of_getLast? hl) with h | h
    · have := hid.1 h; intro e; rw [this.1] at e; unfold signed at e; split at e <;> omega
    · have := hid.2 h; intro e; rw [this.1] at e; unfold signed at e; split at e <;> omega
  unfold Dialogue.lastMessage Dialogue.lastIncoming Dialogue.lastOutgoing
  rw [v.last l hl, if_neg h0, v.inc, v.out]
  rcases v.parties l (List.mem_of_getLast? hl) with h | h
  · rw [said_getLast hl h]
    cases hx : (said other hs).getLast? with
    | none => rfl
    | some x =>
      simp only
      rw [if_neg]
      have h1 := v.theirs.last hx
      have h2 := hid.1 h
      rw [h1.1, h2.1]
      unfold signed
      cases opened <;> simp <;> omega
  · rw [said_getLast hl h]
    simp

/-- The last message is found by its id. -/
theorem View.find (v : View me other opened ref rules hs d) {l : Message}
    (hl : hs.getLast? = some l) : d.getMessageById l.messageId = .ok (some l) := by
  have hid := v.lastId hl
  have go : ∀ (x : Bytes), (said x hs).getLast? = some l → l.messageId.natAbs = (said x hs).length →
      0 < (said x hs).length →
      Dialogue.goIndex (said x hs) (absId l.messageId - 1) = .ok l := by
    intro x h1 h2 h3
    unfold Dialogue.goIndex
    rw [absId_eq, h2, if_neg (by omega),
      show (((said x hs).length : Int) - 1).toNat = (said x hs).length - 1 by omega,
      ← List.getLast?_eq_getElem?, h1]
  unfold Dialogue.getMessageById
  rw [v.notEmpty, v.selfInit, v.out, v.inc]
  simp only [Bool.false_eq_true, if_false]
  rcases v.parties l (List.mem_of_getLast? hl) with h | h
  · obtain ⟨h1, h2⟩ := hid.1 h
    have h3 : decide (0 < l.messageId) = opened := by
      rw [h1]; unfold signed; cases opened <;> simp <;> omega
    rw [if_neg (by rw [h1]; unfold signed; split <;> omega), if_pos h3, said_getLast hl h]
    simp only
    rw [if_neg (Int.lt_irrefl _), go me (said_getLast hl h) (by rw [h1, natAbs_signed]) h2]
    rfl
  · obtain ⟨h1, h2⟩ := hid.2 h
    have h3 : ¬ decide (0 < l.messageId) = opened := by
      rw [h1]; unfold signed; cases opened <;> simp [List.length_pos_iff.1 h2]
    rw [if_neg (by rw [h1]; unfold signed; split <;> omega), if_neg h3, said_getLast hl h]
    simp only
    rw [if_neg (Int.lt_irrefl _), go other (said_getLast hl h) (by rw [h1, natAbs_signed]) h2]
    rfl

theorem View.nextOut (v : View me other opened ref rules hs d) :
    d.nextOutgoingId = signed opened ((said me hs).length + 1) := by
  unfold Dialogue.nextOutgoingId Dialogue.lastOutgoing
  rw [v.selfInit, v.out]
  cases hx : (said me hs).getLast? with
  | none =>
    rw [List.getLast?_eq_none_iff] at hx
    rw [hx]
    cases opened <;> simp [signed, startingMessageId]
  | some x =>
    obtain ⟨h1, h2⟩ := v.mine.last hx
    simp only [absId_eq]
    rw [h1, natAbs_signed]
    cases opened <;> simp [signed]

theorem View.nextIn (v : View me other opened ref rules hs d) {l : Message}
    (hl : hs.getLast? = some l) :
    d.nextIncomingId = signed (!opened)
      (if said other hs = [] then 1 else (said l.sender hs).length + 1) := by
  have habs : l.messageId.natAbs = (said l.sender hs).length := by
    rcases v.parties l (List.mem_of_getLast? hl) with h | h
    · rw [((v.lastId hl).1 h).1, natAbs_signed, h]
    · rw [((v.lastId hl).2 h).1, natAbs_signed, h]
  unfold Dialogue.nextIncomingId Dialogue.lastIncoming
  rw [v.selfInit, v.inc, v.last l hl]
  cases hx : (said other hs).getLast? with
  | none =>
    rw [List.getLast?_eq_none_iff] at hx
    rw [if_pos hx]
    cases opened <;> simp [signed, startingMessageId]
  | some x =>
    have hne : said other hs ≠ [] := by intro e; rw [e] at hx; simp at hx
    rw [if_neg hne]
    simp only [absId_eq, habs]
    cases opened <;> simp [signed]

theorem maxIds_pair_ge {xs : List Int} {y : Int} (h : y ∈ xs) : ∃ mx, maxIds xs = .ok mx ∧ y ≤ mx := by
  have key : ∀ (ys : List Int) (x : Int), x ≤ ys.foldl (fun m y => if m < y then y else m) x ∧
      ∀ z ∈ ys, z ≤ ys.foldl (fun m y => if m < y then y else m) x := by
    intro ys
    induction ys with
    | nil => intro x; simp
    | cons w ys ih =>
      intro x
      simp only [List.foldl_cons]
      have := ih (if x < w then w else x)
      refine ⟨Int.le_trans (by split <;> omega) this.1, ?_⟩
      intro z hz
      rcases List.mem_cons.1 hz with rfl | hz
      · exact Int.le_trans (by split <;> omega) this.1
      · exact this.2 z hz
  cases xs with
  | nil => simp at h
  | cons x xs =>
    refine ⟨_, rfl, ?_⟩
    rcases List.mem_cons.1 h with rfl | h
    · exact (key xs _).1
    · exact (key xs x).2 y h

/-- A message targeting the last message is judged by the declared replies alone. -/
theorem View.target (v : View me other opened ref rules hs d) {l m : Message}
    (hl : hs.getLast? = some l) (hid : m.messageId ≠ 1) (ht : m.target = l.messageId) :
    (IsValidReply rules l.performative m.performative → d.validateMessageTarget m = .ok ()) ∧
    (¬ IsValidReply rules l.performative m.performative →
      d.validateMessageTarget m = .err .badReplyPerformative) := by
  have h0 : l.messageId ≠ 0 := by
    rcases v.parties l (List.mem_of_getLast? hl) with h | h
    · have := (v.lastId hl).1 h; intro e; rw [this.1] at e; unfold signed at e; split at e <;> omega
    · have := (v.lastId hl).2 h; intro e; rw [this.1] at e; unfold signed at e; split at e <;> omega
  have hmem : absId l.messageId ∈
      (match d.lastIncoming with | some x => [absId x.messageId] | none => []) ++
      (match d.lastOutgoing with | some x => [absId x.messageId] | none => []) := by
    unfold Dialogue.lastIncoming Dialogue.lastOutgoing
    rw [v.inc, v.out]
    rcases v.parties l (List.mem_of_getLast? hl) with h | h
    · rw [said_getLast hl h]; simp
    · rw [said_getLast hl h]; simp
  obtain ⟨mx, hmx, hle⟩ := maxIds_pair_ge hmem
  have step : d.validateMessageTarget m =
      if (match d.rules.validReplies.get l.performative with
          | some s => s.contains m.performative
          | none => false) = true then .ok () else .err .badReplyPerformative := by
    unfold Dialogue.validateMessageTarget
    rw [if_neg (by exact hid), if_neg (by rw [ht]; exact h0)]
    simp only
    refine (congrArg (fun r => Res.bind r _) hmx).trans ?_
    simp only [Res.bind]
    rw [if_neg (by rw [ht]; omega), ht, v.find hl]
    rfl
  have hv := newRules_valid rules l.performative m.performative
  rw [v.rules] at step
  rw [step]
  constructor
  · intro h; exact if_pos (hv.2 h)
  · intro h; exact if_neg (fun e => h (hv.1 e))

/-- What the agent's own default reply looks like. -/
theorem View.reply (v : View me other opened ref rules hs d) {l : Message}
    (hl : hs.getLast? = some l) (perf : Bytes) :
    d.replyMessage perf none none =
      .ok ⟨other, me, ref, signed opened ((said me hs).length + 1), l.messageId, perf⟩ := by
  unfold Dialogue.replyMessage
  rw [v.lastMessage hl]
  simp only [Res.bind]
  unfold Dialogue.hasMessageId
  rw [v.find hl]
  simp only [Res.bind, Option.isSome_some, if_true]
  rw [v.label, v.self, v.nextOut]

theorem View.said_opener_length (v : View me other opened ref rules hs d) :
    0 < (said (if opened then me else other) hs).length := List.length_pos_iff.2 v.openerSpoke

/-- The agent's own message. -/
theorem View.own (v : View me other opened ref rules hs d) {l : Message}
    (hl : hs.getLast? = some l) (perf : Bytes)
    {m : Message} (hm : m = ⟨other, me, ref, signed opened ((said me hs).length + 1), l.messageId, perf⟩) :
    (IsValidReply rules l.performative perf →
      d.updateCore m = .ok (d.record m, m, (newRules rules).terminal.contains perf)) ∧
    (¬ IsValidReply rules l.performative perf → d.updateCore m = .err .badReplyPerformative) := by
  have hws : d.withSender m = m := by
    unfold Dialogue.withSender
    split
    · rfl
    · rw [v.self, hm]
  have hbel : d.isBelonging m = true := by
    unfold Dialogue.isBelonging Dialogue.counterParty Dialogue.isMessageBySelf Dialogue.checkLabel
    rw [v.selfInit, v.self, v.label, hm]
    cases opened <;> simp [DialogueLabel.incompleteVersion, unassigned]
  have hpos := v.said_opener_length
  have hid : m.messageId ≠ 1 := by
    rw [hm]; simp only
    unfold signed
    cases opened
    · simp; omega
    · simp at hpos ⊢; omega
  have ht := v.target hl hid (by rw [hm])
  have hvm : d.validateMessageId m = .ok () := by
    unfold Dialogue.validateMessageId
    have : (m.to != d.selfAddress) = true := by
      rw [hm, v.self]; simpa using fun h => v.ne h.symm
    simp only [this, if_true]
    rw [v.nextOut, hm]
    simp
  have hvn : d.validateNext m = d.validateMessageTarget m := by
    unfold Dialogue.validateNext
    rw [v.notEmpty]
    simp only [Bool.false_eq_true, if_false]
    unfold Dialogue.validateNonInitial
    rw [if_neg (by rw [hm, v.label]; simp), hvm]
    rfl
  unfold Dialogue.updateCore
  simp only
  rw [hws, hbel, hvn]
  have hp : m.performative = perf := by rw [hm]
  rw [hp] at ht
  constructor
  · intro h; rw [ht.1 h]; simp [Res.bind, v.rules, hp]
  · intro h; rw [ht.2 h]; simp [Res.bind]

/-- The reference carried by a message of the other side is one the dialogue recognises. -/
def RefFits (opened : Bool) (ref ref' : DialogueReference) : Prop :=
  ref'.starter = ref.starter ∧ (opened = false → ref' = ref ∨ ref'.responder = [])

/-- A message of the other side that targets the last message. -/
theorem View.incoming (v : View me other opened ref rules hs d) {l : Message}
    (hl : hs.getLast? = some l) (perf : Bytes) (hother : other ≠ []) {ref' : DialogueReference}
    (href : RefFits opened ref ref') {m : Message}
    (hm : m = ⟨me, other, ref', signed (!opened) ((said other hs).length + 1), l.messageId, perf⟩) :
    ((said other hs = [] ∨ (said other hs).length = (said l.sender hs).length) →
      (IsValidReply rules l.performative perf →
        d.updateCore m = .ok (d.record m, m, (newRules rules).terminal.contains perf)) ∧
      (¬ IsValidReply rules l.performative perf → d.updateCore m = .err .badReplyPerformative)) ∧
    (¬ (said other hs = [] ∨ (said other hs).length = (said l.sender hs).length) →
      d.updateCore m = .err .wrongMessageId) := by
  have hws : d.withSender m = m := by
    unfold Dialogue.withSender
    rw [if_pos]
    rw [hm]; simpa [Message.hasSender] using hother
  have hbel : d.isBelonging m = true := by
    have hne : ¬ other = me := fun h => v.ne h.symm
    unfold Dialogue.isBelonging Dialogue.counterParty Dialogue.isMessageBySelf Dialogue.checkLabel
    rw [v.selfInit, v.self, v.label, hm]
    obtain ⟨h1, h2⟩ := href
    cases opened
    · rcases h2 rfl with h3 | h3
      · simp [hne, h3]
      · obtain ⟨rs, rr⟩ := ref'
        simp only at h1 h3
        subst h1 h3
        simp [hne, DialogueLabel.incompleteVersion, unassigned]
    · simp [hne, h1, DialogueLabel.incompleteVersion, unassigned]
  have hpos := v.said_opener_length
  have hid : m.messageId ≠ 1 := by
    rw [hm]; simp only
    unfold signed
    cases opened
    · simp at hpos ⊢; omega
    · simp; omega
  have ht := v.target hl hid (by rw [hm])
  have hto : (m.to != d.selfAddress) = false := by rw [hm, v.self]; simp
  have hvm : d.validateMessageId m =
      if (said other hs = [] ∨ (said other hs).length = (said l.sender hs).length) then .ok ()
      else .err .wrongMessageId := by
    unfold Dialogue.validateMessageId
    simp only [hto, Bool.false_eq_true, if_false]
    rw [v.nextIn hl, hm]
    simp only
    by_cases h1 : said other hs = []
    · simp [h1]
    · simp only [h1, if_false, false_or]
      by_cases h2 : (said other hs).length = (said l.sender hs).length
      · simp [h2]
      · rw [if_pos, if_neg h2]
        unfold signed
        cases opened <;> simp <;> omega
  have hvn : d.validateNext m = (d.validateMessageId m).bind fun _ => d.validateMessageTarget m := by
    unfold Dialogue.validateNext
    rw [v.notEmpty]
    simp only [Bool.false_eq_true, if_false]
    unfold Dialogue.validateNonInitial
    rw [if_neg (by rw [hm, v.label]; simp [href.1])]
  unfold Dialogue.updateCore
  simp only
  rw [hws, hbel, hvn, hvm]
  have hp : m.performative = perf := by rw [hm]
  rw [hp] at ht
  constructor
  · intro hc
    rw [if_pos hc]
    constructor
    · intro h; rw [show (Res.ok () : Res DErr Unit).bind (fun _ => d.validateMessageTarget m) = d.validateMessageTarget m from rfl, ht.1 h]; simp [Res.bind, v.rules, hp]
    · intro h; rw [show (Res.ok () : Res DErr Unit).bind (fun _ => d.validateMessageTarget m) = d.validateMessageTarget m from rfl, ht.2 h]; simp [Res.bind]
  · intro hc
    rw [if_neg hc]
    simp [Res.bind]

/-- Recording the next message of either side keeps the view. -/
theorem View.record (v : View me other opened ref rules hs d) {m : Message}
    (hs1 : m.sender = me ∨ m.sender = other)
    (h1 : m.sender = me → m.messageId = signed opened ((said me hs).length + 1))
    (h2 : m.sender = other → m.messageId = signed (!opened) ((said other hs).length + 1)) :
    View me other opened ref rules (hs ++ [m]) (d.record m) := by
  rw [Dialogue.record_eq]
  have hne := v.ne
  refine ⟨v.ne, v.label, v.self, v.rules, ?_, ?_, ?_, ?_, ?_, v.mine.append h1, v.theirs.append h2, ?_⟩
  · rw [said_append, v.self, v.out]
  · show (if m.sender = d.selfAddress then d.incoming else d.incoming ++ [m]) = _
    rw [said_append, v.self, v.inc]
    rcases hs1 with h | h
    · have : ¬ m.sender = other := by rw [h]; exact hne
      rw [if_pos h, if_neg this]
    · have : ¬ m.sender = me := by rw [h]; exact fun e => hne e.symm
      rw [if_neg this, if_pos h]
  · simp [v.order]
  · intro l hl; simp at hl; simp [hl]
  · intro x hx
    rcases List.mem_append.1 hx with hx | hx
    · exact v.parties x hx
    · simp at hx; subst hx; exact hs1
  · rw [said_append]
    have := v.openerSpoke
    by_cases h : m.sender = (if opened then me else other)
    · rw [if_pos h]; simp
    · rw [if_neg h]; exact this

end

/-! ### The store around it -/

theorem runCallbacks_keep_ok : ∀ (k : Nat) (u : Sys) (l : DialogueLabel), u.keepTerminal = true →
    ∃ t, u.runCallbacks l k = .ok { u with terminal := t } := by
  intro k
  induction k with
  | zero => intro u l _; exact ⟨u.terminal, rfl⟩
  | succ k ih =>
    intro u l hku
    obtain ⟨t, ht⟩ := ih { u with terminal := u.terminal.add l } l hku
    refine ⟨t, ?_⟩
    unfold Sys.runCallbacks Sys.terminalCallback
    rw [if_pos hku]
    simp only [Res.bind]
    rw [ht]

/-- An accepted message that does not make the agent drop the dialogue. -/
theorem dialogueUpdate_keep {s : Sys} {p : Ptr} {d d' : Dialogue} {m m' : Message} {t : Bool}
    (hd : s.heap[p]? = some d) (hu : d.updateCore m = .ok (d', m', t))
    (hk : t = true → s.keepTerminal = true) :
    ∃ ts, s.dialogueUpdate p m = ({ s.setHeap p d' with terminal := ts }, .ok m') := by
  unfold Sys.dialogueUpdate
  rw [hd]
  simp only
  rw [hu]
  simp only
  cases t with
  | false => exact ⟨s.terminal, by simp [Sys.setHeap]⟩
  | true =>
    obtain ⟨ts, hts⟩ := runCallbacks_keep_ok d'.callbacks (s.setHeap p d') d'.label (hk rfl)
    refine ⟨ts, ?_⟩
    simp only [if_true]
    rw [hts]

theorem dialogueUpdate_refused {s : Sys} {p : Ptr} {d : Dialogue} {m : Message} {e : DErr}
    (hd : s.heap[p]? = some d) (hu : d.updateCore m = .err e) :
    s.dialogueUpdate p m = (s, .err e) := by
  unfold Sys.dialogueUpdate
  rw [hd]
  simp only
  rw [hu]

/-- The agent that opened the dialogue, in the middle of the conversation `hs`. -/
structure OpenerSide (a b na nb : Bytes) (keep : Bool) (rules : RulesDecl) (p : Ptr)
    (hs : List Message) (s : Sys) : Prop where
  inv : SInv a keep rules s
  minv : MInv s
  view : ∃ d, s.heap[p]? = some d ∧
    View a b true ⟨na, if said b hs = [] then [] else nb⟩ rules hs d
  early : said b hs = [] → s.byLabel.get ⟨⟨na, []⟩, b, a⟩ = some p ∧
    s.incomplete.get ⟨⟨na, []⟩, b, a⟩ = none ∧ s.addressList b ≠ []
  late : said b hs ≠ [] → s.byLabel.get ⟨⟨na, nb⟩, b, a⟩ = some p ∧
    s.byLabel.get ⟨⟨na, []⟩, b, a⟩ = none

/-- The agent that answers. -/
structure ResponderSide (a b na nb : Bytes) (keep : Bool) (rules : RulesDecl) (p : Ptr)
    (hs : List Message) (s : Sys) : Prop where
  inv : SInv b keep rules s
  minv : MInv s
  view : ∃ d, s.heap[p]? = some d ∧ View b a false ⟨na, nb⟩ rules hs d
  stored : s.byLabel.get ⟨⟨na, nb⟩, a, a⟩ = some p
  mapped : s.incomplete.get ⟨⟨na, []⟩, a, a⟩ = some ⟨⟨na, nb⟩, a, a⟩
  free : ∀ r, s.byLabel.get ⟨⟨na, r⟩, a, b⟩ = none

/-- A default reply is recorded by its sender exactly if the sender's rules allow it. -/
theorem View.reply_step {me other : Bytes} {opened keep : Bool} {ref : DialogueReference}
    {rules : RulesDecl} {hs : List Message} {s : Sys} {p : Ptr} {d : Dialogue} {l : Message}
    (hi : SInv me keep rules s) (hd : s.heap[p]? = some d)
    (v : View me other opened ref rules hs d) (hl : hs.getLast? = some l) (perf : Bytes)
    (hk : perf ∈ rules.terminal → keep = true) {m : Message}
    (hm : m = ⟨other, me, ref, signed opened ((said me hs).length + 1), l.messageId, perf⟩) :
    (IsValidReply rules l.performative perf →
      ∃ ts, s.call (.reply p perf none none) =
        ({ s.setHeap p (d.record m) with terminal := ts }, .accepted (some p) (some m))) ∧
    (¬ IsValidReply rules l.performative perf →
      s.call (.reply p perf none none) = (s, .failed .badReplyPerformative)) := by
  have hr : s.reply p perf none none = s.dialogueUpdate p m := by
    unfold Sys.reply
    rw [hd]
    simp only
    rw [v.reply hl, hm]
  have ho := v.own hl perf hm
  constructor
  · intro h
    obtain ⟨ts, hts⟩ := dialogueUpdate_keep hd (ho.1 h)
      (by rw [newRules_terminal, hi.keepEq]; exact hk)
    exact ⟨ts, by simp only [Sys.call]; rw [hr, hts]; rfl⟩
  · intro h
    simp only [Sys.call]
    rw [hr, dialogueUpdate_refused hd (ho.2 h)]
    rfl

/-- The dialogue's verdict on a message that reached it. -/
theorem View.found_step {me other : Bytes} {opened keep : Bool} {ref ref' : DialogueReference}
    {rules : RulesDecl} {hs : List Message} {s : Sys} {p : Ptr} {d : Dialogue} {l : Message}
    (hi : SInv me keep rules s) (hd : s.heap[p]? = some d)
    (v : View me other opened ref rules hs d) (hl : hs.getLast? = some l) (perf : Bytes)
    (hk : perf ∈ rules.terminal → keep = true) (hother : other ≠ [])
    (href : RefFits opened ref ref') {m : Message}
    (hm : m = ⟨me, other, ref', signed (!opened) ((said other hs).length + 1), l.messageId, perf⟩) :
    (IsValidReply rules l.performative perf ∧
        (said other hs = [] ∨ (said other hs).length = (said l.sender hs).length) →
      ∃ ts, s.updateFound m false (some p) =
        ({ s.setHeap p (d.record m) with terminal := ts }, .ok (some p))) ∧
    (¬ (IsValidReply rules l.performative perf ∧
        (said other hs = [] ∨ (said other hs).length = (said l.sender hs).length)) →
      ∃ e, s.updateFound m false (some p) = (s, .err e) ∧
        (¬ (said other hs = [] ∨ (said other hs).length = (said l.sender hs).length) →
          e = .wrongMessageId)) := by
  have ho := v.incoming hl perf hother href hm
  unfold Sys.updateFound
  simp only
  constructor
  · rintro ⟨h1, h2⟩
    obtain ⟨ts, hts⟩ := dialogueUpdate_keep hd ((ho.1 h2).1 h1)
      (by rw [newRules_terminal, hi.keepEq]; exact hk)
    exact ⟨ts, by rw [hts]⟩
  · intro h
    by_cases h2 : said other hs = [] ∨ (said other hs).length = (said l.sender hs).length
    · have h1 : ¬ IsValidReply rules l.performative perf := fun h1 => h ⟨h1, h2⟩
      refine ⟨.badReplyPerformative, ?_, fun hn => absurd h2 hn⟩
      rw [dialogueUpdate_refused hd ((ho.1 h2).2 h1)]
      simp
    · refine ⟨.wrongMessageId, ?_, fun _ => rfl⟩
      rw [dialogueUpdate_refused hd (ho.2 h2)]
      simp

/-- A message of the opener finds the responder's dialogue. -/
theorem responder_route {a b na nb : Bytes} {keep : Bool} {rules : RulesDecl} {p : Ptr} {s : Sys}
    (inv : SInv b keep rules s) (minv : MInv s)
    (stored : s.byLabel.get ⟨⟨na, nb⟩, a, a⟩ = some p)
    (mapped : s.incomplete.get ⟨⟨na, []⟩, a, a⟩ = some ⟨⟨na, nb⟩, a, a⟩)
    (free : ∀ r, s.byLabel.get ⟨⟨na, r⟩, a, b⟩ = none)
    (hab : a ≠ b) (ha : a ≠ []) (hna : na ≠ []) (hnb : nb ≠ []) {m : Message} {n : Nat} (hn : 0 < n)
    {r perf : Bytes} {t : Int} (hr : r = [] ∨ r = nb)
    (hm : m = ⟨b, a, ⟨na, r⟩, signed true (n + 1), t, perf⟩) (nz : Bytes) :
    s.update m nz = s.updateFound m false (some p) := by
  have hself := inv.selfEq
  have hcp : s.counterparty m = a := by
    unfold Sys.counterparty
    rw [hm, hself]
    simp [hab]
  have hget : s.getDialogue m = some p := by
    unfold Sys.getDialogue
    simp only
    rw [hcp, hself, hm]
    simp only
    have h1 : s.getByLabel (s.latestLabel ⟨⟨na, r⟩, a, b⟩) = none := by
      unfold Sys.latestLabel
      cases hg : s.incomplete.get ⟨⟨na, r⟩, a, b⟩ with
      | none => exact free r
      | some c =>
        obtain ⟨_, _, c1, c2, c3⟩ := minv.key _ _ hg
        obtain ⟨⟨cs, cr⟩, co, ca⟩ := c
        simp only at c1 c2 c3
        subst c1 c2 c3
        exact free cr
    rw [h1]
    simp only
    have h2 : s.latestLabel ⟨⟨na, r⟩, a, a⟩ = ⟨⟨na, nb⟩, a, a⟩ := by
      unfold Sys.latestLabel
      rcases hr with rfl | rfl
      · rw [mapped]
      · cases hg : s.incomplete.get ⟨⟨na, r⟩, a, a⟩ with
        | none => rfl
        | some c => exact absurd (minv.key _ _ hg).1 hnb
    rw [h2]
    exact stored
  have hcomp : r = nb → s.completeReference m = (s, .ok ()) := by
    intro hr
    unfold Sys.completeReference
    simp only
    rw [if_neg (by rw [hm]; simp [hna, hr, hnb, unassigned])]
    have : s.isPresent ⟨⟨m.reference.starter, unassigned⟩, m.sender, s.self⟩ = false := by
      unfold Sys.isPresent
      rw [GoMap.has_eq_false_iff, hself, hm]
      exact free []
    rw [this]
    simp
  have hid1 : (m.messageId == startingMessageId) = false := by
    rw [hm]; simp [signed, startingMessageId]; omega
  have hid0 : (m.messageId == startingTarget) = false := by
    rw [hm]; simp [signed, startingTarget]; omega
  have hst : (m.reference.starter != unassigned) = true := by rw [hm]; simpa [unassigned] using hna
  unfold Sys.update
  rw [if_neg (by rw [hm, hself]; simp [Message.hasSender, ha, hab]),
    if_neg (by rw [hm]; simp [Message.hasTo, ha]), if_neg (by rw [hm, hself]; simp)]
  simp only [hid1, hid0, hst]
  rcases hr with rfl | hr
  · have hre : (m.reference.responder != unassigned) = false := by rw [hm]; simp [unassigned]
    simp only [hre]
    simp [hget]
  · have hre : (m.reference.responder != unassigned) = true := by
      rw [hm, hr]; simpa [unassigned] using hnb
    simp only [hre]
    simp [hcomp hr, hget]

theorem ResponderSide.route {a b na nb : Bytes} {keep : Bool} {rules : RulesDecl} {p : Ptr}
    {hs : List Message} {s : Sys} (h : ResponderSide a b na nb keep rules p hs s)
    (hab : a ≠ b) (ha : a ≠ []) (hna : na ≠ []) (hnb : nb ≠ []) {m : Message} {n : Nat} (hn : 0 < n)
    {r perf : Bytes} {t : Int} (hr : r = [] ∨ r = nb)
    (hm : m = ⟨b, a, ⟨na, r⟩, signed true (n + 1), t, perf⟩) (nz : Bytes) :
    s.update m nz = s.updateFound m false (some p) :=
  responder_route h.inv h.minv h.stored h.mapped h.free hab ha hna hnb hn hr hm nz

/-- A message of the responder finds the opener's dialogue, whose reference is then complete. -/
theorem OpenerSide.route {a b na nb : Bytes} {keep : Bool} {rules : RulesDecl} {p : Ptr}
    {hs : List Message} {s : Sys} (h : OpenerSide a b na nb keep rules p hs s)
    (hab : a ≠ b) (hb : b ≠ []) (hna : na ≠ []) (hnb : nb ≠ []) {m : Message} {n : Nat}
    {perf : Bytes} {t : Int}
    (hm : m = ⟨a, b, ⟨na, nb⟩, signed false (n + 1), t, perf⟩) (nz : Bytes) :
    ∃ s1 d1, s.update m nz = s1.updateFound m false (some p) ∧ SInv a keep rules s1 ∧ MInv s1 ∧
      s1.heap[p]? = some d1 ∧ View a b true ⟨na, nb⟩ rules hs d1 ∧
      s1.byLabel.get ⟨⟨na, nb⟩, b, a⟩ = some p ∧ s1.byLabel.get ⟨⟨na, []⟩, b, a⟩ = none := by
  have hself := h.inv.selfEq
  obtain ⟨d, hd, hv⟩ := h.view
  -- completing the reference
  obtain ⟨s1, d1, hcomp, hd1, hv1, hb1, hb2⟩ : ∃ s1 d1, s.completeReference m = (s1, .ok ()) ∧
      s1.heap[p]? = some d1 ∧ View a b true ⟨na, nb⟩ rules hs d1 ∧
      s1.byLabel.get ⟨⟨na, nb⟩, b, a⟩ = some p ∧ s1.byLabel.get ⟨⟨na, []⟩, b, a⟩ = none := by
    by_cases hx : said b hs = []
    · rw [if_pos hx] at hv
      obtain ⟨c1, c2, c3⟩ := h.early hx
      obtain ⟨s2, hs2⟩ := removeDialogue_total (s := s) (l := ⟨⟨na, []⟩, b, a⟩) c3
      obtain ⟨r1, r2, r3, r4, r5, r6, r7, r8⟩ := Sys.removeDialogue_ok hs2
      have hd2 : s2.heap[p]? = some d := by rw [r4]; exact hd
      refine ⟨(s2.addDialogue p { d with label := ⟨⟨na, nb⟩, b, a⟩ }).setIncomplete
        ⟨⟨na, []⟩, b, a⟩ ⟨⟨na, nb⟩, b, a⟩,
        { d with label := ⟨⟨na, nb⟩, b, a⟩, callbacks := d.callbacks + 1 }, ?_, ?_, ?_, ?_, ?_⟩
      · unfold Sys.completeReference
        rw [hm]
        simp only [unassigned]
        rw [if_neg (by simp [hna, hnb])]
        have hp1 : s.isPresent ⟨⟨na, []⟩, b, s.self⟩ = true := by
          unfold Sys.isPresent; rw [hself, GoMap.has_iff]; exact ⟨p, c1⟩
        have hp2 : s.isInIncomplete ⟨⟨na, []⟩, b, s.self⟩ = false := by
          unfold Sys.isInIncomplete; rw [hself, GoMap.has_eq_false_iff]; exact c2
        have hp3 : s.getByLabel ⟨⟨na, []⟩, b, s.self⟩ = some p := by
          unfold Sys.getByLabel; rw [hself]; exact c1
        have hs2' : s.removeDialogue ⟨⟨na, []⟩, b, s.self⟩ = .ok s2 := by rw [hself]; exact hs2
        rw [hp1, hp2]
        simp only [Bool.not_false, Bool.and_self, if_true]
        rw [hp3]
        simp only
        rw [hs2']
        simp only
        rw [hd2]
        simp only
        have hul : d.updateLabel ⟨⟨na, nb⟩, b, s.self⟩ = .ok { d with label := ⟨⟨na, nb⟩, b, s.self⟩ } := by
          unfold Dialogue.updateLabel
          rw [if_neg (by simp [hnb, unassigned])]
        rw [hul]
        simp only
        rw [hself]
      · exact getElem?_set_self_of_some hd2
      · exact ⟨hv.ne, rfl, hv.self, hv.rules, hv.out, hv.inc, hv.order, hv.last, hv.parties, hv.mine,
          hv.theirs, hv.openerSpoke⟩
      · exact GoMap.get_set_self _ _ _
      · show (s2.byLabel.set _ _).get _ = none
        rw [GoMap.get_set_ne, r5, GoMap.get_erase_self]
        intro e; simp at e; exact hnb e
    · rw [if_neg hx] at hv
      obtain ⟨c1, c2⟩ := h.late hx
      refine ⟨s, d, ?_, hd, hv, c1, c2⟩
      unfold Sys.completeReference
      simp only
      rw [if_neg (by rw [hm]; simp [hna, hnb, unassigned])]
      have : s.isPresent ⟨⟨m.reference.starter, unassigned⟩, m.sender, s.self⟩ = false := by
        unfold Sys.isPresent
        rw [GoMap.has_eq_false_iff, hself, hm]
        exact c2
      rw [this]
      simp
  have hi1 := h.inv.completeReference hcomp (by simp)
  have hm1 := h.minv.completeReference hcomp (by simp)
  have hself1 := hi1.selfEq
  refine ⟨s1, d1, ?_, hi1, hm1, hd1, hv1, hb1, hb2⟩
  have hget : s1.getDialogue m = some p := by
    unfold Sys.getDialogue Sys.counterparty
    rw [hm, hself1]
    simp only
    have hbe : (b == a) = false := by simpa using fun h => hab h.symm
    rw [hbe]
    simp only [Bool.false_eq_true, if_false]
    have hll : s1.latestLabel ⟨⟨na, nb⟩, b, a⟩ = ⟨⟨na, nb⟩, b, a⟩ := by
      unfold Sys.latestLabel
      cases hg : s1.incomplete.get ⟨⟨na, nb⟩, b, a⟩ with
      | none => rfl
      | some l' => exact absurd (hm1.key _ _ hg).1 hnb
    rw [hll]
    have : s1.getByLabel ⟨⟨na, nb⟩, b, a⟩ = some p := hb1
    rw [this]
  have hba : ¬ b = a := fun h => hab h.symm
  have hre : (m.reference.responder != unassigned) = true := by
    rw [hm]; simpa [unassigned] using hnb
  have hst : (m.reference.starter != unassigned) = true := by rw [hm]; simpa [unassigned] using hna
  unfold Sys.update
  rw [if_neg (by rw [hm, hself]; simp [Message.hasSender, hb, hba]),
    if_neg (by rw [hm]; simp [Message.hasTo, hb]), if_neg (by rw [hm, hself]; simp)]
  simp only [hre, hst]
  simp [hcomp, hget]

/-- The parts of the state that concern the dialogues with `x` and starter reference `n` are unchanged. -/
structure Spared (x n : Bytes) (s s' : Sys) : Prop where
  heap : ∀ (p : Nat) (d : Dialogue), s.heap[p]? = some d → About x n d.label → s'.heap[p]? = some d
  byLabel : ∀ l : DialogueLabel, About x n l → s'.byLabel.get l = s.byLabel.get l
  incomplete : ∀ l : DialogueLabel, About x n l → s'.incomplete.get l = s.incomplete.get l
  listed : ∀ l p, About x n l → s.byLabel.get l = some p → s.addressList x ≠ [] → s'.addressList x ≠ []

theorem Frame.spared {z x n : Bytes} {s s' : Sys} (hf : Frame z s s') (hz : z ≠ x) :
    Spared x n s s' := by
  have hx : x ≠ z := fun e => hz e.symm
  refine ⟨fun p d hd h => hf.heap p d hd (by rw [h.1]; exact hx),
    fun l h => hf.byLabel l (by rw [h.1]; exact hx), fun l h => hf.incomplete l (by rw [h.1]; exact hx), ?_⟩
  intro l p h _ hne
  unfold Sys.addressList
  rw [hf.byAddress x hx]
  exact hne

theorem RefFrame.spared {me z k x n : Bytes} {keep : Bool} {rules : RulesDecl} {s s' : Sys}
    (hf : RefFrame z k s s') (hz : z ≠ x ∨ k ≠ n) (hi : SInv me keep rules s') (hx : XInv s') :
    Spared x n s s' := by
  have hn : ∀ l : DialogueLabel, About x n l → ¬ About z k l := by
    rintro l ⟨h1, h2⟩ ⟨h3, h4⟩
    rcases hz with hz | hz
    · exact hz (h3.symm.trans h1)
    · exact hz (h4.symm.trans h2)
  refine ⟨fun p d hd h => hf.heap p d hd (hn _ h), fun l h => hf.byLabel l (hn _ h),
    fun l h => hf.incomplete l (hn _ h), ?_⟩
  intro l p h hp _ he
  have := hx.mem hi (l := l) (p := p) (by rw [hf.byLabel l (hn _ h)]; exact hp)
  rw [h.1, he] at this
  simp at this

theorem OpenerSide.frame {a b na nb : Bytes} {keep : Bool} {rules : RulesDecl} {p : Ptr}
    {hs : List Message} {s s' : Sys} (h : OpenerSide a b na nb keep rules p hs s)
    (hi : SInv a keep rules s') (hm : MInv s') (hf : Spared b na s s') :
    OpenerSide a b na nb keep rules p hs s' := by
  obtain ⟨d, hd, hv⟩ := h.view
  refine ⟨hi, hm, ⟨d, hf.heap p d hd (by rw [hv.label]; exact ⟨rfl, rfl⟩), hv⟩, ?_, ?_⟩
  · intro hx
    obtain ⟨h1, h2, h3⟩ := h.early hx
    refine ⟨?_, ?_, hf.listed _ _ ⟨rfl, rfl⟩ h1 h3⟩
    · rw [hf.byLabel _ ⟨rfl, rfl⟩]; exact h1
    · rw [hf.incomplete _ ⟨rfl, rfl⟩]; exact h2
  · intro hx
    obtain ⟨h1, h2⟩ := h.late hx
    exact ⟨by rw [hf.byLabel _ ⟨rfl, rfl⟩]; exact h1, by rw [hf.byLabel _ ⟨rfl, rfl⟩]; exact h2⟩

theorem ResponderSide.frame {a b na nb : Bytes} {keep : Bool} {rules : RulesDecl} {p : Ptr}
    {hs : List Message} {s s' : Sys} (h : ResponderSide a b na nb keep rules p hs s)
    (hi : SInv b keep rules s') (hm : MInv s') (hf : Spared a na s s') :
    ResponderSide a b na nb keep rules p hs s' := by
  obtain ⟨d, hd, hv⟩ := h.view
  refine ⟨hi, hm, ⟨d, hf.heap p d hd (by rw [hv.label]; exact ⟨rfl, rfl⟩), hv⟩, ?_, ?_, ?_⟩
  · rw [hf.byLabel _ ⟨rfl, rfl⟩]; exact h.stored
  · rw [hf.incomplete _ ⟨rfl, rfl⟩]; exact h.mapped
  · intro r; rw [hf.byLabel _ ⟨rfl, rfl⟩]; exact h.free r

/-- What else the two agents do meanwhile spares the dialogue. `ok` is what has to be known about the
agents' stores. -/
structure Harmless (a b na : Bytes) (keepA keepB : Bool) (rulesA rulesB : RulesDecl)
    (ok : Sys → Prop) (busyA busyB : Sys → Call → Prop) : Prop where
  orderly : ∀ {me keep rules s c}, SInv me keep rules s → MInv s → ok s → Orderly s c →
    (s.call c).2 ≠ .crashed → ok (s.call c).1
  opener : ∀ {s c}, SInv a keepA rulesA s → MInv s → ok s → busyA s c → (s.call c).2 ≠ .crashed →
    ok (s.call c).1 ∧ Spared b na s (s.call c).1
  responder : ∀ {s c}, SInv b keepB rulesB s → MInv s → ok s → busyB s c → (s.call c).2 ≠ .crashed →
    ok (s.call c).1 ∧ Spared a na s (s.call c).1

theorem harmless_thirdParty {a b na : Bytes} {keepA keepB : Bool} {rulesA rulesB : RulesDecl} :
    Harmless a b na keepA keepB rulesA rulesB (fun _ => True) (ThirdParty b) (ThirdParty a) where
  orderly _ _ _ _ _ := trivial
  opener hi _ _ hb hc := by
    obtain ⟨z, hz, hb⟩ := hb
    exact ⟨trivial, (Frame.call hi hb hc).spared hz⟩
  responder hi _ _ hb hc := by
    obtain ⟨z, hz, hb⟩ := hb
    exact ⟨trivial, (Frame.call hi hb hc).spared hz⟩

theorem harmless_otherDialogue {a b na : Bytes} {keepA keepB : Bool} {rulesA rulesB : RulesDecl} :
    Harmless a b na keepA keepB rulesA rulesB XInv
      (fun s c => OtherDialogue b na s c ∧ Orderly s c)
      (fun s c => OtherDialogue a na s c ∧ Orderly s c) where
  orderly hi hm hx ho hc := hx.call hi hm ho hc
  opener hi hm hx hb hc := by
    obtain ⟨⟨z, k, hz, hb⟩, ho⟩ := hb
    have hx' := hx.call hi hm ho hc
    exact ⟨hx', (RefFrame.call hi hb hc).spared hz (hi.call _ hc) hx'⟩
  responder hi hm hx hb hc := by
    obtain ⟨⟨z, k, hz, hb⟩, ho⟩ := hb
    have hx' := hx.call hi hm ho hc
    exact ⟨hx', (RefFrame.call hi hb hc).spared hz (hi.call _ hc) hx'⟩

/-- What a delivered message has done. -/
theorem deliver_calls {s s' r r' : Sys} {p q : Ptr} {perf nonce : Bytes}
    (h : deliver s p r q perf nonce = some (s', r')) :
    s' = (s.call (.reply p perf none none)).1 ∧ (s.call (.reply p perf none none)).2 ≠ .crashed ∧
    ∃ m, r' = (r.call (.update m nonce)).1 ∧ (r.call (.update m nonce)).2 ≠ .crashed := by
  unfold deliver at h
  split at h
  · rename_i s1 _ m h1
    split at h
    · rename_i s2 _ _ h2
      split at h
      · simp only [Option.some.injEq, Prod.mk.injEq] at h
        obtain ⟨rfl, rfl⟩ := h
        exact ⟨by rw [h1], by rw [h1]; simp, m, by rw [h2], by rw [h2]; simp⟩
      · simp at h
    · simp at h
  · simp at h

/-- Speaking in a dialogue that is in the store is orderly. -/
theorem OpenerSide.orderly {a b na nb : Bytes} {keep : Bool} {rules : RulesDecl} {p : Ptr}
    {hs : List Message} {s : Sys} (h : OpenerSide a b na nb keep rules p hs s) (perf : Bytes) :
    Orderly s (.reply p perf none none) := by
  intro d hd
  left
  obtain ⟨d', hd', hv⟩ := h.view
  rw [hd] at hd'
  simp only [Option.some.injEq] at hd'
  subst hd'
  unfold Sys.getByLabel
  rw [hv.label]
  by_cases hx : said b hs = []
  · simp only [hx, if_true]; exact (h.early hx).1
  · simp only [hx, if_false]; exact (h.late hx).1

theorem ResponderSide.orderly {a b na nb : Bytes} {keep : Bool} {rules : RulesDecl} {p : Ptr}
    {hs : List Message} {s : Sys} (h : ResponderSide a b na nb keep rules p hs s) (perf : Bytes) :
    Orderly s (.reply p perf none none) := by
  intro d hd
  left
  obtain ⟨d', hd', hv⟩ := h.view
  rw [hd] at hd'
  simp only [Option.some.injEq] at hd'
  subst hd'
  unfold Sys.getByLabel
  rw [hv.label]
  exact h.stored

/-- The opener speaks. -/
theorem opener_turn {a b na nb : Bytes} {keepA keepB : Bool} {rulesA rulesB : RulesDecl}
    {pA pB : Ptr} {hs : List Message} {sA sB : Sys}
    (hA : OpenerSide a b na nb keepA rulesA pA hs sA)
    (hB : ResponderSide a b na nb keepB rulesB pB hs sB)
    (hab : a ≠ b) (ha : a ≠ []) (hna : na ≠ []) (hnb : nb ≠ []) {l : Message}
    (hl : hs.getLast? = some l) (perf nz : Bytes)
    (hkA : perf ∈ rulesA.terminal → keepA = true) (hkB : perf ∈ rulesB.terminal → keepB = true) :
    (IsValidReply rulesA l.performative perf ∧ IsValidReply rulesB l.performative perf ∧
        (said a hs).length = (said l.sender hs).length →
      ∃ sA' sB' m, deliver sA pA sB pB perf nz = some (sA', sB') ∧ m.sender = a ∧
        m.performative = perf ∧ OpenerSide a b na nb keepA rulesA pA (hs ++ [m]) sA' ∧
        ResponderSide a b na nb keepB rulesB pB (hs ++ [m]) sB') ∧
    (¬ (IsValidReply rulesA l.performative perf ∧ IsValidReply rulesB l.performative perf ∧
        (said a hs).length = (said l.sender hs).length) →
      deliver sA pA sB pB perf nz = none) := by
  obtain ⟨dA, hdA, hvA⟩ := hA.view
  obtain ⟨dB, hdB, hvB⟩ := hB.view
  have hpos : 0 < (said a hs).length := hvA.said_opener_length
  have hane : said a hs ≠ [] := List.length_pos_iff.1 hpos
  generalize hrr : (if said b hs = [] then [] else nb) = r at hvA
  have hr : r = [] ∨ r = nb := by rw [← hrr]; split <;> simp
  obtain ⟨m, hm⟩ : ∃ m : Message, m = ⟨b, a, ⟨na, r⟩, signed true ((said a hs).length + 1),
    l.messageId, perf⟩ := ⟨_, rfl⟩
  have hrep := View.reply_step hA.inv hdA hvA hl perf hkA hm
  have hroute := hB.route hab ha hna hnb hpos hr hm nz
  have href : RefFits false ⟨na, nb⟩ ⟨na, r⟩ := ⟨rfl, fun _ => by
    rcases hr with h | h
    · exact Or.inr h
    · exact Or.inl (by rw [h])⟩
  have hfound := View.found_step hB.inv hdB hvB hl perf hkB ha href hm
  have hms : m.sender = a := by rw [hm]
  have hba : ¬ a = b := hab
  constructor
  · rintro ⟨h1, h2, h3⟩
    obtain ⟨tA, hcA⟩ := hrep.1 h1
    obtain ⟨tB, hcB⟩ := hfound.1 ⟨h2, Or.inr h3⟩
    have hcB' : sB.call (.update m nz) =
        ({ sB.setHeap pB (dB.record m) with terminal := tB }, .accepted (some pB) none) := by
      rw [call_update_eq, hroute, hcB]
      rfl
    have hsb : said b (hs ++ [m]) = said b hs := by
      rw [said_append, if_neg (by rw [hms]; exact hab)]
    refine ⟨{ sA.setHeap pA (dA.record m) with terminal := tA },
      { sB.setHeap pB (dB.record m) with terminal := tB }, m, ?_, hms, by rw [hm], ?_, ?_⟩
    · unfold deliver
      rw [hcA]
      simp only
      rw [hcB']
      simp
    · have hi := hA.inv.call (.reply pA perf none none) (by rw [hcA]; simp)
      have hmi := hA.minv.call (.reply pA perf none none) (by rw [hcA]; simp)
      rw [hcA] at hi hmi
      refine ⟨hi, hmi, ⟨dA.record m, getElem?_set_self_of_some hdA, ?_⟩, ?_, ?_⟩
      · rw [hsb, hrr]
        exact hvA.record (Or.inl hms) (fun _ => by rw [hm])
          (fun e => absurd (hms.symm.trans e) hab)
      · rw [hsb]; exact hA.early
      · rw [hsb]; exact hA.late
    · have hi := hB.inv.call (.update m nz) (by rw [hcB']; simp)
      have hmi := hB.minv.call (.update m nz) (by rw [hcB']; simp)
      rw [hcB'] at hi hmi
      refine ⟨hi, hmi, ⟨dB.record m, getElem?_set_self_of_some hdB, ?_⟩, hB.stored, hB.mapped,
        hB.free⟩
      exact hvB.record (Or.inr hms) (fun e => absurd (hms.symm.trans e) hab)
        (fun _ => by rw [hm]; rfl)
  · intro hn
    unfold deliver
    by_cases h1 : IsValidReply rulesA l.performative perf
    · obtain ⟨tA, hcA⟩ := hrep.1 h1
      have hn2 : ¬ (IsValidReply rulesB l.performative perf ∧
          (said a hs = [] ∨ (said a hs).length = (said l.sender hs).length)) := by
        rintro ⟨h2, h3 | h3⟩
        · exact hane h3
        · exact hn ⟨h1, h2, h3⟩
      obtain ⟨e, he, _⟩ := hfound.2 hn2
      have hcB' : sB.call (.update m nz) = (sB, .failed e) := by
        rw [call_update_eq, hroute, he]
        rfl
      rw [hcA]
      simp only
      rw [hcB']
    · rw [hrep.2 h1]

/-- The responder speaks. -/
theorem responder_turn {a b na nb : Bytes} {keepA keepB : Bool} {rulesA rulesB : RulesDecl}
    {pA pB : Ptr} {hs : List Message} {sA sB : Sys}
    (hA : OpenerSide a b na nb keepA rulesA pA hs sA)
    (hB : ResponderSide a b na nb keepB rulesB pB hs sB)
    (hab : a ≠ b) (hb : b ≠ []) (hna : na ≠ []) (hnb : nb ≠ []) {l : Message}
    (hl : hs.getLast? = some l) (perf nz : Bytes)
    (hkA : perf ∈ rulesA.terminal → keepA = true) (hkB : perf ∈ rulesB.terminal → keepB = true) :
    (IsValidReply rulesA l.performative perf ∧ IsValidReply rulesB l.performative perf ∧
        (said b hs = [] ∨ (said b hs).length = (said l.sender hs).length) →
      ∃ sA' sB' m, deliver sB pB sA pA perf nz = some (sB', sA') ∧ m.sender = b ∧
        m.performative = perf ∧ OpenerSide a b na nb keepA rulesA pA (hs ++ [m]) sA' ∧
        ResponderSide a b na nb keepB rulesB pB (hs ++ [m]) sB') ∧
    (¬ (IsValidReply rulesA l.performative perf ∧ IsValidReply rulesB l.performative perf ∧
        (said b hs = [] ∨ (said b hs).length = (said l.sender hs).length)) →
      deliver sB pB sA pA perf nz = none) := by
  obtain ⟨dB, hdB, hvB⟩ := hB.view
  obtain ⟨m, hm⟩ : ∃ m : Message, m = ⟨a, b, ⟨na, nb⟩, signed false ((said b hs).length + 1),
    l.messageId, perf⟩ := ⟨_, rfl⟩
  have hrep := View.reply_step hB.inv hdB hvB hl perf hkB hm
  obtain ⟨s1, d1, hroute, hi1, hm1, hd1, hv1, hb1, hb2⟩ := hA.route hab hb hna hnb hm nz
  have href : RefFits true ⟨na, nb⟩ ⟨na, nb⟩ := ⟨rfl, fun h => by simp at h⟩
  have hfound := View.found_step hi1 hd1 hv1 hl perf hkA hb href hm
  have hms : m.sender = b := by rw [hm]
  constructor
  · rintro ⟨h1, h2, h3⟩
    obtain ⟨tB, hcB⟩ := hrep.1 h2
    obtain ⟨tA, hcA⟩ := hfound.1 ⟨h1, h3⟩
    have hcA' : sA.call (.update m nz) =
        ({ s1.setHeap pA (d1.record m) with terminal := tA }, .accepted (some pA) none) := by
      rw [call_update_eq, hroute, hcA]
      rfl
    have hsb : said b (hs ++ [m]) ≠ [] := by
      rw [said_append, if_pos hms]; simp
    refine ⟨{ s1.setHeap pA (d1.record m) with terminal := tA },
      { sB.setHeap pB (dB.record m) with terminal := tB }, m, ?_, hms, by rw [hm], ?_, ?_⟩
    · unfold deliver
      rw [hcB]
      simp only
      rw [hcA']
      simp
    · have hi := hA.inv.call (.update m nz) (by rw [hcA']; simp)
      have hmi := hA.minv.call (.update m nz) (by rw [hcA']; simp)
      rw [hcA'] at hi hmi
      refine ⟨hi, hmi, ⟨d1.record m, getElem?_set_self_of_some hd1, ?_⟩,
        fun h => absurd h hsb, fun _ => ⟨hb1, hb2⟩⟩
      rw [if_neg hsb]
      exact hv1.record (Or.inr hms) (fun e => absurd (e.symm.trans hms) hab) (fun _ => by rw [hm]; rfl)
    · have hi := hB.inv.call (.reply pB perf none none) (by rw [hcB]; simp)
      have hmi := hB.minv.call (.reply pB perf none none) (by rw [hcB]; simp)
      rw [hcB] at hi hmi
      refine ⟨hi, hmi, ⟨dB.record m, getElem?_set_self_of_some hdB, ?_⟩, hB.stored, hB.mapped,
        hB.free⟩
      exact hvB.record (Or.inl hms) (fun _ => by rw [hm]) (fun e => absurd (e.symm.trans hms) hab)
  · intro hn
    unfold deliver
    by_cases h2 : IsValidReply rulesB l.performative perf
    · obtain ⟨tB, hcB⟩ := hrep.1 h2
      obtain ⟨e, he, _⟩ := hfound.2 (fun h => hn ⟨h.1, h2, h.2⟩)
      have hcA' : sA.call (.update m nz) = (s1, .failed e) := by
        rw [call_update_eq, hroute, he]
        rfl
      rw [hcB]
      simp only
      rw [hcA']
    · rw [hrep.2 h2]

end Verif
