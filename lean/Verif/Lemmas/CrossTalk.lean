import Verif.Lemmas.Talk
import Verif.Lemmas.Accept
import Verif.Spec.CrossTalk

/-! Lemmas for conversations whose messages travel: what one agent's dialogue accepts, and what is
kept of the messages under way. -/

namespace Verif.CrossTalk

/-! ### One dialogue -/

/-- The dialogue of `me` with `other`; `o` says that `me` opened it. -/
structure End (me other : Bytes) (o : Bool) (rules : RulesDecl) (d : Dialogue) : Prop where
  ne : me ≠ other
  dinv : DInv me rules d
  opp : d.label.opponent = other
  starter : d.label.starterAddr = if o then me else other
  spoken : d.isEmpty = false
  ids : ∀ (i : Nat) (m : Message), d.outgoing[i]? = some m → m.messageId = signed o (i + 1)
  last : (d.outgoing ≠ [] ∧ d.lastMessageId = signed o d.outgoing.length) ∨
    ∃ l, d.incoming.getLast? = some l ∧ d.lastMessageId = l.messageId

/-- The counterparty's messages carry consecutive ids. -/
def Whole (o : Bool) (d : Dialogue) : Prop :=
  ∀ (i : Nat) (m : Message), d.incoming[i]? = some m → m.messageId = signed (!o) (i + 1)

/-- What is known of the message recorded last: it is the own last one, or there is at most one own
message, or its id is beyond the own ones. -/
def Ahead (o : Bool) (d : Dialogue) : Prop :=
  d.lastMessageId = signed o d.outgoing.length ∨ d.outgoing.length ≤ 1 ∨
    d.outgoing.length + 1 ≤ d.lastMessageId.natAbs

section
variable {me other : Bytes} {o : Bool} {rules : RulesDecl} {d : Dialogue}

theorem End.selfInit (e : End me other o rules d) : d.isSelfInitiated = o := by
  unfold Dialogue.isSelfInitiated
  rw [e.starter, e.opp]
  have := e.ne
  cases o <;> simp [this]

theorem End.lastOut (e : End me other o rules d) {l : Message} (hl : d.outgoing.getLast? = some l) :
    l.messageId.natAbs = d.outgoing.length := by
  have hne : d.outgoing ≠ [] := by intro h; rw [h] at hl; simp at hl
  have hpos : 0 < d.outgoing.length := List.length_pos_iff.2 hne
  rw [List.getLast?_eq_getElem?] at hl
  rw [e.ids _ _ hl, natAbs_signed]
  omega

theorem Whole.lastIn (h : Whole o d) {l : Message} (hl : d.incoming.getLast? = some l) :
    l.messageId.natAbs = d.incoming.length := by
  have hne : d.incoming ≠ [] := by intro h; rw [h] at hl; simp at hl
  have hpos : 0 < d.incoming.length := List.length_pos_iff.2 hne
  rw [List.getLast?_eq_getElem?] at hl
  rw [h _ _ hl, natAbs_signed]
  omega

theorem Whole.noGap (h : Whole o d) (t : Int) : ¬ Gap d t := by
  rintro ⟨l, hl, h1, h2⟩
  have := h.lastIn hl
  omega

/-- Where a message found by its id lies. -/
theorem End.found (e : End me other o rules d) {t : Int} {x : Message}
    (h : d.getMessageById t = .ok (some x)) :
    (∃ n, t = signed o n ∧ n ≤ d.outgoing.length) ∨
    (∃ n l, t = signed (!o) n ∧ d.incoming.getLast? = some l ∧ n ≤ l.messageId.natAbs) := by
  unfold Dialogue.getMessageById at h
  rw [e.spoken, e.selfInit] at h
  simp only [Bool.false_eq_true, if_false] at h
  split at h
  · simp at h
  rename_i h0
  by_cases hp : decide (0 < t) = o
  · rw [if_pos hp] at h
    left
    refine ⟨t.natAbs, ?_, ?_⟩
    · unfold signed; cases o <;> simp at hp ⊢ <;> omega
    · cases hl : d.outgoing.getLast? with
      | none => rw [hl] at h; simp at h
      | some l =>
        rw [hl] at h
        simp only at h
        split at h
        · simp at h
        rename_i hle
        rw [absId_eq, absId_eq, e.lastOut hl] at hle
        omega
  · rw [if_neg hp] at h
    right
    cases hl : d.incoming.getLast? with
    | none => rw [hl] at h; simp at h
    | some l =>
      rw [hl] at h
      simp only at h
      split at h
      · simp at h
      rename_i hle
      rw [absId_eq, absId_eq] at hle
      refine ⟨t.natAbs, l, ?_, rfl, by omega⟩
      unfold signed; cases o <;> simp at hp ⊢ <;> omega

theorem target_found {m : Message} (h : d.validateMessageTarget m = .ok ()) (h1 : m.messageId ≠ 1) :
    ∃ x, d.getMessageById m.target = .ok (some x) := by
  unfold Dialogue.validateMessageTarget at h
  rw [if_neg (by exact h1)] at h
  split at h
  · simp at h
  simp only at h
  rw [Res.bind_eq_ok] at h
  obtain ⟨mx, _, h⟩ := h
  split at h
  · simp at h
  rw [Res.bind_eq_ok] at h
  obtain ⟨tm, htm, h⟩ := h
  cases tm with
  | none => simp at h
  | some x => exact ⟨x, htm⟩

/-- The facts about an accepted message of the counterparty. -/
structure Accepts (me other : Bytes) (o : Bool) (d : Dialogue) (m : Message) : Prop where
  sender : m.sender = other
  first : d.incoming = [] → m.messageId.natAbs = 1
  next : d.incoming ≠ [] → m.messageId.natAbs = d.lastMessageId.natAbs + 1
  found : m.messageId ≠ 1 → ∃ x, d.getMessageById m.target = .ok (some x)

theorem End.accepts (e : End me other o rules d) {m m' : Message} {d' : Dialogue} {t : Bool}
    (hs : m.sender = other) (hother : other ≠ []) (hto : m.to = me)
    (h : d.updateCore m = .ok (d', m', t)) :
    d' = d.record m ∧ m' = m ∧ Accepts me other o d m := by
  obtain ⟨hm', _, hv, _, hrec⟩ := Dialogue.updateCore_ok h
  have hws : d.withSender m = m := by
    unfold Dialogue.withSender
    rw [if_pos]
    simpa [Message.hasSender, hs] using hother
  rw [hws] at hm'
  subst hm'
  unfold Dialogue.validateNext at hv
  rw [e.spoken] at hv
  simp only [Bool.false_eq_true, if_false] at hv
  obtain ⟨_, hid, hv⟩ := Dialogue.validateNonInitial_ok hv
  rw [if_pos (by rw [hto, e.dinv.selfAddr])] at hid
  refine ⟨hrec, rfl, hs, ?_, ?_, target_found hv⟩
  · intro hi
    unfold Dialogue.nextIncomingId Dialogue.lastIncoming at hid
    rw [hi] at hid
    rw [hid]
    simp only [List.getLast?_nil, startingMessageId]
    split <;> rfl
  · intro hi
    unfold Dialogue.nextIncomingId Dialogue.lastIncoming at hid
    cases hl : d.incoming.getLast? with
    | none => rw [List.getLast?_eq_none_iff] at hl; exact absurd hl hi
    | some l =>
      rw [hl] at hid
      simp only [absId_eq] at hid
      rw [hid]
      split <;> omega

/-- The ids of the counterparty continue without a gap if its message is new and answers what the
sender knew. -/
theorem End.contiguous (e : End me other o rules d) (hw : Whole o d) {m : Message}
    (ha : Accepts me other o d m) {n : Nat} (hid : m.messageId = signed (!o) n)
    (hnew : d.incoming.length < n)
    (hlaw : n ≤ 2 ∨ m.target = signed (!o) (n - 1) ∨ n ≤ m.target.natAbs) :
    n = d.incoming.length + 1 := by
  have hn : m.messageId.natAbs = n := by rw [hid, natAbs_signed]
  by_cases hemp : d.incoming = []
  · have := ha.first hemp
    rw [hemp]
    simp
    omega
  have hpos : 0 < d.incoming.length := List.length_pos_iff.2 hemp
  have hnext := ha.next hemp
  rw [hn] at hnext
  have h1 : m.messageId ≠ 1 := by intro h; rw [h] at hn; simp at hn; omega
  obtain ⟨x, hx⟩ := ha.found h1
  rcases hlaw with h | h | h
  · omega
  · rcases e.found hx with ⟨k, hk, hle⟩ | ⟨k, l, hk, hl, hle⟩
    · rw [h] at hk
      have : n - 1 = 0 := by
        unfold signed at hk
        cases o <;> simp at hk <;> omega
      omega
    · rw [hw.lastIn hl] at hle
      have := congrArg Int.natAbs (h.symm.trans hk)
      rw [natAbs_signed, natAbs_signed] at this
      omega
  · rcases e.found hx with ⟨k, hk, hle⟩ | ⟨k, l, hk, hl, hle⟩
    · rw [hk, natAbs_signed] at h
      rcases e.last with ⟨_, hL⟩ | ⟨l, hl, hL⟩
      · rw [hL, natAbs_signed] at hnext
        omega
      · rw [hL, hw.lastIn hl] at hnext
        exact hnext
    · rw [hk, natAbs_signed] at h
      rw [hw.lastIn hl] at hle
      omega

/-- Recording a message of the counterparty. -/
theorem End.hear (e : End me other o rules d) {m : Message} (hs : m.sender = other)
    (hd : DInv me rules (d.record m)) : End me other o rules (d.record m) ∧
      (d.record m).outgoing = d.outgoing ∧ (d.record m).incoming = d.incoming ++ [m] ∧
      (d.record m).lastMessageId = m.messageId ∧ (d.record m).label = d.label := by
  have hns : ¬ m.sender = d.selfAddress := by rw [hs, e.dinv.selfAddr]; exact fun h => e.ne h.symm
  have hrec : d.record m = { d with
      incoming := d.incoming ++ [m], lastMessageId := m.messageId,
      orderedIds := d.orderedIds ++ [m.messageId] } := by
    rw [Dialogue.record_eq, if_neg hns, if_neg hns]
  rw [hrec] at hd ⊢
  refine ⟨⟨e.ne, hd, e.opp, e.starter, ?_, e.ids, Or.inr ⟨m, by simp, rfl⟩⟩, rfl, rfl, rfl, rfl⟩
  cases hh : Dialogue.isEmpty _ with
  | false => rfl
  | true => rw [Dialogue.isEmpty_iff] at hh; simp at hh

/-- Recording an own message. -/
theorem End.say (e : End me other o rules d) {m : Message} (hs : m.sender = me)
    (hid : m.messageId = signed o (d.outgoing.length + 1))
    (hd : DInv me rules (d.record m)) : End me other o rules (d.record m) ∧
      (d.record m).outgoing = d.outgoing ++ [m] ∧ (d.record m).incoming = d.incoming ∧
      (d.record m).lastMessageId = m.messageId ∧ (d.record m).label = d.label := by
  have hns : m.sender = d.selfAddress := by rw [hs, e.dinv.selfAddr]
  have hrec : d.record m = { d with
      outgoing := d.outgoing ++ [m], lastMessageId := m.messageId,
      orderedIds := d.orderedIds ++ [m.messageId] } := by
    rw [Dialogue.record_eq, if_pos hns, if_pos hns]
  rw [hrec] at hd ⊢
  refine ⟨⟨e.ne, hd, e.opp, e.starter, ?_, ?_, Or.inl ⟨by simp, by simp [hid]⟩⟩, rfl, rfl, rfl, rfl⟩
  · cases hh : Dialogue.isEmpty _ with
    | false => rfl
    | true => rw [Dialogue.isEmpty_iff] at hh; simp at hh
  · intro i y hy
    rcases Nat.lt_or_ge i d.outgoing.length with hi | hi
    · rw [List.getElem?_append_left hi] at hy; exact e.ids i y hy
    · rw [List.getElem?_append_right hi] at hy
      have h0 : i - d.outgoing.length = 0 := by
        apply Classical.byContradiction
        intro hc
        rw [List.getElem?_eq_none (by simp; omega)] at hy
        simp at hy
      rw [h0] at hy
      simp at hy
      subst hy
      rw [hid, show i = d.outgoing.length by omega]

/-- What a default reply looks like. -/
theorem End.reply (e : End me other o rules d) {perf : Bytes} {m : Message}
    (h : d.replyMessage perf none none = .ok m) :
    m.sender = me ∧ m.to = other ∧ m.reference = d.label.reference ∧ m.performative = perf ∧
      m.messageId = signed o (d.outgoing.length + 1) ∧ m.target = d.lastMessageId := by
  obtain ⟨_, _, hs, hto, href, hid, hpf, _⟩ := Dialogue.replyMessage_ok h
  refine ⟨hs.trans e.dinv.selfAddr, hto.trans e.opp, href, hpf, ?_, ?_⟩
  · rw [hid, Dialogue.nextOutgoingId_eq e.dinv, e.selfInit]
    unfold signed
    cases o <;> simp
  · unfold Dialogue.replyMessage at h
    cases hlm : d.lastMessage with
    | none => rw [hlm] at h; simp at h
    | some l =>
      rw [hlm] at h
      simp only [Res.bind] at h
      have htl : m.target = l.messageId := by
        cases hh : d.hasMessageId l.messageId with
        | ok bb =>
          rw [hh] at h
          cases bb with
          | true => simp only [if_true, Res.ok.injEq] at h; rw [← h]
          | false => simp at h
        | err e => rw [hh] at h; simp at h
        | panic => rw [hh] at h; simp at h
      rw [htl]
      unfold Dialogue.lastMessage Dialogue.lastIncoming Dialogue.lastOutgoing at hlm
      split at hlm
      · simp at hlm
      rcases e.last with ⟨hne, hL⟩ | ⟨y, hy, hL⟩
      · cases ho : d.outgoing.getLast? with
        | none => rw [List.getLast?_eq_none_iff] at ho; exact absurd ho hne
        | some z =>
          have hz : z.messageId = d.lastMessageId := by
            rw [hL]
            have h2 := ho
            rw [List.getLast?_eq_getElem?] at h2
            rw [e.ids _ _ h2]
            have : 0 < d.outgoing.length := List.length_pos_iff.2 hne
            rw [show d.outgoing.length - 1 + 1 = d.outgoing.length by omega]
          rw [ho] at hlm
          cases hi : d.incoming.getLast? with
          | none => rw [hi] at hlm; simp at hlm; rw [← hlm]; exact hz
          | some y =>
            rw [hi] at hlm
            simp only at hlm
            split at hlm
            · simp at hlm; subst hlm; assumption
            · simp at hlm; rw [← hlm]; exact hz
      · rw [hy] at hlm
        simp only [hL, if_true] at hlm
        simp at hlm
        rw [← hlm, hL]

end

/-! ### One direction of the messages -/

/-- Messages of `snd` on their way to `rcv`: `ds` is the dialogue of the sender, `dr` that of the
receiver, `ok` what the messages look like otherwise. -/
structure Way (snd : Bytes) (o : Bool) (ok : Message → Prop) (ds dr : Dialogue)
    (fl : List Message) : Prop where
  shape : ∀ (i : Nat) (m : Message), ds.outgoing[i]? = some m → m.sender = snd ∧
    m.messageId = signed o (i + 1) ∧ ok m ∧
    (i + 1 ≤ 2 ∨ m.target = signed o i ∨ i + 1 ≤ m.target.natAbs)
  got : dr.incoming <+: ds.outgoing
  flying : ∀ m ∈ fl, m.sender = snd → ∃ i, dr.incoming.length ≤ i ∧ ds.outgoing[i]? = some m
  once : (said snd fl).Nodup
  ahead : Ahead o ds

section
variable {snd : Bytes} {o : Bool} {ok : Message → Prop} {ds ds' dr dr' : Dialogue}
  {fl fl' : List Message}

theorem said_sublist (x : Bytes) (h : fl'.Sublist fl) : (said x fl').Sublist (said x fl) :=
  h.filter _

theorem Way.whole (w : Way snd o ok ds dr fl) : Whole (!o) dr := by
  intro i m hm
  rw [Bool.not_not]
  obtain ⟨t, ht⟩ := w.got
  have hi : i < dr.incoming.length := by
    apply Classical.byContradiction
    intro hc
    rw [List.getElem?_eq_none (by omega)] at hm
    simp at hm
  refine (w.shape i m ?_).2.1
  rw [← ht, List.getElem?_append_left hi]
  exact hm

/-- Messages get lost, or are refused. -/
theorem Way.fewer (w : Way snd o ok ds dr fl) (h : fl'.Sublist fl) : Way snd o ok ds dr fl' :=
  ⟨w.shape, w.got, fun m hm => w.flying m (h.subset hm), w.once.sublist (said_sublist snd h), w.ahead⟩

/-- The dialogues change in other respects. -/
theorem Way.same (w : Way snd o ok ds dr fl) (h1 : ds'.outgoing = ds.outgoing)
    (h2 : dr'.incoming = dr.incoming) (h3 : Ahead o ds') : Way snd o ok ds' dr' fl := by
  refine ⟨?_, ?_, ?_, w.once, h3⟩
  · rw [h1]; exact w.shape
  · rw [h1, h2]; exact w.got
  · rw [h1, h2]; exact w.flying

/-- The sender speaks. -/
theorem Way.says (w : Way snd o ok ds dr fl) {m : Message} (hs : m.sender = snd)
    (hid : m.messageId = signed o (ds.outgoing.length + 1)) (hok : ok m)
    (ht : m.target = ds.lastMessageId) (h1 : ds'.outgoing = ds.outgoing ++ [m])
    (h2 : ds'.lastMessageId = m.messageId) : Way snd o ok ds' dr (fl ++ [m]) := by
  have hidx : ∀ (i : Nat) (y : Message), ds'.outgoing[i]? = some y →
      ds.outgoing[i]? = some y ∨ (i = ds.outgoing.length ∧ y = m) := by
    intro i y hy
    rw [h1] at hy
    rcases Nat.lt_or_ge i ds.outgoing.length with hi | hi
    · rw [List.getElem?_append_left hi] at hy; exact Or.inl hy
    · rw [List.getElem?_append_right hi] at hy
      have h0 : i - ds.outgoing.length = 0 := by
        apply Classical.byContradiction
        intro hc
        rw [List.getElem?_eq_none (by simp; omega)] at hy
        simp at hy
      rw [h0] at hy
      simp at hy
      exact Or.inr ⟨by omega, hy.symm⟩
  refine ⟨?_, ?_, ?_, ?_, ?_⟩
  · intro i y hy
    rcases hidx i y hy with hy | ⟨rfl, rfl⟩
    · exact w.shape i y hy
    · refine ⟨hs, hid, hok, ?_⟩
      rw [ht]
      rcases w.ahead with h | h | h
      · exact Or.inr (Or.inl h)
      · left; omega
      · exact Or.inr (Or.inr h)
  · rw [h1]; exact w.got.trans (List.prefix_append _ _)
  · intro y hy hys
    rcases List.mem_append.1 hy with hy | hy
    · obtain ⟨i, h3, h4⟩ := w.flying y hy hys
      refine ⟨i, h3, ?_⟩
      have hi : i < ds.outgoing.length := by
        apply Classical.byContradiction
        intro hc
        rw [List.getElem?_eq_none (by omega)] at h4
        simp at h4
      rw [h1, List.getElem?_append_left hi]
      exact h4
    · simp at hy
      subst hy
      refine ⟨ds.outgoing.length, w.got.length_le, ?_⟩
      rw [h1]
      simp
  · rw [said_append, if_pos hs, List.nodup_append]
    refine ⟨w.once, by simp, ?_⟩
    intro x hx y hy e
    simp at hy
    subst hy
    subst e
    unfold said at hx
    rw [List.mem_filter] at hx
    obtain ⟨i, _, h4⟩ := w.flying x hx.1 (by simpa using hx.2)
    have hi : i < ds.outgoing.length := by
      apply Classical.byContradiction
      intro hc
      rw [List.getElem?_eq_none (by omega)] at h4
      simp at h4
    have := congrArg Int.natAbs ((w.shape i x h4).2.1.symm.trans hid)
    rw [natAbs_signed, natAbs_signed] at this
    omega
  · left
    rw [h2, hid, h1]
    simp

/-- The receiver speaks. -/
theorem Way.other (w : Way snd o ok ds dr fl) {m : Message} (hs : m.sender ≠ snd)
    (h1 : dr'.incoming = dr.incoming) : Way snd o ok ds dr' (fl ++ [m]) := by
  refine ⟨w.shape, by rw [h1]; exact w.got, ?_, ?_, w.ahead⟩
  · rw [h1]
    intro y hy hys
    rcases List.mem_append.1 hy with hy | hy
    · exact w.flying y hy hys
    · simp at hy; subst hy; exact absurd hys hs
  · rw [said_append, if_neg hs]; exact w.once

theorem eraseIdx_split {α : Type} {l : List α} {i : Nat} {x : α} (h : l[i]? = some x) :
    ∃ pre post, l = pre ++ x :: post ∧ l.eraseIdx i = pre ++ post := by
  refine ⟨l.take i, l.drop (i + 1), ?_, List.eraseIdx_eq_take_drop_succ l i⟩
  have hi : i < l.length := by
    apply Classical.byContradiction
    intro hc
    rw [List.getElem?_eq_none (by omega)] at h
    simp at h
  rw [List.getElem?_eq_getElem hi] at h
  simp only [Option.some.injEq] at h
  rw [← h, ← List.drop_eq_getElem_cons hi, List.take_append_drop]

/-- The receiver records the next message. -/
theorem Way.hears (w : Way snd o ok ds dr fl) {m : Message} {i : Nat} (hi : fl[i]? = some m)
    (hs : m.sender = snd) (hid : m.messageId = signed o (dr.incoming.length + 1))
    (h1 : dr'.incoming = dr.incoming ++ [m]) : Way snd o ok ds dr' (fl.eraseIdx i) := by
  have hmem : m ∈ fl := List.mem_of_getElem? hi
  have hat : ds.outgoing[dr.incoming.length]? = some m := by
    obtain ⟨k, hk, hm⟩ := w.flying m hmem hs
    have := congrArg Int.natAbs ((w.shape k m hm).2.1.symm.trans hid)
    rw [natAbs_signed, natAbs_signed] at this
    rw [show dr.incoming.length = k by omega]
    exact hm
  obtain ⟨pre, post, hfl, her⟩ := eraseIdx_split hi
  refine ⟨w.shape, ?_, ?_, w.once.sublist (said_sublist snd (List.eraseIdx_sublist _ _)), w.ahead⟩
  · rw [h1]
    obtain ⟨t, ht⟩ := w.got
    rw [← ht, List.getElem?_append_right (Nat.le_refl _), Nat.sub_self] at hat
    cases t with
    | nil => simp at hat
    | cons y t =>
      simp at hat
      subst hat
      exact ⟨t, by rw [← ht]; simp⟩
  · intro y hy hys
    have hy' : y ∈ fl := (List.eraseIdx_sublist _ _).subset hy
    obtain ⟨k, hk, hky⟩ := w.flying y hy' hys
    refine ⟨k, ?_, hky⟩
    rw [h1]
    simp only [List.length_append, List.length_singleton]
    apply Classical.byContradiction
    intro hc
    have hke : k = dr.incoming.length := by omega
    rw [hke, hat] at hky
    simp only [Option.some.injEq] at hky
    subst hky
    rw [her] at hy
    have hn := w.once
    rw [hfl] at hn
    unfold said at hn
    rw [List.filter_append, List.filter_cons_of_pos (by simpa using hs), List.nodup_append] at hn
    obtain ⟨_, h3, h4⟩ := hn
    rw [List.nodup_cons] at h3
    rcases List.mem_append.1 hy with hy | hy
    · exact h4 m (List.mem_filter.2 ⟨hy, by simpa using hs⟩) m (by simp) rfl
    · exact h3.1 (List.mem_filter.2 ⟨hy, by simpa using hs⟩)

end

/-- Recording a message of the counterparty keeps the last message ahead, unless it is the
counterparty's first and the own messages are many. -/
theorem Ahead.hear {me other : Bytes} {o : Bool} {d d' : Dialogue} {m : Message} (h : Ahead o d)
    (ha : Accepts me other o d m) (hw : d.outgoing.length ≤ 1 ∨ d.incoming ≠ [])
    (h1 : d'.outgoing = d.outgoing) (h2 : d'.lastMessageId = m.messageId) : Ahead o d' := by
  unfold Ahead
  rw [h1, h2]
  by_cases hj : d.outgoing.length ≤ 1
  · exact Or.inr (Or.inl hj)
  · have hn := ha.next (hw.resolve_left hj)
    right; right
    rcases h with h | h | h
    · rw [h, natAbs_signed] at hn; omega
    · omega
    · omega

end Verif.CrossTalk
