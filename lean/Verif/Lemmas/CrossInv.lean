import Verif.Lemmas.CrossRoute
import Verif.Props.Conversation

/-! Lemmas for conversations whose messages travel: the invariant of the two agents and the messages
under way. -/

namespace Verif.CrossTalk

/-- The look of the opener's messages. -/
def LookA (b na nb : Bytes) (Q : Bytes → Prop) (m : Message) : Prop :=
  m.to = b ∧ (m.reference = ⟨na, []⟩ ∨ m.reference = ⟨na, nb⟩) ∧ Q m.performative

/-- The look of the responder's messages. -/
def LookB (a na nb : Bytes) (Q : Bytes → Prop) (m : Message) : Prop :=
  m.to = a ∧ m.reference = ⟨na, nb⟩ ∧ Q m.performative

/-- What holds of two agents in the middle of a conversation. `polite` says that the opener waits for
the first answer. -/
structure Inv (a b na nb : Bytes) (keepA keepB : Bool) (rulesA rulesB : RulesDecl) (pA pB : Ptr)
    (polite : Prop) (dA dB : Dialogue) (w : Pair) : Prop where
  seatA : OpenerSeat a b na nb keepA rulesA pA dA w.opener
  endA : End a b true rulesA dA
  seatB : ResponderSeat a b na nb keepB rulesB pB dB w.responder
  endB : End b a false rulesB dB
  parties : ∀ m ∈ w.flying, m.sender = a ∨ m.sender = b
  heardB : dB.incoming ≠ []
  back : Way b false (LookB a na nb (Kept keepA keepB rulesA rulesB)) dB dA w.flying
  outA : ∀ m ∈ dA.outgoing, m.sender = a ∧ LookA b na nb (Kept keepA keepB rulesA rulesB) m
  someA : dA.outgoing ≠ []
  flyA : ∀ m ∈ w.flying, m.sender = a → ∃ i, 1 ≤ i ∧ dA.outgoing[i]? = some m
  gotB : ∀ m ∈ dB.incoming, m ∈ dA.outgoing
  forth : polite → Way a true (LookA b na nb (Kept keepA keepB rulesA rulesB)) dA dB w.flying
  waits : polite → dA.outgoing.length ≤ 1 ∨ dA.incoming ≠ []

section
variable {a b perf na nb : Bytes} {keepA keepB : Bool} {rulesA rulesB : RulesDecl} {pA pB : Ptr}
  {polite : Prop} {dA dB : Dialogue} {w : Pair}

theorem Inv.lost (h : Inv a b na nb keepA keepB rulesA rulesB pA pB polite dA dB w)
    {fl : List Message} (hf : fl.Sublist w.flying) :
    Inv a b na nb keepA keepB rulesA rulesB pA pB polite dA dB { w with flying := fl } :=
  { h with
    parties := fun m hm => h.parties m (hf.subset hm)
    back := h.back.fewer hf
    flyA := fun m hm => h.flyA m (hf.subset hm)
    forth := fun hp => (h.forth hp).fewer hf }

theorem Inv.openerSays (h : Inv a b na nb keepA keepB rulesA rulesB pA pB polite dA dB w)
    (hpol : polite → dA.incoming ≠ []) (hk : Kept keepA keepB rulesA rulesB perf)
    (hc : (w.speak pA pB .opener perf).2 ≠ .crashed) :
    ∃ dA', Inv a b na nb keepA keepB rulesA rulesB pA pB polite dA' dB
      (w.speak pA pB .opener perf).1 ∧ dA'.incoming = dA.incoming ∧
      dA.outgoing.length ≤ dA'.outgoing.length := by
  have hs := say_step h.seatA.inv h.seatA.heap h.endA (perf := perf) hk.1
  rcases hs with ⟨hcr, _⟩ | ⟨er, hcall⟩ | ⟨ts, m, hm, hcall⟩
  · exact absurd hcr hc
  · refine ⟨dA, ?_⟩
    unfold Pair.speak
    simp only
    rw [hcall]
    simp only [sent, List.append_nil]
    exact ⟨h, trivial, Nat.le_refl _⟩
  · have hcr : (w.opener.call (.reply pA perf none none)).2 ≠ .crashed := hc
    have hi := h.seatA.inv.call _ hcr
    have hmi := h.seatA.minv.call _ hcr
    unfold Pair.speak
    simp only
    rw [hcall] at hi hmi ⊢
    simp only [sent] at hi hmi ⊢
    have hseat := h.seatA.put hi hmi
    have hdi : DInv a rulesA (dA.record m) := hi.heap pA _ hseat.heap
    obtain ⟨hms, hmt, hmr, hmp, hmid, hmtg⟩ := h.endA.reply hm
    obtain ⟨hend, ho, hin, hl, hlab⟩ := h.endA.say hms hmid hdi
    have hlook : LookA b na nb (Kept keepA keepB rulesA rulesB) m := by
      refine ⟨hmt, ?_, by rw [hmp]; exact hk⟩
      rw [hmr]
      rcases h.seatA.place with ⟨e, _⟩ | ⟨e, _⟩
      · left; rw [e]
      · right; rw [e]
    have hab := h.endA.ne
    refine ⟨dA.record m, ?_, hin, by rw [ho]; simp⟩
    refine ⟨hseat, hend, h.seatB, h.endB, ?_, h.heardB, ?_, ?_, ?_, ?_, ?_, ?_, ?_⟩
    · intro y hy
      rcases List.mem_append.1 hy with hy | hy
      · exact h.parties y hy
      · simp at hy; subst hy; exact Or.inl hms
    · exact h.back.other (by rw [hms]; exact hab) hin
    · intro y hy
      rw [ho] at hy
      rcases List.mem_append.1 hy with hy | hy
      · exact h.outA y hy
      · simp at hy; subst hy; exact ⟨hms, hlook⟩
    · rw [ho]; simp
    · intro y hy hys
      rw [ho]
      rcases List.mem_append.1 hy with hy | hy
      · obtain ⟨i, hi, hiy⟩ := h.flyA y hy hys
        refine ⟨i, hi, ?_⟩
        have : i < dA.outgoing.length := by
          apply Classical.byContradiction
          intro hc
          rw [List.getElem?_eq_none (by omega)] at hiy
          simp at hiy
        rw [List.getElem?_append_left this]
        exact hiy
      · simp at hy
        subst hy
        exact ⟨dA.outgoing.length, List.length_pos_iff.2 h.someA, by simp⟩
    · intro y hy; rw [ho]; exact List.mem_append_left _ (h.gotB y hy)
    · intro hp
      exact (h.forth hp).says hms hmid hlook hmtg ho hl
    · intro hp; right; rw [hin]; exact hpol hp

theorem Inv.responderSays (h : Inv a b na nb keepA keepB rulesA rulesB pA pB polite dA dB w)
    (hk : Kept keepA keepB rulesA rulesB perf)
    (hc : (w.speak pA pB .responder perf).2 ≠ .crashed) :
    ∃ dB', Inv a b na nb keepA keepB rulesA rulesB pA pB polite dA dB'
      (w.speak pA pB .responder perf).1 ∧ dB'.incoming = dB.incoming ∧
      dB.outgoing.length ≤ dB'.outgoing.length := by
  have hs := say_step h.seatB.inv h.seatB.heap h.endB (perf := perf) hk.2
  rcases hs with ⟨hcr, _⟩ | ⟨er, hcall⟩ | ⟨ts, m, hm, hcall⟩
  · exact absurd hcr hc
  · refine ⟨dB, ?_⟩
    unfold Pair.speak
    simp only
    rw [hcall]
    simp only [sent, List.append_nil]
    exact ⟨h, trivial, Nat.le_refl _⟩
  · have hcr : (w.responder.call (.reply pB perf none none)).2 ≠ .crashed := hc
    have hi := h.seatB.inv.call _ hcr
    have hmi := h.seatB.minv.call _ hcr
    unfold Pair.speak
    simp only
    rw [hcall] at hi hmi ⊢
    simp only [sent] at hi hmi ⊢
    have hseat := h.seatB.put hi hmi
    have hdi : DInv b rulesB (dB.record m) := hi.heap pB _ hseat.heap
    obtain ⟨hms, hmt, hmr, hmp, hmid, hmtg⟩ := h.endB.reply hm
    obtain ⟨hend, ho, hin, hl, hlab⟩ := h.endB.say hms hmid hdi
    have hlook : LookB a na nb (Kept keepA keepB rulesA rulesB) m :=
      ⟨hmt, by rw [hmr, h.seatB.label], by rw [hmp]; exact hk⟩
    have hab := h.endA.ne
    refine ⟨dB.record m, ?_, hin, by rw [ho]; simp⟩
    refine ⟨h.seatA, h.endA, hseat, hend, ?_, ?_, ?_, h.outA, h.someA, ?_, ?_, ?_, h.waits⟩
    · intro y hy
      rcases List.mem_append.1 hy with hy | hy
      · exact h.parties y hy
      · simp at hy; subst hy; exact Or.inr hms
    · rw [hin]; exact h.heardB
    · exact h.back.says hms hmid hlook hmtg ho hl
    · intro y hy hys
      rcases List.mem_append.1 hy with hy | hy
      · exact h.flyA y hy hys
      · simp at hy; subst hy; exact absurd (hys.symm.trans hms) hab
    · rw [hin]; exact h.gotB
    · intro hp
      exact (h.forth hp).other (by rw [hms]; exact fun e => hab e.symm) hin

/-- What a message under way to the opener does. -/
theorem Inv.openerHears (h : Inv a b na nb keepA keepB rulesA rulesB pA pB polite dA dB w)
    (hb : b ≠ []) (hna : na ≠ []) (hnb : nb ≠ []) {i : Nat} {m : Message} {nonce : Bytes}
    (hi : w.flying[i]? = some m) (hmt : m.to = a) :
    (w.hear .opener i m nonce).2 ≠ .crashed ∧
    ∃ dA', Inv a b na nb keepA keepB rulesA rulesB pA pB polite dA' dB
        (w.hear .opener i m nonce).1 ∧ dA'.outgoing = dA.outgoing ∧
      (dA'.incoming = dA.incoming ∨
        (dA.incoming ≠ [] → dA.lastMessageId.natAbs = dA.incoming.length)) := by
  have hab := h.endA.ne
  have hmem : m ∈ w.flying := List.mem_of_getElem? hi
  have hms : m.sender = b := by
    rcases h.parties m hmem with e | e
    · obtain ⟨k, _, hk⟩ := h.flyA m hmem e
      have := (h.outA m (List.mem_of_getElem? hk)).2.1
      exact absurd (hmt.symm.trans this) hab
    · exact e
  obtain ⟨k, hk, hkm⟩ := h.back.flying m hmem hms
  obtain ⟨_, hid, ⟨_, href, hkept⟩, hlaw⟩ := h.back.shape k m hkm
  obtain ⟨s1, d1, hup, hseat, cb, hd1⟩ := h.seatA.route hab hb hna hnb hms hmt href nonce
  have hdi1 : DInv a rulesA d1 := hseat.inv.heap pA _ hseat.heap
  have hend1 : End a b true rulesA d1 := h.endA.relabel hd1 hdi1 rfl rfl
  have hsame : d1.outgoing = dA.outgoing ∧ d1.incoming = dA.incoming ∧
      d1.lastMessageId = dA.lastMessageId := by rw [hd1]; exact ⟨rfl, rfl, rfl⟩
  have hback1 := h.back.same (ds' := dB) (dr' := d1) rfl hsame.2.1 h.back.ahead
  have hforth1 : polite → Way a true (LookA b na nb (Kept keepA keepB rulesA rulesB)) d1 dB w.flying :=
    fun hp => (h.forth hp).same hsame.1 rfl (by
      unfold Ahead; rw [hsame.1, hsame.2.2]; exact (h.forth hp).ahead)
  have hwhole : Whole true d1 := hback1.whole
  have hcall : w.opener.call (.update m nonce) = ((s1.updateFound m false (some pA)).1,
      (s1.updateFound m false (some pA)).2.report fun p => .accepted p none) := by
    rw [call_update_eq, hup]
  have hsub : (w.flying.eraseIdx i).Sublist w.flying := List.eraseIdx_sublist _ _
  rcases hear_step hseat.inv hseat.heap hend1 hms hb hmt hkept.1 with ⟨_, t, hg⟩ | ⟨er, hu⟩ | ⟨hacc, ts, hu⟩
  · exact absurd hg (hwhole.noGap t)
  · rw [hu] at hcall
    unfold Pair.hear
    simp only
    rw [hcall]
    refine ⟨by simp [Res.report], d1, ?_⟩
    simp only
    refine ⟨?_, hsame.1, Or.inl hsame.2.1⟩
    exact ⟨hseat, hend1, h.seatB, h.endB, fun y hy => h.parties y (hsub.subset hy), h.heardB,
      hback1.fewer hsub, by rw [hsame.1]; exact h.outA, by rw [hsame.1]; exact h.someA,
      by rw [hsame.1]; exact fun y hy => h.flyA y (hsub.subset hy), by rw [hsame.1]; exact h.gotB,
      fun hp => (hforth1 hp).fewer hsub, by rw [hsame.1, hsame.2.1]; exact h.waits⟩
  · rw [hu] at hcall
    have hcr : (w.opener.call (.update m nonce)).2 ≠ .crashed := by rw [hcall]; simp [Res.report]
    have hi1 := h.seatA.inv.call _ hcr
    have hmi1 := h.seatA.minv.call _ hcr
    unfold Pair.hear
    simp only
    rw [hcall] at hi1 hmi1 ⊢
    refine ⟨by simp [Res.report], d1.record m, ?_⟩
    simp only at hi1 hmi1 ⊢
    have hseat2 := hseat.put hi1 hmi1
    have hdi2 : DInv a rulesA (d1.record m) := hi1.heap pA _ hseat2.heap
    obtain ⟨hend2, ho, hin, hl, hlab⟩ := hend1.hear hms hdi2
    rw [hsame.1] at ho
    have hn : k + 1 = d1.incoming.length + 1 := by
      refine hend1.contiguous hwhole hacc hid ?_ hlaw
      rw [hsame.2.1]; omega
    refine ⟨?_, ho, Or.inr fun hne => by
      have h3 := hacc.next (by rw [hsame.2.1]; exact hne)
      rw [hid, natAbs_signed, hsame.2.2, hn, hsame.2.1] at h3
      omega⟩
    refine ⟨hseat2, hend2, h.seatB, h.endB, fun y hy => h.parties y (hsub.subset hy), h.heardB,
      ?_, by rw [ho]; exact h.outA, by rw [ho]; exact h.someA,
      by rw [ho]; exact fun y hy => h.flyA y (hsub.subset hy), by rw [ho]; exact h.gotB, ?_, ?_⟩
    · exact hback1.hears hi hms (by rw [hid, hn]) hin
    · intro hp
      refine ((hforth1 hp).fewer hsub).same (ho.trans hsame.1.symm) rfl ?_
      refine (hforth1 hp).ahead.hear hacc ?_ (ho.trans hsame.1.symm) hl
      rw [hsame.1, hsame.2.1]
      exact h.waits hp
    · intro _; right; rw [hin]; simp

/-- What a message under way to the responder does. -/
theorem Inv.responderHears (h : Inv a b na nb keepA keepB rulesA rulesB pA pB polite dA dB w)
    (ha : a ≠ []) (hna : na ≠ []) (hnb : nb ≠ []) {i : Nat} {m : Message} {nonce : Bytes}
    (hi : w.flying[i]? = some m) (hmt : m.to = b) :
    (polite → (w.hear .responder i m nonce).2 ≠ .crashed) ∧
    ((w.hear .responder i m nonce).2 ≠ .crashed →
      ∃ dB', Inv a b na nb keepA keepB rulesA rulesB pA pB polite dA dB'
          (w.hear .responder i m nonce).1 ∧ dB'.outgoing = dB.outgoing ∧
        (dB'.incoming = dB.incoming ∨
          (polite → dB.lastMessageId.natAbs = dB.incoming.length))) := by
  have hab := h.endA.ne
  have hmem : m ∈ w.flying := List.mem_of_getElem? hi
  have hms : m.sender = a := by
    rcases h.parties m hmem with e | e
    · exact e
    · obtain ⟨k, _, hk⟩ := h.back.flying m hmem e
      have := (h.back.shape k m hk).2.2.1.1
      exact absurd (this.symm.trans hmt) hab
  obtain ⟨k, hk, hkm⟩ := h.flyA m hmem hms
  have hid := h.endA.ids k m hkm
  obtain ⟨_, _, href, hkept⟩ := h.outA m (List.mem_of_getElem? hkm)
  have hup := h.seatB.route hab ha hna hnb (n := k) hk hms hmt href hid nonce
  have hcall : w.responder.call (.update m nonce) = ((w.responder.updateFound m false (some pB)).1,
      (w.responder.updateFound m false (some pB)).2.report fun p => .accepted p none) := by
    rw [call_update_eq, hup]
  have hsub : (w.flying.eraseIdx i).Sublist w.flying := List.eraseIdx_sublist _ _
  have hstep := hear_step h.seatB.inv h.seatB.heap h.endB hms ha hmt hkept.2
  constructor
  · intro hp
    have hwhole : Whole false dB := (h.forth hp).whole
    rcases hstep with ⟨_, t, hg⟩ | ⟨er, hu⟩ | ⟨_, ts, hu⟩
    · exact absurd hg (hwhole.noGap t)
    · rw [hu] at hcall
      unfold Pair.hear
      simp only
      rw [hcall]
      simp [Res.report]
    · rw [hu] at hcall
      unfold Pair.hear
      simp only
      rw [hcall]
      simp [Res.report]
  · intro hcr
    replace hcr : (w.responder.call (.update m nonce)).2 ≠ .crashed := hcr
    rcases hstep with ⟨hu, _⟩ | ⟨er, hu⟩ | ⟨hacc, ts, hu⟩
    · rw [hu] at hcall
      rw [hcall] at hcr
      exact absurd rfl hcr
    · rw [hu] at hcall
      unfold Pair.hear
      simp only
      rw [hcall]
      exact ⟨dB, h.lost hsub, rfl, Or.inl rfl⟩
    · rw [hu] at hcall
      have hi1 := h.seatB.inv.call _ hcr
      have hmi1 := h.seatB.minv.call _ hcr
      unfold Pair.hear
      simp only
      rw [hcall] at hi1 hmi1 ⊢
      refine ⟨dB.record m, ?_⟩
      simp only at hi1 hmi1 ⊢
      have hseat2 := h.seatB.put hi1 hmi1
      have hdi2 : DInv b rulesB (dB.record m) := hi1.heap pB _ hseat2.heap
      obtain ⟨hend2, ho, hin, hl, hlab⟩ := h.endB.hear hms hdi2
      have hn : polite → ∃ k', m.messageId = signed true (k' + 1) ∧
          k' + 1 = dB.incoming.length + 1 := by
        intro hp
        have hf := h.forth hp
        obtain ⟨k', hk', hkm'⟩ := hf.flying m hmem hms
        obtain ⟨_, hid', _, hlaw⟩ := hf.shape k' m hkm'
        exact ⟨k', hid', h.endB.contiguous hf.whole hacc hid' (by omega) hlaw⟩
      refine ⟨?_, ho, Or.inr fun hp => by
        obtain ⟨k', hid', hn⟩ := hn hp
        have h3 := hacc.next h.heardB
        rw [hid', natAbs_signed, hn] at h3
        omega⟩
      refine ⟨h.seatA, h.endA, hseat2, hend2, fun y hy => h.parties y (hsub.subset hy),
        by rw [hin]; simp, ?_, h.outA, h.someA, fun y hy => h.flyA y (hsub.subset hy), ?_, ?_, h.waits⟩
      · refine (h.back.fewer hsub).same ho rfl ?_
        exact h.back.ahead.hear hacc (Or.inr h.heardB) ho hl
      · intro y hy
        rw [hin] at hy
        rcases List.mem_append.1 hy with hy | hy
        · exact h.gotB y hy
        · simp at hy; subst hy; exact List.mem_of_getElem? hkm
      · intro hp
        obtain ⟨k', hid', hn⟩ := hn hp
        exact (h.forth hp).hears hi hms (by rw [hid', hn]) hin

/-- Nobody with consecutive ids crashes by a default reply. -/
theorem Inv.says_safe {me other : Bytes} {o keep : Bool} {rules : RulesDecl} {p : Ptr} {d : Dialogue}
    {s : Sys} (hi : SInv me keep rules s) (hd : s.heap[p]? = some d) (e : End me other o rules d)
    (hw : Whole o d) (hk : perf ∈ rules.terminal → keep = true) :
    (s.call (.reply p perf none none)).2 ≠ .crashed := by
  rcases say_step hi hd e hk with ⟨_, t, hg⟩ | ⟨er, hcall⟩ | ⟨ts, m, hm, hcall⟩
  · exact absurd hg (hw.noGap t)
  · rw [hcall]; simp
  · rw [hcall]; simp

/-- The side of a view. -/
theorem End.ofView {me other : Bytes} {o keep : Bool} {ref : DialogueReference} {rules : RulesDecl}
    {hs : List Message} {p : Ptr} {s : Sys} {d : Dialogue} (hi : SInv me keep rules s)
    (hd : s.heap[p]? = some d) (v : View me other o ref rules hs d) : End me other o rules d := by
  refine ⟨v.ne, hi.heap p d hd, by rw [v.label], by rw [v.label], v.notEmpty, ?_, ?_⟩
  · rw [v.out]; exact v.mine
  · obtain ⟨l, hl, hp | hp⟩ := v.exists_last
    · left
      obtain ⟨h1, h2⟩ := (v.lastId hl).1 hp
      rw [v.out]
      exact ⟨List.length_pos_iff.1 h2, by rw [v.last l hl, h1]⟩
    · right
      exact ⟨l, by rw [v.inc]; exact said_getLast hl hp, v.last l hl⟩

theorem Inv.start {sA sB : Sys}
    (h : Opened a b perf na nb keepA keepB rulesA rulesB pA pB sA sB) :
    ∃ dA dB, Inv a b na nb keepA keepB rulesA rulesB pA pB polite dA dB
      (atRest (openedStates a b perf na nb sA sB)) := by
  obtain ⟨hna, hA, hB⟩ := h.sides
  obtain ⟨dA, hdA, hvA⟩ := hA.view
  obtain ⟨dB, hdB, hvB⟩ := hB.view
  have hab := h.distinct
  have hba : ¬ b = a := fun e => hab e.symm
  have sa : said a [(⟨b, a, ⟨na, []⟩, 1, 0, perf⟩ : Message)] = [⟨b, a, ⟨na, []⟩, 1, 0, perf⟩] := by
    simp [said]
  have sb : said b [(⟨b, a, ⟨na, []⟩, 1, 0, perf⟩ : Message)] = [] := by
    simp [said, hab]
  have oA := hvA.out
  have iA := hvA.inc
  have oB := hvB.out
  have iB := hvB.inc
  rw [sa] at oA iB
  rw [sb] at iA oB
  rw [sb] at hvA
  obtain ⟨c1, c2, c3⟩ := hA.early sb
  have hlook : LookA b na nb (Kept keepA keepB rulesA rulesB) ⟨b, a, ⟨na, []⟩, 1, 0, perf⟩ :=
    ⟨rfl, Or.inl rfl, h.kept⟩
  unfold atRest
  refine ⟨dA, dB, ⟨hA.inv, hA.minv, hdA, Or.inl ⟨by rw [hvA.label]; rfl, c1, c2, c3⟩⟩,
    End.ofView hA.inv hdA hvA,
    ⟨hB.inv, hB.minv, hdB, by rw [hvB.label]; rfl, hB.stored, hB.mapped, hB.free⟩,
    End.ofView hB.inv hdB hvB, by simp, by rw [iB]; simp, ?_, ?_, by rw [oA]; simp, by simp, ?_, ?_, ?_⟩
  · refine ⟨?_, by rw [iA]; exact List.nil_prefix, by simp, by simp [said], Or.inr (Or.inl ?_)⟩
    · rw [oB]; simp
    · rw [oB]; simp
  · rw [oA]; intro m hm; simp at hm; subst hm; exact ⟨rfl, hlook⟩
  · rw [iB, oA]; exact fun m hm => hm
  · intro _
    refine ⟨?_, by rw [iB, oA]; exact List.prefix_refl _, by simp, by simp [said], Or.inr (Or.inl ?_)⟩
    · rw [oA]
      intro i m hm
      cases i with
      | zero => simp at hm; subst hm; exact ⟨rfl, rfl, hlook, Or.inl (by omega)⟩
      | succ i => simp at hm
    · rw [oA]; simp
  · intro _; left; rw [oA]; simp

/-- What each step does. -/
inductive Moves (polite : Prop) (dA dB dA' dB' : Dialogue) : Prop where
  | grows : dA'.incoming = dA.incoming → dB'.incoming = dB.incoming →
      dA.outgoing.length ≤ dA'.outgoing.length → dB.outgoing.length ≤ dB'.outgoing.length →
      Moves polite dA dB dA' dB'
  | openerHears : dB' = dB → dA'.outgoing = dA.outgoing →
      (dA.incoming ≠ [] → dA.lastMessageId.natAbs = dA.incoming.length) → Moves polite dA dB dA' dB'
  | responderHears : dA' = dA → dB'.outgoing = dB.outgoing →
      (polite → dB.lastMessageId.natAbs = dB.incoming.length) → Moves polite dA dB dA' dB'

/-- Anything that one step keeps is kept. -/
theorem Talk.induct {w0 : Pair} {may : Side → Bytes → Pair → Prop} {P : Dialogue → Dialogue → Prop}
    {ok : Sys → Prop} {busyA busyB : Sys → Call → Prop}
    (hh : Harmless a b na keepA keepB rulesA rulesB ok busyA busyB)
    (hab : a ≠ [] ∧ b ≠ []) (hna : na ≠ []) (hnb : nb ≠ [])
    (hk : ∀ x p w, may x p w → Kept keepA keepB rulesA rulesB p)
    (hpol : polite → ∀ p w, may .opener p w → Heard pA w)
    (h0 : ∃ dA dB, Inv a b na nb keepA keepB rulesA rulesB pA pB polite dA dB w0 ∧ P dA dB ∧
      ok w0.opener ∧ ok w0.responder)
    (hP : ∀ dA dB dA' dB' w, Inv a b na nb keepA keepB rulesA rulesB pA pB polite dA dB w →
      P dA dB → Moves polite dA dB dA' dB' → P dA' dB')
    (ht : TalkAmid busyA busyB a b pA pB may w0 w) :
    ∃ dA dB, Inv a b na nb keepA keepB rulesA rulesB pA pB polite dA dB w ∧ P dA dB ∧
      ok w.opener ∧ ok w.responder := by
  induction ht with
  | start => exact h0
  | @speaks w x p _ hmay hc ih =>
    obtain ⟨dA, dB, hi, hp, hxA, hxB⟩ := ih
    cases x with
    | opener =>
      obtain ⟨dA', hi', h1, h2⟩ := hi.openerSays (fun hp => by
        obtain ⟨d, hd, hne⟩ := hpol hp p w hmay
        rw [hi.seatA.heap] at hd
        simp only [Option.some.injEq] at hd
        subst hd
        exact hne) (hk _ _ _ hmay) hc
      exact ⟨dA', dB, hi', hP _ _ _ _ _ hi hp (.grows h1 rfl h2 (Nat.le_refl _)),
        hh.orderly hi.seatA.inv hi.seatA.minv hxA (hi.seatA.orderly _) hc, hxB⟩
    | responder =>
      obtain ⟨dB', hi', h1, h2⟩ := hi.responderSays (hk _ _ _ hmay) hc
      exact ⟨dA, dB', hi', hP _ _ _ _ _ hi hp (.grows rfl h1 (Nat.le_refl _) h2),
        hxA, hh.orderly hi.seatB.inv hi.seatB.minv hxB (hi.seatB.orderly _) hc⟩
  | @hears w x i m nonce _ hf hto hc ih =>
    obtain ⟨dA, dB, hi, hp, hxA, hxB⟩ := ih
    cases x with
    | opener =>
      obtain ⟨_, dA', hi', h1, h2⟩ := hi.openerHears hab.2 hna hnb (nonce := nonce) hf hto
      refine ⟨dA', dB, hi', hP _ _ _ _ _ hi hp ?_,
        hh.orderly (c := .update m nonce) hi.seatA.inv hi.seatA.minv hxA trivial hc, hxB⟩
      rcases h2 with h2 | h2
      · exact .grows h2 rfl (by rw [h1]; exact Nat.le_refl _) (Nat.le_refl _)
      · exact .openerHears rfl h1 h2
    | responder =>
      obtain ⟨dB', hi', h1, h2⟩ := (hi.responderHears hab.1 hna hnb (nonce := nonce) hf hto).2 hc
      refine ⟨dA, dB', hi', hP _ _ _ _ _ hi hp ?_, hxA,
        hh.orderly (c := .update m nonce) hi.seatB.inv hi.seatB.minv hxB trivial hc⟩
      rcases h2 with h2 | h2
      · exact .grows rfl h2 (Nat.le_refl _) (by rw [h1]; exact Nat.le_refl _)
      · exact .responderHears rfl h1 h2
  | lost i _ ih =>
    obtain ⟨dA, dB, hi, hp, hxA, hxB⟩ := ih
    exact ⟨dA, dB, hi.lost (List.eraseIdx_sublist _ _), hp, hxA, hxB⟩
  | openerBusy c _ hb hcr ih =>
    obtain ⟨dA, dB, hi, hp, hxA, hxB⟩ := ih
    obtain ⟨hx', hf⟩ := hh.opener hi.seatA.inv hi.seatA.minv hxA hb hcr
    have hseat := hi.seatA.frame (hi.seatA.inv.call c hcr) (hi.seatA.minv.call c hcr) hf
    exact ⟨dA, dB, { hi with seatA := hseat }, hp, hx', hxB⟩
  | responderBusy c _ hb hcr ih =>
    obtain ⟨dA, dB, hi, hp, hxA, hxB⟩ := ih
    obtain ⟨hx', hf⟩ := hh.responder hi.seatB.inv hi.seatB.minv hxB hb hcr
    have hseat := hi.seatB.frame (hi.seatB.inv.call c hcr) (hi.seatB.minv.call c hcr) hf
    exact ⟨dA, dB, { hi with seatB := hseat }, hp, hxA, hx'⟩

/-- The invariant holds in every exchange. -/
theorem Talk.inv {sA sB : Sys} {may : Side → Bytes → Pair → Prop} {ok : Sys → Prop}
    {busyA busyB : Sys → Call → Prop}
    (h : Opened a b perf na nb keepA keepB rulesA rulesB pA pB sA sB)
    (hh : Harmless a b na keepA keepB rulesA rulesB ok busyA busyB) (hokA : ok sA) (hokB : ok sB)
    (hk : ∀ x p w, may x p w → Kept keepA keepB rulesA rulesB p)
    (hpol : polite → ∀ p w, may .opener p w → Heard pA w)
    (ht : TalkAmid busyA busyB a b pA pB may (atRest (openedStates a b perf na nb sA sB)) w) :
    ∃ dA dB, Inv a b na nb keepA keepB rulesA rulesB pA pB polite dA dB w ∧
      ok w.opener ∧ ok w.responder := by
  obtain ⟨hna, _, _⟩ := h.sides
  obtain ⟨dA0, dB0, hi0⟩ := Inv.start (polite := polite) h
  obtain ⟨h1, h2⟩ := h.states_ok hh hokA hokB
  obtain ⟨dA, dB, hi, _, h3, h4⟩ := Talk.induct (P := fun _ _ => True) hh h.address hna h.nonce hk hpol
    ⟨dA0, dB0, hi0, trivial, h1, h2⟩ (fun _ _ _ _ _ _ _ _ => trivial) ht
  exact ⟨dA, dB, hi, h3, h4⟩

/-- If each side has said more than either has heard, each spoke last. -/
theorem Inv.apart_last (h : Inv a b na nb keepA keepB rulesA rulesB pA pB polite dA dB w)
    (hp : polite) (hap : Apart dA dB) :
    dA.lastMessageId.natAbs = dA.outgoing.length ∧ dB.lastMessageId.natAbs = dB.outgoing.length := by
  obtain ⟨h1, h2, h3, h4⟩ := hap
  have hb : 0 < dB.incoming.length := List.length_pos_iff.2 h.heardB
  have key : ∀ {me other : Bytes} {o : Bool} {rules : RulesDecl} {d : Dialogue},
      End me other o rules d → Whole o d → Ahead o d → 2 ≤ d.outgoing.length →
      d.incoming.length < d.outgoing.length → d.lastMessageId.natAbs = d.outgoing.length := by
    intro me other o rules d e hw ha h5 h6
    rcases e.last with ⟨_, hL⟩ | ⟨l, hl, hL⟩
    · rw [hL, natAbs_signed]
    · rcases ha with ha | ha | ha
      · rw [ha, natAbs_signed]
      · omega
      · rw [hL, hw.lastIn hl] at ha; omega
  exact ⟨key h.endA h.back.whole (h.forth hp).ahead (by omega) h1,
    key h.endB (h.forth hp).whole h.back.ahead (by omega) h4⟩

end

end Verif.CrossTalk
