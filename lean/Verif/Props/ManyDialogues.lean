import Verif.Props.CrossTalk
import Verif.Props.References

/-!
# Property C123

Two agents may hold many dialogues at the same time, with each other and with third parties. Dialogues
whose openers chose different references do not disturb each other.
-/

namespace Verif

/-- **C123.** A call about one dialogue (opening it, processing a message that carries its reference,
replying in it) leaves everything about the other dialogues as it was, also about those with the same
counterparty: the dialogues, look-up by label and by message, and whether they are terminal. -/
theorem C123_untouched {me : Bytes} {keep : Bool} {rules : RulesDecl} {s : Sys}
    (h : Reachable me keep rules s) {x n : Bytes} (c : Call) (hx : ConcernsDialogue x n s c)
    (hc : (s.call c).2 ≠ .crashed) : OtherReferencesUntouched x n s (s.call c).1 :=
  (RefFrame.call h.inv hx hc).untouched h.minv

/-- **C123.** Nor does an orderly call remove another dialogue from the list of its counterparty. -/
theorem C123_listed_partial {me : Bytes} {keep : Bool} {rules : RulesDecl} {s : Sys}
    (h : Later Orderly (Sys.new me keep rules) s) {x n : Bytes} (c : Call)
    (hx : ConcernsDialogue x n s c) (ho : Orderly s c) (hc : (s.call c).2 ≠ .crashed)
    {p : Ptr} {d : Dialogue} (hd : s.heap[p]? = some d)
    (hne : ¬ (d.label.opponent = x ∧ d.label.reference.starter = n)) (a : Bytes) :
    p ∈ (s.call c).1.withCounterparty a ↔ p ∈ s.withCounterparty a := by
  obtain ⟨hi, hm, hX⟩ := orderly_inv h
  have hX' := hX.call hi hm ho hc
  have hf := RefFrame.call hi hx hc
  show p ∈ (s.call c).1.addressList a ↔ p ∈ s.addressList a
  rw [hX.index, hX'.index, hd, hf.heap p d hd hne]
  have hb := hf.byLabel d.label hne
  constructor
  · rintro ⟨d', e, h1, h2⟩
    simp only [Option.some.injEq] at e
    subst e
    exact ⟨d, rfl, h1, by rw [← hb]; exact h2⟩
  · rintro ⟨d', e, h1, h2⟩
    simp only [Option.some.injEq] at e
    subst e
    exact ⟨d, rfl, h1, by rw [hb]; exact h2⟩

section
variable {a b perf na nb : Bytes} {keepA keepB : Bool} {rulesA rulesB : RulesDecl} {pA pB : Ptr}
  {sA sB : Sys}

/-- The agent is busy with third parties and with any other dialogues with `x`. -/
def BusyElsewhere (x n : Bytes) (s : Sys) (c : Call) : Prop := OtherDialogue x n s c ∧ Orderly s c

/-- **C123.** Which turn of a conversation is accepted depends only on this conversation: the law of C53
holds whatever the two agents do meanwhile in other dialogues with each other or with third parties. -/
theorem C123_next_turn_partial (h : Opened a b perf na nb keepA keepB rulesA rulesB pA pB sA sB)
    (hoA : Later Orderly (Sys.new a keepA rulesA) sA) (hoB : Later Orderly (Sys.new b keepB rulesB) sB)
    {ts : List Turn} {x : Sys × Sys}
    (hc : ConversationAmid (BusyElsewhere b na) (BusyElsewhere a na) pA pB
      (openedStates a b perf na nb sA sB) ts x) (t : Turn)
    (hk : ∀ u ∈ ts ++ [t], (u.performative ∈ rulesA.terminal → keepA = true) ∧
      (u.performative ∈ rulesB.terminal → keepB = true)) :
    (speak pA pB x t).isSome = true ↔ MayFollow rulesA rulesB (⟨.opener, perf, nb⟩ :: ts) t :=
  next_turn_iff h harmless_otherDialogue (orderly_inv hoA).2.2 (orderly_inv hoB).2.2 hc t hk

/-- **C123.** And both hold the same history of it. -/
theorem C123_same_history_partial (h : Opened a b perf na nb keepA keepB rulesA rulesB pA pB sA sB)
    (hoA : Later Orderly (Sys.new a keepA rulesA) sA) (hoB : Later Orderly (Sys.new b keepB rulesB) sB)
    {ts : List Turn} {x : Sys × Sys}
    (hc : ConversationAmid (BusyElsewhere b na) (BusyElsewhere a na) pA pB
      (openedStates a b perf na nb sA sB) ts x)
    (hk : ∀ t ∈ ts, (t.performative ∈ rulesA.terminal → keepA = true) ∧
      (t.performative ∈ rulesB.terminal → keepB = true)) :
    ∃ hs dA dB, x.1.heap[pA]? = some dA ∧ x.2.heap[pB]? = some dB ∧
      IsHistory a dA hs ∧ IsHistory b dB hs ∧
      Transcript a b (⟨.opener, perf, nb⟩ :: ts) hs ∧
      dA.label.reference.starter = na ∧ dB.label.reference = ⟨na, nb⟩ ∧
      (turnsOf .responder ts ≠ 0 → dA.label.reference = ⟨na, nb⟩) :=
  same_history h harmless_otherDialogue (orderly_inv hoA).2.2 (orderly_inv hoB).2.2 hc hk

open CrossTalk in
/-- **C123.** The same when the messages of this and of the other dialogues cross, are delayed, overtaken
or lost: if the opener waits for the first answer, nobody is crashed in this dialogue, and each side has
recorded exactly the first messages the other has said in it, in order. -/
theorem C123_crossing_partial {w : Pair}
    (h : Opened a b perf na nb keepA keepB rulesA rulesB pA pB sA sB)
    (hoA : Later Orderly (Sys.new a keepA rulesA) sA) (hoB : Later Orderly (Sys.new b keepB rulesB) sB)
    (ht : TalkAmid (BusyElsewhere b na) (BusyElsewhere a na) a b pA pB
      (Waiting keepA keepB rulesA rulesB pA) (atRest (openedStates a b perf na nb sA sB)) w) :
    (∀ x p, Kept keepA keepB rulesA rulesB p → (w.speak pA pB x p).2 ≠ .crashed) ∧
    (∀ (x : Side) (i : Nat) (m : Message) (nonce : Bytes), w.flying[i]? = some m →
      m.to = (match x with | .opener => a | .responder => b) →
      (w.hear x i m nonce).2 ≠ .crashed) ∧
    ∃ dA dB, w.opener.heap[pA]? = some dA ∧ w.responder.heap[pB]? = some dB ∧
      dA.incoming <+: dB.outgoing ∧ dB.incoming <+: dA.outgoing :=
  waiting_amid h harmless_otherDialogue (orderly_inv hoA).2.2 (orderly_inv hoB).2.2 ht

end

/-! ### Concrete cases -/

namespace Many

open Chat

/-- Ann has opened the dialogue `n` with Bob. She opens a second one, `n2`. -/
def c1 : Call := .create (b! "bob") (b! "hi") (b! "n2")
def x1 : Sys × Sys := ((x0.1.call c1).1, x0.2)

/-- Bob takes note of the second one and answers in it before he answers in the first. -/
def c2 : Call := .update ⟨b! "bob", b! "ann", ⟨b! "n2", []⟩, 1, 0, b! "hi"⟩ (b! "r2")
def x2 : Sys × Sys := (x1.1, (x1.2.call c2).1)
def c3 : Call := .reply 1 (b! "hi") none none
def x3 : Sys × Sys := (x2.1, (x2.2.call c3).1)
def c4 : Call := .update ⟨b! "ann", b! "bob", ⟨b! "n2", b! "r2"⟩, -1, 1, b! "hi"⟩ (b! "z")
def x4 : Sys × Sys := ((x3.1.call c4).1, x3.2)

theorem labelOf {s : Sys} {p : Ptr} {d : Dialogue} {l : DialogueLabel} (hd : s.heap[p]? = some d)
    (h : (s.heap[p]?).map (·.label) = some l) : d.label = l := by
  rw [hd] at h
  simpa using h

theorem amid : ConversationAmid (BusyElsewhere (b! "bob") (b! "n")) (BusyElsewhere (b! "ann") (b! "n"))
    0 0 x0 [] x4 := by
  refine .openerBusy c4 (x := x3) ?_
    ⟨⟨b! "bob", b! "n2", Or.inr (by decide), rfl, rfl⟩, trivial⟩ (by decide)
  refine .responderBusy c3 (x := x2) ?_
    ⟨⟨b! "ann", b! "n2", Or.inr (by decide), fun d hd => ?_⟩, fun d hd => ?_⟩ (by decide)
  · refine .responderBusy c2 (x := x1) ?_
      ⟨⟨b! "ann", b! "n2", Or.inr (by decide), rfl, rfl⟩, trivial⟩ (by decide)
    exact .openerBusy c1 .start ⟨⟨b! "bob", b! "n2", Or.inr (by decide), rfl, rfl⟩, trivial⟩ (by decide)
  · have := labelOf (l := ⟨⟨b! "n2", b! "r2"⟩, b! "ann", b! "ann"⟩) hd (by decide)
    rw [this]
    exact ⟨rfl, rfl⟩
  · have := labelOf (l := ⟨⟨b! "n2", b! "r2"⟩, b! "ann", b! "ann"⟩) hd (by decide)
    rw [this]
    exact Or.inr (by decide)

/-- Non-vacuity: meanwhile the second dialogue has got on, and in the first Bob may answer. -/
example : (x4.1.heap.map fun d => d.incoming.length) = [0, 1] ∧
    (speak 0 0 x4 bob).isSome = true ∧ (speak 0 0 x0 bob).isSome = true := by decide

end Many

/-- **C123** fails for dialogues with the same reference, which two agents that open dialogues with each
other may choose. Ann has opened `n` with Bob, Bob has opened `n` with Ann, and Ann has answered in
Bob's dialogue. Bob's next message in his dialogue is refused by Ann, because she takes it for an answer
in her own; and her own dialogue is given the reference of Bob's, so that Bob's answer in it is refused
as well. Without Bob's dialogue that answer is accepted. -/
theorem C123_counterexample :
    let open1 : Call := .create (b! "bob") (b! "hi") (b! "n")
    let s1 := (Chat.sA.call open1).1
    let s2 := (s1.call (.update ⟨b! "ann", b! "bob", ⟨b! "n", []⟩, 1, 0, b! "hi"⟩ (b! "r"))).1
    let s3 := (s2.call (.reply 1 (b! "hi") none none)).1
    let next : Call := .update ⟨b! "ann", b! "bob", ⟨b! "n", b! "r"⟩, 2, -1, b! "hi"⟩ (b! "z")
    let answer : Call := .update ⟨b! "ann", b! "bob", ⟨b! "n", b! "q"⟩, -1, 1, b! "hi"⟩ (b! "z")
    (s2.call (.reply 1 (b! "hi") none none)).2 = .accepted (some 1)
      (some ⟨b! "bob", b! "ann", ⟨b! "n", b! "r"⟩, -1, 1, b! "hi"⟩) ∧
    (s3.call next).2.isRefusal ∧
    ((s3.call next).1.heap[0]?.map (·.label.reference)) = some ⟨b! "n", b! "r"⟩ ∧
    ((s3.call next).1.call answer).2.isRefusal ∧
    (s1.call answer).2 = .accepted (some 0) none := by
  refine ⟨by decide, ?_, by decide, ?_, by decide⟩
  · trivial
  · trivial

end Verif
