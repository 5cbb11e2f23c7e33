import Verif.Lemmas.CrossInv

/-!
# Property C122

What becomes of a dialogue between two agents that both run the library and answer each other with
plain replies when the messages take their time, so that they may cross, overtake each other or get
lost.
-/

namespace Verif

namespace CrossTalk

section
variable {a b perf na nb : Bytes} {keepA keepB : Bool} {rulesA rulesB : RulesDecl} {pA pB : Ptr}
  {sA sB : Sys} {w : Pair} {ok : Sys → Prop} {busyA busyB : Sys → Call → Prop}

/-- The opener's part of C122, whatever harmless calls are made meanwhile. -/
theorem opener_amid (h : Opened a b perf na nb keepA keepB rulesA rulesB pA pB sA sB)
    (hh : Harmless a b na keepA keepB rulesA rulesB ok busyA busyB) (hokA : ok sA) (hokB : ok sB)
    (ht : TalkAmid busyA busyB a b pA pB (Anything keepA keepB rulesA rulesB)
      (atRest (openedStates a b perf na nb sA sB)) w) :
    (∀ p, Kept keepA keepB rulesA rulesB p → (w.speak pA pB .opener p).2 ≠ .crashed) ∧
    (∀ (i : Nat) (m : Message) (nonce : Bytes), w.flying[i]? = some m → m.to = a →
      (w.hear .opener i m nonce).2 ≠ .crashed) ∧
    ∃ dA dB, w.opener.heap[pA]? = some dA ∧ w.responder.heap[pB]? = some dB ∧
      dA.incoming <+: dB.outgoing ∧ ∀ m ∈ dB.incoming, m ∈ dA.outgoing := by
  obtain ⟨hna, _, _⟩ := h.sides
  obtain ⟨dA, dB, hi, _⟩ := Talk.inv (polite := False) h hh hokA hokB (fun _ _ _ hk => hk) (fun hf => hf.elim) ht
  refine ⟨?_, ?_, dA, dB, hi.seatA.heap, hi.seatB.heap, hi.back.got, hi.gotB⟩
  · intro p hk
    exact Inv.says_safe hi.seatA.inv hi.seatA.heap hi.endA hi.back.whole hk.1
  · intro i m nonce hm hto
    exact (hi.openerHears h.address.2 hna h.nonce hm hto).1

/-- C122 with a waiting opener, whatever harmless calls are made meanwhile. -/
theorem waiting_amid (h : Opened a b perf na nb keepA keepB rulesA rulesB pA pB sA sB)
    (hh : Harmless a b na keepA keepB rulesA rulesB ok busyA busyB) (hokA : ok sA) (hokB : ok sB)
    (ht : TalkAmid busyA busyB a b pA pB (Waiting keepA keepB rulesA rulesB pA)
      (atRest (openedStates a b perf na nb sA sB)) w) :
    (∀ x p, Kept keepA keepB rulesA rulesB p → (w.speak pA pB x p).2 ≠ .crashed) ∧
    (∀ (x : Side) (i : Nat) (m : Message) (nonce : Bytes), w.flying[i]? = some m →
      m.to = (match x with | .opener => a | .responder => b) →
      (w.hear x i m nonce).2 ≠ .crashed) ∧
    ∃ dA dB, w.opener.heap[pA]? = some dA ∧ w.responder.heap[pB]? = some dB ∧
      dA.incoming <+: dB.outgoing ∧ dB.incoming <+: dA.outgoing := by
  obtain ⟨hna, _, _⟩ := h.sides
  obtain ⟨dA, dB, hi, _⟩ := Talk.inv (polite := True) h hh hokA hokB (fun _ _ _ hk => hk.1)
    (fun _ _ _ hk => hk.2 rfl) ht
  refine ⟨?_, ?_, dA, dB, hi.seatA.heap, hi.seatB.heap, hi.back.got, (hi.forth trivial).got⟩
  · intro x p hk
    cases x with
    | opener => exact Inv.says_safe hi.seatA.inv hi.seatA.heap hi.endA hi.back.whole hk.1
    | responder =>
      exact Inv.says_safe hi.seatB.inv hi.seatB.heap hi.endB (hi.forth trivial).whole hk.2
  · intro x i m nonce hm hto
    cases x with
    | opener => exact (hi.openerHears h.address.2 hna h.nonce hm hto).1
    | responder => exact (hi.responderHears h.address.1 hna h.nonce hm hto).1 trivial

/-- C122 after crossing, whatever harmless calls are made meanwhile. -/
theorem dead_amid (h : Opened a b perf na nb keepA keepB rulesA rulesB pA pB sA sB)
    (hh : Harmless a b na keepA keepB rulesA rulesB ok busyA busyB) (hokA : ok sA) (hokB : ok sB)
    (ht : TalkAmid busyA busyB a b pA pB (Waiting keepA keepB rulesA rulesB pA)
      (atRest (openedStates a b perf na nb sA sB)) w)
    {dA dB : Dialogue} (hA : w.opener.heap[pA]? = some dA) (hB : w.responder.heap[pB]? = some dB)
    (hap : Apart dA dB) {w' : Pair}
    (ht' : TalkAmid busyA busyB a b pA pB (Waiting keepA keepB rulesA rulesB pA) w w') :
    ∃ dA' dB', w'.opener.heap[pA]? = some dA' ∧ w'.responder.heap[pB]? = some dB' ∧
      dA'.incoming = dA.incoming ∧ dB'.incoming = dB.incoming := by
  obtain ⟨hna, _, _⟩ := h.sides
  obtain ⟨dA0, dB0, hi, hxA, hxB⟩ := Talk.inv (polite := True) h hh hokA hokB (fun _ _ _ hk => hk.1)
    (fun _ _ _ hk => hk.2 rfl) ht
  have e1 : dA0 = dA := by
    have := hi.seatA.heap.symm.trans hA
    simpa using this
  have e2 : dB0 = dB := by
    have := hi.seatB.heap.symm.trans hB
    simpa using this
  subst e1 e2
  obtain ⟨dA', dB', hi', ⟨h1, h2, _⟩, _⟩ := Talk.induct (polite := True)
    (P := fun x y => x.incoming = dA0.incoming ∧ y.incoming = dB0.incoming ∧ Apart x y)
    hh h.address hna h.nonce (fun _ _ _ hk => hk.1) (fun _ _ _ hk => hk.2 rfl)
    ⟨dA0, dB0, hi, ⟨rfl, rfl, hap⟩, hxA, hxB⟩ (by
      rintro x y x' y' v hv ⟨h1, h2, h3⟩ hm
      obtain ⟨l1, l2⟩ := hv.apart_last trivial h3
      obtain ⟨c1, c2, c3, c4⟩ := h3
      have hne : 0 < y.incoming.length := List.length_pos_iff.2 hv.heardB
      cases hm with
      | grows g1 g2 g3 g4 =>
        exact ⟨g1.trans h1, g2.trans h2, by rw [g1]; omega, by rw [g2]; omega, by rw [g1]; omega,
          by rw [g2]; omega⟩
      | openerHears g1 g2 g3 =>
        have : x.incoming ≠ [] := by
          rcases hv.waits trivial with hw | hw
          · omega
          · exact hw
        have := g3 this
        omega
      | responderHears g1 g2 g3 =>
        have := g3 trivial
        omega) ht'
  exact ⟨dA', dB', hi'.seatA.heap, hi'.seatB.heap, h1, h2⟩

/-- **C122.** Whatever the two say and however the network delays, reorders or loses their messages:
the opener is never crashed, neither by a message of the responder nor by its own plain reply, and
what it has recorded of the responder is what the responder has said first, in order. The responder
has recorded nothing that the opener has not said. -/
theorem C122_opener (h : Opened a b perf na nb keepA keepB rulesA rulesB pA pB sA sB)
    (ht : Talk a b pA pB (Anything keepA keepB rulesA rulesB)
      (atRest (openedStates a b perf na nb sA sB)) w) :
    (∀ p, Kept keepA keepB rulesA rulesB p → (w.speak pA pB .opener p).2 ≠ .crashed) ∧
    (∀ (i : Nat) (m : Message) (nonce : Bytes), w.flying[i]? = some m → m.to = a →
      (w.hear .opener i m nonce).2 ≠ .crashed) ∧
    ∃ dA dB, w.opener.heap[pA]? = some dA ∧ w.responder.heap[pB]? = some dB ∧
      dA.incoming <+: dB.outgoing ∧ ∀ m ∈ dB.incoming, m ∈ dA.outgoing :=
  opener_amid h harmless_thirdParty trivial trivial ht

/-- **C122.** If the opener waits for the first answer before it says more, nobody is crashed, and
each side has recorded exactly the first messages the other has said, in order. -/
theorem C122_partial (h : Opened a b perf na nb keepA keepB rulesA rulesB pA pB sA sB)
    (ht : Talk a b pA pB (Waiting keepA keepB rulesA rulesB pA)
      (atRest (openedStates a b perf na nb sA sB)) w) :
    (∀ x p, Kept keepA keepB rulesA rulesB p → (w.speak pA pB x p).2 ≠ .crashed) ∧
    (∀ (x : Side) (i : Nat) (m : Message) (nonce : Bytes), w.flying[i]? = some m →
      m.to = (match x with | .opener => a | .responder => b) →
      (w.hear x i m nonce).2 ≠ .crashed) ∧
    ∃ dA dB, w.opener.heap[pA]? = some dA ∧ w.responder.heap[pB]? = some dB ∧
      dA.incoming <+: dB.outgoing ∧ dB.incoming <+: dA.outgoing :=
  waiting_amid h harmless_thirdParty trivial trivial ht

/-- **C122.** But once messages have crossed so that each side has said more than either has heard,
the dialogue is dead: whatever the two say from then on, neither ever records a message of the other
again. -/
theorem C122_dead (h : Opened a b perf na nb keepA keepB rulesA rulesB pA pB sA sB)
    (ht : Talk a b pA pB (Waiting keepA keepB rulesA rulesB pA)
      (atRest (openedStates a b perf na nb sA sB)) w)
    {dA dB : Dialogue} (hA : w.opener.heap[pA]? = some dA) (hB : w.responder.heap[pB]? = some dB)
    (hap : Apart dA dB) {w' : Pair}
    (ht' : Talk a b pA pB (Waiting keepA keepB rulesA rulesB pA) w w') :
    ∃ dA' dB', w'.opener.heap[pA]? = some dA' ∧ w'.responder.heap[pB]? = some dB' ∧
      dA'.incoming = dA.incoming ∧ dB'.incoming = dB.incoming :=
  dead_amid h harmless_thirdParty trivial trivial ht hA hB hap ht'

end

/-! ### Concrete cases -/

open Chat

/-- What the two may say in the examples. -/
abbrev free : Side → Bytes → Pair → Prop := Anything false false rules rules
abbrev waiting : Side → Bytes → Pair → Prop := Waiting false false rules rules 0

theorem kept_hi : Kept false false rules rules (b! "hi") := by
  constructor <;> intro h <;> revert h <;> decide

/-- Ann opens; her second message and Bob's first two are sent before any arrives. Bob refuses Ann's
second message, Ann accepts Bob's first and replies, and Bob accepts that reply, which is Ann's third
message. -/
def w1 : Pair := ((atRest x0).speak 0 0 .opener (b! "hi")).1
def w2 : Pair := (w1.speak 0 0 .responder (b! "hi")).1
def w3 : Pair := (w2.speak 0 0 .responder (b! "hi")).1
def ann2 : Message := ⟨b! "bob", b! "ann", ⟨b! "n", []⟩, 2, 1, b! "hi"⟩
def bob1 : Message := ⟨b! "ann", b! "bob", ⟨b! "n", b! "r"⟩, -1, 1, b! "hi"⟩
def ann3 : Message := ⟨b! "bob", b! "ann", ⟨b! "n", b! "r"⟩, 3, -1, b! "hi"⟩
def w4 : Pair := (w3.hear .responder 0 ann2 (b! "z")).1
def w5 : Pair := (w4.hear .opener 0 bob1 (b! "z")).1
def w6 : Pair := (w5.speak 0 0 .opener (b! "hi")).1
def w7 : Pair := (w6.hear .responder 1 ann3 (b! "z")).1

theorem run : Talk (b! "ann") (b! "bob") 0 0 free (atRest x0) w7 := by
  refine .hears .responder 1 ann3 (b! "z") (w := w6) ?_ (by decide) (by decide) (by decide)
  refine .speaks .opener (b! "hi") (w := w5) ?_ kept_hi (by decide)
  refine .hears .opener 0 bob1 (b! "z") (w := w4) ?_ (by decide) (by decide) (by decide)
  refine .hears .responder 0 ann2 (b! "z") (w := w3) ?_ (by decide) (by decide) (by decide)
  refine .speaks .responder (b! "hi") (w := w2) ?_ kept_hi (by decide)
  refine .speaks .responder (b! "hi") (w := w1) ?_ kept_hi (by decide)
  exact .speaks .opener (b! "hi") .start kept_hi (by decide)

/-- With Ann waiting for the first answer: Bob answers, then both send their second message. -/
def v1 : Pair := ((atRest x0).speak 0 0 .responder (b! "hi")).1
def v2 : Pair := (v1.hear .opener 0 bob1 (b! "z")).1
def v3 : Pair := (v2.speak 0 0 .opener (b! "hi")).1
def v4 : Pair := (v3.speak 0 0 .responder (b! "hi")).1

theorem heard_v2 : Heard 0 v2 := by
  refine ⟨(v2.opener.heap[0]?).get (by decide), by simp, by decide⟩

theorem crossed : Talk (b! "ann") (b! "bob") 0 0 waiting (atRest x0) v4 := by
  refine .speaks .responder (b! "hi") (w := v3) ?_ ⟨kept_hi, by simp⟩ (by decide)
  refine .speaks .opener (b! "hi") (w := v2) ?_ ⟨kept_hi, fun _ => heard_v2⟩ (by decide)
  refine .hears .opener 0 bob1 (b! "z") (w := v1) ?_ (by decide) (by decide) (by decide)
  exact .speaks .responder (b! "hi") .start ⟨kept_hi, by simp⟩ (by decide)

/-- Non-vacuity of `C122_dead`: the crossing of the two second messages kills the dialogue, and both
are refused when they arrive. -/
example : (∃ dA dB, v4.opener.heap[0]? = some dA ∧ v4.responder.heap[0]? = some dB ∧ Apart dA dB) ∧
    v4.flying.length = 2 ∧
    (v4.flying.map fun m => (v4.opener.call (.update m (b! "z"))).2) =
      [.failed .notByOther, .failed .wrongMessageId] := by
  refine ⟨⟨(v4.opener.heap[0]?).get (by decide), (v4.responder.heap[0]?).get (by decide), by simp,
    by simp, ?_⟩, by decide, by decide⟩
  refine ⟨?_, ?_, ?_, ?_⟩ <;> decide

end CrossTalk

open CrossTalk in
/-- **C122** fails: two agents that run the library, are given each other's messages in the order they
were sent, and do nothing but reply, can bring one of them down. After the run above Bob's next plain
reply looks for Ann's third message at the third place of a list of two, which is a panic. -/
theorem C122_counterexample :
    Talk (b! "ann") (b! "bob") 0 0 free (atRest Chat.x0) w7 ∧
    Kept false false Chat.rules Chat.rules (b! "hi") ∧
    (w7.speak 0 0 .responder (b! "hi")).2 = .crashed :=
  ⟨run, kept_hi, by decide⟩

end Verif
