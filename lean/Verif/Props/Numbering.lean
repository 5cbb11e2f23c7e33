import Verif.Lemmas.Accept
import Verif.Props.Dialogue2

/-!
# Properties C04, C05, C06

Numbering of the counterparty's messages, targets, and crashes. All three claims are false in
general, for one reason: `getIncomingNextMessageId` continues from the id of the last message
in *either* direction (dialogue.go:517-526), while `getMessageById` uses an id as an index into
the messages of one direction (dialogue.go:481-504).
-/

namespace Verif

/-! ## C04 -/

/-- The exchange keeps in step: the first message of a dialogue the agent opened is its own, and
when the counterparty sends a further message, either the message before it was also the
counterparty's or both sides have sent equally many so far. -/
structure InStep (me : Bytes) (d : Dialogue) (ms : List Message) : Prop where
  first : ∀ m rest, ms = m :: rest → OpenedBySelf me d → m.sender = me
  step : ∀ pre m post, ms = pre ++ m :: post → m.sender ≠ me → (∃ x ∈ pre, x.sender ≠ me) →
    (∃ last, pre.getLast? = some last ∧ last.sender ≠ me) ∨
    (pre.filter (fun m => m.sender == me)).length = (pre.filter (fun m => m.sender != me)).length

theorem getElem?_snoc {α : Type} {l : List α} {x y : α} {i : Nat} (h : (l ++ [x])[i]? = some y) :
    l[i]? = some y ∨ (i = l.length ∧ y = x) := by
  rw [List.getElem?_append] at h
  split at h
  · exact Or.inl h
  · rename_i hlt
    have := (List.getElem?_eq_some_iff.1 h).1
    simp at this
    have hi : i = l.length := by omega
    subst hi
    simp at h
    exact Or.inr ⟨rfl, h.symm⟩

theorem getLast?_idx {α : Type} {l : List α} {x : α} (h : l.getLast? = some x) :
    0 < l.length ∧ l[l.length - 1]? = some x := by
  constructor
  · rcases Nat.eq_zero_or_pos l.length with h0 | h0
    · rw [List.length_eq_zero_iff] at h0; rw [h0] at h; simp at h
    · exact h0
  · rw [← h, List.getLast?_eq_getElem?]

theorem inStep_consecutive {me : Bytes} {rules : RulesDecl} {d : Dialogue} {ms : List Message}
    (hrules : FollowsRules rules ms) (hlaw : IncomingLaw me (OpenedBySelf me d) ms)
    (hin : InStep me d ms)
    (hown : ∀ (i : Nat) (m : Message), (ms.filter (fun m => m.sender == me))[i]? = some m →
      m.messageId.natAbs = i + 1) :
    ∀ (i : Nat) (m : Message), (ms.filter (fun m => m.sender != me))[i]? = some m →
      (OpenedBySelf me d → m.messageId = -((i : Int) + 1)) ∧
      (¬ OpenedBySelf me d → m.messageId = (i : Int) + 1) := by
  -- along all prefixes
  suffices H : ∀ (n : Nat) (pre post : List Message), pre.length = n → ms = pre ++ post →
      ∀ (i : Nat) (m : Message), (pre.filter (fun m => m.sender != me))[i]? = some m →
        (OpenedBySelf me d → m.messageId = -((i : Int) + 1)) ∧
        (¬ OpenedBySelf me d → m.messageId = (i : Int) + 1) from
    H _ ms [] rfl (by simp)
  intro n
  induction n with
  | zero =>
    intro pre post hn hms i m hm
    rw [List.length_eq_zero_iff] at hn
    subst hn
    simp at hm
  | succ n ih =>
    intro pre post hn hms i m hm
    rcases List.eq_nil_or_concat pre with hp | ⟨pre', x, hp⟩
    · subst hp; simp at hn
    rw [List.concat_eq_append] at hp
    subst hp
    have hms' : ms = pre' ++ x :: post := by rw [hms]; simp
    have ih' := ih pre' (x :: post) (by simpa using hn) hms'
    by_cases hx : x.sender = me
    · refine ih' i m ?_
      simpa [List.filter_append, hx] using hm
    · rw [List.filter_append] at hm
      have hfx : [x].filter (fun m => m.sender != me) = [x] := by simp [hx]
      rw [hfx] at hm
      rcases getElem?_snoc hm with hm | ⟨hi, hmx⟩
      · exact ih' i m hm
      subst hmx
      cases hlast : pre'.getLast? with
      | none =>
        rw [List.getLast?_eq_none_iff] at hlast
        subst hlast
        have h1 := (hrules.first m post hms').1
        have hno : ¬ OpenedBySelf me d := fun ho => hx (hin.first m post hms' ho)
        simp at hi
        subst hi
        exact ⟨fun ho => absurd ho hno, fun _ => by rw [h1]; rfl⟩
      | some last =>
        obtain ⟨l1, l2, l3, l4⟩ := hlaw pre' m post hms' hx last hlast
        have key : m.messageId.natAbs = i + 1 := by
          by_cases hex : ∃ y ∈ pre', y.sender ≠ me
          · rw [l2 hex]
            rcases hin.step pre' m post hms' hx hex with ⟨last', hl', hs⟩ | heq
            · rw [hlast] at hl'
              simp only [Option.some.injEq] at hl'
              subst hl'
              have hfl : (pre'.filter (fun m => m.sender != me)).getLast? = some last := by
                obtain ⟨ys, hys⟩ := List.getLast?_eq_some_iff.1 hlast
                rw [hys, List.filter_append]
                simp [hs]
              obtain ⟨hpos, hidx⟩ := getLast?_idx hfl
              have := ih' _ _ hidx
              by_cases ho : OpenedBySelf me d
              · have := this.1 ho; omega
              · have := this.2 ho; omega
            · by_cases hs : last.sender = me
              · have hfl : (pre'.filter (fun m => m.sender == me)).getLast? = some last := by
                  obtain ⟨ys, hys⟩ := List.getLast?_eq_some_iff.1 hlast
                  rw [hys, List.filter_append]
                  simp [hs]
                obtain ⟨hpos, hidx⟩ := getLast?_idx hfl
                have hpre : (ms.filter (fun m => m.sender == me))[(pre'.filter
                    (fun m => m.sender == me)).length - 1]? = some last := by
                  rw [hms', List.filter_append, List.getElem?_append_left (by omega)]
                  exact hidx
                have := hown _ _ hpre
                omega
              · have hfl : (pre'.filter (fun m => m.sender != me)).getLast? = some last := by
                  obtain ⟨ys, hys⟩ := List.getLast?_eq_some_iff.1 hlast
                  rw [hys, List.filter_append]
                  simp [hs]
                obtain ⟨hpos, hidx⟩ := getLast?_idx hfl
                have := ih' _ _ hidx
                by_cases ho : OpenedBySelf me d
                · have := this.1 ho; omega
                · have := this.2 ho; omega
          · have hall : ∀ y ∈ pre', y.sender = me := by
              intro y hy
              apply Classical.byContradiction
              intro h
              exact hex ⟨y, hy, h⟩
            rw [l1 hall]
            have : pre'.filter (fun m => m.sender != me) = [] := by
              rw [List.filter_eq_nil_iff]
              intro y hy
              simp [hall y hy]
            rw [this] at hi
            simp at hi
            omega
        constructor
        · intro ho; have := l3 ho; omega
        · intro ho; have := l4 ho; omega

/-- **C04 (partial).** The exact law of the counterparty's ids, and the claim itself for dialogues
that keep in step. Partial: the claim is false for dialogues that do not, among them every
dialogue the agent opened in which the two sides take turns (`C04_counterexample`,
`C04_in_order_message_never_accepted`). -/
theorem C04_numbering_partial {me : Bytes} {keep : Bool} {rules : RulesDecl}
    {s : Sys} (h : Reachable me keep rules s) {d : Dialogue} (hd : d ∈ s.heap) :
    ∃ ms, IsHistory me d ms ∧ IncomingLaw me (OpenedBySelf me d) ms ∧
      (InStep me d ms → PeerIdsConsecutive me d) := by
  obtain ⟨p, hp⟩ := List.getElem?_of_mem hd
  have hdi := h.inv.heap p d hp
  obtain ⟨ms, h1, h2, h3⟩ := hdi.history
  refine ⟨ms, h1, h3, ?_⟩
  intro hin
  have := inStep_consecutive h2 h3 hin (by
    intro i m hm
    rw [← h1.outgoing] at hm
    have := hdi.ownIds i m hm
    by_cases ho : OpenedBySelf me d
    · have := this.1 ho; omega
    · have := this.2 ho; omega)
  rw [← h1.incoming] at this
  exact this

namespace Demo

/-- `eve` and the agent take turns in the dialogue `eve` opened: ids 1, -1, 2, -2, 3. -/
def t1 : Call := .update (msg (b! "eve") me (b! "e1") [] 1 0 (b! "cfp")) (b! "n2")
def t2 : Call := .reply 0 (b! "propose") none none
def t3 : Call := .update (msg (b! "eve") me (b! "e1") (b! "n2") 2 (-1) (b! "counter")) (b! "z")
def t4 : Call := .reply 0 (b! "counter") none none
def t5 : Call := .update (msg (b! "eve") me (b! "e1") (b! "n2") 3 (-2) (b! "counter")) (b! "z")
def turns : Sys := runCalls s0 [t1, t2, t3, t4, t5]

theorem turns_reachable : Reachable me false rules turns := runCalls_reachable r0 _ (by decide)

/-- Bob's id -3 is accepted after the agent's message 2, and then his id -4. -/
def g5 : Call := .update (msg (b! "bob") me (b! "n1") (b! "r1") (-3) 2 (b! "counter")) (b! "z")
def s5 : Sys := (s4.call g5).1
theorem r5 : Reachable me false rules s5 := Reachable.step g5 r4 (by decide)

end Demo

/-- Non-vacuity: five messages, taken in turns, in a dialogue opened by `eve`; the ids of `eve`'s
messages are 1, 2, 3. -/
example : ∃ d ∈ Demo.turns.heap, ∃ ms, IsHistory Demo.me d ms ∧ InStep Demo.me d ms ∧
    d.incoming.map (·.messageId) = [1, 2, 3] ∧ d.outgoing.map (·.messageId) = [-1, -2] := by
  refine ⟨Demo.turns.heap[0]'(by decide), List.getElem_mem _,
    [Demo.msg (b! "eve") Demo.me (b! "e1") [] 1 0 (b! "cfp"),
     Demo.msg Demo.me (b! "eve") (b! "e1") (b! "n2") (-1) 1 (b! "propose"),
     Demo.msg (b! "eve") Demo.me (b! "e1") (b! "n2") 2 (-1) (b! "counter"),
     Demo.msg Demo.me (b! "eve") (b! "e1") (b! "n2") (-2) 2 (b! "counter"),
     Demo.msg (b! "eve") Demo.me (b! "e1") (b! "n2") 3 (-2) (b! "counter")],
    ⟨by decide, by decide, by decide⟩, ⟨?_, ?_⟩, by decide, by decide⟩
  · intro m rest hm ho
    exfalso
    revert ho
    unfold OpenedBySelf
    decide
  · intro pre m post hm hs hex
    match pre with
    | [] => simp at hex
    | [a] => simp at hm; rw [← hm.2.1] at hs; exact absurd rfl hs
    | [a, b] =>
      simp only [List.cons_append, List.nil_append, List.cons.injEq] at hm
      rw [← hm.1, ← hm.2.1]
      right; decide
    | [a, b, c] => simp at hm; rw [← hm.2.2.2.1] at hs; exact absurd rfl hs
    | [a, b, c, e] =>
      simp only [List.cons_append, List.nil_append, List.cons.injEq] at hm
      rw [← hm.1, ← hm.2.1, ← hm.2.2.1, ← hm.2.2.2.1]
      right; decide
    | a :: b :: c :: e :: f :: pre => simp at hm

/-- **C04 is false.** In the dialogue the demo agent opened, ids so far 1, -1, 2, bob's in-order
message -2 is refused, and the out-of-order message -3 is accepted. -/
theorem C04_counterexample :
    ∃ s : Sys, Reachable Demo.me false Demo.rules s ∧
      (s.call (.update (Demo.msg (b! "bob") Demo.me (b! "n1") (b! "r1") (-2) 2 (b! "counter"))
        (b! "z"))).2 = .failed .wrongMessageId ∧
      ∃ s', s' = (s.call (.update (Demo.msg (b! "bob") Demo.me (b! "n1") (b! "r1") (-3) 2
        (b! "counter")) (b! "z"))).1 ∧ Reachable Demo.me false Demo.rules s' ∧
        (s'.heap[0]?.map fun d => d.incoming.map (·.messageId)) = some [-1, -3] :=
  ⟨Demo.s4, Demo.r4, by decide, Demo.s5, rfl, Demo.r5, by decide⟩

/-- **C04 is false, sign.** After a failed `Create` the agent's own, empty dialogue accepts a first
message from the counterparty, with the positive id 1 of a dialogue opener. -/
theorem C04_counterexample_sign :
    ∃ s : Sys, Reachable Demo.me false Demo.rules s ∧ ∃ d ∈ s.heap, OpenedBySelf Demo.me d ∧
      d.outgoing = [] ∧ d.incoming.map (·.messageId) = [1] := by
  refine ⟨Demo.runCalls Demo.s0 [.create (b! "bob") (b! "propose") (b! "n1"),
    .update (Demo.msg (b! "bob") Demo.me (b! "n1") (b! "r1") 1 0 (b! "cfp")) (b! "z")],
    Demo.runCalls_reachable Demo.r0 _ (by decide), _, List.getElem_mem (n := 0) (by decide), ?_,
    by decide, by decide⟩
  unfold OpenedBySelf
  decide

/-- **C04 is false, in general.** Whenever the last message of a dialogue is the agent's own, the
counterparty has sent at least one message, and the two sides have not sent equally many, the
counterparty's next in-order message is not accepted into the dialogue, whatever it contains. -/
theorem C04_in_order_message_never_accepted {me : Bytes} {keep : Bool} {rules : RulesDecl}
    {s : Sys} (h : Reachable me keep rules s) {p : Nat} {d : Dialogue} (hd : s.heap[p]? = some d)
    {own : Message} (hown : d.outgoing.getLast? = some own)
    (hlast : d.orderedIds.getLast? = some own.messageId)
    (hin : d.incoming ≠ []) (hneq : d.outgoing.length ≠ d.incoming.length)
    {m : Message} {nonce : Bytes} (hm : m.messageId.natAbs = d.incoming.length + 1)
    {x : Option Message} : (s.call (.update m nonce)).2 ≠ .accepted (some p) x := by
  intro hacc
  rcases hu : s.update m nonce with ⟨s', r⟩
  have e1 : s.call (.update m nonce) = (s', r.report fun p => .accepted p none) := by
    simp [Sys.call, hu]
  rw [e1] at hacc
  simp only at hacc
  have hr : r = .ok (some p) := by
    cases r with
    | ok q => simp [Res.report] at hacc; rw [hacc.1]
    | err e => simp [Res.report] at hacc
    | panic => simp [Res.report] at hacc
  subst hr
  have hi := h.inv
  obtain ⟨_, hs, hto, s1, d1, d', t, hi1, hd1, hc, _, hcase⟩ := Sys.update_accepted hi hu
  rcases hcase with ⟨hp, _⟩ | ⟨d0, hd0, hsm, _⟩
  · have := (List.getElem?_eq_some_iff.1 hd).1
    rw [hp] at this
    exact absurd this (Nat.lt_irrefl _)
  rw [hd] at hd0
  simp only [Option.some.injEq] at hd0
  subst hd0
  have hdi := hi.heap p d hd
  have hdi1 := hi1.heap p d1 hd1
  obtain ⟨_, _, hv, _, _⟩ := Dialogue.updateCore_ok hc
  have hne : d1.isEmpty = false := by
    apply Bool.eq_false_iff.2
    intro he
    have := ((Dialogue.isEmpty_iff d1).1 he).2
    rw [hsm.incoming] at this
    exact hin this
  unfold Dialogue.validateNext at hv
  rw [hne] at hv
  simp only [Bool.false_eq_true, if_false] at hv
  obtain ⟨_, h2, _⟩ := Dialogue.validateNonInitial_ok hv
  rw [hdi1.selfAddr, if_pos hto] at h2
  have habs : m.messageId.natAbs = d.lastMessageId.natAbs + 1 := by
    rw [h2]
    unfold Dialogue.nextIncomingId Dialogue.lastIncoming
    rw [hsm.incoming, hsm.last]
    cases hl : d.incoming.getLast? with
    | none => rw [List.getLast?_eq_none_iff] at hl; exact absurd hl hin
    | some y => simp only [absId_eq]; split <;> omega
  rw [hdi.lastIs _ hlast] at habs
  obtain ⟨hpos, hidx⟩ := getLast?_idx hown
  have := hdi.ownIds _ _ hidx
  by_cases ho : OpenedBySelf me d
  · have := this.1 ho; omega
  · have := this.2 ho; omega

/-- Non-vacuity: the dialogue with `bob` in the demo is in this situation. -/
example : ∃ d own, Demo.s4.heap[0]? = some d ∧ d.outgoing.getLast? = some own ∧
    d.orderedIds.getLast? = some own.messageId ∧ d.incoming ≠ [] ∧
    d.outgoing.length ≠ d.incoming.length :=
  ⟨_, _, rfl, rfl, by decide, by decide, by decide⟩

/-! ## C05 -/

/-- **C05 (partial), opening.** `Create` and `CreateWithMessage` never crash. Partial: as long as
`Reply` was used in an orderly way before. -/
theorem C05_create_never_crashes_partial {me : Bytes} {keep : Bool} {rules : RulesDecl} {s : Sys}
    (h : Later Orderly (Sys.new me keep rules) s) (cp perf nonce : Bytes) (m : Message) :
    (s.call (.create cp perf nonce)).2 ≠ .crashed ∧ (s.call (.createWith cp m)).2 ≠ .crashed := by
  obtain ⟨hi, _, hx⟩ := orderly_inv h
  constructor
  · rcases hu : s.createNew cp perf nonce with ⟨s', r⟩
    have e1 : s.call (.create cp perf nonce) =
        (s', r.report fun (m, p) => .accepted p (some m)) := by simp [Sys.call, hu]
    rw [e1]
    obtain ⟨r0, hd, hr0⟩ := Sys.createNew_cases hu
    cases r0 with
    | panic =>
      exact absurd hd (hx.createDialogue_not_panic hi (by simpa [Sys.freshMessage] using hi.selfEq)
        (by simp [Sys.freshMessage]))
    | ok a => subst hr0; simp [Res.bind, Res.report]
    | err e => subst hr0; simp [Res.bind, Res.report]
  · rcases hu : s.createWithMessage cp m with ⟨s', r⟩
    have e1 : s.call (.createWith cp m) = (s', r.report fun p => .accepted p none) := by
      simp [Sys.call, hu]
    rw [e1]
    rcases Sys.createWithMessage_cases hu with ⟨e, rfl, _⟩ | ⟨_, _, hd⟩
    · simp [Res.report]
    · cases r with
      | panic => exact absurd hd (hx.createDialogue_not_panic hi hi.selfEq rfl)
      | ok a => simp [Res.report]
      | err e => simp [Res.report]

/-- **C05 (partial), incoming messages.** If processing an incoming message crashes the process,
then some dialogue has a gap in the counterparty's ids (its last id is larger than the number
of its messages) and the message's target lies in the gap. Partial: such dialogues do occur,
see `C05_counterexample`. -/
theorem C05_update_crash_partial {me : Bytes} {keep : Bool} {rules : RulesDecl} {s : Sys}
    (h : Later Orderly (Sys.new me keep rules) s) {m : Message} {nonce : Bytes}
    (hc : (s.call (.update m nonce)).2 = .crashed) :
    ∃ d ∈ s.heap, ∃ last, d.incoming.getLast? = some last ∧
      d.incoming.length < m.target.natAbs ∧ m.target.natAbs ≤ last.messageId.natAbs := by
  obtain ⟨hi, _, hx⟩ := orderly_inv h
  rcases hu : s.update m nonce with ⟨s', r⟩
  have e1 : s.call (.update m nonce) = (s', r.report fun p => .accepted p none) := by
    simp [Sys.call, hu]
  rw [e1] at hc
  have hr : r = .panic := by
    cases r with
    | ok q => simp [Res.report] at hc
    | err e => simp [Res.report] at hc
    | panic => rfl
  subst hr
  obtain ⟨p, d, hd, hg⟩ := hx.update_panic hi hu
  exact ⟨d, List.mem_of_getElem? hd, hg⟩

/-- **C05 (partial), replies.** If `Reply` on an existing dialogue crashes the process, that
dialogue has a gap in the counterparty's ids. -/
theorem C05_reply_crash_partial {me : Bytes} {keep : Bool} {rules : RulesDecl} {s : Sys}
    (h : Later Orderly (Sys.new me keep rules) s) {p : Ptr} {d : Dialogue}
    (hd : s.heap[p]? = some d) {perf : Bytes} {tm : Option Message} {tp : Option Int}
    (ho : Orderly s (.reply p perf tm tp))
    (hc : (s.call (.reply p perf tm tp)).2 = .crashed) :
    ∃ last, d.incoming.getLast? = some last ∧ d.incoming.length < last.messageId.natAbs := by
  obtain ⟨hi, hm, hx⟩ := orderly_inv h
  rcases hu : s.reply p perf tm tp with ⟨s', r⟩
  have e1 : s.call (.reply p perf tm tp) = (s', r.report fun m => .accepted (some p) (some m)) := by
    simp [Sys.call, hu]
  rw [e1] at hc
  have hr : r = .panic := by
    cases r with
    | ok q => simp [Res.report] at hc
    | err e => simp [Res.report] at hc
    | panic => rfl
  subst hr
  have hset : Settled s p := by
    intro d hd
    rcases ho d hd with h1 | h1
    · exact Or.inl ⟨p, h1⟩
    · refine Or.inr ?_
      cases hg : s.incomplete.get d.label with
      | none => rfl
      | some l' => exact absurd (hm.key _ _ hg).1 h1
  obtain ⟨t, last, h1, h2, h3⟩ := hx.reply_panic hi hset hd hu
  exact ⟨last, h1, by omega⟩

/-- **C05 is false.** The demo agent opened a dialogue, ids so far 1, -1, 2, and bob's message -3
is accepted. Now a further message of bob with target -3 crashes the process, and so does
the agent's own plain reply to the message it just accepted. -/
theorem C05_counterexample :
    ∃ s : Sys, Reachable Demo.me false Demo.rules s ∧
      (s.call (.update (Demo.msg (b! "bob") Demo.me (b! "n1") (b! "r1") (-4) (-3) (b! "counter"))
        (b! "z"))).2 = .crashed ∧
      (s.call (.reply 0 (b! "counter") none none)).2 = .crashed :=
  ⟨Demo.s5, Demo.r5, by decide, by decide⟩

/-! ## C06 -/

theorem filter_unique {α : Type} {P : α → Bool} {l : List α} {k : Nat} {x : α}
    (hk : l[k]? = some x) (hx : P x = true)
    (hu : ∀ (j : Nat) (y : α), l[j]? = some y → P y = true → j = k) : l.filter P = [x] := by
  induction l generalizing k with
  | nil => simp at hk
  | cons a l ih =>
    cases k with
    | zero =>
      simp at hk
      subst hk
      rw [List.filter_cons_of_pos hx]
      congr 1
      rw [List.filter_eq_nil_iff]
      intro y hy hp
      obtain ⟨j, hj⟩ := List.getElem?_of_mem hy
      have := hu (j + 1) y (by simpa using hj) hp
      omega
    | succ k =>
      have ha : ¬ P a = true := by
        intro hp
        have := hu 0 a (by simp) hp
        omega
      rw [List.filter_cons_of_neg ha]
      refine ih (by simpa using hk) ?_
      intro j y hj hp
      have := hu (j + 1) y (by simpa using hj) hp
      omega

/-- What the target of an accepted message refers to. -/
theorem target_accepted {me : Bytes} {rules : RulesDecl} {d d' : Dialogue} {m : Message}
    {t : Bool} (h : DInv me rules d) (hsnd : m.sender = me ∨ m.to = me)
    (hc : d.updateCore m = .ok (d', m, t)) (ht : m.target ≠ 0) :
    d.isEmpty = false ∧ ∃ x, IsValidReply rules x.performative m.performative ∧
      ((OpenedBySelf me d → 0 < m.target) ∧ (¬ OpenedBySelf me d → m.target < 0) →
        d.outgoing.filter (fun y => y.messageId == m.target) = [x]) ∧
      (PeerIdsConsecutive me d →
        (d.outgoing ++ d.incoming).filter (fun y => y.messageId == m.target) = [x]) := by
  obtain ⟨_, hb, hv, _, _⟩ := Dialogue.updateCore_ok hc
  have hne : d.isEmpty = false := by
    apply Bool.eq_false_iff.2
    intro he
    unfold Dialogue.validateNext at hv
    rw [if_pos he] at hv
    exact ht (Dialogue.validateInitial_ok hv).2.2.1
  refine ⟨hne, ?_⟩
  unfold Dialogue.validateNext at hv
  rw [hne] at hv
  simp only [Bool.false_eq_true, if_false] at hv
  obtain ⟨_, h2, h3⟩ := Dialogue.validateNonInitial_ok hv
  have hid : m.messageId ≠ 1 := fun hid => ht (Dialogue.validateMessageTarget_start h3 hid)
  obtain ⟨_, x, hx, hrep⟩ := Dialogue.validateMessageTarget_ok h3 hid
  rw [h.rulesEq] at hrep
  have hrep := (newRules_valid rules _ _).1 hrep
  refine ⟨x, hrep, ?_⟩
  have hopp := Dialogue.isBelonging_opponent hb
  -- not a dialogue with oneself
  have hop : d.label.opponent ≠ me := by
    intro hop
    rw [h.selfAddr] at h2
    have hto : m.to = me := by
      rcases hsnd with hs | hs
      · rw [← hop, ← hopp]; simp [Dialogue.counterParty, Dialogue.isMessageBySelf, h.selfAddr, hs]
      · exact hs
    rw [if_pos hto] at h2
    have hinc : d.incoming = [] := by
      apply List.eq_nil_iff_forall_not_mem.2
      intro y hy
      have := h.sentByPeer y hy
      exact this.2.2 (by rw [this.1, hop])
    have hnsi : d.isSelfInitiated = false := by
      unfold Dialogue.isSelfInitiated
      rcases h.kind with hk | ⟨_, hk⟩
      · simp [hk, hop]
      · exact absurd hop hk
    unfold Dialogue.nextIncomingId Dialogue.lastIncoming at h2
    simp [hinc, hnsi, startingMessageId] at h2
    exact hid h2
  have hiff := Dialogue.selfInit_iff h hop
  obtain ⟨_, hidx, _⟩ := Dialogue.getMessageById_some hx
  rw [absId_eq] at hidx
  have hown := h.ownIds
  constructor
  · intro hsign
    have hl : d.idList m.target = d.outgoing := by
      unfold Dialogue.idList
      rw [if_pos]
      by_cases ho : OpenedBySelf me d
      · rw [hiff.2 ho]; simpa using hsign.1 ho
      · have h1 := hsign.2 ho
        have h2 : d.isSelfInitiated = false := by
          apply Bool.eq_false_iff.2; intro hs; exact ho (hiff.1 hs)
        rw [h2]; simp; omega
    rw [hl] at hidx
    refine filter_unique hidx ?_ ?_
    · have := hown _ _ hidx
      simp only [beq_iff_eq]
      by_cases ho : OpenedBySelf me d
      · have := this.1 ho; have := hsign.1 ho; omega
      · have := this.2 ho; have := hsign.2 ho; omega
    · intro j y hj hy
      simp only [beq_iff_eq] at hy
      have := hown _ _ hj
      by_cases ho : OpenedBySelf me d
      · have := this.1 ho; have := hsign.1 ho; omega
      · have := this.2 ho; have := hsign.2 ho; omega
  · intro hpeer
    have hlist : ∀ (l : List Message), (∃ k : Nat, l[k]? = some x ∧ x.messageId = m.target ∧
        ∀ (j : Nat) (y : Message), l[j]? = some y → y.messageId = m.target → j = k) →
        l.filter (fun y => y.messageId == m.target) = [x] := by
      rintro l ⟨k, hk, hxid, hu⟩
      refine filter_unique hk (by simpa using hxid) ?_
      intro j y hj hy
      exact hu j y hj (by simpa using hy)
    have hempty : ∀ (l : List Message), (∀ (j : Nat) (y : Message), l[j]? = some y →
        y.messageId ≠ m.target) → l.filter (fun y => y.messageId == m.target) = [] := by
      intro l hl
      rw [List.filter_eq_nil_iff]
      intro y hy
      obtain ⟨j, hj⟩ := List.getElem?_of_mem hy
      simpa using hl j y hj
    rw [List.filter_append]
    by_cases ho : OpenedBySelf me d
    · by_cases hpos : 0 < m.target
      · have hl : d.idList m.target = d.outgoing := by
          unfold Dialogue.idList; rw [if_pos]; rw [hiff.2 ho]; simpa using hpos
        rw [hl] at hidx
        rw [hlist d.outgoing ⟨_, hidx, by have := (hown _ _ hidx).1 ho; omega, by
              intro j y hj hy; have := (hown _ _ hj).1 ho; omega⟩,
          hempty d.incoming (by intro j y hj; have := (hpeer _ _ hj).1 ho; omega)]
        rfl
      · have hl : d.idList m.target = d.incoming := by
          unfold Dialogue.idList
          rw [if_neg]
          rw [hiff.2 ho]; simp; omega
        rw [hl] at hidx
        rw [hlist d.incoming ⟨_, hidx, by have := (hpeer _ _ hidx).1 ho; omega, by
              intro j y hj hy; have := (hpeer _ _ hj).1 ho; omega⟩,
          hempty d.outgoing (by intro j y hj; have := (hown _ _ hj).1 ho; omega)]
        rfl
    · have hsi : d.isSelfInitiated = false := by
        apply Bool.eq_false_iff.2; intro hs; exact ho (hiff.1 hs)
      by_cases hpos : 0 < m.target
      · have hl : d.idList m.target = d.incoming := by
          unfold Dialogue.idList; rw [if_neg]; rw [hsi]; simpa using hpos
        rw [hl] at hidx
        rw [hlist d.incoming ⟨_, hidx, by have := (hpeer _ _ hidx).2 ho; omega, by
              intro j y hj hy; have := (hpeer _ _ hj).2 ho; omega⟩,
          hempty d.outgoing (by intro j y hj; have := (hown _ _ hj).2 ho; omega)]
        rfl
      · have hl : d.idList m.target = d.outgoing := by
          unfold Dialogue.idList; rw [if_pos]; rw [hsi]; simp; omega
        rw [hl] at hidx
        rw [hlist d.outgoing ⟨_, hidx, by have := (hown _ _ hidx).2 ho; omega, by
              intro j y hj hy; have := (hown _ _ hj).2 ho; omega⟩,
          hempty d.incoming (by intro j y hj; have := (hpeer _ _ hj).2 ho; omega)]
        rfl

/-- What C06 says about an accepted message `m` and the dialogue `d` before it was accepted: there
is a message `x` to which `m` is a declared reply, and `x` is the only message of `d` with the
id `m.target` — among the agent's own messages, if the sign of the target points to them, and
among all messages, if the counterparty's ids are consecutive. -/
def TargetIdentified (me : Bytes) (rules : RulesDecl) (d : Dialogue) (m : Message) : Prop :=
  ∃ x, IsValidReply rules x.performative m.performative ∧
    ((OpenedBySelf me d → 0 < m.target) ∧ (¬ OpenedBySelf me d → m.target < 0) →
      d.outgoing.filter (fun y => y.messageId == m.target) = [x]) ∧
    (PeerIdsConsecutive me d →
      (d.outgoing ++ d.incoming).filter (fun y => y.messageId == m.target) = [x])

/-- **C06 (partial), incoming messages.** Partial: without consecutive counterparty ids the target
may point to a message with another id (`C06_counterexample`) or be ambiguous
(`C06_counterexample_ambiguous`). -/
theorem C06_update_target_partial {me : Bytes} {keep : Bool} {rules : RulesDecl} {s : Sys}
    (h : Reachable me keep rules s) {m : Message} {nonce : Bytes} {p : Ptr} {x : Option Message}
    (hacc : (s.call (.update m nonce)).2 = .accepted (some p) x) (ht : m.target ≠ 0) :
    ∃ d, s.heap[p]? = some d ∧ TargetIdentified me rules d m := by
  rcases hu : s.update m nonce with ⟨s', r⟩
  have e1 : s.call (.update m nonce) = (s', r.report fun p => .accepted p none) := by
    simp [Sys.call, hu]
  rw [e1] at hacc
  simp only at hacc
  have hr : r = .ok (some p) := by
    cases r with
    | ok q => simp [Res.report] at hacc; rw [hacc.1]
    | err e => simp [Res.report] at hacc
    | panic => simp [Res.report] at hacc
  subst hr
  have hi := h.inv
  obtain ⟨_, _, hto, s1, d1, d', t, hi1, hd1, hc, _, hcase⟩ := Sys.update_accepted hi hu
  obtain ⟨hne, y, h1, h2, h3⟩ := target_accepted (hi1.heap p d1 hd1) (Or.inr hto) hc ht
  rcases hcase with ⟨_, he⟩ | ⟨d, hd, hsm, hev⟩
  · rw [he] at hne; simp at hne
  -- the label may have been completed, which does not change who opened the dialogue
  have hop : OpenedBySelf me d1 ↔ OpenedBySelf me d := by
    unfold OpenedBySelf; rw [hev.starterAddr]
  refine ⟨d, hd, y, h1, ?_, ?_⟩
  · rw [← hsm.outgoing, ← hop]; exact h2
  · intro hp
    rw [← hsm.outgoing, ← hsm.incoming]
    refine h3 ?_
    intro i z hz
    rw [hsm.incoming] at hz
    rw [hop]
    exact hp i z hz

/-- **C06 (partial), replies.** -/
theorem C06_reply_target_partial {me : Bytes} {keep : Bool} {rules : RulesDecl} {s : Sys}
    (h : Reachable me keep rules s) {p : Ptr} {perf : Bytes} {tm : Option Message}
    {tp : Option Int} {q : Option Ptr} {m : Message}
    (hacc : (s.call (.reply p perf tm tp)).2 = .accepted q (some m)) :
    m.target ≠ 0 ∧ ∃ d, s.heap[p]? = some d ∧ TargetIdentified me rules d m := by
  rcases hu : s.reply p perf tm tp with ⟨s', r⟩
  have e1 : s.call (.reply p perf tm tp) = (s', r.report fun m => .accepted (some p) (some m)) := by
    simp [Sys.call, hu]
  rw [e1] at hacc
  simp only at hacc
  have hr : r = .ok m := by
    cases r with
    | ok q => simp [Res.report] at hacc; rw [hacc.2]
    | err e => simp [Res.report] at hacc
    | panic => simp [Res.report] at hacc
  subst hr
  have hi := h.inv
  obtain ⟨d, d', t, hd, _, hs, _, ht, _, _, _, hc, _⟩ := Sys.reply_accepted hi hu
  obtain ⟨_, y, h1⟩ := target_accepted (hi.heap p d hd) (Or.inl hs) hc ht
  exact ⟨ht, d, hd, y, h1⟩

/-- Non-vacuity: the fifth message of the exchange with `eve` has target -2, `eve`'s ids are
consecutive, and the target is the agent's second message. -/
example :
    let s := Demo.runCalls Demo.s0 [Demo.t1, Demo.t2, Demo.t3, Demo.t4]
    (s.call Demo.t5).2 = .accepted (some 0) none ∧
    (∃ d, s.heap[0]? = some d ∧ d.incoming.map (·.messageId) = [1, 2] ∧
      d.outgoing.map (·.messageId) = [-1, -2]) := by
  exact ⟨by decide, _, rfl, by decide, by decide⟩

/-- **C06 is false.** In the dialogue with ids 1, -1, 2, -3, a further message of bob with target
-2 is accepted although no message has the id -2 (it is checked against message -3). -/
theorem C06_counterexample :
    ∃ (s : Sys) (m : Message), Reachable Demo.me false Demo.rules s ∧ m.target = -2 ∧
      (s.call (.update m (b! "z"))).2 = .accepted (some 0) none ∧
      ∃ d, s.heap[0]? = some d ∧ -2 ∉ d.orderedIds :=
  ⟨Demo.s5, Demo.msg (b! "bob") Demo.me (b! "n1") (b! "r1") (-4) (-2) (b! "counter"), Demo.r5,
    rfl, by decide, _, rfl, by decide⟩

/-- **C06 is false, ambiguity.** Two different accepted messages of one dialogue can have the same
id: here -3, once with performative `counter` and once with `propose`. -/
theorem C06_counterexample_ambiguous :
    ∃ s : Sys, Reachable Demo.me false Demo.rules s ∧
      (s.heap[0]?.map fun d => d.incoming.map fun m => (m.messageId, m.performative)) =
        some [(-1, b! "propose"), (-2, b! "counter"), (-3, b! "counter"), (-3, b! "propose")] :=
  ⟨Demo.runCalls Demo.s0 [Demo.c1, Demo.c2,
    .update (Demo.msg (b! "bob") Demo.me (b! "n1") (b! "r1") (-2) (-1) (b! "counter")) (b! "z"),
    .update (Demo.msg (b! "bob") Demo.me (b! "n1") (b! "r1") (-3) (-2) (b! "counter")) (b! "z"),
    .reply 0 (b! "counter") none none,
    .update (Demo.msg (b! "bob") Demo.me (b! "n1") (b! "r1") (-3) 2 (b! "propose")) (b! "z")],
    Demo.runCalls_reachable Demo.r0 _ (by decide), by decide⟩

end Verif
