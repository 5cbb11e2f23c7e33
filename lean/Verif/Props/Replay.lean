import Verif.Props.Numbering

/-!
# Property C125

Messages that arrive more than once. The network may deliver an envelope twice, and a
counterparty may send the same message again. `getIncomingNextMessageId` (dialogue.go:517-526)
decides whether a dialogue takes such a message again.
-/

namespace Verif

/-- Between the two messages at places `i` and `j` of the history `ms`, the agent itself sent a
message with a number below `k`. -/
def SentBetween (me : Bytes) (ms : List Message) (i j k : Nat) : Prop :=
  ∃ l x, i < l ∧ l < j ∧ ms[l]? = some x ∧ x.sender = me ∧ x.messageId.natAbs < k

/-- How many of the messages are the counterparty's and carry the number `k`. -/
def timesTaken (me : Bytes) (k : Nat) (ms : List Message) : Nat :=
  (ms.filter fun m => m.sender != me && m.messageId.natAbs == k).length

/-- How many of the messages are the agent's own and carry a number below `k`. -/
def ownBelow (me : Bytes) (k : Nat) (ms : List Message) : Nat :=
  (ms.filter fun m => m.sender == me && decide (m.messageId.natAbs < k)).length

/-- The law of the ids in terms of places. -/
theorem IncomingLaw.at {me : Bytes} {self : Prop} {ms : List Message} (h : IncomingLaw me self ms)
    {j : Nat} {m : Message} (hm : ms[j + 1]? = some m) (hs : m.sender ≠ me) :
    ∃ last, ms[j]? = some last ∧
      ((∃ (i : Nat) (x : Message), i ≤ j ∧ ms[i]? = some x ∧ x.sender ≠ me) →
        m.messageId.natAbs = last.messageId.natAbs + 1) := by
  have hlt := (List.getElem?_eq_some_iff.1 hm).1
  have hms : ms = ms.take (j + 1) ++ m :: ms.drop (j + 2) := by
    have e := (List.take_append_drop (j + 1) ms).symm
    rw [List.drop_eq_getElem_cons hlt, (List.getElem?_eq_some_iff.1 hm).2] at e
    exact e
  have hlast : (ms.take (j + 1)).getLast? = some ms[j] := by
    rw [List.getLast?_eq_getElem?, List.length_take, Nat.min_eq_left (by omega)]
    simp [List.getElem?_eq_getElem (show j < ms.length by omega)]
  refine ⟨ms[j], List.getElem?_eq_getElem (by omega), ?_⟩
  rintro ⟨i, x, hi, hx, hxs⟩
  refine (h _ m _ hms hs _ hlast).2.1 ⟨x, ?_, hxs⟩
  refine List.mem_of_getElem? (i := i) ?_
  rw [List.getElem?_take, if_pos (by omega)]
  exact hx

/-- Walking back from a message of the counterparty, the numbers go down one by one until a message
of the agent itself is met. -/
theorem sent_between {me : Bytes} {self : Prop} {ms : List Message} (h : IncomingLaw me self ms)
    {i k : Nat} {mi : Message} (hi : ms[i]? = some mi) (hsi : mi.sender ≠ me)
    (hki : k ≤ mi.messageId.natAbs) :
    ∀ (n : Nat) (m : Message), ms[i + 1 + n]? = some m → m.sender ≠ me →
      m.messageId.natAbs ≤ k → SentBetween me ms i (i + 1 + n) k := by
  intro n
  induction n with
  | zero =>
    intro m hm hs hk
    obtain ⟨last, hl, hlaw⟩ := h.at hm hs
    have := hlaw ⟨i, mi, Nat.le_refl _, hi, hsi⟩
    rw [hi] at hl
    simp only [Option.some.injEq] at hl
    subst hl
    omega
  | succ n ih =>
    intro m hm hs hk
    obtain ⟨last, hl, hlaw⟩ := h.at (j := i + 1 + n) hm hs
    have h1 := hlaw ⟨i, mi, by omega, hi, hsi⟩
    by_cases ho : last.sender = me
    · exact ⟨i + 1 + n, last, by omega, by omega, hl, ho, by omega⟩
    · obtain ⟨l, x, a1, a2, a3⟩ := ih last hl ho (by omega)
      exact ⟨l, x, a1, by omega, a3⟩

/-- **C125.** If a dialogue has taken two messages of the counterparty with the same number, in
particular the same message twice, then in between the agent itself has sent a message with a
smaller number in this dialogue. So a message that arrives again while the agent has sent nothing
in the dialogue since is never taken again. -/
theorem C125_taken_again {me : Bytes} {keep : Bool} {rules : RulesDecl} {s : Sys}
    (h : Reachable me keep rules s) {d : Dialogue} (hd : d ∈ s.heap) :
    ∃ ms, IsHistory me d ms ∧ ∀ (i j : Nat) (mi mj : Message), i < j → ms[i]? = some mi →
      ms[j]? = some mj → mi.sender ≠ me → mj.sender ≠ me →
      mi.messageId.natAbs = mj.messageId.natAbs → SentBetween me ms i j mj.messageId.natAbs := by
  obtain ⟨p, hp⟩ := List.getElem?_of_mem hd
  obtain ⟨ms, h1, _, h3⟩ := (h.inv.heap p d hp).history
  refine ⟨ms, h1, ?_⟩
  intro i j mi mj hij hi hj hsi hsj hid
  obtain ⟨n, rfl⟩ : ∃ n, j = i + 1 + n := ⟨j - i - 1, by omega⟩
  exact sent_between h3 hi hsi (by omega) n mj hj hsj (Nat.le_refl _)

/-- **C125, at once.** A message that was just taken by a dialogue, or any other message of the
counterparty with the same number, is not taken by that dialogue when it arrives next. -/
theorem C125_not_at_once {me : Bytes} {keep : Bool} {rules : RulesDecl} {s : Sys}
    (h : Reachable me keep rules s) {m m' : Message} {n n' : Bytes} {p : Ptr} {x y : Option Message}
    (hacc : (s.call (.update m n)).2 = .accepted (some p) x)
    (hid : m'.messageId.natAbs = m.messageId.natAbs) :
    ((s.call (.update m n)).1.call (.update m' n')).2 ≠ .accepted (some p) y := by
  have ok : ∀ {s : Sys} {m : Message} {n : Bytes} {x : Option Message},
      (s.call (.update m n)).2 = .accepted (some p) x →
      s.update m n = ((s.call (.update m n)).1, .ok (some p)) := by
    intro s m n x hacc
    rcases hu : s.update m n with ⟨s', r⟩
    have e1 : s.call (.update m n) = (s', r.report fun p => .accepted p none) := by
      simp [Sys.call, hu]
    rw [e1] at hacc ⊢
    simp only at hacc
    cases r with
    | ok q => simp [Res.report] at hacc; rw [hacc.1]
    | err e => simp [Res.report] at hacc
    | panic => simp [Res.report] at hacc
  intro hacc'
  have hu := ok hacc
  have hu' := ok hacc'
  have h1 : Reachable me keep rules (s.call (.update m n)).1 :=
    Reachable.step _ h (by rw [hacc]; simp)
  generalize (s.call (.update m n)).1 = s1 at hu hu' h1
  generalize (s1.call (.update m' n')).1 = s2 at hu'
  obtain ⟨_, hs, hto, _, a, d, t, hia, ha, hc, hd, _⟩ := Sys.update_accepted h.inv hu
  have hda := hia.heap p a ha
  have hrec : d = a.record m := (Dialogue.updateCore_ok hc).2.2.2.2
  have hlast : d.lastMessageId = m.messageId := by rw [hrec]; rfl
  have hin : d.incoming ≠ [] := by
    rw [hrec]
    have hb : a.isMessageBySelf m = false := by
      unfold Dialogue.isMessageBySelf
      rw [hda.selfAddr]
      simpa using hs
    simp [Dialogue.record, hb]
  obtain ⟨_, _, hto', _, d1, _, _, hi1, hd1, hc', _, hcase⟩ := Sys.update_accepted h1.inv hu'
  rcases hcase with ⟨hp, _⟩ | ⟨d0, hd0, hsm, _⟩
  · have := (List.getElem?_eq_some_iff.1 hd).1
    rw [hp] at this
    exact absurd this (Nat.lt_irrefl _)
  rw [hd] at hd0
  simp only [Option.some.injEq] at hd0
  subst hd0
  obtain ⟨_, _, hv, _, _⟩ := Dialogue.updateCore_ok hc'
  have hne : d1.isEmpty = false := by
    apply Bool.eq_false_iff.2
    intro he
    have := ((Dialogue.isEmpty_iff d1).1 he).2
    rw [hsm.incoming] at this
    exact hin this
  unfold Dialogue.validateNext at hv
  rw [hne] at hv
  simp only [Bool.false_eq_true, if_false] at hv
  obtain ⟨_, h2, _⟩ := Dialogue.validateNonInitial_ok hv
  rw [(hi1.heap p d1 hd1).selfAddr, if_pos hto'] at h2
  have habs : m'.messageId.natAbs = m.messageId.natAbs + 1 := by
    rw [h2]
    unfold Dialogue.nextIncomingId Dialogue.lastIncoming
    rw [hsm.incoming, hsm.last, hlast]
    cases hl : d.incoming.getLast? with
    | none => rw [List.getLast?_eq_none_iff] at hl; exact absurd hl hin
    | some y => simp only [absId_eq]; split <;> omega
  omega

/-- Own messages with a number below `k` are the first `k - 1`. -/
theorem ownBelow_le {me : Bytes} {ms : List Message} {k : Nat}
    (hown : ∀ (i : Nat) (m : Message), (ms.filter (fun m => m.sender == me))[i]? = some m →
      m.messageId.natAbs = i + 1) : ownBelow me k ms ≤ k - 1 := by
  have e : ownBelow me k ms =
      ((ms.filter (fun m => m.sender == me)).filter fun m => decide (m.messageId.natAbs < k)).length := by
    unfold ownBelow
    rw [List.filter_filter]
    congr 2
    funext m
    exact Bool.and_comm _ _
  rw [e]
  generalize ms.filter (fun m => m.sender == me) = l at hown
  have key : ∀ (l : List Message) (o : Nat), (∀ (i : Nat) (m : Message), l[i]? = some m →
      m.messageId.natAbs = o + i + 1) →
      (l.filter fun m => decide (m.messageId.natAbs < k)).length ≤ k - 1 - o := by
    intro l
    induction l with
    | nil => intros; simp
    | cons a l ih =>
      intro o hl
      have ha := hl 0 a (by simp)
      have := ih (o + 1) (fun i m hm => by have := hl (i + 1) m (by simpa using hm); omega)
      rw [List.filter_cons]
      split
      · rename_i hlt
        simp only [decide_eq_true_eq] at hlt
        simp only [List.length_cons]
        omega
      · omega
  have := key l 0 (fun i m hm => by have := hown i m hm; omega)
  omega

/-- Along a history, a number is taken at most once more than the agent has sent smaller ones. -/
theorem timesTaken_le {me : Bytes} {self : Prop} {ms : List Message}
    (h : IncomingLaw me self ms) (k : Nat) : timesTaken me k ms ≤ ownBelow me k ms + 1 := by
  suffices H : ∀ (n : Nat) (pre post : List Message), pre.length = n → ms = pre ++ post →
      timesTaken me k pre ≤ ownBelow me k pre +
        (if ∃ x, pre.getLast? = some x ∧ k ≤ x.messageId.natAbs then 1 else 0) by
    have := H _ ms [] rfl (by simp)
    split at this <;> omega
  intro n
  induction n with
  | zero =>
    intro pre post hn _
    rw [List.length_eq_zero_iff] at hn
    subst hn
    simp [timesTaken]
  | succ n ih =>
    intro pre post hn hms
    rcases List.eq_nil_or_concat pre with hp | ⟨pre', x, hp⟩
    · subst hp; simp at hn
    rw [List.concat_eq_append] at hp
    subst hp
    have hms' : ms = pre' ++ x :: post := by rw [hms]; simp
    have ih' := ih pre' (x :: post) (by simpa using hn) hms'
    have eT : timesTaken me k (pre' ++ [x]) = timesTaken me k pre' +
        (if x.sender ≠ me ∧ x.messageId.natAbs = k then 1 else 0) := by
      unfold timesTaken
      rw [List.filter_append, List.length_append]
      congr 1
      by_cases a : x.sender = me <;> by_cases b : x.messageId.natAbs = k <;> simp [a, b]
    have eO : ownBelow me k (pre' ++ [x]) = ownBelow me k pre' +
        (if x.sender = me ∧ x.messageId.natAbs < k then 1 else 0) := by
      unfold ownBelow
      rw [List.filter_append, List.length_append]
      congr 1
      by_cases a : x.sender = me <;> by_cases b : x.messageId.natAbs < k <;> simp [a, b]
    have eL : (∃ y, (pre' ++ [x]).getLast? = some y ∧ k ≤ y.messageId.natAbs) ↔
        k ≤ x.messageId.natAbs := by simp
    rw [eT, eO]
    simp only [eL]
    by_cases hx : x.sender = me
    · simp only [hx, ne_eq, not_true_eq_false, false_and, if_false, true_and]
      split at ih' <;> split <;> split <;> omega
    · simp only [hx, ne_eq, not_false_eq_true, true_and, false_and, if_false]
      by_cases hall : ∀ y ∈ pre', y.sender = me
      · have hz : timesTaken me k pre' = 0 := by
          unfold timesTaken
          rw [List.length_eq_zero_iff, List.filter_eq_nil_iff]
          intro y hy
          simp [hall y hy]
        rw [hz]
        split
        · rename_i hk
          rw [if_pos (by omega)]; omega
        · omega
      · have hex : ∃ y ∈ pre', y.sender ≠ me := by
          apply Classical.byContradiction
          intro hno
          exact hall (fun y hy => Classical.byContradiction fun hne => hno ⟨y, hy, hne⟩)
        obtain ⟨last, hlast⟩ : ∃ last, pre'.getLast? = some last := by
          cases hl : pre'.getLast? with
          | none =>
            rw [List.getLast?_eq_none_iff] at hl
            subst hl
            obtain ⟨y, hy, _⟩ := hex
            simp at hy
          | some last => exact ⟨last, rfl⟩
        have hid := (h pre' x post hms' hx last hlast).2.1 hex
        have eP : (∃ y, pre'.getLast? = some y ∧ k ≤ y.messageId.natAbs) ↔
            k ≤ last.messageId.natAbs := by simp [hlast]
        simp only [eP] at ih'
        split at ih' <;> split <;> split <;> omega

/-- **C125.** The counterparty's messages with the number `k`, and so each single message with that
number, are taken at most `k` times by a dialogue, however often they arrive. -/
theorem C125_at_most {me : Bytes} {keep : Bool} {rules : RulesDecl} {s : Sys}
    (h : Reachable me keep rules s) {d : Dialogue} (hd : d ∈ s.heap) (k : Nat) (hk : 0 < k) :
    (d.incoming.filter fun m => m.messageId.natAbs == k).length ≤ k := by
  obtain ⟨p, hp⟩ := List.getElem?_of_mem hd
  have hdi := h.inv.heap p d hp
  obtain ⟨ms, h1, _, h3⟩ := hdi.history
  have a := timesTaken_le h3 k
  have b := ownBelow_le (ms := ms) (me := me) (k := k) (by
    intro i m hm
    rw [← h1.outgoing] at hm
    have := hdi.ownIds i m hm
    by_cases ho : OpenedBySelf me d
    · have := this.1 ho; omega
    · have := this.2 ho; omega)
  have e : (d.incoming.filter fun m => m.messageId.natAbs == k).length = timesTaken me k ms := by
    unfold timesTaken
    rw [h1.incoming, List.filter_filter]
    congr 2
    funext m
    exact Bool.and_comm _ _
  rw [e]
  omega

/-- **C125, when a message is taken once.** If the agent had sent at least `k - 1` messages in the
dialogue when it took the counterparty's message number `k`, then no message with that number is
taken later. -/
theorem C125_never_again {me : Bytes} {keep : Bool} {rules : RulesDecl} {s : Sys}
    (h : Reachable me keep rules s) {d : Dialogue} (hd : d ∈ s.heap) :
    ∃ ms, IsHistory me d ms ∧ ∀ (pre : List Message) (m : Message) (post : List Message),
      ms = pre ++ m :: post → m.sender ≠ me →
      m.messageId.natAbs ≤ (pre.filter fun x => x.sender == me).length + 1 →
      ∀ y ∈ post, y.sender ≠ me → y.messageId.natAbs ≠ m.messageId.natAbs := by
  obtain ⟨p, hp⟩ := List.getElem?_of_mem hd
  have hdi := h.inv.heap p d hp
  obtain ⟨ms, h1, _, h3⟩ := hdi.history
  refine ⟨ms, h1, ?_⟩
  intro pre m post hms hs hk y hy hys hid
  obtain ⟨n, hn⟩ := List.getElem?_of_mem hy
  have hm : ms[pre.length]? = some m := by rw [hms]; simp
  have hny : ms[pre.length + 1 + n]? = some y := by
    rw [hms, List.getElem?_append_right (by omega)]
    rw [show pre.length + 1 + n - pre.length = n + 1 by omega]
    simpa using hn
  obtain ⟨l, x, hl1, hl2, hx, hxs, hxk⟩ :=
    sent_between h3 hm hs (Nat.le_refl _) n y hny hys (by omega)
  -- the number of an own message is its place among the own messages
  have hxpost : post[l - pre.length - 1]? = some x := by
    rw [hms, List.getElem?_append_right (by omega)] at hx
    rw [show l - pre.length = (l - pre.length - 1) + 1 by omega] at hx
    simpa using hx
  have hmem : x ∈ post.filter fun x => x.sender == me := by
    rw [List.mem_filter]
    exact ⟨List.mem_of_getElem? hxpost, by simp [hxs]⟩
  obtain ⟨q, hq⟩ := List.getElem?_of_mem hmem
  have hown : d.outgoing[(pre.filter fun x => x.sender == me).length + q]? = some x := by
    rw [h1.outgoing, hms, List.filter_append, List.getElem?_append_right (by omega)]
    rw [List.filter_cons]
    simp only [beq_iff_eq, hs, if_false, Nat.add_sub_cancel_left]
    exact hq
  have := hdi.ownIds _ _ hown
  by_cases ho : OpenedBySelf me d
  · have := this.1 ho; omega
  · have := this.2 ho; omega

namespace Demo

/-- The second and the third message of `eve`. -/
def again2 : Message := msg (b! "eve") me (b! "e1") (b! "n2") 2 1 (b! "propose")
def again3 : Message := msg (b! "eve") me (b! "e1") (b! "n2") 3 2 (b! "counter")

/-- `eve` opens a dialogue and sends the messages 2 and 3, the agent answers, messages 2 and 3
arrive again, the agent answers again, message 3 arrives once more. -/
def replays : List Call :=
  [c3, .update again2 (b! "z"), .update again3 (b! "z"), .reply 0 (b! "counter") none none,
    .update again2 (b! "z"), .update again3 (b! "z"), .reply 0 (b! "counter") none none,
    .update again3 (b! "z")]

end Demo

/-- **C125 is false in general, and the bound of `C125_at_most` is met.** Here the very same
message number 3 is taken three times, and the very same message number 2 twice. -/
theorem C125_counterexample :
    ∃ s : Sys, Reachable Demo.me false Demo.rules s ∧
      ((s.heap[0]?.map fun d => d.incoming) = some [Demo.msg (b! "eve") Demo.me (b! "e1") [] 1 0
        (b! "cfp"), Demo.again2, Demo.again3, Demo.again2, Demo.again3, Demo.again3]) ∧
      Demo.again2.messageId = 2 ∧ Demo.again3.messageId = 3 :=
  ⟨Demo.runCalls Demo.s0 Demo.replays, Demo.runCalls_reachable Demo.r0 _ (by decide), by decide,
    rfl, rfl⟩

/-- Non-vacuity of `C125_never_again`: in the demo the agent has sent message 1 when it takes
message -1 of `bob`; when that message arrives again it is refused. -/
example : (Demo.s2.call Demo.c2).2 = .failed .wrongMessageId ∧
    (Demo.s2.heap[0]?.map fun d => (d.outgoing.map (·.messageId), d.incoming.map (·.messageId))) =
      some ([1], [-1]) := by decide

end Verif
