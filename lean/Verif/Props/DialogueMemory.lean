import Verif.Lemmas.DialogueMemory
import Verif.Props.Dialogue3
import Verif.Props.Numbering

/-!
# Property C124

What an agent remembers of dialogues that are over.
-/

namespace Verif

namespace DialogueMemory

/-- **C124, dialogues.** If terminal dialogues are not to be kept, then after any calls no dialogue that is over is
in the store, and none is marked as terminal. -/
theorem C124_ended_gone {me : Bytes} {rules : RulesDecl} {s : Sys} (h : Reachable me false rules s) :
    (∀ p d, s.heap[p]? = some d → Ended rules d → ¬ Stored s p) ∧ s.inTerminalState = [] := by
  refine ⟨?_, ?_⟩
  · rintro p d hd he ⟨l, hl⟩
    exact h.kinv.goes l p d hl hd he
  · refine List.eq_nil_iff_forall_not_mem.2 fun p hp => ?_
    obtain ⟨l, hl, _⟩ := (mem_inTerminalState h.minv p).1 hp
    rw [h.kinv.empty] at hl
    simp at hl

/-- The demo agent declines the dialogue of `eve`: it is over and gone, and the others are not. -/
example :
    let s := (Demo.s4.call (.reply 1 (b! "decline") none none)).1
    Reachable Demo.me false Demo.rules s ∧ (∃ d, s.heap[1]? = some d ∧ Ended Demo.rules d) ∧
      s.getByLabel ⟨⟨b! "n1", b! "r1"⟩, b! "bob", Demo.me⟩ = some 0 :=
  ⟨.step _ Demo.r4 (by decide), ⟨_, rfl, Demo.msg Demo.me (b! "eve") (b! "e1") (b! "n2") (-1) 1 (b! "decline"),
    .inl (by decide), by decide⟩, by decide⟩

/-- **C124, partial: the table of references** has no more entries than messages have been processed. Missing: that
entries are given up when their dialogues are over. -/
theorem C124_references_partial {me : Bytes} {keep : Bool} {rules : RulesDecl} {s : Sys} {cs : List Call}
    (h : CallHistory AnyCall (Sys.new me keep rules) cs s) : s.incomplete.size ≤ (received cs).length := by
  have := h.keeps.incomplete
  simpa [Sys.new, GoMap.size, GoMap.empty] using this

theorem nodup_of_map {α β : Type} (f : α → β) {l : List α} (h : (l.map f).Nodup) : l.Nodup := by
  induction l with
  | nil => exact List.nodup_nil
  | cons a l ih =>
    rw [List.map_cons, List.nodup_cons] at h
    exact List.nodup_cons.2 ⟨fun ha => h.1 (List.mem_map_of_mem ha), ih h.2⟩

theorem snoc_induction {α : Type} {P : List α → Prop} (h0 : P []) (h1 : ∀ l a, P l → P (l ++ [a])) (l : List α) :
    P l := by
  have : ∀ k : List α, P k.reverse := by
    intro k
    induction k with
    | nil => exact h0
    | cons a k ih => rw [List.reverse_cons]; exact h1 _ a ih
  rw [← List.reverse_reverse l]
  exact this _

theorem history_marks {me : Bytes} {keep : Bool} {rules : RulesDecl} {s : Sys} {cs : List Call}
    (h : CallHistory NonceWorks (Sys.new me keep rules) cs s) :
    SInv me keep rules s ∧ NInv me s ∧
      ∀ m ∈ received cs, IsOpening me m → s.incomplete.has ⟨m.reference, m.sender, m.sender⟩ = true := by
  induction h with
  | nil => exact ⟨SInv.init, NInv.init _ _ _, by simp [received]⟩
  | @snoc cs s c _ hw hc ih =>
    obtain ⟨hi, hn, hm⟩ := ih
    obtain ⟨hn', hr⟩ := opening_step hi hn c hc hw
    refine ⟨hi.call c hc, hn', fun m hmem ho => ?_⟩
    rw [received_append, List.mem_append] at hmem
    rcases hmem with hmem | hmem
    · exact hr _ ho.sender.2 ho.reference.2 (hm m hmem ho)
    · cases c with
      | update m' n =>
        simp only [received, List.mem_singleton] at hmem
        subst hmem
        rcases hu : s.update m n with ⟨s', r⟩
        have he : (s.call (.update m n)).1 = s' := by simp [Sys.call, hu]
        rw [he]
        refine opening_marks hi hn hw ho.sender.1 ho.sender.2 ho.receiver ho.reference.1 ho.reference.2 ho.id hu ?_
        rintro rfl
        apply hc
        simp [Sys.call, hu, Res.report]
      | create _ _ _ => simp [received] at hmem
      | createWith _ _ => simp [received] at hmem
      | reply _ _ _ _ => simp [received] at hmem

/-- **C124 is false: references stay.** For each opening message with a reference of its own that has ever been
processed, accepted or not, there is an entry, whatever has become of the dialogue. -/
theorem C124_references_stay {me : Bytes} {keep : Bool} {rules : RulesDecl} {s : Sys} {cs : List Call}
    (h : CallHistory NonceWorks (Sys.new me keep rules) cs s) (ms : List Message)
    (hm : ∀ m ∈ ms, m ∈ received cs ∧ IsOpening me m)
    (hn : (ms.map fun m => (m.sender, m.reference.starter)).Nodup) : ms.length ≤ s.incomplete.size := by
  have hk : (ms.map fun m => (⟨m.reference, m.sender, m.sender⟩ : DialogueLabel)).Nodup := by
    have := nodup_of_map (fun l : DialogueLabel => (l.opponent, l.reference.starter))
      (l := ms.map fun m => (⟨m.reference, m.sender, m.sender⟩ : DialogueLabel)) (by rw [List.map_map]; exact hn)
    exact this
  have := GoMap.length_le_size s.incomplete _ hk (by
    intro k hk
    obtain ⟨m, hmm, rfl⟩ := List.mem_map.1 hk
    exact (history_marks h).2.2 m (hm m hmm).1 (hm m hmm).2)
  simpa using this

/-- **C124 is false: counterparties stay.** A counterparty that has an entry in the table of counterparties has one
for ever. -/
theorem C124_counterparties_stay {P : Sys → Call → Prop} {s s' : Sys} (h : Later P s s') (a : Bytes)
    (ha : s.byAddress.has a = true) : s'.byAddress.has a = true := by
  induction h with
  | refl => exact ha
  | step c _ _ hc ih => exact (Keeps.call c hc).address a ih

theorem refused_opening {me : Bytes} {keep : Bool} {rules : RulesDecl} {s : Sys}
    (h : Later Orderly (Sys.new me keep rules) s) {m : Message} {nonce : Bytes} (ho : IsOpening me m)
    (ht : m.target = 0) (hp : m.performative ∉ rules.initial) : ∃ e, (s.call (.update m nonce)).2 = .failed e := by
  obtain ⟨hi, _, _⟩ := orderly_inv h
  have hcr : (s.call (.update m nonce)).2 ≠ .crashed := by
    intro hc
    obtain ⟨d, _, last, _, h1, _⟩ := C05_update_crash_partial h hc
    rw [ht] at h1
    simp at h1
  rcases hu : s.update m nonce with ⟨s', r⟩
  have e1 : s.call (.update m nonce) = (s', r.report fun p => .accepted p none) := by simp [Sys.call, hu]
  rw [e1] at hcr ⊢
  cases r with
  | panic => simp [Res.report] at hcr
  | err e => exact ⟨e, rfl⟩
  | ok q =>
    exfalso
    rcases Sys.update_cases hu with ⟨_, hx, _⟩ | ⟨_, _, _, hcase⟩
    · simp at hx
    rcases hcase with ⟨hx, _⟩ | ⟨_, _, _, ⟨s1, p, hc, hf⟩ | ⟨e, hc, hx⟩ | ⟨_, hx⟩⟩ | ⟨_, _, hx, _⟩ | ⟨hx, _⟩
    · exact ho.reference.1 hx
    · rcases Sys.updateFound_cases hf with ⟨hx, _⟩ | hx | ⟨p', hpp, ⟨m', hd, _⟩ | ⟨e, _, hx, _⟩⟩
      · simp at hx
      · simp at hx
      · simp only [Option.some.injEq] at hpp
        subst hpp
        rcases Sys.createOpponentInitiated_cases hc with ⟨hx, _⟩ | ⟨_, _, hcr'⟩
        · simp at hx
        obtain ⟨hpe, hheap, _⟩ := Sys.create_heap hcr'
        rcases Sys.dialogueUpdate_cases hd with hx | ⟨_, hx, _⟩ | ⟨d, d', m1, t, hg, hcore, _, _⟩
        · simp at hx
        · simp at hx
        rw [hheap, hpe] at hg
        simp at hg
        obtain ⟨e1, _, e3, _, _⟩ := Dialogue.updateCore_ok hcore
        have hm1 : m1 = m := by
          rw [e1]
          simp [Dialogue.withSender, Message.hasSender, ho.sender.1]
        subst hm1
        unfold Dialogue.validateNext at e3
        rw [if_pos (by rw [← hg]; rfl)] at e3
        unfold Dialogue.validateInitial at e3
        rw [Res.ite_err_eq_ok, Res.ite_err_eq_ok, Res.bind_eq_ok] at e3
        obtain ⟨_, _, _, _, e3⟩ := e3
        rw [Res.ite_ok_err_eq_ok] at e3
        have := e3.1
        rw [← hg] at this
        simp only [Dialogue.new] at this
        rw [newRules_initial, hi.rulesEq] at this
        exact hp this
      · simp at hx
    · simp at hx
    · simp at hx
    · exact hx ho.id
    · rcases hx with ⟨_, hx⟩ | ⟨hx, _⟩ | ⟨_, _, hx⟩
      · exact hx ho.reference.2
      · exact ho.reference.1 hx
      · rw [ho.id] at hx; simp at hx

/-- Opening messages of `x` to `me` with these references. -/
def openings (me x perf nonce : Bytes) (refs : List Bytes) : List Call :=
  refs.map fun r => .update ⟨me, x, ⟨r, []⟩, 1, 0, perf⟩ nonce

/-- **C124 is false: no bound.** Somebody who sends any number of opening messages that are refused makes the agent
keep an entry for each of them, while it has no dialogue. -/
theorem C124_counterexample {me x perf nonce : Bytes} {keep : Bool} {rules : RulesDecl} (hx : x ≠ [] ∧ x ≠ me)
    (hp : perf ∉ rules.initial) (hw : nonce ≠ []) (refs : List Bytes) (hr : [] ∉ refs) (hn : refs.Nodup) :
    ∃ s, CallHistory NonceWorks (Sys.new me keep rules) (openings me x perf nonce refs) s ∧
      (∀ p, ¬ Stored s p) ∧ s.incomplete.size = refs.length := by
  have main : ∃ s, CallHistory NonceWorks (Sys.new me keep rules) (openings me x perf nonce refs) s ∧
      Later Orderly (Sys.new me keep rules) s ∧ ∀ l, s.getByLabel l = none := by
    clear hn
    induction refs using snoc_induction with
    | h0 => exact ⟨_, .nil, .refl _, fun _ => rfl⟩
    | h1 refs r ih =>
      simp only [List.mem_append, List.mem_singleton, not_or] at hr
      obtain ⟨s, hc, ho, hb⟩ := ih hr.1
      have hop : IsOpening me ⟨me, x, ⟨r, []⟩, 1, 0, perf⟩ := ⟨hx, rfl, ⟨fun e => hr.2 e.symm, rfl⟩, rfl⟩
      obtain ⟨e, he⟩ := refused_opening ho (nonce := nonce) hop rfl hp
      refine ⟨_, ?_, .step (.update ⟨me, x, ⟨r, []⟩, 1, 0, perf⟩ nonce) ho trivial (by rw [he]; simp), fun l => ?_⟩
      · rw [openings, List.map_append]
        exact .snoc _ hc hw (by rw [he]; simp)
      · rw [(C12_rejected_opening_invisible_partial ho hop he).byLabel]
        exact hb l
  obtain ⟨s, hc, _, hb⟩ := main
  have hrec : received (openings me x perf nonce refs) = refs.map fun r => ⟨me, x, ⟨r, []⟩, 1, 0, perf⟩ := by
    clear hn hc hb hr
    induction refs with
    | nil => rfl
    | cons r refs ih =>
      simp only [openings, List.map_cons, received] at *
      rw [ih]
  refine ⟨s, hc, fun p ⟨l, hl⟩ => by rw [hb] at hl; simp at hl, Nat.le_antisymm ?_ ?_⟩
  · have := hc.keeps.incomplete
    rw [hrec] at this
    simpa [Sys.new, GoMap.size, GoMap.empty] using this
  · have := C124_references_stay hc (refs.map fun r => ⟨me, x, ⟨r, []⟩, 1, 0, perf⟩) (fun m hm => by
      refine ⟨by rw [hrec]; exact hm, ?_⟩
      obtain ⟨r, hr', rfl⟩ := List.mem_map.1 hm
      exact ⟨hx, rfl, ⟨fun e => hr (e ▸ hr'), rfl⟩, rfl⟩) (by
      rw [List.map_map]
      refine nodup_of_map (fun y : Bytes × Bytes => y.2) ?_
      rw [List.map_map]
      rw [show ((fun y : Bytes × Bytes => y.2) ∘ (fun m : Message => (m.sender, m.reference.starter)) ∘ fun r : Bytes =>
        (⟨me, x, ⟨r, []⟩, 1, 0, perf⟩ : Message)) = id from rfl, List.map_id]
      exact hn)
    simpa using this

/-- Three refused messages. -/
example : let s := Demo.runCalls Demo.s0 (openings Demo.me (b! "eve") (b! "propose") (b! "n") [[1], [2], [3]])
    s.byLabel.size = 0 ∧ s.incomplete.size = 3 := by decide

end DialogueMemory

end Verif
