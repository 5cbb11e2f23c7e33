import Verif.Lemmas.Openings
import Verif.Props.Dialogue1

/-!
# Properties C08, C10, C11, C12

About the dialogue store.
-/

namespace Verif

/-! ## C08 -/

/-- **C08.** After an opening message with some starter reference was received from a sender, every
later opening message of that sender with that reference is refused with an error and changes
nothing at all, whatever happened in between (also if the dialogue ended and was dropped). The
only assumption is that the agent's random source does not fail. -/
theorem C08_no_second_opening {me : Bytes} {keep : Bool} {rules : RulesDecl} {s s' : Sys}
    (h : Later NonceWorks (Sys.new me keep rules) s)
    {m1 m2 : Message} {n1 n2 : Bytes} (ho1 : IsOpening me m1) (ho2 : IsOpening me m2)
    (hs : m2.sender = m1.sender) (hr : m2.reference.starter = m1.reference.starter)
    (hn1 : n1 ≠ []) (hc : (s.call (.update m1 n1)).2 ≠ .crashed)
    (hl : Later NonceWorks (s.call (.update m1 n1)).1 s') :
    s'.call (.update m2 n2) = (s', .failed .incompletePresent) := by
  obtain ⟨hi, hn, _⟩ := opening_later (SInv.init (me := me) (keep := keep) (rules := rules))
    (NInv.init me keep rules) h
  have hi1 := hi.call _ hc
  have hn1' := (opening_step hi hn _ hc hn1).1
  have hmark : (s.call (.update m1 n1)).1.incomplete.has ⟨m1.reference, m1.sender, m1.sender⟩ = true := by
    rcases hu : s.update m1 n1 with ⟨s1, r⟩
    have he : (s.call (.update m1 n1)).1 = s1 := by simp [Sys.call, hu]
    rw [he]
    refine opening_marks hi hn hn1 ho1.sender.1 ho1.sender.2 ho1.receiver ho1.reference.1
      ho1.reference.2 ho1.id hu ?_
    rintro rfl
    apply hc
    simp [Sys.call, hu, Res.report]
  obtain ⟨hi', _, hrem⟩ := opening_later hi1 hn1' hl
  have hmark' := hrem ⟨m1.reference, m1.sender, m1.sender⟩ ho1.sender.2 ho1.reference.2 hmark
  have href : m2.reference = m1.reference := by
    have e1 := ho1.reference.2
    have e2 := ho2.reference.2
    revert e1 e2 hr
    generalize m1.reference = a
    generalize m2.reference = b
    obtain ⟨a1, a2⟩ := a
    obtain ⟨b1, b2⟩ := b
    simp only
    rintro rfl rfl rfl
    rfl
  have := opening_refused (s := s') (m := m2) (n := n2) ho2.sender.1
    (by rw [hi'.selfEq]; exact ho2.sender.2) (by rw [hi'.selfEq]; exact ho2.receiver)
    ho2.reference.1 ho2.reference.2 ho2.id (by rw [href, hs]; exact hmark')
  simp [Sys.call, this, Res.report]

/-- Non-vacuity: in the demo, `eve` opens a dialogue, the agent declines (the dialogue is dropped),
and `eve` tries to open it again. -/
example :
    let open1 := Demo.msg (b! "eve") Demo.me (b! "e1") [] 1 0 (b! "cfp")
    let s1 := (Demo.s0.call (.update open1 (b! "n2"))).1
    let s2 := (s1.call (.reply 0 (b! "decline") none none)).1
    IsOpening Demo.me open1 ∧ (Demo.s0.call (.update open1 (b! "n2"))).2 ≠ .crashed ∧
      (s1.call (.reply 0 (b! "decline") none none)).2 ≠ .crashed ∧
      s1.byLabel.size = 1 ∧ s2.byLabel.size = 0 :=
  ⟨⟨by decide, rfl, by decide, rfl⟩, by decide, by decide, by decide, by decide⟩

/-! ## C10 -/

/-- **C10, look-up.** Looking a dialogue up by a label returns a dialogue with that label, in
every reachable state. -/
theorem C10_lookup_by_label {me : Bytes} {keep : Bool} {rules : RulesDecl} {s : Sys}
    (h : Reachable me keep rules s) {l : DialogueLabel} {p : Ptr} (hp : s.getByLabel l = some p) :
    ∃ d, s.heap[p]? = some d ∧ d.label = l :=
  h.inv.label l p hp

theorem orderly_inv {me : Bytes} {keep : Bool} {rules : RulesDecl} {s : Sys}
    (h : Later Orderly (Sys.new me keep rules) s) : SInv me keep rules s ∧ MInv s ∧ XInv s := by
  generalize hs0 : Sys.new me keep rules = s0 at h
  induction h with
  | refl => subst hs0; exact ⟨SInv.init, MInv.init _ _ _, XInv.init _ _ _⟩
  | step c _ ho hc ih =>
    obtain ⟨hi, hm, hx⟩ := ih
    exact ⟨hi.call c hc, hm.call c hc, hx.call hi hm ho hc⟩

/-- **C10 (partial).** The list for a counterparty contains exactly the stored dialogues with that
counterparty, each once, and every stored dialogue is found under its own label. Partial: it
needs that `Reply` is never used on a dialogue that was dropped from the store while its
reference was still incomplete; see `C10_counterexample`. -/
theorem C10_index_agrees_partial {me : Bytes} {keep : Bool} {rules : RulesDecl} {s : Sys}
    (h : Later Orderly (Sys.new me keep rules) s) (a : Bytes) :
    (s.withCounterparty a).Nodup ∧
    (∀ p, p ∈ s.withCounterparty a ↔
      Stored s p ∧ ∃ d, s.heap[p]? = some d ∧ d.label.opponent = a) ∧
    (∀ p d, s.heap[p]? = some d → Stored s p → s.getByLabel d.label = some p) := by
  obtain ⟨hi, _, hx⟩ := orderly_inv h
  refine ⟨hx.nodup a, ?_, ?_⟩
  · intro p
    show p ∈ s.addressList a ↔ _
    rw [hx.index]
    constructor
    · rintro ⟨d, hd, ho, hb⟩
      exact ⟨⟨_, hb⟩, d, hd, ho⟩
    · rintro ⟨⟨l, hl⟩, d, hd, ho⟩
      have := hi.labelOf hl hd
      exact ⟨d, hd, ho, by rw [this]; exact hl⟩
  · rintro p d hd ⟨l, hl⟩
    rw [hi.labelOf hl hd]
    exact hl

/-- Non-vacuity: the demo run is orderly and has stored dialogues. -/
example : Later Orderly Demo.s0 Demo.s4 ∧ Demo.s4.withCounterparty (b! "bob") = [0] ∧
    Demo.s4.withCounterparty (b! "eve") = [1] := by
  refine ⟨?_, by decide, by decide⟩
  refine .step Demo.c4 (.step Demo.c3 (.step Demo.c2 (.step Demo.c1 (.refl _) trivial ?_)
    trivial ?_) trivial ?_) ?_ ?_
  · decide
  · decide
  · decide
  · intro d hd
    have : Demo.s3.heap[0]?.map (fun d => d.label.reference.responder) = some (b! "r1") := by decide
    change Demo.s3.heap[0]? = some d at hd
    rw [hd] at this
    simp only [Option.map_some, Option.some.injEq] at this
    exact Or.inr (by rw [this]; decide)
  · decide

namespace Demo

/-- A run that reuses the reference `n1` three times and replies to the first, dropped dialogue. -/
def k1 : Call := .createWith (b! "bob") (msg [] [] (b! "n1") [] 1 0 (b! "cfp"))
def k2 : Call := .reply 0 (b! "decline") none none
def k3 : Call := k1
def k4 : Call := .update (msg (b! "bob") me (b! "n1") (b! "r1") (-1) 1 (b! "propose")) (b! "z")
def k5 : Call := .reply 0 (b! "decline") none (some 1)
def k6 : Call := k1
def k7 : Call := k4
def runCalls (s : Sys) (cs : List Call) : Sys := cs.foldl (fun s c => (s.call c).1) s

theorem runCalls_reachable {me : Bytes} {keep : Bool} {rules : RulesDecl} {s : Sys}
    (h : Reachable me keep rules s) (cs : List Call)
    (hc : ∀ i, i < cs.length → ((runCalls s (cs.take i)).call (cs.getD i k1)).2 ≠ .crashed) :
    Reachable me keep rules (runCalls s cs) := by
  induction cs generalizing s with
  | nil => exact h
  | cons c cs ih =>
    refine ih (Reachable.step c h ?_) ?_
    · simpa [runCalls] using hc 0 (by simp)
    · intro i hi
      have := hc (i + 1) (by simp; omega)
      simpa [runCalls] using this

end Demo

/-- **C10 is false in general.** After this run the list for `bob` contains a dialogue that is no
longer in the store. -/
theorem C10_counterexample : ∃ s : Sys, Reachable Demo.me false Demo.rules s ∧
    ∃ p ∈ s.withCounterparty (b! "bob"), ¬ Stored s p := by
  refine ⟨Demo.runCalls Demo.s0 [Demo.k1, Demo.k2, Demo.k3, Demo.k4, Demo.k5, Demo.k6, Demo.k7],
    Demo.runCalls_reachable Demo.r0 _ (by decide), 1, by decide, ?_⟩
  rintro ⟨l, hl⟩
  have hmem := (GoMap.mem_entries_iff _ _ _).2 hl
  have : ∀ e ∈ (Demo.runCalls Demo.s0 [Demo.k1, Demo.k2, Demo.k3, Demo.k4, Demo.k5, Demo.k6,
    Demo.k7]).byLabel.entries, e.2 ≠ 1 := by decide
  exact this _ hmem rfl

/-! ## C11 -/

theorem mem_inTerminalState {s : Sys} (hm : MInv s) (p : Ptr) : p ∈ s.inTerminalState ↔
    ∃ l, s.terminal.contains l = true ∧ s.byLabel.get l = some p := by
  unfold Sys.inTerminalState
  rw [List.mem_filterMap]
  constructor
  · rintro ⟨l, hl, hp⟩
    exact ⟨l, (hm.terminal.mem_keys l).1 hl, hp⟩
  · rintro ⟨l, hl, hp⟩
    exact ⟨l, (hm.terminal.mem_keys l).2 hl, hp⟩

theorem mem_inActiveState {s : Sys} (p : Ptr) : p ∈ s.inActiveState ↔
    ∃ l, s.terminal.contains l = false ∧ s.byLabel.get l = some p := by
  unfold Sys.inActiveState
  simp only [List.mem_map, List.mem_filter, Bool.not_eq_true', Prod.exists]
  constructor
  · rintro ⟨l, q, ⟨h1, h2⟩, rfl⟩
    exact ⟨l, h2, (GoMap.mem_entries_iff _ _ _).1 h1⟩
  · rintro ⟨l, h1, h2⟩
    exact ⟨l, p, ⟨(GoMap.mem_entries_iff _ _ _).2 h2, h1⟩, rfl⟩

/-- **C11, partition.** In every reachable state each stored dialogue is reported as active or as
terminal, never as both, and nothing else is reported. -/
theorem C11_partition {me : Bytes} {keep : Bool} {rules : RulesDecl} {s : Sys}
    (h : Reachable me keep rules s) (p : Ptr) :
    (Stored s p ↔ p ∈ s.inActiveState ∨ p ∈ s.inTerminalState) ∧
    ¬ (p ∈ s.inActiveState ∧ p ∈ s.inTerminalState) := by
  have hi := h.inv
  have hm := h.minv
  rw [mem_inActiveState, mem_inTerminalState hm]
  constructor
  · constructor
    · rintro ⟨l, hl⟩
      cases hc : s.terminal.contains l with
      | true => exact Or.inr ⟨l, hc, hl⟩
      | false => exact Or.inl ⟨l, hc, hl⟩
    · rintro (⟨l, _, hl⟩ | ⟨l, _, hl⟩) <;> exact ⟨l, hl⟩
  · rintro ⟨⟨l, h1, hl⟩, ⟨l', h1', hl'⟩⟩
    obtain ⟨d, hd, e⟩ := hi.label l p hl
    have e' := hi.labelOf hl' hd
    rw [← e, e', h1'] at h1
    simp at h1

theorem runCallbacks_keep {n : Nat} {s s' : Sys} {l : DialogueLabel} (hk : s.keepTerminal = true)
    (h : s.runCallbacks l (n + 1) = .ok s') :
    s'.byLabel = s.byLabel ∧ s'.terminal.contains l = true := by
  induction n generalizing s with
  | zero =>
    unfold Sys.runCallbacks at h
    rw [Res.bind_eq_ok] at h
    obtain ⟨s1, h1, h2⟩ := h
    unfold Sys.terminalCallback at h1
    rw [if_pos hk] at h1
    simp only [Res.ok.injEq] at h1
    simp only [Sys.runCallbacks, Res.ok.injEq] at h2
    subst h2; subst h1
    exact ⟨rfl, (GSet.contains_add _ _ _).2 (Or.inl rfl)⟩
  | succ n ih =>
    unfold Sys.runCallbacks at h
    rw [Res.bind_eq_ok] at h
    obtain ⟨s1, h1, h2⟩ := h
    unfold Sys.terminalCallback at h1
    rw [if_pos hk] at h1
    simp only [Res.ok.injEq] at h1
    subst h1
    have := ih (s := { s with terminal := s.terminal.add l }) hk h2
    exact this

theorem runCallbacks_drop {n : Nat} {s s' : Sys} {l : DialogueLabel} (hk : s.keepTerminal = false)
    (h : s.runCallbacks l (n + 1) = .ok s') : s'.byLabel.get l = none := by
  unfold Sys.runCallbacks at h
  rw [Res.bind_eq_ok] at h
  obtain ⟨s1, h1, h2⟩ := h
  unfold Sys.terminalCallback at h1
  rw [hk] at h1
  simp only [Bool.false_eq_true, if_false] at h1
  have e1 : s1.byLabel.get l = none := by
    rw [(Sys.removeDialogue_ok h1).2.2.2.2.1]; simp
  cases hg : s'.byLabel.get l with
  | none => rfl
  | some p =>
    have := (Sys.runCallbacks_shrinks h2).byLabel l p hg
    rw [e1] at this
    simp at this

/-- Effect of an accepted terminal message on a stored dialogue. -/
theorem terminal_effect {me : Bytes} {keep : Bool} {rules : RulesDecl} {s s' : Sys}
    (hi : SInv me keep rules s) (hm : MInv s) {p : Ptr} {m m' : Message}
    (ho : ∀ d, s.heap[p]? = some d → Offered me d m)
    (hu : s.dialogueUpdate p m = (s', .ok m')) (ht : m'.performative ∈ rules.terminal) :
    (keep = true → Stored s p → p ∈ s'.inTerminalState) ∧ (keep = false → ¬ Stored s' p) := by
  have hi' := hi.dialogueUpdate hu (by simp) ho
  have hm' := hm.dialogueUpdate hu (by simp)
  rcases Sys.dialogueUpdate_cases hu with hp | ⟨_, hp, _⟩ | ⟨d, d', m1, t, hd, hc, hr, hrun⟩
  · simp at hp
  · simp at hp
  · simp only [Res.ok.injEq] at hr
    subst hr
    have hdi := hi.heap p d hd
    have hdi' := hdi.update (ho d hd) hc
    obtain ⟨e1, _, _, e4, e5⟩ := Dialogue.updateCore_ok hc
    have hterm : t = true := by
      rw [e4, hdi.rulesEq, newRules_terminal]; exact ht
    rw [if_pos hterm] at hrun
    have hl : d'.label = d.label := by rw [e5, Dialogue.record_eq]
    have hreg := hdi'.registered
    obtain ⟨n, hn⟩ : ∃ n, d'.callbacks = n + 1 := ⟨d'.callbacks - 1, by omega⟩
    rw [hn] at hrun
    constructor
    · rintro hk ⟨l, hl'⟩
      have hdl : d.label = l := hi.labelOf hl' hd
      rw [mem_inTerminalState hm']
      have := runCallbacks_keep (s := s.setHeap p d') (by rw [← hi.keepEq] at hk; exact hk) hrun
      refine ⟨d'.label, this.2, ?_⟩
      rw [this.1, hl, hdl]
      exact hl'
    · rintro hk ⟨l2, hl2⟩
      have hdrop := runCallbacks_drop (s := s.setHeap p d') (by rw [← hi.keepEq] at hk; exact hk) hrun
      have hh : s'.heap[p]? = some d' := by
        rw [(Sys.runCallbacks_shrinks hrun).heap]
        exact getElem?_set_self_of_some hd
      have := hi'.labelOf hl2 hh
      rw [this] at hdrop
      unfold Sys.getByLabel at hl2
      rw [hdrop] at hl2
      simp at hl2

/-- **C11, incoming terminal message.** When `Update` accepts a message with a terminal performative
into a dialogue, that dialogue is reported as terminal (if terminal dialogues are kept) or is
no longer in the store (if not). -/
theorem C11_terminal_update {me : Bytes} {keep : Bool} {rules : RulesDecl} {s : Sys}
    (h : Reachable me keep rules s) {m : Message} {nonce : Bytes} {p : Ptr} {x : Option Message}
    (hacc : (s.call (.update m nonce)).2 = .accepted (some p) x)
    (ht : m.performative ∈ rules.terminal) :
    (keep = true → p ∈ (s.call (.update m nonce)).1.inTerminalState) ∧
    (keep = false → ¬ Stored (s.call (.update m nonce)).1 p) := by
  rcases hu : s.update m nonce with ⟨s', r⟩
  have e1 : s.call (.update m nonce) = (s', r.report fun p => .accepted p none) := by
    simp [Sys.call, hu]
  rw [e1] at hacc ⊢
  simp only at hacc ⊢
  have hr : r = .ok (some p) := by
    cases r with
    | ok q => simp [Res.report] at hacc; rw [hacc.1]
    | err e => simp [Res.report] at hacc
    | panic => simp [Res.report] at hacc
  subst hr
  have hi := h.inv
  have hm := h.minv
  have found : ∀ {s1 : Sys} {isNew f}, SInv me keep rules s1 → MInv s1 →
      (∀ q, f = some q → Stored s1 q) →
      m.sender ≠ me → m.sender ≠ [] → m.to = me →
      s1.updateFound m isNew f = (s', .ok (some p)) →
      (keep = true → p ∈ s'.inTerminalState) ∧ (keep = false → ¬ Stored s' p) := by
    intro s1 isNew f hi1 hm1 hst h1 h2 h3 hf
    rcases Sys.updateFound_cases hf with ⟨_, _, hp⟩ | hp | ⟨q, hq, ⟨m', hd, he⟩ | ⟨e, _, hp, _⟩⟩
    · simp at hp
    · simp at hp
    · simp only [Res.ok.injEq, Option.some.injEq] at he
      subst he
      have hm' : m' = m := by
        rcases Sys.dialogueUpdate_cases hd with hp | ⟨_, hp, _⟩ | ⟨d, d', m1, t, _, hc, hr, _⟩
        · simp at hp
        · simp at hp
        · simp only [Res.ok.injEq] at hr
          rw [hr, (Dialogue.updateCore_ok hc).1]
          simp [Dialogue.withSender, Message.hasSender, h2]
      have := terminal_effect hi1 hm1 (fun _ _ => Offered.other h1 h2 h3) hd (by rw [hm']; exact ht)
      exact ⟨fun hk => this.1 hk (hst p hq), this.2⟩
    · simp at hp
  rcases Sys.update_cases hu with ⟨_, hp, _⟩ | ⟨h1, h2, h3, hcase⟩
  · simp at hp
  rw [hi.selfEq] at h2 h3
  rcases hcase with ⟨_, _, _, hp⟩ | ⟨_, _, _, ⟨s1, q, hc, hf⟩ | ⟨e, _, hp⟩ | ⟨_, hp⟩⟩ |
    ⟨_, _, _, _, hf⟩ | ⟨_, ⟨s1, hc, hf⟩ | ⟨e, hc, hp⟩ | ⟨_, hp⟩⟩
  · simp at hp
  · refine found (hi.createOpponentInitiated h2 hc) (hm.createOpponentInitiated hc) ?_ h2 h1 h3 hf
    intro q' hq'
    simp only [Option.some.injEq] at hq'
    subst hq'
    rcases Sys.createOpponentInitiated_cases hc with ⟨he, _⟩ | ⟨_, _, hcr⟩
    · simp at he
    obtain ⟨_, _, hbl⟩ := Sys.create_heap hcr
    refine ⟨⟨⟨m.reference.starter, nonce⟩, m.sender, m.sender⟩, ?_⟩
    unfold Sys.getByLabel
    rw [hbl]
    exact GoMap.get_set_self _ _ _
  · simp at hp
  · simp at hp
  · exact found hi hm (fun q hq => Sys.getDialogue_some hq) h2 h1 h3 hf
  · exact found (hi.completeReference hc (by simp)) (hm.completeReference hc (by simp))
      (fun q hq => Sys.getDialogue_some hq) h2 h1 h3 hf
  · simp at hp
  · simp at hp

/-- The dialogue part of `Create` and `CreateWithMessage`, with a terminal performative. -/
theorem terminal_createDialogue {me : Bytes} {keep : Bool} {rules : RulesDecl} {s s' : Sys}
    (hi : SInv me keep rules s) (hm : MInv s) {cp : Bytes} {m : Message} {p : Ptr}
    (hs : m.sender = me) (hto : m.to = cp) (ht : m.performative ∈ rules.terminal)
    (hc : s.createDialogue cp m = (s', .ok (some p))) :
    (keep = true → p ∈ s'.inTerminalState) ∧ (keep = false → ¬ Stored s' p) := by
  rcases Sys.createDialogue_cases hc with ⟨e, he, _⟩ | hp | ⟨s1, q, hc1, ⟨m', hu, he⟩ | ⟨e, _, he⟩⟩
  · simp at he
  · simp at hp
  · simp only [Res.ok.injEq, Option.some.injEq] at he
    subst he
    have h1 := hi.createSelfInitiated hc1
    have hm1 := hm.createSelfInitiated hc1
    rcases Sys.createSelfInitiated_cases hc1 with ⟨he, _⟩ | ⟨_, _, hcr⟩
    · simp at he
    obtain ⟨hp, hheap, hbl⟩ := Sys.create_heap hcr
    have ho : ∀ d, s1.heap[p]? = some d → Offered me d m := by
      intro d hd
      rw [hheap, hp] at hd
      simp at hd
      subst hd
      refine Offered.own hs ?_ ?_ ?_
      · simpa [Dialogue.new] using hto
      · intro _; simpa [Dialogue.new] using hi.selfEq
      · intro he; simp [Dialogue.new, Dialogue.isEmpty] at he
    have hpf : m'.performative = m.performative := by
      rcases Sys.dialogueUpdate_cases hu with hp | ⟨_, hp, _⟩ | ⟨d1, d', m1, t, _, hc, hr, _⟩
      · simp at hp
      · simp at hp
      · simp only [Res.ok.injEq] at hr
        rw [hr, (Dialogue.updateCore_ok hc).1]
        unfold Dialogue.withSender
        split <;> rfl
    have := terminal_effect h1 hm1 ho hu (by rw [hpf]; exact ht)
    refine ⟨fun hk => this.1 hk ⟨⟨m.reference, cp, s.self⟩, ?_⟩, this.2⟩
    unfold Sys.getByLabel
    rw [hbl]
    exact GoMap.get_set_self _ _ _
  · simp at he

/-- **C11, terminal opening message.** The same for a dialogue the agent opens with a terminal
performative, by `Create`. -/
theorem C11_terminal_create {me : Bytes} {keep : Bool} {rules : RulesDecl} {s : Sys}
    (h : Reachable me keep rules s) {cp perf nonce : Bytes} {p : Ptr} {x : Option Message}
    (hacc : (s.call (.create cp perf nonce)).2 = .accepted (some p) x)
    (ht : perf ∈ rules.terminal) :
    (keep = true → p ∈ (s.call (.create cp perf nonce)).1.inTerminalState) ∧
    (keep = false → ¬ Stored (s.call (.create cp perf nonce)).1 p) := by
  rcases hu : s.createNew cp perf nonce with ⟨s', r⟩
  have e1 : s.call (.create cp perf nonce) = (s', r.report fun (m, p) => .accepted p (some m)) := by
    simp [Sys.call, hu]
  rw [e1] at hacc ⊢
  simp only at hacc ⊢
  obtain ⟨r0, hd, hr0⟩ := Sys.createNew_cases hu
  subst hr0
  cases r0 with
  | err e => simp [Res.bind, Res.report] at hacc
  | panic => simp [Res.bind, Res.report] at hacc
  | ok q =>
    simp only [Res.bind, Res.report, Report.accepted.injEq] at hacc
    rw [hacc.1] at hd
    refine terminal_createDialogue (m := s.freshMessage cp perf nonce) h.inv h.minv ?_ rfl ?_ hd
    · simpa [Sys.freshMessage] using h.inv.selfEq
    · simpa [Sys.freshMessage] using ht

/-- **C11, terminal opening message**, by `CreateWithMessage`. -/
theorem C11_terminal_create_with {me : Bytes} {keep : Bool} {rules : RulesDecl} {s : Sys}
    (h : Reachable me keep rules s) {cp : Bytes} {m : Message} {p : Ptr} {x : Option Message}
    (hacc : (s.call (.createWith cp m)).2 = .accepted (some p) x)
    (ht : m.performative ∈ rules.terminal) :
    (keep = true → p ∈ (s.call (.createWith cp m)).1.inTerminalState) ∧
    (keep = false → ¬ Stored (s.call (.createWith cp m)).1 p) := by
  rcases hu : s.createWithMessage cp m with ⟨s', r⟩
  have e1 : s.call (.createWith cp m) = (s', r.report fun p => .accepted p none) := by
    simp [Sys.call, hu]
  rw [e1] at hacc ⊢
  simp only at hacc ⊢
  have hr : r = .ok (some p) := by
    cases r with
    | ok q => simp [Res.report] at hacc; rw [hacc.1]
    | err e => simp [Res.report] at hacc
    | panic => simp [Res.report] at hacc
  subst hr
  rcases Sys.createWithMessage_cases hu with ⟨_, he, _⟩ | ⟨_, _, hd⟩
  · simp at he
  · exact terminal_createDialogue (m := { m with sender := s.self, to := cp }) h.inv h.minv
      h.inv.selfEq rfl ht hd

/-- Rules under which an opening message is terminal at once. -/
def Demo.oneShot : RulesDecl := { Demo.rules with terminal := [b! "cfp"] }

/-- Non-vacuity: opening a dialogue with a terminal performative is accepted. -/
example :
    let s := Sys.new Demo.me true Demo.oneShot
    (∃ x, (s.call (.create (b! "bob") (b! "cfp") (b! "n1"))).2 = .accepted (some 0) x) ∧
    (s.call (.createWith (b! "bob") (Demo.msg [] [] (b! "n1") [] 1 0 (b! "cfp")))).2 =
      .accepted (some 0) none ∧
    (b! "cfp") ∈ Demo.oneShot.terminal :=
  ⟨⟨_, rfl⟩, by decide, by decide⟩

/-- **C11, own terminal reply.** The same for a reply with a terminal performative; with
terminal dialogues kept, on a dialogue that is stored. -/
theorem C11_terminal_reply {me : Bytes} {keep : Bool} {rules : RulesDecl} {s : Sys}
    (h : Reachable me keep rules s) {p : Ptr} {perf : Bytes} {tm : Option Message}
    {tp : Option Int} {x : Option Ptr} {y : Option Message}
    (hacc : (s.call (.reply p perf tm tp)).2 = .accepted x y)
    (ht : perf ∈ rules.terminal) :
    (keep = true → Stored s p → p ∈ (s.call (.reply p perf tm tp)).1.inTerminalState) ∧
    (keep = false → ¬ Stored (s.call (.reply p perf tm tp)).1 p) := by
  rcases hu : s.reply p perf tm tp with ⟨s', r⟩
  have e1 : s.call (.reply p perf tm tp) = (s', r.report fun m => .accepted (some p) (some m)) := by
    simp [Sys.call, hu]
  rw [e1] at hacc ⊢
  simp only at hacc ⊢
  cases r with
  | err e => simp [Res.report] at hacc
  | panic => simp [Res.report] at hacc
  | ok m' =>
    have hi := h.inv
    rcases Sys.reply_cases hu with hp | ⟨_, hp, _⟩ | ⟨d, m, hd, hm, hdu⟩
    · simp at hp
    · simp at hp
    · obtain ⟨he, htg, hs, hto, _, _, hpf, _⟩ := Dialogue.replyMessage_ok hm
      have ho : ∀ d', s.heap[p]? = some d' → Offered me d' m := by
        intro d' hd'
        rw [hd] at hd'
        simp only [Option.some.injEq] at hd'
        subst hd'
        refine Offered.own (by rw [hs]; exact (hi.heap p d hd).selfAddr) hto ?_ (fun _ => htg)
        intro he'; rw [he] at he'; simp at he'
      refine terminal_effect hi h.minv ho hdu ?_
      have : m'.performative = perf := by
        rcases Sys.dialogueUpdate_cases hdu with hp | ⟨_, hp, _⟩ | ⟨d1, d', m1, t, _, hc, hr, _⟩
        · simp at hp
        · simp at hp
        · simp only [Res.ok.injEq] at hr
          rw [hr, (Dialogue.updateCore_ok hc).1, ← hpf]
          unfold Dialogue.withSender
          split <;> rfl
      rw [this]; exact ht

/-- Non-vacuity: in the demo, `bob` sends a terminal message, and the agent replies with one. -/
example :
    (Demo.s4.call (.update (Demo.msg (b! "bob") Demo.me (b! "n1") (b! "r1") (-3) 2 (b! "accept"))
      (b! "z"))).2 = .accepted (some 0) none ∧
    (b! "accept") ∈ Demo.rules.terminal ∧
    (∃ x y, (Demo.s4.call (.reply 1 (b! "decline") none none)).2 = .accepted x y) ∧
    Stored Demo.s4 1 := by
  refine ⟨by decide, by decide, ⟨_, _, rfl⟩, ⟨⟨b! "e1", b! "n2"⟩, b! "eve", b! "eve"⟩, by decide⟩

end Verif
