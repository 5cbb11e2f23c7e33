import Verif.Props.AgentRestart

/-!
# C97: what a lightweight agent hands on, and when it counts as started
-/

namespace Verif

open Life AgentLife

/-- What holds in every state of an agent with this address. -/
structure Life.Rules (a : Bytes) (s : AgentLife) : Prop where
  address : s.address = a
  tries : ∀ n, s.main = .register n ∨ s.main = .status n → n < 5
  outs : ∀ ch ∈ s.outs, ch.items.length ≤ 10 ∧ ∀ e ∈ ch.items, e.to = a
  stats : ∀ ch ∈ s.stats, ch.items.length ≤ 10
  pushing : ∀ l ∈ s.listeners, ∀ q e, l.phase = .pushing q e → e.to = a
  got : ∀ e, some e ∈ s.got → e.to = a

theorem Life.Rules.same {a : Bytes} {s s' : AgentLife} (h : Rules a s) (h1 : s'.address = s.address)
    (h2 : ∀ n, s'.main = .register n ∨ s'.main = .status n → n < 5) (h3 : s'.outs = s.outs) (h4 : s'.stats = s.stats)
    (h5 : s'.listeners = s.listeners) (h6 : s'.got = s.got) : Rules a s' :=
  ⟨h1.trans h.address, h2, h3 ▸ h.outs, h4 ▸ h.stats, h5 ▸ h.pushing, h6 ▸ h.got⟩

theorem rules_closeConn {a : Bytes} {s : AgentLife} (h : Rules a s) : Rules a s.closeConn := by
  unfold closeConn
  split <;> exact h.same rfl h.tries rfl rfl rfl rfl

theorem rules_setPhase {a : Bytes} {s : AgentLife} (h : Rules a s) (i : Nat) (p : Phase)
    (hp : ∀ q e, p = .pushing q e → e.to = a) : Rules a (s.setPhase i p) := by
  refine ⟨h.address, h.tries, h.outs, h.stats, ?_, h.got⟩
  intro l hl q e he
  obtain ⟨j, hj⟩ := List.mem_iff_getElem?.1 hl
  simp only [setPhase, List.getElem?_modify] at hj
  cases hs : s.listeners[j]? with
  | none => rw [hs] at hj; cases hj
  | some x =>
    rw [hs] at hj
    replace hj : some (if i = j then { x with phase := p } else x) = some l := hj
    by_cases hij : i = j
    · rw [if_pos hij] at hj
      cases hj
      exact hp q e he
    · rw [if_neg hij] at hj
      injection hj with hj
      subst hj
      exact h.pushing x (List.mem_of_getElem? hs) q e he

theorem rules_take {a : Bytes} {s : AgentLife} (h : Rules a s) (k : Nat) (r : Reader) (f : Bytes) :
    Rules a (s.take k r f) := h.same rfl h.tries rfl rfl rfl rfl

theorem rules_retry {a : Bytes} {s : AgentLife} (h : Rules a s) (n : Nat) : Rules a (s.retry n) := by
  refine h.same rfl ?_ rfl rfl rfl rfl
  intro m hm
  simp only [retry] at hm
  split at hm
  · rcases hm with hm | hm <;> cases hm
    assumption
  · rcases hm with hm | hm <;> cases hm

theorem rules_goMain {a : Bytes} {s : AgentLife} (h : Rules a s) (ok : Bool) : Rules a (s.goMain ok) := by
  unfold goMain
  split
  · exact h
  · split
    · exact h
    · exact h.same rfl (by simp) rfl rfl rfl rfl
    · dsimp only
      split
      · refine h.same rfl ?_ rfl rfl rfl rfl
        intro n hn
        rcases hn with hn | hn <;> cases hn
        decide
      · exact h.same rfl (by simp) rfl rfl rfl rfl
  · next n hm =>
    split
    · refine h.same rfl ?_ rfl rfl rfl rfl
      intro m hm'
      rcases hm' with hm' | hm' <;> cases hm'
      exact h.tries _ (.inl hm)
    · exact rules_retry h _
  · split
    · exact h
    · exact rules_retry h _
    · dsimp only
      split
      · exact h.same rfl h.tries rfl rfl rfl rfl
      · exact rules_retry (rules_take h _ _ _) _
      · refine ⟨h.address, by simp [finish], ?_, ?_, ?_, h.got⟩
        · intro ch hch
          simp only [finish, AgentLife.take, List.mem_append, List.mem_singleton] at hch
          rcases hch with hch | rfl
          · exact h.outs ch hch
          · simp
        · intro ch hch
          simp only [finish, AgentLife.take, List.mem_append, List.mem_singleton] at hch
          rcases hch with hch | rfl
          · exact h.stats ch hch
          · simp
        · intro l hl q e he
          simp only [finish, AgentLife.take, List.mem_append, List.mem_singleton] at hl
          rcases hl with hl | rfl
          · exact h.pushing l hl q e he
          · cases he
  · exact (rules_closeConn h).same rfl (by simp) rfl rfl rfl rfl
  · split
    · exact h.same rfl h.tries rfl rfl rfl rfl
    · split
      · exact (rules_closeConn h).same rfl (by simp) rfl rfl rfl rfl
      · exact h.same rfl h.tries rfl rfl rfl rfl
  · split
    · exact h.same rfl h.tries rfl rfl rfl rfl
    · next outs ho =>
      refine ⟨h.address, by simp, ?_, h.stats, h.pushing, h.got⟩
      intro ch hch
      unfold closeChan at ho
      split at ho
      · cases ho
      · split at ho
        · cases ho
        · next ch' hk =>
          split at ho
          · cases ho
          · cases ho
            rcases List.mem_or_eq_of_mem_set hch with hch | rfl
            · exact h.outs ch hch
            · exact h.outs ch' (List.mem_of_getElem? hk)
  · split
    · exact h.same rfl h.tries rfl rfl rfl rfl
    · next stats ho =>
      refine ⟨h.address, by simp, h.outs, ?_, h.pushing, h.got⟩
      intro ch hch
      unfold closeChan at ho
      split at ho
      · cases ho
      · split at ho
        · cases ho
        · next ch' hk =>
          split at ho
          · cases ho
          · cases ho
            rcases List.mem_or_eq_of_mem_set hch with hch | rfl
            · exact h.stats ch hch
            · exact h.stats ch' (List.mem_of_getElem? hk)

theorem rules_goListener {T : AcnTexts} {rest : Bytes → Envelope} {a : Bytes} {s : AgentLife} (h : Rules a s) (i : Nat)
    (l : Listener) (hl : l ∈ s.listeners) (ok : Bool) : Rules a (s.goListener T rest i l ok) := by
  have hdead : ∀ {s' : AgentLife} (d : Option Death), Rules a s' → Rules a { s' with dead := d } :=
    fun d h => h.same rfl h.tries rfl rfl rfl rfl
  unfold goListener
  split
  · split
    · exact hdead _ h
    · exact rules_setPhase h _ _ (by simp)
  · split
    · exact h
    · split
      · exact h
      · refine rules_setPhase h _ _ ?_
        split <;> simp
      · dsimp only
        have h' := rules_take h
        split
        · exact hdead _ (h' _ _ _)
        · split
          · exact h' _ _ _
          · exact rules_setPhase (h' _ _ _) _ _ (by simp)
        · split
          · exact hdead _ (h' _ _ _)
          · split
            · exact rules_setPhase (h' _ _ _) _ _ (by simp)
            · split
              · exact rules_setPhase (h' _ _ _) _ _ (by simp)
              · split
                · exact rules_setPhase (h' _ _ _) _ _ (by simp)
                · next e hto =>
                  split
                  · exact h' _ _ _
                  · refine rules_setPhase (h' _ _ _) _ _ ?_
                    intro q e' he
                    cases he
                    rw [← h.address]
                    exact Classical.not_not.1 hto
  · refine rules_setPhase h _ _ ?_
    split <;> simp
  · exact rules_closeConn (rules_setPhase h _ _ (by simp))
  · next q e hph =>
    split
    · exact h
    · next ch hch =>
      split
      · exact hdead _ h
      · split
        · next hlt =>
          have h1 := rules_setPhase h i .pushed (by simp)
          refine ⟨h1.address, h1.tries, ?_, h1.stats, h1.pushing, h1.got⟩
          intro ch' hch'
          rcases List.mem_or_eq_of_mem_set hch' with hch' | rfl
          · exact h.outs ch' hch'
          · have := h.outs ch (List.mem_of_getElem? hch)
            refine ⟨by simp; omega, ?_⟩
            intro e' he'
            rcases List.mem_append.1 he' with he' | he'
            · exact this.2 e' he'
            · rw [List.mem_singleton] at he'
              subst he'
              exact h.pushing l hl q e' hph
        · exact h
  · refine rules_setPhase h _ _ ?_
    split <;> simp
  · split
    · exact h
    · next ch hch =>
      split
      · exact hdead _ h
      · split
        · next hlt =>
          have h1 := rules_setPhase h i .idle (by simp)
          refine ⟨h1.address, h1.tries, h1.outs, ?_, h1.pushing, h1.got⟩
          intro ch' hch'
          rcases List.mem_or_eq_of_mem_set hch' with hch' | rfl
          · exact h.stats ch' hch'
          · simp; omega
        · exact h
  · exact h

theorem rules_step (T : AcnTexts) (rest : Bytes → Envelope) {a : Bytes} {s : AgentLife} (st : AgentLife.Step)
    (h : Rules a s) : Rules a (s.step T rest st) := by
  unfold step
  split
  · unfold stepAlive
    split
    · split
      · exact h
      · split
        · exact h.same rfl h.tries rfl rfl rfl rfl
        · exact h.same rfl (by simp) rfl rfl rfl rfl
    · split
      · exact h
      · exact h.same rfl (by simp) rfl rfl rfl rfl
    · exact rules_goMain h _
    · exact h.same rfl h.tries rfl rfl rfl rfl
    · exact h.same rfl h.tries rfl rfl rfl rfl
    · exact h.same rfl h.tries rfl rfl rfl rfl
    · split
      · exact h
      · next l hl => exact rules_goListener h _ l (List.mem_of_getElem? hl) _
    · split
      · exact h.same rfl h.tries rfl rfl rfl rfl
      · split
        · exact h.same rfl h.tries rfl rfl rfl rfl
        · exact h
    · unfold goPut
      split
      · split
        · exact h
        · next ch hch =>
          split
          · next b items hi =>
            refine ⟨h.address, h.tries, h.outs, ?_, h.pushing, h.got⟩
            intro ch' hch'
            rcases List.mem_or_eq_of_mem_set hch' with hch' | rfl
            · exact h.stats ch' hch'
            · have := h.stats ch (List.mem_of_getElem? hch)
              rw [hi, List.length_cons] at this
              exact Nat.le_of_succ_le this
          · split
            · exact h.same rfl h.tries rfl rfl rfl rfl
            · exact h
      · exact h
    · split
      · exact h.same rfl h.tries rfl rfl rfl rfl
      · exact h
    · split
      · exact h
      · split
        · exact h
        · next ch hch =>
          have hc := h.outs ch (List.mem_of_getElem? hch)
          split
          · next e items hi =>
            rw [hi] at hc
            refine ⟨h.address, h.tries, ?_, h.stats, h.pushing, ?_⟩
            · intro ch' hch'
              rcases List.mem_or_eq_of_mem_set hch' with hch' | rfl
              · exact h.outs ch' hch'
              · exact ⟨Nat.le_of_succ_le hc.1, fun e he => hc.2 e (List.mem_cons_of_mem _ he)⟩
            · intro e' he'
              rcases List.mem_append.1 he' with he' | he'
              · exact h.got e' he'
              · rw [List.mem_singleton, Option.some.injEq] at he'
                subst he'
                exact hc.2 _ List.mem_cons_self
          · split
            · refine ⟨h.address, h.tries, h.outs, h.stats, h.pushing, ?_⟩
              intro e' he'
              rcases List.mem_append.1 he' with he' | he'
              · exact h.got e' he'
              · simp at he'
            · exact h
  · exact h

theorem rules_run (T : AcnTexts) (rest : Bytes → Envelope) (a : Bytes) (steps : List AgentLife.Step) :
    Rules a ((AgentLife.init a).run T rest steps) := by
  have : ∀ (steps : List AgentLife.Step) (s : AgentLife), Rules a s → Rules a (s.run T rest steps) := by
    intro steps
    induction steps with
    | nil => intro s h; exact h
    | cons st steps ih => intro s h; exact ih _ (rules_step T rest st h)
  refine this steps _ ⟨rfl, by simp [init], ?_, ?_, ?_, ?_⟩ <;> simp [init]

/-- **C97.** In every history, whatever the peers send: `Get` returns, and the queues hold, only envelopes that are
addressed to the agent; no queue holds more than ten; and `Start` makes at most five attempts to register on a
connection (they are numbered from 0). -/
theorem C97_handed_on (T : AcnTexts) (rest : Bytes → Envelope) (a : Bytes) (steps : List AgentLife.Step) :
    let s := (AgentLife.init a).run T rest steps
    (∀ e, some e ∈ s.got → e.to = a) ∧
    (∀ ch ∈ s.outs, ch.items.length ≤ 10 ∧ ∀ e ∈ ch.items, e.to = a) ∧
    (∀ ch ∈ s.stats, ch.items.length ≤ 10) ∧
    (∀ n, s.main = .register n ∨ s.main = .status n → n < 5) :=
  let h := rules_run T rest a steps
  ⟨h.got, h.outs, h.stats, h.tries⟩

/-- The answer to a registration that counts. -/
def IsSuccess (f : Bytes) : Prop := ∃ b, AcnMessage.decode f = some (some (.status (some b))) ∧ b.code = 0

theorem registered_ok (f : Bytes) : registered f = .ok () ↔ IsSuccess f := by
  unfold registered IsSuccess
  split
  · next h => simp [h]
  · next b h =>
    rw [h]
    have : StatusCode.success.toInt = 0 := rfl
    rw [this]
    constructor
    · intro hc
      split at hc
      · exact ⟨b, rfl, ‹_›⟩
      · cases hc
    · rintro ⟨b', hb, hc⟩
      cases hb
      rw [if_pos hc]
  · next h1 h2 =>
    constructor
    · intro h; cases h
    · rintro ⟨b, hb, _⟩
      exact absurd hb (h2 b)

/-- **C97.** A call of `Start` succeeds exactly when it has sent a registration and reads a status with the code for
success. -/
theorem C97_started (T : AcnTexts) (rest : Bytes → Envelope) (s : AgentLife) (hd : s.dead = none) (ok : Bool) :
    (s.step T rest (.go ok)).results = s.results ++ [.started] ↔
      ∃ n f, s.main = .status n ∧ s.mainRead = .frame f ∧ IsSuccess f := by
  have hne : ∀ r, r ≠ Result.started → s.results ++ [r] ≠ s.results ++ [.started] := by
    intro r hr he
    simp at he
    exact hr he
  have hself : s.results ≠ s.results ++ [.started] := by
    intro he
    have := congrArg List.length he
    simp at this
  have hcl : s.closeConn.results = s.results := by unfold closeConn; split <;> rfl
  rw [step_go ok hd]
  unfold goMain
  split
  · next h => simp [h]
  · next h =>
    simp only [h, reduceCtorEq, false_and, exists_false, iff_false]
    split
    · exact hself
    · exact hne _ (by simp)
    · split
      · exact hself
      · exact hne _ (by simp)
  · next n h =>
    simp only [h, reduceCtorEq, false_and, exists_false, iff_false]
    split
    · exact hself
    · exact hself
  · next n h =>
    split
    · next hw => simp [hw]
    · next hw => simp [hw, retry]
    · next f hw =>
      have : (∃ n f, s.main = .status n ∧ s.mainRead = .frame f ∧ IsSuccess f) ↔ registered f = .ok () := by
        rw [registered_ok]
        constructor
        · rintro ⟨n', f', _, hf, hs⟩
          rw [hw] at hf
          cases hf
          exact hs
        · exact fun hs => ⟨n, f, h, hw, hs⟩
      rw [this]
      split
      · next hr => simp [hr, AgentLife.take]
      · next hr => simp [hr, AgentLife.take, retry]
      · next hr => simp [hr, AgentLife.take, finish]
  · next h =>
    simp only [h, reduceCtorEq, false_and, exists_false, iff_false]
    exact hne _ (by simp)
  · next h =>
    simp only [h, reduceCtorEq, false_and, exists_false, iff_false]
    split
    · exact hself
    · split
      · simp only [hcl]; exact hself
      · exact hself
  · next h =>
    simp only [h, reduceCtorEq, false_and, exists_false, iff_false]
    split <;> exact hself
  · next h =>
    simp only [h, reduceCtorEq, false_and, exists_false, iff_false]
    split
    · exact hself
    · exact hne _ (by simp)

/-- **C97.** A call of `Start` gives up after five attempts, not before: if five attempts in a row fail, because the
registration cannot be written, `Start` closes the connection and returns an error, and the fourth failure alone leads
to a fifth attempt. -/
theorem C97_five_attempts (T : AcnTexts) (rest : Bytes → Envelope) (s : AgentLife) (hd : s.dead = none)
    (hm : s.main = .register 0) :
    (s.run T rest (List.replicate 4 (.go false))).main = .register 4 ∧
    (s.run T rest (List.replicate 5 (.go false))).main = .giveUp ∧
    (s.run T rest (List.replicate 6 (.go false))).main = .idle ∧
    (s.run T rest (List.replicate 6 (.go false))).isOpen = false ∧
    (s.run T rest (List.replicate 6 (.go false))).results = s.results ++ [.notStarted] := by
  have h1 : ∀ (s : AgentLife) n, s.dead = none → s.main = .register n → n < 4 →
      s.step T rest (.go false) = { s with main := .register (n + 1) } := by
    intro s n hd hm hn
    rw [step_go false hd]
    simp [goMain, hm, retry, hn]
  have e1 := h1 s 0 hd hm (by decide)
  have e2 := h1 { s with main := .register 1 } 1 hd rfl (by decide)
  have e3 := h1 { s with main := .register 2 } 2 hd rfl (by decide)
  have e4 := h1 { s with main := .register 3 } 3 hd rfl (by decide)
  have e5 : ({ s with main := .register 4 } : AgentLife).step T rest (.go false) = { s with main := .giveUp } := by
    rw [step_go false (by exact hd)]
    simp [goMain, retry]
  have e6 : ({ s with main := .giveUp } : AgentLife).step T rest (.go false) =
      { ({ s with main := .giveUp } : AgentLife).closeConn with
        main := .idle, results := s.results ++ [.notStarted] } := by
    rw [step_go false (by exact hd)]
    simp [goMain]
  have r4 : s.run T rest (List.replicate 4 (.go false)) = { s with main := .register 4 } := by
    show ((((s.step T rest _).step T rest _).step T rest _).step T rest _) = _
    rw [e1, e2, e3, e4]
  have r5 : s.run T rest (List.replicate 5 (.go false)) = { s with main := .giveUp } := by
    show (s.run T rest (List.replicate 4 (.go false))).step T rest (.go false) = _
    rw [r4, e5]
  have r6 : s.run T rest (List.replicate 6 (.go false)) =
      { ({ s with main := .giveUp } : AgentLife).closeConn with
        main := .idle, results := s.results ++ [.notStarted] } := by
    show (s.run T rest (List.replicate 5 (.go false))).step T rest (.go false) = _
    rw [r5, e6]
  refine ⟨by rw [r4], by rw [r5], by rw [r6], ?_, by rw [r6]⟩
  rw [r6]
  exact closeConn_isOpen { s with main := .giveUp }

/-- **C97.** When the peer hangs up, nothing more arrives on the connection, and whoever reads from it gets what is
there and then an error instead of waiting. -/
theorem C97_hang_up (T : AcnTexts) (rest : Bytes → Envelope) (s : AgentLife) (hd : s.dead = none) (k : Nat) (c : Conn)
    (hc : s.conns[k]? = some c) :
    ∃ c', (s.step T rest (.hangUp k)).conns[k]? = some c' ∧ c'.read ≠ .wait ∧ c'.arrived = c.arrived ∧
      ∀ f, ((s.step T rest (.hangUp k)).step T rest (.arrive k f)).conns[k]? = some c' := by
  refine ⟨{ c with ended := true }, ?_, ?_, rfl, ?_⟩
  · simp [step, hd, stepAlive, hc]
  · unfold Conn.read
    split <;> split <;> simp_all
  · intro f
    simp [step, hd, stepAlive, hc]

/-- What a receiving goroutine does with an envelope: what follows if it is handed on. -/
def Life.handsOn (address : Bytes) (q : Nat) (e : Envelope) (p : Phase) : Prop :=
  (e.to = address → p = .pushing q e) ∧ (e.to ≠ address → p = .idle)

/-- **C97.** A receiving goroutine that reads an envelope hands it on if it is addressed to the agent and drops it
otherwise, provided that the peer could be told of its arrival or the agent is being stopped; if the peer could not be
told, the envelope is lost and the goroutine ends. -/
theorem C97_listener (T : AcnTexts) (rest : Bytes → Envelope) (s : AgentLife) (hd : s.dead = none) {i k q : Nat}
    {l : Listener} {c : Conn} {f b : Bytes} {r : Option AgentRecord} {e : Envelope} (hl : s.listeners[i]? = some l)
    (hp : l.phase = .reading k) (hc : s.conns[k]? = some c) (hr : c.read = .frame f) (hs : s.conn ≠ none)
    (hq : s.out = some q) (hm : AcnMessage.decode f = some (some (.aeaEnvelope b r))) (he : Envelope.decode b = some e)
    (ok : Bool) : ∃ l', (s.step T rest (.listen i ok)).listeners[i]? = some l' ∧
      ((ok = true ∧ s.isOpen = true) ∨ s.closing = true → handsOn s.address q e l'.phase) ∧
      (¬ (ok = true ∧ s.isOpen = true) → s.closing = false → l'.phase = .failing) := by
  have hh : handled T rest f (ok && s.isOpen) = .result (some e) (!(ok && s.isOpen)) := by
    have hd' : Acn.decodeAcnMessage T f = .ok (.aeaEnvelope b r) := by simp [Acn.decodeAcnMessage, hm]
    unfold handled Lite.handle
    simp only [Pipe.read, hd', he]
    have hsend : ∃ m, AcnMessage.encode (some (.status (some ⟨0, []⟩))) = some m := ⟨_, rfl⟩
    obtain ⟨m, hm'⟩ := hsend
    cases hok : (ok && s.isOpen) <;>
      simp [Acn.sendSuccess, Acn.sendMessage, hm', StatusCode.toInt, Pipe.write]
  have hstep : s.step T rest (.listen i ok) = s.goListener T rest i l ok := by
    simp [step, hd, stepAlive, hl]
  have hlen : ∀ (s' : AgentLife) (p : Phase), s'.listeners = s.listeners →
      (s'.setPhase i p).listeners[i]? = some { l with phase := p } := by
    intro s' p h
    simp [setPhase, h, hl]
  rw [hstep]
  unfold goListener
  simp only [hp, hc, hr, hh, hq, if_neg hs]
  cases ho : (ok && s.isOpen) with
  | true =>
    have ho' : ok = true ∧ s.isOpen = true := by simpa using ho
    simp only [Bool.not_true, Bool.false_and, Bool.false_eq_true, if_false]
    by_cases ht : e.to = s.address
    · rw [if_neg (by simpa using ht)]
      exact ⟨_, hlen _ _ rfl, fun _ => ⟨fun _ => rfl, fun h => absurd ht h⟩, fun h => absurd ho' h⟩
    · rw [if_pos ht]
      exact ⟨_, hlen _ _ rfl, fun _ => ⟨fun h => absurd h ht, fun _ => rfl⟩, fun h => absurd ho' h⟩
  | false =>
    have ho' : ¬ (ok = true ∧ s.isOpen = true) := by simpa using ho
    cases hcl : s.closing with
    | false =>
      simp only [Bool.not_false, Bool.true_and, if_true]
      refine ⟨_, hlen _ _ rfl, fun h => ?_, fun _ _ => rfl⟩
      rcases h with h | h
      · exact absurd h ho'
      · cases h
    | true =>
      simp only [Bool.not_false, Bool.not_true, Bool.and_false, Bool.false_eq_true, if_false]
      by_cases ht : e.to = s.address
      · rw [if_neg (by simpa using ht)]
        exact ⟨_, hlen _ _ rfl, fun _ => ⟨fun _ => rfl, fun h => absurd ht h⟩, fun _ h => by cases h⟩
      · rw [if_pos ht]
        exact ⟨_, hlen _ _ rfl, fun _ => ⟨fun h => absurd h ht, fun _ => rfl⟩, fun _ h => by cases h⟩

/-- **C97, counterexample: an envelope that was decrypted before `Stop`.** An envelope for the agent has arrived and is
decrypted, the receiving goroutine is about to read, and the agent is stopped; `Stop` succeeds. Then the goroutine reads
the envelope from the closed connection, gives it to the queue that `Stop` closed, and the process ends. -/
theorem C97_buffered_counterexample (T : AcnTexts) (rest : Bytes → Envelope) {s : AgentLife} {i k q p : Nat}
    {l : Listener} {c : Conn} {f b : Bytes} {more : List Bytes} {r : Option AgentRecord} {e : Envelope}
    {a : Chan Envelope} {a' : Chan StatusBody} (hd : s.dead = none) (hm : s.main = .idle)
    (hl : s.listeners[i]? = some l) (hp : l.phase = .reading k) (hk : s.conn = some k) (hc : s.conns[k]? = some c)
    (ho : c.closed = false) (hi : c.input = f :: more) (hf : AcnMessage.decode f = some (some (.aeaEnvelope b r)))
    (he : Envelope.decode b = some e) (ht : e.to = s.address)
    (hq : s.out = some q) (h1 : s.outs[q]? = some a) (h2 : a.closed = false)
    (hq' : s.stat = some p) (h3 : s.stats[p]? = some a') (h4 : a'.closed = false) (w x y z : Bool) :
    let stop := [AgentLife.Step.decrypt k 1, .stop, .go true, .go w, .go x]
    (s.run T rest stop).results = s.results ++ [.stopped] ∧ (s.run T rest stop).dead = none ∧
    (s.run T rest (stop ++ [.listen i y, .listen i z])).dead = some .panic := by
  intro stop
  have hkl : k < s.conns.length := (List.getElem?_eq_some_iff.1 hc).1
  have hql : q < s.outs.length := (List.getElem?_eq_some_iff.1 h1).1
  have key : s.run T rest stop =
      { s with
        closing := true
        conns := (s.conns.modify k fun c => if c.closed then c else { c with decrypted := 1 }).modify k fun c =>
          { c with closed := true }
        outs := s.outs.set q { a with closed := true }
        stats := s.stats.set p { a' with closed := true }
        results := s.results ++ [.stopped]
        main := .idle } := by
    have ho' : ∀ s' : AgentLife, s'.conn = s.conn →
        s'.conns = (s.conns.modify k fun c => if c.closed then c else { c with decrypted := 1 }) →
        s'.isOpen = true := by
      intro s' e1 e2
      simp [isOpen, e1, e2, hk, hc, ho]
    simp [stop, run, step, stepAlive, hd, hm, hk, goMain, ho', closeConn, closeChan, hq', h3, h4, hq, h1, h2]
  refine ⟨by rw [key], by rw [key]; exact hd, ?_⟩
  have happ : s.run T rest (stop ++ [.listen i y, .listen i z]) =
      ((s.run T rest stop).step T rest (.listen i y)).step T rest (.listen i z) := by
    simp [run, List.foldl_append]
  rw [happ]
  generalize hs : s.run T rest stop = s1 at *
  have hc1 : s1.conns[k]? = some { c with decrypted := 1, closed := true } := by
    rw [key]; simp [List.getElem?_modify, hc, ho]
  have hl1 : s1.listeners[i]? = some l := by rw [key]; exact hl
  have hd1 : s1.dead = none := by rw [key]; exact hd
  have hh : handled T rest f (y && s1.isOpen) = .result (some e) (!(y && s1.isOpen)) := by
    have hd' : Acn.decodeAcnMessage T f = .ok (.aeaEnvelope b r) := by simp [Acn.decodeAcnMessage, hf]
    unfold handled Lite.handle
    simp only [Pipe.read, hd', he]
    obtain ⟨m, hm'⟩ : ∃ m, AcnMessage.encode (some (.status (some ⟨0, []⟩))) = some m := ⟨_, rfl⟩
    cases (y && s1.isOpen) <;>
      simp [Acn.sendSuccess, Acn.sendMessage, hm', StatusCode.toInt, Pipe.write]
  have hstep : s1.step T rest (.listen i y) =
      (s1.take k (.listener l.born) f).setPhase i (.pushing q e) := by
    have hcl : s1.closing = true := by rw [key]
    have hco : s1.conn ≠ none := by rw [key]; simp [hk]
    have hou : s1.out = some q := by rw [key]; exact hq
    have had : e.to = s1.address := by rw [key]; exact ht
    have hr : ({ c with decrypted := 1, closed := true } : Conn).read = .frame f := by simp [Conn.read, hi]
    simp only [step, hd1, if_true, stepAlive, hl1, goListener, hp, hc1, hr, hh, if_neg hco, hcl, hou, had]
    simp
  rw [hstep]
  have hdead : ((s1.take k (.listener l.born) f).setPhase i (.pushing q e)).dead = none := hd1
  have hlist : ((s1.take k (.listener l.born) f).setPhase i (.pushing q e)).listeners[i]? =
      some { l with phase := .pushing q e } := by
    simp [setPhase, AgentLife.take, hl1]
  have houts : ((s1.take k (.listener l.born) f).setPhase i (.pushing q e)).outs[q]? =
      some { a with closed := true } := by
    show s1.outs[q]? = _
    rw [key]
    simp [hql]
  generalize (s1.take k (.listener l.born) f).setPhase i (.pushing q e) = s2 at *
  simp [step, hdead, stepAlive, hlist, goListener, houts]

/-- An envelope for the agent in the frame in which it comes. -/
def Life.exEnvelope : Envelope := ⟨b! "ag", b! "you", b! "p", b! "hi", []⟩

/-- Concrete case: a started agent reads an envelope for it. If the peer can be told, the envelope is handed on,
otherwise the goroutine ends. -/
example :
    let T : AcnTexts := ⟨fun _ => [], fun _ => []⟩
    let rest : Bytes → Envelope := fun _ => Lite.emptyEnvelope
    let f := ((exEnvelope.encode.bind fun b => AcnMessage.encode (some (.aeaEnvelope b none)))).getD []
    let s := (AgentLife.init (b! "ag")).run T rest [.start (some fun f => f == [7]), .arrive 0 [7], .go true, .go true,
      .arrive 0 exAnswer, .go true, .arrive 0 f, .listen 0 true]
    (s.step T rest (.listen 0 true)).listeners.map (·.phase) = [.pushing 0 exEnvelope] ∧
    (s.step T rest (.listen 0 false)).listeners.map (·.phase) = [.failing] := by
  decide +kernel

/-- Concrete case: the agent is stopped while an envelope for it is decrypted and not read. `Stop` succeeds, the process
ends afterwards; an envelope that was not decrypted is not read. -/
example :
    let T : AcnTexts := ⟨fun _ => [], fun _ => []⟩
    let rest : Bytes → Envelope := fun _ => Lite.emptyEnvelope
    let f := ((exEnvelope.encode.bind fun b => AcnMessage.encode (some (.aeaEnvelope b none)))).getD []
    let s := fun n => (AgentLife.init (b! "ag")).run T rest [.start (some fun f => f == [7]), .arrive 0 [7], .go true,
      .go true, .arrive 0 exAnswer, .go true, .arrive 0 f, .listen 0 true, .decrypt 0 n, .stop, .go true, .go true,
      .go true]
    (s 1).results = [.started, .stopped] ∧ ((s 1).run T rest [.listen 0 true, .listen 0 true]).dead = some .panic ∧
    ((s 0).run T rest [.listen 0 true, .listen 0 true, .listen 0 true]).dead = none := by
  decide +kernel

/-- Concrete case: a status with code 0 is success, one with code 1 is not. -/
example : IsSuccess exAnswer ∧
    ¬ IsSuccess ((AcnMessage.encode (some (.status (some ⟨1, []⟩)))).getD []) := by
  rw [← registered_ok, ← registered_ok]
  exact ⟨registered_exAnswer, by decide +kernel⟩

end Verif
