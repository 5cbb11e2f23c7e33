import Verif.Model.Shutdown

/-!
# C68: closing a peer does not crash it
-/

namespace Verif

/-- The handler will not use the queues any more: it has stopped, or waits on a connection that is closed and of which
nothing is left to read. -/
def ConnHandler.Idle (c : ConnHandler) : Prop :=
  c.pc = .stopped ∨ (c.pc = .reading ∧ c.isOpen = false ∧ c.buffered = false)

namespace Shutdown

/-- Nothing in the schedule disturbs the closing: `Close` is called once; when it closes the queues, no handler
will use them any more; when it closes the slow queue, nobody is about to send to it. -/
structure Undisturbed (g : Shutdown) (ss : List ShutdownStep) : Prop where
  once : g.closers.length + (ss.filter (· == .close)).length ≤ 1
  handlers : ∀ pre k post, ss = pre ++ .closer k :: post → (g.run pre).closers[k]? = some .disconnected →
    ∀ c ∈ (g.run pre).handlers, c.Idle
  routers : ∀ pre k post, ss = pre ++ .closer k :: post → (g.run pre).closers[k]? = some .chansClosed →
    RouterPc.sending ∉ (g.run pre).routers

/-- How far `Close` has come. -/
def CloserPc.rank : CloserPc → Nat
  | .start => 0
  | .signalled => 1
  | .flagged => 2
  | .disconnected => 3
  | .chansClosed => 4
  | .ended => 5

/-- The invariant; `n` is how far `Close` has come. -/
structure InvAt (g : Shutdown) (n : Nat) : Prop where
  alive : g.crashed = false
  closing : g.closing = true → 1 ≤ n
  flag : 2 ≤ n → g.isClosing = true
  listen : 3 ≤ n → g.listening = false
  open_ : n < 4 → ∀ p, g.syncMessages.get p ≠ some true
  idle : 4 ≤ n → ∀ c ∈ g.handlers, c.Idle
  slow : n < 5 → g.slowClosed = false
  quiet : 5 ≤ n → RouterPc.sending ∉ g.routers

/-- The invariant: there is at most one call of `Close`. -/
def Inv (g : Shutdown) : Prop :=
  (g.closers = [] ∧ g.InvAt 0) ∨ ∃ pc, g.closers = [pc] ∧ g.InvAt (CloserPc.rank pc)

theorem idle_set {g : Shutdown} {h : Nat} {c : ConnHandler} (hi : ∀ x ∈ g.handlers, x.Idle) (hc : c.Idle) :
    ∀ x ∈ (g.setHandler h c).handlers, x.Idle := by
  intro x hx
  rcases List.mem_or_eq_of_mem_set hx with hx | rfl
  · exact hi x hx
  · exact hc

/-- Steps other than those of `Close` keep the invariant. -/
theorem invAt_step {g : Shutdown} {n : Nat} (h : g.InvAt n) (s : ShutdownStep) (hs : s ≠ .close)
    (hs2 : ∀ k, s ≠ .closer k) : (g.step s).InvAt n ∧ (g.step s).closers = g.closers := by
  unfold step
  rw [if_neg (by rw [h.alive]; simp)]
  cases s with
  | close => exact absurd rfl hs
  | closer k => exact absurd rfl (hs2 k)
  | accept a =>
    dsimp only
    split
    · rename_i hl
      refine ⟨⟨h.alive, h.closing, h.flag, h.listen, h.open_, ?_, h.slow, h.quiet⟩, rfl⟩
      intro hn
      rw [h.listen (by omega)] at hl
      cases hl
    · exact ⟨h, rfl⟩
  | register i =>
    dsimp only
    split
    · rename_i a o b hg
      refine ⟨⟨h.alive, h.closing, h.flag, h.listen, h.open_, ?_, h.slow, h.quiet⟩, rfl⟩
      intro hn
      rcases h.idle hn _ (List.mem_of_getElem? hg) with hc | hc
      · cases hc
      · cases hc.1
    · exact ⟨h, rfl⟩
  | buffer i =>
    dsimp only
    split
    · rename_i a pc b hg
      refine ⟨⟨h.alive, h.closing, h.flag, h.listen, h.open_, ?_, h.slow, h.quiet⟩, rfl⟩
      intro hn
      refine idle_set (h.idle hn) ?_
      rcases h.idle hn _ (List.mem_of_getElem? hg) with hc | hc
      · exact .inl hc
      · cases hc.2.1
    · exact ⟨h, rfl⟩
  | drain i =>
    dsimp only
    split
    · rename_i a pc o b hg
      refine ⟨⟨h.alive, h.closing, h.flag, h.listen, h.open_, ?_, h.slow, h.quiet⟩, rfl⟩
      intro hn
      refine idle_set (h.idle hn) ?_
      rcases h.idle hn _ (List.mem_of_getElem? hg) with hc | hc
      · exact .inl hc
      · exact .inr ⟨hc.1, hc.2.1, rfl⟩
    · exact ⟨h, rfl⟩
  | recv i p =>
    dsimp only
    split
    · rename_i a o b hg
      split
      · rename_i hob
        refine ⟨⟨h.alive, h.closing, h.flag, h.listen, h.open_, ?_, h.slow, h.quiet⟩, rfl⟩
        intro hn
        rcases h.idle hn _ (List.mem_of_getElem? hg) with hc | hc
        · cases hc
        · obtain ⟨_, h1, h2⟩ := hc
          dsimp only at h1 h2
          subst h1 h2
          cases hob
      · exact ⟨h, rfl⟩
    · exact ⟨h, rfl⟩
  | create i =>
    dsimp only
    split
    · rename_i a p o b hg
      refine ⟨⟨h.alive, h.closing, h.flag, h.listen, ?_, ?_, h.slow, h.quiet⟩, rfl⟩
      · intro hn q
        dsimp only
        rw [GoMap.get_set]
        split
        · simp
        · exact h.open_ hn q
      · intro hn
        rcases h.idle hn _ (List.mem_of_getElem? hg) with hc | hc
        · cases hc
        · cases hc.1
    · exact ⟨h, rfl⟩
  | put i =>
    dsimp only
    split
    · rename_i a p o b hg
      have hn : n < 4 := by
        apply Nat.lt_of_not_le
        intro hn
        rcases h.idle hn _ (List.mem_of_getElem? hg) with hc | hc
        · cases hc
        · cases hc.1
      rw [if_neg (h.open_ hn p)]
      exact ⟨⟨h.alive, h.closing, h.flag, h.listen, h.open_, fun hn' => absurd hn' (by omega), h.slow,
        h.quiet⟩, rfl⟩
    · exact ⟨h, rfl⟩
  | hangUp i =>
    dsimp only
    split
    · exact ⟨⟨h.alive, h.closing, h.flag, h.listen, h.open_,
        fun hn => idle_set (h.idle hn) (.inl rfl), h.slow, h.quiet⟩, rfl⟩
    · exact ⟨h, rfl⟩
  | route =>
    refine ⟨⟨h.alive, h.closing, h.flag, h.listen, h.open_, h.idle, h.slow, ?_⟩, rfl⟩
    intro hn hm
    rcases List.mem_append.1 hm with hm | hm
    · exact h.quiet hn hm
    · simp at hm
  | lookupFailed r =>
    dsimp only
    split
    · refine ⟨⟨h.alive, h.closing, h.flag, h.listen, h.open_, h.idle, h.slow, ?_⟩, rfl⟩
      intro hn hm
      rcases List.mem_or_eq_of_mem_set hm with hm | hm
      · exact h.quiet hn hm
      · rw [h.flag (by omega)] at hm
        simp at hm
    · exact ⟨h, rfl⟩
  | send r =>
    dsimp only
    split
    · rename_i hg
      have hn : n < 5 := Nat.lt_of_not_le fun hn => h.quiet hn (List.mem_of_getElem? hg)
      rw [if_neg (by rw [h.slow hn]; simp)]
      split
      · refine ⟨⟨h.alive, h.closing, h.flag, h.listen, h.open_, h.idle, h.slow, ?_⟩, rfl⟩
        intro hn'
        omega
      · exact ⟨h, rfl⟩
    · exact ⟨h, rfl⟩
  | takeSlow => exact ⟨⟨h.alive, h.closing, h.flag, h.listen, h.open_, h.idle, h.slow, h.quiet⟩, rfl⟩

theorem run_cons (g : Shutdown) (s : ShutdownStep) (ss : List ShutdownStep) :
    g.run (s :: ss) = (g.step s).run ss := rfl

theorem inv_run {g : Shutdown} (h : g.Inv) {ss : List ShutdownStep} (hu : g.Undisturbed ss) :
    (g.run ss).crashed = false := by
  induction ss generalizing g with
  | nil =>
    rcases h with ⟨_, h⟩ | ⟨_, _, h⟩
    · exact h.alive
    · exact h.alive
  | cons s ss ih =>
    rw [run_cons]
    have hrest : (g.step s).closers.length + (ss.filter (· == .close)).length ≤ 1 →
        (g.step s).Undisturbed ss := by
      intro hl
      refine ⟨hl, ?_, ?_⟩
      · intro pre k post he
        exact hu.handlers (s :: pre) k post (by rw [he]; rfl)
      · intro pre k post he
        exact hu.routers (s :: pre) k post (by rw [he]; rfl)
    have honce := hu.once
    by_cases hs : s = .close
    · subst hs
      rw [List.filter_cons_of_pos (by simp)] at honce
      simp only [List.length_cons] at honce
      rcases h with ⟨h0, h⟩ | ⟨pc, h0, h⟩
      · have hst : g.step .close = { g with closers := [.start] } := by
          unfold step
          rw [if_neg (by rw [h.alive]; simp), h0]
          rfl
        refine ih ?_ (hrest ?_)
        · rw [hst]
          exact .inr ⟨.start, rfl, ⟨h.alive, h.closing, h.flag, h.listen, h.open_, h.idle, h.slow, h.quiet⟩⟩
        · rw [hst]
          simp only [List.length_singleton]
          omega
      · rw [h0] at honce
        simp only [List.length_singleton] at honce
        omega
    · rw [List.filter_cons_of_neg (by simpa using hs)] at honce
      by_cases hk : ∃ k, s = .closer k
      · obtain ⟨k, rfl⟩ := hk
        rcases h with ⟨h0, h⟩ | ⟨pc, h0, h⟩
        · have hst : g.step (.closer k) = g := by
            unfold step
            rw [if_neg (by rw [h.alive]; simp), h0]
            rfl
          rw [hst] at hrest ⊢
          exact ih (.inl ⟨h0, h⟩) (hrest honce)
        · cases hget : g.closers[k]? with
          | none =>
            have hst : g.step (.closer k) = g := by
              unfold step
              rw [if_neg (by rw [h.alive]; simp)]
              dsimp only
              rw [hget]
            rw [hst] at hrest ⊢
            exact ih (.inr ⟨pc, h0, h⟩) (hrest honce)
          | some pc' =>
            have hk0 : k = 0 ∧ pc' = pc := by
              rw [h0] at hget
              match k, hget with
              | 0, hget => exact ⟨rfl, by simpa using hget.symm⟩
            obtain ⟨rfl, rfl⟩ := hk0
            have hst : g.step (.closer 0) = g.closerStep 0 pc' := by
              unfold step
              rw [if_neg (by rw [h.alive]; simp)]
              dsimp only
              rw [hget]
            have hset : ∀ x : CloserPc, g.closers.set 0 x = [x] := by intro x; rw [h0]; rfl
            rw [hst] at hrest ⊢
            have hidle := hu.handlers [] 0 ss rfl
            have hquiet := hu.routers [] 0 ss rfl
            rw [show g.run [] = g from rfl, hget] at hidle hquiet
            rw [h0] at honce
            simp only [List.length_singleton] at honce
            have goal : ∀ (g' : Shutdown) (pc : CloserPc), g' = g.closerStep 0 pc' → g'.closers = [pc] →
                g'.InvAt (CloserPc.rank pc) → ((g.closerStep 0 pc').run ss).crashed = false := by
              intro g' pc he hc hi
              rw [← he] at hrest ⊢
              exact ih (.inr ⟨pc, hc, hi⟩) (hrest (by rw [hc]; simp only [List.length_singleton]; exact honce))
            cases pc' with
            | start =>
              have hcl : g.closing = false := by
                cases hcc : g.closing with
                | false => rfl
                | true => have := h.closing hcc; simp [CloserPc.rank] at this
              refine goal _ .signalled rfl ?_ ?_
              · simp [closerStep, hcl, hset]
              · simp only [closerStep, hcl, Bool.false_eq_true, if_false]
                exact ⟨h.alive, fun _ => Nat.le_refl _, fun hn => absurd hn (by decide),
                  fun hn => absurd hn (by decide), fun _ => h.open_ (by decide), fun hn => absurd hn (by decide),
                  fun _ => h.slow (by decide), fun hn => absurd hn (by decide)⟩
            | signalled =>
              refine goal _ .flagged rfl (by simp [closerStep, hset]) ?_
              exact ⟨h.alive, fun _ => by decide, fun _ => rfl, fun hn => absurd hn (by decide),
                fun _ => h.open_ (by decide), fun hn => absurd hn (by decide),
                fun _ => h.slow (by decide), fun hn => absurd hn (by decide)⟩
            | flagged =>
              refine goal _ .disconnected rfl (by simp [closerStep, hset]) ?_
              exact ⟨h.alive, fun _ => by decide, fun _ => h.flag (by decide), fun _ => rfl,
                fun _ => h.open_ (by decide), fun hn => absurd hn (by decide),
                fun _ => h.slow (by decide), fun hn => absurd hn (by decide)⟩
            | disconnected =>
              have hany : g.syncMessages.keys.any (fun p => g.syncMessages.get p == some true) = false := by
                rw [List.any_eq_false]
                intro p _ hp
                exact h.open_ (by decide) p (by simpa using hp)
              refine goal _ .chansClosed rfl ?_ ?_
              · simp [closerStep, hany, hset]
              · simp only [closerStep, hany, Bool.false_eq_true, if_false]
                exact ⟨h.alive, fun _ => by decide, fun _ => h.flag (by decide), fun _ => h.listen (by decide),
                  fun hn => absurd hn (by decide), fun _ => hidle rfl,
                  fun _ => h.slow (by decide), fun hn => absurd hn (by decide)⟩
            | chansClosed =>
              have hsl := h.slow (by decide)
              refine goal _ .ended rfl ?_ ?_
              · simp [closerStep, hsl, hset]
              · simp only [closerStep, hsl, Bool.false_eq_true, if_false]
                exact ⟨h.alive, fun _ => by decide, fun _ => h.flag (by decide), fun _ => h.listen (by decide),
                  fun hn => absurd hn (by decide), fun _ => h.idle (by decide),
                  fun hn => absurd hn (by decide), fun _ => hquiet rfl⟩
            | ended => exact goal g .ended rfl h0 h
      · obtain ⟨h1, h2⟩ : (g.step s).Inv ∧ (g.step s).closers = g.closers := by
          have hk : ∀ k, s ≠ .closer k := fun k he => hk ⟨k, he⟩
          rcases h with ⟨h0, h⟩ | ⟨pc, h0, h⟩
          · obtain ⟨a, b⟩ := invAt_step h s hs hk
            exact ⟨.inl ⟨by rw [b, h0], a⟩, b⟩
          · obtain ⟨a, b⟩ := invAt_step h s hs hk
            exact ⟨.inr ⟨pc, by rw [b, h0], a⟩, b⟩
        exact ih h1 (hrest (by rw [h2]; exact honce))

theorem inv_init : init.Inv :=
  .inl ⟨rfl, rfl, by simp [init], by omega, by omega, by intro _ p; simp [init], by omega, fun _ => rfl, by omega⟩

end Shutdown

open Shutdown

/-- **C68, partial.** A peer that is closed once does not crash, in any interleaving with connections and
envelopes on their way, if at the moment when the queues are closed no handler will use them any more, and at
the moment when the slow queue is closed nobody is about to send to it. Missing from the property: handlers
and calls of `RouteEnvelope` that are in the middle of something, and connections that are not in the table. -/
theorem C68_no_crash_partial (ss : List ShutdownStep) (h : init.Undisturbed ss) :
    (init.run ss).crashed = false := inv_run inv_init h

/-- **C68, partial.** When `Close` has closed the connections, a handler that reads on a connection in the
table, of which everything decrypted has been read, will not use the queues any more. -/
theorem C68_listed_partial (g : Shutdown) (k : Nat) (hc : g.crashed = false)
    (hk : g.closers[k]? = some .flagged) (i : Nat) (c : ConnHandler) (hi : g.handlers[i]? = some c)
    (hpc : (c.pc = .reading ∧ c.buffered = false) ∨ c.pc = .stopped) (hl : g.tcpAddresses.get c.addr = some i) :
    ∃ c', (g.step (.closer k)).handlers[i]? = some c' ∧ c'.Idle := by
  unfold step
  rw [if_neg (by rw [hc]; simp)]
  dsimp only
  rw [hk]
  simp only [closerStep, disconnect, List.getElem?_mapIdx, hi, Option.map_some]
  refine ⟨_, rfl, ?_⟩
  rw [if_pos]
  · rcases hpc with hpc | hpc
    · exact .inr ⟨hpc.1, rfl, hpc.2⟩
    · exact .inl hpc
  · rw [List.any_eq_true]
    exact ⟨c.addr, (GoMap.mem_keys_iff _ _).2 ⟨i, hl⟩, by simp [hl]⟩

/-- **C68 is false, in general: closing twice.** A second call of `Close` crashes the peer, whenever it is
made after the first has begun. -/
theorem C68_twice (g : Shutdown) (k : Nat) (hk : g.closers[k]? = some .start) (hc : g.closing = true) :
    (g.step (.closer k)).crashed = true := by
  unfold step
  split
  · assumption
  · dsimp only
    rw [hk]
    simp [closerStep, hc]

/-- **C68 is false, in general: connections.** After the queues are closed, a connection that is still open, or of which
something decrypted has not been read, crashes the peer with its next envelope for a pair that has been used. -/
theorem C68_open_connection (g : Shutdown) (i : Nat) (c : ConnHandler) (p : Bytes)
    (hi : g.handlers[i]? = some c) (hr : c.pc = .reading) (ho : c.isOpen = true ∨ c.buffered = true)
    (hp : g.syncMessages.get p = some true) : (g.run [.recv i p, .put i]).crashed = true := by
  obtain ⟨a, pc, o, b⟩ := c
  dsimp only at hr ho
  subst hr
  have hob : (o || b) = true := by simpa using ho
  cases hcr : g.crashed with
  | true => simp [run, step, hcr]
  | false =>
    have h1 : g.step (.recv i p) = g.setHandler i ⟨a, .found p, o, b⟩ := by
      simp only [step, hcr, hi, GoMap.has, hp, hob, if_true, Bool.false_eq_true, if_false, Option.isSome_some]
    have h2 : (g.handlers.set i ⟨a, .found p, o, b⟩)[i]? = some ⟨a, .found p, o, b⟩ := by
      rw [List.getElem?_set_self (List.getElem?_eq_some_iff.1 hi).1]
    have h3 : (g.setHandler i ⟨a, .found p, o, b⟩).step (.put i) =
        { g.setHandler i ⟨a, .found p, o, b⟩ with crashed := true } := by
      simp [step, setHandler, hcr, h2, hp]
    simp only [run, List.foldl_cons, List.foldl_nil, h1, h3]

/-- **C68 is false, in general: the slow queue.** A call of `RouteEnvelope` that has seen that the peer is not
closing, or waits since the slow queue is full, crashes the peer after `Close`. -/
theorem C68_slow_queue (g : Shutdown) (r : Nat) (hr : g.routers[r]? = some .sending)
    (hs : g.slowClosed = true) : (g.step (.send r)).crashed = true := by
  unfold step
  split
  · assumption
  · simp [hr, hs]

namespace ShutdownDemo

/-- One call of `Close` from beginning to end. -/
def closeAll (k : Nat) : List ShutdownStep := .close :: List.replicate 5 (.closer k)

/-- A client that has sent an envelope, then the peer is closed; the handler stops. -/
example :
    let g := init.run ([.accept [1], .register 0, .recv 0 [7], .create 0, .put 0, .route] ++ closeAll 0 ++
      [.recv 0 [7], .lookupFailed 0, .send 0, .hangUp 0])
    g.crashed = false ∧ g.closers = [.ended] ∧ g.handlers.map (·.pc) = [.stopped] ∧
      g.syncMessages.get [7] = some true ∧ g.routers = [.done] := by decide

end ShutdownDemo

open ShutdownDemo

/-- **C68 is false**: closing twice; a client that has connected twice (only its second connection is in the
table); a client with a message that is decrypted and not read; a handler in the middle of an envelope; a call of
`RouteEnvelope` in the middle. -/
theorem C68_counterexample :
    (init.run (closeAll 0 ++ closeAll 1)).crashed = true ∧
    (init.run ([.accept [1], .register 0, .recv 0 [7], .create 0, .put 0, .accept [1], .register 1] ++
      closeAll 0 ++ [.recv 0 [7], .put 0])).crashed = true ∧
    (init.run ([.accept [1], .register 0, .buffer 0, .recv 0 [7], .create 0, .put 0] ++ closeAll 0 ++
      [.recv 0 [7], .put 0])).crashed = true ∧
    (init.run ([.accept [1], .register 0, .recv 0 [7], .create 0] ++ closeAll 0 ++ [.put 0])).crashed = true ∧
    (init.run ([.route, .lookupFailed 0] ++ closeAll 0 ++ [.send 0])).crashed = true := by decide

end Verif
