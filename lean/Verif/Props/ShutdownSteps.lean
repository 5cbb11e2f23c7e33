import Verif.Props.Shutdown

/-!
# C68: which steps crash a peer that is being closed, and the slow queue
-/

namespace Verif

open Shutdown

/-- The three channels that are closed: closing one again, or sending to it. -/
inductive CrashingStep (g : Shutdown) : ShutdownStep → Prop where
  | closeAgain (k : Nat) : g.closers[k]? = some .start → g.closing = true → CrashingStep g (.closer k)
  | queuesAgain (k : Nat) (p : Bytes) : g.closers[k]? = some .disconnected → g.syncMessages.get p = some true →
      CrashingStep g (.closer k)
  | slowAgain (k : Nat) : g.closers[k]? = some .chansClosed → g.slowClosed = true → CrashingStep g (.closer k)
  | put (h : Nat) (c : ConnHandler) (p : Bytes) : g.handlers[h]? = some c → c.pc = .found p →
      g.syncMessages.get p = some true → CrashingStep g (.put h)
  | send (r : Nat) : g.routers[r]? = some .sending → g.slowClosed = true → CrashingStep g (.send r)

/-- **C68.** Exactly these steps crash the peer. -/
theorem C68_crash_iff (g : Shutdown) (s : ShutdownStep) (hc : g.crashed = false) :
    (g.step s).crashed = true ↔ CrashingStep g s := by
  have hany : g.syncMessages.keys.any (fun p => g.syncMessages.get p == some true) = true ↔
      ∃ p, g.syncMessages.get p = some true := by
    simp only [List.any_eq_true, beq_iff_eq]
    constructor
    · rintro ⟨p, _, h⟩; exact ⟨p, h⟩
    · rintro ⟨p, h⟩; exact ⟨p, (GoMap.mem_keys_iff _ _).2 ⟨_, h⟩, h⟩
  unfold Shutdown.step
  rw [if_neg (by simp [hc])]
  cases s with
  | accept a =>
    dsimp only
    refine ⟨fun h => ?_, fun h => by cases h⟩
    split at h <;> simp_all
  | register h =>
    dsimp only
    refine ⟨fun h => ?_, fun h => by cases h⟩
    split at h <;> simp_all [setHandler]
  | buffer h =>
    dsimp only
    refine ⟨fun h => ?_, fun h => by cases h⟩
    split at h <;> simp_all [setHandler]
  | drain h =>
    dsimp only
    refine ⟨fun h => ?_, fun h => by cases h⟩
    split at h <;> simp_all [setHandler]
  | recv h p =>
    dsimp only
    refine ⟨fun h => ?_, fun h => by cases h⟩
    (repeat' split at h) <;> simp_all [setHandler]
  | create h =>
    dsimp only
    refine ⟨fun h => ?_, fun h => by cases h⟩
    split at h <;> simp_all [setHandler]
  | hangUp h =>
    dsimp only
    refine ⟨fun h => ?_, fun h => by cases h⟩
    split at h <;> simp_all [setHandler]
  | route => exact ⟨fun h => by simp_all, fun h => by cases h⟩
  | takeSlow => exact ⟨fun h => by simp_all, fun h => by cases h⟩
  | close => exact ⟨fun h => by simp_all, fun h => by cases h⟩
  | lookupFailed r =>
    dsimp only
    refine ⟨fun h => ?_, fun h => by cases h⟩
    split at h <;> simp_all
  | put i =>
    dsimp only
    constructor
    · intro h
      split at h
      · rename_i a p o b hi
        split at h
        · rename_i hp
          exact .put i _ p hi rfl hp
        · simp_all [setHandler]
      · simp_all
    · intro h
      cases h with
      | put _ c p hi hpc hp =>
      obtain ⟨a, pc, o, b⟩ := c
      dsimp only at hpc
      subst hpc
      simp [hi, hp]
  | send r =>
    dsimp only
    constructor
    · intro h
      split at h
      · rename_i hr
        split at h
        · rename_i hs
          exact .send r hr hs
        · split at h <;> simp_all
      · simp_all
    · rintro ⟨⟩
      rename_i hr hs
      simp [hr, hs]
  | closer k =>
    dsimp only
    cases hk : g.closers[k]? with
    | none =>
      refine ⟨fun h => by simp_all, ?_⟩
      rintro ⟨⟩ <;> simp_all
    | some pc =>
      dsimp only
      cases pc with
      | start =>
        constructor
        · intro h
          unfold closerStep at h
          by_cases hcl : g.closing = true
          · exact .closeAgain k hk hcl
          · simp_all
        · rintro ⟨⟩ <;> simp_all [closerStep]
      | signalled =>
        refine ⟨fun h => by simp_all [closerStep], ?_⟩
        rintro ⟨⟩ <;> simp_all
      | flagged =>
        refine ⟨fun h => by simp_all [closerStep, disconnect], ?_⟩
        rintro ⟨⟩ <;> simp_all
      | disconnected =>
        constructor
        · intro h
          unfold closerStep at h
          dsimp only at h
          by_cases ha : g.syncMessages.keys.any (fun p => g.syncMessages.get p == some true) = true
          · obtain ⟨p, hp⟩ := hany.1 ha
            exact .queuesAgain k p hk hp
          · rw [if_neg ha] at h
            simp_all
        · intro h
          have : ∃ p, g.syncMessages.get p = some true := by
            cases h with
            | closeAgain _ h _ => rw [hk] at h; cases h
            | slowAgain _ h _ => rw [hk] at h; cases h
            | queuesAgain _ p _ hp => exact ⟨p, hp⟩
          unfold closerStep
          dsimp only
          rw [if_pos (hany.2 this)]
      | chansClosed =>
        constructor
        · intro h
          unfold closerStep at h
          by_cases hcl : g.slowClosed = true
          · exact .slowAgain k hk hcl
          · simp_all
        · rintro ⟨⟩ <;> simp_all [closerStep]
      | ended =>
        refine ⟨fun h => by simp_all [closerStep], ?_⟩
        rintro ⟨⟩ <;> simp_all

/-- **C68.** The slow queue never has more than 100 envelopes; a call of `RouteEnvelope` waits exactly while it is
full. -/
theorem C68_slow_bound (ss : List ShutdownStep) :
    (init.run ss).slow ≤ 100 ∧
    ∀ r, (init.run ss).crashed = false → (init.run ss).slowClosed = false →
      (init.run ss).routers[r]? = some .sending →
      (((init.run ss).step (.send r)).routers[r]? = some .done ↔ (init.run ss).slow ≠ 100) := by
  have hstep : ∀ (g : Shutdown) s, g.slow ≤ 100 → (g.step s).slow ≤ 100 := by
    intro g s hg
    have hcl : ∀ k pc, (g.closerStep k pc).slow = g.slow := by
      intro k pc
      cases pc <;> simp only [closerStep, disconnect] <;> (try split) <;> rfl
    unfold Shutdown.step
    split
    · exact hg
    · cases s <;> dsimp only <;> (repeat' split) <;>
        first
          | exact hg
          | omega
          | (simp only [slowQueueSize] at *; omega)
          | (rw [hcl]; exact hg)
          | skip
  have hb : (init.run ss).slow ≤ 100 := by
    have : ∀ (g : Shutdown), g.slow ≤ 100 → (g.run ss).slow ≤ 100 := by
      induction ss with
      | nil => exact fun g h => h
      | cons s ss ih => exact fun g h => ih _ (hstep g s h)
    exact this init (by decide)
  refine ⟨hb, ?_⟩
  generalize init.run ss = g at hb
  intro r hc hs hr
  have hlt : r < g.routers.length := by
    rcases Nat.lt_or_ge r g.routers.length with h | h
    · exact h
    · rw [List.getElem?_eq_none h] at hr; cases hr
  unfold Shutdown.step
  rw [if_neg (by simp [hc])]
  simp only [hr, hs, Bool.false_eq_true, if_false, slowQueueSize]
  by_cases h : g.slow < 100
  · rw [if_pos h]
    simp only [List.getElem?_set_self hlt, true_iff]
    omega
  · rw [if_neg h]
    simp only [hr, Option.some.injEq, reduceCtorEq, false_iff]
    omega

/-- **C68: the slow queue holds what was sent.** Every envelope in it was put there by a call of `RouteEnvelope` that
has ended. -/
theorem C68_slow_sent (ss : List ShutdownStep) :
    (init.run ss).slow ≤ (init.run ss).routers.count .done := by
  have hset : ∀ (l : List RouterPc) r x y, l[r]? = some x → x ≠ .done →
      (l.set r y).count .done = l.count .done + if y = .done then 1 else 0 := by
    intro l r x y hr hx
    obtain ⟨hlt, hr⟩ := List.getElem?_eq_some_iff.1 hr
    rw [List.count_set hlt, hr]
    simp [hx]
  have hstep : ∀ (g : Shutdown) s, g.slow ≤ g.routers.count .done → (g.step s).slow ≤ (g.step s).routers.count .done := by
    intro g s hg
    have hcl : ∀ k pc, (g.closerStep k pc).slow = g.slow ∧ (g.closerStep k pc).routers = g.routers := by
      intro k pc
      cases pc <;> unfold closerStep <;> dsimp only [disconnect] <;> (try split) <;> exact ⟨rfl, rfl⟩
    unfold Shutdown.step
    split
    · exact hg
    · cases s with
      | route => simpa using hg
      | lookupFailed r =>
        dsimp only
        split
        · next h => rw [hset _ _ _ _ h (by simp)]; exact Nat.le_trans hg (Nat.le_add_right _ _)
        · exact hg
      | send r =>
        dsimp only
        split
        · next h =>
          split
          · exact hg
          · split
            · rw [hset _ _ _ _ h (by simp)]; simpa using hg
            · exact hg
        · exact hg
      | takeSlow => exact Nat.le_trans (Nat.sub_le _ _) hg
      | closer k =>
        dsimp only
        split
        · rw [(hcl _ _).1, (hcl _ _).2]; exact hg
        · exact hg
      | _ => dsimp only <;> (repeat' split) <;> exact hg
  have : ∀ (g : Shutdown), g.slow ≤ g.routers.count .done → (g.run ss).slow ≤ (g.run ss).routers.count .done := by
    induction ss with
    | nil => exact fun g h => h
    | cons s ss ih => exact fun g h => ih _ (hstep g s h)
  exact this init (by decide)

/-- The first envelope that cannot be delivered at once. -/
example : (init.run [.route, .lookupFailed 0, .send 0]).slow = 1 ∧
    (init.run [.route, .lookupFailed 0, .send 0]).routers = [.done] := by decide

end Verif
