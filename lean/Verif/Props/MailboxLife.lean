import Verif.Model.MailboxLife

/-!
# C80: the mailbox service starts and stops without crashing the peer

Wrong as stated; what holds is an exact condition on the schedule.
-/

namespace Verif

namespace MailLife

/-- How many critical sections are being executed. -/
def inside (g : MailLife) : Nat := g.callers.count .inside

/-- A step that does no harm: the mutex is replaced while nobody is in a critical section, listening
succeeds, and `stop` is called when there is a server. -/
def Harmless (g : MailLife) : MailLifeStep → Prop
  | .start listens => (g.pc = .tables → g.inside = 0) ∧ (g.pc = .server → listens = true)
  | .stop => g.http = true
  | _ => True

/-- Every step does no harm when it is taken. -/
def Calm : MailLife → List MailLifeStep → Prop
  | _, [] => True
  | g, s :: ss => g.Harmless s ∧ Calm (g.step s) ss

/-- Every critical section that was entered has been left, and `start` is not about to serve a listener that
does not exist. -/
def Settled (g : MailLife) : Prop := g.inside = 0 ∧ g.pc ≠ .unbound

theorem run_cons (g : MailLife) (s : MailLifeStep) (ss : List MailLifeStep) :
    g.run (s :: ss) = (g.step s).run ss := rfl

/-- The mutex is locked for those inside, and `k` more are inside. -/
def Excess (k : Nat) (g : MailLife) : Prop := g.inside = g.locked.toNat + k

theorem count_set {l : List MailCaller} {i : Nat} {x y : MailCaller} (h : l[i]? = some x) :
    (l.set i y).count .inside + (if x = .inside then 1 else 0) =
      l.count .inside + (if y = .inside then 1 else 0) := by
  induction l generalizing i with
  | nil => simp at h
  | cons a l ih =>
    cases i with
    | zero =>
      simp at h; subst h
      simp only [List.set_cons_zero, List.count_cons]
      cases a <;> cases y <;> simp
    | succ i =>
      simp at h
      have := ih h
      simp only [List.set_cons_succ, List.count_cons]
      omega

/-- Only the replacement of the mutex changes how many are inside without it. -/
theorem excess_step {k : Nat} {g : MailLife} (h : g.Excess k) (s : MailLifeStep)
    (hs : ∀ b, s = .start b → g.pc ≠ .tables) : (g.step s).crashed.isSome = true ∨ (g.step s).Excess k := by
  unfold Excess inside at h
  unfold step
  cases hc : g.crashed.isSome with
  | true => left; simp [hc]
  | false =>
    simp only [Bool.false_eq_true, if_false]
    cases s with
    | call => right; simp [Excess, inside, h]
    | lock i =>
      by_cases hi : g.callers[i]? = some .outside ∧ g.locked = false
      · right
        have := count_set (y := .inside) hi.1
        simp only [if_pos hi, Excess, inside]
        simp [hi.2] at this h ⊢
        omega
      · right; simp only [if_neg hi]; exact h
    | unlock i =>
      by_cases hi : g.callers[i]? = some .inside
      · simp only [if_pos hi]
        cases hl : g.locked with
        | true =>
          right
          have := count_set (y := .left) hi
          simp [Excess, inside, hl] at this h ⊢
          omega
        | false => left; simp
      · right; simp only [if_neg hi]; exact h
    | start b =>
      have := hs b rfl
      unfold startStep
      cases hp : g.pc <;> simp_all [Excess, inside]
    | stop =>
      cases hh : g.http <;> simp_all [Excess, inside]

/-- Once replaced, the mutex is never replaced again. -/
theorem past_step {g : MailLife} (h : g.pc ≠ .begin ∧ g.pc ≠ .tables) (s : MailLifeStep) :
    (g.step s).pc ≠ .begin ∧ (g.step s).pc ≠ .tables := by
  unfold step
  split
  · exact h
  · cases s with
    | call => exact h
    | lock i => dsimp only; split <;> exact h
    | unlock i =>
      dsimp only
      repeat' split
      all_goals exact h
    | start b =>
      unfold startStep
      cases hp : g.pc <;> simp_all <;> split <;> simp
    | stop =>
      dsimp only
      split
      · dsimp only; split
        · simp
        · exact h
      · exact h

theorem crashed_run {g : MailLife} (h : g.crashed.isSome = true) (ss : List MailLifeStep) : g.run ss = g := by
  induction ss with
  | nil => rfl
  | cons s ss ih =>
    have : g.step s = g := by simp [step, h]
    rw [run_cons, this, ih]

/-- If somebody was inside when the mutex was replaced, then a crash comes before all have left. -/
theorem excess_run {g : MailLife} (hp : g.pc ≠ .begin ∧ g.pc ≠ .tables) (he : g.Excess 1)
    (ss : List MailLifeStep) : (g.run ss).crashed.isSome = true ∨ (g.run ss).Excess 1 := by
  induction ss generalizing g with
  | nil => exact .inr he
  | cons s ss ih =>
    rw [run_cons]
    rcases excess_step he s (fun _ _ => hp.2) with h | h
    · rw [crashed_run h]; exact .inl h
    · exact ih (past_step hp s) h

/-- Without a listener `start` crashes or has not gone on. -/
theorem unbound_run {g : MailLife} (h : g.pc = .unbound) (ss : List MailLifeStep) :
    (g.run ss).crashed.isSome = true ∨ (g.run ss).pc = .unbound := by
  induction ss generalizing g with
  | nil => exact .inr h
  | cons s ss ih =>
    rw [run_cons]
    have : (g.step s).crashed.isSome = true ∨ (g.step s).pc = .unbound := by
      unfold step
      split
      · exact .inr h
      · cases s with
        | call => exact .inr h
        | lock i => dsimp only; split <;> exact .inr h
        | unlock i =>
          dsimp only
          split
          · split
            · exact .inr h
            · exact .inl rfl
          · exact .inr h
        | start b => unfold startStep; rw [h]; exact .inl rfl
        | stop =>
          dsimp only
          split
          · right; dsimp only; rw [h]; rfl
          · exact .inl rfl
    rcases this with h' | h'
    · rw [crashed_run h']; exact .inl h'
    · exact ih h'

/-- What holds as long as no harm is done. -/
structure Good (g : MailLife) : Prop where
  alive : g.crashed = none
  one : g.Excess 0
  bound : g.pc ≠ .unbound

theorem Good.init : MailLife.init.Good := ⟨rfl, rfl, by decide⟩

theorem Good.step {g : MailLife} (h : g.Good) {s : MailLifeStep} (hs : g.Harmless s) : (g.step s).Good := by
  obtain ⟨ha, ho, hb⟩ := h
  have hne : (g.step s).crashed = none ∧ (g.step s).pc ≠ .unbound := by
    unfold MailLife.step
    have hf : g.crashed.isSome = false := by rw [ha]; rfl
    rw [if_neg (by rw [hf]; decide)]
    cases s with
    | call => exact ⟨ha, hb⟩
    | lock i => dsimp only; split <;> exact ⟨ha, hb⟩
    | unlock i =>
      dsimp only
      split
      · next hi =>
        split
        · exact ⟨ha, hb⟩
        · next hl =>
          exfalso
          have hpos : 0 < g.callers.count .inside :=
            List.count_pos_iff.mpr (List.mem_of_getElem? hi)
          unfold Excess inside at ho
          simp [hl] at ho
          simp [ho] at hpos
      · exact ⟨ha, hb⟩
    | start b =>
      unfold startStep
      obtain ⟨-, h2⟩ := hs
      cases hp : g.pc <;> simp_all
      split <;> simp
    | stop =>
      have hh : g.http = true := hs
      simp only [hh, if_true, ha, true_and]
      split
      · simp
      · exact hb
  refine ⟨hne.1, ?_, hne.2⟩
  by_cases hr : ∃ b, s = .start b ∧ g.pc = .tables
  · obtain ⟨b, rfl, hp⟩ := hr
    have := hs.1 hp
    unfold MailLife.step startStep
    simp only [ha, Option.isSome_none, Bool.false_eq_true, if_false, hp]
    simp only [Excess, inside] at this ⊢
    simp [this]
  · rcases excess_step ho s (fun b hb' hp => hr ⟨b, hb', hp⟩) with h | h
    · rw [hne.1] at h; simp at h
    · exact h

theorem Good.run {g : MailLife} (h : g.Good) {ss : List MailLifeStep} (hc : g.Calm ss) : (g.run ss).Good := by
  induction ss generalizing g with
  | nil => exact h
  | cons s ss ih => exact ih (h.step hc.1) hc.2

/-- A step that does harm leads to a crash. -/
theorem Good.harm {g : MailLife} (h : g.Good) {s : MailLifeStep} (hs : ¬ g.Harmless s)
    (ss : List MailLifeStep) (hf : ((g.step s).run ss).Settled) :
    ((g.step s).run ss).crashed.isSome = true := by
  obtain ⟨ha, ho, hb⟩ := h
  cases s with
  | call => exact absurd trivial hs
  | lock i => exact absurd trivial hs
  | unlock i => exact absurd trivial hs
  | stop =>
    have hh : g.http = false := by
      cases hh : g.http
      · rfl
      · exact absurd hh hs
    have : (g.step .stop).crashed.isSome = true := by
      simp [MailLife.step, ha, hh]
    rw [crashed_run this]; exact this
  | start b =>
    by_cases hp : g.pc = .tables
    · have hin : g.inside ≠ 0 := by
        intro h0
        exact hs ⟨fun _ => h0, fun h => by rw [hp] at h; cases h⟩
      have hst : g.step (.start b) = { g with pc := .fresh, locked := false } := by
        unfold MailLife.step startStep
        simp only [ha, Option.isSome_none, Bool.false_eq_true, if_false, hp]
      rw [hst] at hf ⊢
      have hin1 : g.inside = 1 := by
        unfold Excess at ho
        cases hl : g.locked <;> simp_all
      rcases excess_run (g := { g with pc := .fresh, locked := false }) ⟨by simp, by simp⟩
          (by simpa [Excess, inside] using hin1) ss with h' | h'
      · exact h'
      · exfalso
        have := hf.1
        unfold Excess at h'
        omega
    · have hq : g.pc = .server ∧ b = false := by
        by_cases hq : g.pc = .server
        · refine ⟨hq, ?_⟩
          cases b with
          | false => rfl
          | true => exact absurd ⟨fun h => absurd h hp, fun _ => rfl⟩ hs
        · exact absurd ⟨fun h => absurd h hp, fun h => absurd h hq⟩ hs
      have hst : (g.step (.start b)).pc = .unbound := by
        unfold MailLife.step startStep
        simp only [ha, Option.isSome_none, Bool.false_eq_true, if_false, hq.1, hq.2]
      rcases unbound_run hst ss with h' | h'
      · exact h'
      · exact absurd h' hf.2

theorem calm_iff {g : MailLife} (h : g.Good) (ss : List MailLifeStep) (hf : (g.run ss).Settled) :
    (g.run ss).crashed = none ↔ g.Calm ss := by
  induction ss generalizing g with
  | nil => exact ⟨fun _ => trivial, fun _ => h.alive⟩
  | cons s ss ih =>
    rw [run_cons] at hf ⊢
    by_cases hs : g.Harmless s
    · rw [ih (h.step hs) hf]
      exact ⟨fun hc => ⟨hs, hc⟩, fun hc => hc.2⟩
    · have := h.harm hs ss hf
      constructor
      · intro hn; rw [hn] at this; simp at this
      · intro hc; exact absurd hc.1 hs

end MailLife

open MailLife

/-- No crash, and never two in a critical section, in a schedule in which the mutex is replaced while nobody
is in a critical section, listening succeeds and `stop` is called when there is a server. Missing: the
program enforces none of the three. -/
theorem C80_no_crash_partial (ss : List MailLifeStep) (h : init.Calm ss) :
    (init.run ss).crashed = none ∧ (init.run ss).inside ≤ 1 := by
  have hg := Good.init.run h
  refine ⟨hg.alive, ?_⟩
  have := hg.one
  unfold Excess at this
  cases hl : (init.run ss).locked <;> simp_all

/-- And these are the only schedules without a crash, among those in which all have left their critical
section and `start` does not stand before serving a listener that does not exist. -/
theorem C80_crash_iff_partial (ss : List MailLifeStep) (hf : (init.run ss).Settled) :
    (init.run ss).crashed = none ↔ init.Calm ss := calm_iff Good.init ss hf

/-- An address that cannot be listened on ends the whole peer, at whatever time `start` goes on. -/
theorem C80_listen_failed (g : MailLife) (ha : g.crashed = none) (hp : g.pc = .server)
    (ss : List MailLifeStep) (b : Bool) :
    (((g.step (.start false)).run ss).step (.start b)).crashed.isSome = true := by
  have hst : (g.step (.start false)).pc = .unbound := by
    unfold step startStep
    simp only [ha, Option.isSome_none, Bool.false_eq_true, if_false, hp]
  have key : ∀ (t : MailLife), t.crashed.isSome = true ∨ t.pc = .unbound →
      (t.step (.start b)).crashed.isSome = true := by
    intro t ht
    unfold step startStep
    split
    · assumption
    · rcases ht with ht | ht
      · contradiction
      · rw [ht]; rfl
  exact key _ (unbound_run hst ss)

/-- The service that was started before everything else serves until it is stopped. -/
theorem C80_serves (ss : List MailLifeStep) (hs : MailLifeStep.stop ∉ ss) :
    ((init.run (List.replicate 5 (.start true))).run ss).pc = .serving ∧
    ((init.run (List.replicate 5 (.start true))).run ss).crashed = none := by
  have key : ∀ (ss : List MailLifeStep) (g : MailLife), MailLifeStep.stop ∉ ss → g.Good → g.pc = .serving →
      (g.run ss).pc = .serving ∧ (g.run ss).crashed = none := by
    intro ss
    induction ss with
    | nil => exact fun g _ hg hp => ⟨hp, hg.alive⟩
    | cons s ss ih =>
      intro g hn hg hp
      have hs : g.Harmless s := by
        cases s with
        | stop => simp at hn
        | start b => exact ⟨fun h => by simp [hp] at h, fun h => by simp [hp] at h⟩
        | _ => trivial
      have hp' : (g.step s).pc = .serving := by
        unfold step
        simp only [hg.alive, Option.isSome_none, Bool.false_eq_true, if_false]
        cases s with
        | stop => simp at hn
        | start b => unfold startStep; rw [hp]; exact hp
        | call => exact hp
        | lock i => dsimp only; split <;> exact hp
        | unlock i =>
          dsimp only
          repeat' split
          all_goals exact hp
      exact ih _ (fun h => hn (List.mem_cons_of_mem _ h)) (hg.step hs) hp'
  refine key ss _ hs ?_ (by decide)
  exact Good.init.run (by simp [Calm, Harmless, step, startStep, init, inside, List.replicate])

/-- A look-up that runs while the service starts ends the process. -/
theorem C80_lookup_counterexample :
    (init.run [.call, .start true, .lock 0, .start true, .unlock 0]).crashed = some .unlock := by decide

/-- Meanwhile, two can be in their critical sections. -/
theorem C80_exclusion_counterexample :
    (init.run [.call, .call, .start true, .lock 0, .start true, .lock 1]).inside = 2 := by decide

/-- An address in use ends the process. -/
theorem C80_listen_counterexample :
    (init.run [.start true, .start true, .start true, .start false, .start true]).crashed = some .listener := by
  decide

/-- Closing the peer right after its start ends the process. -/
theorem C80_stop_counterexample : (init.run [.start true, .stop]).crashed = some .shutdown := by decide

namespace MailLife

/-- How many parts of `start` a schedule has. -/
def starts (ss : List MailLifeStep) : Nat :=
  ss.countP fun
    | .start _ => true
    | _ => false

/-- Where `start` is after `n` parts of it. -/
def At (g : MailLife) (n : Nat) : Prop :=
  (g.pc = .begin ∧ n = 0 ∧ g.http = false) ∨ (g.pc = .tables ∧ n = 1 ∧ g.http = false) ∨
  (g.pc = .fresh ∧ n = 2 ∧ g.http = false) ∨
  (g.pc ≠ .begin ∧ g.pc ≠ .tables ∧ g.pc ≠ .fresh ∧ 3 ≤ n ∧ g.http = true)

theorem At.step {g : MailLife} {n : Nat} (h : g.At n) (s : MailLifeStep) (ha : (g.step s).crashed = none) :
    (g.step s).At (n + starts [s]) := by
  unfold MailLife.step at *
  split
  · rename_i hc; rw [if_pos hc] at ha; rw [ha] at hc; simp at hc
  · rename_i hc
    rw [if_neg hc] at ha
    cases s with
    | call => exact h
    | lock i => dsimp only at *; split <;> exact h
    | unlock i =>
      dsimp only at *
      split
      · split <;> exact h
      · exact h
    | start b =>
      obtain ⟨pc, lk, ht, sh, cs, cr⟩ := g
      unfold At startStep starts at *
      cases pc <;> cases b <;> cases sh <;> simp_all <;> omega
    | stop =>
      obtain ⟨pc, lk, ht, sh, cs, cr⟩ := g
      unfold At starts at *
      cases pc <;> cases ht <;> simp_all

theorem At.run {ss : List MailLifeStep} {g : MailLife} {n : Nat} (h : g.At n)
    (ha : (g.run ss).crashed = none) : (g.run ss).At (n + starts ss) := by
  induction ss generalizing g n with
  | nil => exact h
  | cons s ss ih =>
    have hs : (g.step s).crashed = none := by
      cases hc : (g.step s).crashed with
      | none => rfl
      | some c =>
        have : ∀ (l : List MailLifeStep) (t : MailLife), t.crashed = some c → (t.run l).crashed = some c := by
          intro l
          induction l with
          | nil => exact fun t h => h
          | cons x l ih' => exact fun t h => ih' _ (by simp [MailLife.step, h])
        rw [show g.run (s :: ss) = (g.step s).run ss from rfl, this ss _ hc] at ha
        cases ha
    have := ih (h.step s hs) ha
    rw [show g.run (s :: ss) = (g.step s).run ss from rfl]
    have he : n + starts (s :: ss) = n + starts [s] + starts ss := by
      simp [starts, List.countP_cons]; omega
    rw [he]
    exact this

/-- **C80, stop.** At any time, `stop` ends the process exactly if `start` has not got as far as its third part, in which
the server is set; and whatever happens afterwards, nothing is served any more. -/
theorem _root_.Verif.C80_stop (ss : List MailLifeStep) (ha : (init.run ss).crashed = none) :
    ((init.run ss).step .stop).crashed = (if 3 ≤ starts ss then none else some .shutdown) ∧
    ∀ ss', (((init.run ss).step .stop).run ss').pc ≠ .serving := by
  have hat : (init.run ss).At (starts ss) := by
    have := At.run (ss := ss) (g := init) (n := 0) (.inl ⟨rfl, rfl, rfl⟩) ha
    rwa [Nat.zero_add] at this
  generalize init.run ss = g at *
  have hhttp : g.http = true ↔ 3 ≤ starts ss := by
    rcases hat with ⟨-, h, h'⟩ | ⟨-, h, h'⟩ | ⟨-, h, h'⟩ | ⟨-, -, -, h, h'⟩ <;> rw [h'] <;> simp <;> omega
  have keep : ∀ (l : List MailLifeStep) (t : MailLife),
      (t.crashed.isSome = true ∨ t.shut = true) ∧ t.pc ≠ .serving → (t.run l).pc ≠ .serving := by
    intro l
    induction l with
    | nil => exact fun t h => h.2
    | cons x l ih =>
      intro t h
      refine ih (t.step x) ?_
      obtain ⟨pc, lk, ht, sh, cs, cr⟩ := t
      cases cr with
      | some c => simpa [step] using h
      | none =>
        have hsh : sh = true := by simpa using h.1
        subst hsh
        have hp : pc ≠ .serving := h.2
        cases x with
        | call => simpa [step] using hp
        | lock i => simp only [step, Option.isSome_none, Bool.false_eq_true, if_false]; split <;> simpa using hp
        | unlock i =>
          simp only [step, Option.isSome_none, Bool.false_eq_true, if_false]
          split
          · split <;> simpa using hp
          · simpa using hp
        | start b => cases pc <;> cases b <;> simp_all [step, startStep]
        | stop => cases pc <;> cases ht <;> simp_all [step]
  unfold step
  rw [if_neg (by simp [ha])]
  dsimp only
  by_cases hh : g.http = true
  · rw [if_pos hh, if_pos (hhttp.1 hh)]
    refine ⟨ha, fun ss' => keep ss' _ ⟨.inr rfl, ?_⟩⟩
    dsimp only
    split
    · simp
    · assumption
  · rw [if_neg hh, if_neg (fun h => hh (hhttp.2 h))]
    refine ⟨rfl, fun ss' => keep ss' _ ⟨.inl rfl, ?_⟩⟩
    dsimp only
    intro hp
    rcases hat with ⟨h, -, -⟩ | ⟨h, -, -⟩ | ⟨h, -, -⟩ | ⟨-, -, -, -, h⟩
    · rw [h] at hp; cases hp
    · rw [h] at hp; cases hp
    · rw [h] at hp; cases hp
    · exact hh h

end MailLife

/-- A calm schedule: start, a look-up, stop. -/
example : init.Calm [.start true, .start true, .call, .start true, .lock 0, .start true, .start true, .unlock 0,
    .stop] ∧
    (init.run [.start true, .start true, .call, .start true, .lock 0, .start true, .start true, .unlock 0,
      .stop]).pc = .ended := by
  refine ⟨?_, by decide⟩
  simp [Calm, Harmless, step, startStep, init, inside]

end Verif
