import Verif.Model.ClientTime
import Verif.Props.SlowQueue
import Verif.Props.DhtClient

/-!
# C101: one envelope does not keep the others of an agent waiting in client mode
-/

namespace Verif

open Acn

/-! ## The retry loops -/

/-- The time that the first `k` attempts take. -/
def tookBefore {α : Type} (tries : Nat → TimedTry α) (k : Nat) : Nat :=
  ((List.range k).map fun j => (tries j).took).sum

theorem tookBefore_succ {α : Type} (tries : Nat → TimedTry α) (k : Nat) :
    tookBefore tries (k + 1) = tookBefore tries k + (tries k).took := by
  unfold tookBefore
  rw [List.range_succ, List.map_append, List.sum_append]
  simp

/-- When attempt `k` has failed and the loop looks at the context: after `k + 1` attempts and `k` pauses of 100 ms,
200 ms, 400 ms and so on. -/
def retryTime {α : Type} (tries : Nat → TimedTry α) (k : Nat) : Nat :=
  tookBefore tries (k + 1) + 100 * (2 ^ k - 1)

theorem retryTime_succ {α : Type} (tries : Nat → TimedTry α) (k : Nat) :
    retryTime tries (k + 1) = retryTime tries k + 100 * 2 ^ k + (tries (k + 1)).took := by
  unfold retryTime
  rw [tookBefore_succ tries (k + 1), Nat.pow_succ]
  have := Nat.one_le_two_pow (n := k)
  omega

theorem retryTime_lt {α : Type} (tries : Nat → TimedTry α) (k : Nat) :
    retryTime tries k < retryTime tries (k + 1) := by
  rw [retryTime_succ]
  have := Nat.one_le_two_pow (n := k)
  omega

theorem timedRetry_iff {α : Type} (timeout : Nat) (tries : Nat → TimedTry α) (t : Nat) (a : α) :
    ∀ (f k : Nat), timeout < f + retryTime tries k →
      (timedRetry timeout tries f k (retryTime tries k) = some (t, a) ↔
        ∃ m, k < m ∧ (tries m).result = some a ∧ (∀ j, k < j → j < m → (tries j).result = none) ∧
          (∀ j, k ≤ j → j < m → retryTime tries j < timeout) ∧ t = retryTime tries m)
  | 0, k, hf => by
    rw [timedRetry]
    constructor
    · intro h; cases h
    · rintro ⟨m, h1, h2, h3, h4, h5⟩
      have := h4 k (Nat.le_refl _) h1
      omega
  | f + 1, k, hf => by
    rw [timedRetry]
    by_cases ht : timeout ≤ retryTime tries k
    · rw [if_pos ht]
      constructor
      · intro h; cases h
      · rintro ⟨m, h1, h2, h3, h4, h5⟩
        have := h4 k (Nat.le_refl _) h1
        omega
    · rw [if_neg ht]
      have hs : retryTime tries k + sleepTimeDefault * 2 ^ k + (tries (k + 1)).took = retryTime tries (k + 1) := by
        rw [retryTime_succ]; rfl
      rw [hs]
      cases hr : (tries (k + 1)).result with
      | some b =>
        simp only [Option.some.injEq, Prod.mk.injEq]
        constructor
        · rintro ⟨rfl, rfl⟩
          refine ⟨k + 1, by omega, hr, fun j h1 h2 => by omega, fun j h1 h2 => ?_, rfl⟩
          have : j = k := by omega
          subst this; omega
        · rintro ⟨m, h1, h2, h3, h4, h5⟩
          by_cases hm : m = k + 1
          · subst hm
            rw [hr] at h2
            cases h2
            exact ⟨h5.symm, rfl⟩
          · have := h3 (k + 1) (by omega) (by omega)
            rw [hr] at this
            cases this
      | none =>
        dsimp only
        have hlt := retryTime_lt tries k
        rw [timedRetry_iff timeout tries t a f (k + 1) (by omega)]
        constructor
        · rintro ⟨m, h1, h2, h3, h4, h5⟩
          refine ⟨m, by omega, h2, fun j g1 g2 => ?_, fun j g1 g2 => ?_, h5⟩
          · by_cases hj : j = k + 1
            · subst hj; exact hr
            · exact h3 j (by omega) g2
          · by_cases hj : j = k
            · subst hj; omega
            · exact h4 j (by omega) g2
        · rintro ⟨m, h1, h2, h3, h4, h5⟩
          have hm : k + 1 < m := by
            by_cases hm : m = k + 1
            · subst hm; rw [hr] at h2; cases h2
            · omega
          exact ⟨m, hm, h2, fun j g1 g2 => h3 j (by omega) g2, fun j g1 g2 => h4 j (by omega) g2, h5⟩

/-- **C101.** A retry loop returns exactly if some attempt succeeds and all looks at the context before it came in
time. It takes the attempts and the pauses. -/
theorem C101_loop_iff {α : Type} (timeout : Nat) (tries : Nat → TimedTry α) (t : Nat) (a : α) :
    timedLoop timeout tries = some (t, a) ↔
      ∃ k, (tries k).result = some a ∧ (∀ j < k, (tries j).result = none ∧ retryTime tries j < timeout) ∧
        t = retryTime tries k := by
  unfold timedLoop
  have h0 : retryTime tries 0 = (tries 0).took := by simp [retryTime, tookBefore]
  cases hr : (tries 0).result with
  | some b =>
    simp only [Option.some.injEq, Prod.mk.injEq]
    constructor
    · rintro ⟨rfl, rfl⟩
      exact ⟨0, hr, fun j h => by omega, h0.symm⟩
    · rintro ⟨k, h1, h2, h3⟩
      by_cases hk : k = 0
      · subst hk
        rw [hr] at h1
        cases h1
        exact ⟨by omega, rfl⟩
      · have := (h2 0 (by omega)).1
        rw [hr] at this
        cases this
  | none =>
    dsimp only
    rw [← h0, timedRetry_iff timeout tries t a (timeout + 1) 0 (by omega)]
    constructor
    · rintro ⟨m, h1, h2, h3, h4, h5⟩
      refine ⟨m, h2, fun j hj => ⟨?_, h4 j (by omega) hj⟩, h5⟩
      by_cases hj0 : j = 0
      · subst hj0; exact hr
      · exact h3 j (by omega) hj
    · rintro ⟨k, h1, h2, h3⟩
      have hk : 0 < k := by
        by_cases hk : k = 0
        · subst hk; rw [hr] at h1; cases h1
        · omega
      exact ⟨k, hk, h1, fun j _ hj => (h2 j hj).1, fun j _ hj => (h2 j hj).2, h3⟩

/-- **C101.** A retry loop never returns exactly if no attempt begun in time succeeds, whatever comes later. -/
theorem C101_loop_never_iff {α : Type} (timeout : Nat) (tries : Nat → TimedTry α) :
    timedLoop timeout tries = none ↔
      ∀ k, (∀ j < k, (tries j).result = none ∧ retryTime tries j < timeout) → (tries k).result = none := by
  constructor
  · intro h k hk
    cases hr : (tries k).result with
    | none => rfl
    | some a =>
      have := (C101_loop_iff timeout tries (retryTime tries k) a).2 ⟨k, hr, hk, rfl⟩
      rw [h] at this
      cases this
  · intro h
    cases hl : timedLoop timeout tries with
    | none => rfl
    | some x =>
      obtain ⟨k, h1, h2, _⟩ := (C101_loop_iff timeout tries x.1 x.2).1 hl
      rw [h k h2] at h1
      cases h1

/-- **C101, partial.** If a retry loop returns, it does so in about twice its time-out, and one attempt. Missing: that
it returns. -/
theorem C101_loop_partial {α : Type} (timeout d : Nat) (tries : Nat → TimedTry α) (t : Nat) (a : α)
    (hd : ∀ k, (tries k).took ≤ d) (h : timedLoop timeout tries = some (t, a)) : t ≤ 2 * timeout + 100 + d := by
  obtain ⟨k, _, h2, rfl⟩ := (C101_loop_iff timeout tries t a).1 h
  cases k with
  | zero =>
    have := hd 0
    simp [retryTime, tookBefore]
    omega
  | succ k =>
    rw [retryTime_succ]
    have h3 := (h2 k (by omega)).2
    have h4 : 100 * (2 ^ k - 1) ≤ retryTime tries k := by unfold retryTime; omega
    have := Nat.one_le_two_pow (n := k)
    have := hd (k + 1)
    omega

/-- Concrete case: a relay that is back at the third attempt, after 5.3 s. -/
example : timedLoop 300000 (fun k => ⟨if k < 2 then 2500 else 0, if k < 2 then none else some ()⟩) =
    some (5300, ()) := by decide +kernel

/-! ## The model without times -/

theorem retryRounds_clock {α : Type} (timeout : Nat) (tries : Nat → TimedTry α) :
    ∀ (f k now sleep : Nat),
      (retryRounds timeout sleep (retryClock timeout tries f k now)).2 =
        (timedRetry timeout tries f k now).map (·.2)
  | 0, _, _, _ => rfl
  | f + 1, k, now, sleep => by
    rw [retryClock, timedRetry]
    by_cases ht : timeout ≤ now
    · rw [if_pos ht, if_pos ht]; rfl
    · rw [if_neg ht, if_neg ht, retryRounds, if_neg ht]
      cases hr : (tries (k + 1)).result with
      | some a => rfl
      | none => exact retryRounds_clock timeout tries f (k + 1) _ _

theorem retryLoop_script (timeout : Nat) (s : StreamTimes) :
    (retryLoop timeout (s.script timeout).script).result = (timedLoop timeout s.tries).map (·.2) := by
  unfold retryLoop timedLoop StreamTimes.script
  dsimp only
  cases (s.tries 0).result with
  | some a => rfl
  | none => exact retryRounds_clock timeout s.tries _ _ _ _

/-- A computation that takes time does what the one without does. -/
def TimedM.Of {α : Type} (x : TimedM α) (m : ClientM α) : Prop := ∀ t y, x = some (t, y) → y = m

theorem TimedM.Of.bind {α β : Type} {x : TimedM α} {m : ClientM α} {f : α → TimedM β} {g : α → ClientM β}
    (hx : x.Of m) (hf : ∀ a, m.2 = .ok a → (f a).Of (g a)) : (x.bind f).Of (m.bind g) := by
  intro t y h
  cases x with
  | none => cases h
  | some x =>
    obtain ⟨t1, acts, r⟩ := x
    have := hx t1 _ rfl
    subst this
    cases r with
    | error r => cases h; rfl
    | ok a =>
      simp only [TimedM.bind] at h
      cases hfa : f a with
      | none => rw [hfa] at h; cases h
      | some z =>
        obtain ⟨t2, m2⟩ := z
        rw [hfa] at h
        cases h
        have := hf a rfl t2 m2 hfa
        subst this
        rfl

theorem TimedM.of_after {α : Type} (d : Option Nat) (m : ClientM α) : (TimedM.after d m).Of m := by
  intro t y h
  cases d with
  | none => cases h
  | some d => cases h; rfl

theorem ClientM.pure_bind {α β : Type} (a : α) (f : α → ClientM β) : (ClientM.pure a).bind f = f a := by
  simp only [ClientM.pure, ClientM.bind, List.nil_append]

theorem timedRegister_of (c : DhtClient) (s : StreamTimes) :
    (timedRegister c s).Of (registerAgentAddress c s.register) := by
  unfold timedRegister
  cases s.register <;> exact TimedM.of_after _ _

theorem timedNewStream_of (c : DhtClient) (timeout : Nat) (s : StreamTimes) :
    (timedNewStream c timeout s).Of (newStreamLoop c timeout (s.script timeout)) := by
  unfold timedNewStream newStreamLoop
  rw [retryLoop_script]
  cases timedLoop timeout s.tries with
  | none => intro t y h; cases h
  | some x =>
    obtain ⟨t, p⟩ := x
    cases p with
    | none => intro t y h; cases h; rfl
    | some p =>
      have hfirst : (s.script timeout).script.first = (s.tries 0).result := rfl
      have hreg : (s.script timeout).register = s.register := rfl
      rw [hfirst, hreg]
      dsimp only [Option.map_some]
      split
      · have := TimedM.Of.bind (x := some (t, ClientM.pure ())) (m := ClientM.pure ())
          (f := fun _ => (timedRegister c s).bind fun _ => some (0, .pure p))
          (g := fun _ => (registerAgentAddress c s.register).bind fun _ => .pure p)
          (fun t y h => by cases h; rfl)
          (fun _ _ => (timedRegister_of c s).bind fun _ _ t y h => by cases h; rfl)
        rw [ClientM.pure_bind] at this
        exact this
      · intro t y h; cases h; rfl

theorem clientLookup_on (c : DhtClient) (n : ClientNet) (target : Bytes) :
    clientLookup c n target =
      (newStreamLoop c newStreamTimeoutRelayPeer n.relayStream).bind (clientLookupOn c n target) := rfl

theorem timedClientLookup_of (c : DhtClient) (n : ClientTimes) (target : Bytes) :
    (timedClientLookup c n target).Of (clientLookup c n.net target) := by
  rw [clientLookup_on]
  exact (timedNewStream_of c _ n.relayStream).bind fun _ _ => TimedM.of_after _ _

theorem timedClientSend_of (c : DhtClient) (n : ClientTimes) (e : Envelope) (peer : Bytes) :
    (timedClientSend c n e peer).Of (clientSend c n.net e peer) := by
  unfold timedClientSend clientSend
  show TimedM.Of _ (if (n.addrOk peer && n.connectOk peer) = true then _ else _)
  cases n.addrOk peer
  · intro t y h; cases h; rfl
  · cases n.connectOk peer
    · exact TimedM.of_after _ _
    · have := (TimedM.of_after (n.connecting peer) (ClientM.pure ())).bind
        (f := fun _ => (timedNewStream c newStreamTimeout (n.peerStream peer)).bind fun p =>
          .after (if e.encode.isSome then n.status peer else some 0) (clientTransmit c e peer p))
        (g := fun _ => (newStreamLoop c newStreamTimeout (n.net.peerStream peer)).bind (clientTransmit c e peer))
        (fun _ _ => (timedNewStream_of c _ (n.peerStream peer)).bind fun _ _ => TimedM.of_after _ _)
      rw [ClientM.pure_bind] at this
      exact this

theorem timedForward_of (c : DhtClient) (n : ClientTimes) (e : Envelope) :
    (timedForward c n e).Of (clientForward c n.net e) :=
  (timedClientLookup_of c n e.to).bind fun peer _ => timedClientSend_of c n e peer

/-- **C101.** A call that returns does and returns what the model without times says (C32, C46). -/
theorem C101_same (c : DhtClient) (n : ClientTimes) (e : Envelope) (t : Nat) (x : List ClientAct × RouteEnd)
    (h : timedClientRoute c n e = some (t, x)) : clientRoute c n.net e = x := by
  unfold timedClientRoute at h
  unfold clientRoute
  have hn : n.net.ready = n.ready := rfl
  have hok : n.net.agentOk = n.agentOk := rfl
  rw [hn, hok]
  split at h
  · next hs => rw [if_pos hs]; cases h; rfl
  · next hs =>
    rw [if_neg hs]
    split at h
    · next hto =>
      rw [if_pos hto]
      cases hr : n.ready with
      | none => rw [hr] at h; cases h; rfl
      | some answers =>
        rw [hr] at h
        dsimp only at h ⊢
        split at h
        · next hc =>
          rw [if_pos hc]
          split at h
          · next ha =>
            rw [if_pos ha]
            cases hd : n.agentTook with
            | none => rw [hd] at h; cases h
            | some d =>
              rw [hd] at h
              dsimp only at h
              split at h
              · next hk =>
                rw [if_pos hk]
                cases hf : timedForward c n e with
                | none => rw [hf] at h; cases h
                | some z =>
                  obtain ⟨t', m⟩ := z
                  rw [hf] at h
                  cases h
                  rw [timedForward_of c n e _ m hf]
              · next hk => rw [if_neg hk]; cases h; rfl
          · next ha => rw [if_neg ha]; cases h; rfl
        · cases h
    · next hto =>
      rw [if_neg hto]
      cases hf : timedForward c n e with
      | none => rw [hf] at h; cases h
      | some z =>
        obtain ⟨t', m⟩ := z
        rw [hf] at h
        cases h
        rw [timedForward_of c n e _ m hf]

/-! ## Bounds -/

/-- It returns, within the given time. -/
def TimedM.Within {α : Type} (x : TimedM α) (b : Nat) : Prop := ∃ t y, x = some (t, y) ∧ t ≤ b

theorem TimedM.Within.bind {α β : Type} {x : TimedM α} {f : α → TimedM β} {b b' : Nat}
    (hx : x.Within b) (hf : ∀ a, (f a).Within b') : (x.bind f).Within (b + b') := by
  obtain ⟨t, ⟨acts, r⟩, rfl, ht⟩ := hx
  cases r with
  | error r => exact ⟨t, _, rfl, by omega⟩
  | ok a =>
    obtain ⟨t', m, hfa, ht'⟩ := hf a
    simp only [TimedM.bind, hfa]
    exact ⟨t + t', _, rfl, by omega⟩

theorem TimedM.within_after {α : Type} {d : Option Nat} {b : Nat} (h : ∃ x, d = some x ∧ x ≤ b) (m : ClientM α) :
    (TimedM.after d m).Within b := by
  obtain ⟨x, rfl, hx⟩ := h
  exact ⟨x, m, rfl, hx⟩

theorem TimedM.Within.mono {α : Type} {x : TimedM α} {b b' : Nat} (h : x.Within b) (hb : b ≤ b') : x.Within b' := by
  obtain ⟨t, y, hx, ht⟩ := h
  exact ⟨t, y, hx, by omega⟩

/-- The other side takes at most `d` for everything, and the retry loop returns. -/
def StreamTimes.Prompt (s : StreamTimes) (timeout d : Nat) : Prop :=
  (∀ k, (s.tries k).took ≤ d) ∧ s.registerOpening ≤ d ∧ (∃ x, s.registering = some x ∧ x ≤ d) ∧
    timedLoop timeout s.tries ≠ none

theorem timedNewStream_within (c : DhtClient) {timeout d : Nat} {s : StreamTimes} (h : s.Prompt timeout d) :
    (timedNewStream c timeout s).Within (2 * timeout + 100 + 3 * d) := by
  obtain ⟨h1, h2, ⟨x, h3, h3'⟩, h4⟩ := h
  unfold timedNewStream
  cases hl : timedLoop timeout s.tries with
  | none => exact absurd hl h4
  | some y =>
    obtain ⟨t, p⟩ := y
    have ht := C101_loop_partial timeout d s.tries t p h1 hl
    cases p with
    | none => exact ⟨t, _, rfl, by omega⟩
    | some p =>
      dsimp only
      split
      · have hr : (timedRegister c s).Within (2 * d) := by
          unfold timedRegister
          cases s.register with
          | none => exact TimedM.within_after ⟨_, rfl, by omega⟩ _
          | some p => exact TimedM.within_after ⟨s.registerOpening + x, by rw [h3]; rfl, by omega⟩ _
        have h5 : TimedM.Within (some (0, ClientM.pure p)) 0 := ⟨0, _, rfl, Nat.le_refl _⟩
        have h6 : TimedM.Within (some (t, ClientM.pure ())) (2 * timeout + 100 + d) := ⟨t, _, rfl, ht⟩
        exact (h6.bind fun _ => hr.bind fun _ => h5).mono (by omega)
      · exact ⟨t, _, rfl, by omega⟩

/-- Everybody outside takes at most `d` for everything, and the relay and all peers can be reached before the
time-outs. -/
structure ClientTimes.Prompt (n : ClientTimes) (d : Nat) : Prop where
  relay : n.relayStream.Prompt newStreamTimeoutRelayPeer d
  peers : ∀ p, (n.peerStream p).Prompt newStreamTimeout d
  lookup : ∃ x, n.lookup = some x ∧ x ≤ d
  connecting : ∀ p, ∃ x, n.connecting p = some x ∧ x ≤ d
  status : ∀ p, ∃ x, n.status p = some x ∧ x ≤ d
  ready : ∃ answers, n.ready = some answers ∧ answers.contains true = true ∧ 100 * answers.idxOf true ≤ d
  agent : ∃ x, n.agentTook = some x ∧ x ≤ d

theorem timedForward_within (c : DhtClient) (n : ClientTimes) (e : Envelope) {d : Nat} (h : n.Prompt d) :
    (timedForward c n e).Within (720200 + 9 * d) := by
  have h1 : (timedClientLookup c n e.to).Within (600100 + 3 * d + d) :=
    (timedNewStream_within c h.relay).bind fun p => TimedM.within_after h.lookup _
  have h2 : ∀ peer, (timedClientSend c n e peer).Within (d + (120100 + 3 * d + d)) := by
    intro peer
    unfold timedClientSend
    split
    · split
      · refine (TimedM.within_after (h.connecting peer) _).bind fun _ =>
          (timedNewStream_within c (h.peers peer)).bind fun p => TimedM.within_after ?_ _
        split
        · exact h.status peer
        · exact ⟨0, rfl, by omega⟩
      · exact (TimedM.within_after (h.connecting peer) _).mono (by omega)
    · exact ⟨0, _, rfl, by omega⟩
  exact (h1.bind h2).mono (by omega)

/-- **C101, partial.** If all others answer in time `d` and can be reached before the time-outs, then a call returns,
within about 12 min. Missing from the property: nothing bounds the time otherwise. -/
theorem C101_route_partial (c : DhtClient) (n : ClientTimes) (e : Envelope) (d : Nat) (h : n.Prompt d) :
    ∃ t x, timedClientRoute c n e = some (t, x) ∧ t ≤ 720200 + 11 * d := by
  obtain ⟨t, m, hf, ht⟩ := timedForward_within c n e h
  obtain ⟨answers, hr, hc, hi⟩ := h.ready
  obtain ⟨x, hx, hxd⟩ := h.agent
  unfold timedClientRoute
  rw [hr, hx, hf]
  dsimp only
  rw [if_pos hc]
  by_cases h1 : e.sender ≠ c.myAgent
  · rw [if_pos h1]; exact ⟨0, _, rfl, by omega⟩
  · rw [if_neg h1]
    by_cases h2 : e.to = c.myAgent
    · rw [if_pos h2]
      split
      · split
        · exact ⟨_, _, rfl, by omega⟩
        · exact ⟨_, _, rfl, by omega⟩
      · exact ⟨_, _, rfl, by omega⟩
    · rw [if_neg h2]
      exact ⟨t, _, rfl, by omega⟩

/-- **C101.** If the first attempts succeed and all others answer in time `d`, a call for another agent returns in
time `5 * d`. -/
theorem C101_route_prompt (c : DhtClient) (n : ClientTimes) (e : Envelope) (d : Nat) (h : n.Prompt d)
    (hto : e.to ≠ c.myAgent) (hr : (n.relayStream.tries 0).result.isSome = true)
    (hp : ∀ p, ((n.peerStream p).tries 0).result.isSome = true) :
    ∃ t x, timedClientRoute c n e = some (t, x) ∧ t ≤ 5 * d := by
  have hs : ∀ (timeout : Nat) (s : StreamTimes), s.Prompt timeout d → (s.tries 0).result.isSome = true →
      (timedNewStream c timeout s).Within d := by
    intro timeout s hs h0
    obtain ⟨a, ha⟩ := Option.isSome_iff_exists.1 h0
    have hl : timedLoop timeout s.tries = some ((s.tries 0).took, a) := by
      unfold timedLoop
      rw [ha]
    unfold timedNewStream
    rw [hl, ha]
    have := hs.1 0
    cases a <;> exact ⟨_, _, rfl, this⟩
  have h1 : (timedClientLookup c n e.to).Within (d + d) :=
    (hs _ _ h.relay hr).bind fun p => TimedM.within_after h.lookup _
  have h2 : ∀ peer, (timedClientSend c n e peer).Within (d + (d + d)) := by
    intro peer
    unfold timedClientSend
    split
    · split
      · refine (TimedM.within_after (h.connecting peer) _).bind fun _ =>
          (hs _ _ (h.peers peer) (hp peer)).bind fun p => TimedM.within_after ?_ _
        split
        · exact h.status peer
        · exact ⟨0, rfl, by omega⟩
      · exact (TimedM.within_after (h.connecting peer) _).mono (by omega)
    · exact ⟨0, _, rfl, by omega⟩
  obtain ⟨t, m, hf, ht⟩ := h1.bind h2
  have hf : timedForward c n e = some (t, m) := hf
  unfold timedClientRoute
  by_cases h1 : e.sender ≠ c.myAgent
  · rw [if_pos h1]; exact ⟨0, _, rfl, by omega⟩
  · rw [if_neg h1, if_neg hto, hf]
    exact ⟨t, _, rfl, by omega⟩

/-- The client of C32 with times: the stream to the peer opens at the second attempt. -/
def c101Times : ClientTimes where
  por := c32Net.por
  idFrom := c32Net.idFrom
  ready := c32Net.ready
  agentOk := true
  agentTook := some 3
  relayStream := ⟨fun _ => ⟨20, c32Net.relayStream.script.first⟩, none, 0, some 0⟩
  lookup := some 40
  addrOk := fun _ => true
  connectOk := fun _ => true
  connecting := fun _ => some 500
  peerStream := fun _ => ⟨fun k => ⟨7000, if k = 0 then none else some (some
      ⟨[AcnMessage.encode (some (.status (some ⟨0, []⟩)))], [true], []⟩)⟩,
    some ⟨[AcnMessage.encode (some (.status (some ⟨0, []⟩)))], [true], []⟩, 10, some 30⟩
  status := fun _ => some 80

/-- 20 + 40 + 500, two attempts and a pause of 100, registering again in 40, and 80 for the status. -/
example : (timedClientRoute c32Client c101Times { c32Envelope with to := b! "you" }).map (fun x => (x.1, x.2.2)) =
    some (14780, .ok) := by decide +kernel

/-! ## The property is false -/

/-- **C101 is false: the relay.** If no attempt to open the stream to the relay that begins in time succeeds, a call
for another agent never returns, even if the relay is back later. -/
theorem C101_relay_counterexample (c : DhtClient) (n : ClientTimes) (e : Envelope)
    (hs : e.sender = c.myAgent) (hto : e.to ≠ c.myAgent)
    (h : ∀ k, (∀ j < k, (n.relayStream.tries j).result = none ∧ retryTime n.relayStream.tries j < 300000) →
      (n.relayStream.tries k).result = none) :
    timedClientRoute c n e = none := by
  have hl := (C101_loop_never_iff 300000 n.relayStream.tries).2 h
  have : timedForward c n e = none := by
    unfold timedForward timedClientLookup timedNewStream
    have hl' : timedLoop newStreamTimeoutRelayPeer n.relayStream.tries = none := hl
    rw [hl']
    rfl
  unfold timedClientRoute
  rw [if_neg (by simp [hs]), if_neg hto, this]
  rfl

/-- The relay is away for seven minutes. -/
example (p : Pipe) : timedLoop newStreamTimeoutRelayPeer
    (fun k => (⟨0, if k < 13 then none else some (some p)⟩ : TimedTry (Option Pipe))) = none := by
  rw [C101_loop_never_iff]
  intro k hk
  by_cases h : k < 13
  · simp [h]
  · have := (hk 12 (by omega)).2
    simp [retryTime, tookBefore, newStreamTimeoutRelayPeer, List.map_const'] at this

/-- **C101 is false: a peer.** A peer to which no stream can be opened for a minute, or that never sends a status,
makes the call never return. -/
theorem C101_peer_counterexample (c : DhtClient) (n : ClientTimes) (e : Envelope) (peer : Bytes)
    (hl : ∃ t acts, timedClientLookup c n e.to = some (t, acts, .ok peer)) (hs : e.sender = c.myAgent)
    (hto : e.to ≠ c.myAgent) (ha : n.addrOk peer = true) (hc : n.connectOk peer = true)
    (h : n.connecting peer = none ∨ timedLoop newStreamTimeout (n.peerStream peer).tries = none ∨
      (∃ t acts p, timedNewStream c newStreamTimeout (n.peerStream peer) = some (t, acts, .ok p)) ∧
        e.encode.isSome = true ∧ n.status peer = none) :
    timedClientRoute c n e = none := by
  obtain ⟨t, acts, hl⟩ := hl
  have hsend : timedClientSend c n e peer = none := by
    unfold timedClientSend
    rw [if_pos ha, if_pos hc]
    rcases h with h | h | ⟨⟨t', acts', p, h⟩, he, hst⟩
    · rw [h]; rfl
    · have : timedNewStream c newStreamTimeout (n.peerStream peer) = none := by
        unfold timedNewStream
        rw [h]
      rw [this]
      cases n.connecting peer <;> rfl
    · rw [h, if_pos he, hst]
      cases n.connecting peer <;> rfl
  have : timedForward c n e = none := by
    unfold timedForward
    rw [hl]
    simp only [TimedM.bind, hsend]
  unfold timedClientRoute
  rw [if_neg (by simp [hs]), if_neg hto, this]
  rfl

/-- **C101 is false: the others.** The loop of main routes one envelope after the other, so that after a call that
never returns no envelope of the agent is routed any more. -/
theorem C101_stuck_counterexample (c : DhtClient) (free : Nat) (call : Nat) (n : ClientTimes) (e : Envelope)
    (before after : List (Nat × ClientTimes × Envelope)) (h : timedClientRoute c n e = none) (i : Nat)
    (hi : before.length < i) (x : Option Nat)
    (hx : (mainStarts c free (before ++ (call, n, e) :: after))[i]? = some x) : x = none := by
  have key : ∀ (before : List (Nat × Option Nat)) (f : Option Nat) (i : Nat) (after : List (Nat × Option Nat)) x,
      before.length < i → (slowStarts f (before ++ (call, none) :: after))[i]? = some x → x = none := by
    intro before
    induction before with
    | nil =>
      intro f i after x hi hx
      obtain ⟨i, rfl⟩ := Nat.exists_eq_succ_of_ne_zero (by simpa using Nat.pos_iff_ne_zero.1 hi : i ≠ 0)
      cases f with
      | none =>
        exact slowStarts_none _ x (List.mem_of_getElem? hx)
      | some f =>
        rw [List.nil_append, slowStarts, List.getElem?_cons_succ] at hx
        exact slowStarts_none _ x (List.mem_of_getElem? hx)
    | cons b before ih =>
      intro f i after x hi hx
      obtain ⟨i, rfl⟩ := Nat.exists_eq_succ_of_ne_zero (by have := hi; simp at this; omega : i ≠ 0)
      have hi' : before.length < i := by simp at hi; omega
      cases f with
      | none => exact slowStarts_none _ x (List.mem_of_getElem? hx)
      | some f =>
        obtain ⟨b1, b2⟩ := b
        rw [List.cons_append, slowStarts, List.getElem?_cons_succ] at hx
        exact ih _ i after x hi' hx
  unfold mainStarts at hx
  rw [List.map_append, List.map_cons, h] at hx
  exact key _ _ i _ x (by simpa using hi) hx

/-- **C101.** An envelope is routed exactly if the calls for all envelopes before it return; if so, it starts after
they have taken their time, and at once then. -/
theorem C101_starts (c : DhtClient) (free call : Nat) (n : ClientTimes) (e : Envelope)
    (before after : List (Nat × ClientTimes × Envelope)) :
    ∃ start, (mainStarts c free (before ++ (call, n, e) :: after))[before.length]? = some start ∧
      (start = none ↔ ∃ b ∈ before, timedClientRoute c b.2.1 b.2.2 = none) ∧
      ∀ t, start = some t →
        let w := (before.map fun b => ((timedClientRoute c b.2.1 b.2.2).map (·.1)).getD 0).sum
        call ≤ t ∧ free + w ≤ t ∧ ((∀ b ∈ before, b.1 ≤ call) → t ≤ max free call + w) := by
  obtain ⟨start, h1, h2, h3⟩ := C99_slow_wait call ((timedClientRoute c n e).map (·.1))
    (before.map fun x => (x.1, (timedClientRoute c x.2.1 x.2.2).map (·.1)))
    (after.map fun x => (x.1, (timedClientRoute c x.2.1 x.2.2).map (·.1))) free
  have htot : ∀ l : List (Nat × ClientTimes × Envelope),
      (totalTime (l.map fun x => (x.1, (timedClientRoute c x.2.1 x.2.2).map (·.1))) = none ↔
        ∃ b ∈ l, timedClientRoute c b.2.1 b.2.2 = none) ∧
      ∀ w, totalTime (l.map fun x => (x.1, (timedClientRoute c x.2.1 x.2.2).map (·.1))) = some w →
        w = (l.map fun b => ((timedClientRoute c b.2.1 b.2.2).map (·.1)).getD 0).sum := by
    intro l
    induction l with
    | nil => exact ⟨by simp [totalTime], fun w h => by cases h; rfl⟩
    | cons b l ih =>
      rw [List.map_cons]
      cases hb : timedClientRoute c b.2.1 b.2.2 with
      | none => simp [totalTime, hb]
      | some z =>
        constructor
        · simp only [Option.map_some, totalTime, Option.map_eq_none_iff, List.mem_cons, exists_eq_or_imp, hb,
            reduceCtorEq, false_or]
          exact ih.1
        · intro w hw
          simp only [Option.map_some, totalTime, Option.map_eq_some_iff] at hw
          obtain ⟨w', hw', rfl⟩ := hw
          have := ih.2 w' hw'
          simp [hb, this]
  refine ⟨start, ?_, ?_, ?_⟩
  · unfold mainStarts
    rw [List.map_append, List.map_cons]
    rw [List.length_map] at h1
    exact h1
  · rw [h2]; exact (htot before).1
  · intro t ht
    obtain ⟨w, hw⟩ : ∃ w, totalTime (before.map fun x =>
        (x.1, (timedClientRoute c x.2.1 x.2.2).map (·.1))) = some w := by
      rw [← Option.isSome_iff_exists, Option.isSome_iff_ne_none]
      intro hn
      rw [← h2, ht] at hn
      cases hn
    obtain ⟨g1, g2, g3⟩ := h3 t w ht hw
    rw [(htot before).2 w hw] at g2 g3
    refine ⟨g1, g2, fun hb => g3 ?_⟩
    intro b hb'
    obtain ⟨x, hx, rfl⟩ := List.mem_map.1 hb'
    exact hb x hx

end Verif
