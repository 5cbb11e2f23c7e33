import Verif.Model.LookupTime

/-!
# C99: an unreachable address does not hold up envelopes to others

The property: a look-up, and a call of `RouteEnvelope` for an address that has to be looked up, end within a time
that depends only on the time-outs, and an envelope in the slow queue is tried, whatever the providers and the
peers of other addresses do. It is false: neither the opening of a stream to a provider nor the answers have a
time-out, and one loop tries all the slow envelopes one after the other.
-/

namespace Verif

/-! ## The timed look-up is the look-up -/

theorem lookupProviders_cons (por : PoRCheck) (idFrom : Bytes → Option Bytes) (address : Bytes) (err : Bool)
    (last : Bytes) (p : Provider) (rest : List Provider) :
    lookupProviders por idFrom address err last (p :: rest) =
      match lookupProviders por idFrom address err last [p] with
      | .done e => .done e
      | .exhausted err last => lookupProviders por idFrom address err last rest := by
  simp only [lookupProviders]
  repeat' split
  all_goals first | rfl | simp_all

theorem timedProviders_eq {por : PoRCheck} {idFrom : Bytes → Option Bytes} {address : Bytes} {t : Nat}
    {r : ProvidersEnd} :
    ∀ {ps : List TimedProvider} {now : Nat} {err : Bool} {last : Bytes},
      timedProviders por idFrom address now err last ps = some (t, r) →
        lookupProviders por idFrom address err last (ps.map (·.provider)) = r
  | [], now, err, last, h => by
    simp only [timedProviders, Option.some.injEq, Prod.mk.injEq] at h
    exact h.2
  | p :: ps, now, err, last, h => by
    rw [List.map_cons, lookupProviders_cons]
    unfold timedProviders at h
    split at h
    · cases h
    · split at h
      · next hs =>
        have := timedProviders_eq h
        simp only [lookupProviders, hs]
        exact this
      · split at h
        · cases h
        · split at h
          · next he =>
            simp only [Option.some.injEq, Prod.mk.injEq] at h
            rw [he]; exact h.2
          · next he =>
            rw [he]; exact timedProviders_eq h

theorem timedRounds_eq {por : PoRCheck} {idFrom : Bytes → Option Bytes} {address : Bytes} {deadline t : Nat}
    {r : LookupEnd} :
    ∀ {rs : List TimedRound} {now : Nat} {err : Bool} {last : Bytes},
      timedRounds por idFrom address deadline now err last rs = some (t, r) →
        ∃ rounds : List LookupRound,
          rounds.map (·.providers) = rs.map (fun r => r.providers.map (·.provider)) ∧
            lookupRounds por idFrom address err last rounds = r
  | [], now, err, last, h => by
    simp only [timedRounds, Option.some.injEq, Prod.mk.injEq] at h
    exact ⟨[], rfl, h.2⟩
  | r0 :: rs, now, err, last, h => by
    unfold timedRounds at h
    split at h
    · cases h
    · next e he =>
      simp only [Option.some.injEq, Prod.mk.injEq] at h
      refine ⟨⟨r0.providers.map (·.provider), false⟩ ::
        rs.map (fun r => ⟨r.providers.map (·.provider), false⟩), ?_, ?_⟩
      · simp
      · simp only [lookupRounds, timedProviders_eq he]; exact h.2
    · next t' err' last' he =>
      split at h
      · next hl =>
        split at h
        · simp only [Option.some.injEq, Prod.mk.injEq] at h
          refine ⟨⟨r0.providers.map (·.provider), true⟩ ::
            rs.map (fun r => ⟨r.providers.map (·.provider), false⟩), ?_, ?_⟩
          · simp
          · simp only [lookupRounds, timedProviders_eq he, hl, if_true]; exact h.2
        · obtain ⟨rounds, hm, hr⟩ := timedRounds_eq h
          refine ⟨⟨r0.providers.map (·.provider), false⟩ :: rounds, ?_, ?_⟩
          · simp [hm]
          · simp only [lookupRounds, timedProviders_eq he, hl, if_true]
            rw [hl] at hr
            simpa using hr
      · next hl =>
        simp only [Option.some.injEq, Prod.mk.injEq] at h
        refine ⟨⟨r0.providers.map (·.provider), false⟩ ::
          rs.map (fun r => ⟨r.providers.map (·.provider), false⟩), ?_, ?_⟩
        · simp
        · simp only [lookupRounds, timedProviders_eq he, if_neg hl]; exact h.2

/-- **C99.** The look-up with times is the look-up of C33, C57 and C58: when it ends, its result is the one of
`lookupAddressDHT` with the same providers. -/
theorem C99_same_result (por : PoRCheck) (idFrom : Bytes → Option Bytes) (cid : Bool) (address : Bytes)
    (start timeout t : Nat) (rs : List TimedRound) (r : LookupEnd)
    (h : timedLookup por idFrom cid address start timeout rs = some (t, r)) :
    ∃ rounds : List LookupRound,
      rounds.map (·.providers) = rs.map (fun r => r.providers.map (·.provider)) ∧
        lookupAddressDHT por idFrom cid address rounds = r := by
  unfold timedLookup at h
  split at h
  · next hc =>
    obtain ⟨rounds, hm, hr⟩ := timedRounds_eq h
    exact ⟨rounds, hm, by rw [lookupAddressDHT, if_pos hc]; exact hr⟩
  · next hc =>
    simp only [Option.some.injEq, Prod.mk.injEq] at h
    refine ⟨rs.map (fun r => ⟨r.providers.map (·.provider), false⟩), by simp, ?_⟩
    rw [lookupAddressDHT, if_neg hc]; exact h.2

/-! ## How long a look-up takes -/

/-- A provider that is found by `limit` and that takes at most `d` to open a stream and `d` to answer. -/
structure TimedProvider.Prompt (limit d : Nat) (p : TimedProvider) : Prop where
  arrives : p.arrives ≤ limit
  opening : ∃ x, p.opening = some x ∧ x ≤ d
  answer : ∃ x, p.answer = some x ∧ x ≤ d

theorem timedProviders_bound (por : PoRCheck) (idFrom : Bytes → Option Bytes) (address : Bytes) (limit d : Nat) :
    ∀ (ps : List TimedProvider) (now : Nat) (err : Bool) (last : Bytes), (∀ p ∈ ps, p.Prompt limit d) →
      ∃ t r, timedProviders por idFrom address now err last ps = some (t, r) ∧ now ≤ t ∧
        t ≤ max now limit + 2 * d * ps.length ∧
        (∀ err' last', r = .exhausted err' last' → (ps = [] ∧ t = now ∧ last' = last) ∨
          ∃ p ∈ ps, last' = p.provider.id)
  | [], now, err, last, _ =>
    ⟨now, _, rfl, Nat.le_refl _, by omega, by
      intro err' last' h; cases h; exact .inl ⟨rfl, rfl, rfl⟩⟩
  | p :: ps, now, err, last, h => by
    obtain ⟨ha, ⟨x, hx, hxd⟩, ⟨y, hy, hyd⟩⟩ := h p (List.mem_cons_self)
    have hrest : ∀ q ∈ ps, q.Prompt limit d := fun q hq => h q (List.mem_cons_of_mem _ hq)
    have hlen : 2 * d * (p :: ps).length = 2 * d * ps.length + 2 * d := by
      rw [List.length_cons, Nat.mul_succ]
    rw [hlen]
    unfold timedProviders
    rw [hx, hy]
    dsimp only
    cases hs : p.provider.stream with
    | none =>
      dsimp only
      obtain ⟨t, r, e1, e2, e3, e4⟩ := timedProviders_bound por idFrom address limit d ps
        (max now p.arrives + x) true p.provider.id hrest
      refine ⟨t, r, e1, by omega, by omega, ?_⟩
      intro err' last' hr
      rcases e4 err' last' hr with ⟨_, _, hl⟩ | ⟨q, hq, hl⟩
      · exact .inr ⟨p, List.mem_cons_self, hl⟩
      · exact .inr ⟨q, List.mem_cons_of_mem _ hq, hl⟩
    | some pipe =>
      dsimp only
      cases hr : lookupProviders por idFrom address err last [p.provider] with
      | done e =>
        refine ⟨_, _, rfl, by omega, by omega, ?_⟩
        intro _ _ h; cases h
      | exhausted err1 last1 =>
        dsimp only
        have hid : last1 = p.provider.id := by
          simp only [lookupProviders, hs] at hr
          repeat' split at hr
          all_goals first | (cases hr; rfl) | cases hr
        obtain ⟨t, r, e1, e2, e3, e4⟩ := timedProviders_bound por idFrom address limit d ps
          (max now p.arrives + x + y) err1 last1 hrest
        refine ⟨t, r, e1, by omega, by omega, ?_⟩
        intro err' last' hr
        rcases e4 err' last' hr with ⟨_, _, hl⟩ | ⟨q, hq, hl⟩
        · exact .inr ⟨p, List.mem_cons_self, by rw [hl, hid]⟩
        · exact .inr ⟨q, List.mem_cons_of_mem _ hq, hl⟩

/-- The network obeys the context: providers are delivered and the channel is closed by `deadline`; providers have
an identifier, there are at most `k` of them in a round, and each takes at most `d` to open a stream and `d` to
answer. -/
structure TimedRound.Prompt (deadline d k : Nat) (r : TimedRound) : Prop where
  closes : r.closes ≤ deadline
  few : r.providers.length ≤ k
  prompt : ∀ p ∈ r.providers, p.Prompt deadline d
  named : ∀ p ∈ r.providers, p.provider.id ≠ []

theorem lookupProviders_ends (por : PoRCheck) (idFrom : Bytes → Option Bytes) (address : Bytes) :
    ∀ (ps : List Provider) (err : Bool) (last : Bytes),
      lookupProviders por idFrom address err last ps ≠ .done .running
  | [], err, last, h => by cases h
  | p :: ps, err, last, h => by
    have ih := lookupProviders_ends por idFrom address ps
    unfold lookupProviders at h
    repeat' split at h
    all_goals first | exact ih _ _ h | cases h

theorem timedRounds_bound (por : PoRCheck) (idFrom : Bytes → Option Bytes) (address : Bytes)
    (deadline d k : Nat) :
    ∀ (rs : List TimedRound) (now : Nat) (err : Bool), (∀ r ∈ rs, r.Prompt deadline d k) →
      now < deadline + lookupPause → deadline + lookupPause ≤ now + lookupPause * rs.length →
      ∃ t r, timedRounds por idFrom address deadline now err [] rs = some (t, r) ∧ r ≠ .running ∧
        now ≤ t ∧ t < deadline + lookupPause + 2 * d * k + 1 ∧
        ((∀ r ∈ rs, r.providers = []) → r = .error ∧ deadline ≤ t ∧ t < deadline + lookupPause)
  | [], now, _, _, h, h' => by
    rw [List.length_nil] at h'; omega
  | r0 :: rs, now, err, h, hnow, hlen => by
    obtain ⟨hc, hf, hp, hn⟩ := h r0 List.mem_cons_self
    obtain ⟨t, r, e1, e2, e3, e4⟩ :=
      timedProviders_bound por idFrom address deadline d r0.providers now err [] hp
    have hk : 2 * d * r0.providers.length ≤ 2 * d * k := Nat.mul_le_mul_left _ hf
    have hpause : lookupPause = 200 := rfl
    unfold timedRounds
    rw [e1]
    cases r with
    | done e =>
      have hr := timedProviders_eq e1
      refine ⟨t, e, rfl, ?_, e2, by omega, ?_⟩
      · rintro rfl
        exact lookupProviders_ends por idFrom address _ _ _ hr
      · intro hall
        rw [hall r0 List.mem_cons_self] at hr
        cases hr
    | exhausted err' last' =>
      dsimp only
      rcases e4 err' last' rfl with ⟨hnil, ht, hl⟩ | ⟨p, hp', hl⟩
      · subst hl
        rw [if_pos rfl]
        by_cases hd : deadline ≤ max t r0.closes
        · rw [if_pos hd]
          exact ⟨_, _, rfl, by simp, by omega, by omega, fun _ => ⟨rfl, hd, by omega⟩⟩
        · rw [if_neg hd]
          simp only [List.length_cons, Nat.mul_succ] at hlen
          obtain ⟨t', r', f1, f2, f3, f4, f5⟩ := timedRounds_bound por idFrom address deadline d k rs
            (max t r0.closes + lookupPause) err'
            (fun r hr => h r (List.mem_cons_of_mem _ hr)) (by omega) (by omega)
          exact ⟨t', r', f1, f2, by omega, f4, fun hall => f5 fun r hr => hall r (List.mem_cons_of_mem _ hr)⟩
      · rw [if_neg (by rw [hl]; exact hn p hp')]
        refine ⟨_, _, rfl, by split <;> simp, by omega, by omega, ?_⟩
        intro hall
        rw [hall r0 List.mem_cons_self] at hp'
        cases hp'

/-- **C99, partial.** A look-up ends, with a result or an error, at most 200 ms after its time-out and the time
that its providers take. Missing from the property: it is assumed that each of the at most `k` providers opens a
stream and answers within `d`; nothing in the code makes them (`C99_silent_counterexample`). The list of rounds
only has to be long enough for the pauses to fill the time-out. -/
theorem C99_lookup_partial (por : PoRCheck) (idFrom : Bytes → Option Bytes) (cid : Bool) (address : Bytes)
    (start timeout d k : Nat) (rs : List TimedRound)
    (h : ∀ r ∈ rs, r.Prompt (start + min timeout 20000) d k) (hlen : timeout + 200 ≤ 200 * rs.length) :
    ∃ t r, timedLookup por idFrom cid address start timeout rs = some (t, r) ∧ r ≠ .running ∧ start ≤ t ∧
      t ≤ start + min timeout 20000 + 200 + 2 * d * k := by
  unfold timedLookup
  cases cid
  · exact ⟨start, .error, rfl, by simp, Nat.le_refl _, by omega⟩
  · obtain ⟨t, r, e1, e2, e3, e4, _⟩ := timedRounds_bound por idFrom address (start + min timeout 20000) d k rs
      start false h (by show _ < _ + 200; omega) (by show _ + 200 ≤ _ + 200 * _; omega)
    exact ⟨t, r, e1, e2, e3, by change t < _ + 200 + _ + 1 at e4; omega⟩

/-- **C99.** The look-up of an address that nobody provides takes the whole time-out. -/
theorem C99_absent (por : PoRCheck) (idFrom : Bytes → Option Bytes) (address : Bytes) (start timeout : Nat)
    (rs : List TimedRound) (hnone : ∀ r ∈ rs, r.providers = [])
    (hctx : ∀ r ∈ rs, r.closes ≤ start + min timeout 20000) (hlen : timeout + 200 ≤ 200 * rs.length) :
    ∃ t, timedLookup por idFrom true address start timeout rs = some (t, .error) ∧
      start + min timeout 20000 ≤ t ∧ t < start + min timeout 20000 + 200 := by
  have h : ∀ r ∈ rs, r.Prompt (start + min timeout 20000) 0 0 := fun r hr =>
    ⟨hctx r hr, by rw [hnone r hr]; exact Nat.le_refl _,
      (by rw [hnone r hr]; intro p hp; cases hp), (by rw [hnone r hr]; intro p hp; cases hp)⟩
  obtain ⟨t, r, e1, _, _, _, e5⟩ := timedRounds_bound por idFrom address (start + min timeout 20000) 0 0 rs
    start false h (by show _ < _ + 200; omega) (by show _ + 200 ≤ _ + 200 * _; omega)
  obtain ⟨rfl, e6, e7⟩ := e5 hnone
  exact ⟨t, e1, e6, e7⟩

/-- A provider that keeps the look-up waiting for ever: its stream never gets open nor fails, or it is open and the
answer never comes. -/
def TimedProvider.Silent (p : TimedProvider) : Prop :=
  p.opening = none ∨ (p.provider.stream ≠ none ∧ p.answer = none)

/-- **C99.** The loop over the providers of a round runs for ever exactly if it comes to a provider that never
answers: those before it answered and none of them ended the look-up. -/
theorem C99_never_iff (por : PoRCheck) (idFrom : Bytes → Option Bytes) (address : Bytes) :
    ∀ (ps : List TimedProvider) (now : Nat) (err : Bool) (last : Bytes),
      timedProviders por idFrom address now err last ps = none ↔
        ∃ pre p post, ps = pre ++ p :: post ∧ (∀ q ∈ pre, ¬ q.Silent) ∧ p.Silent ∧
          ∃ err' last', lookupProviders por idFrom address err last (pre.map (·.provider)) =
            .exhausted err' last'
  | [], now, err, last => by
    constructor
    · intro h; cases h
    · rintro ⟨pre, p, post, h, _⟩
      cases pre <;> cases h
  | p :: ps, now, err, last => by
    by_cases hp : p.Silent
    · constructor
      · intro _
        exact ⟨[], p, ps, rfl, by simp, hp, err, last, rfl⟩
      · intro _
        unfold timedProviders
        rcases hp with h | ⟨h1, h2⟩
        · rw [h]
        · rw [h2]
          cases p.opening with
          | none => rfl
          | some d =>
            cases hs : p.provider.stream with
            | none => exact absurd hs h1
            | some _ => rfl
    · obtain ⟨d, hd⟩ : ∃ d, p.opening = some d := by
        cases h : p.opening with
        | none => exact absurd (.inl h) hp
        | some d => exact ⟨d, rfl⟩
      have key : ∀ now' err1 last1,
          lookupProviders por idFrom address err last [p.provider] = .exhausted err1 last1 →
          timedProviders por idFrom address now err last (p :: ps) =
            timedProviders por idFrom address now' err1 last1 ps →
          (timedProviders por idFrom address now err last (p :: ps) = none ↔
            ∃ pre p' post, p :: ps = pre ++ p' :: post ∧ (∀ q ∈ pre, ¬ q.Silent) ∧ p'.Silent ∧
              ∃ err' last', lookupProviders por idFrom address err last (pre.map (·.provider)) =
                .exhausted err' last') := by
        intro now' err1 last1 hl ht
        rw [ht, C99_never_iff por idFrom address ps now' err1 last1]
        constructor
        · rintro ⟨pre, p', post, h1, h2, h3, err', last', h4⟩
          refine ⟨p :: pre, p', post, by rw [h1]; rfl, ?_, h3, err', last', ?_⟩
          · intro q hq
            rcases List.mem_cons.1 hq with rfl | hq
            · exact hp
            · exact h2 q hq
          · rw [List.map_cons, lookupProviders_cons, hl]; exact h4
        · rintro ⟨pre, p', post, h1, h2, h3, err', last', h4⟩
          cases pre with
          | nil =>
            simp only [List.nil_append, List.cons.injEq] at h1
            exact absurd (h1.1 ▸ h3) hp
          | cons q pre =>
            simp only [List.cons_append, List.cons.injEq] at h1
            obtain ⟨rfl, h1⟩ := h1
            rw [List.map_cons, lookupProviders_cons, hl] at h4
            exact ⟨pre, p', post, h1, fun q hq => h2 q (List.mem_cons_of_mem _ hq), h3, err', last', h4⟩
      cases hs : p.provider.stream with
      | none =>
        refine key (max now p.arrives + d) true p.provider.id ?_ ?_
        · simp only [lookupProviders, hs]
        · conv => lhs; unfold timedProviders
          rw [hd, hs]
      | some pipe =>
        obtain ⟨d', hd'⟩ : ∃ d, p.answer = some d := by
          cases h : p.answer with
          | none => exact absurd (.inr ⟨by rw [hs]; simp, h⟩) hp
          | some d => exact ⟨d, rfl⟩
        cases hl : lookupProviders por idFrom address err last [p.provider] with
        | exhausted err1 last1 =>
          refine key (max now p.arrives + d + d') err1 last1 hl ?_
          conv => lhs; unfold timedProviders
          rw [hd, hs, hd', hl]
        | done e =>
          have : timedProviders por idFrom address now err last (p :: ps) =
              some (max now p.arrives + d + d', .done e) := by
            unfold timedProviders
            rw [hd, hs, hd', hl]
          rw [this]
          constructor
          · intro h; cases h
          · rintro ⟨pre, p', post, h1, h2, h3, err', last', h4⟩
            cases pre with
            | nil =>
              simp only [List.nil_append, List.cons.injEq] at h1
              exact absurd (h1.1 ▸ h3) hp
            | cons q pre =>
              simp only [List.cons_append, List.cons.injEq] at h1
              obtain ⟨rfl, h1⟩ := h1
              rw [List.map_cons, lookupProviders_cons, hl] at h4
              cases h4

/-- **C99 is false: look-ups.** Whoever announces an address, and nobody has to prove anything for that, can keep
every look-up of it waiting for ever, whatever the time-out: it suffices to be the first provider found, to accept
the stream and to send nothing. -/
theorem C99_silent_counterexample (por : PoRCheck) (idFrom : Bytes → Option Bytes) (address : Bytes)
    (start timeout closes : Nat) (p : TimedProvider) (hp : p.Silent) (ps : List TimedProvider)
    (rs : List TimedRound) :
    timedLookup por idFrom true address start timeout (⟨p :: ps, closes⟩ :: rs) = none := by
  unfold timedLookup
  rw [if_pos rfl]
  unfold timedRounds
  rw [(C99_never_iff por idFrom address (p :: ps) _ _ _).2 ⟨[], p, ps, rfl, by simp, hp, _, _, rfl⟩]

/-! ## How long an attempt takes -/

/-- The network of an attempt as the untimed model sees it. -/
def NetTimes.net (tn : NetTimes) (n : Net) (rounds : List LookupRound) : Net :=
  { n with
      rounds := rounds
      stream := fun p => if envelopeStreamTimeout < tn.opening p then none else n.stream p }

theorem timedStream_eq {n : Net} {tn : NetTimes} {start t : Nat} {peer : Bytes} {record : Option AgentRecord}
    {e : Envelope} {r : RouteEnd} (rounds : List LookupRound)
    (h : timedStream n tn start peer record e = some (t, r)) :
    (routeWithNewStream (tn.net n rounds) peer record e).2 = r := by
  unfold timedStream at h
  unfold routeWithNewStream NetTimes.net
  dsimp only
  split at h
  · next ho =>
    simp only [Option.some.injEq, Prod.mk.injEq] at h
    rw [if_pos ho]; exact h.2
  · next ho =>
    rw [if_neg ho]
    split at h
    · next hs =>
      simp only [Option.some.injEq, Prod.mk.injEq] at h
      rw [hs]; exact h.2
    · next hs =>
      split at h
      · next he =>
        simp only [Option.some.injEq, Prod.mk.injEq] at h
        rw [hs, he]; exact h.2
      · split at h
        · cases h
        · simp only [Option.some.injEq, Prod.mk.injEq] at h
          exact h.2

/-- **C99.** The attempt with times is the attempt of C31 and C38: when it ends, its result is the one of
`routeDHTLookup` with the same providers, a stream that takes too long to open not being opened. -/
theorem C99_same_attempt (s : PeerState) (n : Net) (tn : NetTimes) (start timeout t : Nat) (e : Envelope)
    (r : RouteEnd) (h : timedAttempt s n tn start timeout e = some (t, r)) :
    ∃ rounds : List LookupRound,
      rounds.map (·.providers) = tn.rounds.map (fun r => r.providers.map (·.provider)) ∧
        (routeDHTLookup s (tn.net n rounds) e).2 = r := by
  unfold timedAttempt at h
  unfold routeDHTLookup
  cases hr : envelopeRecord s e with
  | none =>
    rw [hr] at h
    simp only [Option.some.injEq, Prod.mk.injEq] at h
    exact ⟨tn.rounds.map (fun r => ⟨r.providers.map (·.provider), false⟩), by simp, h.2⟩
  | some record =>
    rw [hr] at h
    dsimp only at h ⊢
    split at h
    · cases h
    all_goals
      next hl =>
      obtain ⟨rounds, hm, hres⟩ := C99_same_result _ _ _ _ _ _ _ _ _ hl
      refine ⟨rounds, hm, ?_⟩
      have hres' : lookupAddressDHT (tn.net n rounds).por (tn.net n rounds).idFrom (tn.net n rounds).cid e.to
          (tn.net n rounds).rounds = _ := hres
      rw [hres']
      first
        | exact timedStream_eq rounds h
        | (simp only [Option.some.injEq, Prod.mk.injEq] at h; exact h.2)

/-- **C99, partial.** An attempt to send an envelope to an address that has to be looked up ends at most 10.2 s after
the time-out of the look-up, plus the time that the providers and the peer of the address take to answer. Missing
from the property: as in `C99_lookup_partial`. -/
theorem C99_attempt_partial (s : PeerState) (n : Net) (tn : NetTimes) (start timeout d k : Nat) (e : Envelope)
    (h : ∀ r ∈ tn.rounds, r.Prompt (start + min timeout 20000) d k)
    (hlen : timeout + 200 ≤ 200 * tn.rounds.length)
    (hst : ∀ peer, ∃ x, tn.status peer = some x ∧ x ≤ d) :
    ∃ t r, timedAttempt s n tn start timeout e = some (t, r) ∧ start ≤ t ∧
      t ≤ start + min timeout 20000 + 10200 + 2 * d * k + d := by
  unfold timedAttempt
  cases envelopeRecord s e with
  | none => exact ⟨start, .err, rfl, Nat.le_refl _, by omega⟩
  | some record =>
    dsimp only
    obtain ⟨t, r, e1, e2, e3, e4⟩ :=
      C99_lookup_partial n.por n.idFrom n.cid e.to start timeout d k tn.rounds h hlen
    rw [e1]
    cases r with
    | running => exact absurd rfl e2
    | error => exact ⟨t, .err, rfl, e3, by omega⟩
    | crashed => exact ⟨t, .crashed, rfl, e3, by omega⟩
    | found peer rec =>
      dsimp only
      unfold timedStream
      have hto : envelopeStreamTimeout = 10000 := rfl
      by_cases ho : envelopeStreamTimeout < tn.opening peer
      · rw [if_pos ho]
        exact ⟨_, _, rfl, by omega, by omega⟩
      · rw [if_neg ho]
        cases n.stream peer with
        | none => exact ⟨_, _, rfl, by omega, by omega⟩
        | some _ =>
          cases e.encode with
          | none => exact ⟨_, _, rfl, by omega, by omega⟩
          | some _ =>
            obtain ⟨x, hx, hxd⟩ := hst peer
            dsimp only
            rw [hx]
            exact ⟨_, _, rfl, by omega, by omega⟩

/-- **C99 is false: sending.** A peer that is looked up successfully, accepts the envelope and never confirms it
keeps the attempt waiting for ever. -/
theorem C99_unconfirmed_counterexample (s : PeerState) (n : Net) (tn : NetTimes) (start timeout t : Nat)
    (e : Envelope) (record : Option AgentRecord) (peer : Bytes) (r : Option AgentRecord) (p : Pipe) (eb : Bytes)
    (hrec : envelopeRecord s e = some record)
    (hl : timedLookup n.por n.idFrom n.cid e.to start timeout tn.rounds = some (t, .found peer r))
    (ho : tn.opening peer ≤ 10000) (hs : n.stream peer = some p) (he : e.encode = some eb)
    (hst : tn.status peer = none) : timedAttempt s n tn start timeout e = none := by
  unfold timedAttempt
  rw [hrec]
  dsimp only
  rw [hl]
  dsimp only
  unfold timedStream
  rw [if_neg (by show ¬ 10000 < _; omega), hs, he, hst]

end Verif
