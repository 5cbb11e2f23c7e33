import Verif.Model.PeerTime
import Verif.Props.SlowQueue

/-!
# C106: one envelope does not keep the others of an agent waiting at its peer
-/

namespace Verif

open Acn

/-- The network without times: a status that does not come in time is an error, as is a stream that takes too long
to open. -/
def PeerTimes.net (pt : PeerTimes) (tn : NetTimes) (n : Net) (rounds : List LookupRound) : Net :=
  { tn.net n rounds with ack := if pt.inTime then n.ack else .err () }

theorem mailboxRoute_tables (s : PeerState) (e : Envelope) :
    (mailboxRoute s e).1.myAgent = s.myAgent ∧ (mailboxRoute s e).1.closing = s.closing ∧
      (mailboxRoute s e).1.hasAgent = s.hasAgent ∧ (mailboxRoute s e).1.dhtAddresses = s.dhtAddresses := by
  unfold mailboxRoute
  split <;> exact ⟨rfl, rfl, rfl, rfl⟩

theorem routeDHTLookup_ack (s : PeerState) (n : Net) (a : Res Unit Unit) (e : Envelope) :
    routeDHTLookup s { n with ack := a } e = routeDHTLookup s n e := rfl

/-- **C106.** A call that returns returns what the model without times says (C31), with the same providers. -/
theorem C106_same (s : PeerState) (n : Net) (tn : NetTimes) (pt : PeerTimes) (start t : Nat) (e : Envelope)
    (r : RouteEnd) (h : timedPeerRoute s n tn pt start e = some (t, r)) :
    ∃ rounds : List LookupRound,
      rounds.map (·.providers) = tn.rounds.map (fun r => r.providers.map (·.provider)) ∧
        (routeEnvelope s (pt.net tn n rounds) e).2.2 = r := by
  have some_rounds : ∃ rounds : List LookupRound,
      rounds.map (·.providers) = tn.rounds.map (fun r => r.providers.map (·.provider)) :=
    ⟨tn.rounds.map (fun r => ⟨r.providers.map (·.provider), false⟩), by simp⟩
  obtain ⟨rs, hrs⟩ := some_rounds
  unfold timedPeerRoute at h
  unfold routeEnvelope
  cases hr : envelopeRecord s e with
  | none =>
    rw [hr] at h
    cases h
    exact ⟨rs, hrs, rfl⟩
  | some record =>
    rw [hr] at h
    dsimp only at h ⊢
    cases hacc : (mailboxRoute s e).2 with
    | true =>
      rw [hacc] at h
      cases h
      exact ⟨rs, hrs, rfl⟩
    | false =>
      rw [hacc] at h
      simp only [Bool.false_eq_true, if_false] at h ⊢
      by_cases hto : e.to = (mailboxRoute s e).1.myAgent
      · rw [if_pos hto] at h
        refine ⟨rs, hrs, ?_⟩
        rw [if_pos hto]
        have hready : (pt.net tn n rs).ready = n.ready := rfl
        have hok : (pt.net tn n rs).agentOk = n.agentOk := rfl
        rw [hready, hok]
        cases hn : n.ready with
        | none =>
          rw [hn] at h
          dsimp only at h
          rw [if_pos (by rfl)]
          split at h
          · next hh =>
            rw [if_pos hh]
            obtain ⟨d, _, hd⟩ := Option.map_eq_some_iff.1 h
            cases hd; rfl
          · next hh => rw [if_neg hh]; cases h; rfl
        | some answers =>
          rw [hn] at h
          dsimp only at h
          by_cases hc : answers.contains true = true
          · rw [if_pos hc] at h
            rw [if_pos (by simpa [awaitReady] using hc)]
            dsimp only at h
            split at h
            · next hh =>
              rw [if_pos hh]
              obtain ⟨d, _, hd⟩ := Option.map_eq_some_iff.1 h
              cases hd; rfl
            · next hh => rw [if_neg hh]; cases h; rfl
          · rw [if_neg hc] at h; cases h
      · rw [if_neg hto] at h
        cases hd : s.tcpAddresses.get e.to with
        | some c =>
          rw [hd] at h
          refine ⟨rs, hrs, ?_⟩
          rw [if_neg hto]
          dsimp only at h ⊢
          cases hm : makeAcnMessage e with
          | none => rw [hm] at h; cases h; rfl
          | some data =>
            rw [hm] at h
            dsimp only at h ⊢
            cases hw : pt.writing with
            | none => rw [hw] at h; cases h
            | some w =>
              rw [hw] at h
              dsimp only at h
              have hcok : (pt.net tn n rs).connOk = n.connOk := rfl
              have hack : (pt.net tn n rs).ack = if pt.inTime then n.ack else .err () := rfl
              rw [hcok, hack]
              split at h
              · next hk =>
                rw [if_pos hk]
                unfold timedAck PeerTimes.inTime at *
                cases ha : pt.ack with
                | none => rw [ha] at h; cases h; rfl
                | some a =>
                  rw [ha] at h
                  dsimp only at h ⊢
                  by_cases hlt : a ≤ acnStatusTimeout
                  · rw [if_pos hlt] at h
                    simp only [hlt, decide_true, if_true]
                    cases h; rfl
                  · rw [if_neg hlt] at h
                    simp only [hlt, decide_false, Bool.false_eq_true, if_false]
                    cases h; rfl
              · next hk => rw [if_neg hk]; cases h; rfl
        | none =>
          rw [hd] at h
          simp only [if_neg hto]
          dsimp only at h ⊢
          cases hx : (mailboxRoute s e).1.dhtAddresses.get e.to with
          | some sid =>
            rw [hx] at h
            refine ⟨rs, hrs, ?_⟩
            dsimp only at h ⊢
            have hpd : (pt.net tn n rs).peerDecode = n.peerDecode := rfl
            rw [hpd]
            cases hp : n.peerDecode sid with
            | none => rw [hp] at h; cases h; rfl
            | some peer =>
              rw [hp] at h
              dsimp only at h ⊢
              exact timedStream_eq rs h
          | none =>
            rw [hx] at h
            dsimp only at h ⊢
            cases ht : timedAttempt (mailboxRoute s e).1 n tn start fastLookupTimeout e with
            | none => rw [ht] at h; cases h
            | some z =>
              obtain ⟨t', r'⟩ := z
              rw [ht] at h
              obtain ⟨rounds, hm, hres⟩ := C99_same_attempt _ _ _ _ _ _ _ _ ht
              refine ⟨rounds, hm, ?_⟩
              have hk : routeDHTLookup (mailboxRoute s e).1 (pt.net tn n rounds) e =
                  routeDHTLookup (mailboxRoute s e).1 (tn.net n rounds) e := rfl
              rw [hk]
              rcases hl : routeDHTLookup (mailboxRoute s e).1 (tn.net n rounds) e with ⟨acts, q⟩
              rw [hl] at hres
              cases hres
              cases q with
              | err =>
                dsimp only at h ⊢
                split at h
                · cases h; rfl
                · obtain ⟨w, _, hw⟩ := Option.map_eq_some_iff.1 h
                  cases hw; rfl
              | ok => cases h; rfl
              | crashed => cases h; rfl
              | waiting => cases h; rfl

/-! ## Bounds -/

/-- Everything outside takes at most `d`: the agent gets ready and takes an envelope, delegate clients read, other
peers send a status; the at most `k` providers that are found for an address answer; and there is room in the slow
queue within `q`. -/
structure PeerCall.Prompt (c : PeerCall) (d k q : Nat) : Prop where
  ready : ∀ answers, c.net.ready = some answers → answers.contains true = true ∧ 100 * answers.idxOf true ≤ d
  agent : ∀ start, ∃ x, (c.near start).agentTook = some x ∧ x ≤ d
  writing : ∀ start, ∃ x, (c.near start).writing = some x ∧ x ≤ d
  status : ∀ start peer, ∃ x, (c.times start).status peer = some x ∧ x ≤ d
  rounds : ∀ start, (∀ r ∈ (c.times start).rounds, r.Prompt (start + 3000) d k) ∧ 16 ≤ (c.times start).rounds.length
  room : ∀ start, ∃ x, (c.near start).room = some x ∧ x ≤ q

theorem timedStream_bound (n : Net) (tn : NetTimes) (start : Nat) (peer : Bytes) (record : Option AgentRecord)
    (e : Envelope) (d : Nat) (h : ∃ x, tn.status peer = some x ∧ x ≤ d) :
    ∃ t r, timedStream n tn start peer record e = some (t, r) ∧ start ≤ t ∧ t ≤ start + 10000 + d := by
  unfold timedStream
  have hto : envelopeStreamTimeout = 10000 := rfl
  by_cases ho : envelopeStreamTimeout < tn.opening peer
  · rw [if_pos ho]; exact ⟨_, _, rfl, by omega, by omega⟩
  · rw [if_neg ho]
    cases n.stream peer with
    | none => exact ⟨_, _, rfl, by omega, by omega⟩
    | some _ =>
      cases e.encode with
      | none => exact ⟨_, _, rfl, by omega, by omega⟩
      | some _ =>
        obtain ⟨x, hx, hxd⟩ := h
        dsimp only
        rw [hx]
        exact ⟨_, _, rfl, by omega, by omega⟩

theorem timedAck_bound (n : Net) (pt : PeerTimes) : (timedAck n pt).1 ≤ 5000 := by
  unfold timedAck
  have : acnStatusTimeout = 5000 := rfl
  split
  · split
    · simpa [this] using ‹_ ≤ acnStatusTimeout›
    · exact Nat.le_of_eq this
  · exact Nat.le_of_eq this

/-- **C106, partial.** If all others answer in time `d` and the slow queue has room within `q`, a call returns after
at most 13.2 s plus these times. Missing from the property: nothing bounds the time otherwise. -/
theorem C106_route_partial (c : PeerCall) (d k q start : Nat) (h : c.Prompt d k q) :
    ∃ t r, c.route start = some (t, r) ∧ start ≤ t ∧ t ≤ start + 13200 + 2 * d * k + 2 * d + q := by
  obtain ⟨ag, hag, hagd⟩ := h.agent start
  obtain ⟨w, hw, hwd⟩ := h.writing start
  obtain ⟨m, hm, hmq⟩ := h.room start
  unfold PeerCall.route timedPeerRoute
  cases envelopeRecord c.state c.envelope with
  | none => exact ⟨_, _, rfl, by omega, by omega⟩
  | some record =>
    dsimp only
    split
    · exact ⟨_, _, rfl, by omega, by omega⟩
    · split
      · rw [hag]
        cases hn : c.net.ready with
        | none =>
          dsimp only
          split
          · exact ⟨_, _, rfl, by omega, by omega⟩
          · exact ⟨_, _, rfl, by omega, by omega⟩
        | some answers =>
          obtain ⟨h1, h2⟩ := h.ready answers hn
          dsimp only
          rw [if_pos h1]
          dsimp only
          split
          · exact ⟨_, _, rfl, by omega, by omega⟩
          · exact ⟨_, _, rfl, by omega, by omega⟩
      · cases c.state.tcpAddresses.get c.envelope.to with
        | some conn =>
          dsimp only
          cases makeAcnMessage c.envelope with
          | none => exact ⟨_, _, rfl, by omega, by omega⟩
          | some data =>
            dsimp only
            rw [hw]
            have := timedAck_bound c.net (c.near start)
            dsimp only
            split
            · exact ⟨_, _, rfl, by omega, by omega⟩
            · exact ⟨_, _, rfl, by omega, by omega⟩
        | none =>
          dsimp only
          cases (mailboxRoute c.state c.envelope).1.dhtAddresses.get c.envelope.to with
          | some sid =>
            dsimp only
            cases c.net.peerDecode sid with
            | none => exact ⟨_, _, rfl, by omega, by omega⟩
            | some peer =>
              obtain ⟨t, r, e1, e2, e3⟩ := timedStream_bound c.net (c.times start) start peer record c.envelope d
                (h.status start peer)
              exact ⟨t, r, e1, e2, by omega⟩
          | none =>
            dsimp only
            obtain ⟨hr1, hr2⟩ := h.rounds start
            obtain ⟨t, r, e1, e2, e3⟩ := C99_attempt_partial (mailboxRoute c.state c.envelope).1 c.net
              (c.times start) start fastLookupTimeout d k c.envelope hr1
              (by show 3000 + 200 ≤ _; omega) (h.status start)
            have hmin : min fastLookupTimeout 20000 = 3000 := rfl
            rw [hmin] at e3
            rw [e1, hm]
            cases r with
            | err =>
              dsimp only
              split
              · exact ⟨_, _, rfl, by omega, by omega⟩
              · exact ⟨_, _, rfl, by omega, by omega⟩
            | ok => exact ⟨_, _, rfl, by omega, by omega⟩
            | crashed => exact ⟨_, _, rfl, by omega, by omega⟩
            | waiting => exact ⟨_, _, rfl, by omega, by omega⟩

theorem peerStarts_append (pre post : List PeerCall) :
    ∀ free, ∃ free', peerStarts free (pre ++ post) = peerStarts free pre ++ peerStarts free' post := by
  induction pre with
  | nil => exact fun free => ⟨free, rfl⟩
  | cons c pre ih =>
    intro free
    cases free with
    | none =>
      obtain ⟨f, hf⟩ := ih none
      exact ⟨f, by simp [peerStarts, hf]⟩
    | some free =>
      obtain ⟨f, hf⟩ := ih ((c.route (max free c.came)).map (·.1))
      exact ⟨f, by simp [peerStarts, hf]⟩

/-- **C106, partial.** If the others are prompt during the calls before, an envelope that came when the loop of main
had nothing to do before them is routed after at most 13.2 s and the times of the others for each of these. Missing:
as above. -/
theorem C106_starts_partial (d k q : Nat) (before after : List PeerCall) (c : PeerCall) (free : Nat)
    (h : ∀ b ∈ before, b.Prompt d k q) (hcame : ∀ b ∈ before, b.came ≤ c.came) :
    ∃ t, (peerStarts (some free) (before ++ c :: after))[before.length]? = some (some t) ∧
      max free c.came ≤ t ∧
      t ≤ max free c.came + before.length * (13200 + 2 * d * k + 2 * d + q) := by
  induction before generalizing free with
  | nil => exact ⟨max free c.came, rfl, Nat.le_refl _, by simp⟩
  | cons b before ih =>
    obtain ⟨t, r, h1, h2, h3⟩ := C106_route_partial b d k q (max free b.came) (h b (List.mem_cons_self ..))
    have hb := hcame b (List.mem_cons_self ..)
    obtain ⟨t', g1, g2, g3⟩ := ih t (fun x hx => h x (List.mem_cons_of_mem _ hx))
      (fun x hx => hcame x (List.mem_cons_of_mem _ hx))
    refine ⟨t', ?_, ?_, ?_⟩
    · rw [List.cons_append, peerStarts, h1]
      simpa using g1
    · omega
    · rw [List.length_cons, Nat.succ_mul]
      omega

/-- **C106.** After a call that never returns no envelope of the agent is routed any more. -/
theorem C106_stuck_counterexample (before after : List PeerCall) (c : PeerCall) (free : Option Nat)
    (h : ∀ start, c.route start = none) (i : Nat) (hi : before.length < i) (x : Option Nat)
    (hx : (peerStarts free (before ++ c :: after))[i]? = some x) : x = none := by
  have hnone : ∀ l : List PeerCall, ∀ y ∈ peerStarts none l, y = none := by
    intro l
    induction l with
    | nil => intro y hy; cases hy
    | cons a l ih =>
      intro y hy
      rcases List.mem_cons.1 hy with h | h
      · exact h
      · exact ih y h
  induction before generalizing free i with
  | nil =>
    obtain ⟨i, rfl⟩ := Nat.exists_eq_succ_of_ne_zero (by simpa using Nat.pos_iff_ne_zero.1 hi : i ≠ 0)
    cases free with
    | none => exact hnone _ x (List.mem_of_getElem? hx)
    | some free =>
      rw [List.nil_append, peerStarts, h, List.getElem?_cons_succ] at hx
      exact hnone _ x (List.mem_of_getElem? hx)
  | cons b before ih =>
    have hi' : before.length + 1 < i := by simpa using hi
    obtain ⟨i, rfl⟩ := Nat.exists_eq_succ_of_ne_zero (by omega : i ≠ 0)
    cases free with
    | none =>
      rw [List.cons_append, peerStarts, List.getElem?_cons_succ] at hx
      exact ih none i (by omega) hx
    | some free =>
      rw [List.cons_append, peerStarts, List.getElem?_cons_succ] at hx
      exact ih _ i (by omega) hx

/-! ## What a single call costs -/

/-- The agent whose peer this is sends to an address that is neither its own, nor of a client here. -/
structure PeerCall.Away (c : PeerCall) : Prop where
  known : ∃ r, envelopeRecord c.state c.envelope = some r
  mailbox : (mailboxRoute c.state c.envelope).2 = false
  other : c.envelope.to ≠ c.state.myAgent
  delegate : c.state.tcpAddresses.get c.envelope.to = none

theorem PeerCall.Away.route {c : PeerCall} (h : c.Away) (start : Nat)
    (hd : c.state.dhtAddresses.get c.envelope.to = none) :
    c.route start = match timedAttempt (mailboxRoute c.state c.envelope).1 c.net (c.times start) start 3000
        c.envelope with
      | none => none
      | some (t, .err) => if c.state.closing then some (t, .ok) else (c.near start).room.map fun w => (t + w, .ok)
      | some (t, r) => some (t, r) := by
  obtain ⟨⟨record, h1⟩, h2, h3, h4⟩ := h
  obtain ⟨g1, g2, _, g4⟩ := mailboxRoute_tables c.state c.envelope
  unfold PeerCall.route timedPeerRoute
  rw [h1]
  dsimp only
  rw [h2, g1, if_neg (by simp), if_neg h3, h4, g4]
  dsimp only
  rw [hd, g2]
  rfl

theorem mailboxRoute_refused (s : PeerState) (e : Envelope) (h : (mailboxRoute s e).2 = false) :
    (mailboxRoute s e).1 = s := by
  unfold mailboxRoute at *
  split
  · rfl
  · next m hm =>
    rw [hm] at h
    dsimp only at h ⊢
    have : (m.route e).1 = m := by
      unfold Mailbox.route at *
      split
      · rfl
      · next l hl =>
        rw [hl] at h
        dsimp only at h
        split
        · rfl
        · next hlt => rw [if_neg hlt] at h; cases h
    rw [this, ← hm]

/-- **C106.** An envelope to an address that nobody provides keeps the agent waiting for the whole of the short
time-out, 3 s, at most 200 ms more, and as long as the slow queue is full. The call reports success. -/
theorem C106_absent (c : PeerCall) (h : c.Away) (hd : c.state.dhtAddresses.get c.envelope.to = none)
    (hcl : c.state.closing = false) (hcid : c.net.cid = true) (start w : Nat)
    (hw : (c.near start).room = some w)
    (hnone : ∀ r ∈ (c.times start).rounds, r.providers = [])
    (hctx : ∀ r ∈ (c.times start).rounds, r.closes ≤ start + 3000) (hlen : 16 ≤ (c.times start).rounds.length) :
    ∃ t, c.route start = some (t + w, .ok) ∧ start + 3000 ≤ t ∧ t < start + 3200 := by
  rw [h.route start hd, mailboxRoute_refused _ _ h.mailbox, hcl, hw]
  obtain ⟨record, h1⟩ := h.known
  obtain ⟨t, e1, e2, e3⟩ := C99_absent c.net.por c.net.idFrom c.envelope.to start 3000 (c.times start).rounds hnone
    hctx (by omega)
  unfold timedAttempt
  rw [h1, hcid]
  dsimp only
  rw [e1]
  exact ⟨t, rfl, e2, by omega⟩

/-- **C106.** An envelope of the agent to itself waits until the agent is there, asking every 100 ms, and for the time
the agent takes to get it; if nothing has to be waited for it takes only the latter. If the agent never comes the call
never ends. -/
theorem C106_own (c : PeerCall) (start d k : Nat) (hk : ∃ r, envelopeRecord c.state c.envelope = some r)
    (hm : (mailboxRoute c.state c.envelope).2 = false) (ho : c.envelope.to = c.state.myAgent)
    (ha : c.state.hasAgent = true) (hd : (c.near start).agentTook = some d) :
    (c.net.ready = none → c.route start = some (start + d, if c.net.agentOk then .ok else .err)) ∧
    (∀ rest, c.net.ready = some (List.replicate k false ++ true :: rest) →
      c.route start = some (start + 100 * k + d, if c.net.agentOk then .ok else .err)) ∧
    (c.net.ready = some (List.replicate k false) → c.route start = none) := by
  obtain ⟨record, h1⟩ := hk
  obtain ⟨g1, _, g3, _⟩ := mailboxRoute_tables c.state c.envelope
  refine ⟨fun h => ?_, fun rest h => ?_, fun h => ?_⟩
  all_goals
    unfold PeerCall.route timedPeerRoute
    rw [h1]
    dsimp only
    rw [hm, g1, g3, if_neg (by simp), if_pos ho, h]
    dsimp only
  · rw [if_pos ha, hd]; rfl
  · have hi : (List.replicate k false ++ true :: rest).idxOf true = k := by
      clear h
      induction k with
      | zero => simp
      | succ k ih => rw [List.replicate_succ, List.cons_append, List.idxOf_cons]; simp [ih]
    rw [if_pos (by simp), hi]
    dsimp only
    rw [if_pos ha, hd]; rfl
  · rw [if_neg (by simp)]

/-- **C106.** An envelope to a delegate client that takes it in `w` and sends no status within 5 s keeps the agent
waiting for `w` and 5 s, and is an error. -/
theorem C106_delegate_silent (c : PeerCall) (start w conn : Nat)
    (hk : ∃ r, envelopeRecord c.state c.envelope = some r) (hm : (mailboxRoute c.state c.envelope).2 = false)
    (ho : c.envelope.to ≠ c.state.myAgent) (hd : c.state.tcpAddresses.get c.envelope.to = some conn)
    (he : (makeAcnMessage c.envelope).isSome = true) (hw : (c.near start).writing = some w)
    (hok : c.net.connOk = true) (ha : ∀ a, (c.near start).ack = some a → 5000 < a) :
    c.route start = some (start + w + 5000, .err) := by
  obtain ⟨record, h1⟩ := hk
  obtain ⟨g1, _, _, _⟩ := mailboxRoute_tables c.state c.envelope
  obtain ⟨data, hdata⟩ := Option.isSome_iff_exists.1 he
  have hack : timedAck c.net (c.near start) = (5000, .err) := by
    unfold timedAck
    cases hx : (c.near start).ack with
    | none => rfl
    | some a =>
      have := ha a hx
      dsimp only
      rw [if_neg (by show ¬ a ≤ 5000; omega)]
      rfl
  unfold PeerCall.route timedPeerRoute
  rw [h1]
  dsimp only
  rw [hm, g1, if_neg (by simp), if_neg ho, hd]
  dsimp only
  rw [hdata]
  dsimp only
  rw [hw]
  dsimp only
  rw [if_pos hok, hack]

/-- **C106 is false: clients.** A delegate client that does not read, or a relay client that accepts an envelope and
never confirms it, keeps the agent of the peer waiting for ever. -/
theorem C106_client_counterexample (c : PeerCall) (start : Nat) (record : Option AgentRecord)
    (hk : envelopeRecord c.state c.envelope = some record) (hm : (mailboxRoute c.state c.envelope).2 = false)
    (ho : c.envelope.to ≠ c.state.myAgent) (he : (makeAcnMessage c.envelope).isSome = true)
    (h : (∃ conn, c.state.tcpAddresses.get c.envelope.to = some conn ∧ (c.near start).writing = none) ∨
      (c.state.tcpAddresses.get c.envelope.to = none ∧ ∃ sid peer p,
        c.state.dhtAddresses.get c.envelope.to = some sid ∧ c.net.peerDecode sid = some peer ∧
        c.net.stream peer = some p ∧ (c.times start).opening peer ≤ 10000 ∧ (c.times start).status peer = none)) :
    c.route start = none := by
  obtain ⟨g1, _, _, g4⟩ := mailboxRoute_tables c.state c.envelope
  obtain ⟨data, hdata⟩ := Option.isSome_iff_exists.1 he
  unfold PeerCall.route timedPeerRoute
  rw [hk]
  dsimp only
  rw [hm, g1, if_neg (by simp), if_neg ho]
  rcases h with ⟨conn, h1, h2⟩ | ⟨h0, sid, peer, p, h1, h2, h3, h4, h5⟩
  · rw [h1]
    dsimp only
    rw [hdata]
    dsimp only
    rw [h2]
  · rw [h0, g4]
    dsimp only
    rw [h1]
    dsimp only
    rw [h2]
    dsimp only
    have henc : ∃ eb, c.envelope.encode = some eb := by
      unfold makeAcnMessage at hdata
      obtain ⟨eb, h, _⟩ := Option.bind_eq_some_iff.1 hdata
      exact ⟨eb, h⟩
    obtain ⟨eb, henc⟩ := henc
    unfold timedStream
    rw [if_neg (by show ¬ 10000 < _; omega), h3, henc]
    dsimp only
    rw [h5]

/-- **C106 is false: the network.** Whoever announces an address and does not answer keeps every agent waiting for
ever that sends to it through its own peer. -/
theorem C106_provider_counterexample (c : PeerCall) (h : c.Away) (start closes : Nat)
    (hd : c.state.dhtAddresses.get c.envelope.to = none) (hcid : c.net.cid = true) (p : TimedProvider)
    (hp : p.Silent) (ps : List TimedProvider) (rs : List TimedRound)
    (hr : (c.times start).rounds = ⟨p :: ps, closes⟩ :: rs) : c.route start = none := by
  rw [h.route start hd, mailboxRoute_refused _ _ h.mailbox]
  obtain ⟨record, h1⟩ := h.known
  unfold timedAttempt
  rw [h1, hcid, hr]
  dsimp only
  rw [C99_silent_counterexample _ _ _ _ _ _ p hp ps rs]

/-! ## Many envelopes to addresses that nobody provides -/

/-- The sum of the first `i` times. -/
def sumFirst (l : List Nat) (i : Nat) : Nat := (l.take i).sum

theorem sumFirst_succ (l : List Nat) (i : Nat) : sumFirst l (i + 1) = sumFirst l i + l.getD i 0 := by
  unfold sumFirst
  induction l generalizing i with
  | nil => simp
  | cons a l ih =>
    cases i with
    | zero => simp
    | succ i => simp only [List.take_succ_cons, List.sum_cons, ih, List.getD_cons_succ]; omega

theorem sumFirst_mono (l : List Nat) {i j : Nat} (h : i ≤ j) : sumFirst l i ≤ sumFirst l j := by
  induction h with
  | refl => exact Nat.le_refl _
  | step _ ih => rw [sumFirst_succ]; omega

/-- What holds after `m` envelopes: `takes` is when they were taken. -/
structure FloodInv (start free0 : Nat) (fasts slows : List Nat) (m : Nat) (takes : List Nat) (at_ free : Nat) :
    Prop where
  len : takes.length = m
  low : ∀ j t, takes[j]? = some t → free0 + sumFirst slows j ≤ t
  high : ∀ j t, takes[j]? = some t → t ≤ max start free0 + sumFirst fasts (j + 1) + sumFirst slows j
  freeLow : free0 + sumFirst slows m ≤ free
  freeHigh : free ≤ max start free0 + sumFirst fasts m + sumFirst slows m
  atLow : start + sumFirst fasts m ≤ at_
  atHigh : at_ ≤ max start free0 + sumFirst fasts m + sumFirst slows (m - 101)

theorem flood_inv (start free0 : Nat) (fasts slows : List Nat) :
    ∀ (rest : List (Nat × Nat)) (m : Nat) (takes : List Nat) (at_ free : Nat),
      (∀ i x, rest[i]? = some x → fasts.getD (m + i) 0 = x.1 ∧ slows.getD (m + i) 0 = x.2) →
      FloodInv start free0 fasts slows m takes at_ free →
      ∀ i x, (floodTimes at_ free takes rest)[i]? = some x →
        start + sumFirst fasts (m + i + 1) ≤ x.1 ∧
        (100 ≤ m + i → free0 + sumFirst slows (m + i - 100) ≤ x.1) ∧
        x.1 ≤ max start free0 + sumFirst fasts (m + i + 1) + sumFirst slows (m + i - 100) ∧
        free0 + sumFirst slows (m + i) ≤ x.2 ∧ x.1 ≤ x.2 ∧
        x.2 ≤ max start free0 + sumFirst fasts (m + i + 1) + sumFirst slows (m + i)
  | [], _, _, _, _, _, _, i, x, hx => by simp [floodTimes] at hx
  | (fast, slow) :: rest, m, takes, at_, free, hl, hinv, i, x, hx => by
    obtain ⟨h1, h2, h3, h4, h5, h6, h7⟩ := hinv
    obtain ⟨hf, hs⟩ := hl 0 (fast, slow) rfl
    simp only [Nat.add_zero] at hf hs
    have hF := sumFirst_succ fasts m
    have hS := sumFirst_succ slows m
    rw [hf] at hF
    rw [hs] at hS
    have hcap : SlowQueue.capacity = 100 := rfl
    unfold floodTimes at hx
    dsimp only at hx
    generalize hp : (if SlowQueue.capacity ≤ takes.length then
      max (at_ + fast) (takes.getD (takes.length - SlowQueue.capacity) 0) else at_ + fast) = pushed at hx
    have hpl : at_ + fast ≤ pushed := by rw [← hp]; split <;> omega
    have hpq : (100 ≤ m → free0 + sumFirst slows (m - 100) ≤ pushed) ∧
        pushed ≤ max start free0 + sumFirst fasts (m + 1) + sumFirst slows (m - 100) := by
      have hm101 : sumFirst slows (m - 101) ≤ sumFirst slows (m - 100) := sumFirst_mono slows (by omega)
      rw [hcap, h1] at hp
      by_cases hm : 100 ≤ m
      · rw [if_pos hm] at hp
        have hlt : m - 100 < takes.length := by omega
        have hget : takes[m - 100]? = some (takes.getD (m - 100) 0) := by
          rw [List.getD_eq_getElem?_getD, List.getElem?_eq_getElem hlt]; rfl
        have g1 := h2 _ _ hget
        have g2 := h3 _ _ hget
        have hmono : sumFirst fasts (m - 100 + 1) ≤ sumFirst fasts (m + 1) := sumFirst_mono fasts (by omega)
        exact ⟨fun _ => by omega, by omega⟩
      · rw [if_neg hm] at hp
        exact ⟨fun h => absurd h hm, by omega⟩
    have hm100 : sumFirst slows (m - 100) ≤ sumFirst slows m := sumFirst_mono slows (by omega)
    obtain ⟨hpq1, hpq2⟩ := hpq
    cases i with
    | zero =>
      simp only [List.getElem?_cons_zero, Option.some.injEq] at hx
      subst hx
      simp only [Nat.add_zero]
      exact ⟨by omega, hpq1, by omega, by omega, by omega, by omega⟩
    | succ i =>
      rw [List.getElem?_cons_succ] at hx
      have := flood_inv start free0 fasts slows rest (m + 1) (takes ++ [max pushed free]) pushed
        (max pushed free + slow)
        (fun j y hy => by
          have := hl (j + 1) y hy
          rwa [show m + 1 + j = m + (j + 1) from by omega])
        ⟨by simp [h1],
          fun j t ht => by
            rw [List.getElem?_append] at ht
            split at ht
            · exact h2 j t ht
            · next hj =>
              have hj' : j = m := by
                have := (List.getElem?_eq_some_iff.1 ht).1
                simp at this; omega
              subst hj'
              simp [h1] at ht
              omega,
          fun j t ht => by
            rw [List.getElem?_append] at ht
            split at ht
            · exact h3 j t ht
            · next hj =>
              have hj' : j = m := by
                have := (List.getElem?_eq_some_iff.1 ht).1
                simp at this; omega
              subst hj'
              simp [h1] at ht
              omega,
          by omega, by omega, by omega, by
            rw [show m + 1 - 101 = m - 100 from by omega]; omega⟩ i x hx
      rwa [show m + 1 + i = m + (i + 1) from by omega] at this

/-- **C106.** Envelopes of the agent that all come to the slow queue, one after the other: envelope `i` (from 0) is in
the queue, and with that the agent's loop free again, not before the short look-ups up to it, and not before the loop
of the queue has dealt with all but the 100 before it and the one it is at; and not later than after both together.
`fasts` is how long the calls take before the queue, `slows` how long the loop takes with each. -/
theorem C106_flood (start free : Nat) (l : List (Nat × Nat)) (i pushed taken : Nat)
    (h : (floodTimes start free [] l)[i]? = some (pushed, taken)) :
    start + ((l.map (·.1)).take (i + 1)).sum ≤ pushed ∧
    (100 ≤ i → free + ((l.map (·.2)).take (i - 100)).sum ≤ pushed) ∧
    pushed ≤ max start free + ((l.map (·.1)).take (i + 1)).sum + ((l.map (·.2)).take (i - 100)).sum ∧
    free + ((l.map (·.2)).take i).sum ≤ taken ∧ pushed ≤ taken ∧
    taken ≤ max start free + ((l.map (·.1)).take (i + 1)).sum + ((l.map (·.2)).take i).sum := by
  have := flood_inv start free (l.map (·.1)) (l.map (·.2)) l 0 [] start free
    (fun i x hx => by
      rw [Nat.zero_add, List.getD_eq_getElem?_getD, List.getD_eq_getElem?_getD, List.getElem?_map,
        List.getElem?_map, hx]
      exact ⟨rfl, rfl⟩)
    ⟨rfl, fun j t h => by simp at h, fun j t h => by simp at h, by simp [sumFirst], by simp [sumFirst]; omega,
      by simp [sumFirst], by simp [sumFirst]; omega⟩ i (pushed, taken) h
  simpa only [Nat.zero_add, sumFirst] using this

/-- **C106 is false: many unreachable addresses.** If the agent sends more than 101 envelopes to addresses that
nobody provides (3 s each before the queue, 20 s each in it), it waits 20 s for each further one: the loop of main is
not free for the next envelope before that. -/
theorem C106_flood_counterexample (start free k pushed taken : Nat) (l : List (Nat × Nat))
    (hslow : ∀ x ∈ l, 20000 ≤ x.2) (h : (floodTimes start free [] l)[100 + k]? = some (pushed, taken)) :
    free + 20000 * k ≤ pushed := by
  have hsum : ∀ (l : List Nat) (k : Nat), (∀ x ∈ l, 20000 ≤ x) → k ≤ l.length → 20000 * k ≤ (l.take k).sum := by
    intro l
    induction l with
    | nil => intro k _ hk; simp at hk; simp [hk]
    | cons a l ih =>
      intro k hx hk
      cases k with
      | zero => simp
      | succ k =>
        have h1 := hx a (List.mem_cons_self ..)
        have h2 := ih k (fun x hxl => hx x (List.mem_cons_of_mem _ hxl)) (by simpa using hk)
        rw [List.take_succ_cons, List.sum_cons]
        omega
  have hlen : ∀ (l : List (Nat × Nat)) at_ free takes, (floodTimes at_ free takes l).length = l.length := by
    intro l
    induction l with
    | nil => intro _ _ _; rfl
    | cons a l ih => intro at_ free takes; obtain ⟨f, s⟩ := a; simp [floodTimes, ih]
  have h1 := (C106_flood start free l (100 + k) pushed taken h).2.1 (by omega)
  have hi := (List.getElem?_eq_some_iff.1 h).1
  rw [hlen] at hi
  have h2 := hsum (l.map (·.2)) k (by
    intro x hx
    obtain ⟨y, hy, rfl⟩ := List.mem_map.1 hx
    exact hslow y hy) (by simp; omega)
  rw [show 100 + k - 100 = k from by omega] at h1
  omega

/-! ## Cases -/

namespace PeerTimeDemo

/-- Nobody provides any address; a search for providers takes 100 ms. -/
def far (start : Nat) : NetTimes :=
  ⟨(List.range 16).map fun i => ⟨[], min (start + 100 + 300 * i) (start + 3000)⟩, fun _ => 0, fun _ => none⟩

/-- The agent `me`, with a delegate client `del` that never acknowledges, and nobody else. -/
def state : PeerState where
  myAgent := b! "me"
  myRecord := none
  hasAgent := true
  mailbox := none
  agentRecords := .empty
  tcpAddresses := GoMap.empty.set (b! "del") 7
  dhtAddresses := .empty
  closing := false

/-- The network. -/
def net : Net where
  por := fun _ _ _ => .ok .success
  idFrom := some
  cid := true
  ready := some [false, true]
  agentOk := true
  connOk := true
  ack := .ok ()
  peerDecode := some
  stream := fun _ => none
  rounds := []

/-- A call at time `t`, to `a`. -/
def call (t : Nat) (a : Bytes) : PeerCall :=
  ⟨t, state, net, far, fun _ => ⟨some 2, some 1, none, some 0⟩,
    { RouteDemo.env (b! "x") with sender := b! "me", to := a }⟩

/-- To an address that nobody provides, the silent delegate client, the agent itself, and again. -/
example : peerStarts (some 0) [call 10 (b! "you"), call 11 (b! "del"), call 12 (b! "me"), call 13 (b! "you")] =
    [some 10, some 3010, some 8011, some 8113] := by decide +kernel

theorem far_prompt (start : Nat) :
    (∀ r ∈ (far start).rounds, r.Prompt (start + 3000) 5000 0) ∧ 16 ≤ (far start).rounds.length := by
  refine ⟨fun r hr => ?_, by simp [far]⟩
  obtain ⟨i, _, rfl⟩ := List.mem_map.1 hr
  exact ⟨Nat.min_le_right _ _, Nat.le_refl _, (by intro p hp; cases hp), (by intro p hp; cases hp)⟩

/-- The hypotheses of `C106_absent` hold. -/
example : ∃ t, (call 10 (b! "you")).route 10 = some (t, .ok) ∧ 3010 ≤ t ∧ t < 3210 := by
  obtain ⟨t, h1, h2, h3⟩ := C106_absent (call 10 (b! "you"))
    ⟨⟨none, by decide⟩, by decide, by decide, by decide⟩ (by decide) rfl rfl 10 0 rfl
    (by intro r hr; obtain ⟨i, _, rfl⟩ := List.mem_map.1 hr; rfl)
    (fun r hr => ((far_prompt 10).1 r hr).closes) (far_prompt 10).2
  exact ⟨t, h1, h2, h3⟩

/-- The hypotheses of `C106_own` hold: the agent is there when it is asked the second time. -/
example : (call 10 (b! "me")).route 20 = some (122, .ok) :=
  (C106_own (call 10 (b! "me")) 20 2 1 ⟨none, by decide⟩ (by decide) rfl rfl rfl).2.1 [] rfl

/-- Two hundred envelopes to such addresses: the last is in the queue after more than half an hour. -/
example : (floodTimes 0 0 [] (List.replicate 200 (3000, 20000)))[199]? = some (1983000, 3983000) := by
  decide +kernel

end PeerTimeDemo

end Verif
