import Verif.Props.PeerTables
import Verif.Spec.Mailbox

/-!
# Property C129

What a peer does for an agent does not depend on what the other agents at the peer do.
-/

namespace Verif

namespace Bystanders

open Acn

/-! ## Steps about an agent, and what a peer has of it -/

/-- The record of the registration that a delegate connection is busy with or has made. -/
def connRecord : ConnPhase → Option AgentRecord
  | .accepted r | .recorded r | .listed r | .stale r => some r
  | .fresh | .gone => none

/-- The same for a registration stream. -/
def relayRecord : RelayPhase → Option AgentRecord
  | .accepted r _ | .recorded r _ => some r
  | .fresh | .done => none

/-- A step of the mailbox service is about an agent: it registers, leaves or collects envelopes, or an
envelope for it comes in. -/
def AboutMail (m : Mailbox) (b : Bytes) : Mailbox.Step → Prop
  | .register req _ _ => ∃ body r, req.body = some body ∧ AgentRecord.decode body = some r ∧ r.address = b
  | .unregisterEnd i => ∃ id, m.leaving[i]? = some (id, b)
  | .get req _ => MailSpec.ownerOf m req.session = some b
  | .route e => e.to = b
  | .unregisterBegin _ | .send _ => False

/-- A step of the peer is about an agent: a step of its registration over a connection or stream, the
end of its connection, a step of its mailbox, or an envelope for it. -/
def About (s : Tables) (b : Bytes) : Tables.Step → Prop
  | .delegateRecord c | .delegateConn c | .delegateEnd c => ∃ r, connRecord (s.conns c) = some r ∧ r.address = b
  | .relayRecord k | .relayPeer k _ => ∃ r, relayRecord (s.relays k) = some r ∧ r.address = b
  | .mailbox st => ∃ m, s.peer.mailbox = some m ∧ AboutMail m b st
  | .route _ e | .handle _ e => e.to = b
  | .delegate _ _ | .delegateFail _ | .relay _ _ _ => False

/-- Two states of a peer agree on an agent. -/
structure Same (s t : PeerState) (b : Bytes) : Prop where
  myAgent : s.myAgent = t.myAgent
  myRecord : s.myRecord = t.myRecord
  hasAgent : s.hasAgent = t.hasAgent
  closing : s.closing = t.closing
  record : s.agentRecords.get b = t.agentRecords.get b
  conn : s.tcpAddresses.get b = t.tcpAddresses.get b
  relay : s.dhtAddresses.get b = t.dhtAddresses.get b
  service : s.mailbox.isSome = t.mailbox.isSome
  waiting : s.mailbox.bind (·.envelopes.get b) = t.mailbox.bind (·.envelopes.get b)
  mailRecord : s.mailbox.bind (·.records.get b) = t.mailbox.bind (·.records.get b)

theorem Same.refl (s : PeerState) (b : Bytes) : Same s s b := ⟨rfl, rfl, rfl, rfl, rfl, rfl, rfl, rfl, rfl, rfl⟩

theorem Same.trans {s t u : PeerState} {b : Bytes} (h : Same s t b) (h' : Same t u b) : Same s u b :=
  ⟨h.1.trans h'.1, h.2.trans h'.2, h.3.trans h'.3, h.4.trans h'.4, h.5.trans h'.5, h.6.trans h'.6,
    h.7.trans h'.7, h.8.trans h'.8, h.9.trans h'.9, h.10.trans h'.10⟩

theorem Same.symm {s t : PeerState} {b : Bytes} (h : Same s t b) : Same t s b :=
  ⟨h.1.symm, h.2.symm, h.3.symm, h.4.symm, h.5.symm, h.6.symm, h.7.symm, h.8.symm, h.9.symm, h.10.symm⟩

/-- Steps of which none is about the agent when it is taken. -/
def Quiet (E : PeerEnv) (b : Bytes) : Tables → List Tables.Step → Prop
  | _, [] => True
  | s, st :: rest => ¬ About s b st ∧ Quiet E b (s.step E st) rest

/-! ## Steps about others leave everything as it is -/

theorem mailbox_same {por : PoRCheck} {key b : Bytes} {m : Mailbox} {st : Mailbox.Step} (h : ¬ AboutMail m b st) :
    ((m.step por key st).1.envelopes.get b = m.envelopes.get b) ∧
    ((m.step por key st).1.records.get b = m.records.get b) := by
  cases st with
  | register req uuid announce =>
    simp only [Mailbox.step, Mailbox.register]
    split
    · exact ⟨rfl, rfl⟩
    split
    · exact ⟨rfl, rfl⟩
    · exact ⟨rfl, rfl⟩
    · rename_i body hb _
      split
      · exact ⟨rfl, rfl⟩
      · rename_i r hd
        have hne : b ≠ r.address := fun hx => h ⟨_, r, by assumption, hd, hx.symm⟩
        split
        · exact ⟨rfl, rfl⟩
        · exact ⟨rfl, rfl⟩
        · split
          · exact ⟨GoMap.get_set_ne _ _ hne, GoMap.get_set_ne _ _ hne⟩
          · exact ⟨rfl, rfl⟩
        · exact ⟨rfl, rfl⟩
  | unregisterBegin req =>
    simp only [Mailbox.step, Mailbox.unregisterBegin]
    repeat' split
    all_goals exact ⟨rfl, rfl⟩
  | unregisterEnd i =>
    simp only [Mailbox.step, Mailbox.unregisterEnd]
    split
    · exact ⟨rfl, rfl⟩
    · rename_i id addr hl
      have hne : b ≠ addr := fun hx => h ⟨id, hx ▸ hl⟩
      exact ⟨GoMap.get_erase_ne _ hne, GoMap.get_erase_ne _ hne⟩
  | send req => exact ⟨rfl, rfl⟩
  | get req written =>
    simp only [Mailbox.step, Mailbox.getEnvelope]
    split
    · exact ⟨rfl, rfl⟩
    split
    · exact ⟨rfl, rfl⟩
    · rename_i addr ha
      have hne : b ≠ addr := by
        rintro rfl
        apply h
        show MailSpec.ownerOf m req.session = some b
        unfold Mailbox.sessionAddr at ha
        cases hs : req.session with
        | none => rw [hs] at ha; simp at ha
        | some id => rw [hs] at ha; simpa [MailSpec.ownerOf] using ha
      split
      · exact ⟨rfl, rfl⟩
      · split
        · exact ⟨rfl, rfl⟩
        · split
          · exact ⟨GoMap.get_set_ne _ _ hne, rfl⟩
          · exact ⟨rfl, rfl⟩
  | route e =>
    have hne : b ≠ e.to := fun hx => h hx.symm
    simp only [Mailbox.step, Mailbox.route]
    split
    · exact ⟨rfl, rfl⟩
    · split
      · exact ⟨rfl, rfl⟩
      · exact ⟨GoMap.get_set_ne _ _ hne, rfl⟩

theorem same_mailbox {s : PeerState} {b : Bytes} {f : Mailbox → Mailbox}
    (h : ∀ m, s.mailbox = some m →
      (f m).envelopes.get b = m.envelopes.get b ∧ (f m).records.get b = m.records.get b) :
    Same s { s with mailbox := s.mailbox.map f } b := by
  refine ⟨rfl, rfl, rfl, rfl, rfl, rfl, rfl, ?_, ?_, ?_⟩ <;> cases hm : s.mailbox with
  | none => rfl
  | some m => simp [(h m hm).1, (h m hm).2]

theorem mailboxRoute_map (s : PeerState) (e : Envelope) :
    (mailboxRoute s e).1 = { s with mailbox := s.mailbox.map fun m => (m.route e).1 } := by
  obtain ⟨_, _, _, mb, _, _, _, _⟩ := s
  cases mb <;> rfl

theorem same_mailboxRoute {s : PeerState} {b : Bytes} {e : Envelope} (h : e.to ≠ b) :
    Same s (mailboxRoute s e).1 b := by
  rw [mailboxRoute_map]
  exact same_mailbox fun m _ => mailbox_same (por := fun _ _ _ => .panic) (key := []) (st := .route e) h

theorem routeEnvelope_state (s : PeerState) (n : Net) (e : Envelope) :
    (routeEnvelope s n e).1 = if (envelopeRecord s e).isSome then (mailboxRoute s e).1 else s := by
  unfold routeEnvelope
  split
  · rename_i h; rw [h]; rfl
  · rename_i h
    rw [h, Option.isSome_some, if_pos rfl]
    dsimp only
    repeat' split
    all_goals rfl

theorem handleAeaEnvelope_state (s : PeerState) (n : Net) (e : Envelope) :
    (handleAeaEnvelope s n e).1 = (mailboxRoute s e).1 := by
  unfold handleAeaEnvelope
  dsimp only
  repeat' split
  all_goals rfl

/-- **C129, one step**: a step that is not about an agent leaves everything the peer has of it as it is. -/
theorem C129_step {E : PeerEnv} {s : Tables} {st : Tables.Step} {b : Bytes} (h : ¬ About s b st) :
    Same s.peer (s.step E st).peer b := by
  cases st with
  | delegate c p => simp only [Tables.step]; split <;> exact .refl _ _
  | delegateFail c => simp only [Tables.step]; split <;> exact .refl _ _
  | relay k rem p => simp only [Tables.step]; split <;> exact .refl _ _
  | delegateRecord c =>
    simp only [Tables.step]
    split
    · rename_i r hc
      have hne : b ≠ r.address := fun hx => h ⟨r, by rw [hc]; rfl, hx.symm⟩
      exact ⟨rfl, rfl, rfl, rfl, (GoMap.get_set_ne _ _ hne).symm, rfl, rfl, rfl, rfl, rfl⟩
    · exact .refl _ _
  | delegateConn c =>
    simp only [Tables.step]
    split
    · rename_i r hc
      have hne : b ≠ r.address := fun hx => h ⟨r, by rw [hc]; rfl, hx.symm⟩
      exact ⟨rfl, rfl, rfl, rfl, rfl, (GoMap.get_set_ne _ _ hne).symm, rfl, rfl, rfl, rfl⟩
    · exact .refl _ _
  | delegateEnd c =>
    simp only [Tables.step]
    split
    · rename_i r hc
      have hne : b ≠ r.address := fun hx => h ⟨r, by rw [hc]; rfl, hx.symm⟩
      exact ⟨rfl, rfl, rfl, rfl, rfl, (GoMap.get_erase_ne _ hne).symm, rfl, rfl, rfl, rfl⟩
    · exact .refl _ _
  | relayRecord k =>
    simp only [Tables.step]
    split
    · rename_i r rem hc
      have hne : b ≠ r.address := fun hx => h ⟨r, by rw [hc]; rfl, hx.symm⟩
      exact ⟨rfl, rfl, rfl, rfl, (GoMap.get_set_ne _ _ hne).symm, rfl, rfl, rfl, rfl, rfl⟩
    · exact .refl _ _
  | relayPeer k w =>
    simp only [Tables.step]
    split
    · rename_i r rem hc
      have hne : b ≠ r.address := fun hx => h ⟨r, by rw [hc]; rfl, hx.symm⟩
      split <;>
        exact ⟨rfl, rfl, rfl, rfl, rfl, rfl, (GoMap.get_set_ne _ _ hne).symm, rfl, rfl, rfl⟩
    · exact .refl _ _
  | mailbox st => exact same_mailbox fun m hm => mailbox_same fun ha => h ⟨m, hm, ha⟩
  | route n e =>
    show Same s.peer (routeEnvelope s.peer n e).1 b
    rw [routeEnvelope_state]
    split
    · exact same_mailboxRoute h
    · exact .refl _ _
  | handle n e =>
    show Same s.peer (handleAeaEnvelope s.peer n e).1 b
    rw [handleAeaEnvelope_state]
    exact same_mailboxRoute h

/-- **C129, runs**: however long others are at work, the peer has of an agent what it had. -/
theorem C129_run {E : PeerEnv} {b : Bytes} : ∀ {steps : List Tables.Step} {s : Tables}, Quiet E b s steps →
    Same s.peer (s.run E steps).peer b
  | [], _, _ => .refl _ _
  | _ :: _, _, h => (C129_step h.1).trans (C129_run h.2)

/-! ## What is done for an agent depends on nothing else -/

theorem isRegistered_same {s t : PeerState} {b : Bytes} (h : Same s t b) : s.inMailbox b = t.inMailbox b := by
  have h1 := h.service
  have h2 := h.waiting
  unfold PeerState.inMailbox
  cases hs : s.mailbox <;> cases ht : t.mailbox <;> rw [hs, ht] at h1 h2 <;> simp at h1 h2 ⊢
  simp [Mailbox.isRegistered, GoMap.has, h2]

theorem getRecord_same {s t : PeerState} {b : Bytes} (h : Same s t b) :
    (s.mailbox.bind fun m => m.getRecord b) = t.mailbox.bind fun m => m.getRecord b := by
  have h1 := h.service
  have h2 := h.waiting
  have h3 := h.mailRecord
  cases hs : s.mailbox <;> cases ht : t.mailbox <;> rw [hs, ht] at h1 h2 h3 <;> simp at h1 h2 h3 ⊢
  simp only [Mailbox.getRecord, Mailbox.isRegistered, GoMap.has, h2, h3]
  rfl

theorem envelopeRecord_eq (s : PeerState) (e : Envelope) :
    envelopeRecord s e =
      if e.sender = s.myAgent then some s.myRecord
      else if s.inMailbox e.sender = true then some (s.mailbox.bind fun m => m.getRecord e.sender)
      else (s.agentRecords.get e.sender).map some := by
  unfold envelopeRecord
  split
  · rfl
  · show (if s.inMailbox e.sender = true then _ else _) = _
    split
    · rfl
    · cases s.agentRecords.get e.sender <;> rfl

theorem envelopeRecord_same {s t : PeerState} {e : Envelope} (h : Same s t e.sender) :
    envelopeRecord s e = envelopeRecord t e := by
  rw [envelopeRecord_eq, envelopeRecord_eq, h.myAgent, h.myRecord, isRegistered_same h, getRecord_same h, h.record]

theorem mailboxRoute_same {s t : PeerState} {e : Envelope} (h : Same s t e.to) :
    (mailboxRoute s e).2 = (mailboxRoute t e).2 := by
  have h1 := h.service
  have h2 := h.waiting
  unfold mailboxRoute
  cases hs : s.mailbox <;> cases ht : t.mailbox <;> rw [hs, ht] at h1 h2 <;> simp at h1 h2 ⊢
  simp only [Mailbox.route, h2]
  split
  · rfl
  · split <;> rfl

theorem mailboxRoute_state_same {s t : PeerState} {e : Envelope} {b : Bytes} (h : Same s t b) :
    Same (mailboxRoute s e).1 (mailboxRoute t e).1 b := by
  by_cases hb : e.to = b
  · subst hb
    rw [mailboxRoute_map, mailboxRoute_map]
    have h1 := h.service
    have h2 := h.waiting
    have h3 := h.mailRecord
    refine ⟨h.1, h.2, h.3, h.4, h.5, h.6, h.7, ?_, ?_, ?_⟩ <;>
    · cases hs : s.mailbox <;> cases ht : t.mailbox <;> rw [hs, ht] at h1 h2 h3 <;> simp at h1 h2 h3 ⊢
      try
        rename_i m m'
        simp only [Mailbox.route, h2]
        cases hq : m'.envelopes.get e.to with
        | none => simp [h2, h3, hq]
        | some l => by_cases hl : Mailbox.limit ≤ l.length <;> simp [hl, h2, h3, hq, GoMap.get_set_self]
  · exact (same_mailboxRoute hb).symm.trans (h.trans (same_mailboxRoute hb))

theorem routeDHTLookup_same {s t : PeerState} {n : Net} {e : Envelope} (h : Same s t e.sender) :
    routeDHTLookup s n e = routeDHTLookup t n e := by
  unfold routeDHTLookup; rw [envelopeRecord_same h]

/-- **C129, envelopes from local agents**: routing does the same in two states that agree on receiver and
sender, and they agree afterwards on every agent that they agreed on. -/
theorem C129_route {s t : PeerState} {n : Net} {e : Envelope} (hto : Same s t e.to) (hfrom : Same s t e.sender) :
    (routeEnvelope s n e).2 = (routeEnvelope t n e).2 ∧
    ∀ b, Same s t b → Same (routeEnvelope s n e).1 (routeEnvelope t n e).1 b := by
  constructor
  · unfold routeEnvelope
    rw [envelopeRecord_same hfrom]
    cases envelopeRecord t e with
    | none => rfl
    | some record =>
      have hm := mailboxRoute_same hto
      have hs := mailboxRoute_fst s e
      have ht := mailboxRoute_fst t e
      rw [← mailboxRoute_snd] at hs ht
      rcases hx : mailboxRoute s e with ⟨s', ok⟩
      rcases hy : mailboxRoute t e with ⟨t', ok'⟩
      rw [hx] at hm hs
      rw [hy] at hm ht
      dsimp only at hm hs ht ⊢
      subst hm
      cases ok with
      | true => rfl
      | false =>
        rw [hs (by simp), ht (by simp), hto.myAgent, hto.hasAgent, hto.closing, hto.conn, hto.relay,
          routeDHTLookup_same hfrom]
        simp only [Bool.false_eq_true, if_false]
        repeat' split
        all_goals rfl
  · intro b hb
    rw [routeEnvelope_state, routeEnvelope_state, envelopeRecord_same hfrom]
    split
    · exact mailboxRoute_state_same hb
    · exact hb

/-- **C129, envelopes waiting for their receiver to appear**. -/
theorem C129_slow {s t : PeerState} {n : Net} {e : Envelope} (hfrom : Same s t e.sender) :
    slowAttempt s n e = slowAttempt t n e := by
  unfold slowAttempt; rw [hfrom.closing, routeDHTLookup_same hfrom]

/-- **C129, envelopes from other peers**: they do not depend on the sender either. -/
theorem C129_handle {s t : PeerState} {n : Net} {e : Envelope} (hto : Same s t e.to) :
    (handleAeaEnvelope s n e).2 = (handleAeaEnvelope t n e).2 ∧
    ∀ b, Same s t b → Same (handleAeaEnvelope s n e).1 (handleAeaEnvelope t n e).1 b := by
  constructor
  · unfold handleAeaEnvelope
    have hm := mailboxRoute_same hto
    have hs := mailboxRoute_fst s e
    have ht := mailboxRoute_fst t e
    rw [← mailboxRoute_snd] at hs ht
    rcases hx : mailboxRoute s e with ⟨s', ok⟩
    rcases hy : mailboxRoute t e with ⟨t', ok'⟩
    rw [hx] at hm hs
    rw [hy] at hm ht
    dsimp only at hm hs ht ⊢
    subst hm
    cases ok with
    | true => rfl
    | false =>
      rw [hs (by simp), ht (by simp), hto.myAgent, hto.hasAgent, hto.conn]
      simp only [Bool.false_eq_true, if_false]
      repeat' split
      all_goals rfl
  · intro b hb
    rw [handleAeaEnvelope_state, handleAeaEnvelope_state]
    exact mailboxRoute_state_same hb

/-- **C129, questions for an agent**. -/
theorem C129_asked {s t : PeerState} {n : Net} {myId : Bool} {b : Bytes} (h : Same s t b) :
    handleAddressRequest s n myId b = handleAddressRequest t n myId b := by
  rw [handleAddressRequest_eq, handleAddressRequest_eq, h.myAgent, h.myRecord, h.relay, h.record, h.conn,
    isRegistered_same h, getRecord_same h]

/-- **C129, all together**: after any steps about others, envelopes between two agents are treated, and
questions for an agent answered, as before. -/
theorem C129_undisturbed {E : PeerEnv} {s : Tables} {steps : List Tables.Step} {e : Envelope}
    (hto : Quiet E e.to s steps) (n : Net) :
    (Quiet E e.sender s steps →
      (routeEnvelope (s.run E steps).peer n e).2 = (routeEnvelope s.peer n e).2 ∧
      slowAttempt (s.run E steps).peer n e = slowAttempt s.peer n e) ∧
    (handleAeaEnvelope (s.run E steps).peer n e).2 = (handleAeaEnvelope s.peer n e).2 ∧
    ∀ myId, handleAddressRequest (s.run E steps).peer n myId e.to = handleAddressRequest s.peer n myId e.to :=
  ⟨fun hfrom => ⟨(C129_route (C129_run hto).symm (C129_run hfrom).symm).1, C129_slow (C129_run hfrom).symm⟩,
    (C129_handle (C129_run hto).symm).1, fun _ => C129_asked (C129_run hto).symm⟩

/-! ## A concrete case -/

namespace BystandersDemo

open Tables TablesDemo

/-- A peer with its own agent `me`, the delegate client `del` and mailboxes. -/
def busy : Tables := ⟨RouteDemo.peer, [], fun _ => .fresh, fun _ => .fresh, []⟩

/-- Others at work: `ag` registers as a delegate, and an envelope comes for `bob`. -/
def others : List Step :=
  [.delegate 0 (reg (b! "pk")), .delegateRecord 0, .delegateConn 0, .route RouteDemo.net (RouteDemo.env (b! "bob")),
   .mailbox (.get ⟨b! "GET", some (b! "s1"), none⟩ true), .delegateEnd 0]

set_option maxRecDepth 100000 in
theorem others_quiet {b : Bytes} (h : b = b! "me" ∨ b = b! "del") : Quiet E b busy others := by
  have hag : ∀ r, some (TablesDemo.rec (b! "pk")) = some r → r.address = b → False := by
    intro r hr hb
    cases hr
    rcases h with rfl | rfl <;> exact absurd hb (by decide)
  refine ⟨id, ?_, ?_, ?_, ?_, ?_, trivial⟩
  · rintro ⟨r, hr, hb⟩
    exact hag r ((show connRecord ((busy.run E (others.take 1)).conns 0) = _ by decide).symm.trans hr) hb
  · rintro ⟨r, hr, hb⟩
    exact hag r ((show connRecord ((busy.run E (others.take 2)).conns 0) = _ by decide).symm.trans hr) hb
  · rcases h with rfl | rfl <;> (show ¬ (b! "bob" = _); decide)
  · rintro ⟨m, hm, ho⟩
    rw [show m = (RouteDemo.mbox.route (RouteDemo.env (b! "bob"))).1 from (Option.some.inj hm).symm] at ho
    have hn : MailSpec.ownerOf (RouteDemo.mbox.route (RouteDemo.env (b! "bob"))).1 (some (b! "s1")) =
        some (b! "eve") := by decide
    have := hn.symm.trans ho
    rcases h with rfl | rfl <;> exact absurd this (by decide)
  · rintro ⟨r, hr, hb⟩
    exact hag r ((show connRecord ((busy.run E (others.take 5)).conns 0) = _ by decide).symm.trans hr) hb

/-- The envelopes that `me` sends to `del` are treated as before. -/
example : (routeEnvelope (busy.run E others).peer RouteDemo.net (RouteDemo.env (b! "del"))).2 =
    (routeEnvelope busy.peer RouteDemo.net (RouteDemo.env (b! "del"))).2 :=
  ((C129_undisturbed (others_quiet (.inr rfl)) _).1 (others_quiet (.inl rfl))).1

set_option maxRecDepth 100000 in
/-- The steps did something: there is a record of `ag` now, and an envelope for `bob`. -/
example : busy.peer.agentRecords.get (b! "ag") = none ∧
    (busy.run E others).peer.agentRecords.get (b! "ag") = some (TablesDemo.rec (b! "pk")) ∧
    ((busy.run E others).peer.mailbox.bind (·.envelopes.get (b! "bob"))) = some [RouteDemo.env (b! "bob")] := by
  decide

set_option maxRecDepth 100000 in
/-- The condition is needed: steps about an agent change what is done for it. -/
example : handleAddressRequest busy.peer { RouteDemo.net with rounds := [] } true (b! "xy") = .running ∧
    handleAddressRequest { busy.peer with dhtAddresses := busy.peer.dhtAddresses.set (b! "xy") (b! "id") }
      { RouteDemo.net with rounds := [] } true (b! "xy") = .error := by
  decide

end BystandersDemo

end Bystanders

end Verif
