import Verif.Model.Routing
import Verif.Props.Mailbox

/-!
# C28, C31, C33, C38: routing at a peer
-/

namespace Verif

open Acn

/-! ## C33 -/

theorem lookupProviders_found {por : PoRCheck} {idFrom : Bytes → Option Bytes} {address : Bytes}
    {err : Bool} {last : Bytes} {ps : List Provider} {peer : Bytes} {rec : Option AgentRecord}
    (h : lookupProviders por idFrom address err last ps = .done (.found peer rec)) :
    ∃ r, rec = some r ∧ por r address r.peerPublicKey = .ok .success ∧
      idFrom r.peerPublicKey = some peer ∧
      ∃ p ∈ ps, ∃ pipe, p.stream = some pipe ∧ (performAddressLookup address pipe).1 = .ok (some r) := by
  induction ps generalizing err last with
  | nil => simp [lookupProviders] at h
  | cons p ps ih =>
    have lift : (∃ r, rec = some r ∧ por r address r.peerPublicKey = .ok .success ∧
        idFrom r.peerPublicKey = some peer ∧
        ∃ p ∈ ps, ∃ pipe, p.stream = some pipe ∧
          (performAddressLookup address pipe).1 = .ok (some r)) →
        (∃ r, rec = some r ∧ por r address r.peerPublicKey = .ok .success ∧
        idFrom r.peerPublicKey = some peer ∧
        ∃ p' ∈ p :: ps, ∃ pipe, p'.stream = some pipe ∧
          (performAddressLookup address pipe).1 = .ok (some r)) := by
      rintro ⟨r, h1, h2, h3, p', hp', h4⟩
      exact ⟨r, h1, h2, h3, p', List.mem_cons_of_mem _ hp', h4⟩
    unfold lookupProviders at h
    cases hs : p.stream with
    | none => rw [hs] at h; exact lift (ih h)
    | some pipe =>
      rw [hs] at h
      dsimp only at h
      cases hl : (performAddressLookup address pipe).1 with
      | panic => rw [hl] at h; simp at h
      | err e => rw [hl] at h; exact lift (ih h)
      | ok o =>
        rw [hl] at h
        cases o with
        | none => simp at h
        | some r =>
          dsimp only at h
          cases hp : por r address r.peerPublicKey with
          | panic => rw [hp] at h; simp at h
          | err e => rw [hp] at h; exact lift (ih h)
          | ok c =>
            rw [hp] at h
            cases c
            case success =>
              dsimp only at h
              cases hi : idFrom r.peerPublicKey with
              | none => rw [hi] at h; simp at h
              | some id =>
                rw [hi] at h
                simp only [ProvidersEnd.done.injEq, LookupEnd.found.injEq] at h
                obtain ⟨rfl, rfl⟩ := h
                exact ⟨r, rfl, hp, hi, p, List.mem_cons_self, pipe, hs, hl⟩
            all_goals exact lift (ih h)

/-- The error variable after the loop is the outcome of opening the last stream. -/
theorem lookupProviders_exhausted {por : PoRCheck} {idFrom : Bytes → Option Bytes} {address : Bytes}
    {err err' : Bool} {last last' : Bytes} {ps : List Provider}
    (h : lookupProviders por idFrom address err last ps = .exhausted err' last') :
    match ps.getLast? with
    | none => err' = err ∧ last' = last
    | some p => err' = p.stream.isNone ∧ last' = p.id := by
  induction ps generalizing err last with
  | nil =>
    simp only [lookupProviders, ProvidersEnd.exhausted.injEq] at h
    simp [h.1, h.2]
  | cons p ps ih =>
    have step : ∀ b, p.stream.isNone = b → lookupProviders por idFrom address b p.id ps =
        .exhausted err' last' → match (p :: ps).getLast? with
          | none => err' = err ∧ last' = last
          | some p => err' = p.stream.isNone ∧ last' = p.id := by
      intro b hb hh
      have := ih hh
      cases hg : ps.getLast? with
      | none =>
        rw [hg] at this
        rw [List.getLast?_eq_none_iff] at hg
        subst hg
        simp [this.1, this.2, hb]
      | some q =>
        rw [hg] at this
        rw [List.getLast?_cons, hg]
        exact this
    unfold lookupProviders at h
    cases hs : p.stream with
    | none => rw [hs] at h; exact step true (by simp [hs]) h
    | some pipe =>
      rw [hs] at h
      have hf : p.stream.isNone = false := by simp [hs]
      dsimp only at h
      cases hl : (performAddressLookup address pipe).1 with
      | panic => rw [hl] at h; simp at h
      | err e => rw [hl] at h; exact step false hf h
      | ok o =>
        rw [hl] at h
        cases o with
        | none => simp at h
        | some r =>
          dsimp only at h
          cases hp : por r address r.peerPublicKey with
          | panic => rw [hp] at h; simp at h
          | err e => rw [hp] at h; exact step false hf h
          | ok c =>
            rw [hp] at h
            cases c
            case success =>
              dsimp only at h
              cases hi : idFrom r.peerPublicKey <;> rw [hi] at h <;> simp at h
            all_goals exact step false hf h

/-- **C33, partial.** Whenever a look-up reports success and returns a record, some provider sent
that record, its proof of representation for the address and the peer key in it is valid, and
the peer returned is the one with that key. Missing from the property: a look-up can report success
without peer and record. -/
theorem C33_found_record_proven_partial (por : PoRCheck) (idFrom : Bytes → Option Bytes) (cid : Bool)
    (address : Bytes) (rounds : List LookupRound) (peer : Bytes) (r : AgentRecord)
    (h : lookupAddressDHT por idFrom cid address rounds = .found peer (some r)) :
    por r address r.peerPublicKey = .ok .success ∧ idFrom r.peerPublicKey = some peer ∧
      ∃ round ∈ rounds, ∃ p ∈ round.providers, ∃ pipe, p.stream = some pipe ∧
        (performAddressLookup address pipe).1 = .ok (some r) := by
  unfold lookupAddressDHT at h
  split at h
  case isFalse => simp at h
  have key : ∀ (rounds : List LookupRound) (err : Bool) (last : Bytes),
      lookupRounds por idFrom address err last rounds = .found peer (some r) →
      por r address r.peerPublicKey = .ok .success ∧ idFrom r.peerPublicKey = some peer ∧
      ∃ round ∈ rounds, ∃ p ∈ round.providers, ∃ pipe, p.stream = some pipe ∧
        (performAddressLookup address pipe).1 = .ok (some r) := by
    intro rounds
    induction rounds with
    | nil => intro err last h; simp [lookupRounds] at h
    | cons rd rest ih =>
      intro err last h
      unfold lookupRounds at h
      cases hp : lookupProviders por idFrom address err last rd.providers with
      | done e =>
        rw [hp] at h
        dsimp only at h
        subst h
        obtain ⟨r', hr, h1, h2, p, hpm, h3⟩ := lookupProviders_found hp
        cases hr
        exact ⟨h1, h2, rd, List.mem_cons_self, p, hpm, h3⟩
      | exhausted err' last' =>
        rw [hp] at h
        dsimp only at h
        split at h
        · split at h
          · simp at h
          · obtain ⟨h1, h2, rd', hm, h3⟩ := ih _ _ h
            exact ⟨h1, h2, rd', List.mem_cons_of_mem _ hm, h3⟩
        · split at h <;> simp at h
  exact key rounds _ _ h

/-- What a provider did that was asked and did not end the look-up. -/
def Unhelpful (por : PoRCheck) (address : Bytes) (p : Provider) : Prop :=
  p.stream = none ∨ ∃ pipe, p.stream = some pipe ∧
    ((∃ e, (performAddressLookup address pipe).1 = .err e) ∨
     ∃ r, (performAddressLookup address pipe).1 = .ok (some r) ∧
       (por r address r.peerPublicKey).NoPanic ∧ por r address r.peerPublicKey ≠ .ok .success)

theorem lookupProviders_exhausted_iff (por : PoRCheck) (idFrom : Bytes → Option Bytes) (address : Bytes)
    (ps : List Provider) : ∀ (err : Bool) (last : Bytes),
    (∃ err' last', lookupProviders por idFrom address err last ps = .exhausted err' last') ↔
      ∀ p ∈ ps, Unhelpful por address p := by
  induction ps with
  | nil => intro err last; simp [lookupProviders]
  | cons p ps ih =>
    intro err last
    rw [List.forall_mem_cons]
    unfold lookupProviders
    cases hs : p.stream with
    | none =>
      dsimp only
      rw [ih]
      have : Unhelpful por address p := Or.inl hs
      simp [this]
    | some pipe =>
      dsimp only
      have hU : Unhelpful por address p ↔ ((∃ e, (performAddressLookup address pipe).1 = .err e) ∨
          ∃ r, (performAddressLookup address pipe).1 = .ok (some r) ∧
          (por r address r.peerPublicKey).NoPanic ∧ por r address r.peerPublicKey ≠ .ok .success) := by
        unfold Unhelpful
        simp [hs]
      cases hl : (performAddressLookup address pipe).1 with
      | panic => rw [hl] at hU; simp at hU; simp [hU]
      | err e => rw [hl] at hU; simp at hU; dsimp only; rw [ih]; simp [hU]
      | ok o =>
        rw [hl] at hU
        cases o with
        | none => simp at hU; simp [hU]
        | some r =>
          simp only [reduceCtorEq, exists_false, false_or, Res.ok.injEq, Option.some.injEq,
            exists_eq_left'] at hU
          dsimp only
          cases hp : por r address r.peerPublicKey with
          | panic =>
            rw [hp] at hU
            simp [Res.NoPanic] at hU
            simp [hU]
          | err e =>
            rw [hp] at hU
            simp [Res.NoPanic] at hU
            dsimp only
            rw [ih]; simp [hU]
          | ok c =>
            rw [hp] at hU
            cases c
            case success =>
              simp at hU
              dsimp only
              cases idFrom r.peerPublicKey <;> simp [hU]
            all_goals
              simp [Res.NoPanic] at hU
              dsimp only
              rw [ih]; simp [hU]

/-- **C33.** A look-up reports success without a peer exactly if the first round that finds
providers (with an id) finds none that helps, and the stream to the last one could be opened. -/
theorem C33_empty_success_iff (por : PoRCheck) (idFrom : Bytes → Option Bytes)
    (address : Bytes) (rounds : List LookupRound)
    (hid : ∀ rd ∈ rounds, ∀ p ∈ rd.providers, p.id ≠ []) (peer : Bytes) :
    lookupAddressDHT por idFrom true address rounds = .found peer none ↔
      peer = [] ∧ ∃ pre rd post p, rounds = pre ++ rd :: post ∧
        (∀ rd ∈ pre, rd.providers = [] ∧ rd.expired = false) ∧
        rd.providers.getLast? = some p ∧ p.stream ≠ none ∧
        ∀ p ∈ rd.providers, Unhelpful por address p := by
  simp only [lookupAddressDHT, if_true]
  suffices key : ∀ (rounds : List LookupRound) (err : Bool),
      (∀ rd ∈ rounds, ∀ p ∈ rd.providers, p.id ≠ []) →
      (lookupRounds por idFrom address err [] rounds = .found peer none ↔
        peer = [] ∧ ∃ pre rd post p, rounds = pre ++ rd :: post ∧
          (∀ rd ∈ pre, rd.providers = [] ∧ rd.expired = false) ∧
          rd.providers.getLast? = some p ∧ p.stream ≠ none ∧
          ∀ p ∈ rd.providers, Unhelpful por address p) from key rounds false hid
  clear hid rounds
  intro rounds
  induction rounds with
  | nil =>
    intro err hid
    simp [lookupRounds]
  | cons rd rest ih =>
    intro err hid
    have hrest : ∀ rd ∈ rest, ∀ p ∈ rd.providers, p.id ≠ [] := fun r hr =>
      hid r (List.mem_cons_of_mem _ hr)
    unfold lookupRounds
    cases hp : lookupProviders por idFrom address err [] rd.providers with
    | done e =>
      dsimp only
      have hne : ¬ ∀ p ∈ rd.providers, Unhelpful por address p := by
        rw [← lookupProviders_exhausted_iff por idFrom address rd.providers err []]
        rintro ⟨a, b, h⟩; rw [hp] at h; simp at h
      have hnz : rd.providers ≠ [] := by
        intro h0; rw [h0] at hne; simp at hne
      constructor
      · intro he
        subst he
        obtain ⟨r, hr, _⟩ := lookupProviders_found hp
        simp at hr
      · rintro ⟨_, pre, rd', post, p, heq, hpre, _, _, hall⟩
        cases pre with
        | nil =>
          simp only [List.nil_append, List.cons.injEq] at heq
          rw [← heq.1] at hall
          exact absurd hall hne
        | cons x pre =>
          simp only [List.cons_append, List.cons.injEq] at heq
          have := (hpre x (by simp)).1
          rw [← heq.1] at this
          exact absurd this hnz
    | exhausted err' last' =>
      dsimp only
      have hall := (lookupProviders_exhausted_iff por idFrom address rd.providers err []).1
        ⟨err', last', hp⟩
      have hlast := lookupProviders_exhausted hp
      cases hg : rd.providers.getLast? with
      | none =>
        rw [hg] at hlast
        simp only at hlast
        rw [List.getLast?_eq_none_iff] at hg
        rw [hlast.2, if_pos rfl]
        cases hx : rd.expired with
        | true =>
          simp only [if_true, reduceCtorEq, false_iff]
          rintro ⟨_, pre, rd', post, p, heq, hpre, hgl, _, _⟩
          cases pre with
          | nil =>
            simp only [List.nil_append, List.cons.injEq] at heq
            rw [← heq.1, hg] at hgl; simp at hgl
          | cons x pre =>
            simp only [List.cons_append, List.cons.injEq] at heq
            have := (hpre x (by simp)).2
            rw [← heq.1, hx] at this; simp at this
        | false =>
          simp only [Bool.false_eq_true, if_false]
          rw [ih err' hrest]
          constructor
          · rintro ⟨h0, pre, rd', post, p, heq, hpre, h1⟩
            refine ⟨h0, rd :: pre, rd', post, p, by rw [heq]; rfl, ?_, h1⟩
            intro x hxm
            rcases List.mem_cons.1 hxm with rfl | hxm
            · exact ⟨hg, hx⟩
            · exact hpre x hxm
          · rintro ⟨h0, pre, rd', post, p, heq, hpre, h1⟩
            cases pre with
            | nil =>
              simp only [List.nil_append, List.cons.injEq] at heq
              have := h1.1
              rw [← heq.1, hg] at this; simp at this
            | cons x pre =>
              simp only [List.cons_append, List.cons.injEq] at heq
              exact ⟨h0, pre, rd', post, p, heq.2, fun r hr => hpre r (List.mem_cons_of_mem _ hr), h1⟩
      | some q =>
        rw [hg] at hlast
        simp only at hlast
        have hq : q.id ≠ [] := hid rd List.mem_cons_self q (List.mem_of_getLast? hg)
        rw [hlast.2, if_neg hq, hlast.1]
        constructor
        · intro h
          cases hqs : q.stream with
          | none => rw [hqs] at h; simp at h
          | some pipe =>
            rw [hqs] at h
            simp only [Option.isNone_some, Bool.false_eq_true, if_false, LookupEnd.found.injEq,
              and_true] at h
            exact ⟨h.symm, [], rd, rest, q, rfl, by simp, hg, by simp [hqs], hall⟩
        · rintro ⟨h0, pre, rd', post, p, heq, hpre, hgl, hps, _⟩
          cases pre with
          | nil =>
            simp only [List.nil_append, List.cons.injEq] at heq
            rw [← heq.1, hg] at hgl
            cases hgl
            rw [h0]
            cases hqs : q.stream with
            | none => exact absurd hqs hps
            | some pipe => simp
          | cons x pre =>
            simp only [List.cons_append, List.cons.injEq] at heq
            have := (hpre x (by simp)).1
            rw [← heq.1] at this
            rw [this] at hg; simp at hg

/-! ## What is delivered -/

/-- The action hands the envelope to somebody. -/
def Act.isDelivery : Act → Bool
  | .mailbox _ => true
  | .agent _ => true
  | .conn _ _ => true
  | .stream _ _ => true
  | _ => false

/-- The deliveries of a call. -/
def deliveries (acts : List Act) : List Act := acts.filter Act.isDelivery

/-- The bytes sent to another peer. -/
def peerMessage (e : Envelope) (record : Option AgentRecord) : Option Bytes :=
  e.encode.bind fun eb => AcnMessage.encode (some (.aeaEnvelope eb record))

/-- Everything `_routeEnvelopeWithNewStream` can do. -/
theorem routeWithNewStream_acts (n : Net) (peer : Bytes) (record : Option AgentRecord) (e : Envelope) :
    ∃ del : List Act, (del = [] ∨ ∃ d, peerMessage e record = some d ∧ del = [.stream peer d]) ∧
      (del ≠ [] ↔ n.stream peer ≠ none ∧ peerMessage e record ≠ none) ∧
      (((routeWithNewStream n peer record e).2 = .crashed ∧
          (routeWithNewStream n peer record e).1 = del ∧ del ≠ []) ∨
       ((routeWithNewStream n peer record e).2 = .err ∧
          (routeWithNewStream n peer record e).1 = del ++ [.dec]) ∨
       ((routeWithNewStream n peer record e).2 = .ok ∧
          (routeWithNewStream n peer record e).1 = del ++ [.dec] ∧ del ≠ [])) := by
  unfold routeWithNewStream peerMessage
  cases hs : n.stream peer with
  | none => exact ⟨[], .inl rfl, by simp, .inr (.inl ⟨rfl, rfl⟩)⟩
  | some p0 =>
    dsimp only
    cases he : e.encode with
    | none => exact ⟨[], .inl rfl, by simp, .inr (.inl ⟨rfl, rfl⟩)⟩
    | some eb =>
      simp only [Option.bind_some, sendEnvelope, sendMessage]
      cases hm : AcnMessage.encode (some (.aeaEnvelope eb record)) with
      | none => exact ⟨[], .inl rfl, by simp, .inr (.inl ⟨by simp [PipeM.fail], by simp [PipeM.fail]⟩)⟩
      | some d =>
        refine ⟨[.stream peer d], .inr ⟨d, rfl, rfl⟩, by simp, ?_⟩
        dsimp only [Pipe.write]
        rcases p0.writes with _ | ⟨b, ws⟩
        · exact .inr (.inl ⟨rfl, rfl⟩)
        · cases b
          · exact .inr (.inl ⟨rfl, rfl⟩)
          · dsimp only
            generalize hr : (readStatus _).1 = st
            cases st with
            | panic => exact .inl ⟨rfl, rfl, by simp⟩
            | err e => exact .inr (.inl ⟨rfl, rfl⟩)
            | ok o =>
              cases o with
              | none => exact .inl ⟨rfl, rfl, by simp⟩
              | some st =>
                dsimp only
                split
                · exact .inr (.inl ⟨rfl, rfl⟩)
                · exact .inr (.inr ⟨rfl, rfl, by simp⟩)

/-- The mailbox takes the envelope. -/
def Accepts (s : PeerState) (e : Envelope) : Prop :=
  ∃ m q, s.mailbox = some m ∧ m.envelopes.get e.to = some q ∧ q.length < 1000

theorem mailboxRoute_snd (s : PeerState) (e : Envelope) :
    (mailboxRoute s e).2 = true ↔ Accepts s e := by
  unfold mailboxRoute Accepts
  cases hm : s.mailbox with
  | none => simp
  | some m =>
    simp only [Mailbox.route, Mailbox.limit]
    cases hq : m.envelopes.get e.to with
    | none => simp [hq]
    | some q =>
      by_cases h : 1000 ≤ q.length
      · simp [hq, h]
      · simp [hq, h]; omega

theorem mailboxRoute_fst (s : PeerState) (e : Envelope) (h : ¬ Accepts s e) :
    (mailboxRoute s e).1 = s := by
  have hf : (mailboxRoute s e).2 = false := by
    rw [← Bool.not_eq_true, mailboxRoute_snd]; exact h
  unfold mailboxRoute at hf ⊢
  cases hm : s.mailbox with
  | none => rfl
  | some m =>
    rw [hm] at hf
    simp only at hf ⊢
    have : m.route e = (m, false) := by
      unfold Mailbox.route at hf ⊢
      cases hq : m.envelopes.get e.to with
      | none => rfl
      | some q =>
        rw [hq] at hf
        dsimp only at hf ⊢
        by_cases hl : Mailbox.limit ≤ q.length
        · rw [if_pos hl]
        · rw [if_neg hl] at hf; simp at hf
    rw [this]
    cases s
    simp_all

/-- Who should get the envelope, in order of precedence. -/
inductive Dest where
  | mailbox
  | agent
  | delegate (c : Nat)
  | relay (id : Bytes)
  | dht
  deriving DecidableEq, Repr

open Classical in
/-- The destination of an envelope. -/
noncomputable def destination (s : PeerState) (e : Envelope) : Dest :=
  if Accepts s e then .mailbox
  else if e.to = s.myAgent then .agent
  else match s.tcpAddresses.get e.to, s.dhtAddresses.get e.to with
    | some c, _ => .delegate c
    | none, some id => .relay id
    | none, none => .dht

/-- The sender is the own agent or is registered at this peer. -/
def SenderLocal (s : PeerState) (e : Envelope) : Prop :=
  e.sender = s.myAgent ∨ (∃ m, s.mailbox = some m ∧ m.envelopes.has e.sender = true) ∨
    s.agentRecords.has e.sender = true

theorem envelopeRecord_iff (s : PeerState) (e : Envelope) :
    envelopeRecord s e ≠ none ↔ SenderLocal s e := by
  unfold envelopeRecord SenderLocal
  by_cases h1 : e.sender = s.myAgent
  · simp [h1]
  · rw [if_neg h1]
    cases hm : s.mailbox with
    | none =>
      cases hg : s.agentRecords.get e.sender with
      | none => simp [h1, GoMap.has, hg]
      | some r => simp [GoMap.has, hg]
    | some m =>
      by_cases h2 : m.isRegistered e.sender = true
      · simp only [h2, if_true]
        simp only [Mailbox.isRegistered] at h2
        simp [h2]
      · simp only [h2, Bool.false_eq_true, if_false]
        simp only [Mailbox.isRegistered] at h2
        cases hg : s.agentRecords.get e.sender with
        | none =>
          have h3 : s.agentRecords.has e.sender = false := by simp [GoMap.has, hg]
          simp [h1, h2, h3]
        | some r => simp [GoMap.has, hg]

/-- Attempt to deliver to a peer over the network: at most one message, made of the envelope and
the record of its sender; sent exactly if the stream opens and the message can be encoded. -/
structure OverStream (s : PeerState) (n : Net) (e : Envelope) (peer : Bytes) (acts : List Act) : Prop where
  only : ∀ a ∈ deliveries acts, ∃ rec d, envelopeRecord s e = some rec ∧
    peerMessage e rec = some d ∧ a = .stream peer d
  atMostOne : (deliveries acts).length ≤ 1
  sent : ∀ rec, envelopeRecord s e = some rec → n.stream peer ≠ none → peerMessage e rec ≠ none →
    (deliveries acts).length = 1

theorem overStream_of {s : PeerState} {n : Net} {e : Envelope} {peer : Bytes}
    {rec : Option AgentRecord} (hrec : envelopeRecord s e = some rec)
    {pre post : List Act} (h1 : deliveries pre = []) (h2 : deliveries post = []) :
    OverStream s n e peer (pre ++ (routeWithNewStream n peer rec e).1 ++ post) := by
  obtain ⟨del, hdel, hiff, hcases⟩ := routeWithNewStream_acts n peer rec e
  have hd : deliveries (pre ++ (routeWithNewStream n peer rec e).1 ++ post) = del := by
    have hdd : deliveries del = del := by
      rcases hdel with rfl | ⟨d, _, rfl⟩ <;> rfl
    have : deliveries (routeWithNewStream n peer rec e).1 = del := by
      rcases hcases with ⟨_, h, _⟩ | ⟨_, h⟩ | ⟨_, h, _⟩
      · rw [h, hdd]
      · rw [h, deliveries, List.filter_append, ← deliveries, hdd]; simp [Act.isDelivery]
      · rw [h, deliveries, List.filter_append, ← deliveries, hdd]; simp [Act.isDelivery]
    unfold deliveries at *
    rw [List.filter_append, List.filter_append, h1, h2, this]; simp
  refine ⟨?_, ?_, ?_⟩
  · rw [hd]
    rcases hdel with rfl | ⟨d, hd', rfl⟩
    · simp
    · intro a ha
      simp only [List.mem_singleton] at ha
      exact ⟨rec, d, hrec, hd', ha⟩
  · rw [hd]
    rcases hdel with rfl | ⟨d, hd', rfl⟩ <;> simp
  · intro rec' hrec' hs hm
    rw [hrec] at hrec'
    cases hrec'
    rw [hd]
    have hne := hiff.2 ⟨hs, hm⟩
    rcases hdel with rfl | ⟨d, hd', rfl⟩
    · exact absurd rfl hne
    · rfl

/-- **C31, partial.** What one call of `RouteEnvelope` delivers, for every state of the peer and
every behaviour of the network. An envelope whose sender is not local is delivered to nobody.
Otherwise it goes to its destination only, at most once, and exactly in the situations named.
Missing from the property: an envelope for which nothing is possible is queued only if its
destination is the DHT and the peer is not closing (`C31_queued_iff`), and `HandleAeaEnvelope` has
another precedence (`C31_handle_counterexample`). -/
theorem C31_route_partial (s : PeerState) (n : Net) (e : Envelope) :
    (¬ SenderLocal s e → deliveries (routeEnvelope s n e).2.1 = []) ∧
    (SenderLocal s e →
      match destination s e with
      | .mailbox => deliveries (routeEnvelope s n e).2.1 = [.mailbox e]
      | .agent => deliveries (routeEnvelope s n e).2.1 =
          if (n.ready = none ∨ ∃ l, n.ready = some l ∧ true ∈ l) ∧ s.hasAgent = true then [.agent e]
          else []
      | .delegate c => deliveries (routeEnvelope s n e).2.1 =
          ((peerMessage e none).map fun d => Act.conn c d).toList
      | .relay id =>
          match n.peerDecode id with
          | none => deliveries (routeEnvelope s n e).2.1 = []
          | some peer => OverStream s n e peer (routeEnvelope s n e).2.1
      | .dht =>
          match lookupAddressDHT n.por n.idFrom n.cid e.to n.rounds with
          | .found peer _ => OverStream s n e peer (routeEnvelope s n e).2.1
          | _ => deliveries (routeEnvelope s n e).2.1 = []) := by
  constructor
  · intro h
    rw [← envelopeRecord_iff] at h
    have : envelopeRecord s e = none := by simpa using h
    simp [routeEnvelope, this, deliveries, Act.isDelivery]
  · intro h
    rw [← envelopeRecord_iff] at h
    obtain ⟨rec, hrec⟩ := Option.ne_none_iff_exists'.1 h
    unfold destination
    by_cases hacc : Accepts s e
    · simp only [if_pos hacc]
      have := (mailboxRoute_snd s e).2 hacc
      simp [routeEnvelope, hrec, this, deliveries, Act.isDelivery]
    · simp only [if_neg hacc]
      have h2 : (mailboxRoute s e).2 = false := by
        rw [← Bool.not_eq_true, mailboxRoute_snd]; exact hacc
      have h1 := mailboxRoute_fst s e hacc
      have hroute : mailboxRoute s e = (s, false) := Prod.ext h1 h2
      by_cases hmy : e.to = s.myAgent
      · simp only [if_pos hmy]
        have hw : awaitReady n.ready = true ↔
            (n.ready = none ∨ ∃ l, n.ready = some l ∧ true ∈ l) := by
          cases n.ready <;> simp [awaitReady]
        by_cases hr : awaitReady n.ready = true
        · cases hh : s.hasAgent with
          | true =>
            simp only [routeEnvelope, hrec, hroute, Bool.false_eq_true, if_false, if_pos hmy, hr, hh,
              if_true]
            rw [if_pos ⟨hw.1 hr, trivial⟩]; rfl
          | false =>
            simp only [routeEnvelope, hrec, hroute, Bool.false_eq_true, if_false, if_pos hmy, hr, hh,
              if_true, and_false]; rfl
        · simp only [routeEnvelope, hrec, hroute, Bool.false_eq_true, if_false, if_pos hmy,
            if_neg hr]
          rw [if_neg (fun hc => hr (hw.2 hc.1))]; rfl
      · simp only [if_neg hmy]
        cases ht : s.tcpAddresses.get e.to with
        | some c =>
          dsimp only
          simp only [routeEnvelope, hrec, hroute, Bool.false_eq_true, if_false, if_neg hmy, ht]
          rw [show peerMessage e none = makeAcnMessage e from rfl]
          cases makeAcnMessage e with
          | none => rfl
          | some d => rfl
        | none =>
          cases hd : s.dhtAddresses.get e.to with
          | some sid =>
            dsimp only
            simp only [routeEnvelope, hrec, hroute, Bool.false_eq_true, if_false, if_neg hmy, ht, hd]
            cases n.peerDecode sid with
            | none => rfl
            | some peer =>
              dsimp only
              have := overStream_of (n := n) (peer := peer) hrec (pre := [.inc]) (post := []) rfl rfl
              simpa using this
          | none =>
            dsimp only
            simp only [routeEnvelope, hrec, hroute, Bool.false_eq_true, if_false, if_neg hmy, ht, hd,
              routeDHTLookup]
            cases lookupAddressDHT n.por n.idFrom n.cid e.to n.rounds with
            | found peer r =>
              dsimp only
              generalize hrw : routeWithNewStream n peer rec e = x
              obtain ⟨acts, r⟩ := x
              have hacts : acts = (routeWithNewStream n peer rec e).1 := by rw [hrw]
              cases r
              case err =>
                have := overStream_of (n := n) (peer := peer) hrec (pre := [.inc])
                  (post := [.dec] ++ (if s.closing then [] else [.slow e])) rfl
                  (by cases s.closing <;> rfl)
                rw [hacts]
                simpa using this
              all_goals
                have := overStream_of (n := n) (peer := peer) hrec (pre := [.inc]) (post := []) rfl rfl
                rw [hacts]
                simpa using this
            | error => dsimp only; cases s.closing <;> rfl
            | crashed => rfl
            | running => rfl

/-- **C31.** One call delivers an envelope at most once. -/
theorem C31_at_most_one (s : PeerState) (n : Net) (e : Envelope) :
    (deliveries (routeEnvelope s n e).2.1).length ≤ 1 := by
  by_cases h : SenderLocal s e
  · have := (C31_route_partial s n e).2 h
    split at this
    · rw [this]; simp
    · rw [this]; split <;> simp
    · rw [this]; cases peerMessage e none <;> simp
    · split at this
      · rw [this]; simp
      · exact this.atMostOne
    · split at this
      · exact this.atMostOne
      · rw [this]; simp
  · rw [(C31_route_partial s n e).1 h]; simp

/-- The network attempt failed: the look-up failed, or the stream could not be opened, the message
could not be sent, or the other peer did not report success. -/
def NetworkFails (s : PeerState) (n : Net) (e : Envelope) : Prop :=
  lookupAddressDHT n.por n.idFrom n.cid e.to n.rounds = .error ∨
    ∃ peer r rec, lookupAddressDHT n.por n.idFrom n.cid e.to n.rounds = .found peer r ∧
      envelopeRecord s e = some rec ∧ (routeWithNewStream n peer rec e).2 = .err

/-- **C31.** An envelope is queued for retry exactly if its sender is local, its destination is the
DHT, the network attempt failed and the peer is not closing. -/
theorem C31_queued_iff (s : PeerState) (n : Net) (e : Envelope) :
    .slow e ∈ (routeEnvelope s n e).2.1 ↔
      SenderLocal s e ∧ destination s e = .dht ∧ NetworkFails s n e ∧ s.closing = false := by
  have hrws : ∀ peer rec, Act.slow e ∉ (routeWithNewStream n peer rec e).1 := by
    intro peer rec
    obtain ⟨del, hdel, _, hcases⟩ := routeWithNewStream_acts n peer rec e
    have hd : Act.slow e ∉ del := by
      rcases hdel with rfl | ⟨d, _, rfl⟩ <;> simp
    rcases hcases with ⟨_, h, _⟩ | ⟨_, h⟩ | ⟨_, h, _⟩ <;> rw [h] <;> simp [hd]
  rw [← envelopeRecord_iff]
  cases hrec : envelopeRecord s e with
  | none => simp [routeEnvelope, hrec]
  | some rec =>
    simp only [ne_eq, reduceCtorEq, not_false_eq_true, true_and]
    unfold destination
    by_cases hacc : Accepts s e
    · simp only [if_pos hacc]
      have := (mailboxRoute_snd s e).2 hacc
      simp [routeEnvelope, hrec, this]
    · simp only [if_neg hacc]
      have h2 : (mailboxRoute s e).2 = false := by
        rw [← Bool.not_eq_true, mailboxRoute_snd]; exact hacc
      have h1 := mailboxRoute_fst s e hacc
      have hroute : mailboxRoute s e = (s, false) := Prod.ext h1 h2
      simp only [routeEnvelope, hrec, hroute, Bool.false_eq_true, if_false]
      by_cases hmy : e.to = s.myAgent
      · simp only [if_pos hmy]
        by_cases hr : awaitReady n.ready = true
        · cases hh : s.hasAgent <;> simp [hr]
        · simp [hr]
      · simp only [if_neg hmy]
        cases ht : s.tcpAddresses.get e.to with
        | some c =>
          dsimp only
          cases makeAcnMessage e <;> simp
        | none =>
          cases hd : s.dhtAddresses.get e.to with
          | some sid =>
            dsimp only
            cases n.peerDecode sid with
            | none => simp
            | some peer => simp [hrws]
          | none =>
            dsimp only
            unfold NetworkFails
            simp only [routeDHTLookup, hrec]
            cases lookupAddressDHT n.por n.idFrom n.cid e.to n.rounds with
            | found peer r =>
              simp only [reduceCtorEq, LookupEnd.found.injEq, Option.some.injEq, false_or, true_and]
              have hnot := hrws peer rec
              generalize hrw : routeWithNewStream n peer rec e = x at hnot
              obtain ⟨acts, o⟩ := x
              have hex : (∃ p' r' rec', (peer = p' ∧ r = r') ∧ rec = rec' ∧
                  (routeWithNewStream n p' rec' e).2 = .err) ↔ o = .err := by
                constructor
                · rintro ⟨_, _, _, ⟨rfl, rfl⟩, rfl, h⟩; rw [hrw] at h; exact h
                · rintro rfl; exact ⟨peer, r, rec, ⟨rfl, rfl⟩, rfl, by rw [hrw]⟩
              rw [hex]
              dsimp only at hnot
              cases o
              case err => cases s.closing <;> simp [hnot]
              all_goals simp [hnot]
            | error =>
              simp only [true_or, true_and]
              cases s.closing <;> simp
            | crashed => simp
            | running => simp

/-- The retry of a queued envelope delivers it at most once. -/
theorem C31_retry_at_most_one (s : PeerState) (n : Net) (e : Envelope) :
    (deliveries (slowAttempt s n e).1).length ≤ 1 := by
  unfold slowAttempt routeDHTLookup
  split
  · simp [deliveries]
  cases hrec : envelopeRecord s e with
  | none => simp [deliveries]
  | some rec =>
    dsimp only
    cases lookupAddressDHT n.por n.idFrom n.cid e.to n.rounds with
    | found peer r =>
      have := (overStream_of (n := n) (peer := peer) hrec (pre := []) (post := []) rfl rfl).atMostOne
      simpa using this
    | error => simp [deliveries]
    | crashed => simp [deliveries]
    | running => simp [deliveries]

/-- **C31.** An envelope that came from another peer is given to the mailbox if it takes it, else to
the delegate connection of its receiver, else to the own agent; at most once. -/
theorem C31_handle (s : PeerState) (n : Net) (e : Envelope) :
    (Accepts s e → deliveries (handleAeaEnvelope s n e).2.1 = [.mailbox e]) ∧
    (¬ Accepts s e → ∀ c, s.tcpAddresses.get e.to = some c →
      deliveries (handleAeaEnvelope s n e).2.1 =
        ((peerMessage e none).map fun d => Act.conn c d).toList) ∧
    (¬ Accepts s e → s.tcpAddresses.get e.to = none →
      deliveries (handleAeaEnvelope s n e).2.1 =
        if e.to = s.myAgent ∧ s.hasAgent = true then [.agent e] else []) := by
  unfold handleAeaEnvelope
  refine ⟨fun h => ?_, fun h c hc => ?_, fun h hc => ?_⟩
  · have := (mailboxRoute_snd s e).2 h
    simp [this, deliveries, Act.isDelivery]
  all_goals
    have h2 : (mailboxRoute s e).2 = false := by
      rw [← Bool.not_eq_true, mailboxRoute_snd]; exact h
    have h1 := mailboxRoute_fst s e h
    have hroute : mailboxRoute s e = (s, false) := Prod.ext h1 h2
    simp only [hroute, hc, Bool.false_eq_true, if_false]
  · rw [show peerMessage e none = makeAcnMessage e from rfl]
    cases makeAcnMessage e <;> rfl
  · by_cases hmy : e.to = s.myAgent
    · cases hh : s.hasAgent <;> simp [hmy, deliveries, Act.isDelivery]
    · simp [hmy, deliveries]

/-- **C31 is false** of envelopes from other peers: with a delegate connection registered for the
address of the own agent, the connection gets what `RouteEnvelope` gives to the agent. -/
theorem C31_handle_counterexample (s : PeerState) (n : Net) (e : Envelope) (c : Nat) (d : Bytes)
    (hacc : ¬ Accepts s e) (hs : SenderLocal s e) (hmy : e.to = s.myAgent) (ha : s.hasAgent = true)
    (hr : n.ready = none) (hc : s.tcpAddresses.get e.to = some c) (hd : peerMessage e none = some d) :
    deliveries (handleAeaEnvelope s n e).2.1 = [.conn c d] ∧
    deliveries (routeEnvelope s n e).2.1 = [.agent e] := by
  constructor
  · rw [(C31_handle s n e).2.1 hacc c hc, hd]; rfl
  · have := (C31_route_partial s n e).2 hs
    unfold destination at this
    rw [if_neg hacc, if_pos hmy] at this
    simpa [hr, ha] using this

/-- **C31 is false** of a closing peer: the envelope is dropped and success is reported. -/
theorem C31_closing_drops (s : PeerState) (n : Net) (e : Envelope) (hs : SenderLocal s e)
    (hd : destination s e = .dht) (hc : s.closing = true)
    (hl : lookupAddressDHT n.por n.idFrom n.cid e.to n.rounds = .error) :
    (routeEnvelope s n e).2 = ([.inc, .dec], .ok) := by
  rw [← envelopeRecord_iff] at hs
  obtain ⟨rec, hrec⟩ := Option.ne_none_iff_exists'.1 hs
  unfold destination at hd
  by_cases hacc : Accepts s e
  · simp [hacc] at hd
  rw [if_neg hacc] at hd
  by_cases hmy : e.to = s.myAgent
  · simp [hmy] at hd
  rw [if_neg hmy] at hd
  have h2 : (mailboxRoute s e).2 = false := by
    rw [← Bool.not_eq_true, mailboxRoute_snd]; exact hacc
  have h1 := mailboxRoute_fst s e hacc
  have hroute : mailboxRoute s e = (s, false) := Prod.ext h1 h2
  cases ht : s.tcpAddresses.get e.to with
  | some c => rw [ht] at hd; simp at hd
  | none =>
    cases hda : s.dhtAddresses.get e.to with
    | some c => rw [ht, hda] at hd; simp at hd
    | none =>
      simp only [routeEnvelope, hrec, hroute, Bool.false_eq_true, if_false, if_neg hmy, ht, hda,
        routeDHTLookup, hl, hc, if_true]
      rfl

/-- **C28, partial.** Whatever a session submits, an envelope is delivered or queued only if its
sender is the own agent or is registered at this peer. -/
theorem C28_sender_local_partial (s : PeerState) (n : Net) (e : Envelope)
    (h : ¬ SenderLocal s e) : (routeEnvelope s n e).2 = ([.inc], .err) := by
  rw [← envelopeRecord_iff] at h
  have : envelopeRecord s e = none := by simpa using h
  simp [routeEnvelope, this]

/-! ## C38 -/

/-- Change of the gauge by the actions. -/
def gauge (acts : List Act) : Int := acts.count .inc - acts.count .dec

theorem gauge_append (a b : List Act) : gauge (a ++ b) = gauge a + gauge b := by
  unfold gauge
  simp only [List.count_append]
  omega

theorem routeWithNewStream_gauge (n : Net) (peer : Bytes) (rec : Option AgentRecord) (e : Envelope)
    (h : (routeWithNewStream n peer rec e).2 ≠ .crashed) :
    gauge (routeWithNewStream n peer rec e).1 = -1 := by
  obtain ⟨del, hdel, _, hcases⟩ := routeWithNewStream_acts n peer rec e
  have hd : gauge del = 0 := by
    rcases hdel with rfl | ⟨d, _, rfl⟩ <;> rfl
  rcases hcases with ⟨hx, _, _⟩ | ⟨_, hx⟩ | ⟨_, hx, _⟩
  · exact absurd hx h
  · rw [hx, gauge_append, hd]; rfl
  · rw [hx, gauge_append, hd]; rfl

/-- **C38, partial.** The change of the gauge by a call of `RouteEnvelope` that returns. It is zero, as
it should be, except: one too much if the sender is not local, if the mailbox takes the envelope,
and if the own agent is not set; one too little if a peer is found in the DHT and sending to it
fails. -/
theorem C38_route_balance_partial (s : PeerState) (n : Net) (e : Envelope)
    (h1 : (routeEnvelope s n e).2.2 ≠ .crashed) (h2 : (routeEnvelope s n e).2.2 ≠ .waiting) :
    (¬ SenderLocal s e → gauge (routeEnvelope s n e).2.1 = 1) ∧
    (SenderLocal s e →
      match destination s e with
      | .mailbox => gauge (routeEnvelope s n e).2.1 = 1
      | .agent => gauge (routeEnvelope s n e).2.1 = if s.hasAgent then 0 else 1
      | .delegate _ => gauge (routeEnvelope s n e).2.1 = 0
      | .relay _ => gauge (routeEnvelope s n e).2.1 = 0
      | .dht =>
        ((NetworkFails s n e ∧ ∃ peer r,
            lookupAddressDHT n.por n.idFrom n.cid e.to n.rounds = .found peer r) →
          gauge (routeEnvelope s n e).2.1 = -1) ∧
        (¬ (NetworkFails s n e ∧ ∃ peer r,
            lookupAddressDHT n.por n.idFrom n.cid e.to n.rounds = .found peer r) →
          gauge (routeEnvelope s n e).2.1 = 0)) := by
  constructor
  · intro h
    rw [C28_sender_local_partial s n e h]; rfl
  · intro h
    rw [← envelopeRecord_iff] at h
    obtain ⟨rec, hrec⟩ := Option.ne_none_iff_exists'.1 h
    unfold destination
    by_cases hacc : Accepts s e
    · simp only [if_pos hacc]
      have := (mailboxRoute_snd s e).2 hacc
      simp [routeEnvelope, hrec, this, gauge]
    · simp only [if_neg hacc]
      have hm2 : (mailboxRoute s e).2 = false := by
        rw [← Bool.not_eq_true, mailboxRoute_snd]; exact hacc
      have hm1 := mailboxRoute_fst s e hacc
      have hroute : mailboxRoute s e = (s, false) := Prod.ext hm1 hm2
      simp only [routeEnvelope, hrec, hroute, Bool.false_eq_true, if_false] at h1 h2 ⊢
      by_cases hmy : e.to = s.myAgent
      · simp only [if_pos hmy] at h1 h2 ⊢
        by_cases hr : awaitReady n.ready = true
        · cases hh : s.hasAgent <;> simp [hr, gauge]
        · simp [hr] at h2
      · simp only [if_neg hmy] at h1 h2 ⊢
        cases ht : s.tcpAddresses.get e.to with
        | some c =>
          dsimp only
          cases makeAcnMessage e <;> rfl
        | none =>
          rw [ht] at h1 h2
          cases hd : s.dhtAddresses.get e.to with
          | some sid =>
            rw [hd] at h1 h2
            dsimp only at h1 h2 ⊢
            cases hpd : n.peerDecode sid with
            | none => rfl
            | some peer =>
              rw [hpd] at h1 h2
              dsimp only at h1 ⊢
              rw [show Act.inc :: (routeWithNewStream n peer rec e).1 =
                [Act.inc] ++ (routeWithNewStream n peer rec e).1 from rfl, gauge_append,
                routeWithNewStream_gauge n peer rec e h1]
              rfl
          | none =>
            rw [hd] at h1 h2
            dsimp only at h1 h2 ⊢
            unfold NetworkFails
            simp only [routeDHTLookup, hrec] at h1 h2 ⊢
            cases hlk : lookupAddressDHT n.por n.idFrom n.cid e.to n.rounds with
            | found peer r =>
              rw [hlk] at h1 h2
              simp only [reduceCtorEq, LookupEnd.found.injEq, Option.some.injEq, false_or] at h1 h2 ⊢
              have hg := routeWithNewStream_gauge n peer rec e
              have hex : (∃ p' r' rec', (peer = p' ∧ r = r') ∧ rec = rec' ∧
                  (routeWithNewStream n p' rec' e).2 = .err) ↔
                  (routeWithNewStream n peer rec e).2 = .err := by
                constructor
                · rintro ⟨_, _, _, ⟨rfl, rfl⟩, rfl, h⟩; exact h
                · intro h; exact ⟨peer, r, rec, ⟨rfl, rfl⟩, rfl, h⟩
              rw [hex]
              have hex2 : (∃ p' r', peer = p' ∧ r = r') := ⟨peer, r, rfl, rfl⟩
              simp only [hex2, and_true]
              generalize routeWithNewStream n peer rec e = x at *
              obtain ⟨acts, o⟩ := x
              cases o
              case crashed => simp at h1
              case waiting => simp at h2
              case err =>
                simp only [ne_eq, reduceCtorEq, not_false_eq_true, true_implies] at hg
                refine ⟨fun _ => ?_, fun hc => absurd rfl hc⟩
                dsimp only
                rw [show Act.inc :: acts ++ [Act.dec] ++ (if s.closing = true then [] else [Act.slow e]) =
                  [Act.inc] ++ acts ++ ([Act.dec] ++ (if s.closing = true then [] else [Act.slow e]))
                  from by simp, gauge_append, gauge_append, hg]
                cases s.closing <;> rfl
              case ok =>
                simp only [ne_eq, reduceCtorEq, not_false_eq_true, true_implies] at hg
                refine ⟨fun hc => by simp at hc, fun _ => ?_⟩
                dsimp only
                rw [show Act.inc :: acts = [Act.inc] ++ acts from rfl, gauge_append, hg]; rfl
            | error =>
              simp only [reduceCtorEq, exists_false, and_false, false_implies, not_false_eq_true,
                true_implies, true_and]
              cases s.closing <;> rfl
            | crashed => rw [hlk] at h1; simp at h1
            | running => rw [hlk] at h2; simp at h2

/-- **C38.** The retry of a queued envelope decreases the gauge whenever a peer is found, though
it is not counted as being routed. -/
theorem C38_retry_balance (s : PeerState) (n : Net) (e : Envelope) (hc : s.closing = false)
    (h1 : (slowAttempt s n e).2 ≠ .crashed) :
    gauge (slowAttempt s n e).1 =
      match envelopeRecord s e, lookupAddressDHT n.por n.idFrom n.cid e.to n.rounds with
      | some _, .found _ _ => -1
      | _, _ => 0 := by
  unfold slowAttempt routeDHTLookup at *
  rw [hc] at h1 ⊢
  simp only [Bool.false_eq_true, if_false] at h1 ⊢
  cases hrec : envelopeRecord s e with
  | none => rfl
  | some rec =>
    rw [hrec] at h1
    dsimp only at h1 ⊢
    cases hl : lookupAddressDHT n.por n.idFrom n.cid e.to n.rounds with
    | found peer r =>
      rw [hl] at h1
      exact routeWithNewStream_gauge n peer rec e h1
    | error => rfl
    | crashed => rfl
    | running => rfl

/-! ## Concrete cases -/

namespace RouteDemo

/-- A record. -/
def rec (a : Bytes) : AgentRecord := ⟨b! "acn", b! "cosmos", a, a, b! "pk", b! "pk", [], []⟩
/-- A mailbox with `bob` and `ag` registered; the session of `eve` is `s1`. -/
def mbox : Mailbox := (Mailbox.run HandlersDemo.por (b! "pk") .init
  [MailDemo.reg (b! "eve") (b! "s1"), MailDemo.reg (b! "bob") (b! "s2"),
   MailDemo.reg (b! "ag") (b! "s3")]).2
/-- A peer with a mailbox, an agent, a delegate and a relay client. -/
def peer : PeerState where
  myAgent := b! "me"
  myRecord := some (rec (b! "me"))
  hasAgent := true
  mailbox := some mbox
  agentRecords := (GoMap.empty).set (b! "del") (rec (b! "del"))
  tcpAddresses := (GoMap.empty).set (b! "del") 7
  dhtAddresses := (GoMap.empty).set (b! "rel") (b! "rid")
  closing := false
/-- A stream over which a success status comes back. -/
def good : Pipe := ⟨[AcnMessage.encode (some (.status (some ⟨0, []⟩)))], [true], []⟩
/-- A network on which everything works, with one provider of any address. -/
def net : Net where
  por := HandlersDemo.por
  idFrom := some
  cid := true
  ready := none
  agentOk := true
  connOk := true
  ack := .ok ()
  peerDecode := some
  stream := fun _ => some good
  rounds := [⟨[], false⟩, ⟨[⟨b! "prov", some
    ⟨[AcnMessage.encode (some (.lookupResponse (some (rec (b! "far")))))], [true], []⟩⟩], false⟩]
/-- An envelope of the own agent. -/
def env (to : Bytes) : Envelope := ⟨to, b! "me", b! "p", [], []⟩
/-- What a call delivers, without the data. -/
def brief : List Act → List (Nat × Bytes) := fun l => l.map fun
  | .inc => (0, []) | .dec => (1, []) | .mailbox e => (2, e.to) | .agent e => (3, e.to)
  | .conn c _ => (4, [UInt8.ofNat c]) | .stream p _ => (5, p) | .slow e => (6, e.to)

set_option maxRecDepth 100000
set_option maxHeartbeats 4000000

example : brief (routeEnvelope peer net (env (b! "ag"))).2.1 = [(0, []), (2, b! "ag")] := by decide
example : brief (routeEnvelope peer net (env (b! "me"))).2.1 = [(0, []), (3, b! "me"), (1, [])] := by
  decide
example : brief (routeEnvelope peer net (env (b! "del"))).2.1 = [(0, []), (1, []), (4, [7])] := by
  decide
example : brief (routeEnvelope peer net (env (b! "rel"))).2.1 = [(0, []), (5, b! "rid"), (1, [])] := by
  decide
example : brief (routeEnvelope peer net (env (b! "far"))).2.1 = [(0, []), (5, b! "pk"), (1, [])] := by
  decide
example : brief (routeEnvelope peer net (env (b! "fax"))).2.1 =
    [(0, []), (5, []), (1, [])] := by decide
example : brief (routeEnvelope peer { net with rounds := [⟨[], true⟩] } (env (b! "far"))).2.1 =
    [(0, []), (1, []), (6, b! "far")] := by decide

end RouteDemo

set_option maxRecDepth 100000 in
set_option maxHeartbeats 4000000 in
/-- **C33 is false**: the only provider answers with a record of another address; the look-up
reports success with an empty peer and no record. -/
theorem C33_counterexample :
    lookupAddressDHT HandlersDemo.por some true (b! "fax") RouteDemo.net.rounds = .found [] none := by
  decide

set_option maxRecDepth 100000 in
set_option maxHeartbeats 4000000 in
/-- **C28 is false**, seen from the receiver: the session of `eve` submits an envelope as `bob`; it
is put into the mailbox of `ag`. -/
theorem C28_delivered_counterexample :
    Mailbox.sendEnvelope ⟨b! "POST", some (b! "s1"), (MailDemo.env (b! "ag") (b! "bob")).encode⟩
      RouteDemo.mbox = .forward (MailDemo.env (b! "ag") (b! "bob")) ∧
    RouteDemo.mbox.sessions.get (b! "s1") = some (b! "eve") ∧
    (routeEnvelope RouteDemo.peer RouteDemo.net (MailDemo.env (b! "ag") (b! "bob"))).2 =
      ([.inc, .mailbox (MailDemo.env (b! "ag") (b! "bob"))], .ok) := by
  decide

set_option maxRecDepth 100000 in
set_option maxHeartbeats 4000000 in
/-- **C38 is false**: after an envelope for the mailbox the gauge stays at one; after sending to a
peer that refuses the stream it is at minus one. -/
theorem C38_counterexample :
    gauge (routeEnvelope RouteDemo.peer RouteDemo.net (RouteDemo.env (b! "ag"))).2.1 = 1 ∧
    gauge (routeEnvelope RouteDemo.peer { RouteDemo.net with stream := fun _ => none }
      (RouteDemo.env (b! "far"))).2.1 = -1 := by
  decide

end Verif
