import Verif.Props.Routing
import Verif.Props.PeerTables
import Verif.Model.DhtClient
import Verif.Model.AddressStream

/-!
# Property C128

Nothing that is received stops a node. This is false; the messages that do are listed, for each place
where a node reads from others.
-/

namespace Verif

namespace Deadly

open Acn

/-! ## The list -/

/-- A status without body. -/
def Bodiless (buf : Bytes) : Prop := AcnMessage.decode buf = some (some (.status none))

/-- A registration without record, or with one whose check crashes (see C25). -/
def BadRegistration (por : PoRCheck) (key buf : Bytes) : Prop :=
  ∃ rec, AcnMessage.decode buf = some (some (.register rec)) ∧
    (rec = none ∨ ∃ r, rec = some r ∧ por r r.address key = .panic)

/-- An envelope without record, or with one whose check crashes. -/
def BadEnvelope (por : PoRCheck) (key buf : Bytes) : Prop :=
  ∃ eb e rec, AcnMessage.decode buf = some (some (.aeaEnvelope eb rec)) ∧ Envelope.decode eb = some e ∧
    (rec = none ∨ ∃ r, rec = some r ∧ por r r.address key = .panic)

/-- An answer to a look-up that is a status without body, or has no record, or one whose check
crashes. -/
def BadAnswer (por : PoRCheck) (address buf : Bytes) : Prop :=
  Bodiless buf ∨ ∃ rec, AcnMessage.decode buf = some (some (.lookupResponse rec)) ∧
    (rec = none ∨ ∃ r, rec = some r ∧ por r address r.peerPublicKey = .panic)

/-- The first thing that is read is a message with this property. -/
def First (P : Bytes → Prop) (p : Pipe) : Prop := ∃ buf rest, p.reads = some buf :: rest ∧ P buf

/-- The next write goes through. -/
def CanWrite (p : Pipe) : Prop := ∃ ws, p.writes = true :: ws

/-- A client that is being served comes to send a status without body: before, it sent proper
statuses and envelopes only, and the answers to the envelopes could be written. -/
inductive Comes : List (Option Bytes) → List Bool → Prop where
  | now {buf reads ws} (h : Bodiless buf) : Comes (some buf :: reads) ws
  | status {buf b reads ws} (h : AcnMessage.decode buf = some (some (.status (some b))))
      (next : Comes reads ws) : Comes (some buf :: reads) ws
  | envelope {buf eb rec e reads ws} (h : AcnMessage.decode buf = some (some (.aeaEnvelope eb rec)))
      (he : Envelope.decode eb = some e) (next : Comes reads ws) : Comes (some buf :: reads) (true :: ws)

/-! ## Lemmas -/

theorem bind_panic {α β : Type} {m : PipeM α} {f : α → PipeM β} {p : Pipe} :
    (m.bind f p).1 = .panic ↔ (m p).1 = .panic ∨ ∃ a p', m p = (.ok a, p') ∧ (f a p').1 = .panic := by
  unfold PipeM.bind
  rcases m p with ⟨a | _ | _, p'⟩
  · constructor
    · exact fun h => .inr ⟨a, p', rfl, h⟩
    · rintro (h | ⟨_, _, h, h2⟩)
      · simp at h
      · cases h; exact h2
  · simp
  · simp

theorem success_encodes : ∃ b, AcnMessage.encode (some (.status (some ⟨StatusCode.success.toInt, []⟩))) = some b :=
  (C18_acn_encodes_iff _).2 (by simp [AcnMessage.texts])

/-- Writing goes through if the message can be encoded and the pipe takes it. -/
theorem sendMessage_ok {m : AcnMessage} {p p' : Pipe} :
    sendMessage m p = (.ok (), p') ↔
      ∃ b ws, AcnMessage.encode m = some b ∧ p.writes = true :: ws ∧
        p' = { p with writes := ws, sent := p.sent ++ [b] } := by
  unfold sendMessage
  cases he : AcnMessage.encode m with
  | none => simp [PipeM.fail]
  | some b =>
    simp only [Pipe.write]
    rcases hw : p.writes with _ | ⟨_ | _, ws⟩
    · simp
    · simp
    · simp [eq_comm]

/-! ## Registrations -/

theorem registration_cases (T : AcnTexts) (por : PoRCheck) (txt : StatusCode → Bytes) (key : Bytes) (p : Pipe) :
    (acceptRegistration T por txt key p).1 = .panic ↔ First (BadRegistration por key) p := by
  unfold acceptRegistration
  rw [bind_panic]
  constructor
  · rintro (h | ⟨rec, p', h, h2⟩)
    · exact absurd h (C48_panic_iff_partial T p).1
    · rcases hr : p.reads with _ | ⟨_ | buf, rest⟩
      · have := (C48_read_error T p (.inl hr)).1; rw [h] at this; simp at this
      · have := (C48_read_error T p (.inr ⟨rest, hr⟩)).1; rw [h] at this; simp at this
      · unfold readRegistration at h
        rw [bind_read hr] at h
        have hd : AcnMessage.decode buf = some (some (.register rec)) := by
          cases hd : AcnMessage.decode buf with
          | none => rw [hd] at h; exact (sendError_fail_not_ok h).elim
          | some m =>
            rw [hd] at h
            rcases m with _ | ⟨e, r⟩ | a | r | r | b
            case some.register =>
              simp only [PipeM.pure, Prod.mk.injEq, Res.ok.injEq] at h
              rw [h.1]
            all_goals exact (sendError_fail_not_ok h).elim
        refine ⟨buf, rest, hr, rec, hd, ?_⟩
        cases rec with
        | none => exact .inl rfl
        | some r =>
          refine .inr ⟨r, rfl, ?_⟩
          dsimp only at h2
          cases hp : por r r.address key with
          | panic => rfl
          | err e => rw [hp] at h2; simp [PipeM.fail] at h2
          | ok c =>
            rw [hp] at h2
            cases c
            case success =>
              rw [bind_panic] at h2
              rcases h2 with h2 | ⟨_, _, _, h2⟩
              · exact absurd h2 (sendMessage_not_panic _ _)
              · simp [PipeM.pure] at h2
            all_goals exact absurd h2 (sendError_not_panic _ _ _ _)
  · rintro ⟨buf, rest, hr, rec, hd, h⟩
    refine .inr ⟨rec, { p with reads := rest }, ?_, ?_⟩
    · unfold readRegistration
      rw [bind_read hr, hd]
      rfl
    · rcases h with rfl | ⟨r, rfl, hp⟩
      · rfl
      · simp only [hp]
        rfl

/-- **C128, registrations**, of agents over delegate connections as well as over streams. A peer that
reads a registration crashes exactly if it has no record or one whose check crashes. -/
theorem C128_registration_partial (T : AcnTexts) (por : PoRCheck) (txt : StatusCode → Bytes) (key : Bytes)
    (p : Pipe) : (acceptRegistration T por txt key p).1 = .panic ↔ First (BadRegistration por key) p :=
  registration_cases T por txt key p

/-! ## Envelopes from other peers -/

/-- **C128, envelopes from other peers.** -/
theorem C128_envelope_partial (T : AcnTexts) (por : PoRCheck) (key : Bytes)
    (handler : Envelope → Option (StatusCode × Bytes)) (p : Pipe) :
    (handleEnvelopeStream T por key handler p).1 = .panic ↔ First (BadEnvelope por key) p := by
  unfold handleEnvelopeStream
  rw [bind_panic, C27_crash_iff]
  constructor
  · rintro (⟨buf, rest, eb, rec, e, hr, hd, he, h⟩ | ⟨e, p', _, h⟩)
    · exact ⟨buf, rest, hr, eb, e, rec, hd, he, h⟩
    · exfalso
      have key : ∀ (m : PipeM Unit) (q : Pipe), (m q).1 ≠ .panic →
          (((PipeM.ignoring m).bind fun _ => PipeM.pure e) q).1 ≠ .panic := by
        intro m q hq
        unfold PipeM.bind PipeM.ignoring
        rcases hm : m q with ⟨_ | _ | _, q'⟩
        · simp [PipeM.pure]
        · simp [PipeM.pure]
        · rw [hm] at hq; simp at hq
      cases hh : handler e with
      | none => rw [hh] at h; exact key _ _ (sendMessage_not_panic _ _) h
      | some ct => rw [hh] at h; exact key _ _ (sendMessage_not_panic _ _) h
  · rintro ⟨buf, rest, hr, eb, e, rec, hd, he, h⟩
    exact .inl ⟨buf, rest, eb, rec, e, hr, hd, he, h⟩

/-! ## Requests for look-up -/

/-- **C128, requests for look-up.** The request itself does no harm, whatever it is; what the search
for an answer does is told by `C128_asked_partial`. -/
theorem C128_request (T : AcnTexts) (handler : Bytes → Res (StatusCode × Bytes) (Option AgentRecord)) (p : Pipe) :
    (handleAddressStream T handler p).1 = .panic ↔
      First (fun buf => ∃ a, AcnMessage.decode buf = some (some (.lookupRequest a)) ∧
        (handler a = .panic ∨ handler a = .ok none)) p := by
  unfold handleAddressStream
  rw [bind_panic]
  constructor
  · rintro (h | ⟨a, p', h, h2⟩)
    · exact absurd h (C48_panic_iff_partial T p).2.1
    · rcases hr : p.reads with _ | ⟨_ | buf, rest⟩
      · have := (C48_read_error T p (.inl hr)).2.1; rw [h] at this; simp at this
      · have := (C48_read_error T p (.inr ⟨rest, hr⟩)).2.1; rw [h] at this; simp at this
      · unfold readLookupRequest at h
        rw [bind_read hr] at h
        have hd : AcnMessage.decode buf = some (some (.lookupRequest a)) := by
          cases hd : AcnMessage.decode buf with
          | none => rw [hd] at h; exact (sendError_fail_not_ok h).elim
          | some m =>
            rw [hd] at h
            rcases m with _ | ⟨e, r⟩ | x | r | r | b
            case some.lookupRequest =>
              simp only [PipeM.pure, Prod.mk.injEq, Res.ok.injEq] at h
              rw [h.1]
            all_goals exact (sendError_fail_not_ok h).elim
        refine ⟨buf, rest, hr, a, hd, ?_⟩
        cases ha : handler a with
        | panic => exact .inl rfl
        | err e => rw [ha] at h2; exact absurd h2 (sendError_not_panic _ _ _ _)
        | ok rec =>
          rw [ha] at h2
          cases rec with
          | none => exact .inr rfl
          | some r =>
            dsimp only at h2
            rw [bind_panic] at h2
            rcases h2 with h2 | ⟨_, _, _, h2⟩
            · exact absurd h2 (sendMessage_not_panic _ _)
            · simp [PipeM.pure] at h2
  · rintro ⟨buf, rest, hr, a, hd, h⟩
    refine .inr ⟨a, { p with reads := rest }, ?_, ?_⟩
    · unfold readLookupRequest
      rw [bind_read hr, hd]
      rfl
    · rcases h with h | h <;> simp only [h] <;> rfl

/-! ## Gives -/

theorem answer_cases (address : Bytes) (p : Pipe) :
    (performAddressLookup address p).1 = .panic ↔ IsText address ∧ CanWrite p ∧ First Bodiless p := by
  unfold performAddressLookup
  rw [bind_panic]
  have enc := C18_acn_encodes_iff (some (.lookupRequest address))
  have : (∀ t ∈ AcnMessage.texts (some (.lookupRequest address)), IsText t) ↔ IsText address := by
    simp [AcnMessage.texts]
  constructor
  · rintro (h | ⟨_, p', h, h2⟩)
    · exact absurd h (sendMessage_not_panic _ _)
    · obtain ⟨b, ws, he, hw, rfl⟩ := sendMessage_ok.1 h
      obtain ⟨buf, rest, hr, hd⟩ := (C48_panic_iff_partial ⟨fun _ => [], fun _ => []⟩ _).2.2.2.2.2.1 h2
      exact ⟨this.1 (enc.1 ⟨b, he⟩), ⟨ws, hw⟩, buf, rest, hr, hd⟩
  · rintro ⟨ht, ⟨ws, hw⟩, buf, rest, hr, hd⟩
    obtain ⟨b, hb⟩ := enc.2 (this.2 ht)
    refine .inr ⟨(), _, sendMessage_ok.2 ⟨b, ws, hb, hw, rfl⟩, ?_⟩
    exact (C48_panic_iff_partial ⟨fun _ => [], fun _ => []⟩ _).2.2.2.2.2.2 ⟨buf, rest, hr, hd⟩

theorem answer_ok (address : Bytes) (p : Pipe) (rec : Option AgentRecord) :
    (performAddressLookup address p).1 = .ok rec ↔ IsText address ∧ CanWrite p ∧
      First (fun buf => AcnMessage.decode buf = some (some (.lookupResponse rec))) p := by
  have enc := C18_acn_encodes_iff (some (.lookupRequest address))
  have htx : (∀ t ∈ AcnMessage.texts (some (.lookupRequest address)), IsText t) ↔ IsText address := by
    simp [AcnMessage.texts]
  have resp : ∀ q : Pipe, (readLookupResponse q).1 = .ok rec ↔
      First (fun buf => AcnMessage.decode buf = some (some (.lookupResponse rec))) q := by
    intro q
    rcases hr : q.reads with _ | ⟨_ | buf, rest⟩
    · have := (C48_read_error ⟨fun _ => [], fun _ => []⟩ q (.inl hr)).2.2.2.2.2
      rw [this]
      exact ⟨fun h => by simp at h, fun ⟨_, _, h, _⟩ => by rw [hr] at h; simp at h⟩
    · have := (C48_read_error ⟨fun _ => [], fun _ => []⟩ q (.inr ⟨rest, hr⟩)).2.2.2.2.2
      rw [this]
      exact ⟨fun h => by simp at h, fun ⟨_, _, h, _⟩ => by rw [hr] at h; simp at h⟩
    · unfold readLookupResponse
      rw [bind_read hr]
      have hf : First (fun buf => AcnMessage.decode buf = some (some (.lookupResponse rec))) q ↔
          AcnMessage.decode buf = some (some (.lookupResponse rec)) := by
        constructor
        · rintro ⟨b, r, h, hd⟩
          rw [hr] at h
          simp only [List.cons.injEq, Option.some.injEq] at h
          rw [h.1]; exact hd
        · exact fun hd => ⟨buf, rest, hr, hd⟩
      rw [hf]
      cases hd : AcnMessage.decode buf with
      | none => simp [PipeM.fail]
      | some m =>
        rcases m with _ | ⟨e, r⟩ | a | r | r | b
        case some.status => cases b <;> simp [PipeM.fail, PipeM.crash]
        all_goals simp [PipeM.fail, PipeM.pure]
  unfold performAddressLookup
  constructor
  · intro h
    have h' : ((sendLookupRequest address).bind fun _ => readLookupResponse) p =
        (.ok rec, (((sendLookupRequest address).bind fun _ => readLookupResponse) p).2) := by rw [← h]
    obtain ⟨_, p1, h1, h2⟩ := bind_ok h'
    obtain ⟨b, ws, he, hw, rfl⟩ := sendMessage_ok.1 h1
    obtain ⟨buf, rest, hr, hd⟩ := (resp _).1 (by rw [h2])
    exact ⟨htx.1 (enc.1 ⟨b, he⟩), ⟨ws, hw⟩, buf, rest, hr, hd⟩
  · rintro ⟨ht, ⟨ws, hw⟩, buf, rest, hr, hd⟩
    obtain ⟨b, hb⟩ := enc.2 (htx.2 ht)
    have h1 : sendLookupRequest address p = (.ok (), { p with writes := ws, sent := p.sent ++ [b] }) :=
      sendMessage_ok.2 ⟨b, ws, hb, hw, rfl⟩
    rw [bind_eq h1]
    exact (resp _).2 ⟨buf, rest, hr, hd⟩

/-! ## Look-up -/

/-- Asking this provider crashes. -/
def DeadlyProvider (por : PoRCheck) (address : Bytes) (p : Provider) : Prop :=
  ∃ pipe, p.stream = some pipe ∧ CanWrite pipe ∧ First (BadAnswer por address) pipe

/-- The provider answers with a record that is valid for the address. -/
def Gives (por : PoRCheck) (address : Bytes) (p : Provider) : Prop :=
  ∃ pipe, p.stream = some pipe ∧ CanWrite pipe ∧
    First (fun buf => ∃ r, AcnMessage.decode buf = some (some (.lookupResponse (some r))) ∧
      por r address r.peerPublicKey = .ok .success) pipe

/-- Nothing comes of asking: the next provider is asked. -/
def Passed (por : PoRCheck) (address : Bytes) (p : Provider) : Prop :=
  ¬ DeadlyProvider por address p ∧ ¬ Gives por address p

theorem first_unique {P Q : Bytes → Prop} {p : Pipe} (h : First P p) (hq : First Q p) :
    First (fun b => P b ∧ Q b) p := by
  obtain ⟨b, r, h1, h2⟩ := h
  obtain ⟨b', r', h3, h4⟩ := hq
  rw [h1] at h3
  simp only [List.cons.injEq, Option.some.injEq] at h3
  exact ⟨b, r, h1, h2, h3.1 ▸ h4⟩

/-- One provider. -/
theorem provider_cases (por : PoRCheck) (idFrom : Bytes → Option Bytes) {address : Bytes} (ht : IsText address)
    (err : Bool) (last : Bytes) (p : Provider) (rest : List Provider) :
    (DeadlyProvider por address p ∧ lookupProviders por idFrom address err last (p :: rest) = .done .crashed) ∨
    (¬ DeadlyProvider por address p ∧ Gives por address p ∧
      ∃ e, e ≠ .crashed ∧ lookupProviders por idFrom address err last (p :: rest) = .done e) ∨
    (Passed por address p ∧ ∃ err', lookupProviders por idFrom address err last (p :: rest) =
      lookupProviders por idFrom address err' p.id rest) := by
  have nostream : p.stream = none → Passed por address p := fun h =>
    ⟨fun ⟨_, h1, _⟩ => by rw [h] at h1; simp at h1, fun ⟨_, h1, _⟩ => by rw [h] at h1; simp at h1⟩
  cases hs : p.stream with
  | none => exact .inr (.inr ⟨nostream hs, true, by simp [lookupProviders, hs]⟩)
  | some pipe =>
    cases ha : (performAddressLookup address pipe).1 with
    | panic =>
      obtain ⟨_, hw, hf⟩ := (answer_cases address pipe).1 ha
      obtain ⟨b, r, h1, h2⟩ := hf
      exact .inl ⟨⟨pipe, hs, hw, b, r, h1, .inl h2⟩, by simp [lookupProviders, hs, ha]⟩
    | err e =>
      refine .inr (.inr ⟨⟨?_, ?_⟩, false, by simp [lookupProviders, hs, ha]⟩)
      · rintro ⟨q, hq, hw, b, r, h1, h2 | ⟨rec, hd, h2⟩⟩
        · rw [hs] at hq; cases hq
          have := (answer_cases address pipe).2 ⟨ht, hw, b, r, h1, h2⟩
          rw [ha] at this; simp at this
        · rw [hs] at hq; cases hq
          have := (answer_ok address pipe rec).2 ⟨ht, hw, b, r, h1, hd⟩
          rw [ha] at this; simp at this
      · rintro ⟨q, hq, hw, b, r, h1, x, hd, _⟩
        rw [hs] at hq; cases hq
        have := (answer_ok address pipe (some x)).2 ⟨ht, hw, b, r, h1, hd⟩
        rw [ha] at this; simp at this
    | ok rec =>
      obtain ⟨_, hw, buf, rs, hr, hd⟩ := (answer_ok address pipe rec).1 ha
      cases rec with
      | none =>
        exact .inl ⟨⟨pipe, hs, hw, buf, rs, hr, .inr ⟨none, hd, .inl rfl⟩⟩,
          by simp [lookupProviders, hs, ha]⟩
      | some r =>
        have nd : por r address r.peerPublicKey ≠ .panic → ¬ DeadlyProvider por address p := by
          rintro hp ⟨q, hq, _, hf⟩
          rw [hs] at hq; cases hq
          obtain ⟨b, rs', h1, h2⟩ := hf
          rw [hr] at h1
          simp only [List.cons.injEq, Option.some.injEq] at h1
          rw [← h1.1] at h2
          rcases h2 with h2 | ⟨rec, h2, h3⟩
          · rw [Bodiless, hd] at h2; simp at h2
          · rw [hd] at h2
            simp only [Option.some.injEq, Performative.lookupResponse.injEq] at h2
            rcases h3 with h3 | ⟨r', h3, h4⟩
            · rw [← h2] at h3; simp at h3
            · rw [← h2] at h3; cases h3; exact hp h4
        have na : por r address r.peerPublicKey ≠ .ok .success → ¬ Gives por address p := by
          rintro hp ⟨q, hq, _, hf⟩
          rw [hs] at hq; cases hq
          obtain ⟨b, rs', h1, x, h2, h3⟩ := hf
          rw [hr] at h1
          simp only [List.cons.injEq, Option.some.injEq] at h1
          rw [← h1.1, hd] at h2
          simp only [Option.some.injEq, Performative.lookupResponse.injEq] at h2
          cases h2
          exact hp h3
        cases hp : por r address r.peerPublicKey with
        | panic =>
          exact .inl ⟨⟨pipe, hs, hw, buf, rs, hr, .inr ⟨some r, hd, .inr ⟨r, rfl, hp⟩⟩⟩,
            by simp [lookupProviders, hs, ha, hp]⟩
        | err e =>
          exact .inr (.inr ⟨⟨nd (by simp [hp]), na (by simp [hp])⟩, false,
            by simp [lookupProviders, hs, ha, hp]⟩)
        | ok c =>
          by_cases hc : c = .success
          · subst hc
            refine .inr (.inl ⟨nd (by simp [hp]), ⟨pipe, hs, hw, buf, rs, hr, r, hd, hp⟩, ?_⟩)
            cases hi : idFrom r.peerPublicKey with
            | none => exact ⟨.error, by simp, by simp [lookupProviders, hs, ha, hp, hi]⟩
            | some id => exact ⟨.found id (some r), by simp, by simp [lookupProviders, hs, ha, hp, hi]⟩
          · refine .inr (.inr ⟨⟨nd (by simp [hp]), na (by simp [hp, hc])⟩, false, ?_⟩)
            simp only [lookupProviders, hs, ha, hp]

/-- Asking the providers of a round crashes at one of them. -/
def DeadlyRound (por : PoRCheck) (address : Bytes) (ps : List Provider) : Prop :=
  ∃ before p after, ps = before ++ p :: after ∧ (∀ q ∈ before, Passed por address q) ∧
    DeadlyProvider por address p

theorem providers_cases (por : PoRCheck) (idFrom : Bytes → Option Bytes) {address : Bytes} (ht : IsText address)
    (ps : List Provider) : ∀ (err : Bool) (last : Bytes),
    (DeadlyRound por address ps ∧ lookupProviders por idFrom address err last ps = .done .crashed) ∨
    (¬ DeadlyRound por address ps ∧ (∃ p ∈ ps, Gives por address p) ∧
      ∃ e, e ≠ .crashed ∧ lookupProviders por idFrom address err last ps = .done e) ∨
    ((∀ p ∈ ps, Passed por address p) ∧ ∃ err', lookupProviders por idFrom address err last ps =
      .exhausted err' ((ps.getLast?.map (·.id)).getD last)) := by
  induction ps with
  | nil => exact fun err last => .inr (.inr ⟨by simp, err, rfl⟩)
  | cons p ps ih =>
    intro err last
    rcases provider_cases por idFrom ht err last p ps with ⟨hd, h⟩ | ⟨hn, ha, e, he, h⟩ | ⟨hp, err', h⟩
    · exact .inl ⟨⟨[], p, ps, rfl, by simp, hd⟩, h⟩
    · refine .inr (.inl ⟨?_, ⟨p, by simp, ha⟩, e, he, h⟩)
      rintro ⟨before, q, after, hq, hb, hd⟩
      rcases before with _ | ⟨x, before⟩
      · simp only [List.nil_append, List.cons.injEq] at hq
        exact hn (hq.1 ▸ hd)
      · simp only [List.cons_append, List.cons.injEq] at hq
        exact (hb x (by simp)).2 (hq.1 ▸ ha)
    · rw [h]
      rcases ih err' p.id with ⟨⟨before, q, after, hq, hb, hd⟩, h2⟩ | ⟨hn, ⟨q, hq, ha⟩, e, he, h2⟩ | ⟨hall, e2, h2⟩
      · refine .inl ⟨⟨p :: before, q, after, by simp [hq], ?_, hd⟩, h2⟩
        intro x hx
        rcases List.mem_cons.1 hx with rfl | hx
        · exact hp
        · exact hb x hx
      · refine .inr (.inl ⟨?_, ⟨q, by simp [hq], ha⟩, e, he, h2⟩)
        rintro ⟨before, x, after, hx, hb, hd⟩
        rcases before with _ | ⟨y, before⟩
        · simp only [List.nil_append, List.cons.injEq] at hx
          exact hp.1 (hx.1 ▸ hd)
        · simp only [List.cons_append, List.cons.injEq] at hx
          exact hn ⟨before, x, after, hx.2, fun z hz => hb z (by simp [hz]), hd⟩
      · refine .inr (.inr ⟨?_, e2, ?_⟩)
        · intro x hx
          rcases List.mem_cons.1 hx with rfl | hx
          · exact hp
          · exact hall x hx
        · rw [h2]
          cases ps with
          | nil => rfl
          | cons y ys =>
            cases hz : (y :: ys).getLast? with
            | none => simp at hz
            | some z => rw [List.getLast?_cons_cons, hz]; rfl

/-- After such a round another one is made: nothing came of it, time is left, and it had no providers
(or the last one has an empty name). -/
def Repeated (por : PoRCheck) (address : Bytes) (r : LookupRound) : Prop :=
  (∀ p ∈ r.providers, Passed por address p) ∧ (∀ p, r.providers.getLast? = some p → p.id = []) ∧
    r.expired = false

/-- **C128, looking up an address.** A node that looks up an address crashes exactly if it asks a
provider whose answer is a status without body, has no record, or has one whose check crashes. -/
theorem C128_lookup_partial (por : PoRCheck) (idFrom : Bytes → Option Bytes) (cid : Bool) (address : Bytes)
    (ht : IsText address) (rounds : List LookupRound) :
    lookupAddressDHT por idFrom cid address rounds = .crashed ↔
      cid = true ∧ ∃ before r after, rounds = before ++ r :: after ∧
        (∀ q ∈ before, Repeated por address q) ∧ DeadlyRound por address r.providers := by
  have key : ∀ (rounds : List LookupRound) (err : Bool), lookupRounds por idFrom address err [] rounds = .crashed ↔
      ∃ before r after, rounds = before ++ r :: after ∧
        (∀ q ∈ before, Repeated por address q) ∧ DeadlyRound por address r.providers := by
    intro rounds
    induction rounds with
    | nil =>
      intro err
      simp [lookupRounds]
    | cons r rest ih =>
      intro err
      have dead_of : DeadlyRound por address r.providers → (∀ p ∈ r.providers, Passed por address p) → False := by
        rintro ⟨b, p, a, hp, _, hd⟩ hall
        exact (hall p (by simp [hp])).1 hd
      rcases providers_cases por idFrom ht r.providers err [] with ⟨hd, h⟩ | ⟨hn, ⟨p, hp, ha⟩, e, he, h⟩ | ⟨hall, err', h⟩
      · exact ⟨fun _ => ⟨[], r, rest, rfl, by simp, hd⟩, fun _ => by simp [lookupRounds, h]⟩
      · constructor
        · intro hc
          simp only [lookupRounds, h] at hc
          exact absurd hc he
        · rintro ⟨before, x, after, hx, hb, hd⟩
          rcases before with _ | ⟨y, before⟩
          · simp only [List.nil_append, List.cons.injEq] at hx
            exact absurd (hx.1 ▸ hd) hn
          · simp only [List.cons_append, List.cons.injEq] at hx
            exact absurd ha ((hb y (by simp)).1 p (hx.1 ▸ hp)).2
      · have stay : ∀ x before after, r :: rest = before ++ x :: after → DeadlyRound por address x.providers →
            ∃ y b, before = y :: b ∧ y = r ∧ rest = b ++ x :: after := by
          intro x before after hx hd
          rcases before with _ | ⟨y, before⟩
          · simp only [List.nil_append, List.cons.injEq] at hx
            exact (dead_of (hx.1 ▸ hd) hall).elim
          · simp only [List.cons_append, List.cons.injEq] at hx
            exact ⟨y, before, rfl, hx.1.symm, hx.2⟩
        by_cases hl : (r.providers.getLast?.map (·.id)).getD [] = []
        · have hlast : ∀ p, r.providers.getLast? = some p → p.id = [] := by
            intro p hp; rw [hp] at hl; simpa using hl
          by_cases hx : r.expired = true
          · have e1 : lookupRounds por idFrom address err [] (r :: rest) = .error := by
              simp [lookupRounds, h, hl, hx]
            rw [e1]
            refine ⟨fun h => by simp at h, ?_⟩
            rintro ⟨before, x, after, he, hb, hd⟩
            obtain ⟨y, b, rfl, rfl, _⟩ := stay x before after he hd
            have := (hb y (by simp)).2.2
            rw [hx] at this; simp at this
          · have e1 : lookupRounds por idFrom address err [] (r :: rest) = lookupRounds por idFrom address err' [] rest := by
              simp [lookupRounds, h, hl, hx]
            rw [e1, ih]
            constructor
            · rintro ⟨before, x, after, he, hb, hd⟩
              refine ⟨r :: before, x, after, by simp [he], ?_, hd⟩
              intro q hq
              rcases List.mem_cons.1 hq with rfl | hq
              · exact ⟨hall, hlast, by simpa using hx⟩
              · exact hb q hq
            · rintro ⟨before, x, after, he, hb, hd⟩
              obtain ⟨y, b, rfl, rfl, hr⟩ := stay x before after he hd
              exact ⟨b, x, after, hr, fun q hq => hb q (by simp [hq]), hd⟩
        · have e1 : lookupRounds por idFrom address err [] (r :: rest) = if err' then .error else .found [] none := by
            simp [lookupRounds, h, hl]
          rw [e1]
          refine ⟨fun h => by split at h <;> simp at h, ?_⟩
          rintro ⟨before, x, after, he, hb, hd⟩
          obtain ⟨y, b, rfl, rfl, _⟩ := stay x before after he hd
          refine absurd ?_ hl
          cases hg : y.providers.getLast? with
          | none => rfl
          | some p => simpa using (hb y (by simp)).2.1 p hg
  unfold lookupAddressDHT
  cases cid with
  | true => simpa using key rounds false
  | false => simp

/-- **C128, being asked for an address.** A peer that is asked for an address crashes exactly if it
does not know it itself and crashes in its own look-up. -/
theorem C128_asked_partial (s : PeerState) (n : Net) (myId : Bool) (address : Bytes) :
    handleAddressRequest s n myId address = .crashed ↔
      address ≠ s.myAgent ∧ s.dhtAddresses.get address = none ∧ s.tcpAddresses.get address = none ∧
      (∀ m, s.mailbox = some m → m.isRegistered address = false) ∧
      lookupAddressDHT n.por n.idFrom n.cid address n.rounds = .crashed := by
  have known : ∀ x : Option AgentRecord, knownEnd x ≠ .crashed := by
    intro x; cases x <;> simp [knownEnd]
  rw [handleAddressRequest_eq]
  by_cases h1 : address = s.myAgent
  · rw [if_pos h1]
    exact ⟨fun h => absurd h (known _), fun h => absurd h1 h.1⟩
  rw [if_neg h1]
  by_cases h2 : (s.dhtAddresses.get address).isSome = true
  · rw [if_pos h2]
    refine ⟨fun h => absurd h (known _), fun h => ?_⟩
    rw [h.2.1] at h2; simp at h2
  rw [if_neg h2]
  have h2' : s.dhtAddresses.get address = none := by simpa using h2
  by_cases h3 : s.inMailbox address = true
  · rw [if_pos h3]
    refine ⟨fun h => absurd h (known _), fun h => ?_⟩
    obtain ⟨m, hm, hr⟩ := PeerState.inMailbox_iff.1 h3
    have := h.2.2.2.1 m hm
    rw [this] at hr; simp at hr
  rw [if_neg h3]
  have h3' : ∀ m, s.mailbox = some m → m.isRegistered address = false := by
    intro m hm
    cases hr : m.isRegistered address with
    | false => rfl
    | true => exact absurd (PeerState.inMailbox_iff.2 ⟨m, hm, hr⟩) h3
  by_cases h4 : (s.tcpAddresses.get address).isSome = true
  · rw [if_pos h4]
    refine ⟨fun h => absurd h (known _), fun h => ?_⟩
    rw [h.2.2.1] at h4; simp at h4
  rw [if_neg h4]
  have h4' : s.tcpAddresses.get address = none := by simpa using h4
  cases hl : lookupAddressDHT n.por n.idFrom n.cid address n.rounds with
  | found p r => exact ⟨fun h => absurd h (known _), fun h => by simp at h⟩
  | error => simp [dhtEnd]
  | running => simp [dhtEnd]
  | crashed => exact ⟨fun _ => ⟨h1, h2', h4', h3', rfl⟩, fun _ => rfl⟩

/-! ## Sending -/

/-- The status that comes back has no body. -/
theorem status_cases (p : Pipe) : (readStatus p).1 = .ok none ↔ First Bodiless p := by
  rcases hr : p.reads with _ | ⟨_ | buf, rest⟩
  · have := (C48_read_error ⟨fun _ => [], fun _ => []⟩ p (.inl hr)).2.2.2.2.1
    rw [this]
    exact ⟨fun h => by simp at h, fun ⟨_, _, h, _⟩ => by rw [hr] at h; simp at h⟩
  · have := (C48_read_error ⟨fun _ => [], fun _ => []⟩ p (.inr ⟨rest, hr⟩)).2.2.2.2.1
    rw [this]
    exact ⟨fun h => by simp at h, fun ⟨_, _, h, _⟩ => by rw [hr] at h; simp at h⟩
  · have hf : First Bodiless p ↔ Bodiless buf := by
      constructor
      · rintro ⟨b, r, h, hd⟩
        rw [hr] at h
        simp only [List.cons.injEq, Option.some.injEq] at h
        rw [h.1]; exact hd
      · exact fun hd => ⟨buf, rest, hr, hd⟩
    rw [hf]
    unfold readStatus Bodiless
    rw [bind_read hr]
    cases hd : AcnMessage.decode buf with
    | none => simp [PipeM.fail]
    | some m =>
      rcases m with _ | ⟨e, r⟩ | a | r | r | b
      all_goals simp [PipeM.fail, PipeM.pure]

/-- **C128, sending an envelope to another peer.** The node crashes exactly if the envelope could be
sent and the answer is a status without body. -/
theorem C128_sending_partial (n : Net) (peer : Bytes) (record : Option AgentRecord) (e : Envelope) :
    (routeWithNewStream n peer record e).2 = .crashed ↔
      e.Texts ∧ (∀ r, record = some r → ∀ t ∈ r.texts, IsText t) ∧
      ∃ p, n.stream peer = some p ∧ CanWrite p ∧ First Bodiless p := by
  have hrec : ∀ eb, (∃ d, AcnMessage.encode (some (.aeaEnvelope eb record)) = some d) ↔
      ∀ r, record = some r → ∀ t ∈ r.texts, IsText t := by
    intro eb
    rw [C18_acn_encodes_iff]
    cases record <;> simp [AcnMessage.texts]
  unfold routeWithNewStream
  cases hs : n.stream peer with
  | none => simp
  | some p =>
    cases he : e.encode with
    | none =>
      refine ⟨fun h => by simp at h, fun h => ?_⟩
      obtain ⟨b, hb⟩ := (C19_envelope_encodes_iff e).2 h.1
      rw [he] at hb; simp at hb
    | some eb =>
      have ht : e.Texts := (C19_envelope_encodes_iff e).1 ⟨eb, he⟩
      rcases hx : sendEnvelope eb record { p with sent := [] } with ⟨⟨⟩ | err | _, p1⟩
      · obtain ⟨d, ws, hd, hw, rfl⟩ := sendMessage_ok.1 hx
        have hst := status_cases { p with sent := [] ++ [d], writes := ws }
        have hfirst : First Bodiless { p with sent := [] ++ [d], writes := ws } ↔ First Bodiless p := Iff.rfl
        rw [hfirst] at hst
        have hnp := (C48_panic_iff_partial ⟨fun _ => [], fun _ => []⟩ { p with sent := [] ++ [d], writes := ws }).2.2.2.1
        have : (e.Texts ∧ (∀ r, record = some r → ∀ t ∈ r.texts, IsText t) ∧
            ∃ q, some p = some q ∧ CanWrite q ∧ First Bodiless q) ↔ First Bodiless p := by
          constructor
          · rintro ⟨_, _, q, hq, _, hf⟩
            cases hq; exact hf
          · exact fun hf => ⟨ht, (hrec eb).1 ⟨d, hd⟩, p, rfl, ⟨ws, hw⟩, hf⟩
        rw [this, ← hst]
        dsimp only at hx ⊢
        rw [hx]
        dsimp only
        rcases hr : (readStatus { p with sent := [] ++ [d], writes := ws }).1 with (_ | b) | err | _
        · simp
        · simp only
          refine ⟨fun h => ?_, fun h => by simp at h⟩
          split at h <;> simp at h
        · simp
        · exact absurd hr hnp
      · refine ⟨fun h => by dsimp only at h; rw [hx] at h; simp at h, ?_⟩
        rintro ⟨_, hr, q, hq, ⟨ws, hw⟩, _⟩
        cases hq
        obtain ⟨d, hd⟩ := (hrec eb).2 hr
        have : sendEnvelope eb record { p with sent := [] } = (.ok (), { p with writes := ws, sent := [] ++ [d] }) :=
          sendMessage_ok.2 ⟨d, ws, hd, hw, rfl⟩
        rw [hx] at this; simp at this
      · exact absurd (by rw [show sendEnvelope eb record { p with sent := [] } = sendMessage _ _ from rfl] at hx; rw [hx])
          (sendMessage_not_panic (some (.aeaEnvelope eb record)) { p with sent := [] })

/-- **C128, registering at a relay.** -/
theorem C128_registering_partial (record : Option AgentRecord) (p : Pipe) :
    (sendRegister record p).1 = .panic ↔
      (∀ r, record = some r → ∀ t ∈ r.texts, IsText t) ∧ CanWrite p ∧ First Bodiless p := by
  have hrec : (∃ d, AcnMessage.encode (some (.register record)) = some d) ↔
      ∀ r, record = some r → ∀ t ∈ r.texts, IsText t := by
    rw [C18_acn_encodes_iff]
    cases record <;> simp [AcnMessage.texts]
  unfold sendRegister
  rw [bind_panic]
  constructor
  · rintro (h | ⟨_, p', h, h2⟩)
    · exact absurd h (sendMessage_not_panic _ _)
    · obtain ⟨d, ws, hd, hw, rfl⟩ := sendMessage_ok.1 h
      refine ⟨hrec.1 ⟨d, hd⟩, ⟨ws, hw⟩, ?_⟩
      rw [bind_panic] at h2
      rcases h2 with h2 | ⟨s, p2, h2, h3⟩
      · exact absurd h2 (C48_panic_iff_partial ⟨fun _ => [], fun _ => []⟩ _).2.2.2.1
      · cases s with
        | none =>
          exact (status_cases { p with writes := ws, sent := p.sent ++ [d] }).1 (by rw [h2])
        | some b =>
          dsimp only at h3
          split at h3
          · simp [PipeM.fail] at h3
          · simp [PipeM.pure] at h3
  · rintro ⟨ht, ⟨ws, hw⟩, hf⟩
    obtain ⟨d, hd⟩ := hrec.2 ht
    refine .inr ⟨(), _, sendMessage_ok.2 ⟨d, ws, hd, hw, rfl⟩, ?_⟩
    rw [bind_panic]
    have hs := (status_cases { p with writes := ws, sent := p.sent ++ [d] }).2 hf
    refine .inr ⟨none, (readStatus { p with writes := ws, sent := p.sent ++ [d] }).2, ?_, rfl⟩
    rw [← hs]

/-! ## Delegate connections -/

theorem loop_cases (T : AcnTexts) (addr : Bytes) (f : Nat) : ∀ p : Pipe, p.reads.length < f →
    ((delegateLoop T addr f p).2.1 = .crashed ↔ Comes p.reads p.writes) := by
  induction f with
  | zero => intro p h; omega
  | succ f ih =>
    intro p hl
    obtain ⟨reads, writes, sent⟩ := p
    rcases reads with _ | ⟨_ | buf, rest⟩
    · have : Comes [] writes → False := fun h => by cases h
      simp only [delegateLoop, handleFromPipe, PipeM.bind, Pipe.read]
      exact ⟨fun h => by simp at h, fun h => (this h).elim⟩
    · have : Comes (none :: rest) writes → False := fun h => by cases h
      simp only [delegateLoop, handleFromPipe, PipeM.bind, Pipe.read]
      exact ⟨fun h => by simp at h, fun h => (this h).elim⟩
    · have hb := bind_read (α := Handled) (p := ⟨some buf :: rest, writes, sent⟩) (rest := rest) rfl
      have hlt : rest.length < f := by simp at hl; omega
      have nope : ∀ {x : List (Option Bytes)} {ws : List Bool}, x = some buf :: rest → Comes x ws →
          (∃ b, AcnMessage.decode buf = some (some (.status b))) ∨
          ∃ eb rec e, AcnMessage.decode buf = some (some (.aeaEnvelope eb rec)) ∧ Envelope.decode eb = some e ∧
            ∃ ws', ws = true :: ws' := by
        intro x ws hx h
        cases h with
        | now h => cases hx; exact .inl ⟨none, h⟩
        | status h _ => cases hx; exact .inl ⟨_, h⟩
        | envelope h he _ => cases hx; exact .inr ⟨_, _, _, h, he, _, rfl⟩
      have err : ∀ {e q}, handleFromPipe T ⟨some buf :: rest, writes, sent⟩ = (.err e, q) →
          (delegateLoop T addr (f + 1) ⟨some buf :: rest, writes, sent⟩).2.1 ≠ .crashed := by
        intro e q h
        simp [delegateLoop, h]
      have failing : ∀ (text : Bytes) (code : StatusCode) (e : AcnErr),
          handleFromPipe T ⟨some buf :: rest, writes, sent⟩ =
            ((PipeM.ignoring (sendError text code)).bind fun _ => (.fail e : PipeM Handled)) ⟨rest, writes, sent⟩ →
          (delegateLoop T addr (f + 1) ⟨some buf :: rest, writes, sent⟩).2.1 ≠ .crashed := by
        intro text code e h
        rcases hx : ((PipeM.ignoring (sendError text code)).bind fun _ => (.fail e : PipeM Handled)) ⟨rest, writes, sent⟩
          with ⟨_ | _ | _, q⟩
        · exact (sendError_fail_not_ok hx).elim
        · exact err (h.trans hx)
        · exact absurd (by rw [hx]) (sendError_not_panic (α := Handled) text code e ⟨rest, writes, sent⟩)
      cases hd : AcnMessage.decode buf with
      | none =>
        refine ⟨fun h => absurd h (failing (T.decodeError buf) .errorDecode .decode ?_), fun h => ?_⟩
        · unfold handleFromPipe; rw [hb]; simp [decodeAcnMessage, hd]
        · rcases nope rfl h with ⟨b, h⟩ | ⟨_, _, _, h, _⟩ <;> rw [hd] at h <;> simp at h
      | some m =>
        have other : decodeAcnMessage T buf = .error (.errorUnexpectedPayload, T.unexpectedMessage m) →
            (∀ b, m ≠ some (.status b)) → (∀ eb rec, m ≠ some (.aeaEnvelope eb rec)) →
            ((delegateLoop T addr (f + 1) ⟨some buf :: rest, writes, sent⟩).2.1 = .crashed ↔
              Comes (some buf :: rest) writes) := by
          intro hm h1 h2
          refine ⟨fun h => absurd h (failing (T.unexpectedMessage m) .errorUnexpectedPayload .unexpected ?_),
            fun h => ?_⟩
          · unfold handleFromPipe; rw [hb]; simp [hm]
          · rcases nope rfl h with ⟨b, h⟩ | ⟨_, _, _, h, _⟩ <;> rw [hd] at h
            · exact absurd (Option.some.inj h) (h1 _)
            · exact absurd (Option.some.inj h) (h2 _ _)
        rcases m with _ | ⟨eb, rec⟩ | a | r | r | b
        case some.status =>
          cases b with
          | none =>
            refine ⟨fun _ => .now hd, fun _ => ?_⟩
            have : handleFromPipe T ⟨some buf :: rest, writes, sent⟩ = (.panic, ⟨rest, writes, sent⟩) := by
              unfold handleFromPipe; rw [hb]; simp [decodeAcnMessage, hd, PipeM.crash]
            simp [delegateLoop, this]
          | some b =>
            have : handleFromPipe T ⟨some buf :: rest, writes, sent⟩ = (.ok (.status b), ⟨rest, writes, sent⟩) := by
              unfold handleFromPipe; rw [hb]; simp [decodeAcnMessage, hd, PipeM.pure]
            simp only [delegateLoop, this]
            rw [ih ⟨rest, writes, sent⟩ hlt]
            constructor
            · exact fun h => .status hd h
            · intro h
              cases h with
              | now h => rw [Bodiless, hd] at h; simp at h
              | status _ h => exact h
              | envelope h _ _ => rw [hd] at h; simp at h
        case some.aeaEnvelope =>
          cases he : Envelope.decode eb with
          | none =>
            refine ⟨fun h => absurd h (failing (b! "error on decoding envelope") .errorDecode .envelope ?_), fun h => ?_⟩
            · unfold handleFromPipe; rw [hb]; simp [decodeAcnMessage, hd, he]
            · rcases nope rfl h with ⟨b, h⟩ | ⟨_, _, _, h, h2, _⟩
              · rw [hd] at h; simp at h
              · rw [hd] at h
                simp only [Option.some.injEq, Performative.aeaEnvelope.injEq] at h
                rw [← h.1, he] at h2; simp at h2
          | some e =>
            obtain ⟨d, hds⟩ := success_encodes
            have step : handleFromPipe T ⟨some buf :: rest, writes, sent⟩ =
                (sendSuccess.bind fun _ => .pure (.envelope e)) ⟨rest, writes, sent⟩ := by
              unfold handleFromPipe; rw [hb]; simp [decodeAcnMessage, hd, he]
            rcases writes with _ | ⟨_ | _, ws⟩
            · refine ⟨fun h => absurd h (err (e := .write) (q := ⟨rest, [], sent ++ [d]⟩) ?_), fun h => ?_⟩
              · rw [step]; simp [sendSuccess, sendMessage, hds, PipeM.bind, Pipe.write]
              · rcases nope rfl h with ⟨b, h⟩ | ⟨_, _, _, _, _, _, h⟩
                · rw [hd] at h; simp at h
                · simp at h
            · refine ⟨fun h => absurd h (err (e := .write) (q := ⟨rest, ws, sent ++ [d]⟩) ?_), fun h => ?_⟩
              · rw [step]; simp [sendSuccess, sendMessage, hds, PipeM.bind, Pipe.write]
              · rcases nope rfl h with ⟨b, h⟩ | ⟨_, _, _, _, _, _, h⟩
                · rw [hd] at h; simp at h
                · simp at h
            · have : handleFromPipe T ⟨some buf :: rest, true :: ws, sent⟩ =
                  (.ok (.envelope e), ⟨rest, ws, sent ++ [d]⟩) := by
                rw [step]; simp [sendSuccess, sendMessage, hds, PipeM.bind, Pipe.write, PipeM.pure]
              have h2 : (delegateLoop T addr (f + 1) ⟨some buf :: rest, true :: ws, sent⟩).2 =
                  (delegateLoop T addr f ⟨rest, ws, sent ++ [d]⟩).2 := by
                simp only [delegateLoop, this]
                split <;> rfl
              rw [h2, ih ⟨rest, ws, sent ++ [d]⟩ hlt]
              constructor
              · exact fun h => .envelope hd he h
              · intro h
                cases h with
                | now h => rw [Bodiless, hd] at h; simp at h
                | status h _ => rw [hd] at h; simp at h
                | envelope _ _ h => exact h
        all_goals exact other (by simp [decodeAcnMessage, hd]) (by simp) (by simp)

/-- **C128, delegate connections.** A client that connects crashes the peer exactly with its
registration, or, once registered and announced, by coming to send a status without body. -/
theorem C128_delegate_partial (T : AcnTexts) (por : PoRCheck) (txt : StatusCode → Bytes) (key : Bytes)
    (announce : Bool) (p : Pipe) :
    (delegateConnection T por txt key announce p).2.1 = .crashed ↔
      First (BadRegistration por key) p ∨
      announce = true ∧ ∃ buf r rest ws, p.reads = some buf :: rest ∧ p.writes = true :: ws ∧
        AcnMessage.decode buf = some (some (.register (some r))) ∧ por r r.address key = .ok .success ∧
        Comes rest ws := by
  have hreg := registration_cases T por txt key p
  unfold delegateConnection
  rcases hx : acceptRegistration T por txt key p with ⟨r | _ | _, p'⟩
  · -- registered
    obtain ⟨buf, rest, ws, d, hr, hw, hd, hp, rfl⟩ : ∃ buf rest ws d, p.reads = some buf :: rest ∧
        p.writes = true :: ws ∧ AcnMessage.decode buf = some (some (.register (some r))) ∧
        por r r.address key = .ok .success ∧ p' = ⟨rest, ws, d⟩ := by
      unfold acceptRegistration at hx
      obtain ⟨rec, p1, h1, h2⟩ := bind_ok hx
      have hp1 : ∃ buf rest, p.reads = some buf :: rest ∧ p1 = { p with reads := rest } ∧
          AcnMessage.decode buf = some (some (.register rec)) := by
        rcases hr : p.reads with _ | ⟨_ | buf, rest⟩
        · have := (C48_read_error T p (.inl hr)).1; rw [h1] at this; simp at this
        · have := (C48_read_error T p (.inr ⟨rest, hr⟩)).1; rw [h1] at this; simp at this
        · unfold readRegistration at h1
          rw [bind_read hr] at h1
          cases hd : AcnMessage.decode buf with
          | none => rw [hd] at h1; exact (sendError_fail_not_ok h1).elim
          | some m =>
            rw [hd] at h1
            rcases m with _ | ⟨e, r⟩ | a | r | r | b
            case some.register =>
              simp only [PipeM.pure, Prod.mk.injEq, Res.ok.injEq] at h1
              exact ⟨buf, rest, rfl, h1.2.symm, by rw [← h1.1]; exact hd⟩
            all_goals exact (sendError_fail_not_ok h1).elim
      obtain ⟨buf, rest, hr, rfl, hd⟩ := hp1
      cases rec with
      | none => simp [PipeM.crash] at h2
      | some x =>
        dsimp only at h2
        cases hp : por x x.address key with
        | panic => rw [hp] at h2; simp [PipeM.crash] at h2
        | err e => rw [hp] at h2; simp [PipeM.fail] at h2
        | ok c =>
          rw [hp] at h2
          cases c
          case success =>
            obtain ⟨_, p2, h3, h4⟩ := bind_ok h2
            obtain ⟨d, ws, _, hw, rfl⟩ := sendMessage_ok.1 h3
            simp only [PipeM.pure, Prod.mk.injEq, Res.ok.injEq] at h4
            obtain ⟨rfl, rfl⟩ := h4
            exact ⟨buf, rest, ws, _, hr, hw, hd, hp, rfl⟩
          all_goals exact (sendError_fail_not_ok h2).elim
    have nb : ¬ First (BadRegistration por key) p := fun h => by
      have := hreg.2 h; rw [hx] at this; simp at this
    dsimp only
    cases announce with
    | false => simp [nb]
    | true =>
      simp only [if_true, nb, false_or, true_and]
      rw [loop_cases T r.address _ _ (by simp)]
      constructor
      · exact fun h => ⟨buf, r, rest, ws, hr, hw, hd, hp, h⟩
      · rintro ⟨buf', r', rest', ws', hr', hw', _, _, h⟩
        rw [hr] at hr'
        rw [hw] at hw'
        cases hr'
        cases hw'
        exact h
  · have nb : ¬ First (BadRegistration por key) p := fun h => by
      have := hreg.2 h; rw [hx] at this; simp at this
    simp only [nb, false_or]
    refine ⟨fun h => by simp at h, ?_⟩
    rintro ⟨_, buf, r, rest, ws, hr, hw, hd, hp, _⟩
    exfalso
    obtain ⟨d, hds⟩ := success_encodes
    have : acceptRegistration T por txt key p = (.ok r, { p with reads := rest, writes := ws, sent := p.sent ++ [d] }) := by
      unfold acceptRegistration
      have h1 : readRegistration T p = (.ok (some r), { p with reads := rest }) := by
        unfold readRegistration
        rw [bind_read hr, hd]
        rfl
      rw [bind_eq h1]
      simp only [hp]
      have h2 : sendSuccess { p with reads := rest } =
          (.ok (), { p with reads := rest, writes := ws, sent := p.sent ++ [d] }) :=
        sendMessage_ok.2 ⟨d, ws, hds, hw, rfl⟩
      rw [bind_eq h2]
      rfl
    rw [hx] at this; simp at this
  · exact ⟨fun _ => .inl (hreg.1 (by rw [hx])), fun _ => rfl⟩

/-! ## Client mode -/

theorem bindC_crashed {α β : Type} {m : ClientM α} {f : α → ClientM β} :
    (m.bind f).2 = .error .crashed ↔ m.2 = .error .crashed ∨ ∃ a, m.2 = .ok a ∧ (f a).2 = .error .crashed := by
  unfold ClientM.bind
  rcases m with ⟨acts, r | a⟩
  · simp
  · constructor
    · exact fun h => .inr ⟨a, rfl, h⟩
    · rintro (h | ⟨x, h, h2⟩)
      · simp at h
      · cases h; exact h2

theorem onStream_crashed {α : Type} {kind : StreamKind} {peer : Bytes} {m : PipeM α} {p : Pipe} :
    (ClientM.onStream kind peer m p).2 = .error .crashed ↔ (m { p with sent := [] }).1 = .panic := by
  unfold ClientM.onStream
  rcases m { p with sent := [] } with ⟨_ | _ | _, q⟩ <;> simp

theorem onStream_ok {α : Type} {kind : StreamKind} {peer : Bytes} {m : PipeM α} {p q : Pipe} {a : α} :
    (ClientM.onStream kind peer m p).2 = .ok (a, q) ↔ m { p with sent := [] } = (.ok a, q) := by
  unfold ClientM.onStream
  rcases m { p with sent := [] } with ⟨_ | _ | _, q⟩ <;> simp

/-- **C128, opening a stream in client mode.** It crashes exactly if the first attempt failed, a later
one did not, and the relay answers the registration in between with a status without body. -/
theorem C128_reopening_partial (c : DhtClient) (timeout : Nat) (s : StreamScript) :
    (newStreamLoop c timeout s).2 = .error .crashed ↔
      s.script.first = none ∧ (∃ p, (retryLoop timeout s.script).result = some (some p)) ∧
      ∃ q, s.register = some q ∧ (∀ r, c.myRecord = some r → ∀ t ∈ r.texts, IsText t) ∧ CanWrite q ∧
        First Bodiless q := by
  unfold newStreamLoop
  rcases hr : (retryLoop timeout s.script).result with _ | _ | p
  · simp [ClientM.stop]
  · simp [ClientM.stop]
  · by_cases hf : s.script.first = none
    · have hn : s.script.first.isNone = true := by rw [hf]; rfl
      dsimp only
      rw [if_pos hn, bindC_crashed]
      have drop : ∀ x : ClientM Unit, (x.2 = .error .crashed ∨ ∃ a, x.2 = .ok a ∧
          (ClientM.pure p : ClientM Pipe).2 = .error .crashed) ↔ x.2 = .error .crashed := by
        intro x; simp [ClientM.pure]
      rw [drop]
      unfold registerAgentAddress
      cases hq : s.register with
      | none => simp [ClientM.stop]
      | some q =>
        dsimp only
        rw [bindC_crashed, onStream_crashed, C128_registering_partial]
        constructor
        · rintro (⟨h1, h2, h3⟩ | ⟨_, _, h⟩)
          rotate_left
          · simp [ClientM.pure] at h
          exact ⟨hf, ⟨p, rfl⟩, q, rfl, h1, h2, h3⟩
        · rintro ⟨_, _, q', hq', h⟩
          cases hq'
          exact .inl h
    · have : s.script.first.isNone = false := by
        cases hh : s.script.first with
        | none => exact absurd hh hf
        | some x => rfl
      simp [this, ClientM.pure, hf]

/-- **C128, looking up in client mode.** Besides, the client crashes exactly if the relay answers with
a status without body, without a record, or with one whose check crashes. -/
theorem C128_client_lookup_partial (c : DhtClient) (n : ClientNet) (target : Bytes) (ht : IsText target) :
    (clientLookup c n target).2 = .error .crashed ↔
      (newStreamLoop c newStreamTimeoutRelayPeer n.relayStream).2 = .error .crashed ∨
      ∃ p, (newStreamLoop c newStreamTimeoutRelayPeer n.relayStream).2 = .ok p ∧ CanWrite p ∧
        First (BadAnswer n.por target) p := by
  unfold clientLookup
  rw [bindC_crashed]
  refine or_congr Iff.rfl (exists_congr fun p => and_congr Iff.rfl ?_)
  rw [bindC_crashed, onStream_crashed, answer_cases]
  constructor
  · rintro (⟨_, hw, b, r, h1, h2⟩ | ⟨⟨rec, q⟩, h, h2⟩)
    · exact ⟨hw, b, r, h1, .inl h2⟩
    · obtain ⟨_, hw, b, rs, h1, hd⟩ := (answer_ok target { p with sent := [] } rec).1 (by rw [onStream_ok.1 h])
      refine ⟨hw, b, rs, h1, .inr ⟨rec, hd, ?_⟩⟩
      cases rec with
      | none => exact .inl rfl
      | some x =>
        refine .inr ⟨x, rfl, ?_⟩
        dsimp only at h2
        cases hp : n.por x target x.peerPublicKey with
        | panic => rfl
        | err e => rw [hp] at h2; simp [ClientM.stop] at h2
        | ok code =>
          rw [hp] at h2
          cases code
          case success =>
            dsimp only at h2
            cases hi : n.idFrom x.peerPublicKey <;> rw [hi] at h2 <;> simp [ClientM.stop, ClientM.pure] at h2
          all_goals simp [ClientM.stop] at h2
  · rintro ⟨hw, b, rs, h1, h2 | ⟨rec, hd, h2⟩⟩
    · exact .inl ⟨ht, hw, b, rs, h1, h2⟩
    · have ha := (answer_ok target { p with sent := [] } rec).2 ⟨ht, hw, b, rs, h1, hd⟩
      refine .inr ⟨(rec, (performAddressLookup target { p with sent := [] }).2), onStream_ok.2 (by rw [← ha]), ?_⟩
      rcases h2 with rfl | ⟨x, rfl, hp⟩
      · rfl
      · simp [hp, ClientM.stop]

/-- **C128, sending in client mode.** -/
theorem C128_client_sending_partial (c : DhtClient) (e : Envelope) (peer : Bytes) (p : Pipe) :
    (clientTransmit c e peer p).2 = .error .crashed ↔
      e.Texts ∧ (∀ r, c.myRecord = some r → ∀ t ∈ r.texts, IsText t) ∧ CanWrite p ∧ First Bodiless p := by
  have hrec : ∀ eb, (∃ d, AcnMessage.encode (some (.aeaEnvelope eb c.myRecord)) = some d) ↔
      ∀ r, c.myRecord = some r → ∀ t ∈ r.texts, IsText t := by
    intro eb
    rw [C18_acn_encodes_iff]
    cases c.myRecord <;> simp [AcnMessage.texts]
  have await : ∀ q : Pipe, (clientAwait peer q).2 = .error .crashed ↔ First Bodiless q := by
    intro q
    unfold clientAwait
    rw [bindC_crashed, onStream_crashed]
    have hst := status_cases { q with sent := [] }
    constructor
    · rintro (h | ⟨⟨s, q'⟩, h, h2⟩)
      · exact absurd h (C48_panic_iff_partial ⟨fun _ => [], fun _ => []⟩ _).2.2.2.1
      · cases s with
        | none => exact hst.1 (by rw [onStream_ok.1 h])
        | some b => simp [ClientM.pure] at h2
    · intro h
      have := hst.2 h
      exact .inr ⟨(none, (readStatus { q with sent := [] }).2), onStream_ok.2 (by rw [← this]), rfl⟩
  unfold clientTransmit
  cases he : e.encode with
  | none =>
    refine ⟨fun h => by simp [ClientM.stop] at h, fun h => ?_⟩
    obtain ⟨b, hb⟩ := (C19_envelope_encodes_iff e).2 h.1
    rw [he] at hb; simp at hb
  | some eb =>
    have ht : e.Texts := (C19_envelope_encodes_iff e).1 ⟨eb, he⟩
    dsimp only
    rw [bindC_crashed, onStream_crashed]
    constructor
    · rintro (h | ⟨⟨_, q⟩, h, h2⟩)
      · exact absurd h (sendMessage_not_panic _ _)
      · obtain ⟨d, ws, hd, hw, rfl⟩ := sendMessage_ok.1 (onStream_ok.1 h)
        exact ⟨ht, (hrec eb).1 ⟨d, hd⟩, ⟨ws, hw⟩, (await { p with writes := ws, sent := [] ++ [d] }).1 h2⟩
    · rintro ⟨_, hr, ⟨ws, hw⟩, hf⟩
      obtain ⟨d, hd⟩ := (hrec eb).2 hr
      refine .inr ⟨((), { p with writes := ws, sent := [] ++ [d] }), onStream_ok.2 ?_, (await _).2 hf⟩
      exact sendMessage_ok.2 ⟨d, ws, hd, hw, rfl⟩

/-! ## Cases -/

namespace DeadlyDemo

set_option maxRecDepth 100000
set_option maxHeartbeats 4000000

/-- The two bytes of a status without body. -/
theorem two_bytes : Bodiless [0x4a, 0] := by unfold Bodiless; decide

/-- **C128 is false**: the peer to which an envelope is sent crashes the sender with two bytes, and so
does a provider that is asked; a client that is served crashes its peer with them at any time. -/
theorem C128_counterexample :
    (routeWithNewStream { RouteDemo.net with stream := fun _ => some ⟨[some [0x4a, 0]], [true], []⟩ } (b! "pk")
      none (RouteDemo.env (b! "far"))).2 = .crashed ∧
    lookupAddressDHT HandlersDemo.por some true (b! "far")
      [⟨[], false⟩, ⟨[⟨b! "x", none⟩, ⟨b! "y", some ⟨[some [0x4a, 0]], [true], []⟩⟩], false⟩] = .crashed ∧
    (delegateConnection HandlersDemo.T HandlersDemo.por (fun _ => []) (b! "pk") true
      ⟨[AcnMessage.encode (some (.register (some PoRDemo.good))),
        AcnMessage.encode (some (.status (some ⟨0, []⟩))), some [0x4a, 0]], [true, true], []⟩).2.1 = .crashed := by
  refine ⟨by decide +kernel, by decide +kernel, by decide +kernel⟩

/-- A peer that stays up: the same client sends something that is no message at all. -/
example : (delegateConnection HandlersDemo.T HandlersDemo.por (fun _ => []) (b! "pk") true
      ⟨[AcnMessage.encode (some (.register (some PoRDemo.good))), some [0xff], some [0x4a, 0]],
        [true, true], []⟩).2.1 = .closed := by decide +kernel

end DeadlyDemo

end Deadly

end Verif
