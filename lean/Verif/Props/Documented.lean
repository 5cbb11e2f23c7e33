import Verif.Props.StreamAnswers
import Verif.Props.HandleResults
import Verif.Props.EndToEnd
import Verif.Props.PeerTables
import Verif.Props.PoR
import Verif.Lemmas.Decoded

/-!
# C117: requests are answered as documented

Specification: the diagrams and the table of status codes in docs/acn-internals.md (lines 66-90, 116-172, 214-239,
263-284, 345-424), as relations between a frame that comes in, the tables of the peer and what is written.
-/

namespace Verif
namespace Documented

open Acn

/-! ## Specification -/

/-- The frame is a status with this code. -/
def IsStatus (c : Int) (m : Bytes) : Prop :=
  ∃ texts, AcnMessage.encode (some (.status (some ⟨c, texts⟩))) = some m

/-- The frame is a look-up response with this record. -/
def IsRecord (r : AgentRecord) (m : Bytes) : Prop :=
  AcnMessage.encode (some (.lookupResponse (some r))) = some m

/-- The handler answers the frame `buf` with one frame, of this kind, and with nothing else. -/
def Says {α : Type} (handler : PipeM α) (buf : Bytes) (S : Bytes → Prop) : Prop :=
  ∀ (p : Pipe) (rest : List (Option Bytes)), p.reads = some buf :: rest →
    ∃ m, S m ∧ (handler p).2.sent = p.sent ++ [m]

section
variable (addr : Bytes → Bytes → Res Unit Bytes) (verify : Bytes → Bytes → Bytes → Bytes → Res Unit Bool)

/-- The check of a record for a peer with key `k`: unsupported ledger, wrong public key, address and public key do not
match, invalid proof. -/
inductive Proof (k : Bytes) (r : AgentRecord) : Int → Prop
  | ledger : r.ledgerId ∉ [b! "fetchai", b! "ethereum", b! "cosmos"] → Proof k r 13
  | peer : r.ledgerId ∈ [b! "fetchai", b! "ethereum", b! "cosmos"] → r.peerPublicKey ≠ k → Proof k r 11
  | address : r.ledgerId ∈ [b! "fetchai", b! "ethereum", b! "cosmos"] → r.peerPublicKey = k →
      addr r.ledgerId r.publicKey ≠ .ok r.address → Proof k r 10
  | signature : r.ledgerId ∈ [b! "fetchai", b! "ethereum", b! "cosmos"] → r.peerPublicKey = k →
      addr r.ledgerId r.publicKey = .ok r.address → verify r.ledgerId k r.signature r.publicKey ≠ .ok true →
      Proof k r 12
  | valid : r.ledgerId ∈ [b! "fetchai", b! "ethereum", b! "cosmos"] → r.peerPublicKey = k →
      addr r.ledgerId r.publicKey = .ok r.address → verify r.ledgerId k r.signature r.publicKey = .ok true →
      Proof k r 0

/-- Registration. -/
inductive Registration (k : Bytes) (buf : Bytes) : Int → Prop
  | undecodable : AcnMessage.decode buf = none → Registration k buf 4
  | other {m} : AcnMessage.decode buf = some m → (∀ r, m ≠ some (.register r)) → Registration k buf 2
  | check {r c} : AcnMessage.decode buf = some (some (.register (some r))) → Proof addr verify k r c →
      Registration k buf c

/-- The contact peer of the recipient: delegate, own agent, unknown. Mailboxes are not in the documentation; what is put
into one is a success. -/
inductive Target (s : PeerState) (n : Net) (e : Envelope) : Int → Prop
  | mailbox : Accepts s e → Target s n e 0
  | delegate {c} : ¬ Accepts s e → s.tcpAddresses.get e.to = some c → n.connOk = true → n.ack = .ok () → Target s n e 0
  | delegateNotReady {c} : ¬ Accepts s e → s.tcpAddresses.get e.to = some c → ¬ (n.connOk = true ∧ n.ack = .ok ()) →
      Target s n e 21
  | agent : ¬ Accepts s e → s.tcpAddresses.get e.to = none → e.to = s.myAgent → s.hasAgent = true → Target s n e 0
  | agentNotReady : ¬ Accepts s e → s.tcpAddresses.get e.to = none → e.to = s.myAgent → s.hasAgent = false →
      Target s n e 21
  | unknown : ¬ Accepts s e → s.tcpAddresses.get e.to = none → e.to ≠ s.myAgent → Target s n e 20

/-- An envelope from another peer. -/
inductive FromPeer (k : Bytes) (s : PeerState) (n : Net) (buf : Bytes) : Int → Prop
  | undecodable : AcnMessage.decode buf = none → FromPeer k s n buf 4
  | other {m} : AcnMessage.decode buf = some m → (∀ e r, m ≠ some (.aeaEnvelope e r)) → FromPeer k s n buf 2
  | payload {eb rec} : AcnMessage.decode buf = some (some (.aeaEnvelope eb rec)) → Envelope.decode eb = none →
      FromPeer k s n buf 4
  | check {eb r e c} : AcnMessage.decode buf = some (some (.aeaEnvelope eb (some r))) → Envelope.decode eb = some e →
      Proof addr verify k r c → c ≠ 0 → FromPeer k s n buf c
  | target {eb r e c} : AcnMessage.decode buf = some (some (.aeaEnvelope eb (some r))) → Envelope.decode eb = some e →
      Proof addr verify k r 0 → Target s n e c → FromPeer k s n buf c
end

/-- An envelope from an agent. -/
inductive FromAgent (buf : Bytes) : Int → Prop
  | undecodable : AcnMessage.decode buf = none → FromAgent buf 4
  | other {m} : AcnMessage.decode buf = some m → (∀ e r, m ≠ some (.aeaEnvelope e r)) → FromAgent buf 2
  | payload {eb rec} : AcnMessage.decode buf = some (some (.aeaEnvelope eb rec)) → Envelope.decode eb = none →
      FromAgent buf 4
  | success {eb rec e} : AcnMessage.decode buf = some (some (.aeaEnvelope eb rec)) → Envelope.decode eb = some e →
      FromAgent buf 0

/-- The agent is with the peer: its own, a relay client, a delegate client, one with a mailbox. -/
def Local (s : PeerState) (a : Bytes) : Prop :=
  (a = s.myAgent ∧ s.myRecord ≠ none) ∨ (s.dhtAddresses.get a).isSome ∨ (s.tcpAddresses.get a).isSome ∨
    ∃ m, s.mailbox = some m ∧ (m.envelopes.get a).isSome

/-- The peer has this record of the agent. -/
def Has (s : PeerState) (a : Bytes) (r : AgentRecord) : Prop :=
  (a = s.myAgent ∧ s.myRecord = some r) ∨ s.agentRecords.get a = some r ∨
    ∃ m, s.mailbox = some m ∧ m.records.get a = some r

/-! ## The check -/

section
variable {addr : Bytes → Bytes → Res Unit Bytes} {verify : Bytes → Bytes → Bytes → Bytes → Res Unit Bool}

theorem mem_ledgers {l : Bytes} : l ∈ [b! "fetchai", b! "ethereum", b! "cosmos"] ↔
    supportedLedgers.contains l = true := by
  simp only [supportedLedgers, List.contains_iff_mem, List.mem_cons, List.not_mem_nil, or_false]
  exact ⟨fun h => by rcases h with h | h | h <;> simp [h], fun h => by rcases h with h | h | h <;> simp [h]⟩

/-- The code of the check is the documented one. -/
theorem proof_code {k : Bytes} {r : AgentRecord} {c : Int} (h : Proof addr verify k r c)
    (ha : addr r.ledgerId r.publicKey ≠ .panic) (hv : verify r.ledgerId k r.signature r.publicKey ≠ .panic) :
    ∃ code : StatusCode, code.toInt = c ∧ isValidPoR addr verify r r.address k = .ok code := by
  unfold isValidPoR
  simp only [ne_eq, not_true_eq_false, if_false]
  cases h with
  | ledger h =>
    rw [mem_ledgers, Bool.not_eq_true] at h
    exact ⟨.errorUnsupportedLedger, rfl, by simp only [h, Bool.not_false, if_true]⟩
  | peer h h2 =>
    rw [mem_ledgers] at h
    exact ⟨.errorWrongPublicKey, rfl, by
      simp only [h, Bool.not_true, Bool.false_eq_true, if_false, h2, not_false_eq_true, if_true]⟩
  | address h h2 h3 =>
    rw [mem_ledgers] at h
    refine ⟨.errorWrongAgentAddress, rfl, ?_⟩
    subst h2
    simp only [h, Bool.not_true, Bool.false_eq_true, if_false, not_true_eq_false]
    cases hx : addr r.ledgerId r.publicKey with
    | ok a =>
      rw [hx] at h3
      have : a ≠ r.address := fun e => h3 (by rw [e])
      simp [this]
    | err _ => rfl
    | panic => exact absurd hx ha
  | signature h h2 h3 h4 =>
    rw [mem_ledgers] at h
    refine ⟨.errorInvalidProof, rfl, ?_⟩
    subst h2
    simp only [h, Bool.not_true, Bool.false_eq_true, if_false, not_true_eq_false, h3]
    cases hx : verify r.ledgerId r.peerPublicKey r.signature r.publicKey with
    | ok b =>
      cases b with
      | false => rfl
      | true => exact absurd hx h4
    | err _ => rfl
    | panic => exact absurd hx hv
  | valid h h2 h3 h4 =>
    rw [mem_ledgers] at h
    refine ⟨.success, rfl, ?_⟩
    subst h2
    simp only [h, Bool.not_true, Bool.false_eq_true, if_false, not_true_eq_false, h3, h4]

/-- There is a code for every record. -/
theorem proof_total (addr : Bytes → Bytes → Res Unit Bytes) (verify : Bytes → Bytes → Bytes → Bytes → Res Unit Bool)
    (k : Bytes) (r : AgentRecord) : ∃ c, Proof addr verify k r c := by
  by_cases h1 : r.ledgerId ∈ [b! "fetchai", b! "ethereum", b! "cosmos"]
  · by_cases h2 : r.peerPublicKey = k
    · by_cases h3 : addr r.ledgerId r.publicKey = .ok r.address
      · by_cases h4 : verify r.ledgerId k r.signature r.publicKey = .ok true
        · exact ⟨_, .valid h1 h2 h3 h4⟩
        · exact ⟨_, .signature h1 h2 h3 h4⟩
      · exact ⟨_, .address h1 h2 h3⟩
    · exact ⟨_, .peer h1 h2⟩
  · exact ⟨_, .ledger h1⟩

/-- The functions that compute addresses and check signatures return. -/
def NoPanic (addr : Bytes → Bytes → Res Unit Bytes) (verify : Bytes → Bytes → Bytes → Bytes → Res Unit Bool) : Prop :=
  (∀ l k, addr l k ≠ .panic) ∧ ∀ l m s k, verify l m s k ≠ .panic

theorem says_of_refuses {α : Type} {h : PipeM α} {buf : Bytes} {c : Int} {text : Bytes} (hr : RefusesWith h buf c text) :
    Says h buf (IsStatus c) := by
  intro p rest hp
  obtain ⟨_, m, _, hm, hs, _⟩ := hr p rest hp
  exact ⟨m, ⟨[text], hm⟩, hs⟩

/-- An error of the first part of a handler is what the handler ends with. -/
theorem refuses_bind {α β : Type} {h : PipeM α} {f : α → PipeM β} {buf : Bytes} {c : Int} {text : Bytes}
    (hr : RefusesWith h buf c text) : RefusesWith (h.bind f) buf c text := by
  intro p rest hp
  obtain ⟨e, m, h1, hm, h2, h3⟩ := hr p rest hp
  have : h.bind f p = (.err e, (h p).2) := by
    unfold PipeM.bind
    rcases hx : h p with ⟨x, q⟩
    rw [hx] at h1
    dsimp only at h1
    subst h1
    rfl
  rw [this]
  exact ⟨e, m, rfl, hm, h2, h3⟩

theorem success_sent (p : Pipe) : ∃ m, IsStatus 0 m ∧ (sendSuccess p).2.sent = p.sent ++ [m] := by
  have he : ∃ m, AcnMessage.encode (some (.status (some ⟨StatusCode.success.toInt, []⟩))) = some m := ⟨_, rfl⟩
  obtain ⟨m, hm⟩ := he
  refine ⟨m, ⟨[], hm⟩, ?_⟩
  unfold sendSuccess sendMessage
  rw [hm]
  exact write_sent m p

/-! ## Registration -/

/-- **C117.** A registration is answered as documented, whatever frame comes in, except if it is a registration without
a record. -/
theorem C117_registration_partial {T : AcnTexts} (hT : T.Valid) (hn : NoPanic addr verify) {txt : StatusCode → Bytes}
    (ht : ∀ c, IsText (txt c)) {k buf : Bytes} {c : Int} (h : Registration addr verify k buf c) :
    Says (acceptRegistration T (isValidPoR addr verify) txt k) buf (IsStatus c) := by
  cases h with
  | undecodable h => exact says_of_refuses (refuses_bind (C48_undecodable_answered_partial T hT buf h).1)
  | other h h2 => exact says_of_refuses (refuses_bind ((C48_unexpected_answered_partial T hT buf _ h).1 h2))
  | @check r _ h h2 =>
    obtain ⟨code, rfl, hp⟩ := proof_code h2 (hn.1 _ _) (hn.2 _ _ _ _)
    intro p rest hpr
    have hread : readRegistration T p = (.ok (some r), { p with reads := rest }) := by
      unfold readRegistration
      rw [bind_read hpr]
      simp [h, PipeM.pure]
    unfold acceptRegistration
    rw [PipeM.bind, hread]
    dsimp only
    rw [hp]
    have bad : code ≠ .success → ∃ m, IsStatus code.toInt m ∧
        (((PipeM.ignoring (sendError (txt code) code)).bind fun _ => (.fail (.invalidPoR code) : PipeM AgentRecord))
          { p with reads := rest }).2.sent = p.sent ++ [m] := by
      intro _
      obtain ⟨m, hm, hr⟩ := sendError_fail (α := AgentRecord) (txt code) code (.invalidPoR code)
        { p with reads := rest } (ht code)
      exact ⟨m, ⟨_, hm⟩, by rw [hr]⟩
    cases code with
    | success =>
      obtain ⟨m, hm, hs⟩ := success_sent { p with reads := rest }
      refine ⟨m, hm, ?_⟩
      dsimp only
      rw [PipeM.bind]
      rcases hx : sendSuccess { p with reads := rest } with ⟨_ | _ | _, q⟩ <;> rw [hx] at hs <;>
        simpa [PipeM.pure] using hs
    | _ => exact bad (by decide)

/-- The documentation says what to answer for every frame but one kind. -/
theorem C117_registration_total (k buf : Bytes) (h : AcnMessage.decode buf ≠ some (some (.register none))) :
    ∃ c, Registration addr verify k buf c := by
  cases hd : AcnMessage.decode buf with
  | none => exact ⟨_, .undecodable hd⟩
  | some m =>
    by_cases hm : ∃ r, m = some (.register r)
    · obtain ⟨_ | r, rfl⟩ := hm
      · exact absurd hd h
      · obtain ⟨c, hc⟩ := proof_total addr verify k r
        exact ⟨c, .check hd hc⟩
    · exact ⟨_, .other hd fun r e => hm ⟨r, e⟩⟩

/-- **C117 is false** of a registration without a record: nothing is answered, the peer crashes. -/
theorem C117_registration_counterexample (T : AcnTexts) (por : PoRCheck) (txt : StatusCode → Bytes) (k : Bytes)
    {buf : Bytes} (h : AcnMessage.decode buf = some (some (.register none))) {p : Pipe} {rest : List (Option Bytes)}
    (hp : p.reads = some buf :: rest) :
    acceptRegistration T por txt k p = (.panic, { p with reads := rest }) := by
  have hread : readRegistration T p = (.ok none, { p with reads := rest }) := by
    unfold readRegistration
    rw [bind_read hp]
    simp [h, PipeM.pure]
  unfold acceptRegistration
  rw [PipeM.bind, hread]
  rfl

/-! ## Envelopes from other peers -/

theorem encode_of_decoded {eb : Bytes} {e : Envelope} (h : Envelope.decode eb = some e) : peerMessage e none ≠ none := by
  have hu : e.utf8 = true :=
    Proto.decodeInto_inv (P := fun e => e.utf8 = true) Envelope.step_utf8 h (by decide)
  unfold peerMessage
  have : e.encode = some (Proto.encodeFields e.fields) := by unfold Envelope.encode; rw [if_pos hu]
  rw [this]
  simp [AcnMessage.encode, AcnMessage.utf8, Performative.utf8]

/-- What the peer reports is the documented code, for every envelope that was decoded. -/
theorem target_code {s : PeerState} {n : Net} (hk : n.ack ≠ .panic) {e : Envelope} {eb : Bytes}
    (he : Envelope.decode eb = some e) {text : StatusCode → Bytes} {c : Int} (h : Target s n e c) :
    (c = 0 ∧ peerHandler s n text e = none) ∨
      ∃ code : StatusCode, code.toInt = c ∧ peerHandler s n text e = some (code, text code) := by
  obtain ⟨h1, h2⟩ := C31_handle_result s n e
  unfold peerHandler
  cases h with
  | mailbox h => rw [h1 h]; exact .inl ⟨rfl, rfl⟩
  | delegate h h3 h4 h5 =>
    obtain ⟨h6, _⟩ := ((h2 h).1 _ h3).2 (encode_of_decoded he)
    rw [h6.2 ⟨h4, _, h5⟩]; exact .inl ⟨rfl, rfl⟩
  | delegateNotReady h h3 h4 =>
    obtain ⟨_, _, h6⟩ := ((h2 h).1 _ h3).2 (encode_of_decoded he)
    have : (handleAeaEnvelope s n e).2.2 = .err .errorAgentNotReady := by
      rw [h6]
      cases hc : n.connOk with
      | false => exact .inl rfl
      | true =>
        right
        cases ha : n.ack with
        | ok x => exact absurd ⟨hc, ha⟩ h4
        | err x => exact ⟨x, rfl⟩
        | panic => exact absurd ha hk
    rw [this]; exact .inr ⟨.errorAgentNotReady, rfl, rfl⟩
  | agent h h3 h4 h5 =>
    rw [((h2 h).2 h3).1 h4, if_pos h5]; exact .inl ⟨rfl, rfl⟩
  | agentNotReady h h3 h4 h5 =>
    rw [((h2 h).2 h3).1 h4, if_neg (by simp [h5])]; exact .inr ⟨.errorAgentNotReady, rfl, rfl⟩
  | unknown h h3 h4 => rw [((h2 h).2 h3).2 h4]; exact .inr ⟨.errorUnknownAgentAddress, rfl, rfl⟩

/-- **C117.** A frame on an envelope stream is answered as documented, unless it is a status or has no record. -/
theorem C117_envelope_partial {T : AcnTexts} (hT : T.Valid) (hn : NoPanic addr verify) {text : StatusCode → Bytes}
    (ht : ∀ c, IsText (text c)) {k buf : Bytes} {s : PeerState} {n : Net} (hk : n.ack ≠ .panic)
    (hs : ∀ b, AcnMessage.decode buf ≠ some (some (.status b))) {c : Int} (h : FromPeer addr verify k s n buf c) :
    Says (handleEnvelopeStream T (isValidPoR addr verify) k (peerHandler s n text)) buf (IsStatus c) := by
  cases h with
  | undecodable h =>
    exact says_of_refuses (refuses_bind (refuses_bind (C48_undecodable_answered_partial T hT buf h).2.2.1))
  | @other m h h2 =>
    exact says_of_refuses (refuses_bind (refuses_bind
      ((C48_unexpected_answered_partial T hT buf _ h).2.2 h2 fun b e => hs b (e ▸ h)).1))
  | payload h h2 =>
    exact says_of_refuses (refuses_bind ((C27_refusals T (isValidPoR addr verify) k buf _ _ h).1 h2))
  | check h h2 h3 h4 =>
    obtain ⟨code, rfl, hp⟩ := proof_code h3 (hn.1 _ _) (hn.2 _ _ _ _)
    exact says_of_refuses (refuses_bind ((C27_refusals T (isValidPoR addr verify) k buf _ _ h).2 _ _ code h2 rfl hp
      (fun e => h4 (by rw [e]; rfl))))
  | @target eb r e _ h h2 h3 h4 =>
    obtain ⟨code, hc, hp⟩ := proof_code h3 (hn.1 _ _) (hn.2 _ _ _ _)
    have hc : code = .success := (C55_status_codes code .success).1 hc
    subst hc
    intro p rest hpr
    have hrec : (receiveEnvelopeFromPeer T (isValidPoR addr verify) k p).1 = .ok e :=
      (C27_record_proven_partial T _ k p e).2 ⟨buf, rest, eb, r, hpr, h, h2, hp⟩
    obtain ⟨_, h5, h6⟩ := C27_answered T (isValidPoR addr verify) k (peerHandler s n text) p e hrec
    rcases target_code hk h2 (text := text) h4 with ⟨rfl, ho⟩ | ⟨code, rfl, ho⟩
    · obtain ⟨m, hm, hsent⟩ := h5 ho
      exact ⟨m, ⟨[], hm⟩, hsent⟩
    · obtain ⟨m, hm, hsent⟩ := h6 code (text code) ho (ht code)
      exact ⟨m, ⟨_, hm⟩, hsent⟩

/-- The documentation says what to answer for every frame but envelopes without a record. -/
theorem C117_envelope_total (k buf : Bytes) (s : PeerState) (n : Net)
    (h : ∀ eb, AcnMessage.decode buf = some (some (.aeaEnvelope eb none)) → Envelope.decode eb = none) :
    ∃ c, FromPeer addr verify k s n buf c := by
  cases hd : AcnMessage.decode buf with
  | none => exact ⟨_, .undecodable hd⟩
  | some m =>
    by_cases hm : ∃ eb r, m = some (.aeaEnvelope eb r)
    · obtain ⟨eb, rec, rfl⟩ := hm
      cases he : Envelope.decode eb with
      | none => exact ⟨_, .payload hd he⟩
      | some e =>
        cases rec with
        | none => rw [h eb hd] at he; simp at he
        | some r =>
          obtain ⟨c, hc⟩ := proof_total addr verify k r
          by_cases h0 : c = 0
          · subst h0
            have htgt : ∃ c, Target s n e c := by
              by_cases ha : Accepts s e
              · exact ⟨_, .mailbox ha⟩
              · cases ht : s.tcpAddresses.get e.to with
                | some c =>
                  by_cases hr : n.connOk = true ∧ n.ack = .ok ()
                  · exact ⟨_, .delegate ha ht hr.1 hr.2⟩
                  · exact ⟨_, .delegateNotReady ha ht hr⟩
                | none =>
                  by_cases hm : e.to = s.myAgent
                  · cases hh : s.hasAgent with
                    | true => exact ⟨_, .agent ha ht hm hh⟩
                    | false => exact ⟨_, .agentNotReady ha ht hm hh⟩
                  · exact ⟨_, .unknown ha ht hm⟩
            obtain ⟨c, ht⟩ := htgt
            exact ⟨c, .target hd he hc ht⟩
          · exact ⟨c, .check hd he hc h0⟩
    · exact ⟨_, .other hd fun e r he => hm ⟨e, r, he⟩⟩

/-- **C117 is false** of a status on an envelope stream: the documented answer is "unexpected payload", but nothing is
answered. -/
theorem C117_status_counterexample (T : AcnTexts) (por : PoRCheck) (k : Bytes)
    (handler : Envelope → Option (StatusCode × Bytes)) {buf : Bytes} {b : Option StatusBody}
    (h : AcnMessage.decode buf = some (some (.status b))) (s : PeerState) (n : Net) :
    FromPeer addr verify k s n buf 2 ∧ ∀ (p : Pipe) (rest : List (Option Bytes)), p.reads = some buf :: rest →
      handleEnvelopeStream T por k handler p = (.err .unexpected, { p with reads := rest }) := by
  refine ⟨.other h (by simp), fun p rest hp => ?_⟩
  have hread : readEnvelope T p = (.err .unexpected, { p with reads := rest }) := by
    unfold readEnvelope
    rw [bind_read hp]
    simp only [decodeAcnMessage, h]
    rfl
  unfold handleEnvelopeStream receiveEnvelopeFromPeer PipeM.bind
  rw [hread]

/-- **C117 is false** of an envelope without a record: nothing is answered, the peer crashes. -/
theorem C117_no_record_counterexample (T : AcnTexts) (por : PoRCheck) (k : Bytes)
    (handler : Envelope → Option (StatusCode × Bytes)) {buf eb : Bytes} {e : Envelope}
    (h : AcnMessage.decode buf = some (some (.aeaEnvelope eb none))) (he : Envelope.decode eb = some e)
    {p : Pipe} {rest : List (Option Bytes)} (hp : p.reads = some buf :: rest) :
    handleEnvelopeStream T por k handler p = (.panic, { p with reads := rest }) := by
  unfold handleEnvelopeStream receiveEnvelopeFromPeer PipeM.bind
  rw [readEnvelope_gives T hp h]
  simp [he, PipeM.crash]

/-- **C117 is false** of an own agent that is not ready: the answer is the same whether or not the agent takes the
envelope, and whatever `myAgentReady` says. -/
theorem C117_not_ready_counterexample (s : PeerState) (n : Net) (text : StatusCode → Bytes) (e : Envelope)
    (ha : ¬ Accepts s e) (ht : s.tcpAddresses.get e.to = none) (hm : e.to = s.myAgent) (hh : s.hasAgent = true)
    (taken : Bool) (ready : Option (List Bool)) :
    peerHandler s { n with agentOk := taken, ready := ready } text e = none := by
  unfold peerHandler
  rw [(((C31_handle_result s { n with agentOk := taken, ready := ready } e).2 ha).2 ht).1 hm, if_pos hh]

/-! ## Envelopes from agents -/

/-- **C117.** A frame from the agent is answered as documented, unless it is a status, which is an answer itself. -/
theorem C117_agent {T : AcnTexts} (hT : T.Valid) {buf : Bytes} (hs : ∀ b, AcnMessage.decode buf ≠ some (some (.status b)))
    {c : Int} (h : FromAgent buf c) : Says (handleFromPipe T) buf (IsStatus c) := by
  cases h with
  | undecodable h => exact says_of_refuses (C48_undecodable_answered_partial T hT buf h).2.2.2
  | other h h2 =>
    exact says_of_refuses ((C48_unexpected_answered_partial T hT buf _ h).2.2 h2 fun b e => hs b (e ▸ h)).2
  | payload h h2 => exact says_of_refuses (C48_bad_envelope_answered_partial T buf _ _ h h2)
  | success h h2 =>
    intro p rest hp
    obtain ⟨m, hm, hsent⟩ := success_sent { p with reads := rest }
    refine ⟨m, hm, ?_⟩
    unfold handleFromPipe
    rw [bind_read hp]
    simp only [decodeAcnMessage, h, h2]
    rw [PipeM.bind]
    rcases hx : sendSuccess { p with reads := rest } with ⟨_ | _ | _, q⟩ <;> rw [hx] at hsent <;>
      simpa [PipeM.pure] using hsent

/-! ## Look-ups -/

/-- **C117.** Frames that are no look-up are answered as documented. -/
theorem C117_lookup_refused {T : AcnTexts} (hT : T.Valid) (buf : Bytes)
    (handler : Bytes → Res (StatusCode × Bytes) (Option AgentRecord)) :
    (AcnMessage.decode buf = none → Says (handleAddressStream T handler) buf (IsStatus 4)) ∧
    ∀ m, AcnMessage.decode buf = some m → (∀ a, m ≠ some (.lookupRequest a)) →
      Says (handleAddressStream T handler) buf (IsStatus 2) :=
  ⟨fun h => says_of_refuses (refuses_bind (C48_undecodable_answered_partial T hT buf h).2.1),
    fun m h h2 => says_of_refuses (refuses_bind ((C48_unexpected_answered_partial T hT buf m h).2.1 h2))⟩

theorem lookup_says {T : AcnTexts} {buf a : Bytes} (h : AcnMessage.decode buf = some (some (.lookupRequest a)))
    {handler : Bytes → Res (StatusCode × Bytes) (Option AgentRecord)} :
    (∀ code text, handler a = .err (code, text) → IsText text →
      Says (handleAddressStream T handler) buf (IsStatus code.toInt)) ∧
    ∀ r, handler a = .ok (some r) → (∀ t ∈ r.texts, IsText t) → Says (handleAddressStream T handler) buf (IsRecord r) := by
  have hread : ∀ (p : Pipe) rest, p.reads = some buf :: rest →
      readLookupRequest T p = (.ok a, { p with reads := rest }) := by
    intro p rest hp
    unfold readLookupRequest
    rw [bind_read hp]
    simp [h, PipeM.pure]
  constructor
  · intro code text hh ht p rest hp
    unfold handleAddressStream
    rw [PipeM.bind, hread p rest hp]
    dsimp only
    rw [hh]
    obtain ⟨m, hm, hr⟩ := sendError_fail (α := AgentRecord) text code (.refused code.toInt) { p with reads := rest } ht
    exact ⟨m, ⟨_, hm⟩, by dsimp only; rw [hr]⟩
  · intro r hh ht p rest hp
    obtain ⟨m, hm⟩ := (C18_acn_encodes_iff (some (.lookupResponse (some r)))).2 (by simpa [AcnMessage.texts] using ht)
    refine ⟨m, hm, ?_⟩
    unfold handleAddressStream
    rw [PipeM.bind, hread p rest hp]
    dsimp only
    rw [hh]
    dsimp only
    have hs := sendMessage_sent (some (.lookupResponse (some r))) { p with reads := rest }
    rw [hm] at hs
    unfold sendLookupResponse
    rw [PipeM.bind]
    rcases hx : sendMessage (some (.lookupResponse (some r))) { p with reads := rest } with ⟨_ | _ | _, q⟩ <;>
      rw [hx] at hs <;> simpa [PipeM.pure] using hs

theorem has_known {E : PeerEnv} (hl : LawfulPoR E.por) {s : Tables}
    (h : Tables.Reachable E (Tables.Sensible E) s) (n : Net) {a : Bytes} (hne : a ≠ []) (ha : Local s.peer a) :
    ∃ r, Has s.peer a r ∧ handleAddressRequest s.peer n true a = .found [] (some r) := by
  have hi := h.inv hl (fun _ h => h)
  obtain ⟨r, hr⟩ := C58_registered_answered hl h n hne (by
    rcases ha with ⟨ha, _⟩ | ha | ha | ha
    · exact .inl ha
    · exact .inr (.inr (.inl ha))
    · exact .inr (.inl ha)
    · exact .inr (.inr (.inr ha)))
  refine ⟨r, ?_, hr⟩
  have known : ∀ x : Option AgentRecord, knownEnd x = .found [] (some r) → x = some r := by
    intro x hx
    cases x with
    | none => simp [knownEnd] at hx
    | some y => simpa [knownEnd] using hx
  rw [handleAddressRequest_eq] at hr
  split at hr
  · rename_i hm
    exact .inl ⟨hm, known _ hr⟩
  · rename_i hm
    split at hr
    · exact .inr (.inl (known _ hr))
    · rename_i hd
      split at hr
      · rename_i hb
        obtain ⟨m, hmb, hb⟩ := PeerState.inMailbox_iff.1 hb
        have := known _ hr
        rw [hmb, Option.bind_some, Mailbox.getRecord, if_pos hb] at this
        exact .inr (.inr ⟨m, hmb, this⟩)
      · rename_i hb
        split at hr
        · exact .inr (.inl (known _ hr))
        · rename_i ht
          exfalso
          rcases ha with ⟨ha, _⟩ | ha | ha | ⟨m, hm', ha⟩
          · exact hm ha
          · exact hd ha
          · exact ht ha
          · exact hb (PeerState.inMailbox_iff.2 ⟨m, hm', ha⟩)

/-- **C117.** A look-up of an agent that is with the peer is answered with a record that the peer has of it, and which
is valid. -/
theorem C117_lookup_local {T : AcnTexts} {E : PeerEnv} (hl : LawfulPoR E.por) {s : Tables}
    (h : Tables.Reachable E (Tables.Sensible E) s) {n : Net} (hn : n.por = E.por) {buf a text : Bytes} (hne : a ≠ [])
    {code : StatusCode} (hd : AcnMessage.decode buf = some (some (.lookupRequest a))) (ha : Local s.peer a)
    (ht : ∀ r, Has s.peer a r → ∀ t ∈ r.texts, IsText t) :
    ∃ r, Has s.peer a r ∧ Vouches E.por r a r.peerPublicKey ∧
      Says (handleAddressStream T (peerAnswers s.peer n true text code)) buf (IsRecord r) := by
  obtain ⟨r, hr, hf⟩ := has_known hl h n hne ha
  obtain ⟨r', he, hv⟩ := C58_answer_proven hl h hn hf
  cases he
  exact ⟨r, hr, hv, (lookup_says hd).2 r (by unfold peerAnswers; rw [hf]) (ht r hr)⟩

/-- **C117.** A look-up of any other agent is answered with the record that was found on the network, or "unknown agent
address" if the search ended without one. -/
theorem C117_lookup_remote {T : AcnTexts} {s : PeerState} {n : Net} {buf a text : Bytes} {myId : Bool}
    (hd : AcnMessage.decode buf = some (some (.lookupRequest a))) (ha : ¬ Local s a) (hm : a ≠ s.myAgent)
    (ht : IsText text) :
    (∀ p r, lookupAddressDHT n.por n.idFrom n.cid a n.rounds = .found p (some r) → (∀ t ∈ r.texts, IsText t) →
      Says (handleAddressStream T (peerAnswers s n myId text .errorUnknownAgentAddress)) buf (IsRecord r)) ∧
    (lookupAddressDHT n.por n.idFrom n.cid a n.rounds = .error →
      Says (handleAddressStream T (peerAnswers s n myId text .errorUnknownAgentAddress)) buf (IsStatus 20)) := by
  have he : handleAddressRequest s n myId a = dhtEnd (lookupAddressDHT n.por n.idFrom n.cid a n.rounds) := by
    rw [handleAddressRequest_eq, if_neg hm, if_neg fun h => ha (.inr (.inl h)), if_neg, if_neg fun h => ha (.inr (.inr (.inl h)))]
    intro h
    obtain ⟨m, h1, h2⟩ := PeerState.inMailbox_iff.1 h
    exact ha (.inr (.inr (.inr ⟨m, h1, h2⟩)))
  constructor
  · intro p r hr hx
    exact (lookup_says hd).2 r (by unfold peerAnswers; rw [he, hr]; rfl) hx
  · intro hr
    exact (lookup_says hd).1 .errorUnknownAgentAddress text (by unfold peerAnswers; rw [he, hr]; rfl) ht

end

/-! ## Cases -/

namespace Demo

/-- A ledger on which addresses are keys, and the signature of a message by a key is the message followed by the key. -/
def addrOf (_ pk : Bytes) : Res Unit Bytes := .ok pk

def ver (_ msg sig pk : Bytes) : Res Unit Bool := .ok (decide (sig = msg ++ pk))

/-- The record of an agent of the peer `pk`. -/
def rec (ledger sig : Bytes) : AgentRecord := ⟨b! "acn", ledger, b! "me", b! "me", b! "pk", sig, [], []⟩

/-- An envelope of this agent with its record. -/
def frame (to ledger sig : Bytes) : Bytes :=
  (peerMessage (RouteDemo.env to) (some (rec ledger sig))).getD []

/-- The codes that a peer answers with, for its agent `far`, the delegate `del` and others. -/
def codes (n : Net) (k buf : Bytes) : List (Option Int) :=
  (handleEnvelopeStream HandlersDemo.T (isValidPoR addrOf ver) k (peerHandler TwoPeers.there n fun _ => b! "no")
    ⟨[some buf], [true], []⟩).2.sent.map fun m => match AcnMessage.decode m with
      | some (some (.status (some b))) => some b.code
      | _ => none

set_option maxRecDepth 100000
set_option maxHeartbeats 4000000

example : codes RouteDemo.net (b! "pk") (frame (b! "far") (b! "cosmos") (b! "pkme")) = [some 0] ∧
    codes RouteDemo.net (b! "pk") (frame (b! "del") (b! "cosmos") (b! "pkme")) = [some 0] ∧
    codes { RouteDemo.net with ack := .err () } (b! "pk") (frame (b! "del") (b! "cosmos") (b! "pkme")) = [some 21] ∧
    codes RouteDemo.net (b! "pk") (frame (b! "nobody") (b! "cosmos") (b! "pkme")) = [some 20] := by decide +kernel

example : codes RouteDemo.net (b! "pk") (frame (b! "far") (b! "cosmos") (b! "pk")) = [some 12] ∧
    codes RouteDemo.net (b! "other") (frame (b! "far") (b! "cosmos") (b! "pkme")) = [some 11] ∧
    codes RouteDemo.net (b! "pk") (frame (b! "far") (b! "bitcoin") (b! "pkme")) = [some 13] ∧
    codes RouteDemo.net (b! "pk") [0xff] = [some 4] ∧ codes RouteDemo.net (b! "pk") [] = [some 2] ∧
    codes RouteDemo.net (b! "pk") [0x4a, 0] = [] := by decide +kernel

example : FromPeer addrOf ver (b! "pk") TwoPeers.there RouteDemo.net [] 2 := .other (m := none) (by decide) (by simp)

end Demo

end Documented
end Verif
