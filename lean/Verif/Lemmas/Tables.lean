import Verif.Model.PeerTables
import Verif.Spec.Tables
import Verif.Props.PeerHandlers
import Verif.Props.RecordFile
import Verif.Props.PoR
import Verif.Props.PassOn

/-!
# Invariants of the tables of a peer
-/

namespace Verif

open Acn Proto

/-- The check of the code is lawful. -/
theorem isValidPoR_lawful (addr : Bytes → Bytes → Res Unit Bytes)
    (verify : Bytes → Bytes → Bytes → Bytes → Res Unit Bool) : LawfulPoR (isValidPoR addr verify) := by
  intro r a k h
  unfold isValidPoR at h
  split at h
  · simp at h
  · rename_i h1
    split at h
    · simp at h
    · rename_i h2
      split at h
      · simp at h
      · rename_i h3
        refine ⟨Decidable.not_not.1 h1, Decidable.not_not.1 h3, ?_⟩
        intro hl
        rw [hl] at h2
        exact h2 (by decide)

theorem LawfulPoR.vouches {por : PoRCheck} (hl : LawfulPoR por) {r : AgentRecord} {a k : Bytes}
    (h : por r a k = .ok .success) : Vouches por r a k := ⟨(hl r a k h).1, (hl r a k h).2.1, h⟩

theorem LawfulPoR.nonzero {por : PoRCheck} (hl : LawfulPoR por) {r : AgentRecord} {a k : Bytes}
    (h : por r a k = .ok .success) : r ≠ .zero := by
  intro hr
  exact (hl r a k h).2.2 (by rw [hr]; rfl)

/-- An accepted registration was in the first frame. -/
theorem acceptRegistration_read {T : AcnTexts} {por : PoRCheck} {porText : StatusCode → Bytes}
    {key : Bytes} {p : Pipe} {r : AgentRecord}
    (h : (acceptRegistration T por porText key p).1 = .ok r) :
    ∃ b, some b ∈ p.reads ∧ AcnMessage.decode b = some (some (.register (some r))) := by
  have h' : acceptRegistration T por porText key p =
      (.ok r, (acceptRegistration T por porText key p).2) := by rw [← h]
  unfold acceptRegistration at h'
  obtain ⟨rec, p1, h1, h2⟩ := bind_ok h'
  have hrec : rec = some r := by
    cases rec with
    | none => simp [PipeM.crash] at h2
    | some r' =>
      dsimp only at h2
      cases hp : por r' r'.address key with
      | panic => rw [hp] at h2; simp [PipeM.crash] at h2
      | err e => rw [hp] at h2; simp [PipeM.fail] at h2
      | ok c =>
        rw [hp] at h2
        cases c
        case success =>
          obtain ⟨_, _, _, h3⟩ := bind_ok h2
          simp only [PipeM.pure, Prod.mk.injEq, Res.ok.injEq] at h3
          rw [h3.1]
        all_goals exact (sendError_fail_not_ok h2).elim
  subst hrec
  unfold readRegistration at h1
  obtain ⟨buf, p2, h3, h4⟩ := bind_ok h1
  refine ⟨buf, ?_, ?_⟩
  · unfold Pipe.read at h3
    split at h3
    · rename_i b rest hr
      simp only [Prod.mk.injEq, Res.ok.injEq] at h3
      rw [hr, h3.1]; exact List.mem_cons_self
    all_goals simp at h3
  · rcases hd : AcnMessage.decode buf with _ | _ | ⟨e, r'⟩ | a | r' | r' | b <;> rw [hd] at h4 <;>
      dsimp only at h4
    · exact (sendError_fail_not_ok h4).elim
    · exact (sendError_fail_not_ok h4).elim
    · exact (sendError_fail_not_ok h4).elim
    · exact (sendError_fail_not_ok h4).elim
    · exact (sendError_fail_not_ok h4).elim
    · simp only [PipeM.pure, Prod.mk.injEq, Res.ok.injEq] at h4
      rw [h4.1]
    · exact (sendError_fail_not_ok h4).elim

/-! ## The mailbox -/

/-- Records in the mailbox are proven, and an address has a list of envelopes exactly if it has a
record. -/
structure MailInv (por : PoRCheck) (myKey : Bytes) (m : Mailbox) : Prop where
  records : ∀ a r, m.records.get a = some r → r.address = a ∧ por r a myKey = .ok .success
  both : ∀ a, (m.records.get a).isSome = (m.envelopes.get a).isSome

theorem MailInv.init (por : PoRCheck) (myKey : Bytes) : MailInv por myKey .init where
  records := by intro a r h; simp [Mailbox.init, GoMap.get_empty] at h
  both := by intro a; simp [Mailbox.init, GoMap.get_empty]

theorem MailInv.route {por : PoRCheck} {myKey : Bytes} {m : Mailbox} (h : MailInv por myKey m)
    (e : Envelope) : MailInv por myKey (m.route e).1 := by
  unfold Mailbox.route
  cases hg : m.envelopes.get e.to with
  | none => exact h
  | some l =>
    dsimp only
    split
    · exact h
    · refine ⟨h.records, fun a => ?_⟩
      dsimp only
      rw [h.both, GoMap.get_set]
      split
      · rename_i ha; rw [ha, hg]; rfl
      · rfl

theorem MailInv.step {por : PoRCheck} {myKey : Bytes} {m : Mailbox} (h : MailInv por myKey m)
    (st : Mailbox.Step) : MailInv por myKey (m.step por myKey st).1 := by
  cases st with
  | register req uuid announce =>
    simp only [Mailbox.step]
    unfold Mailbox.register
    split
    · exact h
    · split
      · exact h
      · exact h
      · split
        · exact h
        · rename_i r _
          split
          · exact h
          · exact h
          · rename_i hp
            split
            · refine ⟨fun a r' hr => ?_, fun a => ?_⟩
              · dsimp only at hr
                rw [GoMap.get_set] at hr
                split at hr
                · rename_i ha
                  rw [← Option.some.inj hr, ha]
                  exact ⟨rfl, hp⟩
                · exact h.records a r' hr
              · dsimp only
                rw [GoMap.get_set, GoMap.get_set]
                split
                · rfl
                · exact h.both a
            · exact h
          · exact h
  | unregisterBegin req =>
    simp only [Mailbox.step]
    unfold Mailbox.unregisterBegin
    split
    · exact h
    · split
      · exact h
      · split
        · exact h
        · exact ⟨h.records, h.both⟩
  | unregisterEnd i =>
    simp only [Mailbox.step]
    unfold Mailbox.unregisterEnd
    split
    · exact h
    · refine ⟨fun a r hr => ?_, fun a => ?_⟩
      · dsimp only at hr
        rw [GoMap.get_erase] at hr
        split at hr
        · simp at hr
        · exact h.records a r hr
      · dsimp only
        rw [GoMap.get_erase, GoMap.get_erase]
        split
        · rfl
        · exact h.both a
  | send req => exact h
  | get req written =>
    simp only [Mailbox.step]
    unfold Mailbox.getEnvelope
    split
    · exact h
    · split
      · exact h
      · rename_i addr _
        split
        · exact h
        · rename_i e rest hl
          split
          · exact h
          · split
            · refine ⟨h.records, fun a => ?_⟩
              dsimp only
              rw [h.both, GoMap.get_set]
              split
              · rename_i ha
                rw [ha]
                cases hg : m.envelopes.get addr with
                | none => rw [hg] at hl; simp at hl
                | some l => rfl
              · rfl
            · exact h
  | route e => exact h.route e

/-! ## The tables -/

namespace Tables

/-- The record of a delegate connection that has registered. -/
def connRecord : ConnPhase → Option AgentRecord
  | .fresh => none
  | .accepted r => some r
  | .recorded r => some r
  | .listed r => some r
  | .stale r => some r
  | .gone => none

/-- The same when the record is in the table. -/
def connStored : ConnPhase → Option AgentRecord
  | .recorded r => some r
  | .listed r => some r
  | .stale r => some r
  | _ => none

/-- The same when the connection is in the table. -/
def connListed : ConnPhase → Option AgentRecord
  | .listed r => some r
  | .stale r => some r
  | _ => none

/-- Record and other end of a registration stream. -/
def relayRecord : RelayPhase → Option (AgentRecord × Remote)
  | .fresh => none
  | .accepted r rem => some (r, rem)
  | .recorded r rem => some (r, rem)
  | .done => none

/-- The same when the record is in the table. -/
def relayStored : RelayPhase → Option (AgentRecord × Remote)
  | .recorded r rem => some (r, rem)
  | _ => none

/-- A record that was accepted from a registration stream and can be written to the file. -/
structure Sound (r : AgentRecord) : Prop where
  texts : ∀ t ∈ r.texts, IsText t
  nonzero : r ≠ .zero
  small : (encodeFields r.fields).length < 2 ^ 32

/-- What holds at every time. -/
structure Inv (E : PeerEnv) (s : Tables) : Prop where
  conn : ∀ c r, connRecord (s.conns c) = some r → E.por r r.address E.myKey = .ok .success
  connHas : ∀ c r, connStored (s.conns c) = some r → (s.peer.agentRecords.get r.address).isSome
  relay : ∀ k r rem, relayRecord (s.relays k) = some (r, rem) →
    E.por r r.address rem.key = .ok .success ∧ (∀ id, E.peerId rem.key = some id → rem.id = id) ∧ Sound r
  relayHas : ∀ k r rem, relayStored (s.relays k) = some (r, rem) →
    (s.peer.agentRecords.get r.address).isSome
  records : ∀ a r, s.peer.agentRecords.get a = some r → Vouches E.por r a r.peerPublicKey
  tcp : ∀ a c, s.peer.tcpAddresses.get a = some c → ∃ r, connListed (s.conns c) = some r ∧ r.address = a
  tcpHas : ∀ a, (s.peer.tcpAddresses.get a).isSome → (s.peer.agentRecords.get a).isSome
  dht : ∀ a id, s.peer.dhtAddresses.get a = some id → ∃ r, Vouches E.por r a r.peerPublicKey ∧
    ∀ i, E.peerId r.peerPublicKey = some i → id = i
  dhtHas : ∀ a, (s.peer.dhtAddresses.get a).isSome → (s.peer.agentRecords.get a).isSome
  mail : ∀ m, s.peer.mailbox = some m → MailInv E.por E.myKey m
  own : ∀ r, s.peer.myRecord = some r → Vouches E.por r s.peer.myAgent E.myKey
  noOwn : s.peer.myRecord = none → s.peer.myAgent = []
  saved : ∀ r ∈ s.saved, Vouches E.por r r.address r.peerPublicKey ∧ Sound r
  file : s.file = fileOf s.saved

theorem mailboxRoute_tables (s : PeerState) (e : Envelope) :
    ∃ mb, (mailboxRoute s e).1 = { s with mailbox := mb } ∧
      ∀ m, mb = some m → ∃ m0, s.mailbox = some m0 ∧ (m = m0 ∨ m = (m0.route e).1) := by
  unfold mailboxRoute
  split
  · rename_i hm
    exact ⟨s.mailbox, rfl, by simp [hm]⟩
  · rename_i m hm
    exact ⟨some (m.route e).1, rfl, fun m' h => ⟨m, hm, .inr (Option.some.inj h).symm⟩⟩

/-- Routing changes nothing but the mailbox. -/
theorem routeEnvelope_tables (s : PeerState) (n : Net) (e : Envelope) :
    ∃ mb, (routeEnvelope s n e).1 = { s with mailbox := mb } ∧
      ∀ m, mb = some m → ∃ m0, s.mailbox = some m0 ∧ (m = m0 ∨ m = (m0.route e).1) := by
  have h := mailboxRoute_tables s e
  unfold routeEnvelope
  cases hr : envelopeRecord s e with
  | none => exact ⟨s.mailbox, rfl, fun m hm => ⟨m, hm, .inl rfl⟩⟩
  | some rec =>
    dsimp only
    rcases hm : mailboxRoute s e with ⟨s', ok⟩
    rw [hm] at h
    dsimp only at h ⊢
    split
    · exact h
    · split
      · split
        · split <;> exact h
        · exact h
      · split
        · split <;> exact h
        · split
          · split <;> exact h
          · split <;> exact h

theorem handleAeaEnvelope_tables (s : PeerState) (n : Net) (e : Envelope) :
    ∃ mb, (handleAeaEnvelope s n e).1 = { s with mailbox := mb } ∧
      ∀ m, mb = some m → ∃ m0, s.mailbox = some m0 ∧ (m = m0 ∨ m = (m0.route e).1) := by
  have h := mailboxRoute_tables s e
  unfold handleAeaEnvelope
  rcases hm : mailboxRoute s e with ⟨s', ok⟩
  rw [hm] at h
  dsimp only at h ⊢
  split
  · exact h
  · split
    · split <;> exact h
    · split
      · split <;> exact h
      · exact h

theorem Inv.withMailbox {E : PeerEnv} {s : Tables} (h : Inv E s) {mb : Option Mailbox}
    (hm : ∀ m, mb = some m → MailInv E.por E.myKey m) :
    Inv E { s with peer := { s.peer with mailbox := mb } } :=
  ⟨h.conn, h.connHas, h.relay, h.relayHas, h.records, h.tcp, h.tcpHas, h.dht, h.dhtHas, hm, h.own, h.noOwn,
    h.saved, h.file⟩

theorem isSome_set {V : Type} (m : GoMap Bytes V) (a b : Bytes) (v : V) (h : (m.get b).isSome) :
    ((m.set a v).get b).isSome := by
  rw [GoMap.get_set]
  split
  · rfl
  · exact h

theorem Inv.step {E : PeerEnv} (hl : LawfulPoR E.por) {s : Tables} (h : Inv E s) (st : Step)
    (hs : Sensible E st) : Inv E (s.step E st) := by
  cases st with
  | delegate c p =>
    unfold Tables.step
    dsimp only
    cases hc : s.conns c with
    | fresh =>
      cases hr : (acceptRegistration E.T E.por E.porText E.myKey p).1 with
      | ok r =>
        dsimp only
        refine ⟨?_, ?_, h.relay, h.relayHas, h.records, ?_, h.tcpHas, h.dht, h.dhtHas, h.mail, h.own, h.noOwn,
          h.saved, h.file⟩
        · intro c' r'
          dsimp only [setConn]
          split
          · intro h'
            rw [← Option.some.inj h']
            exact acceptRegistration_ok hr
          · exact h.conn c' r'
        · intro c' r'
          dsimp only [setConn]
          split
          · intro h'; simp [connStored] at h'
          · exact h.connHas c' r'
        · intro a c' h'
          obtain ⟨r', h1, h2⟩ := h.tcp a c' h'
          refine ⟨r', ?_, h2⟩
          dsimp only [setConn]
          rw [if_neg]
          · exact h1
          · rintro rfl
            rw [hc] at h1
            simp [connListed] at h1
      | err e => exact h
      | panic => exact h
    | _ => exact h
  | delegateRecord c =>
    unfold Tables.step
    dsimp only
    cases hc : s.conns c with
    | accepted r =>
      dsimp only
      refine ⟨?_, ?_, h.relay, ?_, ?_, ?_, ?_, h.dht, ?_, h.mail, h.own, h.noOwn, h.saved, h.file⟩
      · intro c' r'
        dsimp only [setConn]
        split
        · intro h'
          rw [← Option.some.inj h']
          exact h.conn c r (by rw [hc]; rfl)
        · exact h.conn c' r'
      · intro c' r'
        dsimp only [setConn]
        split
        · intro h'
          rw [← Option.some.inj h', GoMap.get_set_self]; rfl
        · intro h'
          exact isSome_set _ _ _ _ (h.connHas c' r' h')
      · intro k r' rem h'
        exact isSome_set _ _ _ _ (h.relayHas k r' rem h')
      · intro a r' h'
        dsimp only at h'
        rw [GoMap.get_set] at h'
        split at h'
        · rename_i ha
          have hv := hl.vouches (h.conn c r (by rw [hc]; rfl))
          rw [← Option.some.inj h', ha]
          exact ⟨rfl, rfl, by rw [hv.2.1]; exact hv.2.2⟩
        · exact h.records a r' h'
      · intro a c' h'
        obtain ⟨r', h1, h2⟩ := h.tcp a c' h'
        refine ⟨r', ?_, h2⟩
        dsimp only [setConn]
        rw [if_neg]
        · exact h1
        · rintro rfl
          rw [hc] at h1
          simp [connListed] at h1
      · intro a h'
        exact isSome_set _ _ _ _ (h.tcpHas a h')
      · intro a h'
        exact isSome_set _ _ _ _ (h.dhtHas a h')
    | _ => exact h
  | delegateConn c =>
    unfold Tables.step
    dsimp only
    cases hc : s.conns c with
    | recorded r =>
      dsimp only
      refine ⟨?_, ?_, h.relay, h.relayHas, h.records, ?_, ?_, h.dht, h.dhtHas, h.mail, h.own, h.noOwn,
        h.saved, h.file⟩
      · intro c' r'
        dsimp only [setConn]
        split
        · intro h'
          rw [← Option.some.inj h']
          exact h.conn c r (by rw [hc]; rfl)
        · exact h.conn c' r'
      · intro c' r'
        dsimp only [setConn]
        split
        · intro h'
          rw [← Option.some.inj h']
          exact h.connHas c r (by rw [hc]; rfl)
        · exact h.connHas c' r'
      · intro a c' h'
        dsimp only at h'
        rw [GoMap.get_set] at h'
        split at h'
        · rename_i ha
          refine ⟨r, ?_, ha.symm⟩
          rw [← Option.some.inj h']
          dsimp only [setConn]
          rw [if_pos rfl]; rfl
        · obtain ⟨r', h1, h2⟩ := h.tcp a c' h'
          refine ⟨r', ?_, h2⟩
          dsimp only [setConn]
          rw [if_neg]
          · exact h1
          · rintro rfl
            rw [hc] at h1
            simp [connListed] at h1
      · intro a h'
        dsimp only at h'
        rw [GoMap.get_set] at h'
        split at h'
        · rename_i ha
          rw [ha]
          exact h.connHas c r (by rw [hc]; rfl)
        · exact h.tcpHas a h'
    | _ => exact h
  | delegateFail c =>
    unfold Tables.step
    dsimp only
    cases hc : s.conns c with
    | listed r =>
      dsimp only
      refine ⟨?_, ?_, h.relay, h.relayHas, h.records, ?_, h.tcpHas, h.dht, h.dhtHas, h.mail, h.own, h.noOwn,
        h.saved, h.file⟩
      · intro c' r'
        dsimp only [setConn]
        split
        · intro h'
          rw [← Option.some.inj h']
          exact h.conn c r (by rw [hc]; rfl)
        · exact h.conn c' r'
      · intro c' r'
        dsimp only [setConn]
        split
        · intro h'
          rw [← Option.some.inj h']
          exact h.connHas c r (by rw [hc]; rfl)
        · exact h.connHas c' r'
      · intro a c' h'
        obtain ⟨r', h1, h2⟩ := h.tcp a c' h'
        dsimp only [setConn]
        split
        · rename_i he
          subst he
          rw [hc] at h1
          exact ⟨r', h1, h2⟩
        · exact ⟨r', h1, h2⟩
    | _ => exact h
  | delegateEnd c =>
    unfold Tables.step
    dsimp only
    cases hc : s.conns c with
    | listed r =>
      dsimp only
      refine ⟨?_, ?_, h.relay, h.relayHas, h.records, ?_, ?_, h.dht, h.dhtHas, h.mail, h.own, h.noOwn,
        h.saved, h.file⟩
      · intro c' r'
        dsimp only [setConn]
        split
        · intro h'; simp [connRecord] at h'
        · exact h.conn c' r'
      · intro c' r'
        dsimp only [setConn]
        split
        · intro h'; simp [connStored] at h'
        · exact h.connHas c' r'
      · intro a c' h'
        dsimp only at h'
        rw [GoMap.get_erase] at h'
        split at h'
        · simp at h'
        · rename_i ha
          obtain ⟨r', h1, h2⟩ := h.tcp a c' h'
          refine ⟨r', ?_, h2⟩
          dsimp only [setConn]
          rw [if_neg]
          · exact h1
          · rintro rfl
            rw [hc] at h1
            simp only [connListed, Option.some.injEq] at h1
            exact ha (by rw [h1, h2])
      · intro a h'
        dsimp only at h'
        rw [GoMap.get_erase] at h'
        split at h'
        · simp at h'
        · exact h.tcpHas a h'
    | _ => exact h
  | relay k rem p =>
    unfold Tables.step
    dsimp only
    cases hc : s.relays k with
    | fresh =>
      cases hr : (acceptRegistration E.T E.por E.porText rem.key p).1 with
      | ok r =>
        dsimp only
        refine ⟨h.conn, h.connHas, ?_, ?_, h.records, h.tcp, h.tcpHas, h.dht, h.dhtHas, h.mail, h.own, h.noOwn,
          h.saved, h.file⟩
        · intro k' r' rem'
          dsimp only [setRelay]
          split
          · intro h'
            simp only [relayRecord, Option.some.injEq, Prod.mk.injEq] at h'
            obtain ⟨rfl, rfl⟩ := h'
            have hp := acceptRegistration_ok hr
            obtain ⟨b, hb, hd⟩ := acceptRegistration_read hr
            obtain ⟨b', he, hle, _⟩ := C56_contained_record_passed_on hd (.inr (.inr rfl))
            have hu : r.utf8 = true ∧ b' = encodeFields r.fields := by
              unfold AgentRecord.encode at he
              split at he
              · rename_i hu; exact ⟨hu, (Option.some.inj he).symm⟩
              · simp at he
            refine ⟨hp, hs.1, r.utf8_iff.1 hu.1, hl.nonzero hp, ?_⟩
            rw [← hu.2]
            have := hs.2 b hb
            omega
          · exact h.relay k' r' rem'
        · intro k' r' rem'
          dsimp only [setRelay]
          split
          · intro h'; simp [relayStored] at h'
          · exact h.relayHas k' r' rem'
      | err e => exact h
      | panic => exact h
    | _ => exact h
  | relayRecord k =>
    unfold Tables.step
    dsimp only
    cases hc : s.relays k with
    | accepted r rem =>
      dsimp only
      refine ⟨h.conn, ?_, ?_, ?_, ?_, h.tcp, ?_, h.dht, ?_, h.mail, h.own, h.noOwn, h.saved, h.file⟩
      · intro c r' h'
        exact isSome_set _ _ _ _ (h.connHas c r' h')
      · intro k' r' rem'
        dsimp only [setRelay]
        split
        · intro h'
          simp only [Tables.relayRecord, Option.some.injEq, Prod.mk.injEq] at h'
          obtain ⟨rfl, rfl⟩ := h'
          exact h.relay k r rem (by rw [hc]; rfl)
        · exact h.relay k' r' rem'
      · intro k' r' rem'
        dsimp only [setRelay]
        split
        · intro h'
          simp only [relayStored, Option.some.injEq, Prod.mk.injEq] at h'
          obtain ⟨rfl, rfl⟩ := h'
          rw [GoMap.get_set_self]; rfl
        · intro h'
          exact isSome_set _ _ _ _ (h.relayHas k' r' rem' h')
      · intro a r' h'
        dsimp only at h'
        rw [GoMap.get_set] at h'
        split at h'
        · rename_i ha
          have hv := hl.vouches (h.relay k r rem (by rw [hc]; rfl)).1
          rw [← Option.some.inj h', ha]
          exact ⟨rfl, rfl, by rw [hv.2.1]; exact hv.2.2⟩
        · exact h.records a r' h'
      · intro a h'
        exact isSome_set _ _ _ _ (h.tcpHas a h')
      · intro a h'
        exact isSome_set _ _ _ _ (h.dhtHas a h')
    | _ => exact h
  | relayPeer k written =>
    unfold Tables.step
    dsimp only
    cases hc : s.relays k with
    | recorded r rem =>
      dsimp only
      obtain ⟨hp, hid, hsnd⟩ := h.relay k r rem (by rw [hc]; rfl)
      have hv := hl.vouches hp
      have hv' : Vouches E.por r r.address r.peerPublicKey := ⟨rfl, rfl, by rw [hv.2.1]; exact hp⟩
      have hbase : Inv E { s with
          peer := { s.peer with dhtAddresses := s.peer.dhtAddresses.set r.address rem.id }
          relays := s.setRelay k .done } := by
        refine ⟨h.conn, h.connHas, ?_, ?_, h.records, h.tcp, h.tcpHas, ?_, ?_, h.mail, h.own, h.noOwn,
          h.saved, h.file⟩
        · intro k' r' rem'
          dsimp only [setRelay]
          split
          · intro h'; simp [Tables.relayRecord] at h'
          · exact h.relay k' r' rem'
        · intro k' r' rem'
          dsimp only [setRelay]
          split
          · intro h'; simp [relayStored] at h'
          · exact h.relayHas k' r' rem'
        · intro a id h'
          dsimp only at h'
          rw [GoMap.get_set] at h'
          split at h'
          · rename_i ha
            refine ⟨r, ?_, ?_⟩
            · rw [ha]; exact hv'
            · intro i hi
              rw [← Option.some.inj h']
              exact hid i (by rw [← hv.2.1]; exact hi)
          · exact h.dht a id h'
        · intro a h'
          dsimp only at h'
          rw [GoMap.get_set] at h'
          split at h'
          · rename_i ha
            rw [ha]
            exact h.relayHas k r rem (by rw [hc]; rfl)
          · exact h.dhtHas a h'
      cases written with
      | false => exact hbase
      | true =>
        have hsave : saveRecord E.broken r = some (frame (encodeFields r.fields)) :=
          saveRecord_eq (peerId := fun _ => some []) ⟨hsnd.texts, hsnd.nonzero, hsnd.small, rfl⟩
        rw [hsave]
        dsimp only
        refine ⟨hbase.conn, hbase.connHas, hbase.relay, hbase.relayHas, hbase.records, hbase.tcp,
          hbase.tcpHas, hbase.dht, hbase.dhtHas, hbase.mail, hbase.own, hbase.noOwn, ?_, ?_⟩
        · intro r' hr'
          rw [List.mem_append, List.mem_singleton] at hr'
          rcases hr' with hr' | rfl
          · exact h.saved r' hr'
          · exact ⟨hv', hsnd⟩
        · show s.file ++ _ = _
          rw [h.file]
          simp [fileOf]
    | _ => exact h
  | mailbox st =>
    refine h.withMailbox ?_
    intro m hm
    obtain ⟨m0, h0, h1⟩ := Option.map_eq_some_iff.1 hm
    rw [← h1]
    exact (h.mail m0 h0).step st
  | route n e =>
    unfold Tables.step
    dsimp only
    obtain ⟨mb, he, hm⟩ := routeEnvelope_tables s.peer n e
    rw [he]
    refine h.withMailbox ?_
    intro m hm'
    obtain ⟨m0, h0, h1⟩ := hm m hm'
    rcases h1 with rfl | rfl
    · exact h.mail _ h0
    · exact (h.mail m0 h0).route e
  | handle n e =>
    unfold Tables.step
    dsimp only
    obtain ⟨mb, he, hm⟩ := handleAeaEnvelope_tables s.peer n e
    rw [he]
    refine h.withMailbox ?_
    intro m hm'
    obtain ⟨m0, h0, h1⟩ := hm m hm'
    rcases h1 with rfl | rfl
    · exact h.mail _ h0
    · exact (h.mail m0 h0).route e

/-- A file of sound records loads only if all their keys are usable. -/
theorem load_keys {peerId : Bytes → Option Bytes} {rs : List AgentRecord} (hs : ∀ r ∈ rs, Sound r)
    {l : Loaded} {n : Nat} (h : loadRecords peerId (fileOf rs) = .ok (l, n)) :
    ∀ r ∈ rs, Savable peerId r := by
  have key : ∀ (pre suf : List AgentRecord), pre ++ suf = rs → (∀ r ∈ pre, Savable peerId r) →
      ∀ r ∈ suf, Savable peerId r := by
    intro pre suf
    induction suf generalizing pre with
    | nil => intro _ _ r hr; simp at hr
    | cons x suf ih =>
      intro he hp
      have hx := hs x (by rw [← he]; simp)
      have hxs : Savable peerId x := by
        cases hk : peerId x.peerPublicKey with
        | some id => exact ⟨hx.texts, hx.nonzero, hx.small, by rw [hk]; rfl⟩
        | none =>
          have := C22_bad_key_blocks hp hx.texts hx.small hk (fileOf suf)
          have e : fileOf rs = fileOf pre ++ (frame (encodeFields x.fields) ++ fileOf suf) := by
            rw [← he]; simp [fileOf]
          rw [e, this] at h
          simp at h
      intro r hr
      rcases List.mem_cons.1 hr with rfl | hr
      · exact hxs
      · refine ih (pre ++ [x]) (by rw [← he]; simp) ?_ r hr
        intro y hy
        rw [List.mem_append, List.mem_singleton] at hy
        rcases hy with hy | rfl
        · exact hp y hy
        · exact hxs
  exact key [] rs rfl (by simp)

theorem lastRecord_mem {rs : List AgentRecord} {a : Bytes} {r : AgentRecord}
    (h : lastRecord rs a = some r) : r ∈ rs ∧ r.address = a := by
  refine ⟨List.mem_reverse.1 (List.mem_of_find?_eq_some h), ?_⟩
  have := List.find?_some h
  simpa using this

/-- What a peer starts with. -/
theorem start_some {E : PeerEnv} {own : Option AgentRecord} {ha mb : Bool} {rs : List AgentRecord}
    (hs : ∀ r ∈ rs, Sound r) {s : Tables} (h : start E own ha mb (fileOf rs) rs = some s) :
    (∀ r ∈ rs, Savable E.peerId r) ∧ s.file = fileOf rs ∧ s.saved = rs ∧
    (∀ c, s.conns c = .fresh) ∧ (∀ k, s.relays k = .fresh) ∧
    (∀ a, s.peer.agentRecords.get a = lastRecord rs a) ∧
    (∀ a, s.peer.dhtAddresses.get a = (lastRecord rs a).bind fun r => E.peerId r.peerPublicKey) ∧
    (∀ a, s.peer.tcpAddresses.get a = none) ∧
    s.peer.mailbox = (if mb then some .init else none) ∧ s.peer.myRecord = own.map copyRecord ∧
    s.peer.myAgent = (own.map (·.address)).getD [] ∧
    ∀ r, own.map copyRecord = some r → E.por r r.address E.myKey = .ok .success := by
  unfold start at h
  split at h
  · rename_i hok
    unfold ownOk at hok
    cases hload : loadRecords E.peerId (fileOf rs) with
    | ok x =>
      obtain ⟨l, n⟩ := x
      rw [hload] at h
      dsimp only at h
      have hsav := load_keys hs hload
      have hx := C22_records_survive (broken := fun _ => []) (parts := rs.map fun r => frame (encodeFields r.fields))
        hsav (by
          rw [List.map_map]
          exact List.map_congr_left fun r hr => saveRecord_eq (hsav r hr))
      obtain ⟨st, hst, h1, h2⟩ := hx
      have hst' : loadRecords E.peerId (fileOf rs) = .ok (st, rs.length) := hst
      rw [hload] at hst'
      simp only [Res.ok.injEq, Prod.mk.injEq] at hst'
      rw [← hst'.1] at h1 h2
      rw [← Option.some.inj h]
      refine ⟨hsav, rfl, rfl, fun _ => rfl, fun _ => rfl, h1, h2, fun a => GoMap.get_empty a, rfl, rfl, rfl, ?_⟩
      intro r hr
      rw [hr] at hok
      simpa using hok
    | err e => rw [hload] at h; simp at h
    | panic => rw [hload] at h; simp at h
  · simp at h

theorem start_inv {E : PeerEnv} (hl : LawfulPoR E.por) {own : Option AgentRecord} {ha mb : Bool}
    {rs : List AgentRecord} (hs : ∀ r ∈ rs, Vouches E.por r r.address r.peerPublicKey ∧ Sound r)
    {s : Tables} (h : start E own ha mb (fileOf rs) rs = some s) : Inv E s := by
  obtain ⟨hsav, hf, hsv, hc, hr, hrec, hdht, htcp, hmb, hown, hmy, hpor⟩ := start_some (fun r hr => (hs r hr).2) h
  refine ⟨?_, ?_, ?_, ?_, ?_, ?_, ?_, ?_, ?_, ?_, ?_, ?_, ?_, ?_⟩
  · intro c r h'; rw [hc] at h'; simp [connRecord] at h'
  · intro c r h'; rw [hc] at h'; simp [connStored] at h'
  · intro k r rem h'; rw [hr] at h'; simp [relayRecord] at h'
  · intro k r rem h'; rw [hr] at h'; simp [relayStored] at h'
  · intro a r h'
    rw [hrec] at h'
    obtain ⟨h1, h2⟩ := lastRecord_mem h'
    rw [← h2]; exact (hs r h1).1
  · intro a c h'; rw [htcp] at h'; simp at h'
  · intro a h'; rw [htcp] at h'; simp at h'
  · intro a id h'
    rw [hdht] at h'
    obtain ⟨r, h1, h2⟩ := Option.bind_eq_some_iff.1 h'
    obtain ⟨h3, h4⟩ := lastRecord_mem h1
    refine ⟨r, by rw [← h4]; exact (hs r h3).1, ?_⟩
    intro i hi
    rw [hi] at h2
    exact (Option.some.inj h2).symm
  · intro a h'
    rw [hdht] at h'
    rw [hrec]
    cases hlr : lastRecord rs a with
    | none => rw [hlr] at h'; simp at h'
    | some r => rfl
  · intro m h'
    rw [hmb] at h'
    split at h'
    · rw [← Option.some.inj h']; exact .init _ _
    · simp at h'
  · intro r h'
    rw [hown] at h'
    have hp := hpor r h'
    have := hl.vouches hp
    obtain ⟨o, ho, rfl⟩ := Option.map_eq_some_iff.1 h'
    rw [hmy, ho]
    exact this
  · intro h'
    rw [hown] at h'
    rw [hmy]
    cases own with
    | none => rfl
    | some o => simp at h'
  · intro r h'
    rw [hsv] at h'
    exact hs r h'
  · rw [hf, hsv]

theorem Reachable.inv {E : PeerEnv} (hl : LawfulPoR E.por) {ok : Step → Prop}
    (hok : ∀ st, ok st → Sensible E st) {s : Tables} (h : Reachable E ok s) : Inv E s := by
  induction h with
  | first h => exact start_inv hl (rs := []) (by simp) h
  | step st _ hs ih => exact ih.step hl st (hok st hs)
  | restart _ h' ih => exact start_inv hl ih.saved (by rw [← ih.file]; exact h')

end Tables

end Verif
