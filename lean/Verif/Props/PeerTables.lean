import Verif.Lemmas.Tables
import Verif.Props.Routing
import Verif.Props.Exchange

/-!
# C57 to C60: what a peer holds, answers, sends and keeps
-/

namespace Verif

open Acn Proto Tables

/-! ## C57 -/

/-- **C57.** At every time, however connections, streams, requests and restarts interleave, an address is
in the tables of a peer only if its agent vouched for whoever it is routed to: a delegate connection for
an address has presented a valid record of the address for this peer's key; the peer of a relay client
for an address is one for whose key there is a valid record of the address; the records are valid for
their address and the key in them; and those of the mailbox and of the own agent for this peer's key. -/
theorem C57_tables_proven {E : PeerEnv} (hl : LawfulPoR E.por) {s : Tables}
    (h : Reachable E (Sensible E) s) :
    (∀ a r, s.peer.agentRecords.get a = some r → Vouches E.por r a r.peerPublicKey) ∧
    (∀ a c, s.peer.tcpAddresses.get a = some c →
      ∃ r, (s.conns c = .listed r ∨ s.conns c = .stale r) ∧ Vouches E.por r a E.myKey) ∧
    (∀ a id, s.peer.dhtAddresses.get a = some id →
      ∃ r, Vouches E.por r a r.peerPublicKey ∧ ∀ i, E.peerId r.peerPublicKey = some i → id = i) ∧
    (∀ m a r, s.peer.mailbox = some m → m.records.get a = some r → Vouches E.por r a E.myKey) ∧
    (∀ r, s.peer.myRecord = some r → Vouches E.por r s.peer.myAgent E.myKey) := by
  have hi := h.inv hl (fun _ h => h)
  refine ⟨hi.records, ?_, hi.dht, ?_, hi.own⟩
  · intro a c h'
    obtain ⟨r, h1, h2⟩ := hi.tcp a c h'
    have hc : connRecord (s.conns c) = some r := by
      cases hx : s.conns c <;> rw [hx] at h1 <;> simp_all [connListed, connRecord]
    refine ⟨r, ?_, ?_⟩
    · cases hx : s.conns c <;> rw [hx] at h1 <;> simp_all [connListed]
    · have := hl.vouches (hi.conn c r hc)
      rw [h2] at this
      exact this
  · intro m a r hm hr
    obtain ⟨h1, h2⟩ := (hi.mail m hm).records a r hr
    exact hl.vouches h2

/-- **C57.** A delegate connection has a record only because it sent it in a registration that was found
valid for this peer. -/
theorem C57_delegate_record (E : PeerEnv) (s : Tables) (st : Step) (c : Nat) (r : AgentRecord)
    (h : connRecord ((s.step E st).conns c) = some r) :
    connRecord (s.conns c) = some r ∨
    ∃ p b, st = .delegate c p ∧ s.conns c = .fresh ∧ some b ∈ p.reads ∧
      AcnMessage.decode b = some (some (.register (some r))) ∧
      E.por r r.address E.myKey = .ok .success := by
  cases st with
  | delegate c' p =>
    unfold Tables.step at h
    dsimp only at h
    cases hc : s.conns c' with
    | fresh =>
      rw [hc] at h
      cases hr : (acceptRegistration E.T E.por E.porText E.myKey p).1 with
      | ok r' =>
        rw [hr] at h
        dsimp only [setConn] at h
        split at h
        · rename_i he
          subst he
          simp only [connRecord, Option.some.injEq] at h
          subst h
          obtain ⟨b, hb, hd⟩ := acceptRegistration_read hr
          exact .inr ⟨p, b, rfl, hc, hb, hd, acceptRegistration_ok hr⟩
        · exact .inl h
      | err e => rw [hr] at h; exact .inl h
      | panic => rw [hr] at h; exact .inl h
    | _ => rw [hc] at h; exact .inl h
  | delegateRecord c' =>
    unfold Tables.step at h
    dsimp only at h
    cases hc : s.conns c' with
    | accepted r' =>
      rw [hc] at h
      dsimp only [setConn] at h
      split at h
      · rename_i he
        subst he
        rw [hc]; exact .inl h
      · exact .inl h
    | _ => rw [hc] at h; exact .inl h
  | delegateConn c' =>
    unfold Tables.step at h
    dsimp only at h
    cases hc : s.conns c' with
    | recorded r' =>
      rw [hc] at h
      dsimp only [setConn] at h
      split at h
      · rename_i he
        subst he
        rw [hc]; exact .inl h
      · exact .inl h
    | _ => rw [hc] at h; exact .inl h
  | delegateFail c' =>
    unfold Tables.step at h
    dsimp only at h
    cases hc : s.conns c' with
    | listed r' =>
      rw [hc] at h
      dsimp only [setConn] at h
      split at h
      · rename_i he
        subst he
        rw [hc]; exact .inl h
      · exact .inl h
    | _ => rw [hc] at h; exact .inl h
  | delegateEnd c' =>
    unfold Tables.step at h
    dsimp only at h
    cases hc : s.conns c' with
    | listed r' =>
      rw [hc] at h
      dsimp only [setConn] at h
      split at h
      · simp [connRecord] at h
      · exact .inl h
    | _ => rw [hc] at h; exact .inl h
  | relay k rem p =>
    unfold Tables.step at h
    dsimp only at h
    split at h <;> exact .inl h
  | relayRecord k =>
    unfold Tables.step at h
    dsimp only at h
    split at h <;> exact .inl h
  | relayPeer k w =>
    unfold Tables.step at h
    dsimp only at h
    split at h
    · split at h <;> exact .inl h
    · exact .inl h
  | mailbox st => exact .inl h
  | route n e => exact .inl h
  | handle n e => exact .inl h

/-- **C57.** If an agent has vouched for one peer only, all entries for its address point to that peer. -/
theorem C57_one_representative {E : PeerEnv} (hl : LawfulPoR E.por) {s : Tables}
    (h : Reachable E (Sensible E) s) {a k id : Bytes} (hk : ∀ r k', E.por r a k' = .ok .success → k' = k)
    (hid : E.peerId k = some id) :
    (∀ r, s.peer.agentRecords.get a = some r → r.peerPublicKey = k) ∧
    (∀ i, s.peer.dhtAddresses.get a = some i → i = id) ∧
    (k ≠ E.myKey → s.peer.tcpAddresses.get a = none) := by
  obtain ⟨h1, h2, h3, _, _⟩ := C57_tables_proven hl h
  refine ⟨fun r hr => hk r _ (h1 a r hr).2.2, ?_, ?_⟩
  · intro i hi
    obtain ⟨r, hv, hr⟩ := h3 a i hi
    have := hk r _ hv.2.2
    exact hr id (by rw [this]; exact hid)
  · intro hne
    cases hc : s.peer.tcpAddresses.get a with
    | none => rfl
    | some c =>
      obtain ⟨r, _, hv⟩ := h2 a c hc
      exact absurd (hk r _ hv.2.2).symm hne

/-! ## C58 -/

/-- Whether an address is registered with the mailbox. -/
def PeerState.inMailbox (s : PeerState) (a : Bytes) : Bool :=
  match s.mailbox with
  | some m => m.isRegistered a
  | none => false

/-- The answer for a record that was or was not found. -/
def knownEnd : Option AgentRecord → LookupEnd
  | some r => .found [] (some r)
  | none => .error

/-- The answer for the outcome of a look-up. -/
def dhtEnd : LookupEnd → LookupEnd
  | .found _ r => knownEnd r
  | r => r

theorem handleAddressRequest_eq (s : PeerState) (n : Net) (myId : Bool) (address : Bytes) :
    handleAddressRequest s n myId address =
      if address = s.myAgent then knownEnd (if myId then s.myRecord else none)
      else if (s.dhtAddresses.get address).isSome then knownEnd (s.agentRecords.get address)
      else if s.inMailbox address = true then knownEnd (s.mailbox.bind fun m => m.getRecord address)
      else if (s.tcpAddresses.get address).isSome then
        knownEnd (if myId then s.agentRecords.get address else none)
      else dhtEnd (lookupAddressDHT n.por n.idFrom n.cid address n.rounds) := rfl

theorem PeerState.inMailbox_iff {s : PeerState} {a : Bytes} :
    s.inMailbox a = true ↔ ∃ m, s.mailbox = some m ∧ m.isRegistered a = true := by
  unfold PeerState.inMailbox
  cases s.mailbox with
  | none => simp
  | some m => simp

/-- **C58.** A peer answers a request for an address only with a valid record of that address. -/
theorem C58_answer_proven {E : PeerEnv} (hl : LawfulPoR E.por) {s : Tables}
    (h : Reachable E (Sensible E) s) {n : Net} (hn : n.por = E.por) {myId : Bool} {address peer : Bytes}
    {rec : Option AgentRecord} (ha : handleAddressRequest s.peer n myId address = .found peer rec) :
    ∃ r, rec = some r ∧ Vouches E.por r address r.peerPublicKey := by
  have hi := h.inv hl (fun _ h => h)
  have known : ∀ x : Option AgentRecord,
      (∀ r, x = some r → Vouches E.por r address r.peerPublicKey) →
      knownEnd x = .found peer rec →
      ∃ r, rec = some r ∧ Vouches E.por r address r.peerPublicKey := by
    intro x hx he
    cases x with
    | none => simp [knownEnd] at he
    | some r =>
      simp only [knownEnd, LookupEnd.found.injEq] at he
      exact ⟨r, he.2.symm, hx r rfl⟩
  have own : ∀ r k, Vouches E.por r address k → Vouches E.por r address r.peerPublicKey := by
    intro r k hv
    exact ⟨hv.1, rfl, by rw [hv.2.1]; exact hv.2.2⟩
  rw [handleAddressRequest_eq] at ha
  split at ha
  · rename_i hm
    refine known _ ?_ ha
    intro r hr
    split at hr
    · have := hi.own r hr
      rw [← hm] at this
      exact own r _ this
    · simp at hr
  · split at ha
    · refine known _ ?_ ha
      exact fun r hr => hi.records address r hr
    · split at ha
      · refine known _ ?_ ha
        intro r hr
        obtain ⟨m, hm, hg⟩ := Option.bind_eq_some_iff.1 hr
        unfold Mailbox.getRecord at hg
        split at hg
        · obtain ⟨_, h2⟩ := (hi.mail m hm).records address r hg
          exact own r _ (hl.vouches h2)
        · simp at hg
      · split at ha
        · refine known _ ?_ ha
          intro r hr
          split at hr
          · exact hi.records address r hr
          · simp at hr
        · rcases hx : lookupAddressDHT n.por n.idFrom n.cid address n.rounds with ⟨p, x⟩ | _ | _ | _ <;>
            rw [hx] at ha
          · refine known _ ?_ ha
            intro r hr
            rw [hr] at hx
            have := (C33_found_record_proven_partial _ _ _ _ _ _ _ hx).1
            rw [hn] at this
            exact hl.vouches this
          all_goals simp [dhtEnd] at ha

/-- **C58.** A peer has an answer for every address that is registered with it, whether through a delegate
connection, a relay client, the mailbox or as its own agent. -/
theorem C58_registered_answered {E : PeerEnv} (hl : LawfulPoR E.por) {s : Tables}
    (h : Reachable E (Sensible E) s) (n : Net) {address : Bytes} (hne : address ≠ [])
    (hr : address = s.peer.myAgent ∨ (s.peer.tcpAddresses.get address).isSome ∨
      (s.peer.dhtAddresses.get address).isSome ∨
      ∃ m, s.peer.mailbox = some m ∧ (m.envelopes.get address).isSome) :
    ∃ r, handleAddressRequest s.peer n true address = .found [] (some r) := by
  have hi := h.inv hl (fun _ h => h)
  have known : ∀ x : Option AgentRecord, x.isSome → ∃ r, knownEnd x = .found [] (some r) := by
    intro x hx
    obtain ⟨r, rfl⟩ := Option.isSome_iff_exists.1 hx
    exact ⟨r, rfl⟩
  rw [handleAddressRequest_eq]
  split
  · rename_i hm
    refine known _ ?_
    rw [if_pos rfl]
    cases ho : s.peer.myRecord with
    | none => exact absurd (hm.trans (hi.noOwn ho)) hne
    | some r => rfl
  · rename_i hm
    split
    · rename_i hd
      exact known _ (hi.dhtHas address hd)
    · rename_i hd
      split
      · rename_i hb
        refine known _ ?_
        obtain ⟨m, hmb, hb⟩ := PeerState.inMailbox_iff.1 hb
        rw [hmb, Option.bind_some, Mailbox.getRecord, if_pos hb, (hi.mail m hmb).both]
        exact hb
      · rename_i hb
        split
        · rename_i ht
          rw [if_pos rfl]
          exact known _ (hi.tcpHas address ht)
        · rename_i ht
          exfalso
          rcases hr with hr | hr | hr | ⟨m, hm', hr⟩
          · exact hm hr
          · exact ht hr
          · exact hd hr
          · exact hb (PeerState.inMailbox_iff.2 ⟨m, hm', hr⟩)

/-- What `HandleAeaAddressStream` gets from the handler of a peer. -/
def peerAnswers (s : PeerState) (n : Net) (myId : Bool) (text : Bytes) (code : StatusCode) (address : Bytes) :
    Res (StatusCode × Bytes) (Option AgentRecord) :=
  match handleAddressRequest s n myId address with
  | .found _ r => .ok r
  | .error => .err (code, text)
  | .crashed => .panic
  | .running => .panic

/-- **C58.** The record a peer gives passes the check of the peer that asked: the look-up there ends with
this record, unless its key is not usable. Both use the same check. -/
theorem C58_answer_used {E : PeerEnv} (hl : LawfulPoR E.por) {s : Tables}
    (h : Reachable E (Sensible E) s) {n : Net} (hn : n.por = E.por) {myId : Bool} {address text : Bytes}
    {code : StatusCode} {T : AcnTexts} {pa pb : Pipe}
    (X : Exchange (performAddressLookup address)
      (handleAddressStream T (peerAnswers s.peer n myId text code)) pa pb)
    {rec : Option AgentRecord} (hr : (performAddressLookup address pa).1 = .ok rec)
    (idFrom : Bytes → Option Bytes) (err : Bool) (last id : Bytes) (rest : List Provider) :
    ∃ r, rec = some r ∧ r.address = address ∧
      lookupProviders E.por idFrom address err last (⟨id, some pa⟩ :: rest) =
        .done (match idFrom r.peerPublicKey with
          | some i => .found i (some r)
          | none => .error) := by
  obtain ⟨_, hh⟩ := C55_lookup_agreed X hr
  unfold peerAnswers at hh
  cases ha : handleAddressRequest s.peer n myId address with
  | found peer x =>
    rw [ha] at hh
    simp only [Res.ok.injEq] at hh
    subst hh
    obtain ⟨r, rfl, hv⟩ := C58_answer_proven hl h hn ha
    refine ⟨r, rfl, hv.1, ?_⟩
    simp only [lookupProviders, hr, hv.2.2]
    cases idFrom r.peerPublicKey <;> rfl
  | error => rw [ha] at hh; simp at hh
  | crashed => rw [ha] at hh; simp at hh
  | running => rw [ha] at hh; simp at hh

/-- **C58.** A client answers exactly for its own agent, with the record it was started with. -/
theorem C58_client_answer (c : DhtClient) (address : Bytes) (rec : Option AgentRecord) :
    clientHandleAddressRequest c address = .ok rec ↔ address = c.myAgent ∧ rec = c.myRecord := by
  unfold clientHandleAddressRequest
  split
  · rename_i h
    simp [h]
  · rename_i h
    simp only [ne_eq, Decidable.not_not] at h
    simp [h, eq_comm]

/-! ## C59 -/

/-- The record found in the table, if it is there. -/
theorem envelopeRecord_eq (s : PeerState) (e : Envelope) :
    envelopeRecord s e =
      if e.sender = s.myAgent then some s.myRecord
      else if s.inMailbox e.sender = true then some (s.mailbox.bind fun m => m.getRecord e.sender)
      else (s.agentRecords.get e.sender).map some := by
  unfold envelopeRecord
  cases s.agentRecords.get e.sender <;> rfl

/-- **C59, partial.** The record that a peer sends along with an envelope is a valid record of its sender,
and the receiving peer accepts it exactly if it is for the key of the sending peer. Missing from the
property: that it always is, and that there is one for an empty sender. -/
theorem C59_record_of_sender_partial {E : PeerEnv} (hl : LawfulPoR E.por) {s : Tables}
    (h : Reachable E (Sensible E) s) {e : Envelope} {rec : Option AgentRecord} (hne : e.sender ≠ [])
    (hr : envelopeRecord s.peer e = some rec) :
    ∃ r, rec = some r ∧ r.address = e.sender ∧
      (E.por r r.address E.myKey = .ok .success ↔ r.peerPublicKey = E.myKey) ∧
      (e.sender = s.peer.myAgent ∨ (∃ m, s.peer.mailbox = some m ∧ m.isRegistered e.sender = true) →
        r.peerPublicKey = E.myKey) := by
  have hi := h.inv hl (fun _ h => h)
  have fin : ∀ r k, Vouches E.por r e.sender k →
      (E.por r r.address E.myKey = .ok .success ↔ r.peerPublicKey = E.myKey) := by
    intro r k hv
    constructor
    · intro hp
      exact (hl.vouches hp).2.1
    · intro hk
      rw [hv.1, ← hk, hv.2.1]
      exact hv.2.2
  rw [envelopeRecord_eq] at hr
  split at hr
  · rename_i hs
    have hr' := Option.some.inj hr
    cases ho : s.peer.myRecord with
    | none => exact absurd (hs.trans (hi.noOwn ho)) hne
    | some r =>
      have hv := hi.own r ho
      rw [← hs] at hv
      exact ⟨r, by rw [← hr', ho], hv.1, fin r _ hv, fun _ => hv.2.1⟩
  · rename_i hs
    split at hr
    · rename_i hb
      obtain ⟨m, hmb, hb⟩ := PeerState.inMailbox_iff.1 hb
      rw [hmb, Option.bind_some, Mailbox.getRecord, if_pos hb, Option.some.injEq] at hr
      have hsome : (m.records.get e.sender).isSome := by
        rw [(hi.mail m hmb).both]; exact hb
      obtain ⟨r, hg⟩ := Option.isSome_iff_exists.1 hsome
      obtain ⟨h1, h2⟩ := (hi.mail m hmb).records e.sender r hg
      have hv := hl.vouches h2
      exact ⟨r, by rw [← hr, hg], h1, fin r _ hv, fun _ => hv.2.1⟩
    · rename_i hb
      obtain ⟨r, hg, hr'⟩ := Option.map_eq_some_iff.1 hr
      have hv := hi.records e.sender r hg
      refine ⟨r, hr'.symm, hv.1, fin r _ hv, ?_⟩
      rintro (hc | hc)
      · exact absurd hc hs
      · exact absurd (PeerState.inMailbox_iff.2 hc) hb

/-- Registrations over streams are not for the address `a`. -/
def NotRelayed (E : PeerEnv) (a : Bytes) : Step → Prop
  | .relay _ rem p => ∀ r, (acceptRegistration E.T E.por E.porText rem.key p).1 = .ok r → r.address ≠ a
  | _ => True

/-- If an address is never registered through a relay, its record is for this peer. -/
structure DirectInv (E : PeerEnv) (a : Bytes) (s : Tables) : Prop where
  relay : ∀ k r rem, relayRecord (s.relays k) = some (r, rem) → r.address ≠ a
  saved : ∀ r ∈ s.saved, r.address ≠ a
  record : ∀ r, s.peer.agentRecords.get a = some r → r.peerPublicKey = E.myKey

theorem Tables.Reachable.direct {E : PeerEnv} (hl : LawfulPoR E.por) {a : Bytes} {s : Tables}
    (h : Reachable E (fun st => Sensible E st ∧ NotRelayed E a st) s) : DirectInv E a s := by
  have hinv : ∀ {s}, Reachable E (fun st => Sensible E st ∧ NotRelayed E a st) s → Inv E s :=
    fun h => h.inv hl (fun _ h => h.1)
  induction h with
  | first h =>
    obtain ⟨_, _, hsv, _, hr, hrec, _⟩ := start_some (rs := []) (by simp) h
    refine ⟨?_, ?_, ?_⟩
    · intro k r rem h'; rw [hr] at h'; simp [relayRecord] at h'
    · intro r h'; rw [hsv] at h'; simp at h'
    · intro r h'; rw [hrec] at h'; simp [lastRecord] at h'
  | restart hreach h' ih =>
    have hi := hinv hreach
    rw [hi.file] at h'
    obtain ⟨_, _, hsv, _, hr, hrec, _⟩ := start_some (fun r hr => (hi.saved r hr).2) h'
    refine ⟨?_, ?_, ?_⟩
    · intro k r rem h'; rw [hr] at h'; simp [relayRecord] at h'
    · intro r h'; rw [hsv] at h'; exact ih.saved r h'
    · intro r h'
      rw [hrec] at h'
      obtain ⟨h1, h2⟩ := lastRecord_mem h'
      exact absurd h2 (ih.saved r h1)
  | @step s st hreach hs ih =>
    have hi := hinv hreach
    cases st with
    | delegate c p =>
      unfold Tables.step
      dsimp only
      split <;> exact ⟨ih.relay, ih.saved, ih.record⟩
    | delegateRecord c =>
      unfold Tables.step
      dsimp only
      cases hc : s.conns c with
      | accepted r =>
        refine ⟨ih.relay, ih.saved, ?_⟩
        intro r' h'
        dsimp only at h'
        rw [GoMap.get_set] at h'
        split at h'
        · rw [← Option.some.inj h']
          exact (hl.vouches (hi.conn c r (by rw [hc]; rfl))).2.1
        · exact ih.record r' h'
      | _ => exact ih
    | delegateConn c =>
      unfold Tables.step
      dsimp only
      split <;> exact ⟨ih.relay, ih.saved, ih.record⟩
    | delegateFail c =>
      unfold Tables.step
      dsimp only
      split <;> exact ⟨ih.relay, ih.saved, ih.record⟩
    | delegateEnd c =>
      unfold Tables.step
      dsimp only
      split <;> exact ⟨ih.relay, ih.saved, ih.record⟩
    | relay k rem p =>
      unfold Tables.step
      dsimp only
      cases hc : s.relays k with
      | fresh =>
        cases hr : (acceptRegistration E.T E.por E.porText rem.key p).1 with
        | ok r =>
          refine ⟨?_, ih.saved, ih.record⟩
          intro k' r' rem'
          dsimp only [setRelay]
          split
          · intro h'
            simp only [relayRecord, Option.some.injEq, Prod.mk.injEq] at h'
            rw [← h'.1]
            exact hs.2 r hr
          · exact ih.relay k' r' rem'
        | err e => exact ih
        | panic => exact ih
      | _ => exact ih
    | relayRecord k =>
      unfold Tables.step
      dsimp only
      cases hc : s.relays k with
      | accepted r rem =>
        have hne := ih.relay k r rem (by rw [hc]; rfl)
        refine ⟨?_, ih.saved, ?_⟩
        · intro k' r' rem'
          dsimp only [setRelay]
          split
          · intro h'
            simp only [Tables.relayRecord, Option.some.injEq, Prod.mk.injEq] at h'
            rw [← h'.1]
            exact hne
          · exact ih.relay k' r' rem'
        · intro r' h'
          dsimp only at h'
          rw [GoMap.get_set_ne _ _ (fun e => hne e.symm)] at h'
          exact ih.record r' h'
      | _ => exact ih
    | relayPeer k w =>
      unfold Tables.step
      dsimp only
      cases hc : s.relays k with
      | recorded r rem =>
        have hne := ih.relay k r rem (by rw [hc]; rfl)
        have hrel : ∀ k' r' rem', Tables.relayRecord (s.setRelay k .done k') = some (r', rem') →
            r'.address ≠ a := by
          intro k' r' rem'
          dsimp only [setRelay]
          split
          · intro h'; simp [Tables.relayRecord] at h'
          · exact ih.relay k' r' rem'
        dsimp only
        split
        · refine ⟨hrel, ?_, ih.record⟩
          intro r' hr'
          rw [List.mem_append, List.mem_singleton] at hr'
          rcases hr' with hr' | rfl
          · exact ih.saved r' hr'
          · exact hne
        · exact ⟨hrel, ih.saved, ih.record⟩
      | _ => exact ih
    | mailbox st => exact ⟨ih.relay, ih.saved, ih.record⟩
    | route n e =>
      obtain ⟨mb, he, _⟩ := routeEnvelope_tables s.peer n e
      refine ⟨ih.relay, ih.saved, ?_⟩
      unfold Tables.step
      dsimp only
      rw [he]
      exact ih.record
    | handle n e =>
      obtain ⟨mb, he, _⟩ := handleAeaEnvelope_tables s.peer n e
      refine ⟨ih.relay, ih.saved, ?_⟩
      unfold Tables.step
      dsimp only
      rw [he]
      exact ih.record

/-- **C59, partial.** If the sender was never registered with this peer through a relay, the record that
goes with its envelopes is accepted by every other peer. Missing: senders that were. -/
theorem C59_direct_sender_accepted_partial {E : PeerEnv} (hl : LawfulPoR E.por) {s : Tables} {e : Envelope}
    (h : Reachable E (fun st => Sensible E st ∧ NotRelayed E e.sender st) s) {rec : Option AgentRecord}
    (hne : e.sender ≠ []) (hr : envelopeRecord s.peer e = some rec) :
    ∃ r, rec = some r ∧ r.address = e.sender ∧ E.por r r.address E.myKey = .ok .success := by
  have hd := h.direct hl
  have h' : Reachable E (Sensible E) s := by
    clear hd hr
    induction h with
    | first h => exact .first h
    | step st _ hs ih => exact .step st ih hs.1
    | restart _ h' ih => exact .restart ih h'
  obtain ⟨r, h1, h2, h3, h4⟩ := C59_record_of_sender_partial hl h' hne hr
  refine ⟨r, h1, h2, h3.2 ?_⟩
  by_cases hloc : e.sender = s.peer.myAgent ∨ ∃ m, s.peer.mailbox = some m ∧ m.isRegistered e.sender = true
  · exact h4 hloc
  · rw [envelopeRecord_eq, if_neg (fun hx => hloc (.inl hx)),
      if_neg (fun hx => hloc (.inr (PeerState.inMailbox_iff.1 hx)))] at hr
    obtain ⟨r', hg, hr'⟩ := Option.map_eq_some_iff.1 hr
    rw [h1] at hr'
    rw [← Option.some.inj hr']
    exact hd.record r' hg

/-! ## C60 -/

/-- **C60, partial.** A peer can be started again on its file exactly if every record in it has a usable
peer key. Missing: that they all have. -/
theorem C60_restart_iff_partial {E : PeerEnv} (hl : LawfulPoR E.por) {s : Tables}
    (h : Reachable E (Sensible E) s) {own : Option AgentRecord} (hown : ownOk E own = true) (ha mb : Bool) :
    (∃ s', start E own ha mb s.file s.saved = some s') ↔
      ∀ r ∈ s.saved, (E.peerId r.peerPublicKey).isSome := by
  have hi := h.inv hl (fun _ h => h)
  constructor
  · rintro ⟨s', hs'⟩ r hr
    rw [hi.file] at hs'
    exact ((start_some (fun r hr => (hi.saved r hr).2) hs').1 r hr).key
  · intro hk
    have hsav : ∀ r ∈ s.saved, Savable E.peerId r := fun r hr =>
      ⟨(hi.saved r hr).2.texts, (hi.saved r hr).2.nonzero, (hi.saved r hr).2.small, hk r hr⟩
    obtain ⟨fuel, hf, he⟩ := loadRecords_append hsav []
    rw [List.append_nil] at he
    unfold start
    rw [if_pos hown, hi.file, he, loadAux_nil E.peerId (by omega)]
    exact ⟨_, rfl⟩

/-- The relay table agrees with the file. -/
structure FileInv (E : PeerEnv) (s : Tables) : Prop where
  some : ∀ a id, s.peer.dhtAddresses.get a = some id →
    ∃ r, lastRecord s.saved a = some r ∧ ∀ i, E.peerId r.peerPublicKey = some i → id = i
  none : ∀ a, s.peer.dhtAddresses.get a = none → lastRecord s.saved a = none

theorem FileInv.keep {E : PeerEnv} {s s' : Tables} (h : FileInv E s)
    (h1 : s'.peer.dhtAddresses = s.peer.dhtAddresses) (h2 : s'.saved = s.saved) : FileInv E s' :=
  ⟨by rw [h1, h2]; exact h.some, by rw [h1, h2]; exact h.none⟩

theorem Tables.Reachable.fileInv {E : PeerEnv} (hl : LawfulPoR E.por) {s : Tables}
    (h : Reachable E (fun st => Sensible E st ∧ Written st) s) : FileInv E s := by
  have hinv : ∀ {s}, Reachable E (fun st => Sensible E st ∧ Written st) s → Inv E s :=
    fun h => h.inv hl (fun _ h => h.1)
  have hstart : ∀ {s s' : Tables} {own ha mb}, Inv E s → start E own ha mb s.file s.saved = some s' →
      FileInv E s' := by
    intro s s' own ha mb hi h'
    rw [hi.file] at h'
    obtain ⟨hsav, _, hsv, _, _, _, hdht, _⟩ := start_some (fun r hr => (hi.saved r hr).2) h'
    refine ⟨?_, ?_⟩
    · intro a id hd
      rw [hdht] at hd
      obtain ⟨r, h1, h2⟩ := Option.bind_eq_some_iff.1 hd
      refine ⟨r, by rw [hsv]; exact h1, ?_⟩
      intro i hi'
      rw [hi'] at h2
      exact (Option.some.inj h2).symm
    · intro a hd
      rw [hdht] at hd
      rw [hsv]
      cases hlr : lastRecord s.saved a with
      | none => rfl
      | some r =>
        obtain ⟨h1, _⟩ := lastRecord_mem hlr
        have := (hsav r h1).key
        rw [hlr] at hd
        simp only [Option.bind_some] at hd
        rw [hd] at this
        simp at this
  induction h with
  | first h =>
    obtain ⟨_, _, hsv, _, _, _, hdht, _⟩ := start_some (rs := []) (by simp) h
    refine ⟨?_, ?_⟩
    · intro a id hd; rw [hdht] at hd; simp [lastRecord] at hd
    · intro a _; rw [hsv]; rfl
  | restart hreach h' ih => exact hstart (hinv hreach) h'
  | @step s st hreach hs ih =>
    have hi := hinv hreach
    cases st with
    | delegate c p => unfold Tables.step; dsimp only; split <;> exact ih.keep rfl rfl
    | delegateRecord c => unfold Tables.step; dsimp only; split <;> exact ih.keep rfl rfl
    | delegateConn c => unfold Tables.step; dsimp only; split <;> exact ih.keep rfl rfl
    | delegateFail c => unfold Tables.step; dsimp only; split <;> exact ih.keep rfl rfl
    | delegateEnd c => unfold Tables.step; dsimp only; split <;> exact ih.keep rfl rfl
    | relay k rem p => unfold Tables.step; dsimp only; split <;> exact ih.keep rfl rfl
    | relayRecord k => unfold Tables.step; dsimp only; split <;> exact ih.keep rfl rfl
    | mailbox st => exact ih.keep rfl rfl
    | route n e =>
      obtain ⟨mb, he, _⟩ := routeEnvelope_tables s.peer n e
      refine ih.keep ?_ rfl
      unfold Tables.step; dsimp only; rw [he]
    | handle n e =>
      obtain ⟨mb, he, _⟩ := handleAeaEnvelope_tables s.peer n e
      refine ih.keep ?_ rfl
      unfold Tables.step; dsimp only; rw [he]
    | relayPeer k w =>
      unfold Tables.step
      dsimp only
      cases hc : s.relays k with
      | recorded r rem =>
        obtain ⟨hp, hid, hsnd⟩ := hi.relay k r rem (by rw [hc]; rfl)
        have hw : w = true := hs.2
        have hsave : saveRecord E.broken r = some (frame (encodeFields r.fields)) :=
          saveRecord_eq (peerId := fun _ => some []) ⟨hsnd.texts, hsnd.nonzero, hsnd.small, rfl⟩
        rw [hw]
        dsimp only
        rw [hsave]
        dsimp only
        refine ⟨?_, ?_⟩
        · intro a id h'
          dsimp only at h' ⊢
          rw [GoMap.get_set] at h'
          rw [lastRecord_snoc]
          split at h'
          · rename_i ha
            refine ⟨r, by rw [if_pos ha.symm], ?_⟩
            intro i hi'
            rw [← Option.some.inj h']
            exact hid i (by rw [← (hl.vouches hp).2.1]; exact hi')
          · rename_i ha
            rw [if_neg (fun e => ha e.symm)]
            exact ih.some a id h'
        · intro a h'
          dsimp only at h' ⊢
          rw [GoMap.get_set] at h'
          rw [lastRecord_snoc]
          split at h'
          · simp at h'
          · rename_i ha
            rw [if_neg (fun e => ha e.symm)]
            exact ih.none a h'
      | _ => exact ih

/-- **C60.** A peer that is started again has the same relay clients under the same peer ids, and for each
of them a valid record of its address for the key of that peer. -/
theorem C60_restart_restores {E : PeerEnv} (hl : LawfulPoR E.por) {s s' : Tables}
    (h : Reachable E (fun st => Sensible E st ∧ Written st) s) {own : Option AgentRecord} {ha mb : Bool}
    (h' : start E own ha mb s.file s.saved = some s') (a : Bytes) :
    s'.peer.dhtAddresses.get a = s.peer.dhtAddresses.get a ∧
    ∀ id, s'.peer.dhtAddresses.get a = some id → ∃ r, s'.peer.agentRecords.get a = some r ∧
      Vouches E.por r a r.peerPublicKey ∧ E.peerId r.peerPublicKey = some id := by
  have hi := h.inv hl (fun _ h => h.1)
  have hf := h.fileInv hl
  rw [hi.file] at h'
  obtain ⟨hsav, _, _, _, _, hrec, hdht, _⟩ := start_some (fun r hr => (hi.saved r hr).2) h'
  constructor
  · rw [hdht]
    cases hd : s.peer.dhtAddresses.get a with
    | none => rw [hf.none a hd]; rfl
    | some id =>
      obtain ⟨r, h1, h2⟩ := hf.some a id hd
      obtain ⟨i, hk⟩ := Option.isSome_iff_exists.1 (hsav r (lastRecord_mem h1).1).key
      rw [h1, Option.bind_some, hk, h2 i hk]
  · intro id hd
    rw [hdht] at hd
    obtain ⟨r, h1, h2⟩ := Option.bind_eq_some_iff.1 hd
    obtain ⟨h3, h4⟩ := lastRecord_mem h1
    refine ⟨r, by rw [hrec]; exact h1, ?_, h2⟩
    rw [← h4]
    exact (hi.saved r h3).1

/-! ## Concrete cases -/

namespace TablesDemo

/-- The peer has the key `pk`; keys starting with `e` are of another type. -/
def E : PeerEnv where
  T := HandlersDemo.T
  por := HandlersDemo.por
  porText := fun _ => b! "no"
  myKey := b! "pk"
  peerId := fun k => if k.head? = some 101 then none else some (b! "id-" ++ k)
  broken := fun _ => []

/-- A record of `ag` for the key `k`. -/
def rec (k : Bytes) : AgentRecord := { PoRDemo.good with peerPublicKey := k, signature := k }

/-- A registration with it. -/
def reg (k : Bytes) : Pipe := ⟨[AcnMessage.encode (some (.register (some (rec k))))], [true], []⟩

/-- A peer without own agent. -/
def init : Tables := ⟨startPeer none false true .empty, [], fun _ => .fresh, fun _ => .fresh, []⟩

theorem init_reachable (ok : Step → Prop) : Reachable E ok init :=
  .first (own := none) (hasAgent := false) (mailbox := true) (by
    simp [start, ownOk, loadRecords, loadAux, init])

theorem lawful : LawfulPoR E.por := isValidPoR_lawful PoRDemo.addr PoRDemo.verify

theorem run_reachable {ok : Step → Prop} {s : Tables} (h : Reachable E ok s) (steps : List Step)
    (hs : ∀ st ∈ steps, ok st) : Reachable E ok (run E s steps) := by
  induction steps generalizing s with
  | nil => exact h
  | cons st rest ih =>
    exact ih (.step st h (hs st (by simp))) (fun x hx => hs x (by simp [hx]))

/-- `ag` registers as a delegate of this peer, and a relay client with the key `xx` registers it as
well. -/
def both : List Step :=
  [.delegate 0 (reg (b! "pk")), .delegateRecord 0, .delegateConn 0,
   .relay 0 ⟨b! "xx", b! "id-xx"⟩ (reg (b! "xx")), .relayRecord 0, .relayPeer 0 true]

set_option maxRecDepth 100000 in
theorem both_sensible : ∀ st ∈ both, Sensible E st := by
  intro st hst
  simp only [both, List.mem_cons, List.not_mem_nil, or_false] at hst
  rcases hst with rfl | rfl | rfl | rfl | rfl | rfl
  case inr.inr.inr.inl =>
    refine ⟨?_, ?_⟩
    · intro id h
      have : E.peerId (b! "xx") = some (b! "id-xx") := by decide
      dsimp only at h
      rw [this] at h
      exact Option.some.inj h
    · intro b hb
      have he : (reg (b! "xx")).reads =
        [some ((AcnMessage.encode (some (.register (some (rec (b! "xx")))))).getD [])] := by decide
      rw [he, List.mem_singleton] at hb
      rw [Option.some.inj hb]
      decide
  all_goals trivial

/-- An envelope of `ag`. -/
def mail : Envelope := ⟨b! "bob", b! "ag", b! "p", [], []⟩

set_option maxRecDepth 100000 in
/-- **C59 is false**: the delegate `ag` is still connected, but its envelopes go out with the record of the
relay client, which other peers refuse as made for another key. -/
theorem _root_.Verif.C59_counterexample :
    Reachable E (Sensible E) (run E init both) ∧
    (run E init both).peer.tcpAddresses.get (b! "ag") = some 0 ∧
    envelopeRecord (run E init both).peer mail = some (some (rec (b! "xx"))) ∧
    E.por (rec (b! "xx")) (b! "ag") E.myKey = .ok .errorWrongPublicKey := by
  refine ⟨run_reachable (init_reachable _) _ both_sensible, ?_, ?_, ?_⟩ <;> decide

set_option maxRecDepth 100000 in
/-- **C59 is false** for an empty sender as well: at a peer without own agent such an envelope goes out
without a record, and the peer that gets it crashes. -/
theorem _root_.Verif.C59_empty_sender_counterexample :
    envelopeRecord init.peer ⟨b! "bob", [], b! "p", [], []⟩ = some none ∧
    ∃ d, (do AcnMessage.encode (some (.aeaEnvelope
        (← (⟨b! "bob", [], b! "p", [], []⟩ : Envelope).encode) none))) = some d ∧
      (receiveEnvelopeFromPeer E.T E.por (b! "pk") ⟨[some d], [true], []⟩).1 = .panic := by
  exact ⟨by decide, _, rfl, by decide⟩

/-- A relay client with a key of another type. -/
def foreign : List Step :=
  [.relay 0 ⟨b! "ed", b! "id-ed"⟩ (reg (b! "ed")), .relayRecord 0, .relayPeer 0 true]

set_option maxRecDepth 100000 in
theorem foreign_sensible : ∀ st ∈ foreign, Sensible E st := by
  intro st hst
  simp only [foreign, List.mem_cons, List.not_mem_nil, or_false] at hst
  rcases hst with rfl | rfl | rfl
  · refine ⟨?_, ?_⟩
    · intro id h
      have : E.peerId (b! "ed") = none := by decide
      dsimp only at h
      rw [this] at h
      simp at h
    · intro b hb
      have he : (reg (b! "ed")).reads =
        [some ((AcnMessage.encode (some (.register (some (rec (b! "ed")))))).getD [])] := by decide
      rw [he, List.mem_singleton] at hb
      rw [Option.some.inj hb]
      decide
  all_goals trivial

set_option maxRecDepth 100000 in
/-- **C60 is false**: one relay client whose libp2p key is not a secp256k1 key registers with a valid
record. It is accepted, and the peer can never be started on its file again. -/
theorem _root_.Verif.C60_counterexample :
    Reachable E (Sensible E) (run E init foreign) ∧
    (run E init foreign).peer.dhtAddresses.get (b! "ag") = some (b! "id-ed") ∧
    ∀ own ha mb, start E own ha mb (run E init foreign).file (run E init foreign).saved = none := by
  have hr := run_reachable (init_reachable _) _ foreign_sensible
  refine ⟨hr, by decide, ?_⟩
  intro own ha mb
  cases hx : start E own ha mb (run E init foreign).file (run E init foreign).saved with
  | none => rfl
  | some s' =>
    exfalso
    have hi := hr.inv lawful (fun _ h => h)
    rw [hi.file] at hx
    have := (start_some (fun r hr => (hi.saved r hr).2) hx).1 (rec (b! "ed")) (by decide)
    exact absurd this.key (by decide)

set_option maxRecDepth 100000 in
/-- The delegate and the relay client of one address, and the answer to a request for it. -/
example : (run E init both).peer.tcpAddresses.get (b! "ag") = some 0 ∧
    (run E init both).peer.dhtAddresses.get (b! "ag") = some (b! "id-xx") ∧
    handleAddressRequest (run E init both).peer RouteDemo.net true (b! "ag") =
      .found [] (some (rec (b! "xx"))) ∧
    handleAddressRequest (run E init (both.take 3)).peer RouteDemo.net true (b! "ag") =
      .found [] (some (rec (b! "pk"))) := by decide

set_option maxRecDepth 100000 in
/-- After a restart the relay client is back, the delegate is not. -/
example : (start E none false true (run E init both).file (run E init both).saved).map
    (fun s => (s.peer.tcpAddresses.get (b! "ag"), s.peer.dhtAddresses.get (b! "ag"),
      s.peer.agentRecords.get (b! "ag"))) = some (none, some (b! "id-xx"), some (rec (b! "xx"))) := by
  decide +kernel

/-- Two registrations of `ag` over streams at the same time. -/
def mixed : List Step :=
  [.relay 0 ⟨b! "xx", b! "id-xx"⟩ (reg (b! "xx")), .relay 1 ⟨b! "yy", b! "id-yy"⟩ (reg (b! "yy")),
   .relayRecord 0, .relayRecord 1, .relayPeer 1 true, .relayPeer 0 true]

set_option maxRecDepth 100000 in
/-- **C57**: two registrations of one address at the same time can leave the record of one client with the
peer id of the other: look-ups name `yy`, this peer routes to `xx`. -/
theorem mixed_up :
    (run E init mixed).peer.agentRecords.get (b! "ag") = some (rec (b! "yy")) ∧
    (run E init mixed).peer.dhtAddresses.get (b! "ag") = some (b! "id-xx") := by
  constructor <;> decide

end TablesDemo

end Verif
