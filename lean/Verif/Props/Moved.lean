import Verif.Props.LookupAnswer
import Verif.Props.PeerTables

/-!
# C118: agents that move are found where they are

Spec. An agent that leaves a peer and registers with another one is found there: a look-up of its address gives
the record it has registered with its new peer. The tables of peers are those of `Verif.Model.PeerTables`, the
look-up is that of `Verif.Model.LookupChain`.
-/

namespace Verif

namespace Moved

open Tables LookupChain

/-- `s'` is a later state of the peer: after any number of steps and restarts. -/
inductive Later (E : PeerEnv) (ok : Step → Prop) (s : Tables) : Tables → Prop where
  | refl : Later E ok s s
  | step {s' : Tables} (st : Step) (h : Later E ok s s') (hs : ok st) : Later E ok s (s'.step E st)
  | restart {s' s'' : Tables} {own : Option AgentRecord} {hasAgent mailbox : Bool} (h : Later E ok s s')
      (h' : start E own hasAgent mailbox s'.file s'.saved = some s'') : Later E ok s s''

/-- The peer answers requests for the address with this record from its tables, whatever it would find elsewhere. -/
def Answers (s : PeerState) (a : Bytes) (r : AgentRecord) : Prop :=
  ∀ n, handleAddressRequest s n true a = .found [] (some r)

/-- The peer has nothing in its tables to answer with: it answers what it finds elsewhere. -/
def Forgot (s : PeerState) (a : Bytes) : Prop :=
  ∀ n, handleAddressRequest s n true a = dhtEnd (lookupAddressDHT n.por n.idFrom n.cid a n.rounds)

/-- The network for the look-ups of one address: what peers answer from their tables is what the tables say. -/
structure Describes (por : PoRCheck) (peers : Nat → Tables) (a : Bytes) (net : LookupNet) : Prop where
  records : ∀ p r, net.records p = some r ↔ Answers (peers p).peer a r
  valid : ∀ r, net.valid r = true ↔ por r a r.peerPublicKey = .ok .success

theorem Later.reachable {E : PeerEnv} {ok : Step → Prop} {s s' : Tables} (h : Later E ok s s')
    (hr : Reachable E ok s) : Reachable E ok s' := by
  induction h with
  | refl => exact hr
  | step st _ hs ih => exact .step st ih hs
  | restart _ h' ih => exact .restart ih h'

/-! ## Relay clients -/

/-- No step removes a relay client. -/
theorem relay_step (E : PeerEnv) (s : Tables) (st : Step) {a : Bytes} (h : (s.peer.dhtAddresses.get a).isSome) :
    ((s.step E st).peer.dhtAddresses.get a).isSome := by
  cases st with
  | delegate c p => unfold Tables.step; dsimp only; split <;> exact h
  | delegateRecord c => unfold Tables.step; dsimp only; split <;> exact h
  | delegateConn c => unfold Tables.step; dsimp only; split <;> exact h
  | delegateFail c => unfold Tables.step; dsimp only; split <;> exact h
  | delegateEnd c => unfold Tables.step; dsimp only; split <;> exact h
  | relay k rem p => unfold Tables.step; dsimp only; split <;> exact h
  | relayRecord k => unfold Tables.step; dsimp only; split <;> exact h
  | mailbox st => exact h
  | route n e =>
    obtain ⟨mb, he, _⟩ := routeEnvelope_tables s.peer n e
    unfold Tables.step; dsimp only; rw [he]; exact h
  | handle n e =>
    obtain ⟨mb, he, _⟩ := handleAeaEnvelope_tables s.peer n e
    unfold Tables.step; dsimp only; rw [he]; exact h
  | relayPeer k w =>
    have key : ∀ (r : AgentRecord) (rem : Remote),
        ((s.peer.dhtAddresses.set r.address rem.id).get a).isSome := by
      intro r rem
      rw [GoMap.get_set]
      split
      · rfl
      · exact h
    unfold Tables.step
    dsimp only
    split
    · split <;> exact key _ _
    · exact h

/-- **C118 is false: relay clients stay for ever.** A peer that has had an agent as a relay client once answers
for it ever after, through all steps and restarts, wherever the agent is, and what it answers passes the check. -/
theorem C118_relay_forever {E : PeerEnv} (hl : LawfulPoR E.por) {s s' : Tables}
    (hr : Reachable E (fun st => Sensible E st ∧ Written st) s)
    (h : Later E (fun st => Sensible E st ∧ Written st) s s') {a : Bytes} (hne : a ≠ [])
    (ha : (s.peer.dhtAddresses.get a).isSome) :
    (s'.peer.dhtAddresses.get a).isSome ∧
      ∃ r, Answers s'.peer a r ∧ r.address = a ∧ E.por r a r.peerPublicKey = .ok .success := by
  have hd : (s'.peer.dhtAddresses.get a).isSome := by
    induction h with
    | refl => exact ha
    | step st _ _ ih => exact relay_step E _ st ih
    | restart h0 h' ih => rw [(C60_restart_restores hl (h0.reachable hr) h' a).1]; exact ih
  refine ⟨hd, ?_⟩
  have hsub : ∀ {s}, Reachable E (fun st => Sensible E st ∧ Written st) s → Reachable E (Sensible E) s := by
    intro s h
    induction h with
    | first h => exact .first h
    | step st _ hs ih => exact .step st ih hs.1
    | restart _ h' ih => exact .restart ih h'
  have hrs := hsub (h.reachable hr)
  have hi := hrs.inv hl (fun _ h => h)
  by_cases hm : a = s'.peer.myAgent
  · cases ho : s'.peer.myRecord with
    | none => exact absurd (hm.trans (hi.noOwn ho)) hne
    | some r =>
      have hv := hi.own r ho
      rw [← hm] at hv
      refine ⟨r, fun n => ?_, hv.1, by rw [hv.2.1]; exact hv.2.2⟩
      rw [handleAddressRequest_eq, if_pos hm, if_pos rfl, ho]; rfl
  · obtain ⟨r, hg⟩ := Option.isSome_iff_exists.1 (hi.dhtHas a hd)
    have hv := hi.records a r hg
    refine ⟨r, fun n => ?_, hv.1, hv.2.2⟩
    rw [handleAddressRequest_eq, if_neg hm, if_pos hd, hg]; rfl

/-- Nobody is about to register the address, and the step does not begin to. -/
def Quiet (a : Bytes) (s : Tables) : Prop :=
  (∀ c r, s.conns c = .accepted r → r.address ≠ a) ∧ ∀ k r rem, s.relays k = .accepted r rem → r.address ≠ a

/-- The step does not accept a registration of the address. -/
def Elsewhere (E : PeerEnv) (a : Bytes) : Step → Prop
  | .delegate _ p => ∀ r, (acceptRegistration E.T E.por E.porText E.myKey p).1 = .ok r → r.address ≠ a
  | .relay _ rem p => ∀ r, (acceptRegistration E.T E.por E.porText rem.key p).1 = .ok r → r.address ≠ a
  | _ => True

theorem quiet_step {E : PeerEnv} {a : Bytes} {s : Tables} (h : Quiet a s) {st : Step} (hs : Elsewhere E a st) :
    Quiet a (s.step E st) ∧ (s.step E st).peer.agentRecords.get a = s.peer.agentRecords.get a ∧
      (s.step E st).peer.myAgent = s.peer.myAgent ∧ (s.step E st).peer.myRecord = s.peer.myRecord := by
  have conn : ∀ (c : Nat) (ph : ConnPhase), (∀ r, ph = .accepted r → r.address ≠ a) → ∀ c' r,
      s.setConn c ph c' = .accepted r → r.address ≠ a := by
    intro c ph hp c' r hx
    unfold setConn at hx
    split at hx
    · exact hp r hx
    · exact h.1 c' r hx
  have relay : ∀ (k : Nat) (ph : RelayPhase), (∀ r rem, ph = .accepted r rem → r.address ≠ a) → ∀ k' r rem,
      s.setRelay k ph k' = .accepted r rem → r.address ≠ a := by
    intro k ph hp k' r rem hx
    unfold setRelay at hx
    split at hx
    · exact hp r rem hx
    · exact h.2 k' r rem hx
  cases st with
  | delegate c p =>
    unfold Tables.step
    dsimp only
    split
    · next r h1 h2 =>
      refine ⟨⟨conn c _ fun r' hr' => ?_, h.2⟩, rfl, rfl, rfl⟩
      cases hr'
      exact hs r h2
    · exact ⟨h, rfl, rfl, rfl⟩
  | delegateRecord c =>
    unfold Tables.step
    dsimp only
    split
    · next r h1 =>
      refine ⟨⟨conn c _ fun r' hr' => (by cases hr'), h.2⟩, ?_, rfl, rfl⟩
      dsimp only
      rw [GoMap.get_set, if_neg (fun e => h.1 c r h1 e.symm)]
    · exact ⟨h, rfl, rfl, rfl⟩
  | delegateConn c =>
    unfold Tables.step
    dsimp only
    split
    · exact ⟨⟨conn c _ fun r' hr' => (by cases hr'), h.2⟩, rfl, rfl, rfl⟩
    · exact ⟨h, rfl, rfl, rfl⟩
  | delegateFail c =>
    unfold Tables.step
    dsimp only
    split
    · exact ⟨⟨conn c _ fun r' hr' => (by cases hr'), h.2⟩, rfl, rfl, rfl⟩
    · exact ⟨h, rfl, rfl, rfl⟩
  | delegateEnd c =>
    unfold Tables.step
    dsimp only
    split
    · exact ⟨⟨conn c _ fun r' hr' => (by cases hr'), h.2⟩, rfl, rfl, rfl⟩
    · exact ⟨h, rfl, rfl, rfl⟩
  | relay k rem p =>
    unfold Tables.step
    dsimp only
    split
    · next r h1 h2 =>
      refine ⟨⟨h.1, relay k _ fun r' rem' hr' => ?_⟩, rfl, rfl, rfl⟩
      cases hr'
      exact hs r h2
    · exact ⟨h, rfl, rfl, rfl⟩
  | relayRecord k =>
    unfold Tables.step
    dsimp only
    split
    · next r rem h1 =>
      refine ⟨⟨h.1, relay k _ fun r' rem' hr' => (by cases hr')⟩, ?_, rfl, rfl⟩
      dsimp only
      rw [GoMap.get_set, if_neg (fun e => h.2 k r rem h1 e.symm)]
    · exact ⟨h, rfl, rfl, rfl⟩
  | relayPeer k w =>
    unfold Tables.step
    dsimp only
    split
    · have := relay k .done fun r' rem' hr' => (by cases hr')
      split <;> exact ⟨⟨h.1, this⟩, rfl, rfl, rfl⟩
    · exact ⟨h, rfl, rfl, rfl⟩
  | mailbox st => exact ⟨h, rfl, rfl, rfl⟩
  | route n e =>
    obtain ⟨mb, he, _⟩ := routeEnvelope_tables s.peer n e
    unfold Tables.step
    dsimp only
    rw [he]
    exact ⟨h, rfl, rfl, rfl⟩
  | handle n e =>
    obtain ⟨mb, he, _⟩ := handleAeaEnvelope_tables s.peer n e
    unfold Tables.step
    dsimp only
    rw [he]
    exact ⟨h, rfl, rfl, rfl⟩

/-- **C118 is false: the old record.** As long as the agent registers only with other peers, the peer that had it
as a relay client goes on to answer with the very record it had. -/
theorem C118_old_record {E : PeerEnv} {s : Tables} {a : Bytes} {r : AgentRecord} (hm : a ≠ s.peer.myAgent)
    (hd : (s.peer.dhtAddresses.get a).isSome) (hg : s.peer.agentRecords.get a = some r) (hq : Quiet a s)
    (steps : List Step) (hs : ∀ st ∈ steps, Elsewhere E a st) : Answers (run E s steps).peer a r := by
  induction steps generalizing s with
  | nil =>
    intro n
    rw [Tables.run, List.foldl_nil, handleAddressRequest_eq, if_neg hm, if_pos hd, hg]
    rfl
  | cons st rest ih =>
    obtain ⟨h1, h2, h3, _⟩ := quiet_step hq (hs st (by simp))
    exact ih (s := s.step E st) (by rw [h3]; exact hm) (relay_step E s st hd) (by rw [h2]; exact hg) h1
      fun x hx => hs x (by simp [hx])

/-- **C118 is false: the look-up.** A look-up at a peer that has forgotten the address and reaches the old peer
first ends with the record of the old peer, whatever the other peers have. -/
theorem C118_old_found {E : PeerEnv} (hl : LawfulPoR E.por) {peers : Nat → Tables} {a : Bytes} {net : LookupNet}
    (hN : Describes E.por peers a net) {p old : Nat} {r : AgentRecord}
    (hold : Reachable E (Sensible E) (peers old)) (hp : net.records p = none)
    (hf : FirstReached net p (net.providers p) old) (hr : Answers (peers old).peer a r) :
    ∃ n, LookupChain.run (fun _ => net) (LookupChain.start p) n = ⟨[], .answer (some r)⟩ := by
  obtain ⟨r', hr', hv⟩ := C58_answer_proven hl hold (n := ⟨E.por, fun _ => none, false, none, false, false, .panic,
    fun _ => none, fun _ => none, []⟩) rfl (hr _)
  cases hr'
  exact ⟨3, (C115_fresh net p hp old r hf ((hN.records old r).2 hr) ((hN.valid r).2 hv.2.2) 0).1⟩

/-! ## Other agents -/

/-- **C118, delegates and mailboxes.** A peer has forgotten an address exactly if it is not its own agent's and has
no relay client, delegate connection or mailbox for it. -/
theorem C118_forgot_iff {E : PeerEnv} (hl : LawfulPoR E.por) {s : Tables} (h : Reachable E (Sensible E) s)
    {a : Bytes} (hne : a ≠ []) :
    Forgot s.peer a ↔ a ≠ s.peer.myAgent ∧ s.peer.dhtAddresses.get a = none ∧ s.peer.tcpAddresses.get a = none ∧
      ∀ m, s.peer.mailbox = some m → m.envelopes.get a = none := by
  constructor
  · intro hf
    have key : ¬ (a = s.peer.myAgent ∨ (s.peer.tcpAddresses.get a).isSome ∨ (s.peer.dhtAddresses.get a).isSome ∨
        ∃ m, s.peer.mailbox = some m ∧ (m.envelopes.get a).isSome) := by
      intro hk
      obtain ⟨r, hr⟩ := C58_registered_answered hl h (⟨E.por, fun _ => none, false, none, false, false, .panic,
        fun _ => none, fun _ => none, []⟩) hne hk
      rw [hf] at hr
      simp [lookupAddressDHT, dhtEnd] at hr
    refine ⟨fun h => key (.inl h), ?_, ?_, ?_⟩
    · cases hx : s.peer.dhtAddresses.get a with
      | none => rfl
      | some x => exact absurd (.inr (.inr (.inl (by rw [hx]; rfl)))) key
    · cases hx : s.peer.tcpAddresses.get a with
      | none => rfl
      | some x => exact absurd (.inr (.inl (by rw [hx]; rfl))) key
    · intro m hm
      cases hx : m.envelopes.get a with
      | none => rfl
      | some x => exact absurd (.inr (.inr (.inr ⟨m, hm, by rw [hx]; rfl⟩))) key
  · rintro ⟨h1, h2, h3, h4⟩ n
    rw [handleAddressRequest_eq, if_neg h1, if_neg (by rw [h2]; simp), if_neg, if_neg (by rw [h3]; simp)]
    intro hb
    obtain ⟨m, hm, hb⟩ := PeerState.inMailbox_iff.1 hb
    unfold Mailbox.isRegistered GoMap.has at hb
    rw [h4 m hm] at hb
    simp at hb

/-- **C118, delegates.** When the connection of a delegate ends, the peer forgets the address, unless it has it in
another table. -/
theorem C118_delegate_leaves {E : PeerEnv} {s : Tables} {c : Nat} {r : AgentRecord} (hc : s.conns c = .listed r)
    (hm : r.address ≠ s.peer.myAgent) (hd : s.peer.dhtAddresses.get r.address = none)
    (hb : ∀ m, s.peer.mailbox = some m → m.envelopes.get r.address = none) :
    Forgot (s.step E (.delegateEnd c)).peer r.address := by
  intro n
  have he : (s.step E (.delegateEnd c)).peer =
      { s.peer with tcpAddresses := s.peer.tcpAddresses.erase r.address } := by
    unfold Tables.step
    simp only [hc]
  rw [he, handleAddressRequest_eq, if_neg hm, if_neg (by rw [hd]; simp), if_neg, if_neg]
  · dsimp only
    rw [GoMap.get_erase, if_pos rfl]
    simp
  · intro hx
    obtain ⟨m, hm, hx⟩ := PeerState.inMailbox_iff.1 hx
    unfold Mailbox.isRegistered GoMap.has at hx
    rw [hb m hm] at hx
    simp at hx

/-- **C118, mailboxes.** When a session unregisters, the peer forgets the address, unless it has it in another
table. -/
theorem C118_mailbox_leaves {E : PeerEnv} {s : Tables} {m : Mailbox} {i : Nat} {id a : Bytes}
    (hmb : s.peer.mailbox = some m) (hi : m.leaving[i]? = some (id, a)) (hm : a ≠ s.peer.myAgent)
    (hd : s.peer.dhtAddresses.get a = none) (ht : s.peer.tcpAddresses.get a = none) :
    Forgot (s.step E (.mailbox (.unregisterEnd i))).peer a := by
  intro n
  have he : (s.step E (.mailbox (.unregisterEnd i))).peer =
      { s.peer with mailbox := some (m.unregisterEnd i).1 } := by
    unfold Tables.step
    simp only [hmb, Option.map_some]
    rfl
  rw [he, handleAddressRequest_eq, if_neg hm, if_neg (by dsimp only; rw [hd]; simp), if_neg,
    if_neg (by dsimp only; rw [ht]; simp)]
  intro hx
  obtain ⟨m', hm', hx⟩ := PeerState.inMailbox_iff.1 hx
  cases hm'
  unfold Mailbox.isRegistered Mailbox.unregisterEnd at hx
  rw [hi] at hx
  unfold GoMap.has at hx
  dsimp only at hx
  rw [GoMap.get_erase, if_pos rfl] at hx
  simp at hx

/-! ## When it holds -/

theorem Describes.forgot {E : PeerEnv} {peers : Nat → Tables} {a : Bytes} {net : LookupNet}
    (hN : Describes E.por peers a net) {p : Nat} (h : Forgot (peers p).peer a) : net.records p = none := by
  cases hr : net.records p with
  | none => rfl
  | some r =>
    have := ((hN.records p r).1 hr) (⟨E.por, fun _ => none, false, none, false, false, .panic,
      fun _ => none, fun _ => none, []⟩)
    rw [h] at this
    simp [lookupAddressDHT, dhtEnd] at this

mutual

theorem finds_one {net : LookupNet} {b : Nat} (hb : ∀ q, q ≠ b → net.records q = none) {p : Nat}
    {o : Option AgentRecord} : Finds net p o → o = none ∨ o = net.records b
  | .has (r := r) h => by
    by_cases he : p = b
    · rw [← he, h]; exact .inr rfl
    · rw [hb p he] at h; cases h
  | .looks _ ht => tries_one hb ht

theorem tries_one {net : LookupNet} {b : Nat} (hb : ∀ q, q ≠ b → net.records q = none) {p : Nat} {l : List Nat}
    {o : Option AgentRecord} : Tries net p l o → o = none ∨ o = net.records b
  | .nobody => .inl rfl
  | .unreached _ ht => tries_one hb ht
  | .good _ hf _ => finds_one hb hf
  | .error _ _ ht => tries_one hb ht
  | .bad _ _ _ ht => tries_one hb ht

end

/-- A peer that asks, among others, one that has a good record comes back with a record. -/
theorem tries_some {net : LookupNet} {p b : Nat} {r : AgentRecord} (hr : net.records b = some r)
    (hv : net.valid r = true) (hreach : net.reaches p b = true) {l : List Nat} (hb : b ∈ l)
    {o : Option AgentRecord} (h : Tries net p l o) : o ≠ none := by
  induction l with
  | nil => cases hb
  | cons q rest ih =>
    have hrest : q = b ∨ b ∈ rest := by
      rcases List.mem_cons.1 hb with h | h
      · exact .inl h.symm
      · exact .inr h
    cases h with
    | unreached h ht =>
      rcases hrest with rfl | hb
      · rw [hreach] at h; cases h
      · exact ih hb ht
    | good h hf hv => simp
    | error h hf ht =>
      rcases hrest with rfl | hb
      · have := C115_finds_one hf (.has hr); cases this
      · exact ih hb ht
    | bad h hf hv' ht =>
      rcases hrest with rfl | hb
      · have := C115_finds_one hf (.has hr)
        cases this
        rw [hv] at hv'
        cases hv'
      · exact ih hb ht

/-- **C118, partial.** If all other peers have forgotten the address, a look-up at a peer that reaches the new peer
among the providers gives the record registered there, if it ends; and it ends if the peers can be ranked as in
C115. Missing: that peers forget the address, which those do not that have had the agent as a relay client, and that
look-ups end. -/
theorem C118_partial {E : PeerEnv} (hl : LawfulPoR E.por) {peers : Nat → Tables} {a : Bytes} {net : LookupNet}
    (hN : Describes E.por peers a net) {p b : Nat} {r : AgentRecord} (hnew : Reachable E (Sensible E) (peers b))
    (hr : Answers (peers b).peer a r) (hforgot : ∀ q, q ≠ b → Forgot (peers q).peer a)
    (hreach : net.reaches p b = true) (hb : b ∈ net.providers p) :
    (∀ n o, LookupChain.run (fun _ => net) (LookupChain.start p) n = ⟨[], .answer o⟩ → o = some r) ∧
      ∀ rank, Ranked (fun _ => net) rank →
        ∃ n, LookupChain.run (fun _ => net) (LookupChain.start p) n = ⟨[], .answer (some r)⟩ := by
  obtain ⟨r', hr', hv⟩ := C58_answer_proven hl hnew (n := ⟨E.por, fun _ => none, false, none, false, false, .panic,
    fun _ => none, fun _ => none, []⟩) rfl (hr _)
  cases hr'
  have hrb := (hN.records b r).2 hr
  have key : ∀ n o, LookupChain.run (fun _ => net) (LookupChain.start p) n = ⟨[], .answer o⟩ → o = some r := by
    intro n o hn
    have hf := (C115_finds net p o).1 ⟨n, hn⟩
    have h1 := finds_one (b := b) (fun q hq => hN.forgot (hforgot q hq)) hf
    rw [hrb] at h1
    rcases h1 with rfl | h1
    · exfalso
      cases hf with
      | looks _ ht => exact tries_some hrb ((hN.valid r).2 hv.2.2) hreach hb ht rfl
    · exact h1
  refine ⟨key, fun rank hrank => ?_⟩
  obtain ⟨n, o, hn, _⟩ := C115_ends_partial (fun _ => net) rank hrank p
  exact ⟨n, by rw [hn, key n o hn]⟩

/-! ## Concrete cases -/

namespace Demo

open TablesDemo

/-- Another peer, with the key `p1`. -/
def E1 : PeerEnv := { E with myKey := b! "p1" }

/-- The agent `ag` was a relay client of peer 0, and now is a delegate of peer 1. Peer 2 knows nobody. -/
def peers : Nat → Tables
  | 0 => Tables.run E init [.relay 0 ⟨b! "xx", b! "id-xx"⟩ (reg (b! "xx")), .relayRecord 0, .relayPeer 0 true]
  | 1 => Tables.run E1 init [.delegate 0 (reg (b! "p1")), .delegateRecord 0, .delegateConn 0]
  | _ => init

/-- Both are listed for the address. -/
def net : LookupNet where
  records := fun p => match p with
    | 0 => some (rec (b! "xx"))
    | 1 => some (rec (b! "p1"))
    | _ => none
  valid := fun r => decide (E.por r (b! "ag") r.peerPublicKey = .ok .success)
  providers := fun _ => [0, 1]
  reaches := fun p q => decide (p ≠ q)

theorem answers_of {s : PeerState} {a : Bytes} {r : AgentRecord} (hm : a ≠ s.myAgent)
    (h : (s.dhtAddresses.get a).isSome ∨ s.inMailbox a = false ∧ (s.tcpAddresses.get a).isSome)
    (hr : s.agentRecords.get a = some r) : Answers s a r := by
  intro n
  rw [handleAddressRequest_eq, if_neg hm]
  by_cases hd : (s.dhtAddresses.get a).isSome
  · rw [if_pos hd, hr]; rfl
  · rcases h with h | ⟨h1, h2⟩
    · exact absurd h hd
    · rw [if_neg hd, if_neg (by rw [h1]; simp), if_pos h2, if_pos rfl, hr]; rfl

theorem answers_one {s : PeerState} {a : Bytes} {r r' : AgentRecord} (h : Answers s a r) (h' : Answers s a r') :
    r = r' := by
  have h1 := h RouteDemo.net
  rw [h' RouteDemo.net] at h1
  simpa using h1.symm

set_option maxRecDepth 100000 in
theorem at0 : Answers (peers 0).peer (b! "ag") (rec (b! "xx")) :=
  answers_of (by decide) (.inl (by decide)) (by decide)

set_option maxRecDepth 100000 in
theorem at1 : Answers (peers 1).peer (b! "ag") (rec (b! "p1")) :=
  answers_of (by decide) (.inr ⟨by decide, by decide⟩) (by decide)

theorem describes : Describes E.por peers (b! "ag") net where
  records := by
    intro p r
    match p with
    | 0 => exact ⟨fun h => by cases h; exact at0, fun h => by rw [answers_one h at0]; rfl⟩
    | 1 => exact ⟨fun h => by cases h; exact at1, fun h => by rw [answers_one h at1]; rfl⟩
    | p + 2 =>
      constructor
      · intro h; cases h
      · intro h
        have := h RouteDemo.net
        have h' : handleAddressRequest init.peer { RouteDemo.net with cid := false } true (b! "ag") =
            .found [] (some r) := h _
        have h2 : handleAddressRequest init.peer { RouteDemo.net with cid := false } true (b! "ag") = .error := by
          decide
        rw [h2] at h'
        cases h'
  valid := by intro r; simp [net]

set_option maxRecDepth 100000 in
/-- **C118 is false as stated**: the agent is with peer 1, which has announced it and answers for it, and the
look-up of peer 2 gives the record of peer 0, which names the peer `xx` that the agent has left. -/
theorem _root_.Verif.Moved.C118_counterexample :
    Describes E.por peers (b! "ag") net ∧ (peers 1).peer.tcpAddresses.get (b! "ag") = some 0 ∧
      net.reaches 2 1 = true ∧ 1 ∈ net.providers 2 ∧
      LookupChain.run (fun _ => net) (LookupChain.start 2) 3 = ⟨[], .answer (some (rec (b! "xx")))⟩ :=
  ⟨describes, by decide, by decide, by decide, by decide⟩

set_option maxRecDepth 100000 in
/-- A delegate that leaves is forgotten, and the look-up that comes to its old peer is passed on. -/
example : Forgot ((peers 1).step E1 (.delegateEnd 0)).peer (b! "ag") :=
  C118_delegate_leaves (E := E1) (s := peers 1) (c := 0) (r := rec (b! "p1")) (by decide) (by decide) (by decide)
    (by
      intro m hm
      have : ((peers 1).peer.mailbox.bind fun m => m.envelopes.get (b! "ag")) = none := by decide
      rw [hm] at this
      exact this)

end Demo

end Moved

end Verif
