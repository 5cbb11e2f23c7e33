import Verif.Props.PeerTables
import Verif.Props.Exchange

/-!
# C103: taking the place of another agent at a peer

Specification: somebody, the stranger, uses a peer beside others. It has records (`known`), keys of agents of its own
(`own`) and keys of peers of its own (`mine`). Signatures cannot be forged, so a valid record for this peer that it
shows is either for an agent of its own, or it knows a record with which that agent has named this peer (`CanShow`).
Whose a connection, a session or a stream is, is written down when it begins.
-/

namespace Verif

open Tables Acn

/-! ## Specification -/

/-- A peer, the records the stranger has, its delegate connections and its sessions at the mailbox. -/
structure Scene where
  tables : Tables
  known : List AgentRecord
  conns : List Nat
  sessions : List Bytes

/-- The stranger has a record with which the agent `a` names the holder of the key `k`. -/
def Scene.Knows (S : Scene) (a k : Bytes) : Prop := ∃ r ∈ S.known, r.address = a ∧ r.peerPublicKey = k

/-- A record the stranger can show: if it is valid for this peer, it is for an agent of its own or made with a record
it knows. -/
def Scene.CanShow (E : PeerEnv) (own : Bytes → Prop) (S : Scene) (r : AgentRecord) : Prop :=
  E.por r r.address E.myKey = .ok .success → own r.address ∨ S.Knows r.address E.myKey

/-- A step that is not the beginning of a connection, a session or a stream of the stranger. -/
def Scene.Foreign (mine : Remote → Prop) (S : Scene) : Tables.Step → Prop
  | .delegate c _ => c ∉ S.conns
  | .relay _ rem _ => ∀ rem', mine rem' → rem.id ≠ rem'.id
  | .mailbox (.register _ uuid _) => uuid ∉ S.sessions
  | _ => True

/-- What can happen. -/
inductive Strange (E : PeerEnv) (own : Bytes → Prop) (mine : Remote → Prop) : Scene → Prop
  /-- a new peer -/
  | first {o : Option AgentRecord} {hasAgent mailbox : Bool} {s : Tables}
      (h : start E o hasAgent mailbox [] [] = some s) : Strange E own mine ⟨s, [], [], []⟩
  /-- a step of the peer, of others, or of the stranger on what it has begun -/
  | other {S : Scene} (st : Tables.Step) (h : Strange E own mine S) (hs : Sensible E st)
      (hf : S.Foreign mine st) : Strange E own mine { S with tables := S.tables.step E st }
  /-- the stranger gets a record -/
  | got {S : Scene} (r : AgentRecord) (h : Strange E own mine S) : Strange E own mine { S with known := r :: S.known }
  /-- the stranger connects to the delegate service -/
  | connect {S : Scene} (c : Nat) (p : Pipe) (h : Strange E own mine S) (hc : S.tables.conns c = .fresh)
      (hp : ∀ b r, some b ∈ p.reads → AcnMessage.decode b = some (some (.register (some r))) → S.CanShow E own r) :
      Strange E own mine { S with tables := S.tables.step E (.delegate c p), conns := c :: S.conns }
  /-- the stranger registers at the mailbox -/
  | post {S : Scene} (req : HttpReq) (uuid : Bytes) (announce : Bool) (h : Strange E own mine S)
      (hu : ∀ m, S.tables.peer.mailbox = some m → m.sessions.get uuid = none)
      (hp : ∀ b r, req.body = some b → AgentRecord.decode b = some r → S.CanShow E own r) :
      Strange E own mine { S with
        tables := S.tables.step E (.mailbox (.register req uuid announce)), sessions := uuid :: S.sessions }
  /-- the stranger registers over a stream -/
  | stream {S : Scene} (k : Nat) (rem : Remote) (p : Pipe) (h : Strange E own mine S) (hm : mine rem)
      (hs : Sensible E (.relay k rem p)) :
      Strange E own mine { S with tables := S.tables.step E (.relay k rem p) }
  /-- the peer is stopped and started again -/
  | restart {S : Scene} {s' : Tables} {o : Option AgentRecord} {hasAgent mailbox : Bool} (h : Strange E own mine S)
      (h' : start E o hasAgent mailbox S.tables.file S.tables.saved = some s') :
      Strange E own mine ⟨s', S.known, [], []⟩

/-! ## Connections and sessions -/

theorem Strange.reachable {E : PeerEnv} {own : Bytes → Prop} {mine : Remote → Prop} {S : Scene}
    (h : Strange E own mine S) : Reachable E (Sensible E) S.tables := by
  induction h with
  | first h => exact .first h
  | other st _ hs _ ih => exact .step st ih hs
  | got r _ ih => exact ih
  | connect c p _ _ _ ih => exact .step (.delegate c p) ih trivial
  | post req uuid announce _ _ _ ih => exact .step (.mailbox (.register req uuid announce)) ih trivial
  | stream k rem p _ _ hs ih => exact .step (.relay k rem p) ih hs
  | restart _ h' ih => exact .restart ih h'

theorem Scene.Knows.more {S : Scene} {a k : Bytes} (h : S.Knows a k) (r : AgentRecord) :
    ∃ r' ∈ r :: S.known, r'.address = a ∧ r'.peerPublicKey = k := by
  obtain ⟨r', hr', h'⟩ := h
  exact ⟨r', List.mem_cons_of_mem _ hr', h'⟩

/-- The records of the stranger's connections are its own or known to it. -/
def Scene.ConnInv (E : PeerEnv) (own : Bytes → Prop) (S : Scene) : Prop :=
  ∀ c ∈ S.conns, ∀ r, connRecord (S.tables.conns c) = some r → own r.address ∨ S.Knows r.address E.myKey

theorem Strange.connInv {E : PeerEnv} {own : Bytes → Prop} {mine : Remote → Prop} {S : Scene}
    (h : Strange E own mine S) : S.ConnInv E own := by
  induction h with
  | first h => intro c hc; simp at hc
  | @other S st _ hs hf ih =>
    intro c hc r hr
    rcases C57_delegate_record E S.tables st c r hr with h1 | ⟨p, b, rfl, -⟩
    · exact ih c hc r h1
    · exact absurd hc hf
  | got r _ ih =>
    intro c hc r' hr
    rcases ih c hc r' hr with h1 | h1
    · exact .inl h1
    · exact .inr (h1.more r)
  | @connect S c p _ hf hp ih =>
    intro c' hc r hr
    rcases C57_delegate_record E S.tables _ c' r hr with h1 | ⟨p', b, he, -, hb, hd, hv⟩
    · rcases List.mem_cons.1 hc with rfl | hc
      · rw [hf] at h1; simp [connRecord] at h1
      · exact ih c' hc r h1
    · cases he
      exact hp b r hb hd hv
  | @post S req uuid announce _ hu hp ih =>
    intro c hc r hr
    exact ih c hc r hr
  | @stream S k rem p _ hm hs ih =>
    intro c hc r hr
    rcases C57_delegate_record E S.tables _ c r hr with h1 | ⟨p', b, he, -⟩
    · exact ih c hc r h1
    · cases he
  | restart _ h' ih => intro c hc; simp at hc

/-- A session is there because it was there, or because it was registered with a valid record. -/
theorem session_step (por : PoRCheck) (key : Bytes) (m : Mailbox) (st : Mailbox.Step) {id a : Bytes}
    (h : (m.step por key st).1.sessions.get id = some a) :
    m.sessions.get id = some a ∨
    ∃ req announce b r, st = .register req id announce ∧ req.body = some b ∧ AgentRecord.decode b = some r ∧
      r.address = a ∧ por r r.address key = .ok .success := by
  cases st with
  | register req uuid announce =>
    simp only [Mailbox.step, Mailbox.register] at h
    split at h
    · exact .inl h
    · split at h
      · exact .inl h
      · exact .inl h
      · next body hb =>
        split at h
        · exact .inl h
        · next r hr =>
          split at h
          · exact .inl h
          · exact .inl h
          · next hp =>
            split at h
            · dsimp only at h
              rw [GoMap.get_set] at h
              split at h
              · next he =>
                subst he
                exact .inr ⟨req, announce, _, r, rfl, by assumption, hr, Option.some.inj h, hp⟩
              · exact .inl h
            · exact .inl h
          · exact .inl h
  | unregisterBegin req =>
    left
    simp only [Mailbox.step, Mailbox.unregisterBegin] at h
    split at h
    · exact h
    · split at h
      · exact h
      · split at h <;> exact h
  | unregisterEnd i =>
    left
    simp only [Mailbox.step, Mailbox.unregisterEnd] at h
    split at h
    · exact h
    · dsimp only at h
      rw [GoMap.get_erase] at h
      split at h
      · simp at h
      · exact h
  | send req => exact .inl h
  | get req written =>
    left
    simp only [Mailbox.step, Mailbox.getEnvelope] at h
    split at h
    · exact h
    · split at h
      · exact h
      · split at h
        · exact h
        · split at h
          · exact h
          · split at h <;> exact h
  | route e =>
    left
    simp only [Mailbox.step, Mailbox.route] at h
    split at h
    · exact h
    · split at h <;> exact h

theorem route_sessions (e : Envelope) (m : Mailbox) : (m.route e).1.sessions = m.sessions := by
  unfold Mailbox.route
  split
  · rfl
  · split <;> rfl

/-- The same for a step of the peer. -/
theorem session_step_tables (E : PeerEnv) (s : Tables) (st : Tables.Step) {m : Mailbox} {id a : Bytes}
    (hm : (s.step E st).peer.mailbox = some m) (h : m.sessions.get id = some a) :
    (∃ m0, s.peer.mailbox = some m0 ∧ m0.sessions.get id = some a) ∨
    ∃ req announce b r, st = .mailbox (.register req id announce) ∧ req.body = some b ∧
      AgentRecord.decode b = some r ∧ r.address = a ∧ E.por r r.address E.myKey = .ok .success := by
  have same : (s.step E st).peer.mailbox = s.peer.mailbox →
      ∃ m0, s.peer.mailbox = some m0 ∧ m0.sessions.get id = some a := fun hs => ⟨m, hs ▸ hm, h⟩
  cases st with
  | delegate c p =>
    left; apply same; simp only [Tables.step]; split <;> rfl
  | delegateRecord c =>
    left; apply same; simp only [Tables.step]; split <;> rfl
  | delegateConn c =>
    left; apply same; simp only [Tables.step]; split <;> rfl
  | delegateFail c =>
    left; apply same; simp only [Tables.step]; split <;> rfl
  | delegateEnd c =>
    left; apply same; simp only [Tables.step]; split <;> rfl
  | relay k rem p =>
    left; apply same; simp only [Tables.step]; split <;> rfl
  | relayRecord k =>
    left; apply same; simp only [Tables.step]; split <;> rfl
  | relayPeer k written =>
    left; apply same; simp only [Tables.step]
    split
    · split <;> rfl
    · rfl
  | mailbox st =>
    simp only [Tables.step] at hm
    obtain ⟨m0, h0, rfl⟩ := Option.map_eq_some_iff.1 hm
    rcases session_step E.por E.myKey m0 st h with h1 | ⟨req, announce, b, r, rfl, h1⟩
    · exact .inl ⟨m0, h0, h1⟩
    · exact .inr ⟨req, announce, b, r, rfl, h1⟩
  | route n e =>
    left
    obtain ⟨mb, h1, h2⟩ := routeEnvelope_tables s.peer n e
    simp only [Tables.step, h1] at hm
    obtain ⟨m0, h0, rfl | rfl⟩ := h2 m hm
    · exact ⟨_, h0, h⟩
    · exact ⟨_, h0, by rwa [route_sessions] at h⟩
  | handle n e =>
    left
    obtain ⟨mb, h1, h2⟩ := handleAeaEnvelope_tables s.peer n e
    simp only [Tables.step, h1] at hm
    obtain ⟨m0, h0, rfl | rfl⟩ := h2 m hm
    · exact ⟨_, h0, h⟩
    · exact ⟨_, h0, by rwa [route_sessions] at h⟩

/-- The addresses of the stranger's sessions are its own or known to it. -/
def Scene.SessionInv (E : PeerEnv) (own : Bytes → Prop) (S : Scene) : Prop :=
  ∀ id ∈ S.sessions, ∀ m a, S.tables.peer.mailbox = some m → m.sessions.get id = some a →
    own a ∨ S.Knows a E.myKey

theorem Strange.sessionInv {E : PeerEnv} {own : Bytes → Prop} {mine : Remote → Prop} {S : Scene}
    (h : Strange E own mine S) : S.SessionInv E own := by
  induction h with
  | first h => intro id hid; simp at hid
  | @other S st _ hs hf ih =>
    intro id hid m a hm ha
    rcases session_step_tables E S.tables st hm ha with ⟨m0, h0, h1⟩ | ⟨req, announce, b, r, rfl, -⟩
    · exact ih id hid m0 a h0 h1
    · exact absurd hid hf
  | got r _ ih =>
    intro id hid m a hm ha
    rcases ih id hid m a hm ha with h1 | h1
    · exact .inl h1
    · exact .inr (h1.more r)
  | @connect S c p _ hf hp ih =>
    intro id hid m a hm ha
    rcases session_step_tables E S.tables _ hm ha with ⟨m0, h0, h1⟩ | ⟨req, announce, b, r, he, -⟩
    · exact ih id hid m0 a h0 h1
    · cases he
  | @post S req uuid announce _ hu hp ih =>
    intro id hid m a hm ha
    rcases session_step_tables E S.tables _ hm ha with ⟨m0, h0, h1⟩ | ⟨req', announce', b, r, he, hb, hd, rfl, hv⟩
    · rcases List.mem_cons.1 hid with rfl | hid
      · rw [hu m0 h0] at h1; simp at h1
      · exact ih id hid m0 a h0 h1
    · cases he
      exact hp b r hb hd hv
  | @stream S k rem p _ hm' hs ih =>
    intro id hid m a hm ha
    rcases session_step_tables E S.tables _ hm ha with ⟨m0, h0, h1⟩ | ⟨req, announce, b, r, he, -⟩
    · exact ih id hid m0 a h0 h1
    · cases he
  | restart _ h' ih => intro id hid; simp at hid

/-- **C103, partial.** As long as the stranger has no record with which an agent names this peer, envelopes to the
agent are not written to one of its connections, and none of its sessions at the mailbox is the agent's. Missing: a
stranger that has such a record, `C103_counterexample`. -/
theorem C103_place_partial {E : PeerEnv} (hl : LawfulPoR E.por) {own : Bytes → Prop} {mine : Remote → Prop}
    {S : Scene} (h : Strange E own mine S) {a : Bytes} (ho : ¬ own a) (hk : ¬ S.Knows a E.myKey) :
    (∀ c, S.tables.peer.tcpAddresses.get a = some c → c ∉ S.conns) ∧
    (∀ m id, S.tables.peer.mailbox = some m → m.sessions.get id = some a → id ∉ S.sessions) := by
  have hi := h.reachable.inv hl (fun _ h => h)
  constructor
  · intro c hc hm
    obtain ⟨r, h1, rfl⟩ := hi.tcp a c hc
    have h2 : connRecord (S.tables.conns c) = some r := by
      cases hx : S.tables.conns c <;> rw [hx] at h1 <;> simp_all [connListed, connRecord]
    rcases h.connInv c hm r h2 with h3 | h3
    · exact ho h3
    · exact hk h3
  · intro m id hm hs hid
    rcases h.sessionInv id hid m a hm hs with h3 | h3
    · exact ho h3
    · exact hk h3

/-! ## Streams -/

/-- Who a relay client's envelopes go to. -/
structure Scene.RelayInv (E : PeerEnv) (mine : Remote → Prop) (S : Scene) : Prop where
  relay : ∀ k r rem, relayRecord (S.tables.relays k) = some (r, rem) →
    (mine rem ∨ ∀ rem', mine rem' → rem.id ≠ rem'.id)
  dht : ∀ a rem', mine rem' → S.tables.peer.dhtAddresses.get a = some rem'.id →
    ∃ r rem, mine rem ∧ E.por r a rem.key = .ok .success

theorem relay_step (E : PeerEnv) (s : Tables) (st : Tables.Step) {k : Nat} {r : AgentRecord} {rem : Remote}
    (h : relayRecord ((s.step E st).relays k) = some (r, rem)) :
    relayRecord (s.relays k) = some (r, rem) ∨ ∃ p, st = .relay k rem p := by
  cases st with
  | relay k' rem' p =>
    simp only [Tables.step] at h
    split at h
    · dsimp only [setRelay] at h
      split at h
      · next he =>
        simp only [relayRecord, Option.some.injEq, Prod.mk.injEq] at h
        obtain ⟨rfl, rfl⟩ := h
        subst he
        exact .inr ⟨p, rfl⟩
      · exact .inl h
    · exact .inl h
  | relayRecord k' =>
    left
    simp only [Tables.step] at h
    split at h
    · next r' rem' hr =>
      dsimp only [setRelay] at h
      split at h
      · next he =>
        subst he
        rw [hr]
        exact h
      · exact h
    · exact h
  | relayPeer k' written =>
    left
    simp only [Tables.step] at h
    split at h
    · next r' rem' hr =>
      have key : relayRecord (s.setRelay k' .done k) = some (r, rem) := by
        split at h <;> exact h
      dsimp only [setRelay] at key
      split at key
      · simp [Tables.relayRecord] at key
      · exact key
    · exact h
  | delegate c p => left; simp only [Tables.step] at h; split at h <;> exact h
  | delegateRecord c => left; simp only [Tables.step] at h; split at h <;> exact h
  | delegateConn c => left; simp only [Tables.step] at h; split at h <;> exact h
  | delegateFail c => left; simp only [Tables.step] at h; split at h <;> exact h
  | delegateEnd c => left; simp only [Tables.step] at h; split at h <;> exact h
  | mailbox st => exact .inl h
  | route n e => exact .inl h
  | handle n e => exact .inl h

theorem dht_step (E : PeerEnv) (s : Tables) (st : Tables.Step) {a id : Bytes}
    (h : (s.step E st).peer.dhtAddresses.get a = some id) :
    s.peer.dhtAddresses.get a = some id ∨
    ∃ k r rem, relayRecord (s.relays k) = some (r, rem) ∧ r.address = a ∧ rem.id = id := by
  cases st with
  | relayPeer k' written =>
    simp only [Tables.step] at h
    split at h
    · next r' rem' hr =>
      have key : (s.peer.dhtAddresses.set r'.address rem'.id).get a = some id := by
        split at h <;> exact h
      rw [GoMap.get_set] at key
      split at key
      · next he => exact .inr ⟨k', r', rem', by rw [hr]; rfl, he.symm, Option.some.inj key⟩
      · exact .inl key
    · exact .inl h
  | relay k' rem' p => left; simp only [Tables.step] at h; split at h <;> exact h
  | relayRecord k' => left; simp only [Tables.step] at h; split at h <;> exact h
  | delegate c p => left; simp only [Tables.step] at h; split at h <;> exact h
  | delegateRecord c => left; simp only [Tables.step] at h; split at h <;> exact h
  | delegateConn c => left; simp only [Tables.step] at h; split at h <;> exact h
  | delegateFail c => left; simp only [Tables.step] at h; split at h <;> exact h
  | delegateEnd c => left; simp only [Tables.step] at h; split at h <;> exact h
  | mailbox st => exact .inl h
  | route n e =>
    left
    obtain ⟨mb, h1, -⟩ := routeEnvelope_tables s.peer n e
    simp only [Tables.step, h1] at h
    exact h
  | handle n e =>
    left
    obtain ⟨mb, h1, -⟩ := handleAeaEnvelope_tables s.peer n e
    simp only [Tables.step, h1] at h
    exact h

theorem Scene.RelayInv.step {E : PeerEnv} (hl : LawfulPoR E.por) {mine : Remote → Prop} {S : Scene}
    (hr : Reachable E (Sensible E) S.tables) (h : S.RelayInv E mine) (st : Tables.Step)
    (hst : ∀ k rem p, st = .relay k rem p → mine rem ∨ ∀ rem', mine rem' → rem.id ≠ rem'.id) {S' : Scene}
    (he : S'.tables = S.tables.step E st) : S'.RelayInv E mine := by
  have hi := hr.inv hl (fun _ h => h)
  constructor
  · intro k r rem h1
    rw [he] at h1
    rcases relay_step E S.tables st h1 with h2 | ⟨p, rfl⟩
    · exact h.relay k r rem h2
    · exact hst k rem p rfl
  · intro a rem' hm h1
    rw [he] at h1
    rcases dht_step E S.tables st h1 with h2 | ⟨k, r, rem, h2, rfl, h3⟩
    · exact h.dht a rem' hm h2
    · rcases h.relay k r rem h2 with h4 | h4
      · exact ⟨r, rem, h4, (hi.relay k r rem h2).1⟩
      · exact absurd h3 (h4 rem' hm)

theorem Scene.RelayInv.start {E : PeerEnv} {mine : Remote → Prop}
    (hid : ∀ rem k, mine rem → E.peerId k = some rem.id → k = rem.key) {o : Option AgentRecord} {ha mb : Bool}
    {rs : List AgentRecord} (hs : ∀ r ∈ rs, Vouches E.por r r.address r.peerPublicKey ∧ Sound r) {s : Tables}
    (h : start E o ha mb (fileOf rs) rs = some s) (S : Scene) (hS : S.tables = s) : S.RelayInv E mine := by
  subst hS
  obtain ⟨-, -, -, -, hrel, -, hdht, -⟩ := start_some (fun r hr => (hs r hr).2) h
  constructor
  · intro k r rem h'
    rw [hrel] at h'; simp [relayRecord] at h'
  · intro a rem' hm h'
    rw [hdht] at h'
    obtain ⟨r, h1, h2⟩ := Option.bind_eq_some_iff.1 h'
    obtain ⟨h3, h4⟩ := lastRecord_mem h1
    have hk := hid rem' _ hm h2
    obtain ⟨-, -, hp⟩ := (hs r h3).1
    exact ⟨r, rem', hm, by rw [← hk, ← h4]; exact hp⟩

theorem Strange.relayInv {E : PeerEnv} (hl : LawfulPoR E.por) {own : Bytes → Prop} {mine : Remote → Prop}
    (hid : ∀ rem k, mine rem → E.peerId k = some rem.id → k = rem.key) {S : Scene}
    (h : Strange E own mine S) : S.RelayInv E mine := by
  induction h with
  | first h => exact Scene.RelayInv.start hid (rs := []) (by simp) h _ rfl
  | @other S st h hs hf ih =>
    refine ih.step hl h.reachable st ?_ rfl
    rintro k rem p rfl
    exact .inr hf
  | @got S r h ih => exact ⟨ih.relay, ih.dht⟩
  | @connect S c p h hf hp ih => exact ih.step hl h.reachable (.delegate c p) (fun k rem p he => by cases he) rfl
  | @post S req uuid announce h hu hp ih =>
    exact ih.step hl h.reachable (.mailbox (.register req uuid announce)) (fun k rem p he => by cases he) rfl
  | @stream S k rem p h hm hs ih =>
    refine ih.step hl h.reachable (.relay k rem p) ?_ rfl
    intro k' rem' p' he
    cases he
    exact .inl hm
  | @restart S s' o ha mb h h' ih =>
    have hi := h.reachable.inv hl (fun _ h => h)
    rw [hi.file] at h'
    exact Scene.RelayInv.start hid hi.saved h' _ rfl

/-- **C103, relay clients.** The place of an agent that has named none of the stranger's peers cannot be taken over a
stream, whatever records the stranger has: the peer gives no envelope for the agent to one of the stranger's peers. -/
theorem C103_relay {E : PeerEnv} (hl : LawfulPoR E.por) {own : Bytes → Prop} {mine : Remote → Prop}
    (hid : ∀ rem k, mine rem → E.peerId k = some rem.id → k = rem.key) {S : Scene} (h : Strange E own mine S)
    {a : Bytes} (ha : ∀ r rem, mine rem → E.por r a rem.key ≠ .ok .success) :
    ∀ rem, mine rem → S.tables.peer.dhtAddresses.get a ≠ some rem.id := by
  intro rem hm h1
  obtain ⟨r, rem', hm', hp⟩ := (h.relayInv hl hid).dht a rem hm h1
  exact ha r rem' hm' hp

/-! ## A record is handed out, and is all that is needed -/

/-- **C103.** A peer hands out, to everybody who asks for its own agent, for a delegate client or for a client of its
mailbox, a record with which the agent names this peer. The agent has not registered through a relay. -/
theorem C103_handed_out {E : PeerEnv} (hl : LawfulPoR E.por) {a : Bytes} (hne : a ≠ []) {s : Tables}
    (h : Reachable E (fun st => Sensible E st ∧ NotRelayed E a st) s) (n : Net)
    (hr : a = s.peer.myAgent ∨ (s.peer.tcpAddresses.get a).isSome ∨
      ∃ m, s.peer.mailbox = some m ∧ (m.envelopes.get a).isSome) :
    ∃ r, handleAddressRequest s.peer n true a = .found [] (some r) ∧ Vouches E.por r a E.myKey := by
  have hi := h.inv hl (fun _ h => h.1)
  have hd := h.direct hl
  have hrec : ∀ r, s.peer.agentRecords.get a = some r → Vouches E.por r a E.myKey := by
    intro r hr
    have h1 := hi.records a r hr
    rwa [hd.record r hr] at h1
  rw [handleAddressRequest_eq]
  by_cases hm : a = s.peer.myAgent
  · rw [if_pos hm, if_pos rfl]
    cases ho : s.peer.myRecord with
    | none => exact absurd (hm.trans (hi.noOwn ho)) hne
    | some r => exact ⟨r, rfl, hm ▸ hi.own r ho⟩
  · rw [if_neg hm]
    split
    · next hx =>
      obtain ⟨r, hg⟩ := Option.isSome_iff_exists.1 (hi.dhtHas a hx)
      rw [hg]
      exact ⟨r, rfl, hrec r hg⟩
    · split
      · next hb =>
        obtain ⟨m, hmb, hb⟩ := PeerState.inMailbox_iff.1 hb
        have hsome : (m.records.get a).isSome := by rw [(hi.mail m hmb).both]; exact hb
        obtain ⟨r, hg⟩ := Option.isSome_iff_exists.1 hsome
        rw [hmb, Option.bind_some, Mailbox.getRecord, if_pos hb, hg]
        obtain ⟨h1, h2⟩ := (hi.mail m hmb).records a r hg
        exact ⟨r, rfl, hl.vouches h2⟩
      · next hb =>
        have ht : (s.peer.tcpAddresses.get a).isSome := by
          rcases hr with hr | hr | hr
          · exact absurd hr hm
          · exact hr
          · exact absurd (PeerState.inMailbox_iff.2 hr) hb
        rw [if_pos ht, if_pos rfl]
        obtain ⟨r, hg⟩ := Option.isSome_iff_exists.1 (hi.tcpHas a ht)
        rw [hg]
        exact ⟨r, rfl, hrec r hg⟩

theorem acceptRegistration_valid {E : PeerEnv} {b : Bytes} {r : AgentRecord}
    (hd : AcnMessage.decode b = some (some (.register (some r))))
    (hp : E.por r r.address E.myKey = .ok .success) (rest : List (Option Bytes)) (ws : List Bool) :
    (acceptRegistration E.T E.por E.porText E.myKey ⟨some b :: rest, true :: ws, []⟩).1 = .ok r := by
  rcases acceptRegistration_sent (T := E.T) (txt := E.porText) (key := E.myKey) (por := E.por)
    (pb := ⟨some b :: rest, true :: ws, []⟩) (rest := rest) rfl hd with ⟨h1, -⟩ | ⟨⟨e, h1⟩, -⟩ | ⟨-, -, h1 | ⟨h1, -⟩⟩ | ⟨code, h1, h2, -⟩
  · rw [hp] at h1; cases h1
  · rw [hp] at h1; cases h1
  · exact h1
  · simp at h1
  · rw [hp] at h2; cases h2; exact absurd rfl h1

/-- **C103 is false.** Whoever has got such a record, in an answer to a look-up, can take the agent's place at this
peer: a new connection that registers with it is entered in place of the agent's, whatever the state of the peer. From
then on the peer gives it what other peers send to the agent, even if the agent is the peer's own. -/
theorem C103_counterexample (E : PeerEnv) {ans : Bytes} {r : AgentRecord}
    (hans : AcnMessage.decode ans = some (some (.lookupResponse (some r))))
    (hp : E.por r r.address E.myKey = .ok .success) (s : Tables) (c : Nat) (hc : s.conns c = .fresh)
    (hlen : ∀ b, AcnMessage.encode (some (.register (some r))) = some b → b.length < 2 ^ 64) :
    ∃ b, AcnMessage.decode b = some (some (.register (some r))) ∧
      (∀ rest ws, let s' := s.run E [.delegate c ⟨some b :: rest, true :: ws, []⟩, .delegateRecord c, .delegateConn c]
        s'.peer.tcpAddresses.get r.address = some c ∧
        ∀ (n : Net) (e : Envelope) (data : Bytes), e.to = r.address → (mailboxRoute s.peer e).2 = false →
          makeAcnMessage e = some data → (handleAeaEnvelope s'.peer n e).2.1 = [.conn c data]) := by
  have hu : r.utf8 = true := by
    obtain ⟨b', he, -⟩ := C56_contained_record_passed_on hans (.inr (.inl rfl))
    unfold AgentRecord.encode at he
    split at he
    · assumption
    · simp at he
  obtain ⟨b, hb⟩ : ∃ b, AcnMessage.encode (some (.register (some r))) = some b :=
    ⟨_, if_pos (by simpa [AcnMessage.utf8, Performative.utf8] using hu)⟩
  have hd : AcnMessage.decode b = some (some (.register (some r))) := C18_acn_round_trip hb (AcnMessage.codeFits rfl) (hlen b hb)
  refine ⟨b, hd, ?_⟩
  intro rest ws
  have hacc := acceptRegistration_valid hd hp rest ws
  have e1 : s.step E (.delegate c ⟨some b :: rest, true :: ws, []⟩) = { s with conns := s.setConn c (.accepted r) } := by
    simp only [Tables.step, hc, hacc]
  have hrun : (s.run E [.delegate c ⟨some b :: rest, true :: ws, []⟩, .delegateRecord c, .delegateConn c]).peer =
      { s.peer with
        agentRecords := s.peer.agentRecords.set r.address r
        tcpAddresses := s.peer.tcpAddresses.set r.address c } := by
    simp only [Tables.run, List.foldl_cons, List.foldl_nil, e1]
    simp [Tables.step, setConn]
  dsimp only
  rw [hrun]
  refine ⟨by simp, ?_⟩
  intro n e data hto hmb hdata
  have hmr : ∀ (p : PeerState) (ar : GoMap Bytes AgentRecord) (tc : GoMap Bytes Nat),
      mailboxRoute { p with agentRecords := ar, tcpAddresses := tc } e =
        ({ (mailboxRoute p e).1 with agentRecords := ar, tcpAddresses := tc }, (mailboxRoute p e).2) := by
    intro p ar tc
    unfold mailboxRoute
    cases p with
    | mk _ _ _ mb _ _ _ _ => cases mb <;> rfl
  unfold handleAeaEnvelope
  rw [hmr, hmb]
  simp [hto, hdata]

/-- **C103 is false**, by the mailbox: with such a record a session for the agent is opened, whatever the state of the
peer. From then on the peer puts what is sent to the agent into a new list, which is read with that session; the list
is used before the agent's connections and before the own agent. -/
theorem C103_mailbox_counterexample (E : PeerEnv) {b : Bytes} {r : AgentRecord}
    (hd : AgentRecord.decode b = some r) (hb : b ≠ []) (hp : E.por r r.address E.myKey = .ok .success) (s : Tables)
    {m : Mailbox} (hm : s.peer.mailbox = some m) (uuid : Bytes) :
    let s' := s.step E (.mailbox (.register ⟨b! "POST", none, some b⟩ uuid true))
    ∃ m', s'.peer.mailbox = some m' ∧ m'.sessions.get uuid = some r.address ∧
      ∀ (n : Net) (e : Envelope) (x : Bytes), e.to = r.address → e.encode = some x →
        (handleAeaEnvelope s'.peer n e).2 = ([.mailbox e], .ok ()) ∧
        ∃ m'', (handleAeaEnvelope s'.peer n e).1.mailbox = some m'' ∧
          (m''.getEnvelope ⟨b! "GET", some uuid, none⟩ true).2 = .envelope x := by
  obtain ⟨c, cs, rfl⟩ : ∃ c cs, b = c :: cs := by
    cases b with
    | nil => exact absurd rfl hb
    | cons c cs => exact ⟨c, cs, rfl⟩
  have hreg : m.register E.por E.myKey ⟨b! "POST", none, some (c :: cs)⟩ uuid true =
      ({ m with
          records := m.records.set r.address r
          sessions := m.sessions.set uuid r.address
          envelopes := m.envelopes.set r.address [] }, .session uuid) := by
    simp only [Mailbox.register, ne_eq, not_true_eq_false, if_false, hd, hp, if_true]
  intro s'
  have hs' : s'.peer = { s.peer with mailbox := some { m with
          records := m.records.set r.address r
          sessions := m.sessions.set uuid r.address
          envelopes := m.envelopes.set r.address [] } } := by
    simp only [s', Tables.step, hm, Option.map_some, Mailbox.step, hreg]
  refine ⟨_, by rw [hs'], by simp, ?_⟩
  intro n e x hto hx
  have hroute : mailboxRoute s'.peer e = ({ s.peer with mailbox := some { m with
          records := m.records.set r.address r
          sessions := m.sessions.set uuid r.address
          envelopes := (m.envelopes.set r.address []).set r.address [e] } }, true) := by
    rw [hs']
    simp [mailboxRoute, Mailbox.route, hto, Mailbox.limit]
  unfold handleAeaEnvelope
  rw [hroute]
  refine ⟨rfl, _, rfl, ?_⟩
  simp [Mailbox.getEnvelope, Mailbox.sessionAddr, hx]

/-! ## A case -/

namespace StrangerDemo

open TablesDemo

/-- `ag` is a delegate of the peer, over the connection 0; the stranger has no keys at all. -/
def before : Scene := ⟨run E init [.delegate 0 (reg (b! "pk")), .delegateRecord 0, .delegateConn 0], [], [], []⟩

theorem before_strange : Strange E (fun _ => False) (fun _ => False) before := by
  have h0 : Strange E (fun _ => False) (fun _ => False) ⟨init, [], [], []⟩ :=
    .first (o := none) (hasAgent := false) (mailbox := true) (by simp [start, ownOk, loadRecords, loadAux, init])
  have h1 := h0.other (.delegate 0 (reg (b! "pk"))) trivial (by simp [Scene.Foreign])
  have h2 := h1.other (.delegateRecord 0) trivial trivial
  exact h2.other (.delegateConn 0) trivial trivial

/-- It has got the record of `ag` and shows it on the connection 1. -/
def after : Scene := ⟨before.tables.run E [.delegate 1 (reg (b! "pk")), .delegateRecord 1, .delegateConn 1],
  [rec (b! "pk")], [1], []⟩

set_option maxRecDepth 100000 in
theorem after_strange : Strange E (fun _ => False) (fun _ => False) after := by
  have h1 := (before_strange.got (rec (b! "pk"))).connect 1 (reg (b! "pk")) (by
    simp [before, run, init, Tables.step, reg]
    decide +kernel) (by
    intro b r hb hd _
    have he : (reg (b! "pk")).reads =
      [some ((AcnMessage.encode (some (.register (some (rec (b! "pk")))))).getD [])] := by decide
    have hd' : AcnMessage.decode ((AcnMessage.encode (some (.register (some (rec (b! "pk")))))).getD []) =
      some (some (.register (some (rec (b! "pk"))))) := by decide +kernel
    rw [he, List.mem_singleton] at hb
    rw [Option.some.inj hb, hd'] at hd
    simp only [Option.some.injEq, Performative.register.injEq] at hd
    subst hd
    exact .inr ⟨_, List.mem_cons_self, rfl, rfl⟩)
  have h2 := h1.other (.delegateRecord 1) trivial trivial
  exact h2.other (.delegateConn 1) trivial trivial

set_option maxRecDepth 100000 in
/-- Before, the envelopes of `ag` go to its connection; afterwards they go to the stranger's, and a look-up was all it
needed. -/
example : before.tables.peer.tcpAddresses.get (b! "ag") = some 0 ∧
    handleAddressRequest before.tables.peer RouteDemo.net true (b! "ag") =
      .found [] (some (rec (b! "pk"))) ∧
    after.tables.peer.tcpAddresses.get (b! "ag") = some 1 ∧ 1 ∈ after.conns := by
  decide +kernel

end StrangerDemo

end Verif
