import Verif.Props.PeerTables
import Verif.Props.DhtClient

/-!
# C120: whom an envelope is shown to
-/

namespace Verif

open Acn Tables

namespace Disclosed

/-- The surroundings of a call belong to the peer: they check records in the same way, compute the same peer
ids from keys, and there is no peer with an empty id. -/
structure Fits (E : PeerEnv) (n : Net) : Prop where
  por : n.por = E.por
  ids : ∀ k, n.idFrom k = (E.peerId k).bind n.peerDecode
  empty : n.stream [] = none

/-- The agent with address `a` vouched for the place where an action puts an envelope: it is the agent of
this peer; it has a list in the mailbox, or the connection was registered, with a record of it for this peer; or
there is a record of it for the key of the peer that is sent to. -/
def Vouched (E : PeerEnv) (n : Net) (s : Tables) (a : Bytes) : Act → Prop
  | .agent _ => a = s.peer.myAgent ∧ ∀ r, s.peer.myRecord = some r → Vouches E.por r a E.myKey
  | .mailbox _ => ∃ r, Vouches E.por r a E.myKey
  | .conn c _ => ∃ r, (s.conns c = .listed r ∨ s.conns c = .stale r) ∧ Vouches E.por r a E.myKey
  | .stream peer _ => ∃ r, Vouches E.por r a r.peerPublicKey ∧ ∀ p, n.idFrom r.peerPublicKey = some p → peer = p
  | .inc | .dec | .slow _ => True

theorem mem_newStream {n : Net} {peer : Bytes} {rec : Option AgentRecord} {e : Envelope} {q d : Bytes}
    (h : .stream q d ∈ (routeWithNewStream n peer rec e).1) : q = peer ∧ n.stream peer ≠ none := by
  obtain ⟨del, hdel, hiff, hcases⟩ := routeWithNewStream_acts n peer rec e
  have hm : Act.stream q d ∈ del := by
    rcases hcases with ⟨_, h', _⟩ | ⟨_, h'⟩ | ⟨_, h', _⟩ <;> rw [h'] at h <;> simpa using h
  have hne : del ≠ [] := by rintro rfl; simp at hm
  refine ⟨?_, (hiff.1 hne).1⟩
  rcases hdel with rfl | ⟨d', _, rfl⟩
  · simp at hm
  · simp only [List.mem_singleton, Act.stream.injEq] at hm
    exact hm.1

theorem found_none {por : PoRCheck} {idFrom : Bytes → Option Bytes} {address : Bytes} {peer : Bytes} :
    ∀ (rounds : List LookupRound) (err : Bool) (last : Bytes),
      lookupRounds por idFrom address err last rounds = .found peer none → peer = [] := by
  intro rounds
  induction rounds with
  | nil => intro err last h; simp [lookupRounds] at h
  | cons rd rest ih =>
    intro err last h
    unfold lookupRounds at h
    split at h
    · rename_i o hp
      subst h
      obtain ⟨r, hr, _⟩ := lookupProviders_found hp
      simp at hr
    · split at h
      · split at h
        · simp at h
        · exact ih _ _ h
      · split at h
        · simp at h
        · simp only [LookupEnd.found.injEq] at h
          exact h.1.symm

theorem lookup_vouched {E : PeerEnv} (hl : LawfulPoR E.por) {n : Net} (hn : Fits E n) {s : Tables} {a : Bytes}
    {peer d : Bytes} {rec : Option AgentRecord} (ho : n.stream peer ≠ none)
    (h : lookupAddressDHT n.por n.idFrom n.cid a n.rounds = .found peer rec) :
    Vouched E n s a (.stream peer d) := by
  cases rec with
  | none =>
    unfold lookupAddressDHT at h
    split at h
    · rw [found_none _ _ _ h] at ho
      exact absurd hn.empty ho
    · simp at h
  | some r =>
    obtain ⟨h1, h2, _⟩ := C33_found_record_proven_partial _ _ _ _ _ _ _ h
    rw [hn.por] at h1
    refine ⟨r, hl.vouches h1, fun p hp => ?_⟩
    rw [h2] at hp
    exact Option.some.inj hp

theorem dht_vouched {E : PeerEnv} (hl : LawfulPoR E.por) {n : Net} (hn : Fits E n) {s s' : Tables} {e : Envelope}
    {a : Act} (h : a ∈ (routeDHTLookup s'.peer n e).1) : Vouched E n s e.to a := by
  unfold routeDHTLookup at h
  split at h
  · simp at h
  · rename_i rec _
    split at h
    · rename_i peer rec' hf
      cases a with
      | stream q d =>
        obtain ⟨h1, h2⟩ := mem_newStream h
        subst h1
        exact lookup_vouched hl hn h2 hf
      | inc => trivial
      | dec => trivial
      | slow => trivial
      | mailbox | agent | conn =>
        obtain ⟨del, hdel, _, hcases⟩ := routeWithNewStream_acts n peer rec e
        exfalso
        rcases hdel with rfl | ⟨_, _, rfl⟩ <;> rcases hcases with ⟨_, h', _⟩ | ⟨_, h'⟩ | ⟨_, h', _⟩ <;>
          rw [h'] at h <;> simp at h
    all_goals simp at h

end Disclosed

open Disclosed

/-- What is known of a peer's tables, from C57. -/
theorem Disclosed.table_facts {E : PeerEnv} (hl : LawfulPoR E.por) {s : Tables} (h : Reachable E (Sensible E) s)
    {n : Net} (hn : Fits E n) (e : Envelope) :
    (Accepts s.peer e → ∀ x, Vouched E n s e.to (.mailbox x)) ∧
    (e.to = s.peer.myAgent → ∀ x, Vouched E n s e.to (.agent x)) ∧
    (∀ c, s.peer.tcpAddresses.get e.to = some c → ∀ d, Vouched E n s e.to (.conn c d)) ∧
    (∀ id peer, s.peer.dhtAddresses.get e.to = some id → n.peerDecode id = some peer →
      ∀ d, Vouched E n s e.to (.stream peer d)) := by
  obtain ⟨_, h2, h3, h4, h5⟩ := C57_tables_proven hl h
  have hi := h.inv hl (fun _ h => h)
  refine ⟨?_, ?_, ?_, ?_⟩
  · rintro ⟨m, q, hm, hq, _⟩ x
    have hb := (hi.mail m hm).both e.to
    rw [hq] at hb
    cases hr : m.records.get e.to with
    | none => rw [hr] at hb; simp at hb
    | some r => exact ⟨r, h4 m e.to r hm hr⟩
  · intro ht x
    exact ⟨ht, fun r hr => ht ▸ h5 r hr⟩
  · intro c hc d
    exact h2 e.to c hc
  · intro id peer hid hp d
    obtain ⟨r, hv, hr⟩ := h3 e.to id hid
    refine ⟨r, hv, fun p hp' => ?_⟩
    rw [hn.ids] at hp'
    cases hk : E.peerId r.peerPublicKey with
    | none => rw [hk] at hp'; simp at hp'
    | some i =>
      rw [hk] at hp'
      rw [hr i hk] at hp
      simp only [Option.bind_some] at hp'
      rw [hp] at hp'
      exact Option.some.inj hp'

/-- **C120, envelopes of the own agent, of delegate clients and of sessions.** In every state that a peer can
be in: whatever is done with an envelope puts it where its receiver vouched for. -/
theorem C120_route {E : PeerEnv} (hl : LawfulPoR E.por) {s : Tables} (h : Reachable E (Sensible E) s)
    {n : Net} (hn : Fits E n) (e : Envelope) :
    ∀ a ∈ (routeEnvelope s.peer n e).2.1, Vouched E n s e.to a := by
  obtain ⟨hmail, hag, hconn, hrel⟩ := table_facts hl h hn e
  intro a ha
  by_cases hacc : Accepts s.peer e
  · have hm := (mailboxRoute_snd s.peer e).2 hacc
    have : a = .inc ∨ a = .mailbox e := by
      unfold routeEnvelope at ha
      split at ha
      · simp at ha; exact .inl ha
      · simpa [hm] using ha
    rcases this with rfl | rfl
    · trivial
    · exact hmail hacc e
  · have h2 : (mailboxRoute s.peer e).2 = false := by
      rw [← Bool.not_eq_true, mailboxRoute_snd]; exact hacc
    have hroute : mailboxRoute s.peer e = (s.peer, false) := Prod.ext (mailboxRoute_fst s.peer e hacc) h2
    unfold routeEnvelope at ha
    rw [hroute] at ha
    dsimp only at ha
    split at ha
    · simp at ha; subst ha; trivial
    · rename_i rec _
      simp only [Bool.false_eq_true, if_false] at ha
      split at ha
      · rename_i ht
        split at ha
        · split at ha
          · simp at ha
            rcases ha with rfl | rfl | rfl
            · trivial
            · exact hag ht e
            · trivial
          · simp at ha; subst ha; trivial
        · simp at ha; subst ha; trivial
      · split at ha
        · rename_i c hc
          split at ha
          · simp at ha; rcases ha with rfl | rfl <;> trivial
          · simp at ha
            rcases ha with rfl | rfl | rfl
            · trivial
            · trivial
            · exact hconn c hc _
        · split at ha
          · rename_i id hid
            split at ha
            · simp at ha; rcases ha with rfl | rfl <;> trivial
            · rename_i peer hp
              dsimp only at ha
              rcases List.mem_cons.1 ha with rfl | ha
              · trivial
              · cases a with
                | stream q d =>
                  obtain ⟨rfl, _⟩ := mem_newStream ha
                  exact hrel id q hid hp d
                | inc => trivial
                | dec => trivial
                | slow => trivial
                | mailbox | agent | conn =>
                  obtain ⟨del, hdel, _, hcases⟩ := routeWithNewStream_acts n peer rec e
                  exfalso
                  rcases hdel with rfl | ⟨_, _, rfl⟩ <;>
                    rcases hcases with ⟨_, h', _⟩ | ⟨_, h'⟩ | ⟨_, h', _⟩ <;> rw [h'] at ha <;> simp at ha
          · have key : ∀ x ∈ (routeDHTLookup s.peer n e).1, Vouched E n s e.to x :=
              fun x hx => dht_vouched hl hn hx
            generalize routeDHTLookup s.peer n e = g at *
            obtain ⟨acts, r⟩ := g
            dsimp only at key
            split at ha
            · rename_i acts' heq
              cases heq
              simp only [List.cons_append, List.mem_cons, List.mem_append, List.not_mem_nil, or_false] at ha
              rcases ha with rfl | (ha | rfl) | ha
              · trivial
              · exact key a ha
              · trivial
              · split at ha
                · simp at ha
                · simp at ha; subst ha; trivial
            · rename_i heq
              cases heq
              rcases List.mem_cons.1 ha with rfl | ha
              · trivial
              · exact key a ha

/-- **C120, envelopes that could not be sent at first.** -/
theorem C120_retry {E : PeerEnv} (hl : LawfulPoR E.por) (s : Tables) {n : Net} (hn : Fits E n) (e : Envelope) :
    ∀ a ∈ (slowAttempt s.peer n e).1, Vouched E n s e.to a := by
  intro a ha
  unfold slowAttempt at ha
  split at ha
  · simp at ha
  · exact dht_vouched hl hn ha

/-- **C120, envelopes from other peers.** They are not sent on. -/
theorem C120_handle {E : PeerEnv} (hl : LawfulPoR E.por) {s : Tables} (h : Reachable E (Sensible E) s)
    {n : Net} (hn : Fits E n) (e : Envelope) :
    ∀ a ∈ (handleAeaEnvelope s.peer n e).2.1, Vouched E n s e.to a ∧ ∀ p d, a ≠ .stream p d := by
  obtain ⟨hmail, hag, hconn, _⟩ := table_facts hl h hn e
  intro a ha
  by_cases hacc : Accepts s.peer e
  · have hm := (mailboxRoute_snd s.peer e).2 hacc
    have : a = .mailbox e := by
      unfold handleAeaEnvelope at ha
      simpa [hm] using ha
    subst this
    exact ⟨hmail hacc e, by simp⟩
  · have h2 : (mailboxRoute s.peer e).2 = false := by
      rw [← Bool.not_eq_true, mailboxRoute_snd]; exact hacc
    have hroute : mailboxRoute s.peer e = (s.peer, false) := Prod.ext (mailboxRoute_fst s.peer e hacc) h2
    unfold handleAeaEnvelope at ha
    rw [hroute] at ha
    simp only [Bool.false_eq_true, if_false] at ha
    split at ha
    · rename_i c hc
      split at ha
      · simp at ha
      · simp at ha
        subst ha
        exact ⟨hconn c hc _, by simp⟩
    · split at ha
      · rename_i ht
        split at ha
        · simp at ha
          subst ha
          exact ⟨hag ht e, by simp⟩
        · simp at ha
      · simp at ha

/-- **C120, the node of a client.** An envelope is given to the own agent only if it is the receiver, and
sent only to a peer for whose key there is a record of the receiver. -/
theorem C120_client {por : PoRCheck} (hl : LawfulPoR por) (c : DhtClient) (n : ClientNet) (hn : n.por = por)
    (e : Envelope) :
    (∀ x, .agent x ∈ (clientRoute c n e).1 → e.to = c.myAgent) ∧
    (∀ peer d, .write .envelope peer d ∈ (clientRoute c n e).1 →
      ∃ r, Vouches por r e.to r.peerPublicKey ∧ n.idFrom r.peerPublicKey = some peer) ∧
    (∀ ok x, .agent x ∈ (clientHandleEnvelope c ok e).1 → e.to = c.myAgent) := by
  obtain ⟨_, h2, _, h4⟩ := C32_route_partial c n e
  refine ⟨?_, ?_, ?_⟩
  · intro x hx
    apply Classical.byContradiction
    intro hc
    have hm : x ∈ agentDeliveries (clientRoute c n e).1 := List.mem_filterMap.2 ⟨_, hx, rfl⟩
    rw [h2 hc] at hm
    simp at hm
  · intro peer d hd
    have hm : (peer, d) ∈ networkDeliveries (clientRoute c n e).1 := List.mem_filterMap.2 ⟨_, hd, rfl⟩
    rcases h4 with h0 | ⟨p, d', r, _, _, hp, hid, _, h0⟩
    · rw [h0] at hm; simp at hm
    · rw [h0] at hm
      simp only [List.mem_singleton, Prod.mk.injEq] at hm
      rw [hm.1]
      exact ⟨r, hl.vouches (hn ▸ hp), hid⟩
  · intro ok x hx
    have hm : x ∈ agentDeliveries (clientHandleEnvelope c ok e).1 := List.mem_filterMap.2 ⟨_, hx, rfl⟩
    rw [(clientHandleEnvelope_iff c ok e).1] at hm
    split at hm
    · rename_i ht; exact ht.1
    · simp at hm

/-- **C120, an agent that vouched for one peer.** If the agent `a` has vouched for the key `k` only, an
envelope for it is sent to the peer with this key and to no other, and is given to an agent, to a mailbox or to a
connection only by that peer. -/
theorem C120_one_peer {E : PeerEnv} (hl : LawfulPoR E.por) {s : Tables} (h : Reachable E (Sensible E) s)
    {n : Net} (hn : Fits E n) {e : Envelope} {k p : Bytes}
    (hk : ∀ r k', Vouches E.por r e.to k' → k' = k) (hp : n.idFrom k = some p)
    {a : Act} (ha : a ∈ (routeEnvelope s.peer n e).2.1 ∨ a ∈ (handleAeaEnvelope s.peer n e).2.1 ∨
      a ∈ (slowAttempt s.peer n e).1) :
    match a with
    | .stream q _ => q = p
    | .mailbox _ | .conn _ _ => E.myKey = k
    | .agent _ => e.to = s.peer.myAgent ∧ (s.peer.myRecord ≠ none → E.myKey = k)
    | .inc | .dec | .slow _ => True := by
  have hv : Vouched E n s e.to a := by
    rcases ha with ha | ha | ha
    · exact C120_route hl h hn e a ha
    · exact (C120_handle hl h hn e a ha).1
    · exact C120_retry hl s hn e a ha
  cases a with
  | inc => trivial
  | dec => trivial
  | slow => trivial
  | mailbox x =>
    obtain ⟨r, hr⟩ := hv
    exact hk r _ hr
  | conn c d =>
    obtain ⟨r, _, hr⟩ := hv
    exact hk r _ hr
  | agent x =>
    refine ⟨hv.1, fun hne => ?_⟩
    cases hm : s.peer.myRecord with
    | none => exact absurd hm hne
    | some r => exact hk r _ (hv.2 r hm)
  | stream q d =>
    obtain ⟨r, hr, hq⟩ := hv
    have := hk r _ hr
    exact hq p (by rw [this]; exact hp)

/-! ## A concrete case -/

namespace DisclosedDemo

/-- The network of the peer of `TablesDemo`. -/
def net : Net :=
  { RouteDemo.net with
    por := TablesDemo.E.por
    peerDecode := some
    idFrom := fun k => TablesDemo.E.peerId k
    stream := fun p => if p = [] then none else some RouteDemo.good }

theorem fits : Fits TablesDemo.E net where
  por := rfl
  ids := fun k => by cases h : TablesDemo.E.peerId k <;> simp [net, h]
  empty := rfl

/-- An envelope for `ag`, of an agent that the peer knows. -/
def env : Envelope := ⟨b! "ag", b! "ag", b! "p", [], []⟩

/-- `ag` has a connection and a relay client. -/
def listed : Tables := run TablesDemo.E TablesDemo.init TablesDemo.both
/-- The connection has ended. -/
def relayed : Tables := listed.step TablesDemo.E (.delegateEnd 0)

theorem listed_reachable : Reachable TablesDemo.E (Sensible TablesDemo.E) listed :=
  TablesDemo.run_reachable (TablesDemo.init_reachable _) _ TablesDemo.both_sensible

theorem relayed_reachable : Reachable TablesDemo.E (Sensible TablesDemo.E) relayed :=
  .step _ listed_reachable trivial

set_option maxRecDepth 100000
set_option maxHeartbeats 4000000

/-- First it goes to the connection, which presented a record for this peer; then to the peer of the relay
client, for which there is a record. -/
example : RouteDemo.brief (routeEnvelope listed.peer net env).2.1 = [(0, []), (1, []), (4, [0])] ∧
    RouteDemo.brief (routeEnvelope relayed.peer net env).2.1 = [(0, []), (5, b! "id-xx"), (1, [])] := by
  decide

example : Vouched TablesDemo.E net relayed (b! "ag") (.stream (b! "id-xx") []) :=
  ⟨TablesDemo.rec (b! "xx"), ⟨by decide, rfl, by decide⟩, fun p hp => by
    have : net.idFrom (TablesDemo.rec (b! "xx")).peerPublicKey = some (b! "id-xx") := by decide
    rw [this] at hp
    exact Option.some.inj hp⟩

/-- Not any peer would do. -/
example : ¬ Vouched TablesDemo.E net relayed (b! "ag") (.agent env) := by
  intro h
  exact absurd h.1 (by decide)

end DisclosedDemo

end Verif
