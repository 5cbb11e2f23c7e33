import Verif.Model.NodeMain
import Verif.Props.NodeConfig

/-!
# C69: a node runs with the settings of its configuration
-/

namespace Verif

variable {η : Type}

theorem peersAddrInfo_ok (W : StartWorld η) (as : List Bytes) (ps : List η) :
    peersAddrInfo W as = .ok ps ↔ as.map W.addrInfo = ps.map (fun p => some (some p)) := by
  induction as generalizing ps with
  | nil => cases ps <;> simp [peersAddrInfo]
  | cons a as ih =>
    unfold peersAddrInfo
    cases ha : W.addrInfo a with
    | none => cases ps <;> simp [ha]
    | some o =>
      cases o with
      | none => cases ps <;> simp [ha]
      | some p =>
        dsimp only
        cases hr : peersAddrInfo W as with
        | panic =>
          constructor
          · intro h; cases h
          · intro h
            cases ps with
            | nil => simp at h
            | cons q qs =>
              simp only [List.map_cons, List.cons.injEq] at h
              rw [(ih qs).2 h.2] at hr
              cases hr
        | err e =>
          constructor
          · intro h; cases h
          · intro h
            cases ps with
            | nil => simp at h
            | cons q qs =>
              simp only [List.map_cons, List.cons.injEq] at h
              rw [(ih qs).2 h.2] at hr
              cases hr
        | ok qs =>
          simp only [Res.bind, Res.ok.injEq]
          have := (ih qs).1 hr
          constructor
          · rintro rfl
            simp [ha, this]
          · intro h
            cases ps with
            | nil => simp at h
            | cons q qs' =>
              simp only [List.map_cons, List.cons.injEq, ha, Option.some.injEq] at h
              have h2 := (ih qs').2 h.2
              rw [hr] at h2
              rw [h.1, Res.ok.inj h2]

theorem checkOwnRecord_ok (W : StartWorld η) (r : AgentRecord) (k : Bytes) :
    checkOwnRecord W r k = .ok () ↔ W.porCheck r r.address k = .ok .success := by
  unfold checkOwnRecord
  cases W.porCheck r r.address k with
  | panic => simp
  | err e => simp
  | ok c => cases c <;> simp

theorem bind_unit_ok {ε α : Type} (r : Res ε Unit) (x y : α) :
    (r.bind fun _ => (.ok x : Res ε α)) = .ok y ↔ r = .ok () ∧ x = y := by
  cases r with
  | ok u => cases u; simp [Res.bind]
  | err e => simp [Res.bind]
  | panic => simp [Res.bind]

/-- A record without the dates of its validity. -/
def undated (r : AgentRecord) : AgentRecord where
  serviceId := r.serviceId
  ledgerId := r.ledgerId
  address := r.address
  publicKey := r.publicKey
  peerPublicKey := r.peerPublicKey
  signature := r.signature
  notBefore := []
  notAfter := []

theorem copied_undated : AgentRecord.copied = undated := rfl

/-- **C69.** Which configurations start a peer, and with which settings: exactly those of the configuration.
The storage path and the delay are the subject of the next theorems. -/
theorem C69_peer_iff (W : StartWorld η) (c : NodeConfig GoFloat) (s : PeerSettings η) :
    startNode W c = .ok (.peer s) ↔
      c.portPublic ≠ 0 ∧ W.ip4 c.host c.port = true ∧ W.dns4 c.hostPublic c.portPublic = true ∧
      W.publicKeyOf c.id = some s.publicKey ∧
      c.entryPeers.map W.addrInfo = s.entryPeers.map (fun p => some (some p)) ∧
      s.listen = (c.host, c.port) ∧ s.announced = (c.hostPublic, c.portPublic) ∧ s.relay = true ∧
      s.delegatePort = c.portDelegate ∧ s.monitoringPort = c.portMonitoring ∧ s.mailbox = c.mailboxUri ∧
      s.delay = delayOf W c.delay ∧ s.storage = storageOf W c.storagePath s.publicKey ∧
      s.agent = c.record.map undated ∧
      (∀ r, s.agent = some r → W.porCheck r r.address s.publicKey = .ok .success) := by
  unfold startNode NodeConfig.runsAsPeer
  by_cases h0 : c.portPublic = 0
  · simp only [h0, bne_self_eq_false, Bool.false_eq_true, if_false, ne_eq, not_true, false_and, iff_false]
    unfold startClient
    cases W.publicKeyOf c.id with
    | none => simp
    | some key =>
      dsimp only
      cases peersAddrInfo W c.entryPeers with
      | panic => simp [Res.bind]
      | err e => simp [Res.bind]
      | ok ps =>
        simp only [Res.bind]
        cases c.record with
        | none => simp
        | some r =>
          dsimp only
          split
          · simp
          · cases checkOwnRecord W r.copied key with
            | panic => simp
            | err e => simp
            | ok _ => dsimp only; split <;> simp
  rw [if_pos (by simpa using h0)]
  unfold startPeer
  cases h1 : W.ip4 c.host c.port with
  | false => simp
  | true =>
    cases h2 : W.dns4 c.hostPublic c.portPublic with
    | false => simp
    | true =>
      simp only [Bool.true_eq_false, if_false, ne_eq, h0, not_false_eq_true, true_and]
      cases h3 : W.publicKeyOf c.id with
      | none => simp
      | some key =>
        dsimp only
        constructor
        · intro h
          cases h4 : peersAddrInfo W c.entryPeers with
          | panic => rw [h4] at h; cases h
          | err e => rw [h4] at h; cases h
          | ok ps =>
            rw [h4] at h
            simp only [Res.bind] at h
            have hp := (peersAddrInfo_ok W _ _).1 h4
            cases h5 : c.record with
            | none =>
              rw [h5] at h
              simp only [Option.map_none, Res.ok.injEq, NodeSettings.peer.injEq] at h
              subst h
              exact ⟨rfl, hp, rfl, rfl, rfl, rfl, rfl, rfl, rfl, rfl, rfl, by simp⟩
            | some r =>
              rw [h5] at h
              simp only [Option.map_some] at h
              have h := (bind_unit_ok _ _ _).1 h
              obtain ⟨h6, h⟩ := h
              simp only [NodeSettings.peer.injEq] at h
              subst h
              refine ⟨rfl, hp, rfl, rfl, rfl, rfl, rfl, rfl, rfl, rfl, rfl, ?_⟩
              intro r' hr'
              simp only [Option.some.injEq] at hr'
              subst hr'
              exact (checkOwnRecord_ok W _ _).1 h6
        · rintro ⟨hk, hp, e1, e2, e3, e4, e5, e6, e7, e8, e9, hv⟩
          simp only [Option.some.injEq] at hk
          subst hk
          rw [(peersAddrInfo_ok W _ _).2 hp]
          simp only [Res.bind]
          obtain ⟨k, l, a, rel, dp, mp, mb, ep, ag, de, st⟩ := s
          dsimp only at e1 e2 e3 e4 e5 e6 e7 e8 e9 hv ⊢
          subst e1 e2 e3 e4 e5 e6 e7 e8
          cases h5 : c.record with
          | none => rw [h5] at e9; subst e9; rfl
          | some r =>
            rw [h5] at e9
            simp only [Option.map_some] at e9 ⊢
            subst e9
            exact (bind_unit_ok _ _ _).2 ⟨(checkOwnRecord_ok W _ _).2 (hv _ rfl), rfl⟩

/-- **C69.** Which configurations start a client, and with which settings. -/
theorem C69_client_iff (W : StartWorld η) (c : NodeConfig GoFloat) (s : ClientSettings η) :
    startNode W c = .ok (.client s) ↔
      c.portPublic = 0 ∧ W.publicKeyOf c.id = some s.publicKey ∧
      c.entryPeers.map W.addrInfo = s.entryPeers.map (fun p => some (some p)) ∧ c.entryPeers ≠ [] ∧
      c.record.map undated = some s.agent ∧ s.agent.address ≠ [] ∧
      W.porCheck s.agent s.agent.address s.publicKey = .ok .success := by
  unfold startNode NodeConfig.runsAsPeer
  by_cases h0 : c.portPublic = 0
  · simp only [h0, bne_self_eq_false, Bool.false_eq_true, if_false, true_and]
    unfold startClient
    cases h3 : W.publicKeyOf c.id with
    | none => simp
    | some key =>
      dsimp only
      constructor
      · intro h
        cases h4 : peersAddrInfo W c.entryPeers with
        | panic => rw [h4] at h; cases h
        | err e => rw [h4] at h; cases h
        | ok ps =>
          rw [h4] at h
          simp only [Res.bind] at h
          have hp := (peersAddrInfo_ok W _ _).1 h4
          cases h5 : c.record with
          | none => rw [h5] at h; cases h
          | some r =>
            rw [h5] at h
            dsimp only at h
            split at h
            · cases h
            · rename_i ha
              cases h6 : checkOwnRecord W r.copied key with
              | panic => rw [h6] at h; cases h
              | err e => rw [h6] at h; cases h
              | ok u =>
                rw [h6] at h
                dsimp only at h
                split at h
                · cases h
                · rename_i hl
                  simp only [Res.ok.injEq, NodeSettings.client.injEq] at h
                  subst h
                  refine ⟨rfl, hp, ?_, rfl, ha, (checkOwnRecord_ok W _ _).1 h6⟩
                  intro he
                  rw [he] at hp
                  cases ps with
                  | nil => simp at hl
                  | cons q qs => simp at hp
      · rintro ⟨hk, hp, hne, hr, ha, hv⟩
        simp only [Option.some.injEq] at hk
        subst hk
        rw [(peersAddrInfo_ok W _ _).2 hp]
        simp only [Res.bind]
        cases h5 : c.record with
        | none => rw [h5] at hr; cases hr
        | some r =>
          rw [h5] at hr
          simp only [Option.map_some, Option.some.injEq, ← copied_undated] at hr
          dsimp only
          rw [if_neg (by rw [← hr] at ha; exact ha), hr, (checkOwnRecord_ok W _ _).2 hv]
          dsimp only
          rw [if_neg]
          intro hl
          have : s.entryPeers = [] := List.length_eq_zero_iff.1 (by omega)
          rw [this] at hp
          simp only [List.map_nil, List.map_eq_nil_iff] at hp
          exact hne hp
  · simp only [h0, false_and, iff_false]
    rw [if_pos (by simpa using h0)]
    unfold startPeer
    split
    · simp
    · split
      · simp
      · split
        · simp
        · cases peersAddrInfo W c.entryPeers with
          | panic => simp [Res.bind]
          | err e => simp [Res.bind]
          | ok ps =>
            simp only [Res.bind]
            cases c.record with
            | none => simp
            | some r =>
              simp only [Option.map_some]
              cases checkOwnRecord W r.copied _ <;> simp

/-- **C69.** From the environment: a node that starts with an agent has the record of the environment, without
dates, and the record is valid for the key of the node; the mailbox service has the address in the environment. -/
theorem C69_agent (H : Host GoFloat) (W : StartWorld η) {c : NodeConfig GoFloat} (hc : initNode H = .ok c) :
    (∀ s r, startNode W c = .ok (.peer s) → (s.agent = some r ↔ recordOf H.getenv = some r) ∧
      (s.agent = some r → W.porCheck r r.address s.publicKey = .ok .success) ∧
      s.mailbox = H.getenv (b! "AEA_P2P_MAILBOX_URI")) ∧
    (∀ s, startNode W c = .ok (.client s) → recordOf H.getenv = some s.agent ∧
      W.porCheck s.agent s.agent.address s.publicKey = .ok .success) := by
  obtain ⟨h1, _, _, _, h5, _⟩ := C45_settings H hc
  have hcopy : ∀ r, c.record = some r → r.copied = r := by
    intro r hr
    rw [((h1 r).1 hr).2]
    rfl
  have hrec : ∀ r, c.record = some r ↔ recordOf H.getenv = some r := by
    intro r
    rw [h1 r]
    unfold recordOf
    dsimp only
    split
    · rename_i h
      simp only [Option.some.injEq]
      constructor
      · rintro ⟨_, rfl⟩; rfl
      · rintro rfl; exact ⟨h, rfl⟩
    · rename_i h
      constructor
      · rintro ⟨h', _⟩; exact absurd h' h
      · intro h'; cases h'
  constructor
  · intro s r hs
    obtain ⟨_, _, _, _, _, _, _, _, _, _, hm, _, _, ha, hv⟩ := (C69_peer_iff W c s).1 hs
    refine ⟨?_, hv r, by rw [hm, h5]⟩
    rw [← hrec r, ha]
    cases hcr : c.record with
    | none => simp
    | some r' => simp only [Option.map_some, ← copied_undated, hcopy r' hcr]
  · intro s hs
    obtain ⟨_, _, _, _, hr, _, hv⟩ := (C69_client_iff W c s).1 hs
    refine ⟨?_, hv⟩
    rw [← hrec]
    cases hcr : c.record with
    | none => rw [hcr] at hr; cases hr
    | some r' =>
      rw [hcr] at hr
      simp only [Option.map_some, ← copied_undated, hcopy r' hcr] at hr
      rw [hr]

/-- **C69.** The storage file: the path of the configuration, or the default path with the peer id, so that two
peers on one machine do not share it. -/
theorem C69_storage (W : StartWorld η) (path key : Bytes) :
    (path ≠ [] → path ≠ b! "./agent_records_store" → storageOf W path key = path) ∧
    (path = [] → storageOf W path key = b! "./agent_records_store_" ++ W.peerIdOf key) := by
  constructor
  · intro h1 h2
    unfold storageOf
    simp only [ne_eq, h1, not_false_eq_true, if_true]
    exact if_neg h2
  · rintro rfl
    simp [storageOf, defaultStorage]

/-- **C69 is false for delays, in general.** Fractions of a second are dropped: the delay of the peer is the
whole number of seconds below the one in the configuration, and none at all below one second. -/
theorem C69_delay_truncated (W : StartWorld η) (q : Rat) (h0 : 0 ≤ q) (h : q ≤ 9223372036) :
    delayOf W (some (.finite q)) = q.floor * 1000000000 ∧ (q < 1 → delayOf W (some (.finite q)) = 0) := by
  have hf0 : 0 ≤ q.floor := Rat.le_floor_iff.2 (by simpa using h0)
  have hf1 : q.floor < 9223372037 := Rat.floor_lt_iff.2 (by
    exact Std.lt_of_le_of_lt h (by decide +kernel))
  have key : delayOf W (some (.finite q)) = q.floor * 1000000000 := by
    unfold delayOf
    dsimp only
    by_cases hz : q = 0
    · subst hz
      rw [if_pos rfl]
      rfl
    · rw [if_neg (by simpa using hz)]
      simp only [GoFloat.toInt64, if_pos h0]
      rw [if_pos (by omega)]
      unfold wrapInt64
      omega
  refine ⟨key, fun h1 => ?_⟩
  have : q.floor < 1 := Rat.floor_lt_iff.2 (by simpa using h1)
  rw [key]
  omega

/-- **C69, partial.** A delay of a whole number of seconds, up to 292 years, is the delay of the peer. Missing
from the property: other delays. -/
theorem C69_delay_partial (W : StartWorld η) (n : Nat) (h : n ≤ 9223372036) :
    delayOf W (some (.finite (n : Rat))) = (n : Int) * 1000000000 := by
  rw [(C69_delay_truncated W n Rat.natCast_nonneg (by
    have : (n : Rat) ≤ ((9223372036 : Nat) : Rat) := Rat.natCast_le_natCast.2 h
    simpa using this)).1]
  rw [show (n : Rat).floor = (n : Int) from Rat.floor_intCast n]

/-- **C69 is false, in general: a crash.** If an entry peer is no multiaddress, and those before it are fine, a
client with a valid key crashes instead of reporting it. -/
theorem C69_entry_peer_crash (W : StartWorld η) (c : NodeConfig GoFloat) (before after : List Bytes) (a : Bytes)
    (hp : c.portPublic = 0) (hk : W.publicKeyOf c.id ≠ none) (he : c.entryPeers = before ++ a :: after)
    (hb : ∀ x ∈ before, ∃ p, W.addrInfo x = some (some p)) (ha : W.addrInfo a = none) :
    startNode W c = .panic := by
  have hpanic : peersAddrInfo W c.entryPeers = .panic := by
    rw [he]
    clear he
    induction before with
    | nil => simp [peersAddrInfo, ha]
    | cons x xs ih =>
      obtain ⟨p, hx⟩ := hb x (by simp)
      simp [peersAddrInfo, hx, ih (fun y hy => hb y (List.mem_cons_of_mem _ hy)), Res.bind]
  unfold startNode NodeConfig.runsAsPeer
  rw [hp]
  simp only [bne_self_eq_false, Bool.false_eq_true, if_false, startClient, hpanic]
  cases hk' : W.publicKeyOf c.id with
  | none => exact absurd hk' hk
  | some k => rfl

namespace NodeMainDemo

/-- Toy parameters: every key and host is fine, an entry peer is `/` with something after it. -/
def W : StartWorld Bytes where
  publicKeyOf := some
  peerIdOf := fun k => b! "Qm" ++ k
  ip4 := fun h _ => h != []
  dns4 := fun h _ => h != []
  addrInfo := fun a => match a with
    | 47 :: p => some (if p = [] then none else some p)
    | _ => none
  porCheck := fun r a k => .ok (if r.address = a ∧ r.peerPublicKey = k then .success else .errorWrongPublicKey)
  oddInt64 := fun _ => 0

/-- An environment of a peer with the given delay and entry peers. -/
def H (delay entry : Bytes) : Host GoFloat where
  getenv := fun v =>
    if v = b! "AEA_P2P_ID" then b! "k1"
    else if v = b! "AEA_P2P_URI" then b! "0.0.0.0:9000"
    else if v = b! "AEA_P2P_URI_PUBLIC" then b! "acn:9001"
    else if v = b! "AEA_P2P_DELEGATE_URI" then b! "acn:11000"
    else if v = b! "AEA_P2P_ENTRY_URIS" then entry
    else if v = b! "AEA_P2P_POR_ADDRESS" then b! "alice"
    else if v = b! "AEA_P2P_POR_PEER_PUBKEY" then b! "k1"
    else if v = b! "AEA_P2P_CFG_REGISTRATION_DELAY" then delay
    else []
  resolves := fun _ => true
  canListen := fun _ => true
  parseFloat := fun t =>
    if t = b! "2" then some (.finite 2) else if t = b! "0.5" then some (.finite (1 / 2)) else none

/-- Initialise and start. -/
def start (delay entry : Bytes) : Option (Res StartErr (NodeSettings Bytes)) :=
  match initNode (H delay entry) with
  | .ok c => some (startNode W c)
  | .error _ => none

/-- Delay, entry peers and storage of a peer. -/
def brief : Option (Res StartErr (NodeSettings Bytes)) → Option (Int × List Bytes × Nat × Bytes)
  | some (.ok (.peer s)) => some (s.delay, s.entryPeers, s.delegatePort, s.storage)
  | _ => none

set_option maxRecDepth 100000 in
set_option maxHeartbeats 4000000 in
example : brief (start (b! "2") (b! "/a,/b")) =
    some (2000000000, [b! "a", b! "b"], 11000, b! "./agent_records_store_Qmk1") := by decide +kernel

end NodeMainDemo

open NodeMainDemo in
set_option maxRecDepth 100000 in
set_option maxHeartbeats 4000000 in
/-- **C69 is false**: a delay of half a second is no delay; a comma after the last entry peer crashes the
node. -/
theorem C69_counterexample :
    brief (start (b! "0.5") (b! "/a")) = some (0, [b! "a"], 11000, b! "./agent_records_store_Qmk1") ∧
    start (b! "2") (b! "/a,") = some .panic := by
  constructor <;> decide +kernel

end Verif
