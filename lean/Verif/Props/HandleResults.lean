import Verif.Props.Routing
import Verif.Props.PeerTables
import Verif.Props.LiteExtra
import Verif.Lemmas.Messages

/-!
# What is reported: C31 for envelopes from other peers, C62 for the start of an agent
-/

namespace Verif

open Proto

/-- **C31.** What a peer reports about an envelope from another peer: success exactly if it was put into a mailbox,
acknowledged by the client or given to the own agent; otherwise why not. -/
theorem C31_handle_result (s : PeerState) (n : Net) (e : Envelope) :
    (Accepts s e → (handleAeaEnvelope s n e).2.2 = .ok ()) ∧
    (¬ Accepts s e →
      (∀ c, s.tcpAddresses.get e.to = some c →
        (peerMessage e none = none → (handleAeaEnvelope s n e).2.2 = .err .errorDecode) ∧
        (peerMessage e none ≠ none →
          ((handleAeaEnvelope s n e).2.2 = .ok () ↔ n.connOk = true ∧ ∃ x, n.ack = .ok x) ∧
          ((handleAeaEnvelope s n e).2.2 = .panic ↔ n.connOk = true ∧ n.ack = .panic) ∧
          ((handleAeaEnvelope s n e).2.2 = .err .errorAgentNotReady ↔
            n.connOk = false ∨ ∃ x, n.ack = .err x))) ∧
      (s.tcpAddresses.get e.to = none →
        (e.to = s.myAgent → (handleAeaEnvelope s n e).2.2 =
          if s.hasAgent = true then .ok () else .err .errorAgentNotReady) ∧
        (e.to ≠ s.myAgent → (handleAeaEnvelope s n e).2.2 = .err .errorUnknownAgentAddress))) := by
  unfold handleAeaEnvelope
  refine ⟨fun h => ?_, fun h => ⟨fun c hc => ?_, fun hc => ?_⟩⟩
  · simp [(mailboxRoute_snd s e).2 h]
  all_goals
    have h2 : (mailboxRoute s e).2 = false := by
      rw [← Bool.not_eq_true, mailboxRoute_snd]; exact h
    have h1 := mailboxRoute_fst s e h
    have hroute : mailboxRoute s e = (s, false) := Prod.ext h1 h2
    simp only [hroute, hc, Bool.false_eq_true, if_false]
  · rw [show peerMessage e none = makeAcnMessage e from rfl]
    cases makeAcnMessage e with
    | none => simp
    | some d =>
      refine ⟨fun h => (by cases h), fun _ => ?_⟩
      dsimp only
      cases n.connOk with
      | false => simp
      | true => cases n.ack <;> simp
  · constructor
    · intro hmy
      rw [if_pos hmy]
      cases s.hasAgent <;> rfl
    · intro hmy
      rw [if_neg hmy]

/-- **C31.** A peer that has started tries again: whatever it cannot deliver over the network is kept for a later
attempt. -/
theorem C31_started_retries (E : PeerEnv) (own : Option AgentRecord) (hasAgent mailbox : Bool) (file : Bytes)
    (saved : List AgentRecord) (t : Tables) (h : Tables.start E own hasAgent mailbox file saved = some t)
    (n : Net) (e : Envelope) (hs : SenderLocal t.peer e) (hd : destination t.peer e = .dht)
    (hf : NetworkFails t.peer n e) : .slow e ∈ (routeEnvelope t.peer n e).2.1 := by
  refine (C31_queued_iff _ n e).2 ⟨hs, hd, hf, ?_⟩
  unfold Tables.start at h
  split at h
  · split at h
    · cases h; rfl
    · cases h
  · cases h

/-- **C62, the agent.** Its start ends the process with a message, except that it panics exactly if the start of the
connection does, after that of the wallet. -/
theorem C62_agent_ends (P : Prims) (pubOf : Bytes → Option Bytes) (env : Option (Bytes → Bytes)) :
    (∀ x, agentInit P pubOf env = .err x → x = .fatal) ∧
    (agentInit P pubOf env = .panic ↔
      (∃ w, walletInit P pubOf env = .ok w) ∧ liteInit P env = .panic) := by
  have hl := (C62_connection_ends P env).1
  have hw := C49_never_panics P pubOf env
  unfold agentInit
  cases hw' : walletInit P pubOf env with
  | panic => exact absurd hw' hw
  | err e => simp
  | ok w =>
    cases h : liteInit P env with
    | panic => simp
    | err e => simpa using hl e h
    | ok c => simp

/-- **C15, other bodies.** A message whose body is a structure and not a dialogue is read back as it was. -/
theorem C15_body_roundtrip {structOk : Bytes → Bool} {raw : Bytes} (h : structOk raw = true)
    (hl : (encodeFields (AeaMessage.fields (some (.body raw)))).length < 2 ^ 64) :
    AeaMessage.decode structOk (encodeFields (AeaMessage.fields (some (.body raw)))) = some (some (.body raw)) := by
  unfold AeaMessage.decode
  have hok : ∀ f ∈ AeaMessage.fields (some (.body raw)), f.Ok := by
    refine fields_ok_of hl ?_
    intro f hf
    simp only [AeaMessage.fields, List.mem_singleton] at hf
    subst hf
    exact ⟨Nat.le_of_ble_eq_true rfl, Nat.le_of_ble_eq_true rfl, _, rfl⟩
  rw [decodeInto_encodeFields hok]
  simp [AeaMessage.fields, AeaMessage.step, h]

end Verif
