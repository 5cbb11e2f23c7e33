import Verif.Lemmas.Tables
import Verif.Props.StreamAnswers
import Verif.Props.PoR
import Verif.Props.Messages

/-!
# C116: a proof of representation holds between its dates and for its service

Specification, from docs/por.md:20 and docs/acn-internals.md:36-43: a record is in force on a day if the day is not
before `not_before` and not after `not_after`, both written as `YYYY-MM-DD`, and for the service in `service_id`.
-/

namespace Verif
namespace RecordDates

open Acn

/-! ## Specification -/

/-- The value of decimal digits, most significant first. -/
def number : Bytes → Option Nat
  | [] => some 0
  | ds => ds.foldl (fun n d => n.bind fun n =>
      if 48 ≤ d.toNat ∧ d.toNat ≤ 57 then some (10 * n + (d.toNat - 48)) else none) (some 0)

/-- A day of the calendar; days are ordered as the numbers `YYYYMMDD`. -/
def day (text : Bytes) : Option Nat :=
  match text with
  | [y1, y2, y3, y4, 45, m1, m2, 45, d1, d2] =>
    (number [y1, y2, y3, y4]).bind fun y => (number [m1, m2]).bind fun m => (number [d1, d2]).bind fun d =>
      if 1 ≤ m ∧ m ≤ 12 ∧ 1 ≤ d ∧ d ≤ 31 then some (10000 * y + 100 * m + d) else none
  | _ => none

/-- The record is in force on this day. -/
def InForce (r : AgentRecord) (today : Nat) : Prop :=
  ∃ a b, day r.notBefore = some a ∧ day r.notAfter = some b ∧ a ≤ today ∧ today ≤ b

instance (r : AgentRecord) (today : Nat) : Decidable (InForce r today) :=
  match ha : day r.notBefore, hb : day r.notAfter with
  | some a, some b =>
    if h : a ≤ today ∧ today ≤ b then isTrue ⟨a, b, ha, hb, h⟩
    else isFalse fun ⟨_, _, ha', hb', h'⟩ => by
      rw [ha] at ha'; rw [hb] at hb'; cases ha'; cases hb'; exact h h'
  | none, _ => isFalse fun ⟨_, _, ha', _⟩ => by rw [ha] at ha'; cases ha'
  | some _, none => isFalse fun ⟨_, _, _, hb', _⟩ => by rw [hb] at hb'; cases hb'

/-- The property: what the check accepts on a day is in force on that day and for the service. -/
def Limits (check : Nat → AgentRecord → Bytes → Bytes → Res Unit StatusCode) (service : Bytes) : Prop :=
  ∀ today r a k, check today r a k = .ok .success → InForce r today ∧ r.serviceId = service

/-- The same proof: the signature, what it is of and whose it is; dates and service may differ. -/
structure SameProof (r r' : AgentRecord) : Prop where
  ledgerId : r'.ledgerId = r.ledgerId
  address : r'.address = r.address
  publicKey : r'.publicKey = r.publicKey
  peerPublicKey : r'.peerPublicKey = r.peerPublicKey
  signature : r'.signature = r.signature

example : day (b! "2021-01-01") = some 20210101 ∧ day (b! "2021-12-31") = some 20211231 ∧
    day (b! "2021-13-01") = none ∧ day (b! "01/01/2021") = none ∧ day [] = none := by decide

/-! ## The check -/

variable (addr : Bytes → Bytes → Res Unit Bytes) (verify : Bytes → Bytes → Bytes → Bytes → Res Unit Bool)

/-- **C116.** The check says of a record what it says of every record with the same proof, whatever its dates and its
service are. -/
theorem C116_same_proof {r r' : AgentRecord} (h : SameProof r r') (a k : Bytes) :
    isValidPoR addr verify r' a k = isValidPoR addr verify r a k := by
  obtain ⟨h1, h2, h3, h4, h5⟩ := h
  unfold isValidPoR
  rw [h1, h2, h3, h4, h5]

/-- **C116 is false**: whatever is accepted is accepted as well, on every day, with dates in force on other days only
and for a service that is another one. -/
theorem C116_counterexample {r : AgentRecord} {a k : Bytes} (h : isValidPoR addr verify r a k = .ok .success)
    (today : Nat) (service : Bytes) :
    ∃ r', SameProof r r' ∧ r'.serviceId ≠ service ∧ (day r'.notBefore).isSome ∧ (day r'.notAfter).isSome ∧
      ¬ InForce r' today ∧ isValidPoR addr verify r' a k = .ok .success := by
  have key : ∀ nb na x y, day nb = some x → day na = some y → ¬ (x ≤ today ∧ today ≤ y) →
      ∃ r', SameProof r r' ∧ r'.serviceId ≠ service ∧ (day r'.notBefore).isSome ∧ (day r'.notAfter).isSome ∧
        ¬ InForce r' today ∧ isValidPoR addr verify r' a k = .ok .success := by
    intro nb na x y hx hy hout
    have hs : SameProof r { r with serviceId := 0 :: service, notBefore := nb, notAfter := na } :=
      ⟨rfl, rfl, rfl, rfl, rfl⟩
    refine ⟨_, hs, by simp, by simp [hx], by simp [hy], ?_, by rw [C116_same_proof addr verify hs]; exact h⟩
    rintro ⟨x', y', hx', hy', h'⟩
    simp only [hx, hy, Option.some.injEq] at hx' hy'
    subst hx' hy'
    exact hout h'
  by_cases ht : today ≤ 20211231
  · exact key (b! "2022-01-01") (b! "2022-12-31") 20220101 20221231 (by decide) (by decide) (by omega)
  · exact key (b! "2021-01-01") (b! "2021-12-31") 20210101 20211231 (by decide) (by decide) (by omega)

/-- So the property does not hold of the check, which is not given the day, unless nothing is accepted at all. -/
theorem C116_no_limits {r : AgentRecord} {a k : Bytes} (h : isValidPoR addr verify r a k = .ok .success)
    (service : Bytes) : ¬ Limits (fun _ => isValidPoR addr verify) service := by
  intro hl
  obtain ⟨r', _, _, _, _, hn, hok⟩ := C116_counterexample addr verify h 0 service
  exact hn (hl 0 r' a k hok).1

/-- **C116**, what is limited: the agent, its ledger, its key, the peer and the signature. If signatures cannot be
forged, the agent of this address has signed the key of this peer, on whatever day. -/
theorem C116_partial (signed : Bytes → Bytes → Bytes → Prop)
    (hsig : ∀ ledger msg sig pk, verify ledger msg sig pk = .ok true → signed ledger pk msg)
    {r : AgentRecord} {a k : Bytes} (h : isValidPoR addr verify r a k = .ok .success) :
    r.address = a ∧ r.peerPublicKey = k ∧ addr r.ledgerId r.publicKey = .ok a ∧ signed r.ledgerId r.publicKey k := by
  obtain ⟨h1, _, h3, h4, h5⟩ := (C24_accept_iff addr verify r a k).1 h
  exact ⟨h1, h3, h4, hsig _ _ _ _ h5⟩

/-! ## Where it is used -/

/-- **C116.** Who hands an envelope of another peer on may alter the dates and the service of the record: the peer that
receives it does with the altered message, in every respect, what it does with the original one. -/
theorem C116_envelope (T : AcnTexts) (key : Bytes) (handler : Envelope → Option (StatusCode × Bytes))
    {r r' : AgentRecord} (hs : SameProof r r') {eb b b' : Bytes} (p p' : Pipe) (rest : List (Option Bytes))
    (hb : AcnMessage.encode (some (.aeaEnvelope eb (some r))) = some b) (hl : b.length < 2 ^ 64)
    (hb' : AcnMessage.encode (some (.aeaEnvelope eb (some r'))) = some b') (hl' : b'.length < 2 ^ 64)
    (hp : p.reads = some b :: rest) (hp' : p' = { p with reads := some b' :: rest }) :
    handleEnvelopeStream T (isValidPoR addr verify) key handler p' =
      handleEnvelopeStream T (isValidPoR addr verify) key handler p := by
  have d := C18_acn_round_trip hb (AcnMessage.codeFits rfl) hl
  have d' := C18_acn_round_trip hb' (AcnMessage.codeFits rfl) hl'
  have e := readEnvelope_gives T hp d
  have e' : readEnvelope T p' = (.ok (eb, some r'), { p with reads := rest }) := by
    rw [readEnvelope_gives T (p := p') (rest := rest) (by rw [hp']) d', hp']
  have hrec : receiveEnvelopeFromPeer T (isValidPoR addr verify) key p' =
      receiveEnvelopeFromPeer T (isValidPoR addr verify) key p := by
    unfold receiveEnvelopeFromPeer PipeM.bind
    rw [e, e']
    simp only [hs.address, C116_same_proof addr verify hs]
  unfold handleEnvelopeStream PipeM.bind
  rw [hrec]

/-- **C116.** A registration is answered the same whatever the dates and the service are. -/
theorem C116_registration (T : AcnTexts) (porText : StatusCode → Bytes) (key : Bytes)
    {r r' : AgentRecord} (hs : SameProof r r') {b b' : Bytes} (p p' : Pipe) (rest : List (Option Bytes))
    (hb : AcnMessage.encode (some (.register (some r))) = some b) (hl : b.length < 2 ^ 64)
    (hb' : AcnMessage.encode (some (.register (some r'))) = some b') (hl' : b'.length < 2 ^ 64)
    (hp : p.reads = some b :: rest) (hp' : p' = { p with reads := some b' :: rest }) :
    (acceptRegistration T (isValidPoR addr verify) porText key p').2 =
      (acceptRegistration T (isValidPoR addr verify) porText key p).2 ∧
    ((acceptRegistration T (isValidPoR addr verify) porText key p).1 = .ok r →
      (acceptRegistration T (isValidPoR addr verify) porText key p').1 = .ok r') := by
  have d := C18_acn_round_trip hb (AcnMessage.codeFits rfl) hl
  have d' := C18_acn_round_trip hb' (AcnMessage.codeFits rfl) hl'
  have e : readRegistration T p = (.ok (some r), { p with reads := rest }) := by
    unfold readRegistration
    rw [bind_read hp]
    simp [d, PipeM.pure]
  have e' : readRegistration T p' = (.ok (some r'), { p with reads := rest }) := by
    unfold readRegistration
    rw [bind_read (p := p') (rest := rest) (by rw [hp'])]
    simp [d', PipeM.pure, hp']
  have c : isValidPoR addr verify r' r'.address key = isValidPoR addr verify r r.address key := by
    rw [hs.address, C116_same_proof addr verify hs]
  unfold acceptRegistration PipeM.bind
  rw [e, e']
  dsimp only
  rw [c]
  cases isValidPoR addr verify r r.address key with
  | panic => exact ⟨rfl, fun h => by simp [PipeM.crash] at h⟩
  | err _ => exact ⟨rfl, fun h => by simp [PipeM.fail] at h⟩
  | ok code =>
    cases code with
    | success =>
      dsimp only
      rcases sendSuccess { p with reads := rest } with ⟨_ | _ | _, q⟩ <;> simp [PipeM.pure]
    | _ =>
      refine ⟨rfl, fun h => ?_⟩
      exact (sendError_fail_not_ok (Prod.ext h rfl)).elim

/-- **C116.** What a peer says of its own agent has no dates, whatever dates it was given: other peers could not check
them. -/
theorem C116_own_undated {E : PeerEnv} {ok : Tables.Step → Prop} {s : Tables} (h : Tables.Reachable E ok s)
    {r : AgentRecord} (hr : s.peer.myRecord = some r) : r.notBefore = [] ∧ r.notAfter = [] := by
  have hstart : ∀ {own : Option AgentRecord} {ha mb : Bool} {file : Bytes} {saved : List AgentRecord} {s : Tables},
      Tables.start E own ha mb file saved = some s → ∀ r, s.peer.myRecord = some r → r.notBefore = [] ∧ r.notAfter = [] := by
    intro own ha mb file saved s h r hr
    unfold Tables.start at h
    split at h
    · split at h
      · rw [← Option.some.inj h] at hr
        obtain ⟨r0, _, rfl⟩ := Option.map_eq_some_iff.1 hr
        exact ⟨rfl, rfl⟩
      · cases h
    · cases h
  induction h generalizing r with
  | first h => exact hstart h r hr
  | restart _ h' _ => exact hstart h' r hr
  | @step s st _ _ ih =>
    apply ih
    rw [← hr]
    cases st with
    | route n e =>
      obtain ⟨mb, h, _⟩ := Tables.routeEnvelope_tables s.peer n e
      show _ = (routeEnvelope s.peer n e).1.myRecord
      rw [h]
    | handle n e =>
      obtain ⟨mb, h, _⟩ := Tables.handleAeaEnvelope_tables s.peer n e
      show _ = (handleAeaEnvelope s.peer n e).1.myRecord
      rw [h]
    | _ =>
      simp only [Tables.step]
      repeat' split
      all_goals rfl

/-! ## A case -/

namespace Demo

/-- A ledger on which addresses are keys, and `sig` of a message by a key is the message followed by the key. -/
def addrOf (_ pk : Bytes) : Res Unit Bytes := .ok pk

def ver (_ msg sig pk : Bytes) : Res Unit Bool := .ok (decide (sig = msg ++ pk))

/-- The record of the example in docs/por.md. -/
def rec : AgentRecord :=
  ⟨b! "acn", b! "fetchai", b! "alice", b! "alice", b! "peer", b! "peeralice", b! "2021-01-01", b! "2021-12-31"⟩

example : isValidPoR addrOf ver rec (b! "alice") (b! "peer") = .ok .success ∧
    InForce rec 20210615 ∧ ¬ InForce rec 20220101 ∧ ¬ InForce rec 20201231 := by decide

/-- Accepted with another date and another service, and refused with another agent, peer or signature. -/
example : isValidPoR addrOf ver { rec with notAfter := b! "2021-01-02", serviceId := b! "other" } (b! "alice") (b! "peer") =
      .ok .success ∧
    isValidPoR addrOf ver { rec with peerPublicKey := b! "other" } (b! "alice") (b! "other") = .ok .errorInvalidProof ∧
    isValidPoR addrOf ver { rec with signature := [] } (b! "alice") (b! "peer") = .ok .errorInvalidProof := by decide

end Demo

end RecordDates
end Verif
