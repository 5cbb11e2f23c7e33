import Verif.Props.Acn
import Verif.Props.PeerHandlers

/-!
# C27: what another peer is told about its envelope
-/

namespace Verif

open Acn

theorem readEnvelope_gives (T : AcnTexts) {p : Pipe} {buf eb : Bytes} {rec : Option AgentRecord}
    {rest : List (Option Bytes)} (hp : p.reads = some buf :: rest)
    (h : AcnMessage.decode buf = some (some (.aeaEnvelope eb rec))) :
    readEnvelope T p = (.ok (eb, rec), { p with reads := rest }) := by
  unfold readEnvelope
  rw [bind_read hp]
  simp [decodeAcnMessage, h, PipeM.pure]

/-- **C27.** A message that is no envelope, and one whose record is not valid for the other peer, are refused and the
other peer is told why. -/
theorem C27_refusals (T : AcnTexts) (por : PoRCheck) (remoteKey buf eb : Bytes) (rec : Option AgentRecord)
    (h : AcnMessage.decode buf = some (some (.aeaEnvelope eb rec))) :
    (Envelope.decode eb = none →
      RefusesWith (receiveEnvelopeFromPeer T por remoteKey) buf 4
        (b! "while deserializing acn aea envelope message")) ∧
    ∀ env r code, Envelope.decode eb = some env → rec = some r → por r r.address remoteKey = .ok code →
      code ≠ .success →
      RefusesWith (receiveEnvelopeFromPeer T por remoteKey) buf code.toInt
        (b! "incoming envelope PoR is not valid") := by
  constructor
  · intro he p rest hp
    obtain ⟨m, hm, hr⟩ := sendError_fail (α := Envelope) (b! "while deserializing acn aea envelope message")
      .errorDecode .envelope { p with reads := rest } ((Proto.utf8Valid_iff _).1 (by decide))
    have hrun : receiveEnvelopeFromPeer T por remoteKey p =
        (.err .envelope, { p with reads := rest, writes := p.writes.tail, sent := p.sent ++ [m] }) := by
      unfold receiveEnvelopeFromPeer PipeM.bind
      rw [readEnvelope_gives T hp h]
      simp only [he]
      exact hr
    rw [hrun]
    exact ⟨_, m, rfl, hm, rfl, rfl⟩
  · rintro env r code he rfl hpor hne p rest hp
    obtain ⟨m, hm, hr⟩ := sendError_fail (α := Envelope) (b! "incoming envelope PoR is not valid")
      code (.invalidPoR code) { p with reads := rest } ((Proto.utf8Valid_iff _).1 (by decide))
    have hrun : receiveEnvelopeFromPeer T por remoteKey p =
        (.err (.invalidPoR code), { p with reads := rest, writes := p.writes.tail, sent := p.sent ++ [m] }) := by
      unfold receiveEnvelopeFromPeer PipeM.bind
      rw [readEnvelope_gives T hp h]
      simp only [he, hpor]
      cases code with
      | success => exact absurd rfl hne
      | _ => exact hr
    rw [hrun]
    exact ⟨_, m, rfl, hm, rfl, rfl⟩

/-- **C27.** An envelope that is accepted is given to the handler, and the other peer is told what the handler says:
success without a text, or its code and text. -/
theorem C27_answered (T : AcnTexts) (por : PoRCheck) (remoteKey : Bytes)
    (handler : Envelope → Option (StatusCode × Bytes)) (p : Pipe) (env : Envelope)
    (h : (receiveEnvelopeFromPeer T por remoteKey p).1 = .ok env) :
    (handleEnvelopeStream T por remoteKey handler p).1 = .ok env ∧
    (handler env = none → ∃ m, AcnMessage.encode (some (.status (some ⟨0, []⟩))) = some m ∧
      (handleEnvelopeStream T por remoteKey handler p).2.sent = p.sent ++ [m]) ∧
    ∀ code text, handler env = some (code, text) → IsText text →
      ∃ m, Answers code.toInt text m ∧
        (handleEnvelopeStream T por remoteKey handler p).2.sent = p.sent ++ [m] := by
  obtain ⟨buf, rest, eb, r, hp, hd, he, hpor⟩ := (C27_record_proven_partial T por remoteKey p env).1 h
  have hrun : receiveEnvelopeFromPeer T por remoteKey p = (.ok env, { p with reads := rest }) := by
    unfold receiveEnvelopeFromPeer PipeM.bind
    rw [readEnvelope_gives T hp hd]
    simp [he, hpor, PipeM.pure]
  have hign : ∀ (m : AcnMessage) (q : Pipe), ∃ q', PipeM.ignoring (sendMessage m) q = (.ok (), q') ∧
      ∀ b, m.encode = some b → q'.sent = q.sent ++ [b] := by
    intro m q
    unfold PipeM.ignoring sendMessage
    cases hm : AcnMessage.encode m with
    | none => exact ⟨q, rfl, by simp⟩
    | some b =>
      obtain ⟨reads, writes, sent⟩ := q
      rcases writes with _ | ⟨_ | _, writes⟩ <;> exact ⟨_, rfl, by simp⟩
  unfold handleEnvelopeStream PipeM.bind
  rw [hrun]
  dsimp only
  cases hh : handler env with
  | none =>
    obtain ⟨q', h1, h2⟩ := hign (some (.status (some ⟨StatusCode.success.toInt, []⟩))) { p with reads := rest }
    simp only [sendSuccess, h1, PipeM.pure]
    refine ⟨trivial, fun _ => ?_, by simp⟩
    exact ⟨_, rfl, h2 _ rfl⟩
  | some ct =>
    obtain ⟨code, text⟩ := ct
    obtain ⟨q', h1, h2⟩ := hign (some (.status (some ⟨code.toInt, [text]⟩))) { p with reads := rest }
    simp only [sendError, h1, PipeM.pure]
    refine ⟨trivial, by simp, ?_⟩
    rintro c t ⟨⟩ ht
    obtain ⟨m, hm⟩ := answer_encodes (code := code.toInt) ht
    exact ⟨m, hm, h2 m hm⟩

end Verif
