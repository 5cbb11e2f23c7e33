import Verif.Model.Acn
import Verif.Lemmas.Texts

/-!
# C48: malformed ACN input

The readers of messages that start an exchange (`readRegistration`, `readLookupRequest`,
`readEnvelope`, `handleFromPipe`) have to answer; the readers of replies (`readStatus`,
`readLookupResponse`) only report an error.
-/

namespace Verif

open Acn

/-- The message that reports an error to the other side. -/
def answer (code : Int) (text : Bytes) : AcnMessage := some (.status (some ⟨code, [text]⟩))

/-- The bytes of `answer`. -/
def Answers (code : Int) (text : Bytes) (m : Bytes) : Prop := (answer code text).encode = some m

theorem write_sent (b : Bytes) (p : Pipe) : (Pipe.write b p).2.sent = p.sent ++ [b] := by
  unfold Pipe.write
  split <;> rfl

theorem write_reads (b : Bytes) (p : Pipe) : (Pipe.write b p).2.reads = p.reads := by
  unfold Pipe.write
  split <;> rfl

theorem write_not_panic (b : Bytes) (p : Pipe) : (Pipe.write b p).1 ≠ .panic := by
  unfold Pipe.write
  split <;> simp

theorem sendMessage_not_panic (m : AcnMessage) (p : Pipe) : (sendMessage m p).1 ≠ .panic := by
  unfold sendMessage
  cases AcnMessage.encode m with
  | none => simp [PipeM.fail]
  | some b => exact write_not_panic _ _

theorem answer_encodes {code : Int} {text : Bytes} (h : IsText text) :
    ∃ m, Answers code text m := by
  refine ⟨Proto.encodeFields (AcnMessage.fields (answer code text)), ?_⟩
  unfold Answers AcnMessage.encode
  rw [if_pos]
  simp [AcnMessage.utf8, answer, Performative.utf8, StatusBody.utf8, (Proto.utf8Valid_iff text).2 h]

/-- Sending an error, whatever the outcome of the write, and then returning one. -/
theorem sendError_fail {α : Type} (text : Bytes) (code : StatusCode) (e : AcnErr) (p : Pipe)
    (h : IsText text) :
    ∃ m, Answers code.toInt text m ∧
      ((PipeM.ignoring (sendError text code)).bind fun _ => (.fail e : PipeM α)) p =
        (.err e, { p with writes := p.writes.tail, sent := p.sent ++ [m] }) := by
  obtain ⟨m, hm⟩ := answer_encodes (code := code.toInt) h
  refine ⟨m, hm, ?_⟩
  have hs : sendError text code = Pipe.write m := by
    unfold sendError sendMessage
    rw [show AcnMessage.encode (some (.status (some ⟨code.toInt, [text]⟩))) = some m from hm]
  unfold PipeM.bind PipeM.ignoring
  rw [hs]
  obtain ⟨reads, writes, sent⟩ := p
  rcases writes with _ | ⟨_ | _, writes⟩ <;> rfl

theorem read_cons (buf : Bytes) (p : Pipe) {rest : List (Option Bytes)}
    (hp : p.reads = some buf :: rest) : Pipe.read p = (.ok buf, { p with reads := rest }) := by
  unfold Pipe.read
  rw [hp]

theorem bind_read {α : Type} {buf : Bytes} {p : Pipe} {rest : List (Option Bytes)}
    (hp : p.reads = some buf :: rest) (f : Bytes → PipeM α) :
    Pipe.read.bind f p = f buf { p with reads := rest } := by
  unfold PipeM.bind
  rw [read_cons buf p hp]

/-- The texts are valid UTF-8. -/
structure AcnTexts.Valid (T : AcnTexts) : Prop where
  decodeError : ∀ b, IsText (T.decodeError b)
  unexpectedMessage : ∀ m, IsText (T.unexpectedMessage m)

/-- A reader answers `buf` with the given code and text, and returns an error. -/
def RefusesWith {α : Type} (reader : PipeM α) (buf : Bytes) (code : Int) (text : Bytes) : Prop :=
  ∀ (p : Pipe) (rest : List (Option Bytes)), p.reads = some buf :: rest →
    ∃ e m, (reader p).1 = .err e ∧ Answers code text m ∧ (reader p).2.sent = p.sent ++ [m] ∧
      (reader p).2.reads = rest

theorem refusesWith_of {α : Type} {reader : Bytes → PipeM α} {buf text : Bytes} {code : StatusCode}
    {e : AcnErr} (ht : IsText text)
    (h : reader buf = (PipeM.ignoring (sendError text code)).bind fun _ => .fail e) :
    RefusesWith (Pipe.read.bind reader) buf code.toInt text := by
  intro p rest hp
  rw [bind_read hp, h]
  obtain ⟨m, hm, hr⟩ := sendError_fail (α := α) text code e { p with reads := rest } ht
  rw [hr]
  exact ⟨e, m, rfl, hm, rfl, rfl⟩

/-- **C48, partial.** Bytes that are not an ACN message are answered with a decode error (code 4)
and reported as an error by every reader of requests. -/
theorem C48_undecodable_answered_partial (T : AcnTexts) (hT : T.Valid) (buf : Bytes)
    (h : AcnMessage.decode buf = none) :
    RefusesWith (readRegistration T) buf 4 (T.decodeError buf) ∧
    RefusesWith (readLookupRequest T) buf 4 (T.decodeError buf) ∧
    RefusesWith (readEnvelope T) buf 4 (T.decodeError buf) ∧
    RefusesWith (handleFromPipe T) buf 4 (T.decodeError buf) := by
  refine ⟨refusesWith_of (code := .errorDecode) (hT.decodeError buf) (e := .decode) ?_,
    refusesWith_of (code := .errorDecode) (hT.decodeError buf) (e := .decode) ?_,
    refusesWith_of (code := .errorDecode) (hT.decodeError buf) (e := .decode) ?_,
    refusesWith_of (code := .errorDecode) (hT.decodeError buf) (e := .decode) ?_⟩
  · simp only [h]
  · simp only [h]
  · simp only [decodeAcnMessage, h, if_true]
  · simp only [decodeAcnMessage, h, if_true]

/-- **C48, partial.** An ACN message of another kind is answered with an unexpected-payload error
(code 2). Missing from the property: a status message read by `ReadEnvelopeMessage`. -/
theorem C48_unexpected_answered_partial (T : AcnTexts) (hT : T.Valid) (buf : Bytes) (m : AcnMessage)
    (h : AcnMessage.decode buf = some m) :
    ((∀ r, m ≠ some (.register r)) → RefusesWith (readRegistration T) buf 2 (b! "Unexpected payload")) ∧
    ((∀ a, m ≠ some (.lookupRequest a)) →
      RefusesWith (readLookupRequest T) buf 2 (b! "Unexpected payload")) ∧
    ((∀ e r, m ≠ some (.aeaEnvelope e r)) → (∀ b, m ≠ some (.status b)) →
      RefusesWith (readEnvelope T) buf 2 (T.unexpectedMessage m) ∧
      RefusesWith (handleFromPipe T) buf 2 (T.unexpectedMessage m)) := by
  have hu : IsText (b! "Unexpected payload") := (Proto.utf8Valid_iff _).1 (by decide)
  refine ⟨fun hm => ?_, fun hm => ?_, fun hm1 hm2 => ⟨?_, ?_⟩⟩
  · refine refusesWith_of (code := .errorUnexpectedPayload) hu (e := .unexpected) ?_
    rcases m with _ | ⟨_⟩ <;> simp only [h] <;> first | rfl | simp_all
  · refine refusesWith_of (code := .errorUnexpectedPayload) hu (e := .unexpected) ?_
    rcases m with _ | ⟨_⟩ <;> simp only [h] <;> first | rfl | simp_all
  · refine refusesWith_of (code := .errorUnexpectedPayload) (hT.unexpectedMessage m)
      (e := .unexpected) ?_
    rcases m with _ | ⟨_⟩ <;> simp only [decodeAcnMessage, h] <;> simp_all
  · refine refusesWith_of (code := .errorUnexpectedPayload) (hT.unexpectedMessage m)
      (e := .unexpected) ?_
    rcases m with _ | ⟨_⟩ <;> simp only [decodeAcnMessage, h] <;> simp_all

/-- **C48, partial.** An envelope message whose content is not an envelope is answered with a
decode error by the loop that serves agents and delegates. -/
theorem C48_bad_envelope_answered_partial (T : AcnTexts) (buf e : Bytes) (r : Option AgentRecord)
    (h : AcnMessage.decode buf = some (some (.aeaEnvelope e r))) (he : Envelope.decode e = none) :
    RefusesWith (handleFromPipe T) buf 4 (b! "error on decoding envelope") := by
  refine refusesWith_of (code := .errorDecode) (text := b! "error on decoding envelope") ((Proto.utf8Valid_iff _).1 (by decide))
    (e := .envelope) ?_
  simp only [decodeAcnMessage, h, he]

/-- No message to read: an error, and nothing is sent. -/
theorem C48_read_error (T : AcnTexts) (p : Pipe) (h : p.reads = [] ∨ ∃ rest, p.reads = none :: rest) :
    (readRegistration T p).1 = .err .read ∧ (readLookupRequest T p).1 = .err .read ∧
    (readEnvelope T p).1 = .err .read ∧ (handleFromPipe T p).1 = .err .read ∧
    (readStatus p).1 = .err .read ∧ (readLookupResponse p).1 = .err .read := by
  obtain ⟨reads, writes, sent⟩ := p
  dsimp only at h
  rcases h with h | ⟨rest, h⟩ <;> subst h <;>
    exact ⟨rfl, rfl, rfl, rfl, rfl, rfl⟩

theorem sendError_not_panic {α : Type} (text : Bytes) (code : StatusCode) (e : AcnErr) (p : Pipe) :
    (((PipeM.ignoring (sendError text code)).bind fun _ => (.fail e : PipeM α)) p).1 ≠ .panic := by
  unfold PipeM.bind PipeM.ignoring sendError
  have := sendMessage_not_panic (some (.status (some ⟨code.toInt, [text]⟩))) p
  generalize hg : sendMessage (some (.status (some ⟨code.toInt, [text]⟩))) p = g at *
  obtain ⟨r, p'⟩ := g
  cases r with
  | ok a => simp [PipeM.fail]
  | err e => simp [PipeM.fail]
  | panic => simp at this

/-- **C48, partial.** The readers of requests for registration, look-up and envelopes never crash
and neither does `ReadAcnStatus`; the loop that serves agents and delegates, and the reader of
look-up responses, crash exactly on a status message without body. -/
theorem C48_panic_iff_partial (T : AcnTexts) (p : Pipe) :
    (readRegistration T p).1 ≠ .panic ∧ (readLookupRequest T p).1 ≠ .panic ∧
    (readEnvelope T p).1 ≠ .panic ∧ (readStatus p).1 ≠ .panic ∧
    ((handleFromPipe T p).1 = .panic ↔
      ∃ buf rest, p.reads = some buf :: rest ∧ AcnMessage.decode buf = some (some (.status none))) ∧
    ((readLookupResponse p).1 = .panic ↔
      ∃ buf rest, p.reads = some buf :: rest ∧
        AcnMessage.decode buf = some (some (.status none))) := by
  rcases hr : p.reads with _ | ⟨_ | buf, rest⟩
  · obtain ⟨h1, h2, h3, h4, h5, h6⟩ := C48_read_error T p (.inl hr)
    rw [h1, h2, h3, h4, h5, h6]
    simp
  · obtain ⟨h1, h2, h3, h4, h5, h6⟩ := C48_read_error T p (.inr ⟨rest, hr⟩)
    rw [h1, h2, h3, h4, h5, h6]
    simp
  · unfold readRegistration readLookupRequest readEnvelope readStatus handleFromPipe readLookupResponse
    simp only [bind_read hr]
    have hex : (∃ b r, (some buf :: rest : List (Option Bytes)) = some b :: r ∧
        AcnMessage.decode b = some (some (.status none))) ↔
        AcnMessage.decode buf = some (some (.status none)) := by
      constructor
      · rintro ⟨b, r, h, hd⟩
        simp only [List.cons.injEq, Option.some.injEq] at h
        rw [h.1]; exact hd
      · intro hd; exact ⟨buf, rest, rfl, hd⟩
    simp only [hex]
    have hf : ∀ (α : Type) (e : AcnErr) (p : Pipe), ((PipeM.fail e : PipeM α) p).1 = .panic ↔ False :=
      fun α e p => by simp [PipeM.fail]
    have hp : ∀ (α : Type) (a : α) (p : Pipe), (PipeM.pure a p).1 = .panic ↔ False :=
      fun α e p => by simp [PipeM.pure]
    have hc : ∀ (α : Type) (p : Pipe), ((PipeM.crash : PipeM α) p).1 = .panic ↔ True :=
      fun α p => by simp [PipeM.crash]
    cases hd : AcnMessage.decode buf with
    | none => simp [decodeAcnMessage, hd, sendError_not_panic, hf]
    | some m =>
      rcases m with _ | ⟨e, r⟩ | a | r | r | b
      · simp [decodeAcnMessage, hd, sendError_not_panic, hf]
      · have he : ((match Envelope.decode e with
            | none => (PipeM.ignoring (sendError (b! "error on decoding envelope") .errorDecode)).bind
                fun _ => .fail .envelope
            | some env => sendSuccess.bind fun _ => .pure (.envelope env) : PipeM Handled)
              { p with reads := rest }).1 ≠ .panic := by
          cases Envelope.decode e with
          | none => exact sendError_not_panic _ _ _ _
          | some env =>
            have := sendMessage_not_panic (some (.status (some ⟨StatusCode.success.toInt, []⟩)))
              { p with reads := rest }
            simp only [PipeM.bind, sendSuccess]
            generalize sendMessage (some (.status (some ⟨StatusCode.success.toInt, []⟩)))
              { p with reads := rest } = g at *
            obtain ⟨r, p'⟩ := g
            cases r with
            | ok a => simp [PipeM.pure]
            | err e => simp
            | panic => simp at this
        simp only [decodeAcnMessage, hd]
        refine ⟨sendError_not_panic _ _ _ _, sendError_not_panic _ _ _ _, by simp [hp], by simp [hf],
          ?_, by simp [hf]⟩
        exact ⟨fun h => absurd h he, fun h => by simp at h⟩
      · simp [decodeAcnMessage, hd, sendError_not_panic, hf, hp]
      · simp [decodeAcnMessage, hd, sendError_not_panic, hf, hp]
      · simp [decodeAcnMessage, hd, sendError_not_panic, hf, hp]
      · cases b with
        | none => simp [decodeAcnMessage, hd, sendError_not_panic, hf, hp, hc]
        | some b => simp [decodeAcnMessage, hd, sendError_not_panic, hf, hp]

/-- **C48 is false**: two bytes from a delegate client, or from the peer asked in a look-up, crash
the node. -/
theorem C48_crash_counterexample (T : AcnTexts) (writes : List Bool) :
    (handleFromPipe T ⟨[some [0x4a, 0]], writes, []⟩).1 = .panic ∧
    (readLookupResponse ⟨[some [0x4a, 0]], writes, []⟩).1 = .panic := by
  have hd : AcnMessage.decode [0x4a, 0] = some (some (.status none)) := by decide
  exact ⟨(C48_panic_iff_partial T _).2.2.2.2.1.2 ⟨_, _, rfl, hd⟩,
    (C48_panic_iff_partial T _).2.2.2.2.2.2 ⟨_, _, rfl, hd⟩⟩

/-- **C48 is false**: a status sent where an envelope is expected gets no answer. -/
theorem C48_unanswered_counterexample (T : AcnTexts) (writes : List Bool) :
    readEnvelope T ⟨[some [0x4a, 0]], writes, []⟩ = (.err .unexpected, ⟨[], writes, []⟩) := by
  have hd : AcnMessage.decode [0x4a, 0] = some (some (.status none)) := by decide
  unfold readEnvelope
  rw [bind_read (buf := [0x4a, 0]) (rest := []) rfl]
  simp only [decodeAcnMessage, hd]
  rfl

/-! ## Concrete cases -/

namespace AcnDemo

/-- Fixed texts. -/
def T : AcnTexts := ⟨fun _ => b! "bad", fun _ => b! "odd"⟩

example : T.Valid := ⟨fun _ => (Proto.utf8Valid_iff _).1 rfl, fun _ => (Proto.utf8Valid_iff _).1 rfl⟩
-- a truncated message is answered with code 4
example : (handleFromPipe T ⟨[some [0x4a, 9]], [true], []⟩).1 = .err .decode := by decide
example : (handleFromPipe T ⟨[some [0x4a, 9]], [true], []⟩).2.sent =
    [[0x4a, 9, 0x0a, 7, 8, 4, 18, 3, 98, 97, 100]] := by decide
-- a look-up request sent to the registration service is answered with code 2
example : (readRegistration T ⟨[some [0x32, 0]], [true], []⟩).1 = .err .unexpected := by decide
-- a status with a body is passed on
example : (handleFromPipe T ⟨[some [0x4a, 2, 0x0a, 0]], [], []⟩).1 = .ok (.status ⟨0, []⟩) := by decide

-- an envelope message without an envelope is answered with code 4
example : (handleFromPipe T ⟨[some [0x2a, 3, 0x0a, 1, 0xff]], [true], []⟩).1 = .err .envelope := by decide
-- the end of the data is an error without an answer
example : (readEnvelope T ⟨[none], [true], []⟩).1 = .err .read := by decide
example : (readEnvelope T ⟨[none], [true], []⟩).2.sent = [] := by decide

end AcnDemo

end Verif
