import Verif.Lemmas.Decoded
import Verif.Props.Messages

/-!
# C56: what is received can be passed on

`proto.Marshal` fails on text that is not UTF-8. A message that came in through `proto.Unmarshal`
never has such text.
-/

namespace Verif

open Proto

/-- **C56.** A received ACN message can be written again, and is then read as the same message. -/
theorem C56_acn_passed_on {b : Bytes} {m : AcnMessage} (h : AcnMessage.decode b = some m) :
    ∃ b', m.encode = some b' ∧ (b'.length < 2 ^ 64 → AcnMessage.decode b' = some m) := by
  have hg : m.utf8 = true ∧ m.all Performative.inRange = true := by
    cases m with
    | none => exact ⟨rfl, rfl⟩
    | some p => exact ⟨(AcnMessage.decode_good h).1, (AcnMessage.decode_good h).2⟩
  have he : m.encode = some (encodeFields m.fields) := by
    unfold AcnMessage.encode
    rw [if_pos hg.1]
  exact ⟨_, he, fun hl => C18_acn_round_trip he (AcnMessage.codeFits hg.2) hl⟩

/-- **C56.** The texts of a received ACN message are UTF-8, and a status code fits 32 bits. -/
theorem C56_acn_text {b : Bytes} {m : AcnMessage} (h : AcnMessage.decode b = some m) :
    (∀ t ∈ m.texts, IsText t) ∧
    ∀ s, m = some (.status (some s)) → -2147483648 ≤ s.code ∧ s.code ≤ 2147483647 := by
  obtain ⟨b', he, _⟩ := C56_acn_passed_on h
  refine ⟨(C18_acn_encodes_iff m).1 ⟨b', he⟩, ?_⟩
  intro s hs
  subst hs
  have := (AcnMessage.decode_good h).2
  simp [Performative.inRange, isInt32] at this
  omega

/-- **C56.** The same for envelopes; written again an envelope is not longer than it came. -/
theorem C56_envelope_passed_on {b : Bytes} {e : Envelope} (h : Envelope.decode b = some e) :
    ∃ b', e.encode = some b' ∧ b'.length ≤ b.length ∧
      (b.length < 2 ^ 64 → Envelope.decode b' = some e) := by
  have hu : e.utf8 = true :=
    decodeInto_inv (P := fun e => e.utf8 = true) Envelope.step_utf8 h (by decide)
  have he : e.encode = some (encodeFields e.fields) := by
    unfold Envelope.encode
    rw [if_pos hu]
  have hl : (encodeFields e.fields).length ≤ b.length := by
    have := decodeInto_size (size := fun e => (encodeFields e.fields).length) Envelope.step_size h
    simpa [Envelope.zero, Envelope.fields, optBytes, encodeFields] using this
  exact ⟨_, he, hl, fun hb => C19_envelope_round_trip he (by omega)⟩

/-- **C56.** The same for agent records. -/
theorem C56_record_passed_on {b : Bytes} {r : AgentRecord} (h : AgentRecord.decode b = some r) :
    ∃ b', r.encode = some b' ∧ b'.length ≤ b.length ∧
      (b.length < 2 ^ 64 → AgentRecord.decode b' = some r) := by
  have hu : r.utf8 = true := AgentRecord.decodeInto_utf8 h AgentRecord.zero_utf8
  have he : r.encode = some (encodeFields r.fields) := by
    unfold AgentRecord.encode
    rw [if_pos hu]
  have hl : (encodeFields r.fields).length ≤ b.length := by
    have := AgentRecord.decodeInto_size h
    simpa [AgentRecord.zero, AgentRecord.fields, optBytes, encodeFields] using this
  exact ⟨_, he, hl, fun hb => C18_record_round_trip he (by omega)⟩

/-- **C56.** The record in a received ACN message can be written on its own, is not longer than the
message, and is then read as the same record. -/
theorem C56_contained_record_passed_on {b : Bytes} {p : Performative} {r : AgentRecord}
    (h : AcnMessage.decode b = some (some p))
    (hp : (∃ x, p = .aeaEnvelope x (some r)) ∨ p = .lookupResponse (some r) ∨ p = .register (some r)) :
    ∃ b', r.encode = some b' ∧ b'.length ≤ b.length ∧
      (b.length < 2 ^ 64 → AgentRecord.decode b' = some r) := by
  have hr : p.record = some r := by
    rcases hp with ⟨x, rfl⟩ | rfl | rfl <;> rfl
  have hu : r.utf8 = true := by
    have := (AcnMessage.decode_good h).1
    rcases hp with ⟨x, rfl⟩ | rfl | rfl <;> simpa [Performative.utf8] using this
  have he : r.encode = some (encodeFields r.fields) := by
    unfold AgentRecord.encode
    rw [if_pos hu]
  have hl : (encodeFields r.fields).length ≤ b.length := by
    have := AcnMessage.decode_size h
    simpa [AcnMessage.recordSize, Performative.recordSize, recordLength, hr] using this
  exact ⟨_, he, hl, fun hb => C18_record_round_trip he (by omega)⟩

/-- **C56.** A dialogue message that was unpacked can be packed again, under any protocol id, and is then
unpacked as the same message. -/
theorem C56_dialogue_passed_on {structOk : Bytes → Bool} {performativeOf : Bytes → Option Bytes}
    {e : Envelope} {m : Message} {c : Bytes} (h : unwrapEnvelope structOk performativeOf e = .ok (m, c))
    (pid : Bytes) :
    ∃ e', makeResponseEnvelope m pid c = .ok e' ∧
      (e'.message.length < 2 ^ 64 → unwrapEnvelope structOk performativeOf e' = .ok (m, c)) := by
  unfold unwrapEnvelope at h
  cases hd : AeaMessage.decode structOk e.message with
  | none => rw [hd] at h; simp at h
  | some x =>
    rw [hd] at h
    dsimp only at h
    split at h
    · simp at h
    · rename_i p hp
      rcases x with _ | ⟨raw⟩ | ⟨d⟩
      · simp at h
      · simp at h
      · simp only [Res.ok.injEq, Prod.mk.injEq] at h
        obtain ⟨hm, hc⟩ := h
        obtain ⟨h1, h2, h3⟩ := AeaMessage.decode_good hd
        simp only [DialogueMessage.utf8, Bool.and_eq_true, utf8Valid_iff] at h1
        obtain ⟨e', he'⟩ := (C15_packs_iff m pid c).2 (by rw [← hm]; exact h1)
        refine ⟨e', he', fun hl => ?_⟩
        simp only [isInt32, Bool.and_eq_true, decide_eq_true_eq] at h2 h3
        have := C15_message_survives_partial (structOk := structOk) (performativeOf := performativeOf)
          (p := p) he' (by rw [← hc]; exact hp)
          (by rw [← hm]; dsimp only; omega) (by rw [← hm]; dsimp only; omega) hl
        rw [this, ← hm]

namespace PassOnDemo

/-- A record with a field that is given twice and a padded length: three bytes longer than needed. -/
def padded : Bytes := [26, 1, 97, 26, 0x82, 0, 98, 99]

example : AgentRecord.decode padded = some { AgentRecord.zero with address := b! "bc" } := by decide
example : { AgentRecord.zero with address := b! "bc" }.encode = some [26, 2, 98, 99] := by decide

/-- A status whose code takes five bytes and, written again, ten: status messages may get longer. -/
def status : Bytes := [74, 8, 10, 6, 8, 0xFF, 0xFF, 0xFF, 0xFF, 0x0F]

set_option maxRecDepth 10000 in
example : AcnMessage.decode status = some (some (.status (some ⟨-1, []⟩))) := by decide

/-- **C56, not longer fails for status messages.** -/
theorem longer : ∃ m b', AcnMessage.decode status = some m ∧ m.encode = some b' ∧
    b'.length = status.length + 5 := by
  refine ⟨some (.status (some ⟨-1, []⟩)), _, ?_, rfl, ?_⟩
  · set_option maxRecDepth 10000 in decide
  · set_option maxRecDepth 10000 in
    have h : varint 18446744073709551615 =
        [255, 255, 255, 255, 255, 255, 255, 255, 255, 1] := by
      have e : ∀ n, 0 < n → ∀ k, n ≤ k → varintAux k n =
          if n < 128 then [n.toUInt8] else (n % 128 + 128).toUInt8 :: varint (n / 128) := by
        intro n hn k hk
        cases k with
        | zero => omega
        | succ k =>
          simp only [varintAux]
          split
          · rfl
          · rw [varint, varintAux_fuel (f := k) (f' := n / 128) (by omega) (by omega)]
      repeat (rw [varint, e _ (by decide) _ (Nat.le_refl _)]; simp only [reduceIte, Nat.reduceLT, Nat.reduceMod, Nat.reduceAdd, Nat.reduceDiv])
      rfl
    simp [AcnMessage.fields, Performative.fields, StatusBody.fields, optMsg, optInt32, int32ToWire,
      encodeFields, encodeField, Performative.number, status, h]
    decide

end PassOnDemo

end Verif
