import Verif.Model.Wrap
import Verif.Lemmas.Messages
import Verif.Lemmas.Texts

/-!
# C15, C18, C19, C51: messages and envelopes on the wire
-/

namespace Verif

open Proto

theorem AcnMessage.encode_eq {m : AcnMessage} {b : Bytes} (h : m.encode = some b) :
    m.utf8 = true ∧ b = encodeFields m.fields := by
  unfold AcnMessage.encode at h
  split at h
  · rename_i hu; exact ⟨hu, (Option.some.inj h).symm⟩
  · simp at h

/-- **C18.** Decoding the encoding of an ACN message gives the message. That a status code is an
`int32` is guaranteed by the Go type; the length bound is beyond every address space. -/
theorem C18_acn_round_trip {m : AcnMessage} {b : Bytes} (h : m.encode = some b)
    (hr : m.CodeFits) (hl : b.length < 2 ^ 64) :
    AcnMessage.decode b = some m := by
  obtain ⟨hu, hb⟩ := AcnMessage.encode_eq h
  subst hb
  exact AcnMessage.decode_encode hu ((AcnMessage.codeFits_iff m).2 hr) hl

/-- **C18.** Different messages have different encodings. -/
theorem C18_acn_injective {m m' : AcnMessage} {b : Bytes} (h : m.encode = some b)
    (h' : m'.encode = some b) (hr : m.CodeFits) (hr' : m'.CodeFits) (hl : b.length < 2 ^ 64) : m = m' := by
  have h1 := C18_acn_round_trip h hr hl
  have h2 := C18_acn_round_trip h' hr' hl
  exact Option.some.inj (h1.symm.trans h2)

/-- **C18.** A message is encoded exactly if all its texts are UTF-8. -/
theorem C18_acn_encodes_iff (m : AcnMessage) :
    (∃ b, m.encode = some b) ↔ ∀ t ∈ m.texts, IsText t := by
  have hrec : ∀ r : Option AgentRecord,
      r.all AgentRecord.utf8 = true ↔ ∀ t ∈ (r.map AgentRecord.texts).getD [], IsText t := by
    intro r
    cases r with
    | none => simp
    | some r => simpa using AgentRecord.utf8_iff r
  have hm : m.all Performative.utf8 = true ↔ ∀ t ∈ m.texts, IsText t := by
    cases m with
    | none => simp [AcnMessage.texts]
    | some p =>
      cases p with
      | aeaEnvelope e r => exact hrec r
      | lookupRequest a => simp [AcnMessage.texts, Performative.utf8, utf8Valid_iff]
      | lookupResponse r => exact hrec r
      | register r => exact hrec r
      | status b =>
        cases b with
        | none => simp [AcnMessage.texts, Performative.utf8]
        | some b => simp [AcnMessage.texts, Performative.utf8, StatusBody.utf8, utf8Valid_iff]
  rw [← hm]
  unfold AcnMessage.encode AcnMessage.utf8
  split <;> rename_i h <;> simp [h]

/-- **C18.** The same for the agent records stored in the record file. -/
theorem C18_record_round_trip {r : AgentRecord} {b : Bytes} (h : r.encode = some b)
    (hl : b.length < 2 ^ 64) : AgentRecord.decode b = some r := by
  unfold AgentRecord.encode at h
  split at h
  · rename_i hu
    have hb := Option.some.inj h
    subst hb
    exact AgentRecord.decodeInto_encode hu hl
  · simp at h

/-- **C19.** Decoding the encoding of an envelope gives the envelope. -/
theorem C19_envelope_round_trip {e : Envelope} {b : Bytes} (h : e.encode = some b)
    (hl : b.length < 2 ^ 64) : Envelope.decode b = some e := by
  unfold Envelope.encode at h
  split at h
  · rename_i hu
    have hb := Option.some.inj h
    subst hb
    exact Envelope.decode_encode hu hl
  · simp at h

/-- **C19.** An envelope is encoded exactly if its texts are UTF-8. The message may be any bytes. -/
theorem C19_envelope_encodes_iff (e : Envelope) :
    (∃ b, e.encode = some b) ↔ IsText e.to ∧ IsText e.sender ∧ IsText e.protocolId ∧ IsText e.uri := by
  simp only [← utf8Valid_iff]
  unfold Envelope.encode Envelope.utf8
  split <;> rename_i h
  · simp only [Bool.and_eq_true] at h
    simp [h]
  · simp only [Bool.and_eq_true] at h
    simp only [reduceCtorEq, exists_false, false_iff]
    intro ⟨h1, h2, h3, h4⟩
    exact h ⟨⟨⟨h1, h2⟩, h3⟩, h4⟩

/-- **C15, partial.** What `makeResponseEnvelope` packs, the receiver unpacks: message id,
target, dialogue reference, content, sender and receiver are the same, and the performative is
the one of the content. Missing from the property: ids and targets outside the `int32` range,
for which it is false (`C15_narrowing_counterexample`). -/
theorem C15_message_survives_partial {m : Message} {pid content : Bytes} {e : Envelope}
    {structOk : Bytes → Bool} {performativeOf : Bytes → Option Bytes} {p : Bytes}
    (h : makeResponseEnvelope m pid content = .ok e) (hp : performativeOf content = some p)
    (hid : -2147483648 ≤ m.messageId ∧ m.messageId ≤ 2147483647)
    (ht : -2147483648 ≤ m.target ∧ m.target ≤ 2147483647)
    (hl : e.message.length < 2 ^ 64) :
    unwrapEnvelope structOk performativeOf e = .ok ({ m with performative := p }, content) := by
  unfold makeResponseEnvelope at h
  dsimp only at h
  split at h
  · rename_i hu
    have he := Res.ok.inj h
    subst he
    dsimp only at hl
    have e1 : toInt32 m.messageId = m.messageId := (toInt32_eq_iff _).2 (by
      simp [isInt32]; omega)
    have e2 : toInt32 m.target = m.target := (toInt32_eq_iff _).2 (by
      simp [isInt32]; omega)
    have := AeaMessage.decode_dialogue (structOk := structOk)
      (toInt32_isInt32 m.messageId) (toInt32_isInt32 m.target) hu hl
    unfold unwrapEnvelope
    dsimp only
    rw [this]
    simp only [hp, e1, e2]
  · simp at h

/-- **C15.** For ids and targets of any size the receiver sees them reduced to 32 bits; all
else survives. -/
theorem C15_message_survives_mod {m : Message} {pid content : Bytes} {e : Envelope}
    {structOk : Bytes → Bool} {performativeOf : Bytes → Option Bytes} {p : Bytes}
    (h : makeResponseEnvelope m pid content = .ok e) (hp : performativeOf content = some p)
    (hl : e.message.length < 2 ^ 64) :
    ∃ id tgt : Int, (id - m.messageId) % 2 ^ 32 = 0 ∧ (tgt - m.target) % 2 ^ 32 = 0 ∧
      unwrapEnvelope structOk performativeOf e =
        .ok ({ m with performative := p, messageId := id, target := tgt }, content) := by
  unfold makeResponseEnvelope at h
  dsimp only at h
  split at h
  · rename_i hu
    have he := Res.ok.inj h
    subst he
    dsimp only at hl
    have := AeaMessage.decode_dialogue (structOk := structOk)
      (toInt32_isInt32 m.messageId) (toInt32_isInt32 m.target) hu hl
    refine ⟨toInt32 m.messageId, toInt32 m.target, ?_, ?_, ?_⟩
    · unfold toInt32 int32OfWire; dsimp only; split <;> omega
    · unfold toInt32 int32OfWire; dsimp only; split <;> omega
    · unfold unwrapEnvelope
      simp only [this, hp]
  · simp at h

/-- **C15.** Packing fails exactly if a dialogue reference is not UTF-8. -/
theorem C15_packs_iff (m : Message) (pid content : Bytes) :
    (∃ e, makeResponseEnvelope m pid content = .ok e) ↔
      IsText m.reference.starter ∧ IsText m.reference.responder := by
  simp only [← utf8Valid_iff]
  unfold makeResponseEnvelope
  dsimp only
  split <;> rename_i h
  · simp only [DialogueMessage.utf8, Bool.and_eq_true] at h
    simp [h]
  · simp only [DialogueMessage.utf8, Bool.and_eq_true] at h
    simp only [reduceCtorEq, exists_false, false_iff]
    exact h

/-- **C15.** The ids are written as 64-bit numbers, so a reader that declares the fields with 64 bits
gets the same numbers: the envelope holds one dialogue message, and in it the fields 1 and 4 hold the
message id and the target modulo 2^64; a missing field stands for zero. -/
theorem C15_ids_on_wire {m : Message} {pid content : Bytes} {e : Envelope}
    (h : makeResponseEnvelope m pid content = .ok e)
    (hid : -2147483648 ≤ m.messageId ∧ m.messageId ≤ 2147483647)
    (ht : -2147483648 ≤ m.target ∧ m.target ≤ 2147483647)
    (hl : e.message.length < 2 ^ 64) :
    ∃ inner fs, parse e.message = some [⟨2, .bytes inner⟩] ∧ parse inner = some fs ∧
      (∀ v, ⟨1, v⟩ ∈ fs → ∃ n : Nat, v = .varint n ∧ n < 2 ^ 64 ∧ (n - m.messageId) % 2 ^ 64 = 0) ∧
      (∀ v, ⟨4, v⟩ ∈ fs → ∃ n : Nat, v = .varint n ∧ n < 2 ^ 64 ∧ (n - m.target) % 2 ^ 64 = 0) ∧
      ((∃ v, ⟨1, v⟩ ∈ fs) ↔ m.messageId ≠ 0) ∧ ((∃ v, ⟨4, v⟩ ∈ fs) ↔ m.target ≠ 0) := by
  unfold makeResponseEnvelope at h
  dsimp only at h
  split at h
  case isFalse => simp at h
  have he := Res.ok.inj h
  subst he
  dsimp only at hl ⊢
  have e1 : toInt32 m.messageId = m.messageId := (toInt32_eq_iff _).2 (by
    simp [isInt32]; omega)
  have e2 : toInt32 m.target = m.target := (toInt32_eq_iff _).2 (by
    simp [isInt32]; omega)
  rw [e1, e2] at hl ⊢
  have i1 : isInt32 m.messageId = true := by simp [isInt32]; omega
  have i2 : isInt32 m.target = true := by simp [isInt32]; omega
  have hl2 := optMsg_length_lt (n := 2) hl (by simp only [AeaMessage.fields, List.mem_singleton]; rfl)
  have wire : ∀ i : Int, isInt32 i = true → (int32ToWire i : Int) - i = 0 ∨ (int32ToWire i : Int) - i = 2 ^ 64 := by
    intro i hi
    simp [isInt32] at hi
    unfold int32ToWire
    split <;> omega
  have num : ∀ (k : Nat) (b : Bytes) (f : RawField), f ∈ optBytes k b → f.num = k := by
    intro k b f hf
    unfold optBytes at hf
    split at hf <;> simp at hf
    rw [hf]
  have num' : ∀ (k : Nat) (i : Int) (f : RawField), f ∈ optInt32 k i ↔
      i ≠ 0 ∧ f = ⟨k, .varint (int32ToWire i)⟩ := by
    intro k i f
    unfold optInt32
    split <;> simp_all
  refine ⟨_, _, parse_encodeFields (fs := AeaMessage.fields (some (.dialogue _))) ?_,
    parse_encodeFields (DialogueMessage.fields_ok i1 i2 hl2), ?_, ?_, ?_, ?_⟩
  · refine fields_ok_of hl ?_
    intro f hf
    simp only [AeaMessage.fields, List.mem_singleton] at hf
    subst hf
    exact ⟨Nat.le_of_ble_eq_true rfl, Nat.le_of_ble_eq_true rfl, _, rfl⟩
  · intro v hv
    simp only [DialogueMessage.fields, List.mem_append] at hv
    rcases hv with (((hv | hv) | hv) | hv) | hv
    · obtain ⟨_, hv⟩ := (num' _ _ _).1 hv
      cases hv
      exact ⟨_, rfl, int32_wire_lt i1, by rcases wire _ i1 with h | h <;> rw [h] <;> decide⟩
    · cases num _ _ _ hv
    · cases num _ _ _ hv
    · obtain ⟨_, hv⟩ := (num' _ _ _).1 hv; cases hv
    · cases num _ _ _ hv
  · intro v hv
    simp only [DialogueMessage.fields, List.mem_append] at hv
    rcases hv with (((hv | hv) | hv) | hv) | hv
    · obtain ⟨_, hv⟩ := (num' _ _ _).1 hv; cases hv
    · cases num _ _ _ hv
    · cases num _ _ _ hv
    · obtain ⟨_, hv⟩ := (num' _ _ _).1 hv
      cases hv
      exact ⟨_, rfl, int32_wire_lt i2, by rcases wire _ i2 with h | h <;> rw [h] <;> decide⟩
    · cases num _ _ _ hv
  · constructor
    · rintro ⟨v, hv⟩
      simp only [DialogueMessage.fields, List.mem_append] at hv
      rcases hv with (((hv | hv) | hv) | hv) | hv
      · exact ((num' _ _ _).1 hv).1
      · cases num _ _ _ hv
      · cases num _ _ _ hv
      · obtain ⟨_, hv⟩ := (num' _ _ _).1 hv; cases hv
      · cases num _ _ _ hv
    · intro hne
      refine ⟨.varint (int32ToWire m.messageId), ?_⟩
      simp only [DialogueMessage.fields, List.mem_append]
      exact .inl (.inl (.inl (.inl ((num' _ _ _).2 ⟨hne, rfl⟩))))
  · constructor
    · rintro ⟨v, hv⟩
      simp only [DialogueMessage.fields, List.mem_append] at hv
      rcases hv with (((hv | hv) | hv) | hv) | hv
      · obtain ⟨_, hv⟩ := (num' _ _ _).1 hv; cases hv
      · cases num _ _ _ hv
      · cases num _ _ _ hv
      · exact ((num' _ _ _).1 hv).1
      · cases num _ _ _ hv
    · intro hne
      refine ⟨.varint (int32ToWire m.target), ?_⟩
      simp only [DialogueMessage.fields, List.mem_append]
      exact .inl (.inr ((num' _ _ _).2 ⟨hne, rfl⟩))

/-- **C15 is false** for a message id beyond `int32`: message 2^32 + 1 arrives as message 1. -/
theorem C15_narrowing_counterexample :
    ∃ (m : Message) (e : Envelope), makeResponseEnvelope m (b! "fipa") (b! "c") = .ok e ∧
      m.messageId = 4294967297 ∧
      unwrapEnvelope (fun _ => true) (fun _ => some (b! "cfp")) e =
        .ok ({ m with messageId := 1 }, b! "c") := by
  refine ⟨⟨b! "bob", b! "alice", ⟨b! "n", []⟩, 4294967297, 0, b! "cfp"⟩, _, rfl, rfl, ?_⟩
  decide

/-- **C51.** Unpacking never crashes, whatever bytes an envelope carries. The hypothesis says
that an empty content has no populated field, which holds for every protobuf message. -/
theorem C51_unwrap_never_crashes (structOk : Bytes → Bool) (performativeOf : Bytes → Option Bytes)
    (hempty : performativeOf [] = none) (e : Envelope) :
    (unwrapEnvelope structOk performativeOf e).NoPanic := by
  unfold unwrapEnvelope
  split
  · trivial
  · rename_i m _
    dsimp only
    cases m with
    | none => simp only [hempty]; trivial
    | some b =>
      cases b with
      | body r => simp only [hempty]; trivial
      | dialogue d =>
        dsimp only
        split <;> trivial

/-- **C51.** An envelope without dialogue message is refused. -/
theorem C51_no_dialogue_refused (structOk : Bytes → Bool) (performativeOf : Bytes → Option Bytes)
    (hempty : performativeOf [] = none) (e : Envelope)
    (h : ∀ d, AeaMessage.decode structOk e.message ≠ some (some (.dialogue d))) :
    ∃ w, unwrapEnvelope structOk performativeOf e = .err w := by
  unfold unwrapEnvelope
  split
  · exact ⟨_, rfl⟩
  · rename_i m hm
    cases m with
    | none => simp only [hempty]; exact ⟨_, rfl⟩
    | some b =>
      cases b with
      | body r => simp only [hempty]; exact ⟨_, rfl⟩
      | dialogue d => exact absurd hm (h d)

/-! ## Concrete cases -/

namespace WireDemo

/-- A registration as a delegate sends it. -/
def record : AgentRecord :=
  ⟨b! "acn", b! "fetchai", b! "fetch1abc", b! "02aa", b! "03bb", b! "sig", b! "2021-01-01", b! "2022-01-01"⟩

example : AcnMessage.encode (some (.lookupRequest (b! "ab"))) =
    some [0x32, 0x04, 0x0a, 0x02, 0x61, 0x62] := by decide

example : AcnMessage.encode (some (.status (some ⟨-1, [b! "x", []]⟩))) =
    some [0x4a, 0x12, 0x0a, 0x10, 0x08, 0xff, 0xff, 0xff, 0xff, 0xff, 0xff, 0xff, 0xff, 0xff, 0x01,
      0x12, 0x01, 0x78, 0x12, 0x00] := by decide

set_option maxRecDepth 100000 in
example : (AcnMessage.encode (some (.register (some record)))).bind AcnMessage.decode =
    some (some (.register (some record))) := by decide

set_option maxRecDepth 100000 in
example : (AcnMessage.encode (some (.status (some ⟨-1, [b! "x", []]⟩)))).bind AcnMessage.decode =
    some (some (.status (some ⟨-1, [b! "x", []]⟩))) := by decide

/-- A nil record and an empty record are told apart. -/
example : AcnMessage.encode (some (.register none)) = some [0x42, 0x00] ∧
    AcnMessage.encode (some (.register (some .zero))) = some [0x42, 0x02, 0x0a, 0x00] := by decide

example : AcnMessage.encode (some (.lookupRequest [0xff])) = none := by decide

example : (Envelope.encode ⟨b! "to", b! "me", b! "p/q:1.0.0", [0, 255, 7], []⟩).bind Envelope.decode =
    some ⟨b! "to", b! "me", b! "p/q:1.0.0", [0, 255, 7], []⟩ := by decide

/-- Decoding accepts other orders and repeated fields; the last one counts. -/
example : Envelope.decode [0x12, 0x01, 0x61, 0x0a, 0x01, 0x62, 0x12, 0x01, 0x63] =
    some ⟨b! "b", b! "c", [], [], []⟩ := by decide

/-- A `Struct` body is not a dialogue message and is refused. -/
example : unwrapEnvelope (fun _ => true) (fun c => if c = [] then none else some (b! "cfp"))
    ⟨b! "bob", b! "alice", b! "p", [0x0a, 0x00], []⟩ = .err .content := by decide

end WireDemo

end Verif
