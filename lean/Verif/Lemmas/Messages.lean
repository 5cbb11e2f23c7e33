import Verif.Model.Messages
import Verif.Lemmas.Proto

/-!
# Round trips of the messages
-/

namespace Verif

open Proto

theorem optBytes_ok {n : Nat} {b : Bytes} (h1 : 1 ≤ n) (h2 : n ≤ 536870911)
    (hb : b.length < 2 ^ 64) : ∀ f ∈ optBytes n b, f.Ok := by
  intro f hf
  unfold optBytes at hf
  split at hf
  · simp at hf
  · simp only [List.mem_singleton] at hf
    subst hf
    exact ⟨h1, h2, hb⟩

theorem optInt32_ok {n : Nat} {i : Int} (h1 : 1 ≤ n) (h2 : n ≤ 536870911)
    (hb : isInt32 i = true) : ∀ f ∈ optInt32 n i, f.Ok := by
  intro f hf
  unfold optInt32 at hf
  split at hf
  · simp at hf
  · simp only [List.mem_singleton] at hf
    subst hf
    exact ⟨h1, h2, int32_wire_lt hb⟩

/-- The size of every bytes field is below the size of the encoding. -/
theorem bytes_length_lt {fs : List RawField} {n : Nat} {b : Bytes} (h : ⟨n, .bytes b⟩ ∈ fs) :
    b.length < (encodeFields fs).length := by
  induction fs with
  | nil => simp at h
  | cons f fs ih =>
    have he : encodeFields (f :: fs) = encodeField f ++ encodeFields fs := by simp [encodeFields]
    rw [he, List.length_append]
    rcases List.mem_cons.1 h with h | h
    · subst h
      have := varint_length_pos (n * 8 + 2)
      simp only [encodeField, List.length_append]
      omega
    · have := ih h
      omega

theorem optBytes_length_lt {fs : List RawField} {n N : Nat} {b : Bytes}
    (hl : (encodeFields fs).length < N) (h : ∀ f ∈ optBytes n b, f ∈ fs) : b.length < N := by
  unfold optBytes at h
  split at h
  · rename_i he; subst he; simp; omega
  · have := bytes_length_lt (h ⟨n, .bytes b⟩ (by simp))
    omega

theorem strField_valid {M : Type} {v : Bytes} {set : Bytes → M} (h : utf8Valid v = true) :
    strField v set = some (set v) := by simp [strField, h]

/-- One optional field in a decoding fold. -/
theorem foldlM_optBytes {M : Type} {step : M → RawField → Option M} {n : Nat} {v : Bytes} {m m' : M}
    (hz : v = [] → m' = m) (hs : step m ⟨n, .bytes v⟩ = some m') :
    (optBytes n v).foldlM step m = some m' := by
  unfold optBytes
  split
  · rename_i h; rw [hz h]; rfl
  · simp [hs]

theorem foldlM_optInt32 {M : Type} {step : M → RawField → Option M} {n : Nat} {i : Int} {m m' : M}
    (hz : i = 0 → m' = m) (hs : step m ⟨n, .varint (int32ToWire i)⟩ = some m') :
    (optInt32 n i).foldlM step m = some m' := by
  unfold optInt32
  split
  · rename_i h; rw [hz h]; rfl
  · simp [hs]

theorem foldlM_seq {M : Type} {step : M → RawField → Option M} {fs gs : List RawField} {m m1 m2 : M}
    (h1 : fs.foldlM step m = some m1) (h2 : gs.foldlM step m1 = some m2) :
    (fs ++ gs).foldlM step m = some m2 := by
  rw [List.foldlM_append, h1]
  exact h2

/-! ## Records -/

theorem AgentRecord.fields_ok {r : AgentRecord}
    (h : (encodeFields r.fields).length < 2 ^ 64) : ∀ f ∈ r.fields, f.Ok := by
  have len : ∀ n b, (∀ f ∈ optBytes n b, f ∈ r.fields) → b.length < 2 ^ 64 := fun n b hb =>
    optBytes_length_lt h hb
  intro f hf
  have key : ∀ n b, 1 ≤ n → n ≤ 536870911 → (∀ f ∈ optBytes n b, f ∈ r.fields) →
      f ∈ optBytes n b → f.Ok := fun n b h1 h2 hb hf => optBytes_ok h1 h2 (len n b hb) f hf
  simp only [AgentRecord.fields, List.mem_append] at hf
  rcases hf with ((((((hf | hf) | hf) | hf) | hf) | hf) | hf) | hf
  all_goals
    refine key _ _ (by decide) (by decide) ?_ hf
    intro g hg
    simp only [AgentRecord.fields, List.mem_append]
    simp [hg]

theorem AgentRecord.fold_fields {r : AgentRecord} (h : r.utf8 = true) :
    r.fields.foldlM AgentRecord.step .zero = some r := by
  simp only [AgentRecord.utf8, Bool.and_eq_true] at h
  obtain ⟨⟨⟨⟨⟨⟨⟨h1, h2⟩, h3⟩, h4⟩, h5⟩, h6⟩, h7⟩, h8⟩ := h
  unfold AgentRecord.fields
  refine foldlM_seq (m1 := ⟨r.serviceId, r.ledgerId, r.address, r.publicKey, r.peerPublicKey, r.signature, r.notBefore, []⟩) ?_ ?_
  · refine foldlM_seq (m1 := ⟨r.serviceId, r.ledgerId, r.address, r.publicKey, r.peerPublicKey, r.signature, [], []⟩) ?_ ?_
    · refine foldlM_seq (m1 := ⟨r.serviceId, r.ledgerId, r.address, r.publicKey, r.peerPublicKey, [], [], []⟩) ?_ ?_
      · refine foldlM_seq (m1 := ⟨r.serviceId, r.ledgerId, r.address, r.publicKey, [], [], [], []⟩) ?_ ?_
        · refine foldlM_seq (m1 := ⟨r.serviceId, r.ledgerId, r.address, [], [], [], [], []⟩) ?_ ?_
          · refine foldlM_seq (m1 := ⟨r.serviceId, r.ledgerId, [], [], [], [], [], []⟩) ?_ ?_
            · refine foldlM_seq (m1 := ⟨r.serviceId, [], [], [], [], [], [], []⟩) ?_ ?_
              · refine foldlM_optBytes (fun h => by simp [h, AgentRecord.zero]) ?_
                simp [AgentRecord.step, strField, h1, AgentRecord.zero]
              · refine foldlM_optBytes (fun h => by simp [h]) ?_
                simp [AgentRecord.step, strField, h2]
            · refine foldlM_optBytes (fun h => by simp [h]) ?_
              simp [AgentRecord.step, strField, h3]
          · refine foldlM_optBytes (fun h => by simp [h]) ?_
            simp [AgentRecord.step, strField, h4]
        · refine foldlM_optBytes (fun h => by simp [h]) ?_
          simp [AgentRecord.step, strField, h5]
      · refine foldlM_optBytes (fun h => by simp [h]) ?_
        simp [AgentRecord.step, strField, h6]
    · refine foldlM_optBytes (fun h => by simp [h]) ?_
      simp [AgentRecord.step, strField, h7]
  · refine foldlM_optBytes (fun h => by cases r; simp_all) ?_
    simp [AgentRecord.step, strField, h8]

theorem AgentRecord.decodeInto_encode {r : AgentRecord} (h : r.utf8 = true)
    (hl : (encodeFields r.fields).length < 2 ^ 64) :
    decodeInto AgentRecord.step .zero (encodeFields r.fields) = some r := by
  rw [decodeInto_encodeFields (AgentRecord.fields_ok hl)]
  exact AgentRecord.fold_fields h

/-! ## Status bodies -/

theorem StatusBody.fields_ok {s : StatusBody} (hc : isInt32 s.code = true)
    (h : (encodeFields s.fields).length < 2 ^ 64) : ∀ f ∈ s.fields, f.Ok := by
  intro f hf
  have hf' := hf
  simp only [StatusBody.fields, List.mem_append, List.mem_map] at hf
  rcases hf with hf | ⟨m, _, hf⟩
  · exact optInt32_ok (by decide) (by decide) hc f hf
  · subst hf
    exact ⟨Nat.le_of_ble_eq_true rfl, Nat.le_of_ble_eq_true rfl, Nat.lt_trans (bytes_length_lt hf') h⟩

theorem StatusBody.fold_msgs (l : List Bytes) (s : StatusBody) (h : ∀ m ∈ l, utf8Valid m = true) :
    (l.map fun m => (⟨2, .bytes m⟩ : RawField)).foldlM StatusBody.step s =
      some { s with msgs := s.msgs ++ l } := by
  induction l generalizing s with
  | nil => simp
  | cons m l ih =>
    have h1 := h m (by simp)
    have : StatusBody.step s ⟨2, .bytes m⟩ = some { s with msgs := s.msgs ++ [m] } := by
      simp [StatusBody.step, strField, h1]
    simp only [List.map_cons, List.foldlM_cons, this, Option.bind_eq_bind, Option.bind_some]
    rw [ih _ (fun x hx => h x (by simp [hx]))]
    simp

theorem StatusBody.fold_fields {s : StatusBody} (hc : isInt32 s.code = true) (h : s.utf8 = true) :
    s.fields.foldlM StatusBody.step .zero = some s := by
  simp only [StatusBody.utf8, List.all_eq_true] at h
  unfold StatusBody.fields
  refine foldlM_seq (m1 := ⟨s.code, []⟩) ?_ ?_
  · refine foldlM_optInt32 (fun h => by simp [h, StatusBody.zero]) ?_
    simp [StatusBody.step, int32_round_trip hc, StatusBody.zero]
  · rw [StatusBody.fold_msgs _ _ h]
    simp

theorem StatusBody.decodeInto_encode {s : StatusBody} (hc : isInt32 s.code = true)
    (h : s.utf8 = true) (hl : (encodeFields s.fields).length < 2 ^ 64) :
    decodeInto StatusBody.step .zero (encodeFields s.fields) = some s := by
  rw [decodeInto_encodeFields (StatusBody.fields_ok hc hl)]
  exact StatusBody.fold_fields hc h

/-! ## Performatives -/

theorem optMsg_length_lt {fs : List RawField} {n N : Nat} {g : List RawField}
    (hl : (encodeFields fs).length < N) (h : ⟨n, .bytes (encodeFields g)⟩ ∈ fs) :
    (encodeFields g).length < N := Nat.lt_trans (bytes_length_lt h) hl

theorem fields_ok_of {fs : List RawField} (hl : (encodeFields fs).length < 2 ^ 64)
    (h : ∀ f ∈ fs, 1 ≤ f.num ∧ f.num ≤ 536870911 ∧ ∃ b, f.val = .bytes b) : ∀ f ∈ fs, f.Ok := by
  intro f hf
  obtain ⟨h1, h2, b, hb⟩ := h f hf
  obtain ⟨n, v⟩ := f
  simp only at hb h1 h2
  subst hb
  exact ⟨h1, h2, Nat.lt_trans (bytes_length_lt hf) hl⟩

theorem optBytes_shape {n : Nat} {b : Bytes} (h1 : 1 ≤ n) (h2 : n ≤ 536870911) :
    ∀ f ∈ optBytes n b, 1 ≤ f.num ∧ f.num ≤ 536870911 ∧ ∃ b, f.val = .bytes b := by
  intro f hf
  unfold optBytes at hf
  split at hf
  · simp at hf
  · simp only [List.mem_singleton] at hf
    subst hf
    exact ⟨h1, h2, b, rfl⟩

theorem optMsg_shape {n : Nat} {g : Option (List RawField)} (h1 : 1 ≤ n) (h2 : n ≤ 536870911) :
    ∀ f ∈ optMsg n g, 1 ≤ f.num ∧ f.num ≤ 536870911 ∧ ∃ b, f.val = .bytes b := by
  intro f hf
  cases g with
  | none => simp [optMsg] at hf
  | some g =>
    simp only [optMsg, List.mem_singleton] at hf
    subst hf
    exact ⟨h1, h2, _, rfl⟩

/-- The empty performative of the same kind. -/
def Performative.blank : Performative → Performative
  | .aeaEnvelope _ _ => .aeaEnvelope [] none
  | .lookupRequest _ => .lookupRequest []
  | .lookupResponse _ => .lookupResponse none
  | .register _ => .register none
  | .status _ => .status none

theorem Performative.intoRecord_encode {r : AgentRecord} (h : r.utf8 = true)
    (hl : (encodeFields r.fields).length < 2 ^ 64) :
    Performative.intoRecord none (encodeFields r.fields) = some (some r) := by
  unfold Performative.intoRecord
  simp [AgentRecord.decodeInto_encode h hl]

theorem Performative.decodeInto_encode {p : Performative} (h : p.utf8 = true)
    (hr : p.inRange = true) (hl : (encodeFields p.fields).length < 2 ^ 64) :
    decodeInto Performative.step p.blank (encodeFields p.fields) = some p := by
  have hok : ∀ f ∈ p.fields, f.Ok := by
    refine fields_ok_of hl ?_
    intro f hf
    cases p with
    | aeaEnvelope e r =>
      rcases List.mem_append.1 hf with hf | hf
      · exact optBytes_shape (by decide) (by decide) f hf
      · exact optMsg_shape (by decide) (by decide) f hf
    | lookupRequest a => exact optBytes_shape (by decide) (by decide) f hf
    | lookupResponse r => exact optMsg_shape (by decide) (by decide) f hf
    | register r => exact optMsg_shape (by decide) (by decide) f hf
    | status b => exact optMsg_shape (by decide) (by decide) f hf
  rw [decodeInto_encodeFields hok]
  cases p with
  | aeaEnvelope e r =>
    unfold Performative.fields Performative.blank
    refine foldlM_seq (m1 := .aeaEnvelope e none) ?_ ?_
    · refine foldlM_optBytes (fun h => by rw [h]) ?_
      simp [Performative.step]
    · cases r with
      | none => rfl
      | some r =>
        have hl' : (encodeFields r.fields).length < 2 ^ 64 := optMsg_length_lt (n := 2) hl (by
          simp [Performative.fields, optMsg])
        simp only [Performative.utf8, Option.all_some] at h
        simp [optMsg, Performative.step, Performative.intoRecord_encode h hl']
  | lookupRequest a =>
    unfold Performative.fields Performative.blank
    refine foldlM_optBytes (fun h => by rw [h]) ?_
    simp only [Performative.utf8] at h
    simp [Performative.step, strField, h]
  | lookupResponse r =>
    unfold Performative.fields Performative.blank
    cases r with
    | none => rfl
    | some r =>
      have hl' : (encodeFields r.fields).length < 2 ^ 64 := optMsg_length_lt (n := 1) hl (by
        simp [Performative.fields, optMsg])
      simp only [Performative.utf8, Option.all_some] at h
      simp [optMsg, Performative.step, Performative.intoRecord_encode h hl']
  | register r =>
    unfold Performative.fields Performative.blank
    cases r with
    | none => rfl
    | some r =>
      have hl' : (encodeFields r.fields).length < 2 ^ 64 := optMsg_length_lt (n := 1) hl (by
        simp [Performative.fields, optMsg])
      simp only [Performative.utf8, Option.all_some] at h
      simp [optMsg, Performative.step, Performative.intoRecord_encode h hl']
  | status b =>
    unfold Performative.fields Performative.blank
    cases b with
    | none => rfl
    | some b =>
      have hl' : (encodeFields b.fields).length < 2 ^ 64 := optMsg_length_lt (n := 1) hl (by
        simp [Performative.fields, optMsg])
      simp only [Performative.utf8, Option.all_some] at h
      simp only [Performative.inRange] at hr
      simp [optMsg, Performative.step, StatusBody.decodeInto_encode hr h hl']

/-! ## ACN messages -/

theorem AcnMessage.decode_encode {m : AcnMessage} (h : m.utf8 = true)
    (hr : m.all Performative.inRange = true) (hl : (encodeFields m.fields).length < 2 ^ 64) :
    AcnMessage.decode (encodeFields m.fields) = some m := by
  unfold AcnMessage.decode
  cases m with
  | none => rfl
  | some p =>
    have hok : ∀ f ∈ AcnMessage.fields (some p), f.Ok := by
      refine fields_ok_of hl ?_
      intro f hf
      simp only [AcnMessage.fields, List.mem_singleton] at hf
      subst hf
      cases p <;> exact ⟨Nat.le_of_ble_eq_true rfl, Nat.le_of_ble_eq_true rfl, _, rfl⟩
    rw [decodeInto_encodeFields hok]
    have hl' : (encodeFields p.fields).length < 2 ^ 64 := optMsg_length_lt (n := p.number) hl (by
      simp [AcnMessage.fields])
    simp only [AcnMessage.utf8, Option.all_some] at h hr
    have := Performative.decodeInto_encode h hr hl'
    cases p <;>
      simp only [Performative.blank] at this <;>
      simp [AcnMessage.fields, Performative.number, AcnMessage.step, AcnMessage.member, this]

/-! ## Envelopes -/

theorem Envelope.decode_encode {e : Envelope} (h : e.utf8 = true)
    (hl : (encodeFields e.fields).length < 2 ^ 64) :
    Envelope.decode (encodeFields e.fields) = some e := by
  unfold Envelope.decode
  have hok : ∀ f ∈ e.fields, f.Ok := by
    refine fields_ok_of hl ?_
    intro f hf
    simp only [Envelope.fields, List.mem_append] at hf
    rcases hf with (((hf | hf) | hf) | hf) | hf <;>
      exact optBytes_shape (by decide) (by decide) f hf
  rw [decodeInto_encodeFields hok]
  simp only [Envelope.utf8, Bool.and_eq_true] at h
  obtain ⟨⟨⟨h1, h2⟩, h3⟩, h4⟩ := h
  unfold Envelope.fields
  refine foldlM_seq (m1 := ⟨e.to, e.sender, e.protocolId, e.message, []⟩) ?_ ?_
  · refine foldlM_seq (m1 := ⟨e.to, e.sender, e.protocolId, [], []⟩) ?_ ?_
    · refine foldlM_seq (m1 := ⟨e.to, e.sender, [], [], []⟩) ?_ ?_
      · refine foldlM_seq (m1 := ⟨e.to, [], [], [], []⟩) ?_ ?_
        · refine foldlM_optBytes (fun h => by simp [h, Envelope.zero]) ?_
          simp [Envelope.step, strField, h1, Envelope.zero]
        · refine foldlM_optBytes (fun h => by simp [h]) ?_
          simp [Envelope.step, strField, h2]
      · refine foldlM_optBytes (fun h => by simp [h]) ?_
        simp [Envelope.step, strField, h3]
    · refine foldlM_optBytes (fun h => by simp [h]) ?_
      simp [Envelope.step]
  · refine foldlM_optBytes (fun h => by cases e; simp_all) ?_
    simp [Envelope.step, strField, h4]

/-! ## Dialogue messages -/

theorem DialogueMessage.fields_ok {d : DialogueMessage} (h1 : isInt32 d.messageId = true)
    (h2 : isInt32 d.target = true) (hl : (encodeFields d.fields).length < 2 ^ 64) :
    ∀ f ∈ d.fields, f.Ok := by
  intro f hf
  have bytesOk : ∀ n b, 1 ≤ n → n ≤ 536870911 → (∀ f ∈ optBytes n b, f ∈ d.fields) →
      f ∈ optBytes n b → f.Ok := fun n b k1 k2 hb hf =>
    optBytes_ok k1 k2 (optBytes_length_lt hl hb) f hf
  simp only [DialogueMessage.fields, List.mem_append] at hf
  rcases hf with (((hf | hf) | hf) | hf) | hf
  · exact optInt32_ok (by decide) (by decide) h1 f hf
  · refine bytesOk _ _ (by decide) (by decide) ?_ hf
    intro g hg; simp [DialogueMessage.fields, hg]
  · refine bytesOk _ _ (by decide) (by decide) ?_ hf
    intro g hg; simp [DialogueMessage.fields, hg]
  · exact optInt32_ok (by decide) (by decide) h2 f hf
  · refine bytesOk _ _ (by decide) (by decide) ?_ hf
    intro g hg; simp [DialogueMessage.fields, hg]

theorem DialogueMessage.decodeInto_encode {d : DialogueMessage} (h1 : isInt32 d.messageId = true)
    (h2 : isInt32 d.target = true) (h : d.utf8 = true)
    (hl : (encodeFields d.fields).length < 2 ^ 64) :
    decodeInto DialogueMessage.step .zero (encodeFields d.fields) = some d := by
  rw [decodeInto_encodeFields (DialogueMessage.fields_ok h1 h2 hl)]
  simp only [DialogueMessage.utf8, Bool.and_eq_true] at h
  obtain ⟨h3, h4⟩ := h
  unfold DialogueMessage.fields
  refine foldlM_seq (m1 := ⟨d.messageId, d.starterRef, d.responderRef, d.target, []⟩) ?_ ?_
  · refine foldlM_seq (m1 := ⟨d.messageId, d.starterRef, d.responderRef, 0, []⟩) ?_ ?_
    · refine foldlM_seq (m1 := ⟨d.messageId, d.starterRef, [], 0, []⟩) ?_ ?_
      · refine foldlM_seq (m1 := ⟨d.messageId, [], [], 0, []⟩) ?_ ?_
        · refine foldlM_optInt32 (fun h => by simp [h, DialogueMessage.zero]) ?_
          simp [DialogueMessage.step, int32_round_trip h1, DialogueMessage.zero]
        · refine foldlM_optBytes (fun h => by simp [h]) ?_
          simp [DialogueMessage.step, strField, h3]
      · refine foldlM_optBytes (fun h => by simp [h]) ?_
        simp [DialogueMessage.step, strField, h4]
    · refine foldlM_optInt32 (fun h => by simp [h]) ?_
      simp [DialogueMessage.step, int32_round_trip h2]
  · refine foldlM_optBytes (fun h => by cases d; simp_all) ?_
    simp [DialogueMessage.step]

theorem AeaMessage.decode_dialogue {structOk : Bytes → Bool} {d : DialogueMessage}
    (h1 : isInt32 d.messageId = true) (h2 : isInt32 d.target = true) (h : d.utf8 = true)
    (hl : (encodeFields (AeaMessage.fields (some (.dialogue d)))).length < 2 ^ 64) :
    AeaMessage.decode structOk (encodeFields (AeaMessage.fields (some (.dialogue d)))) =
      some (some (.dialogue d)) := by
  unfold AeaMessage.decode
  have hok : ∀ f ∈ AeaMessage.fields (some (.dialogue d)), f.Ok := by
    refine fields_ok_of hl ?_
    intro f hf
    simp only [AeaMessage.fields, List.mem_singleton] at hf
    subst hf
    exact ⟨Nat.le_of_ble_eq_true rfl, Nat.le_of_ble_eq_true rfl, _, rfl⟩
  rw [decodeInto_encodeFields hok]
  have hl' : (encodeFields d.fields).length < 2 ^ 64 := optMsg_length_lt (n := 2) hl (by
    simp [AeaMessage.fields])
  simp [AeaMessage.fields, AeaMessage.step, DialogueMessage.decodeInto_encode h1 h2 h hl']

end Verif
