import Verif.Spec.Merge
import Verif.Lemmas.ProtoConcat
import Verif.Props.Messages

/-!
# C54: messages of other versions
-/

namespace Verif

open Proto

theorem foldlM_text {M : Type} {step : M → RawField → Option M} {n : Nat} {v old : Bytes} {m : M}
    {set : Bytes → M} (hz : set old = m) (hs : step m ⟨n, .bytes v⟩ = some (set v)) :
    (optBytes n v).foldlM step m = some (set (Merge.text old v)) := by
  unfold optBytes Merge.text
  split
  · rename_i h; rw [hz]; rfl
  · simp [hs]

theorem foldlM_number {M : Type} {step : M → RawField → Option M} {n : Nat} {v old : Int} {m : M}
    {set : Int → M} (hz : set old = m) (hs : step m ⟨n, .varint (int32ToWire v)⟩ = some (set v)) :
    (optInt32 n v).foldlM step m = some (set (Merge.number old v)) := by
  unfold optInt32 Merge.number
  split
  · rename_i h; rw [hz]; rfl
  · simp [hs]

theorem Envelope.fold_merge {a b : Envelope} (h : b.utf8 = true) :
    b.fields.foldlM Envelope.step a = some (Merge.envelope a b) := by
  simp only [Envelope.utf8, Bool.and_eq_true] at h
  obtain ⟨⟨⟨h1, h2⟩, h3⟩, h4⟩ := h
  unfold Envelope.fields Merge.envelope
  refine foldlM_seq
    (foldlM_seq
    (foldlM_seq
    (foldlM_seq
    (foldlM_text (old := a.to) (set := fun v => ({ a with to := v } : Envelope)) rfl ?_)
    (foldlM_text (old := a.sender) (set := fun v => ({ a with to := Merge.text a.to b.to, sender := v } : Envelope)) rfl ?_))
    (foldlM_text (old := a.protocolId) (set := fun v => ({ a with to := Merge.text a.to b.to, sender := Merge.text a.sender b.sender, protocolId := v } : Envelope)) rfl ?_))
    (foldlM_text (old := a.message) (set := fun v => ({ a with to := Merge.text a.to b.to, sender := Merge.text a.sender b.sender, protocolId := Merge.text a.protocolId b.protocolId, message := v } : Envelope)) rfl ?_))
    (foldlM_text (old := a.uri) (set := fun v => ({ a with to := Merge.text a.to b.to, sender := Merge.text a.sender b.sender, protocolId := Merge.text a.protocolId b.protocolId, message := Merge.text a.message b.message, uri := v } : Envelope)) rfl ?_)
  all_goals simp [Envelope.step, strField, h1, h2, h3, h4]

theorem AgentRecord.fold_merge {a b : AgentRecord} (h : b.utf8 = true) :
    b.fields.foldlM AgentRecord.step a = some (Merge.record a b) := by
  simp only [AgentRecord.utf8, Bool.and_eq_true] at h
  obtain ⟨⟨⟨⟨⟨⟨⟨h1, h2⟩, h3⟩, h4⟩, h5⟩, h6⟩, h7⟩, h8⟩ := h
  unfold AgentRecord.fields Merge.record
  refine foldlM_seq
    (foldlM_seq
    (foldlM_seq
    (foldlM_seq
    (foldlM_seq
    (foldlM_seq
    (foldlM_seq
    (foldlM_text (old := a.serviceId) (set := fun v => ({ a with serviceId := v } : AgentRecord)) rfl ?_)
    (foldlM_text (old := a.ledgerId) (set := fun v => ({ a with serviceId := Merge.text a.serviceId b.serviceId, ledgerId := v } : AgentRecord)) rfl ?_))
    (foldlM_text (old := a.address) (set := fun v => ({ a with serviceId := Merge.text a.serviceId b.serviceId, ledgerId := Merge.text a.ledgerId b.ledgerId, address := v } : AgentRecord)) rfl ?_))
    (foldlM_text (old := a.publicKey) (set := fun v => ({ a with serviceId := Merge.text a.serviceId b.serviceId, ledgerId := Merge.text a.ledgerId b.ledgerId, address := Merge.text a.address b.address, publicKey := v } : AgentRecord)) rfl ?_))
    (foldlM_text (old := a.peerPublicKey) (set := fun v => ({ a with serviceId := Merge.text a.serviceId b.serviceId, ledgerId := Merge.text a.ledgerId b.ledgerId, address := Merge.text a.address b.address, publicKey := Merge.text a.publicKey b.publicKey, peerPublicKey := v } : AgentRecord)) rfl ?_))
    (foldlM_text (old := a.signature) (set := fun v => ({ a with serviceId := Merge.text a.serviceId b.serviceId, ledgerId := Merge.text a.ledgerId b.ledgerId, address := Merge.text a.address b.address, publicKey := Merge.text a.publicKey b.publicKey, peerPublicKey := Merge.text a.peerPublicKey b.peerPublicKey, signature := v } : AgentRecord)) rfl ?_))
    (foldlM_text (old := a.notBefore) (set := fun v => ({ a with serviceId := Merge.text a.serviceId b.serviceId, ledgerId := Merge.text a.ledgerId b.ledgerId, address := Merge.text a.address b.address, publicKey := Merge.text a.publicKey b.publicKey, peerPublicKey := Merge.text a.peerPublicKey b.peerPublicKey, signature := Merge.text a.signature b.signature, notBefore := v } : AgentRecord)) rfl ?_))
    (foldlM_text (old := a.notAfter) (set := fun v => ({ a with serviceId := Merge.text a.serviceId b.serviceId, ledgerId := Merge.text a.ledgerId b.ledgerId, address := Merge.text a.address b.address, publicKey := Merge.text a.publicKey b.publicKey, peerPublicKey := Merge.text a.peerPublicKey b.peerPublicKey, signature := Merge.text a.signature b.signature, notBefore := Merge.text a.notBefore b.notBefore, notAfter := v } : AgentRecord)) rfl ?_)
  all_goals simp [AgentRecord.step, strField, h1, h2, h3, h4, h5, h6, h7, h8]

theorem DialogueMessage.fold_merge {a b : DialogueMessage} (h1 : isInt32 b.messageId = true)
    (h2 : isInt32 b.target = true) (h : b.utf8 = true) :
    b.fields.foldlM DialogueMessage.step a = some (Merge.dialogue a b) := by
  simp only [DialogueMessage.utf8, Bool.and_eq_true] at h
  obtain ⟨h3, h4⟩ := h
  unfold DialogueMessage.fields Merge.dialogue
  refine foldlM_seq
    (foldlM_seq
    (foldlM_seq
    (foldlM_seq
    (foldlM_number (old := a.messageId) (set := fun v => ({ a with messageId := v } : DialogueMessage)) rfl ?_)
    (foldlM_text (old := a.starterRef) (set := fun v => ({ a with messageId := Merge.number a.messageId b.messageId, starterRef := v } : DialogueMessage)) rfl ?_))
    (foldlM_text (old := a.responderRef) (set := fun v => ({ a with messageId := Merge.number a.messageId b.messageId, starterRef := Merge.text a.starterRef b.starterRef, responderRef := v } : DialogueMessage)) rfl ?_))
    (foldlM_number (old := a.target) (set := fun v => ({ a with messageId := Merge.number a.messageId b.messageId, starterRef := Merge.text a.starterRef b.starterRef, responderRef := Merge.text a.responderRef b.responderRef, target := v } : DialogueMessage)) rfl ?_))
    (foldlM_text (old := a.content) (set := fun v => ({ a with messageId := Merge.number a.messageId b.messageId, starterRef := Merge.text a.starterRef b.starterRef, responderRef := Merge.text a.responderRef b.responderRef, target := Merge.number a.target b.target, content := v } : DialogueMessage)) rfl ?_)
  all_goals simp [DialogueMessage.step, strField, h3, h4, int32_round_trip h1, int32_round_trip h2]

theorem StatusBody.fold_merge {a b : StatusBody} (hc : isInt32 b.code = true) (h : b.utf8 = true) :
    b.fields.foldlM StatusBody.step a = some (Merge.status a b) := by
  simp only [StatusBody.utf8, List.all_eq_true] at h
  unfold StatusBody.fields Merge.status
  refine foldlM_seq (foldlM_number (old := a.code) (set := fun v => ⟨v, a.msgs⟩) rfl ?_)
    (StatusBody.fold_msgs _ _ h)
  simp [StatusBody.step, int32_round_trip hc]

theorem intoRecord_merge {r : Option AgentRecord} {b : AgentRecord} (h : b.utf8 = true)
    (hl : (encodeFields b.fields).length < 2 ^ 64) :
    Performative.intoRecord r (encodeFields b.fields) = some (Merge.opt Merge.record r (some b)) := by
  unfold Performative.intoRecord
  rw [decodeInto_encodeFields (AgentRecord.fields_ok hl)]
  cases r with
  | none => simp [AgentRecord.fold_fields h, Merge.opt]
  | some r => simp [AgentRecord.fold_merge h, Merge.opt]

theorem Performative.fields_ok {p : Performative} (hl : (encodeFields p.fields).length < 2 ^ 64) :
    ∀ f ∈ p.fields, f.Ok := by
  refine fields_ok_of hl ?_
  intro f hf
  cases p with
  | aeaEnvelope e r =>
    rcases List.mem_append.1 hf with hf | hf
    · exact optBytes_shape (by decide) (by decide) f hf
    · exact optMsg_shape (by decide) (by decide) f hf
  | lookupRequest a => exact optBytes_shape (by decide) (by decide) f hf
  | lookupResponse r => exact optMsg_shape (by decide) (by decide) f hf
  | register r => exact optMsg_shape (by decide) (by decide) f hf
  | status b => exact optMsg_shape (by decide) (by decide) f hf

theorem Performative.decodeInto_merge {p q : Performative} (hk : p.number = q.number)
    (h : q.utf8 = true) (hr : q.inRange = true) (hl : (encodeFields q.fields).length < 2 ^ 64) :
    decodeInto Performative.step p (encodeFields q.fields) = some (Merge.performative p q) := by
  rw [decodeInto_encodeFields (Performative.fields_ok hl)]
  cases q with
  | aeaEnvelope e' r' =>
    cases p <;> simp [Performative.number] at hk
    rename_i e r
    unfold Performative.fields Merge.performative
    refine foldlM_seq (foldlM_text (old := e) (set := fun v => Performative.aeaEnvelope v r) rfl
      (by simp [Performative.step])) ?_
    cases r' with
    | none => simp [optMsg, Merge.opt]
    | some r' =>
      have hl' : (encodeFields r'.fields).length < 2 ^ 64 := optMsg_length_lt (n := 2) hl (by
        simp [Performative.fields, optMsg])
      simp only [Performative.utf8, Option.all_some] at h
      simp [optMsg, Performative.step, intoRecord_merge h hl']
  | lookupRequest a' =>
    cases p <;> simp [Performative.number] at hk
    rename_i a
    unfold Performative.fields Merge.performative
    simp only [Performative.utf8] at h
    exact foldlM_text (old := a) (set := Performative.lookupRequest) rfl
      (by simp [Performative.step, strField, h])
  | lookupResponse r' =>
    cases p <;> simp [Performative.number] at hk
    unfold Performative.fields Merge.performative
    cases r' with
    | none => simp [optMsg, Merge.opt]
    | some r' =>
      have hl' : (encodeFields r'.fields).length < 2 ^ 64 := optMsg_length_lt (n := 1) hl (by
        simp [Performative.fields, optMsg])
      simp only [Performative.utf8, Option.all_some] at h
      simp [optMsg, Performative.step, intoRecord_merge h hl']
  | register r' =>
    cases p <;> simp [Performative.number] at hk
    unfold Performative.fields Merge.performative
    cases r' with
    | none => simp [optMsg, Merge.opt]
    | some r' =>
      have hl' : (encodeFields r'.fields).length < 2 ^ 64 := optMsg_length_lt (n := 1) hl (by
        simp [Performative.fields, optMsg])
      simp only [Performative.utf8, Option.all_some] at h
      simp [optMsg, Performative.step, intoRecord_merge h hl']
  | status b' =>
    cases p <;> simp [Performative.number] at hk
    rename_i b
    unfold Performative.fields Merge.performative
    cases b' with
    | none => simp [optMsg, Merge.opt]
    | some b' =>
      have hl' : (encodeFields b'.fields).length < 2 ^ 64 := optMsg_length_lt (n := 1) hl (by
        simp [Performative.fields, optMsg])
      simp only [Performative.utf8, Option.all_some] at h
      simp only [Performative.inRange] at hr
      have hd := decodeInto_encodeFields (step := StatusBody.step) (StatusBody.fields_ok hr hl')
        (b.getD .zero)
      cases b with
      | none => 
        rw [Option.getD_none, StatusBody.fold_fields hr h] at hd
        simp [optMsg, Performative.step, hd, Merge.opt]
      | some b =>
        rw [Option.getD_some, StatusBody.fold_merge hr h] at hd
        simp [optMsg, Performative.step, hd, Merge.opt]

theorem Merge.performative_other {p q : Performative} (h : p.number ≠ q.number) :
    Merge.performative p q = q := by
  cases p <;> cases q <;> simp_all [Performative.number, Merge.performative]

theorem AcnMessage.fields_ok {m : AcnMessage} (hl : (encodeFields m.fields).length < 2 ^ 64) :
    ∀ f ∈ m.fields, f.Ok := by
  refine fields_ok_of hl ?_
  intro f hf
  cases m with
  | none => simp [AcnMessage.fields] at hf
  | some p =>
    simp only [AcnMessage.fields, List.mem_singleton] at hf
    subst hf
    cases p <;> exact ⟨Nat.le_of_ble_eq_true rfl, Nat.le_of_ble_eq_true rfl, _, rfl⟩

theorem AcnMessage.decodeInto_merge {a b : AcnMessage} (h : b.utf8 = true)
    (hr : b.all Performative.inRange = true) (hl : (encodeFields b.fields).length < 2 ^ 64) :
    decodeInto AcnMessage.step a (encodeFields b.fields) = some (Merge.acn a b) := by
  rw [decodeInto_encodeFields (AcnMessage.fields_ok hl)]
  cases b with
  | none => cases a <;> rfl
  | some q =>
    have hl' : (encodeFields q.fields).length < 2 ^ 64 := optMsg_length_lt (n := q.number) hl (by
      simp [AcnMessage.fields])
    simp only [AcnMessage.utf8, Option.all_some] at h hr
    have hblank := Performative.decodeInto_encode h hr hl'
    have hfold : ∀ x, AcnMessage.step a ⟨q.number, .bytes (encodeFields q.fields)⟩ = some x →
        (AcnMessage.fields (some q)).foldlM AcnMessage.step a = some x := by
      intro x hx
      simp [AcnMessage.fields, hx]
    refine hfold _ ?_
    have hstep : AcnMessage.step a ⟨q.number, .bytes (encodeFields q.fields)⟩ =
        (decodeInto Performative.step (AcnMessage.member a q.number q.blank)
          (encodeFields q.fields)).map some := by
      cases q <;> rfl
    rw [hstep]
    cases a with
    | none => 
      simp only [AcnMessage.member, hblank, Merge.acn, Merge.opt]
      rfl
    | some p =>
      simp only [AcnMessage.member, Merge.acn, Merge.opt]
      by_cases hk : p.number = q.number
      · rw [if_pos hk, Performative.decodeInto_merge hk h hr hl']
        rfl
      · rw [if_neg hk, hblank, Merge.performative_other hk]
        rfl

/-! ## Repeated fields -/

/-- **C54.** Two encoded ACN messages after each other are read as one, combined by the published
rule. -/
theorem C54_acn_concat {m m' : AcnMessage} {b b' : Bytes} (h : m.encode = some b)
    (h' : m'.encode = some b') (hr : m.CodeFits) (hr' : m'.CodeFits) (hl : b.length < 2 ^ 64) (hl' : b'.length < 2 ^ 64) :
    AcnMessage.decode (b ++ b') = some (Merge.acn m m') := by
  have h1 := C18_acn_round_trip h hr hl
  obtain ⟨hu, rfl⟩ := AcnMessage.encode_eq h'
  unfold AcnMessage.decode at h1 ⊢
  rw [decodeInto_append _ h1]
  exact AcnMessage.decodeInto_merge hu ((AcnMessage.codeFits_iff m').2 hr') hl'

/-- **C54.** The same for envelopes. -/
theorem C54_envelope_concat {e e' : Envelope} {b b' : Bytes} (h : e.encode = some b)
    (h' : e'.encode = some b') (hl : b.length < 2 ^ 64) (hl' : b'.length < 2 ^ 64) :
    Envelope.decode (b ++ b') = some (Merge.envelope e e') := by
  have h1 := C19_envelope_round_trip h hl
  unfold Envelope.encode at h'
  split at h'
  · rename_i hu
    have := Option.some.inj h'
    subst this
    unfold Envelope.decode at h1 ⊢
    rw [decodeInto_append _ h1, decodeInto_encodeFields]
    · exact Envelope.fold_merge hu
    · refine fields_ok_of hl' ?_
      intro f hf
      simp only [Envelope.fields, List.mem_append] at hf
      rcases hf with (((hf | hf) | hf) | hf) | hf <;>
        exact optBytes_shape (by decide) (by decide) f hf
  · simp at h'

/-- **C54.** The same for the messages inside envelopes: two packed dialogue messages are unpacked
as one. -/
theorem C54_dialogue_concat {m m' : Message} {pid c c' : Bytes} {e e' : Envelope}
    {structOk : Bytes → Bool} (h : makeResponseEnvelope m pid c = .ok e)
    (h' : makeResponseEnvelope m' pid c' = .ok e')
    (hl : e.message.length < 2 ^ 64) (hl' : e'.message.length < 2 ^ 64) :
    AeaMessage.decode structOk (e.message ++ e'.message) = some (some (.dialogue
      (Merge.dialogue
        ⟨toInt32 m.messageId, m.reference.starter, m.reference.responder, toInt32 m.target, c⟩
        ⟨toInt32 m'.messageId, m'.reference.starter, m'.reference.responder, toInt32 m'.target,
          c'⟩))) := by
  unfold makeResponseEnvelope at h h'
  dsimp only at h h'
  split at h
  · split at h'
    · rename_i hu hu'
      have he := Res.ok.inj h
      have he' := Res.ok.inj h'
      subst he he'
      dsimp only at hl hl' ⊢
      have h1 := AeaMessage.decode_dialogue (structOk := structOk)
        (toInt32_isInt32 m.messageId) (toInt32_isInt32 m.target) hu hl
      unfold AeaMessage.decode at h1 ⊢
      rw [decodeInto_append _ h1, decodeInto_encodeFields]
      · have hl2 := optMsg_length_lt (n := 2) hl' (by
          simp only [AeaMessage.fields, List.mem_singleton]; rfl)
        have hd := decodeInto_encodeFields (step := DialogueMessage.step)
          (DialogueMessage.fields_ok (toInt32_isInt32 m'.messageId) (toInt32_isInt32 m'.target) hl2)
          ⟨toInt32 m.messageId, m.reference.starter, m.reference.responder, toInt32 m.target, c⟩
        rw [DialogueMessage.fold_merge (toInt32_isInt32 _) (toInt32_isInt32 _) hu'] at hd
        simp [AeaMessage.fields, AeaMessage.step, hd]
      · refine fields_ok_of hl' ?_
        intro f hf
        simp only [AeaMessage.fields, List.mem_singleton] at hf
        subst hf
        exact ⟨Nat.le_of_ble_eq_true rfl, Nat.le_of_ble_eq_true rfl, _, rfl⟩
    · simp at h'
  · simp at h

/-! ## Unknown fields -/

/-- The bytes are fields none of which has one of the given numbers. -/
def OnlyOtherFields (known : List Nat) (u : Bytes) : Prop :=
  ∃ fs, parse u = some fs ∧ ∀ f ∈ fs, f.num ∉ known

theorem decodeInto_other {M : Type} {step : M → RawField → Option M} {known : List Nat} {u : Bytes}
    (hs : ∀ m f, f.num ∉ known → step m f = some m) (hu : OnlyOtherFields known u) (m : M) :
    decodeInto step m u = some m := by
  obtain ⟨fs, hp, hk⟩ := hu
  unfold decodeInto
  rw [hp]
  show fs.foldlM step m = some m
  clear hp
  induction fs with
  | nil => rfl
  | cons f fs ih =>
    rw [List.foldlM_cons, hs m f (hk f (by simp))]
    exact ih fun g hg => hk g (by simp [hg])

/-- Fields that a message does not know are ignored, wherever a field may begin. -/
theorem decodeInto_insert {M : Type} {step : M → RawField → Option M} {known : List Nat}
    (hs : ∀ m f, f.num ∉ known → step m f = some m) {m m1 : M} {a u : Bytes} (b : Bytes)
    (ha : decodeInto step m a = some m1) (hu : OnlyOtherFields known u) :
    decodeInto step m (a ++ u ++ b) = decodeInto step m (a ++ b) := by
  rw [List.append_assoc, decodeInto_append _ ha, decodeInto_append _ ha,
    decodeInto_append _ (decodeInto_other hs hu m1)]

theorem AcnMessage.step_other (m : AcnMessage) (f : RawField) (h : f.num ∉ [5, 6, 7, 8, 9]) :
    AcnMessage.step m f = some m := by
  unfold AcnMessage.step
  split <;> simp_all

theorem Envelope.step_other (m : Envelope) (f : RawField) (h : f.num ∉ [1, 2, 3, 4, 5]) :
    Envelope.step m f = some m := by
  unfold Envelope.step
  split <;> simp_all

theorem AgentRecord.step_other (m : AgentRecord) (f : RawField)
    (h : f.num ∉ [1, 2, 3, 4, 5, 6, 7, 8]) : AgentRecord.step m f = some m := by
  unfold AgentRecord.step
  split <;> simp_all

/-- **C54.** Fields of an ACN message with numbers other than 5 to 9 are ignored, in front, behind and
between the known ones. -/
theorem C54_acn_unknown_ignored {a u : Bytes} (b : Bytes) (ha : (AcnMessage.decode a).isSome)
    (hu : OnlyOtherFields [5, 6, 7, 8, 9] u) :
    AcnMessage.decode (a ++ u ++ b) = AcnMessage.decode (a ++ b) := by
  obtain ⟨m, hm⟩ := Option.isSome_iff_exists.1 ha
  exact decodeInto_insert AcnMessage.step_other b hm hu

/-- **C54.** The same for envelopes. -/
theorem C54_envelope_unknown_ignored {a u : Bytes} (b : Bytes) (ha : (Envelope.decode a).isSome)
    (hu : OnlyOtherFields [1, 2, 3, 4, 5] u) :
    Envelope.decode (a ++ u ++ b) = Envelope.decode (a ++ b) := by
  obtain ⟨m, hm⟩ := Option.isSome_iff_exists.1 ha
  exact decodeInto_insert Envelope.step_other b hm hu

/-- **C54.** The same for agent records. -/
theorem C54_record_unknown_ignored {a u : Bytes} (b : Bytes) (ha : (AgentRecord.decode a).isSome)
    (hu : OnlyOtherFields [1, 2, 3, 4, 5, 6, 7, 8] u) :
    AgentRecord.decode (a ++ u ++ b) = AgentRecord.decode (a ++ b) := by
  obtain ⟨m, hm⟩ := Option.isSome_iff_exists.1 ha
  exact decodeInto_insert AgentRecord.step_other b hm hu

/-- **C54.** A registration whose record has been extended by a newer version is read as the
registration of the record as known here. -/
theorem C54_extended_registration {r : AgentRecord} {rb u : Bytes} (h : r.encode = some rb)
    (hl : (encodeFields [⟨8, .bytes (encodeFields [⟨1, .bytes (rb ++ u)⟩])⟩]).length < 2 ^ 64)
    (hu : OnlyOtherFields [1, 2, 3, 4, 5, 6, 7, 8] u) :
    AcnMessage.decode (encodeFields [⟨8, .bytes (encodeFields [⟨1, .bytes (rb ++ u)⟩])⟩]) =
      some (some (.register (some r))) := by
  have hl1 := optMsg_length_lt (n := 8) hl (List.mem_singleton.2 rfl)
  have hl2 : (rb ++ u).length < 2 ^ 64 := Nat.lt_trans (bytes_length_lt (List.mem_singleton.2 rfl)) hl1
  have hd := C18_record_round_trip h (by simp at hl2; omega)
  have hr : decodeInto AgentRecord.step .zero (rb ++ u) = some r := by
    unfold AgentRecord.decode at hd
    rw [decodeInto_append _ hd]
    exact decodeInto_other AgentRecord.step_other hu r
  have ok1 : ∀ f ∈ [(⟨1, .bytes (rb ++ u)⟩ : RawField)], f.Ok := by
    intro f hf; simp only [List.mem_singleton] at hf; subst hf
    exact ⟨Nat.le_of_ble_eq_true rfl, Nat.le_of_ble_eq_true rfl, hl2⟩
  have ok2 : ∀ f ∈ [(⟨8, .bytes (encodeFields [⟨1, .bytes (rb ++ u)⟩])⟩ : RawField)], f.Ok := by
    intro f hf; simp only [List.mem_singleton] at hf; subst hf
    exact ⟨Nat.le_of_ble_eq_true rfl, Nat.le_of_ble_eq_true rfl, hl1⟩
  unfold AcnMessage.decode
  rw [decodeInto_encodeFields ok2]
  have h1 : decodeInto Performative.step (.register none) (encodeFields [⟨1, .bytes (rb ++ u)⟩]) =
      some (.register (some r)) := by
    rw [decodeInto_encodeFields ok1]
    simp [Performative.step, Performative.intoRecord, hr]
  simp [AcnMessage.step, AcnMessage.member, h1]

/-! ## Concrete cases -/

/-- A field that no version here knows: number 15, a varint; and a group with number 20. -/
example : OnlyOtherFields [1, 2, 3, 4, 5] [0x78, 0x96, 0x01, 0xa3, 0x01, 0x08, 0x01, 0xa4, 0x01] :=
  ⟨[⟨15, .varint 150⟩, ⟨20, .group⟩], by decide, by decide⟩

example : Envelope.decode ([0x0a, 0x01, 0x61] ++ [0x78, 0x96, 0x01] ++ [0x12, 0x01, 0x62]) =
    some ⟨b! "a", b! "b", [], [], []⟩ := by decide

/-- Two status messages after each other: the code of the second, the texts of both. -/
example : Merge.acn (some (.status (some ⟨3, [b! "x"]⟩))) (some (.status (some ⟨7, [b! "y"]⟩))) =
    some (.status (some ⟨7, [b! "x", b! "y"]⟩)) := by decide

set_option maxRecDepth 100000 in
example : ((AcnMessage.encode (some (.status (some ⟨3, [b! "x"]⟩)))).bind fun a =>
      (AcnMessage.encode (some (.lookupRequest (b! "q")))).bind fun b => AcnMessage.decode (a ++ b)) =
    some (some (.lookupRequest (b! "q"))) := by decide

end Verif
