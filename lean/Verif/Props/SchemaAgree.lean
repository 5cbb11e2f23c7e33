import Verif.Props.Definitions
import Verif.Lemmas.SchemaAgree

/-!
# C86: the messages that the nodes and agents exchange are those of their definitions

Property: envelopes, ACN messages, dialogue messages and the performative of a negotiation are written and read
as their definitions say; a limit on nesting does not concern the ACN.
-/

namespace Verif

open PB Proto

/-! ## Writing -/

theorem PB.raw_string {T : Type} (S : Schema T) (n : Nat) (b : Bytes) :
    rawField (⟨n, .string, .one⟩ : Field T) (wires S .string (sv b)) = optBytes n b := by
  unfold sv optBytes
  split <;> rfl

theorem PB.raw_bytes {T : Type} (S : Schema T) (n : Nat) (b : Bytes) :
    rawField (⟨n, .bytes, .one⟩ : Field T) (wires S .bytes (sv b)) = optBytes n b := by
  unfold sv optBytes
  split <;> rfl

theorem PB.raw_int32 {T : Type} (S : Schema T) (n : Nat) (i : Int) :
    rawField (⟨n, .int32, .one⟩ : Field T) (wires S .int32 (nv i)) = optInt32 n i := by
  unfold nv optInt32
  split <;> rfl

theorem PB.raw_enum {T : Type} (S : Schema T) (n : Nat) (i : Int) :
    rawField (⟨n, .enum, .one⟩ : Field T) (wires S .enum (nv i)) = optInt32 n i := by
  unfold nv optInt32
  split <;> rfl

theorem PB.raw_msg {T : Type} (S : Schema T) (n : Nat) (t : T) (o : Option (List (List Val))) :
    rawField (⟨n, .msg t, .one⟩ : Field T) (wires S (.msg t) (mv o)) = optMsg n (o.map (rawFields S (S t))) := by
  cases o <;> rfl

theorem PB.raw_strings {T : Type} (S : Schema T) (n : Nat) (l : List Bytes) :
    rawField (⟨n, .string, .many⟩ : Field T) (wires S .string (l.map .str)) = l.map fun m => ⟨n, .bytes m⟩ := by
  rw [wires_eq]
  simp [rawField, Kind.packs, wire]

theorem PB.texts_string {T : Type} (S : Schema T) (b : Bytes) : textsAll S .string (sv b) = utf8Valid b := by
  unfold sv
  split
  · next h => subst h; rfl
  · simp [textsAll, texts]

theorem PB.texts_bytes {T : Type} (S : Schema T) (b : Bytes) : textsAll S .bytes (sv b) = true := by
  unfold sv
  split <;> rfl

theorem PB.texts_num {T : Type} (S : Schema T) (k : Kind T) (i : Int) : textsAll S k (nv i) = true := by
  unfold nv
  split <;> rfl

theorem PB.texts_msg {T : Type} (S : Schema T) (t : T) (o : Option (List (List Val))) :
    textsAll S (.msg t) (mv o) = o.all (textsFields S (S t)) := by
  cases o <;> simp [mv, textsAll, texts]

theorem PB.texts_strings {T : Type} (S : Schema T) (l : List Bytes) :
    textsAll S .string (l.map .str) = l.all utf8Valid := by
  induction l with
  | nil => rfl
  | cons x l ih => simp [textsAll, texts, ih]

/-- Envelopes are written as defined. -/
theorem C86_envelope_write (e : Envelope) : PB.write base .envelope (ofEnvelope e) = e.encode := by
  unfold PB.write Envelope.encode bytesOf
  simp only [base, ofEnvelope, textsFields, rawFields, raw_string, raw_bytes, texts_string, texts_bytes,
    Envelope.utf8, Envelope.fields, Bool.true_and, Bool.and_true, List.append_nil, List.append_assoc, Bool.and_assoc]

/-- Envelopes are read as defined, with any limit. -/
theorem C86_envelope_read (b : Bytes) (n : Nat) :
    PB.readLimited base (n + 1) .envelope b = (Envelope.decode b).map ofEnvelope :=
  decodeInto_map (step_envelope _) Envelope.zero b

theorem PB.record_fields (r : AgentRecord) : rawFields acn (acn .record) (ofRecord r) = r.fields := by
  simp only [acn, ofRecord, rawFields, raw_string, AgentRecord.fields, List.append_nil, List.append_assoc]

theorem PB.record_texts (r : AgentRecord) : textsFields acn (acn .record) (ofRecord r) = r.utf8 := by
  simp only [acn, ofRecord, textsFields, texts_string, AgentRecord.utf8, Bool.and_true, Bool.and_assoc]

theorem PB.status_fields (s : StatusBody) : rawFields acn (acn .statusBody) (ofStatus s) = s.fields := by
  simp only [acn, ofStatus, rawFields, raw_enum, raw_strings, StatusBody.fields, List.append_nil]

theorem PB.status_texts (s : StatusBody) : textsFields acn (acn .statusBody) (ofStatus s) = s.utf8 := by
  simp only [acn, ofStatus, textsFields, texts_num, texts_strings, StatusBody.utf8, Bool.and_true, Bool.true_and]

theorem PB.performative_fields (p : Performative) :
    rawFields acn (acn (msgOf p)) (ofPerformative p) = p.fields := by
  have h1 : ∀ r : Option AgentRecord, (r.map ofRecord).map (rawFields acn (acn .record)) = r.map AgentRecord.fields := by
    intro r
    cases r <;> simp [record_fields]
  have h2 : ∀ r : Option StatusBody, (r.map ofStatus).map (rawFields acn (acn .statusBody)) = r.map StatusBody.fields := by
    intro r
    cases r <;> simp [status_fields]
  cases p with
  | aeaEnvelope e r =>
    show rawField _ (wires acn .bytes (sv e)) ++ (rawField _ (wires acn (.msg .record) (mv (r.map ofRecord))) ++ []) = _
    rw [raw_bytes, raw_msg, h1, List.append_nil]
    rfl
  | lookupRequest a =>
    show rawField _ (wires acn .string (sv a)) ++ [] = _
    rw [raw_string, List.append_nil]
    rfl
  | lookupResponse r =>
    show rawField _ (wires acn (.msg .record) (mv (r.map ofRecord))) ++ [] = _
    rw [raw_msg, h1, List.append_nil]
    rfl
  | register r =>
    show rawField _ (wires acn (.msg .record) (mv (r.map ofRecord))) ++ [] = _
    rw [raw_msg, h1, List.append_nil]
    rfl
  | status b =>
    show rawField _ (wires acn (.msg .statusBody) (mv (b.map ofStatus))) ++ [] = _
    rw [raw_msg, h2, List.append_nil]
    rfl

theorem PB.performative_texts (p : Performative) : textsFields acn (acn (msgOf p)) (ofPerformative p) = p.utf8 := by
  have h1 : ∀ r : Option AgentRecord, (r.map ofRecord).all (textsFields acn (acn .record)) = r.all AgentRecord.utf8 := by
    intro r
    cases r <;> simp [record_texts]
  have h2 : ∀ r : Option StatusBody, (r.map ofStatus).all (textsFields acn (acn .statusBody)) = r.all StatusBody.utf8 := by
    intro r
    cases r <;> simp [status_texts]
  cases p with
  | aeaEnvelope e r =>
    show (textsAll acn .bytes (sv e) && (textsAll acn (.msg .record) (mv (r.map ofRecord)) && true)) = _
    rw [texts_bytes, texts_msg, h1, Bool.and_true, Bool.true_and]
    rfl
  | lookupRequest a =>
    show (textsAll acn .string (sv a) && true) = _
    rw [texts_string, Bool.and_true]
    rfl
  | lookupResponse r =>
    show (textsAll acn (.msg .record) (mv (r.map ofRecord)) && true) = _
    rw [texts_msg, h1, Bool.and_true]
    rfl
  | register r =>
    show (textsAll acn (.msg .record) (mv (r.map ofRecord)) && true) = _
    rw [texts_msg, h1, Bool.and_true]
    rfl
  | status b =>
    show (textsAll acn (.msg .statusBody) (mv (b.map ofStatus)) && true) = _
    rw [texts_msg, h2, Bool.and_true]
    rfl

/-- ACN messages are written as defined. -/
theorem C86_acn_write (m : AcnMessage) : PB.write acn .message (ofAcn m) = m.encode := by
  unfold PB.write AcnMessage.encode bytesOf
  cases m with
  | none => rfl
  | some p =>
    have ht : textsFields acn (acn .message) (ofAcn (some p)) = p.utf8 := by
      rw [← performative_texts]
      cases p <;> simp [ofAcn, acn, msgOf, textsFields, textsAll, texts]
    have hf : rawFields acn (acn .message) (ofAcn (some p)) = [⟨p.number, .bytes (encodeFields p.fields)⟩] := by
      rw [← performative_fields]
      cases p <;> rfl
    rw [ht, hf]
    rfl

/-! ## Reading -/

theorem PB.ofAcn_some (q : Performative) :
    ofAcn (some q) = ([[], [], [], [], []] : List (List Val)).set (q.number - 5) [.msg (ofPerformative q)] := by
  cases q <;> rfl

theorem PB.ofAcn_clear (m : AcnMessage) : clearGroup 0 (acn .message) (ofAcn m) = [[], [], [], [], []] := by
  rcases m with _ | p
  · rfl
  · cases p <;> rfl

theorem PB.number_of {p q : Performative} (h : msgOf q = msgOf p) : q.number = p.number := by
  cases p <;> cases q <;> first | rfl | cases h

/-- One member. -/
theorem PB.step_member (n i : Nat) (m : AcnMessage) (v : Bytes) (p : Performative) (hi : p.number - 5 = i)
    (hp : intoOf acn (msgOf p) ((ofAcn m).getD i []) = ofPerformative p) :
    readField acn (readInto acn (n + 2)) (acn .message) ⟨p.number, .msg (msgOf p), .oneof 0⟩ i (ofAcn m) (.bytes v) =
      ((decodeInto Performative.step p v).map some).map ofAcn := by
  obtain ⟨h1, h2⟩ := read_performative n p v
  rw [field_oneof, hp, h1, ofAcn_clear, Option.map_map, Option.map_map]
  cases hd : decodeInto Performative.step p v with
  | none => rfl
  | some q =>
    simp only [Option.map_some, Function.comp]
    rw [ofAcn_some, number_of (h2 q hd), hi]

theorem PB.step_acn (n : Nat) (m : AcnMessage) (f : RawField) :
    readRaw acn (readInto acn (n + 2)) (acn .message) (ofAcn m) f = (AcnMessage.step m f).map ofAcn := by
  obtain ⟨num, w⟩ := f
  match num with
  | 0 | 1 | 2 | 3 | 4 => rfl
  | 5 =>
    cases w <;> first | rfl | (
      rw [readRaw_at 0 rfl rfl]
      rcases m with _ | (_ | _ | _ | _ | _)
      · exact step_member n 0 _ _ (.aeaEnvelope [] none) rfl rfl
      · exact step_member n 0 _ _ (.aeaEnvelope _ _) rfl rfl
      all_goals exact step_member n 0 _ _ (.aeaEnvelope [] none) rfl rfl)
  | 6 =>
    cases w <;> first | rfl | (
      rw [readRaw_at 1 rfl rfl]
      rcases m with _ | (_ | _ | _ | _ | _)
      · exact step_member n 1 _ _ (.lookupRequest []) rfl rfl
      · exact step_member n 1 _ _ (.lookupRequest []) rfl rfl
      · exact step_member n 1 _ _ (.lookupRequest _) rfl rfl
      all_goals exact step_member n 1 _ _ (.lookupRequest []) rfl rfl)
  | 7 =>
    cases w <;> first | rfl | (
      rw [readRaw_at 2 rfl rfl]
      rcases m with _ | (_ | _ | _ | _ | _)
      · exact step_member n 2 _ _ (.lookupResponse none) rfl rfl
      · exact step_member n 2 _ _ (.lookupResponse none) rfl rfl
      · exact step_member n 2 _ _ (.lookupResponse none) rfl rfl
      · exact step_member n 2 _ _ (.lookupResponse _) rfl rfl
      all_goals exact step_member n 2 _ _ (.lookupResponse none) rfl rfl)
  | 8 =>
    cases w <;> first | rfl | (
      rw [readRaw_at 3 rfl rfl]
      rcases m with _ | (_ | _ | _ | _ | _)
      · exact step_member n 3 _ _ (.register none) rfl rfl
      · exact step_member n 3 _ _ (.register none) rfl rfl
      · exact step_member n 3 _ _ (.register none) rfl rfl
      · exact step_member n 3 _ _ (.register none) rfl rfl
      · exact step_member n 3 _ _ (.register _) rfl rfl
      · exact step_member n 3 _ _ (.register none) rfl rfl)
  | 9 =>
    cases w <;> first | rfl | (
      rw [readRaw_at 4 rfl rfl]
      rcases m with _ | (_ | _ | _ | _ | _)
      · exact step_member n 4 _ _ (.status none) rfl rfl
      · exact step_member n 4 _ _ (.status none) rfl rfl
      · exact step_member n 4 _ _ (.status none) rfl rfl
      · exact step_member n 4 _ _ (.status none) rfl rfl
      · exact step_member n 4 _ _ (.status none) rfl rfl
      · exact step_member n 4 _ _ (.status _) rfl rfl)
  | n + 10 =>
    rw [readRaw_none (by simp [acn, List.findIdx?_cons])]
    rfl

/-- ACN messages are read as defined, with any limit of at least three. -/
theorem C86_acn_read (b : Bytes) (n : Nat) :
    PB.readLimited acn (n + 3) .message b = (AcnMessage.decode b).map ofAcn :=
  decodeInto_map (step_acn n) none b

/-- So a limit on nesting does not concern them. -/
theorem C86_acn_unlimited (b : Bytes) : PB.read acn .message b = (AcnMessage.decode b).map ofAcn := by
  rw [← C85_unlimited acn .message b (n := b.length + 3) (by omega)]
  exact C86_acn_read b b.length

/-- A smaller limit would: registering needs three. -/
theorem C86_acn_limit_tight : ∃ m b, AcnMessage.encode m = some b ∧ AcnMessage.decode b = some m ∧
    (PB.readLimited acn 2 .message b).isNone = true :=
  ⟨some (.register (some .zero)), _, rfl, by decide, by decide⟩

theorem PB.read_dialogue (n : Nat) (d : DialogueMessage) (b : Bytes) :
    readInto base (n + 1) .dialogue (ofDialogue d) b = (decodeInto DialogueMessage.step d b).map ofDialogue :=
  decodeInto_map (step_dialogue _) d b

/-- What the model keeps of a message: of a `Struct` its bytes, with their limit. -/
def SameMessage (n : Nat) : AeaMessage → List (List Val) → Prop
  | none, x => x = [[], []]
  | some (.body raw), x => ∃ s, PB.readLimited base n .struct raw = some s ∧ x = [[.msg s], []]
  | some (.dialogue d), x => x = [[], [.msg (ofDialogue d)]]

/-- The bytes that are a `Struct`, with a limit. -/
def structOkWithin (n : Nat) (b : Bytes) : Bool := (PB.readLimited base n .struct b).isSome

/-- The bytes that are a `Struct`. -/
def structOkOf (b : Bytes) : Bool := (PB.read base .struct b).isSome

theorem PB.struct_more (n : Nat) {raw v : Bytes} {s : List (List Val)} (h : PB.readLimited base n .struct raw = some s) :
    PB.readLimited base n .struct (raw ++ v) = readInto base n .struct s v := by
  unfold PB.readLimited at h ⊢
  cases n with
  | zero => cases h
  | succ n => exact decodeInto_append v h

theorem PB.step_message (n : Nat) (m : AeaMessage) (x : List (List Val)) (f : RawField) (h : SameMessage (n + 1) m x) :
    Agree (SameMessage (n + 1)) (AeaMessage.step (structOkWithin (n + 1)) m f)
      (readRaw base (readInto base (n + 1)) (base .message) x f) := by
  obtain ⟨num, w⟩ := f
  match num with
  | 0 => exact h
  | 1 =>
    cases w with
    | bytes v =>
      rw [readRaw_at 0 rfl rfl, field_oneof]
      simp only [AeaMessage.step]
      rcases m with _ | (raw | d)
      · cases h
        show Agree _ (if structOkWithin (n + 1) v = true then _ else _)
          (Option.map _ (PB.readLimited base (n + 1) .struct v))
        unfold structOkWithin
        cases hr : PB.readLimited base (n + 1) .struct v with
        | none => trivial
        | some s => exact ⟨s, hr, rfl⟩
      · obtain ⟨s, hs, rfl⟩ := h
        have hm := struct_more (n + 1) (v := v) hs
        have hi : (PB.readLimited base (n + 1) .struct v).isSome = (readInto base (n + 1) .struct s v).isSome :=
          readInto_indep base (n + 1) _ _ _ _
        show Agree _ (if structOkWithin (n + 1) v = true then _ else _)
          (Option.map _ (readInto base (n + 1) .struct s v))
        unfold structOkWithin
        rw [hi]
        cases hr : readInto base (n + 1) .struct s v with
        | none => trivial
        | some s' => exact ⟨s', hm.trans hr, rfl⟩
      · cases h
        show Agree _ (if structOkWithin (n + 1) v = true then _ else _)
          (Option.map _ (PB.readLimited base (n + 1) .struct v))
        unfold structOkWithin
        cases hr : PB.readLimited base (n + 1) .struct v with
        | none => trivial
        | some s => exact ⟨s, hr, rfl⟩
    | _ => exact h
  | 2 =>
    cases w with
    | bytes v =>
      rw [readRaw_at 1 rfl rfl, field_oneof]
      simp only [AeaMessage.step]
      rcases m with _ | (raw | d)
      · cases h
        show Agree _ _ (Option.map _ (readInto base (n + 1) .dialogue (ofDialogue .zero) v))
        rw [read_dialogue]
        simp only
        cases decodeInto DialogueMessage.step .zero v with
        | none => trivial
        | some d' => rfl
      · obtain ⟨s, hs, rfl⟩ := h
        show Agree _ _ (Option.map _ (readInto base (n + 1) .dialogue (ofDialogue .zero) v))
        rw [read_dialogue]
        simp only
        cases decodeInto DialogueMessage.step .zero v with
        | none => trivial
        | some d' => rfl
      · cases h
        show Agree _ _ (Option.map _ (readInto base (n + 1) .dialogue (ofDialogue d) v))
        rw [read_dialogue]
        simp only
        cases decodeInto DialogueMessage.step d v with
        | none => trivial
        | some d' => rfl
    | _ => exact h
  | k + 3 =>
    rw [readRaw_none (by simp [base, List.findIdx?_cons])]
    exact h

/-- Messages are read as defined: both readings fail, or both give the same message. -/
theorem C86_message_limited (b : Bytes) (n : Nat) :
    Agree (SameMessage (n + 1)) (AeaMessage.decode (structOkWithin (n + 1)) b)
      (PB.readLimited base (n + 2) .message b) :=
  decodeInto_sim (step_message n) (m := none) (m' := [[], []]) rfl b

/-- The same without a limit. -/
def SameMessageOf : AeaMessage → List (List Val) → Prop
  | none, x => x = [[], []]
  | some (.body raw), x => ∃ s, PB.read base .struct raw = some s ∧ x = [[.msg s], []]
  | some (.dialogue d), x => x = [[], [.msg (ofDialogue d)]]

theorem PB.structOk_congr {N : Nat} {b : Bytes} (hN : b.length < N) :
    AeaMessage.decode (structOkWithin N) b = AeaMessage.decode structOkOf b := by
  unfold AeaMessage.decode decodeInto
  cases hp : parse b with
  | none => rfl
  | some fs =>
    simp only [Option.bind_some]
    refine foldlM_congr_mem ?_ none
    intro f hf m
    obtain ⟨num, w⟩ := f
    match num with
    | 0 => rfl
    | 1 =>
      cases w with
      | bytes v =>
        have hlt : v.length < b.length := by
          have h1 := parse_minimal hp
          have := bytes_length_lt hf
          omega
        have hs : structOkWithin N v = structOkOf v := by
          unfold structOkWithin structOkOf
          rw [C85_unlimited base .struct v (n := N) (by omega)]
        simp only [AeaMessage.step, hs]
      | _ => rfl
    | 2 => cases w <;> rfl
    | k + 3 => rfl

/-- Messages are read as defined. -/
theorem C86_message_read (b : Bytes) :
    Agree SameMessageOf (AeaMessage.decode structOkOf b) (PB.read base .message b) := by
  have h := C86_message_limited b b.length
  rw [C85_unlimited base .message b (n := b.length + 2) (by omega),
    structOk_congr (N := b.length + 1) (by omega)] at h
  cases h1 : AeaMessage.decode structOkOf b <;> cases h2 : PB.read base .message b <;> rw [h1, h2] at h
  · trivial
  · cases h
  · cases h
  · next m x =>
    rcases m with _ | (raw | d)
    · exact h
    · obtain ⟨s, hs, hx⟩ := h
      exact ⟨s, C85_limit_agrees base hs, hx⟩
    · exact h

theorem PB.dialogue_fields (d : DialogueMessage) : rawFields base (base .dialogue) (ofDialogue d) = d.fields := by
  simp only [base, ofDialogue, rawFields, raw_string, raw_bytes, raw_int32, DialogueMessage.fields, List.append_nil,
    List.append_assoc]

theorem PB.dialogue_texts (d : DialogueMessage) : textsFields base (base .dialogue) (ofDialogue d) = d.utf8 := by
  simp only [base, ofDialogue, textsFields, texts_string, texts_bytes, texts_num, DialogueMessage.utf8, Bool.and_true,
    Bool.true_and]

theorem PB.message_write (d : DialogueMessage) : PB.write base .message [[], [.msg (ofDialogue d)]] =
    if d.utf8 then some (encodeFields (AeaMessage.fields (some (.dialogue d)))) else none := by
  unfold PB.write bytesOf
  have ht : textsFields base (base .message) [[], [.msg (ofDialogue d)]] = d.utf8 := by
    rw [← dialogue_texts]
    simp [base, textsFields, textsAll, texts]
  have hf : rawFields base (base .message) [[], [.msg (ofDialogue d)]] = AeaMessage.fields (some (.dialogue d)) := by
    unfold AeaMessage.fields
    simp only [← dialogue_fields]
    rfl
  rw [ht, hf]

/-- Dialogue messages are written as defined, if their references are texts; otherwise not at all. -/
theorem C86_message_write (d : DialogueMessage) :
    (IsText d.starterRef ∧ IsText d.responderRef → PB.write base .message [[], [.msg (ofDialogue d)]] =
      some (encodeFields (AeaMessage.fields (some (.dialogue d))))) ∧
    (¬ (IsText d.starterRef ∧ IsText d.responderRef) → PB.write base .message [[], [.msg (ofDialogue d)]] = none) := by
  have hu : d.utf8 = true ↔ IsText d.starterRef ∧ IsText d.responderRef := by
    simp only [DialogueMessage.utf8, Bool.and_eq_true, utf8Valid_iff]
  exact ⟨fun h => by rw [message_write, if_pos (hu.2 h)], fun h => by rw [message_write, if_neg (fun h' => h (hu.1 h'))]⟩

/-- The message of an envelope that is made for a response is the dialogue message as defined. -/
theorem C86_response (m : Message) (protocolId content : Bytes) (e : Envelope)
    (h : makeResponseEnvelope m protocolId content = .ok e) :
    PB.write base .message [[], [.msg [nv (toInt32 m.messageId), sv m.reference.starter, sv m.reference.responder,
      nv (toInt32 m.target), sv content]]] = some e.message := by
  unfold makeResponseEnvelope at h
  simp only at h
  split at h
  · next hu =>
    cases h
    exact (message_write ⟨toInt32 m.messageId, m.reference.starter, m.reference.responder, toInt32 m.target,
      content⟩).trans (if_pos hu)
  · cases h

/-! ## Negotiations -/

/-- Whether bytes are read is whether every field is. -/
theorem PB.decodeInto_all {M : Type} {step : M → RawField → Option M}
    (h : ∀ m m' f, (step m f).isSome = (step m' f).isSome) (b : Bytes) (m : M) :
    (decodeInto step m b).isSome = match parse b with
      | none => false
      | some fs => fs.all fun f => (step m f).isSome := by
  unfold decodeInto
  cases parse b with
  | none => rfl
  | some fs =>
    simp only [Option.bind_some]
    induction fs generalizing m with
    | nil => rfl
    | cons f fs ih =>
      rw [List.foldlM_cons, List.all_cons]
      cases hs : step m f with
      | none => rfl
      | some m1 =>
        simp only [Option.isSome_some, Bool.true_and]
        refine (ih m1).trans ?_
        congr 1
        funext f
        exact h m1 m f

theorem PB.readInto_all {T : Type} (S : Schema T) (n : Nat) (t : T) (m : List (List Val)) (b : Bytes) :
    (readInto S (n + 1) t m b).isSome = match parse b with
      | none => false
      | some fs => fs.all fun f => (readRaw S (readInto S n) (S t) m f).isSome :=
  decodeInto_all (readRaw_indep (readInto_indep S n) _) b m

/-- The definition of a member of the `oneof`. -/
def PB.fipaMember : Nat → FipaMsg
  | 5 => .accept
  | 6 => .acceptWInform
  | 7 => .cfp
  | 8 => .decline
  | 9 => .end_
  | 10 => .inform
  | 11 => .matchAccept
  | 12 => .matchAcceptWInform
  | _ => .propose

theorem PB.empty_ok (n : Nat) {t : FipaMsg} (ht : fipa t = []) (m : List (List Val)) (b : Bytes) :
    (readInto fipa (n + 1) t m b).isSome = (parse b).isSome := by
  rw [readInto_all, ht]
  cases parse b with
  | none => rfl
  | some fs => simp [readRaw]

theorem PB.inner_ok (n : Nat) {t : FipaMsg} (ht : fipa t = [⟨1, .bytes, .one⟩]) (m : List (List Val)) (b : Bytes) :
    (readInto fipa (n + 1) t m b).isSome = Fipa.innerOk b := by
  rw [readInto_all, ht]
  unfold Fipa.innerOk
  cases parse b with
  | none => rfl
  | some fs =>
    simp only [Option.isSome_some, List.all_eq_true]
    intro f _
    obtain ⟨num, w⟩ := f
    match num with
    | 0 => rfl
    | 1 => cases w <;> rfl
    | k + 2 => rw [readRaw_none (by simp [List.findIdx?_cons])]; rfl

theorem PB.entry_ok (n : Nat) (m : List (List Val)) (b : Bytes) :
    (readInto fipa (n + 1) .entry m b).isSome = Fipa.entryOk b := by
  rw [readInto_all]
  unfold Fipa.entryOk
  cases parse b with
  | none => rfl
  | some fs =>
    simp only
    congr 1
    funext f
    obtain ⟨num, w⟩ := f
    match num with
    | 0 => rfl
    | 1 =>
      cases w with
      | bytes v =>
        rw [readRaw_at 0 rfl rfl]
        simp only [readField, readVal, Option.isSome_map]
        cases utf8Valid v <;> rfl
      | _ => rfl
    | 2 =>
      cases w with
      | bytes v =>
        rw [readRaw_at 1 rfl rfl]
        simp only [readField, readVal, Option.isSome_map]
        cases utf8Valid v <;> rfl
      | _ => rfl
    | k + 3 => rw [readRaw_none (by simp [fipa, List.findIdx?_cons])]; rfl

/-- A member whose only field is a message. -/
theorem PB.holder_ok (n : Nat) {t t' : FipaMsg} {c : Card} (ht : fipa t = [⟨1, .msg t', c⟩]) (hc : c = .one ∨ c = .map)
    {ok : Bytes → Bool} (hok : ∀ m b, (readInto fipa (n + 1) t' m b).isSome = ok b) (m : List (List Val)) (b : Bytes) :
    (readInto fipa (n + 2) t m b).isSome = match parse b with
      | none => false
      | some fs => fs.all fun f => match f.num, f.val with
        | 1, .bytes w => ok w
        | _, _ => true := by
  rw [readInto_all, ht]
  cases parse b with
  | none => rfl
  | some fs =>
    simp only
    congr 1
    funext f
    obtain ⟨num, w⟩ := f
    match num with
    | 0 => rfl
    | 1 =>
      rw [readRaw_at 0 rfl rfl]
      rcases hc with rfl | rfl <;> cases w <;> first | rfl | (
        simp only [readField, readVal, Option.isSome_map]
        exact hok _ _)
    | k + 2 => rw [readRaw_none (by simp [List.findIdx?_cons])]; rfl

theorem PB.member_ok (n num : Nat) (h : 5 ≤ num ∧ num ≤ 13) (m : List (List Val)) (b : Bytes) :
    (readInto fipa (n + 2) (fipaMember num) m b).isSome = Fipa.memberOk num b := by
  have hempty : ∀ t : FipaMsg, fipa t = [] → (num = 5 ∨ num = 8 ∨ num = 9 ∨ num = 11) →
      (readInto fipa (n + 2) t m b).isSome = Fipa.memberOk num b := by
    intro t ht hn
    rw [empty_ok (n + 1) ht]
    unfold Fipa.memberOk
    cases parse b with
    | none => rfl
    | some fs =>
      simp only [Option.isSome_some]
      symm
      rw [List.all_eq_true]
      intro f _
      split
      · rw [if_neg (by omega), if_neg (by omega)]
      · rfl
  have hinner : ∀ t t' : FipaMsg, fipa t = [⟨1, .msg t', .one⟩] → fipa t' = [⟨1, .bytes, .one⟩] →
      (num = 7 ∨ num = 13) → (readInto fipa (n + 2) t m b).isSome = Fipa.memberOk num b := by
    intro t t' ht ht' hn
    rw [holder_ok n ht (.inl rfl) (inner_ok n ht')]
    unfold Fipa.memberOk
    simp only [if_pos hn]
    cases parse b <;> rfl
  have hentry : ∀ t : FipaMsg, fipa t = [⟨1, .msg .entry, .map⟩] → (num = 6 ∨ num = 10 ∨ num = 12) →
      (readInto fipa (n + 2) t m b).isSome = Fipa.memberOk num b := by
    intro t ht hn
    rw [holder_ok n ht (.inr rfl) (entry_ok n)]
    unfold Fipa.memberOk
    simp only [if_neg (show ¬ (num = 7 ∨ num = 13) by omega), if_pos hn]
    cases parse b <;> rfl
  match num, h with
  | 5, _ => exact hempty .accept rfl (by omega)
  | 6, _ => exact hentry .acceptWInform rfl (by omega)
  | 7, _ => exact hinner .cfp .query rfl rfl (by omega)
  | 8, _ => exact hempty .decline rfl (by omega)
  | 9, _ => exact hempty .end_ rfl (by omega)
  | 10, _ => exact hentry .inform rfl (by omega)
  | 11, _ => exact hempty .matchAccept rfl (by omega)
  | 12, _ => exact hentry .matchAcceptWInform rfl (by omega)
  | 13, _ => exact hinner .propose .description rfl rfl (by omega)

/-- A message without a performative, and one with a single member. -/
def SamePerformative : Option Nat → List (List Val) → Prop
  | none, x => x = List.replicate 9 []
  | some k, x => 5 ≤ k ∧ k ≤ 13 ∧ ∃ fs, x = (List.replicate 9 []).set (k - 5) [.msg fs]

theorem PB.same_clear {m : Option Nat} {x : List (List Val)} (h : SamePerformative m x) :
    clearGroup 0 (fipa .message) x = List.replicate 9 [] := by
  cases m with
  | none => cases h; rfl
  | some k =>
    obtain ⟨h1, h2, fs, rfl⟩ := h
    match k, h1, h2 with
    | 5, _, _ | 6, _, _ | 7, _, _ | 8, _, _ | 9, _, _ | 10, _, _ | 11, _, _ | 12, _, _ | 13, _, _ => rfl

theorem PB.fipa_at (num : Nat) (h : 5 ≤ num ∧ num ≤ 13) :
    (fipa .message).findIdx? (fun d => d.num == num) = some (num - 5) ∧
      (fipa .message)[num - 5]? = some ⟨num, .msg (fipaMember num), .oneof 0⟩ := by
  match num, h with
  | 5, _ | 6, _ | 7, _ | 8, _ | 9, _ | 10, _ | 11, _ | 12, _ | 13, _ => exact ⟨rfl, rfl⟩

theorem PB.fipa_not (num : Nat) (h : ¬ (5 ≤ num ∧ num ≤ 13)) :
    (fipa .message).findIdx? (fun d => d.num == num) = none := by
  rw [List.findIdx?_eq_none_iff]
  intro d hd
  simp only [beq_eq_false_iff_ne, ne_eq]
  simp only [fipa, List.mem_cons, List.not_mem_nil, or_false] at hd
  rcases hd with rfl | rfl | rfl | rfl | rfl | rfl | rfl | rfl | rfl <;> simp only <;> omega

theorem PB.step_fipa (n : Nat) (m : Option Nat) (x : List (List Val)) (f : RawField) (h : SamePerformative m x) :
    Agree SamePerformative (Fipa.step m f) (readRaw fipa (readInto fipa (n + 2)) (fipa .message) x f) := by
  obtain ⟨num, w⟩ := f
  by_cases hn : 5 ≤ num ∧ num ≤ 13
  · obtain ⟨h1, h2⟩ := fipa_at num hn
    rw [readRaw_at _ h1 h2]
    cases w with
    | bytes v =>
      rw [field_oneof, same_clear h]
      have hm := member_ok n num hn (intoOf fipa (fipaMember num) (x.getD (num - 5) [])) v
      simp only [Fipa.step, if_pos hn, ← hm]
      cases readInto fipa (n + 2) (fipaMember num) (intoOf fipa (fipaMember num) (x.getD (num - 5) [])) v with
      | none => trivial
      | some y => exact ⟨hn.1, hn.2, y, rfl⟩
    | _ => exact h
  · rw [readRaw_none (fipa_not num hn)]
    cases w with
    | bytes v =>
      simp only [Fipa.step, if_neg hn]
      exact h
    | _ => exact h

/-- The member of a message that is there. -/
def memberThere (x : List (List Val)) : Option Nat := (x.findIdx? fun vs => !vs.isEmpty).map (· + 5)

theorem PB.memberThere_eq {m : Option Nat} {x : List (List Val)} (h : SamePerformative m x) : memberThere x = m := by
  cases m with
  | none => cases h; rfl
  | some k =>
    obtain ⟨h1, h2, fs, rfl⟩ := h
    match k, h1, h2 with
    | 5, _, _ | 6, _, _ | 7, _, _ | 8, _, _ | 9, _, _ | 10, _, _ | 11, _, _ | 12, _, _ | 13, _, _ => rfl

/-- The performative of a negotiation is the member that the message has by its definition. -/
theorem C86_performative (b : Bytes) :
    Fipa.performativeOf b = (PB.read fipa .message b).bind fun x => (memberThere x).map Fipa.jsonName := by
  have h : Agree SamePerformative (decodeInto Fipa.step none b) (PB.readLimited fipa (b.length + 3) .message b) :=
    decodeInto_sim (step_fipa b.length) (m := none) (m' := List.replicate 9 []) rfl b
  rw [C85_unlimited fipa .message b (n := b.length + 3) (by omega)] at h
  unfold Fipa.performativeOf
  cases h1 : decodeInto Fipa.step none b <;> cases h2 : PB.read fipa .message b <;> rw [h1, h2] at h
  · rfl
  · cases h
  · cases h
  · next m x =>
    simp only [Option.bind_some]
    rw [memberThere_eq h]
    cases m <;> rfl

/-- The seller's proposal is the message that it builds, and the buyer reads that. -/
theorem C86_proposal :
    ∃ q, PB.write search .instance_ [[.msg [[.str (b! "string")], [], [.str (b! "desc")]]], []] = some q ∧
      PB.write fipa .message ((List.replicate 9 []).set 8 [.msg [[.msg [[.str q]]]]]) = some Seller.proposeContent := by
  refine ⟨_, rfl, ?_⟩
  decide +kernel

/-- And so is the match. -/
theorem C86_match : PB.write fipa .message ((List.replicate 9 []).set 6 [.msg []]) = some Seller.matchContent := by
  decide +kernel

/-! ## Examples -/

/-- A `Struct` is told from other bytes. -/
example : structOkOf (bytesOf base .struct [[.msg [[.str (b! "k")], [.msg [[], [], [.str (b! "v")], [], [], []]]]]]) = true ∧
    structOkOf [10, 2, 10, 5] = false ∧ structOkOf [10, 3, 10, 1, 255] = false := by
  decide +kernel

example : PB.write acn .message (ofAcn (some (.status (some ⟨2, [b! "no"]⟩)))) = some [74, 8, 10, 6, 8, 2, 18, 2, 110, 111] := by
  decide +kernel

end Verif
