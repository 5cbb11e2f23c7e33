import Verif.Model.Definitions
import Verif.Model.Seller
import Verif.Lemmas.SchemaRead
import Verif.Lemmas.ProtoConcat

/-!
# The messages of the models as messages of their definitions
-/

namespace Verif.PB

open Proto

variable {T : Type} {S : Schema T}

/-! ## Reading is accepted or not whatever is there -/

/-- Whether it reads does not depend on the message that is there. -/
def Indep (r : Reader T) : Prop := ∀ t m m' b, (r t m b).isSome = (r t m' b).isSome

theorem readVal_indep {sub : Reader T} (h : Indep sub) (k : Kind T) (o o' : Option Val) (w : WireVal) :
    (readVal S sub k o w).isSome = (readVal S sub k o' w).isSome := by
  cases k <;> cases w <;> simp only [readVal, Option.isSome_map]
  exact h _ _ _ _

theorem readField_indep {sub : Reader T} (h : Indep sub) (ds : List (Field T)) (d : Field T) (i : Nat)
    (m m' : List (List Val)) (w : WireVal) :
    (readField S sub ds d i m w).isSome = (readField S sub ds d i m' w).isSome := by
  unfold readField
  cases d.card <;> simp only [Option.isSome_map]
  case many => cases d.kind.packs <;> cases w <;> simp only [Option.isSome_map]
  all_goals exact readVal_indep h _ _ _ _

theorem readRaw_indep {sub : Reader T} (h : Indep sub) (ds : List (Field T)) (m m' : List (List Val)) (f : RawField) :
    (readRaw S sub ds m f).isSome = (readRaw S sub ds m' f).isSome := by
  unfold readRaw
  cases ds.findIdx? fun d => d.num == f.num with
  | none => rfl
  | some i =>
    simp only
    cases ds[i]? with
    | none => rfl
    | some d => exact readField_indep h _ _ _ _ _ _

theorem foldlM_indep {M : Type} {step : M → RawField → Option M}
    (h : ∀ m m' f, (step m f).isSome = (step m' f).isSome) (fs : List RawField) (m m' : M) :
    (fs.foldlM step m).isSome = (fs.foldlM step m').isSome := by
  induction fs generalizing m m' with
  | nil => rfl
  | cons f fs ih =>
    rw [List.foldlM_cons, List.foldlM_cons]
    have := h m m' f
    cases h1 : step m f <;> cases h2 : step m' f <;> simp_all
    exact ih _ _

theorem decodeInto_indep {M : Type} {step : M → RawField → Option M}
    (h : ∀ m m' f, (step m f).isSome = (step m' f).isSome) (b : Bytes) (m m' : M) :
    (decodeInto step m b).isSome = (decodeInto step m' b).isSome := by
  unfold decodeInto
  cases parse b with
  | none => rfl
  | some fs => exact foldlM_indep h fs m m'

theorem readInto_indep (S : Schema T) (n : Nat) : Indep (readInto S n) := by
  induction n with
  | zero => intro t m m' b; rfl
  | succ n ih =>
    intro t m m' b
    exact decodeInto_indep (readRaw_indep ih _) b m m'

/-! ## Simulation -/

/-- Both fail, or both succeed with results that are related. -/
def Agree {M M' : Type} (R : M → M' → Prop) : Option M → Option M' → Prop
  | some a, some a' => R a a'
  | none, none => True
  | _, _ => False

theorem foldlM_sim {M M' : Type} {step : M → RawField → Option M} {step' : M' → RawField → Option M'}
    {R : M → M' → Prop} (h : ∀ m m' f, R m m' → Agree R (step m f) (step' m' f)) (fs : List RawField) : ∀ m m', R m m' →
    Agree R (fs.foldlM step m) (fs.foldlM step' m') := by
  induction fs with
  | nil => exact fun m m' hr => hr
  | cons f fs ih =>
    intro m m' hr
    have := h m m' f hr
    rw [List.foldlM_cons, List.foldlM_cons]
    cases h1 : step m f <;> cases h2 : step' m' f <;> simp only [h1, h2] at this
    · trivial
    · cases this
    · cases this
    · exact ih _ _ this

theorem decodeInto_sim {M M' : Type} {step : M → RawField → Option M} {step' : M' → RawField → Option M'}
    {R : M → M' → Prop} (h : ∀ m m' f, R m m' → Agree R (step m f) (step' m' f)) {m : M} {m' : M'} (hr : R m m')
    (b : Bytes) : Agree R (decodeInto step m b) (decodeInto step' m' b) := by
  unfold decodeInto
  cases parse b with
  | none => trivial
  | some fs => exact foldlM_sim h fs m m' hr

theorem foldlM_map {M M' : Type} {step : M → RawField → Option M} {step' : M' → RawField → Option M'}
    {e : M → M'} (h : ∀ m f, step' (e m) f = (step m f).map e) (fs : List RawField) (m : M) :
    fs.foldlM step' (e m) = (fs.foldlM step m).map e := by
  induction fs generalizing m with
  | nil => rfl
  | cons f fs ih =>
    rw [List.foldlM_cons, List.foldlM_cons, h]
    cases step m f with
    | none => rfl
    | some a => exact ih a

theorem decodeInto_map {M M' : Type} {step : M → RawField → Option M} {step' : M' → RawField → Option M'}
    {e : M → M'} (h : ∀ m f, step' (e m) f = (step m f).map e) (m : M) (b : Bytes) :
    decodeInto step' (e m) b = (decodeInto step m b).map e := by
  unfold decodeInto
  cases parse b with
  | none => rfl
  | some fs => exact foldlM_map h fs m

/-! ## Embeddings -/

/-- A single string. -/
def sv (b : Bytes) : List Val := if b = [] then [] else [.str b]

/-- A single number. -/
def nv (i : Int) : List Val := if i = 0 then [] else [.num i]

/-- A single message. -/
def mv : Option (List (List Val)) → List Val
  | none => []
  | some m => [.msg m]

/-- An envelope. -/
def ofEnvelope (e : Envelope) : List (List Val) := [sv e.to, sv e.sender, sv e.protocolId, sv e.message, sv e.uri]

/-- A record. -/
def ofRecord (r : AgentRecord) : List (List Val) :=
  [sv r.serviceId, sv r.ledgerId, sv r.address, sv r.publicKey, sv r.peerPublicKey, sv r.signature, sv r.notBefore,
    sv r.notAfter]

/-- A status. -/
def ofStatus (s : StatusBody) : List (List Val) := [nv s.code, s.msgs.map .str]

/-- The message of a performative. -/
def ofPerformative : Performative → List (List Val)
  | .aeaEnvelope e r => [sv e, mv (r.map ofRecord)]
  | .lookupRequest a => [sv a]
  | .lookupResponse r => [mv (r.map ofRecord)]
  | .register r => [mv (r.map ofRecord)]
  | .status b => [mv (b.map ofStatus)]

/-- An ACN message. -/
def ofAcn : AcnMessage → List (List Val)
  | none => [[], [], [], [], []]
  | some (.aeaEnvelope e r) => [[.msg (ofPerformative (.aeaEnvelope e r))], [], [], [], []]
  | some (.lookupRequest a) => [[], [.msg (ofPerformative (.lookupRequest a))], [], [], []]
  | some (.lookupResponse r) => [[], [], [.msg (ofPerformative (.lookupResponse r))], [], []]
  | some (.register r) => [[], [], [], [.msg (ofPerformative (.register r))], []]
  | some (.status b) => [[], [], [], [], [.msg (ofPerformative (.status b))]]

/-- A dialogue message. -/
def ofDialogue (d : DialogueMessage) : List (List Val) :=
  [nv d.messageId, sv d.starterRef, sv d.responderRef, nv d.target, sv d.content]

/-- The definition of a performative. -/
def msgOf : Performative → AcnMsg
  | .aeaEnvelope _ _ => .aeaEnvelope
  | .lookupRequest _ => .lookupRequest
  | .lookupResponse _ => .lookupResponse
  | .register _ => .register
  | .status _ => .status

theorem one_sv (b : Bytes) : (if isZero (.str b) = true then [] else [Val.str b]) = sv b := by
  unfold sv isZero
  by_cases h : b = [] <;> simp [h]

theorem one_nv (i : Int) : (if isZero (.num i) = true then [] else [Val.num i]) = nv i := by
  unfold nv isZero
  by_cases h : i = 0 <;> simp [h]

/-! ## Steps -/

/-- Reading a field in the place `i` of a definition. -/
theorem readRaw_at {sub : Reader T} {ds : List (Field T)} {m : List (List Val)} {num : Nat} {w : WireVal} (i : Nat)
    {d : Field T} (hi : ds.findIdx? (fun d => d.num == num) = some i) (hd : ds[i]? = some d) :
    readRaw S sub ds m ⟨num, w⟩ = readField S sub ds d i m w := by
  unfold readRaw
  simp only [hi, hd]

theorem readRaw_none {sub : Reader T} {ds : List (Field T)} {m : List (List Val)} {num : Nat} {w : WireVal}
    (hi : ds.findIdx? (fun d => d.num == num) = none) : readRaw S sub ds m ⟨num, w⟩ = some m := by
  unfold readRaw
  simp only [hi]

theorem strField_map {M M' : Type} (v : Bytes) (set : Bytes → M) (e : M → M') :
    (strField v set).map e = strField v fun v => e (set v) := by
  unfold strField
  split <;> rfl

theorem field_string (sub : Reader T) (ds : List (Field T)) (n i : Nat) (m : List (List Val)) (v : Bytes) :
    readField S sub ds ⟨n, .string, .one⟩ i m (.bytes v) = strField v fun v => m.set i (sv v) := by
  simp only [readField, readVal, strField]
  by_cases h : utf8Valid v = true <;> simp [h, one_sv]

theorem field_bytes (sub : Reader T) (ds : List (Field T)) (n i : Nat) (m : List (List Val)) (v : Bytes) :
    readField S sub ds ⟨n, .bytes, .one⟩ i m (.bytes v) = some (m.set i (sv v)) := by
  simp [readField, readVal, one_sv]

theorem field_int32 (sub : Reader T) (ds : List (Field T)) (n i : Nat) (m : List (List Val)) (k : Nat) :
    readField S sub ds ⟨n, .int32, .one⟩ i m (.varint k) = some (m.set i (nv (int32OfWire k))) := by
  simp [readField, readVal, one_nv]

theorem field_enum (sub : Reader T) (ds : List (Field T)) (n i : Nat) (m : List (List Val)) (k : Nat) :
    readField S sub ds ⟨n, .enum, .one⟩ i m (.varint k) = some (m.set i (nv (int32OfWire k))) := by
  simp [readField, readVal, one_nv]

theorem field_strings (sub : Reader T) (ds : List (Field T)) (n i : Nat) (m : List (List Val)) (v : Bytes) :
    readField S sub ds ⟨n, .string, .many⟩ i m (.bytes v) =
      strField v fun v => m.set i (m.getD i [] ++ [.str v]) := by
  simp only [readField, readVal, strField, Kind.packs]
  by_cases h : utf8Valid v = true <;> simp [h]

/-- The message that a message field is read into. -/
def intoOf (S : Schema T) (t : T) (vs : List Val) : List (List Val) :=
  match vs.head? with
  | some (.msg fs) => fs
  | _ => fresh S (S t)

theorem field_msg (sub : Reader T) (ds : List (Field T)) (n i : Nat) (t : T) (m : List (List Val)) (v : Bytes) :
    readField S sub ds ⟨n, .msg t, .one⟩ i m (.bytes v) =
      (sub t (intoOf S t (m.getD i [])) v).map fun x => m.set i [.msg x] := by
  simp only [readField, readVal, Option.map_map]
  rfl

theorem field_oneof (sub : Reader T) (ds : List (Field T)) (n i g : Nat) (t : T) (m : List (List Val)) (v : Bytes) :
    readField S sub ds ⟨n, .msg t, .oneof g⟩ i m (.bytes v) =
      (sub t (intoOf S t (m.getD i [])) v).map fun x => (clearGroup g ds m).set i [.msg x] := by
  simp only [readField, readVal, Option.map_map]
  rfl

theorem step_envelope (sub : Reader BaseMsg) (e : Envelope) (f : RawField) :
    readRaw base sub (base .envelope) (ofEnvelope e) f = (Envelope.step e f).map ofEnvelope := by
  obtain ⟨num, w⟩ := f
  match num with
  | 0 => rfl
  | 1 => cases w <;> first | rfl | (rw [readRaw_at 0 rfl rfl, field_string]; simp only [Envelope.step, strField_map]; rfl)
  | 2 => cases w <;> first | rfl | (rw [readRaw_at 1 rfl rfl, field_string]; simp only [Envelope.step, strField_map]; rfl)
  | 3 => cases w <;> first | rfl | (rw [readRaw_at 2 rfl rfl, field_string]; simp only [Envelope.step, strField_map]; rfl)
  | 4 => cases w <;> first | rfl | (rw [readRaw_at 3 rfl rfl, field_bytes]; rfl)
  | 5 => cases w <;> first | rfl | (rw [readRaw_at 4 rfl rfl, field_string]; simp only [Envelope.step, strField_map]; rfl)
  | n + 6 =>
    rw [readRaw_none (by simp [base, List.findIdx?_cons])]
    rfl

theorem step_dialogue (sub : Reader BaseMsg) (d : DialogueMessage) (f : RawField) :
    readRaw base sub (base .dialogue) (ofDialogue d) f = (DialogueMessage.step d f).map ofDialogue := by
  obtain ⟨num, w⟩ := f
  match num with
  | 0 => rfl
  | 1 => cases w <;> first | rfl | (rw [readRaw_at 0 rfl rfl, field_int32]; rfl)
  | 2 => cases w <;> first | rfl | (rw [readRaw_at 1 rfl rfl, field_string]; simp only [DialogueMessage.step, strField_map]; rfl)
  | 3 => cases w <;> first | rfl | (rw [readRaw_at 2 rfl rfl, field_string]; simp only [DialogueMessage.step, strField_map]; rfl)
  | 4 => cases w <;> first | rfl | (rw [readRaw_at 3 rfl rfl, field_int32]; rfl)
  | 5 => cases w <;> first | rfl | (rw [readRaw_at 4 rfl rfl, field_bytes]; rfl)
  | n + 6 =>
    rw [readRaw_none (by simp [base, List.findIdx?_cons])]
    rfl

theorem step_record (sub : Reader AcnMsg) (r : AgentRecord) (f : RawField) :
    readRaw acn sub (acn .record) (ofRecord r) f = (AgentRecord.step r f).map ofRecord := by
  obtain ⟨num, w⟩ := f
  match num with
  | 0 => rfl
  | 1 => cases w <;> first | rfl | (rw [readRaw_at 0 rfl rfl, field_string]; simp only [AgentRecord.step, strField_map]; rfl)
  | 2 => cases w <;> first | rfl | (rw [readRaw_at 1 rfl rfl, field_string]; simp only [AgentRecord.step, strField_map]; rfl)
  | 3 => cases w <;> first | rfl | (rw [readRaw_at 2 rfl rfl, field_string]; simp only [AgentRecord.step, strField_map]; rfl)
  | 4 => cases w <;> first | rfl | (rw [readRaw_at 3 rfl rfl, field_string]; simp only [AgentRecord.step, strField_map]; rfl)
  | 5 => cases w <;> first | rfl | (rw [readRaw_at 4 rfl rfl, field_string]; simp only [AgentRecord.step, strField_map]; rfl)
  | 6 => cases w <;> first | rfl | (rw [readRaw_at 5 rfl rfl, field_string]; simp only [AgentRecord.step, strField_map]; rfl)
  | 7 => cases w <;> first | rfl | (rw [readRaw_at 6 rfl rfl, field_string]; simp only [AgentRecord.step, strField_map]; rfl)
  | 8 => cases w <;> first | rfl | (rw [readRaw_at 7 rfl rfl, field_string]; simp only [AgentRecord.step, strField_map]; rfl)
  | n + 9 =>
    rw [readRaw_none (by simp [acn, List.findIdx?_cons])]
    rfl

theorem step_status (sub : Reader AcnMsg) (s : StatusBody) (f : RawField) :
    readRaw acn sub (acn .statusBody) (ofStatus s) f = (StatusBody.step s f).map ofStatus := by
  obtain ⟨num, w⟩ := f
  match num with
  | 0 => rfl
  | 1 => cases w <;> first | rfl | (rw [readRaw_at 0 rfl rfl, field_enum]; rfl)
  | 2 =>
    cases w <;> first | rfl | (
      rw [readRaw_at 1 rfl rfl, field_strings]
      simp only [StatusBody.step, strField_map, ofStatus, List.map_append]
      rfl)
  | n + 3 =>
    rw [readRaw_none (by simp [acn, List.findIdx?_cons])]
    rfl

theorem read_record (n : Nat) (r : AgentRecord) (b : Bytes) :
    readInto acn (n + 1) .record (ofRecord r) b = (decodeInto AgentRecord.step r b).map ofRecord :=
  decodeInto_map (step_record _) r b

theorem read_status (n : Nat) (s : StatusBody) (b : Bytes) :
    readInto acn (n + 1) .statusBody (ofStatus s) b = (decodeInto StatusBody.step s b).map ofStatus :=
  decodeInto_map (step_status _) s b

theorem into_record (r : Option AgentRecord) :
    intoOf acn .record (mv (r.map ofRecord)) = ofRecord (r.getD .zero) := by
  cases r <;> rfl

theorem into_status (b : Option StatusBody) :
    intoOf acn .statusBody (mv (b.map ofStatus)) = ofStatus (b.getD .zero) := by
  cases b <;> rfl

/-- A performative stays the same. -/
theorem step_performative (n : Nat) (p : Performative) (f : RawField) :
    readRaw acn (readInto acn (n + 1)) (acn (msgOf p)) (ofPerformative p) f =
      (Performative.step p f).map ofPerformative := by
  obtain ⟨num, w⟩ := f
  cases p with
  | aeaEnvelope e r =>
    match num with
    | 0 => rfl
    | 1 => cases w <;> first | rfl | (
        show readRaw acn _ (acn .aeaEnvelope) _ _ = _
        rw [readRaw_at 0 rfl rfl, field_bytes]; rfl)
    | 2 => cases w <;> first | rfl | (
        show readRaw acn _ (acn .aeaEnvelope) _ _ = _
        rw [readRaw_at 1 rfl rfl, field_msg]
        show Option.map _ (readInto acn (n + 1) .record (intoOf acn .record (mv (r.map ofRecord))) _) = _
        rw [into_record, read_record]
        simp only [Performative.step, Performative.intoRecord, Option.map_map]
        rfl)
    | k + 3 =>
      rw [readRaw_none (by simp [acn, msgOf, List.findIdx?_cons])]
      rfl
  | lookupRequest a =>
    match num with
    | 0 => rfl
    | 1 => cases w <;> first | rfl | (
        show readRaw acn _ (acn .lookupRequest) _ _ = _
        rw [readRaw_at 0 rfl rfl, field_string]; simp only [Performative.step, strField_map]; rfl)
    | k + 2 =>
      rw [readRaw_none (by simp [acn, msgOf, List.findIdx?_cons])]
      rfl
  | lookupResponse r =>
    match num with
    | 0 => rfl
    | 1 => cases w <;> first | rfl | (
        show readRaw acn _ (acn .lookupResponse) _ _ = _
        rw [readRaw_at 0 rfl rfl, field_msg]
        show Option.map _ (readInto acn (n + 1) .record (intoOf acn .record (mv (r.map ofRecord))) _) = _
        rw [into_record, read_record]
        simp only [Performative.step, Performative.intoRecord, Option.map_map]
        rfl)
    | k + 2 =>
      rw [readRaw_none (by simp [acn, msgOf, List.findIdx?_cons])]
      rfl
  | register r =>
    match num with
    | 0 => rfl
    | 1 => cases w <;> first | rfl | (
        show readRaw acn _ (acn .register) _ _ = _
        rw [readRaw_at 0 rfl rfl, field_msg]
        show Option.map _ (readInto acn (n + 1) .record (intoOf acn .record (mv (r.map ofRecord))) _) = _
        rw [into_record, read_record]
        simp only [Performative.step, Performative.intoRecord, Option.map_map]
        rfl)
    | k + 2 =>
      rw [readRaw_none (by simp [acn, msgOf, List.findIdx?_cons])]
      rfl
  | status r =>
    match num with
    | 0 => rfl
    | 1 => cases w <;> first | rfl | (
        show readRaw acn _ (acn .status) _ _ = _
        rw [readRaw_at 0 rfl rfl, field_msg]
        show Option.map _ (readInto acn (n + 1) .statusBody (intoOf acn .statusBody (mv (r.map ofStatus))) _) = _
        rw [into_status, read_status]
        simp only [Performative.step, Option.map_map]
        rfl)
    | k + 2 =>
      rw [readRaw_none (by simp [acn, msgOf, List.findIdx?_cons])]
      rfl

theorem performative_kind {p q : Performative} {f : RawField} (h : Performative.step p f = some q) :
    msgOf q = msgOf p := by
  cases p <;> simp only [Performative.step] at h <;> split at h <;>
    simp only [Option.map_eq_some_iff, strField, Option.some.injEq, Option.ite_none_right_eq_some] at h <;>
    first
      | (obtain ⟨_, _, rfl⟩ := h; rfl)
      | (obtain ⟨_, rfl⟩ := h; rfl)
      | (subst h; rfl)

theorem fold_performative (n : Nat) (fs : List RawField) : ∀ p : Performative,
    fs.foldlM (readRaw acn (readInto acn (n + 1)) (acn (msgOf p))) (ofPerformative p) =
      (fs.foldlM Performative.step p).map ofPerformative ∧
    ∀ q, fs.foldlM Performative.step p = some q → msgOf q = msgOf p := by
  induction fs with
  | nil => exact fun p => ⟨rfl, fun q h => by cases h; rfl⟩
  | cons f fs ih =>
    intro p
    rw [List.foldlM_cons, List.foldlM_cons, step_performative]
    cases h : Performative.step p f with
    | none => exact ⟨rfl, fun q h => by cases h⟩
    | some q =>
      have hk := performative_kind h
      have := ih q
      rw [hk] at this
      exact this

theorem read_performative (n : Nat) (p : Performative) (b : Bytes) :
    readInto acn (n + 2) (msgOf p) (ofPerformative p) b =
      (decodeInto Performative.step p b).map ofPerformative ∧
    ∀ q, decodeInto Performative.step p b = some q → msgOf q = msgOf p := by
  show decodeInto _ _ _ = _ ∧ _
  unfold decodeInto
  cases parse b with
  | none => exact ⟨rfl, fun q h => by cases h⟩
  | some fs => exact fold_performative n fs p

end Verif.PB
