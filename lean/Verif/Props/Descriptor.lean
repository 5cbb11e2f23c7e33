import Verif.Model.Descriptor
import Verif.Props.Definitions

/-!
# C110: the generated code is of the definitions

Specification: the bytes and indices with which the generated code describes itself to the library say, for every
message of every file, what `Verif.Model.Definitions` says: whatever message is written and whatever bytes are read, by
the descriptor or by the definition, is the same.
-/

namespace Verif
namespace Descriptor

open PB Proto

/-! ## Definitions that differ only in names -/

section
variable {T U : Type} (R : U → T → Prop)

/-- The same kind, up to names. -/
def KindRel : Kind U → Kind T → Prop
  | .int32, .int32 | .int64, .int64 | .bool, .bool | .enum, .enum | .double, .double | .string, .string
  | .bytes, .bytes => True
  | .msg u, .msg t => R u t
  | _, _ => False

/-- The same fields, up to names. -/
def FieldsRel : List (Field U) → List (Field T) → Prop
  | [], [] => True
  | d :: ds, e :: es => d.num = e.num ∧ d.card = e.card ∧ KindRel R d.kind e.kind ∧ FieldsRel ds es
  | _, _ => False

variable {R} {A : Schema U} {B : Schema T}

theorem packs_rel {k : Kind U} {l : Kind T} (h : KindRel R k l) : k.packs = l.packs := by
  cases k <;> cases l <;> first | rfl | exact absurd h (by simp [KindRel])

theorem rawField_rel {d : Field U} {e : Field T} (hn : d.num = e.num) (hc : d.card = e.card)
    (hk : KindRel R d.kind e.kind) (ws : List WireVal) : rawField d ws = rawField e ws := by
  unfold rawField
  rw [hc, hn, packs_rel hk]

mutual

theorem wire_rel (h : ∀ u t, R u t → FieldsRel R (A u) (B t)) {k : Kind U} {l : Kind T} (hk : KindRel R k l) :
    (v : Val) → wire A k v = wire B l v
  | .num _ => by simp only [wire]
  | .dbl _ => by simp only [wire]
  | .str _ => by simp only [wire]
  | .msg fs => by
    cases k <;> cases l <;> simp only [KindRel] at hk <;> simp only [wire]
    rw [rawFields_rel h (h _ _ hk) fs]

theorem wires_rel (h : ∀ u t, R u t → FieldsRel R (A u) (B t)) {k : Kind U} {l : Kind T} (hk : KindRel R k l) :
    (vs : List Val) → wires A k vs = wires B l vs
  | [] => by simp only [wires]
  | v :: vs => by simp only [wires]; rw [wire_rel h hk v, wires_rel h hk vs]

theorem rawFields_rel (h : ∀ u t, R u t → FieldsRel R (A u) (B t)) {ds : List (Field U)} {es : List (Field T)}
    (hd : FieldsRel R ds es) : (m : List (List Val)) → rawFields A ds m = rawFields B es m
  | [] => by simp only [rawFields]
  | vs :: rest => by
    match ds, es with
    | [], [] => simp only [rawFields]
    | d :: ds, e :: es =>
      obtain ⟨h1, h2, h3, h4⟩ := hd
      simp only [rawFields]
      rw [wires_rel h h3 vs, rawField_rel h1 h2 h3, rawFields_rel h h4 rest]

end

mutual

theorem texts_rel (h : ∀ u t, R u t → FieldsRel R (A u) (B t)) {k : Kind U} {l : Kind T} (hk : KindRel R k l) :
    (v : Val) → texts A k v = texts B l v
  | .num _ => by simp only [texts]
  | .dbl _ => by simp only [texts]
  | .str _ => by cases k <;> cases l <;> simp only [KindRel] at hk <;> simp only [texts]
  | .msg fs => by
    cases k <;> cases l <;> simp only [KindRel] at hk <;> simp only [texts]
    rw [textsFields_rel h (h _ _ hk) fs]

theorem textsAll_rel (h : ∀ u t, R u t → FieldsRel R (A u) (B t)) {k : Kind U} {l : Kind T} (hk : KindRel R k l) :
    (vs : List Val) → textsAll A k vs = textsAll B l vs
  | [] => by simp only [textsAll]
  | v :: vs => by simp only [textsAll]; rw [texts_rel h hk v, textsAll_rel h hk vs]

theorem textsFields_rel (h : ∀ u t, R u t → FieldsRel R (A u) (B t)) {ds : List (Field U)} {es : List (Field T)}
    (hd : FieldsRel R ds es) : (m : List (List Val)) → textsFields A ds m = textsFields B es m
  | [] => by simp only [textsFields]
  | vs :: rest => by
    match ds, es with
    | [], [] => simp only [textsFields]
    | d :: ds, e :: es =>
      obtain ⟨_, _, h3, h4⟩ := hd
      simp only [textsFields]
      rw [textsAll_rel h h3 vs, textsFields_rel h h4 rest]

end

theorem write_rel (h : ∀ u t, R u t → FieldsRel R (A u) (B t)) {u : U} {t : T} (hr : R u t) (m : List (List Val)) :
    PB.write A u m = PB.write B t m := by
  unfold PB.write bytesOf
  rw [textsFields_rel h (h u t hr), rawFields_rel h (h u t hr)]

theorem fieldsRel_length : ∀ {ds : List (Field U)} {es : List (Field T)}, FieldsRel R ds es →
    ds.map (fun _ => ([] : List Val)) = es.map fun _ => []
  | [], [], _ => rfl
  | _ :: _, _ :: _, h => by
    simp only [List.map_cons]
    rw [fieldsRel_length h.2.2.2]

theorem zeroOf_rel (h : ∀ u t, R u t → FieldsRel R (A u) (B t)) {k : Kind U} {l : Kind T} (hk : KindRel R k l) :
    zeroOf A k = zeroOf B l := by
  cases k <;> cases l <;> simp only [KindRel] at hk <;> simp only [zeroOf]
  rw [fieldsRel_length (h _ _ hk)]

theorem fresh_rel (h : ∀ u t, R u t → FieldsRel R (A u) (B t)) : ∀ {ds : List (Field U)} {es : List (Field T)},
    FieldsRel R ds es → fresh A ds = fresh B es
  | [], [], _ => rfl
  | d :: ds, e :: es, hd => by
    obtain ⟨_, h2, h3, h4⟩ := hd
    have ih := fresh_rel h h4
    unfold fresh at ih ⊢
    simp only [List.map_cons]
    rw [ih, h2, zeroOf_rel h h3]

theorem readVal_rel (h : ∀ u t, R u t → FieldsRel R (A u) (B t)) {sa : Reader U} {sb : Reader T}
    (hs : ∀ u t, R u t → sa u = sb t) {k : Kind U} {l : Kind T} (hk : KindRel R k l) (old : Option Val) (w : WireVal) :
    readVal A sa k old w = readVal B sb l old w := by
  cases k <;> cases l <;> simp only [KindRel] at hk <;> cases w <;> simp only [readVal]
  rw [hs _ _ hk, fresh_rel h (h _ _ hk)]

theorem unpackOne_rel (h : ∀ u t, R u t → FieldsRel R (A u) (B t)) {sa : Reader U} {sb : Reader T}
    (hs : ∀ u t, R u t → sa u = sb t) {k : Kind U} {l : Kind T} (hk : KindRel R k l) (b : Bytes) :
    unpackOne A sa k b = unpackOne B sb l b := by
  have hv := fun n => readVal_rel h hs hk none (.varint n)
  cases k <;> cases l <;> simp only [KindRel] at hk <;> simp only [unpackOne, hv]

theorem unpack_rel (h : ∀ u t, R u t → FieldsRel R (A u) (B t)) {sa : Reader U} {sb : Reader T}
    (hs : ∀ u t, R u t → sa u = sb t) {k : Kind U} {l : Kind T} (hk : KindRel R k l) :
    ∀ (n : Nat) (b : Bytes), unpack A sa k n b = unpack B sb l n b
  | 0, [] => by simp only [unpack]
  | _ + 1, [] => by simp only [unpack]
  | 0, _ :: _ => by simp only [unpack]
  | n + 1, b :: bs => by
    simp only [unpack]
    rw [unpackOne_rel h hs hk]
    simp only [unpack_rel h hs hk n]

theorem clearGroup_rel (g : Nat) : ∀ {ds : List (Field U)} {es : List (Field T)} (m : List (List Val)),
    FieldsRel R ds es → clearGroup g ds m = clearGroup g es m
  | [], [], m, _ => by simp only [clearGroup]
  | _ :: _, _ :: _, [], _ => by simp only [clearGroup]
  | d :: ds, e :: es, vs :: rest, hd => by
    simp only [clearGroup]
    rw [hd.2.1, clearGroup_rel g rest hd.2.2.2]

theorem readField_rel (h : ∀ u t, R u t → FieldsRel R (A u) (B t)) {sa : Reader U} {sb : Reader T}
    (hs : ∀ u t, R u t → sa u = sb t) {ds : List (Field U)} {es : List (Field T)} (hds : FieldsRel R ds es)
    {d : Field U} {e : Field T} (hc : d.card = e.card) (hk : KindRel R d.kind e.kind) (i : Nat) (m : List (List Val))
    (w : WireVal) : readField A sa ds d i m w = readField B sb es e i m w := by
  unfold readField
  simp only [hc, readVal_rel h hs hk, packs_rel hk, clearGroup_rel _ _ hds, unpack_rel h hs hk]

theorem findIdx_rel (n : Nat) : ∀ {ds : List (Field U)} {es : List (Field T)}, FieldsRel R ds es →
    ds.findIdx? (fun d => d.num == n) = es.findIdx? fun e => e.num == n
  | [], [], _ => rfl
  | d :: ds, e :: es, hd => by
    rw [List.findIdx?_cons, List.findIdx?_cons, hd.1, findIdx_rel n hd.2.2.2]

theorem getElem_rel : ∀ {ds : List (Field U)} {es : List (Field T)} (i : Nat), FieldsRel R ds es →
    (ds[i]? = none ∧ es[i]? = none) ∨
      ∃ d e, ds[i]? = some d ∧ es[i]? = some e ∧ d.card = e.card ∧ KindRel R d.kind e.kind
  | [], [], _, _ => .inl ⟨rfl, rfl⟩
  | d :: _, e :: _, 0, hd => .inr ⟨d, e, rfl, rfl, hd.2.1, hd.2.2.1⟩
  | _ :: _, _ :: _, i + 1, hd => by
    rw [List.getElem?_cons_succ, List.getElem?_cons_succ]
    exact getElem_rel i hd.2.2.2

theorem readRaw_rel (h : ∀ u t, R u t → FieldsRel R (A u) (B t)) {sa : Reader U} {sb : Reader T}
    (hs : ∀ u t, R u t → sa u = sb t) {ds : List (Field U)} {es : List (Field T)} (hds : FieldsRel R ds es)
    (m : List (List Val)) (f : RawField) : readRaw A sa ds m f = readRaw B sb es m f := by
  unfold readRaw
  rw [findIdx_rel f.num hds]
  cases es.findIdx? fun e => e.num == f.num with
  | none => rfl
  | some i =>
    dsimp only
    rcases getElem_rel i hds with ⟨h1, h2⟩ | ⟨d, e, h1, h2, h3, h4⟩
    · rw [h1, h2]
    · rw [h1, h2]
      exact readField_rel h hs hds h3 h4 i m f.val

theorem readInto_rel (h : ∀ u t, R u t → FieldsRel R (A u) (B t)) : ∀ (n : Nat) (u : U) (t : T), R u t →
    readInto A n u = readInto B n t
  | 0, u, t, _ => by
    funext m b
    simp only [readInto]
  | n + 1, u, t, hr => by
    funext m b
    simp only [readInto]
    have e : readRaw A (readInto A n) (A u) = readRaw B (readInto B n) (B t) := by
      funext m f
      exact readRaw_rel h (readInto_rel h n) (h u t hr) m f
    rw [e]

theorem readLimited_rel (h : ∀ u t, R u t → FieldsRel R (A u) (B t)) {u : U} {t : T} (hr : R u t) (n : Nat) (b : Bytes) :
    PB.readLimited A n u b = PB.readLimited B n t b := by
  unfold PB.readLimited
  rw [readInto_rel h n u t hr, fresh_rel h (h u t hr)]

end

/-! ## The messages of the files by their full names -/

/-- Of search.pb.go: libs/go/aealite/protocols/search.pb.go:2158-2189. -/
def searchNames : List (Bytes × SearchMsg) :=
  [
    (b! ".aea.search.v0_1_0.Query", .query),
    (b! ".aea.search.v0_1_0.Query.Attribute", .attribute),
    (b! ".aea.search.v0_1_0.Query.DataModel", .dataModel),
    (b! ".aea.search.v0_1_0.Query.Location", .location),
    (b! ".aea.search.v0_1_0.Query.Value", .value),
    (b! ".aea.search.v0_1_0.Query.KeyValue", .keyValue),
    (b! ".aea.search.v0_1_0.Query.Instance", .instance_),
    (b! ".aea.search.v0_1_0.Query.StringPair", .stringPair),
    (b! ".aea.search.v0_1_0.Query.IntPair", .intPair),
    (b! ".aea.search.v0_1_0.Query.DoublePair", .doublePair),
    (b! ".aea.search.v0_1_0.Query.LocationPair", .locationPair),
    (b! ".aea.search.v0_1_0.Query.Range", .range),
    (b! ".aea.search.v0_1_0.Query.Distance", .distance),
    (b! ".aea.search.v0_1_0.Query.Relation", .relation),
    (b! ".aea.search.v0_1_0.Query.Set", .set),
    (b! ".aea.search.v0_1_0.Query.ConstraintExpr", .expr),
    (b! ".aea.search.v0_1_0.Query.Model", .model),
    (b! ".aea.search.v0_1_0.Query.Set.Values", .setValues),
    (b! ".aea.search.v0_1_0.Query.Set.Values.Ints", .ints),
    (b! ".aea.search.v0_1_0.Query.Set.Values.Doubles", .doubles),
    (b! ".aea.search.v0_1_0.Query.Set.Values.Strings", .strings),
    (b! ".aea.search.v0_1_0.Query.Set.Values.Bools", .bools),
    (b! ".aea.search.v0_1_0.Query.Set.Values.Locations", .locations),
    (b! ".aea.search.v0_1_0.Query.ConstraintExpr.Or", .or),
    (b! ".aea.search.v0_1_0.Query.ConstraintExpr.And", .and),
    (b! ".aea.search.v0_1_0.Query.ConstraintExpr.Not", .not),
    (b! ".aea.search.v0_1_0.Query.ConstraintExpr.Constraint", .constraint)]

/-- Of fipa.pb.go: libs/go/aea_end2end/protocols/fipa.pb.go:823-839. The entries of the maps are alike. -/
def fipaNames : List (Bytes × FipaMsg) :=
  [
    (b! ".aea.fetchai.fipa.v1_0_0.FipaMessage", .message),
    (b! ".aea.fetchai.fipa.v1_0_0.FipaMessage.Description", .description),
    (b! ".aea.fetchai.fipa.v1_0_0.FipaMessage.Query", .query),
    (b! ".aea.fetchai.fipa.v1_0_0.FipaMessage.Cfp_Performative", .cfp),
    (b! ".aea.fetchai.fipa.v1_0_0.FipaMessage.Propose_Performative", .propose),
    (b! ".aea.fetchai.fipa.v1_0_0.FipaMessage.Accept_W_Inform_Performative", .acceptWInform),
    (b! ".aea.fetchai.fipa.v1_0_0.FipaMessage.Match_Accept_W_Inform_Performative", .matchAcceptWInform),
    (b! ".aea.fetchai.fipa.v1_0_0.FipaMessage.Inform_Performative", .inform),
    (b! ".aea.fetchai.fipa.v1_0_0.FipaMessage.Accept_Performative", .accept),
    (b! ".aea.fetchai.fipa.v1_0_0.FipaMessage.Decline_Performative", .decline),
    (b! ".aea.fetchai.fipa.v1_0_0.FipaMessage.Match_Accept_Performative", .matchAccept),
    (b! ".aea.fetchai.fipa.v1_0_0.FipaMessage.End_Performative", .end_),
    (b! ".aea.fetchai.fipa.v1_0_0.FipaMessage.Accept_W_Inform_Performative.InfoEntry", .entry),
    (b! ".aea.fetchai.fipa.v1_0_0.FipaMessage.Match_Accept_W_Inform_Performative.InfoEntry", .entry),
    (b! ".aea.fetchai.fipa.v1_0_0.FipaMessage.Inform_Performative.InfoEntry", .entry)]

/-- Of default.pb.go: examples/aealite_go/default/default.pb.go:453-461. -/
def defaultNames : List (Bytes × DefaultMsg) :=
  [
    (b! ".aea.fetchai.default.v0_1_0.DefaultMessage", .message),
    (b! ".aea.fetchai.default.v0_1_0.DefaultMessage.ErrorCode", .errorCode),
    (b! ".aea.fetchai.default.v0_1_0.DefaultMessage.Bytes_Performative", .bytes),
    (b! ".aea.fetchai.default.v0_1_0.DefaultMessage.Error_Performative", .error),
    (b! ".aea.fetchai.default.v0_1_0.DefaultMessage.End_Performative", .end_),
    (b! ".aea.fetchai.default.v0_1_0.DefaultMessage.Error_Performative.ErrorDataEntry", .entry)]

/-- Of base.pb.go: libs/go/aealite/protocols/base.pb.go:323-328, and of struct.proto. -/
def baseNames : List (Bytes × BaseMsg) :=
  [
    (b! ".aea.base.v0_1_0.DialogueMessage", .dialogue),
    (b! ".aea.base.v0_1_0.Message", .message),
    (b! ".aea.base.v0_1_0.Envelope", .envelope),
    (b! ".google.protobuf.Struct", .struct),
    (b! ".google.protobuf.Value", .value),
    (b! ".google.protobuf.ListValue", .listValue),
    (b! ".google.protobuf.Struct.FieldsEntry", .entry)]

/-- Of acn.pb.go: libs/go/libp2p_node/protocols/acn/v1_0_0/acn.pb.go:754-764. -/
def acnNames : List (Bytes × AcnMsg) :=
  [
    (b! ".aea.aea.acn.v1_0_0.AcnMessage", .message),
    (b! ".aea.aea.acn.v1_0_0.AcnMessage.AgentRecord", .record),
    (b! ".aea.aea.acn.v1_0_0.AcnMessage.StatusBody", .statusBody),
    (b! ".aea.aea.acn.v1_0_0.AcnMessage.Register_Performative", .register),
    (b! ".aea.aea.acn.v1_0_0.AcnMessage.Lookup_Request_Performative", .lookupRequest),
    (b! ".aea.aea.acn.v1_0_0.AcnMessage.Lookup_Response_Performative", .lookupResponse),
    (b! ".aea.aea.acn.v1_0_0.AcnMessage.Aea_Envelope_Performative", .aeaEnvelope),
    (b! ".aea.aea.acn.v1_0_0.AcnMessage.Status_Performative", .status)]

/-- Of envelope.pb.go: libs/go/libp2p_node/aea/envelope.pb.go:135-137. It is the envelope of base.pb.go. -/
def envelopeNames : List (Bytes × BaseMsg) := [(b! ".aea.Envelope", .envelope)]

/-! ## Comparing -/

/-- The same kind, up to names. -/
def kindEq {T : Type} [DecidableEq T] (ns : List (Bytes × T)) : Kind Bytes → Kind T → Bool
  | .int32, .int32 | .int64, .int64 | .bool, .bool | .enum, .enum | .double, .double | .string, .string
  | .bytes, .bytes => true
  | .msg u, .msg t => ns.contains (u, t)
  | _, _ => false

/-- The same fields, up to names. -/
def fieldsEq {T : Type} [DecidableEq T] (ns : List (Bytes × T)) : List (Field Bytes) → List (Field T) → Bool
  | [], [] => true
  | d :: ds, e :: es => d.num == e.num && decide (d.card = e.card) && kindEq ns d.kind e.kind && fieldsEq ns ds es
  | _, _ => false

/-- A table and a schema are the same, up to names. -/
def tableEq {T : Type} [DecidableEq T] (ns : List (Bytes × T)) (tbl : List (Bytes × List (Field Bytes)))
    (S : Schema T) : Bool :=
  ns.all fun n => fieldsEq ns (schemaOf tbl n.1) (S n.2)

theorem kindRel_of_eq {T : Type} [DecidableEq T] {ns : List (Bytes × T)} {k : Kind Bytes} {l : Kind T}
    (h : kindEq ns k l = true) : KindRel (fun u t => (u, t) ∈ ns) k l := by
  cases k <;> cases l <;> simp_all [kindEq, KindRel]

theorem fieldsRel_of_eq {T : Type} [DecidableEq T] {ns : List (Bytes × T)} : ∀ {ds : List (Field Bytes)}
    {es : List (Field T)}, fieldsEq ns ds es = true → FieldsRel (fun u t => (u, t) ∈ ns) ds es
  | [], [], _ => trivial
  | [], _ :: _, h => by simp [fieldsEq] at h
  | _ :: _, [], h => by simp [fieldsEq] at h
  | d :: ds, e :: es, h => by
    simp only [fieldsEq, Bool.and_eq_true, beq_iff_eq, decide_eq_true_eq] at h
    exact ⟨h.1.1.1, h.1.1.2, kindRel_of_eq h.1.2, fieldsRel_of_eq h.2⟩

theorem same_of_eq {T : Type} [DecidableEq T] {ns : List (Bytes × T)} {tbl : List (Bytes × List (Field Bytes))}
    {S : Schema T} (h : tableEq ns tbl S = true) {u : Bytes} {t : T} (hu : (u, t) ∈ ns) :
    (∀ m, PB.write (schemaOf tbl) u m = PB.write S t m) ∧
      (∀ n b, PB.readLimited (schemaOf tbl) n u b = PB.readLimited S n t b) ∧
      ∀ b, PB.read (schemaOf tbl) u b = PB.read S t b := by
  have hr : ∀ u t, (u, t) ∈ ns → FieldsRel (fun u t => (u, t) ∈ ns) (schemaOf tbl u) (S t) := fun u t hu =>
    fieldsRel_of_eq (List.all_eq_true.mp h (u, t) hu)
  exact ⟨write_rel hr hu, readLimited_rel hr hu, fun b => readLimited_rel hr hu _ b⟩

/-! ## The files -/

/-- The descriptor of a file, with what it refers to, says of every message what the definitions say: the file has
exactly the messages `ns` (and `more` are those of the files it refers to), every definition is of one of them, and
all are written and read alike. -/
def Says {T : Type} (raw : Bytes) (more : List (Bytes × List (Field Bytes))) (ns : List (Bytes × T)) (S : Schema T) :
    Prop :=
  ∃ tbl, tableOf raw = some tbl ∧ ns.map (·.1) = tbl.map (·.1) ++ more.map (·.1) ∧
    ∀ u t, (u, t) ∈ ns →
      (∀ m, PB.write (schemaOf (tbl ++ more)) u m = PB.write S t m) ∧
      (∀ n b, PB.readLimited (schemaOf (tbl ++ more)) n u b = PB.readLimited S n t b) ∧
      ∀ b, PB.read (schemaOf (tbl ++ more)) u b = PB.read S t b

/-- What is computed of a descriptor. -/
def check {T : Type} [DecidableEq T] (raw : Bytes) (more : List (Bytes × List (Field Bytes))) (ns : List (Bytes × T))
    (S : Schema T) : Bool :=
  match tableOf raw with
  | none => false
  | some tbl => decide (ns.map (·.1) = tbl.map (·.1) ++ more.map (·.1)) && tableEq ns (tbl ++ more) S

theorem says_of_check {T : Type} [DecidableEq T] {raw : Bytes} {more : List (Bytes × List (Field Bytes))}
    {ns : List (Bytes × T)} {S : Schema T} (h : check raw more ns S = true) : Says raw more ns S := by
  unfold check at h
  cases ht : tableOf raw with
  | none => rw [ht] at h; cases h
  | some tbl =>
    rw [ht] at h
    simp only [Bool.and_eq_true, decide_eq_true_eq] at h
    exact ⟨tbl, ht, h.1, fun u t hu => same_of_eq h.2 hu⟩

theorem named {T : Type} [DecidableEq T] {ns : List (Bytes × T)} {t : T} (h : (ns.any fun n => decide (n.2 = t)) = true) :
    ∃ u, (u, t) ∈ ns := by
  obtain ⟨⟨u, t'⟩, hn, he⟩ := List.any_eq_true.mp h
  cases of_decide_eq_true he
  exact ⟨u, hn⟩

/-- **C110.** Searches. -/
theorem C110_search : Says searchRaw [] searchNames PB.search ∧ ∀ t, ∃ u, (u, t) ∈ searchNames :=
  ⟨says_of_check (by decide +kernel), fun t => named (by cases t <;> decide)⟩

/-- **C110.** Negotiations. -/
theorem C110_fipa : Says fipaRaw [] fipaNames PB.fipa ∧ ∀ t, ∃ u, (u, t) ∈ fipaNames :=
  ⟨says_of_check (by decide +kernel), fun t => named (by cases t <;> decide)⟩

/-- **C110.** The default protocol. -/
theorem C110_default : Says defaultRaw [] defaultNames PB.default_ ∧ ∀ t, ∃ u, (u, t) ∈ defaultNames :=
  ⟨says_of_check (by decide +kernel), fun t => named (by cases t <;> decide)⟩

/-- **C110.** Envelopes and dialogue messages of agents. -/
theorem C110_base : Says baseRaw structTable baseNames PB.base ∧ ∀ t, ∃ u, (u, t) ∈ baseNames :=
  ⟨says_of_check (by decide +kernel), fun t => named (by cases t <;> decide)⟩

/-- **C110.** The ACN. -/
theorem C110_acn : Says acnRaw [] acnNames PB.acn ∧ ∀ t, ∃ u, (u, t) ∈ acnNames :=
  ⟨says_of_check (by decide +kernel), fun t => named (by cases t <;> decide)⟩

/-- **C110.** The envelope of the node is that of the agents. -/
theorem C110_envelope : Says envelopeRaw [] envelopeNames PB.base := says_of_check (by decide +kernel)

/-- **C110.** The types that the indices stand for are those that the descriptors name. -/
theorem C110_indices :
    typesByIndex searchRaw [] searchDeps 36 = typeNames searchRaw ∧
      typesByIndex fipaRaw [] fipaDeps 14 = typeNames fipaRaw ∧
      typesByIndex defaultRaw [] defaultDeps 6 = typeNames defaultRaw ∧
      typesByIndex baseRaw [b! ".google.protobuf.Struct"] baseDeps 2 = typeNames baseRaw ∧
      typesByIndex acnRaw [] acnDeps 10 = typeNames acnRaw ∧
      typesByIndex envelopeRaw [] envelopeDeps 0 = typeNames envelopeRaw ∧
      (typeNames searchRaw).isSome = true := by
  decide +kernel

/-- **C110.** The codes of a status are those of the definition. -/
theorem C110_status_codes :
    valuesOf acnRaw (b! ".aea.aea.acn.v1_0_0.AcnMessage.StatusBody.StatusCodeEnum") = some acnStatusCodes := by
  decide +kernel

end Descriptor
end Verif
