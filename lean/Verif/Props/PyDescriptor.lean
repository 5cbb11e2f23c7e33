import Verif.Model.PyDesc
import Verif.Props.Descriptor

/-!
# C111: agents written in Python have the same definitions

Specification: the descriptors in the generated code of the agents written in Python are of the same messages, fields
and enums as those in the Go code, and a message that is written by one descriptor is read by the other as it was
written. How the library of Python reads its descriptors is not modelled; it is the reading of `Verif.Model.Descriptor`.
-/

namespace Verif
namespace Descriptor

open PB Proto

/-- The names of another package; the first `k` bytes are the old one. -/
def moved {T : Type} (k : Nat) (root : Bytes) (ns : List (Bytes × T)) : List (Bytes × T) :=
  ns.map fun n => (root ++ n.1.drop k, n.2)

/-- aea/helpers/search/models_pb2.py -/
def searchNamesPy : List (Bytes × SearchMsg) :=
  moved (b! ".aea.search.v0_1_0").length (b! ".aea.helpers.search.models") searchNames

/-- packages/fetchai/protocols/default/default_pb2.py -/
def defaultNamesPy : List (Bytes × DefaultMsg) :=
  moved (b! ".aea.fetchai.default.v0_1_0").length (b! ".aea.fetchai.default.v1_0_0") defaultNames

/-- What is written by one descriptor is read by the other as it was written, and the other way round. -/
def Exchanged {T : Type} (raw raw' : Bytes) (more : List (Bytes × List (Field Bytes))) (ns ns' : List (Bytes × T))
    (S : Schema T) : Prop :=
  ∃ tbl tbl', tableOf raw = some tbl ∧ tableOf raw' = some tbl' ∧
    ∀ u u' t, (u, t) ∈ ns → (u', t) ∈ ns' → ∀ m, IsMessage S t m → ∀ b, b.length < 2 ^ 64 →
      (PB.write (schemaOf (tbl ++ more)) u m = some b ↔ PB.write (schemaOf (tbl' ++ more)) u' m = some b) ∧
      (PB.write (schemaOf (tbl ++ more)) u m = some b → PB.read (schemaOf (tbl' ++ more)) u' b = some m) ∧
      (PB.write (schemaOf (tbl' ++ more)) u' m = some b → PB.read (schemaOf (tbl ++ more)) u b = some m)

theorem exchanged {T : Type} {raw raw' : Bytes} {more : List (Bytes × List (Field Bytes))} {ns ns' : List (Bytes × T)}
    {S : Schema T} (hS : Good S) (h : Says raw more ns S) (h' : Says raw' more ns' S) :
    Exchanged raw raw' more ns ns' S := by
  obtain ⟨tbl, ht, _, hs⟩ := h
  obtain ⟨tbl', ht', _, hs'⟩ := h'
  refine ⟨tbl, tbl', ht, ht', fun u u' t hu hu' m hm b hb => ?_⟩
  obtain ⟨w, _, r⟩ := hs u t hu
  obtain ⟨w', _, r'⟩ := hs' u' t hu'
  rw [w, w', r, r']
  exact ⟨Iff.rfl, fun hw => C85_round_trip hS hm hw hb, fun hw => C85_round_trip hS hm hw hb⟩

/-- **C111.** Searches. -/
theorem C111_search : Says searchPy [] searchNamesPy PB.search ∧
    Exchanged searchRaw searchPy [] searchNames searchNamesPy PB.search :=
  have h : Says searchPy [] searchNamesPy PB.search := says_of_check (by decide +kernel)
  ⟨h, exchanged good_search C110_search.1 h⟩

/-- **C111.** Negotiations. -/
theorem C111_fipa : Says fipaPy [] fipaNames PB.fipa ∧ Exchanged fipaRaw fipaPy [] fipaNames fipaNames PB.fipa :=
  have h : Says fipaPy [] fipaNames PB.fipa := says_of_check (by decide +kernel)
  ⟨h, exchanged good_fipa C110_fipa.1 h⟩

/-- **C111.** The default protocol. -/
theorem C111_default : Says defaultPy [] defaultNamesPy PB.default_ ∧
    Exchanged defaultRaw defaultPy [] defaultNames defaultNamesPy PB.default_ :=
  have h : Says defaultPy [] defaultNamesPy PB.default_ := says_of_check (by decide +kernel)
  ⟨h, exchanged good_default C110_default.1 h⟩

/-- **C111.** Envelopes and dialogue messages; the envelopes of the node, too. -/
theorem C111_base : Says basePy structTable baseNames PB.base ∧
    Exchanged baseRaw basePy structTable baseNames baseNames PB.base :=
  have h : Says basePy structTable baseNames PB.base := says_of_check (by decide +kernel)
  ⟨h, exchanged good_base C110_base.1 h⟩

/-- **C111.** The ACN. -/
theorem C111_acn : Says acnPy [] acnNames PB.acn ∧ Exchanged acnRaw acnPy [] acnNames acnNames PB.acn :=
  have h : Says acnPy [] acnNames PB.acn := says_of_check (by decide +kernel)
  ⟨h, exchanged good_acn C110_acn.1 h⟩

/-- **C111.** The fields have the same names and numbers. -/
theorem C111_names :
    fieldNames searchPy = fieldNames searchRaw ∧ fieldNames fipaPy = fieldNames fipaRaw ∧
      fieldNames defaultPy = fieldNames defaultRaw ∧ fieldNames basePy = fieldNames baseRaw ∧
      fieldNames acnPy = fieldNames acnRaw ∧
      ((fieldNames basePy).bind fun t => t.lookup (b! ".Envelope")) =
        ((fieldNames envelopeRaw).bind fun t => t.lookup (b! ".Envelope")) ∧
      ((fieldNames envelopeRaw).bind fun t => t.lookup (b! ".Envelope")) =
        some [(b! "to", 1), (b! "sender", 2), (b! "protocol_id", 3), (b! "message", 4), (b! "uri", 5)] :=
  ⟨by decide +kernel, by decide +kernel, by decide +kernel, by decide +kernel, by decide +kernel, by decide +kernel,
    by decide +kernel⟩

/-- **C111.** The enums have the same values. -/
theorem C111_enums :
    enumValues searchPy = enumValues searchRaw ∧ enumValues fipaPy = enumValues fipaRaw ∧
      enumValues defaultPy = enumValues defaultRaw ∧ enumValues acnPy = enumValues acnRaw ∧
      enumValues acnRaw = some [(b! ".AcnMessage.StatusBody.StatusCodeEnum", acnStatusCodes)] :=
  ⟨by decide +kernel, by decide +kernel, by decide +kernel, by decide +kernel, by decide +kernel⟩

/-- Concrete case: a name of a message of the other package. -/
example : (b! ".aea.helpers.search.models.Query.Set.Values.Ints", SearchMsg.ints) ∈ searchNamesPy := by decide +kernel

/-- Concrete case: by the descriptor, a lookup request is field 6 of the message. -/
example : ((tableOf acnPy).bind fun t => PB.write (schemaOf t) (b! ".aea.aea.acn.v1_0_0.AcnMessage")
    [[], [.msg [[.str (b! "fetch1")]]], [], [], []]) = some [50, 8, 10, 6, 102, 101, 116, 99, 104, 49] := by
  decide +kernel

end Descriptor
end Verif
