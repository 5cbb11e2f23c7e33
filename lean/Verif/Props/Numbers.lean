import Verif.Props.Definitions

/-!
# C85: what the numbers in a field stand for

Whatever number another program writes into a field, not only what this code writes.
-/

namespace Verif

open PB Proto

variable {T : Type} {S : Schema T}

/-- The number that a varint stands for in a field: the low 32 or 64 bits with sign, and for a truth value anything
but zero. -/
def PB.meaning : Kind T → Nat → Option Int
  | .int32, n => some ((n : Int).bmod (2 ^ 32))
  | .enum, n => some ((n : Int).bmod (2 ^ 32))
  | .int64, n => some ((n : Int).bmod (2 ^ 64))
  | .bool, n => some (if 0 < n then 1 else 0)
  | _, _ => none

/-- The kinds of values and how they are written. -/
inductive PB.WrittenAs : Kind T → WireVal → Prop
  | int32 (n : Nat) : WrittenAs .int32 (.varint n)
  | int64 (n : Nat) : WrittenAs .int64 (.varint n)
  | bool (n : Nat) : WrittenAs .bool (.varint n)
  | enum (n : Nat) : WrittenAs .enum (.varint n)
  | double (b : Bytes) : WrittenAs .double (.fixed64 b)
  | string (b : Bytes) : WrittenAs .string (.bytes b)
  | bytes (b : Bytes) : WrittenAs .bytes (.bytes b)
  | msg (t : T) (b : Bytes) : WrittenAs (.msg t) (.bytes b)

theorem readVal_number {sub : Reader T} {k : Kind T} {n : Nat} {v : Int} (h : PB.meaning k n = some v)
    (old : Option Val) : readVal S sub k old (.varint n) = some (some (.num v)) := by
  cases k <;> simp only [PB.meaning, reduceCtorEq, Option.some.injEq] at h <;> subst h <;>
    simp only [readVal, Option.some.injEq, Val.num.injEq]
  · unfold int32OfWire
    simp only [Int.bmod]
    split <;> split <;> omega
  · unfold int64OfWire
    simp only [Int.bmod]
    split <;> split <;> omega
  · split <;> split <;> omega
  · unfold int32OfWire
    simp only [Int.bmod]
    split <;> split <;> omega

theorem readVal_other {sub : Reader T} {k : Kind T} {w : WireVal} (h : ¬ PB.WrittenAs k w) (old : Option Val) :
    readVal S sub k old w = some none := by
  cases k <;> cases w <;> first | rfl | exact absurd (by constructor) h

/-- One more field is read after all others. -/
theorem read_one_more (hS : Good S) {t : T} {i : Nat} {d : Field T} (hd : (S t)[i]? = some d) (w : WireVal)
    (hw : (⟨d.num, w⟩ : RawField).Ok) {a : Bytes} {m : List (List Val)} (ha : PB.read S t a = some m) :
    ∃ sub : Reader T, PB.read S t (a ++ encodeFields [⟨d.num, w⟩]) = readField S sub (S t) d i m w := by
  have hl : a.length < (a ++ encodeFields [⟨d.num, w⟩]).length + 1 := by simp; omega
  rw [← C85_unlimited S t a hl] at ha
  unfold PB.read
  generalize (a ++ encodeFields [⟨d.num, w⟩]).length = n at *
  unfold PB.readLimited readInto at ha ⊢
  refine ⟨readInto S n, ?_⟩
  rw [decodeInto_append _ ha, decodeInto_encodeFields (by simpa using hw)]
  have hidx : (S t).findIdx? (fun x => x.num == d.num) = some i := by
    rw [List.findIdx?_eq_some_iff_getElem]
    obtain ⟨hi, hget⟩ := List.getElem?_eq_some_iff.1 hd
    refine ⟨hi, by simp [hget], ?_⟩
    intro j hj
    simp only [beq_iff_eq]
    intro he
    have hn := hS.nums t
    rw [List.Nodup, List.pairwise_iff_getElem] at hn
    refine hn j i (by simp; omega) (by simpa using hi) hj ?_
    simp [he, hget]
  simp [readRaw, hidx, hd]

/-- **C85, numbers.** A number that another program has written into a field stands for its low 32 or 64 bits with
sign, and in a truth value every number but zero is true. It replaces what was there before. -/
theorem C85_number (hS : Good S) {t : T} {i : Nat} {d : Field T} (hd : (S t)[i]? = some d) (hone : d.card = .one)
    {n : Nat} (hn : n < 2 ^ 64) {v : Int} (hv : PB.meaning d.kind n = some v) {a : Bytes} {m : List (List Val)}
    (ha : PB.read S t a = some m) :
    PB.read S t (a ++ encodeFields [⟨d.num, .varint n⟩]) = some (m.set i (if v = 0 then [] else [.num v])) := by
  have hr := hS.range t d (List.mem_of_getElem? hd)
  obtain ⟨sub, h⟩ := read_one_more hS hd (.varint n) ⟨hr.1, hr.2, hn⟩ ha
  rw [h]
  unfold readField
  simp only [hone, readVal_number hv, Option.map_some]
  by_cases h0 : v = 0 <;> simp [isZero, h0]

theorem TypedFields.as_many : ∀ {ds : List (Field T)} {m : List (List Val)}, TypedFields S ds m → m.length = ds.length
  | ds, [], h => by simp only [TypedFields] at h; simp [h]
  | [], _ :: _, h => by simp [TypedFields] at h
  | d :: ds, vs :: rest, h => by
    simp only [TypedFields] at h
    simp [TypedFields.as_many h.2.2]

theorem clearGroup_getElem? (g : Nat) : ∀ (ds : List (Field T)) (m : List (List Val)) (j : Nat),
    (clearGroup g ds m)[j]? = (m[j]?).map fun vs =>
      match ds[j]? with
      | some d => if d.card = .oneof g then [] else vs
      | none => vs
  | [], m, j => by cases m <;> cases j <;> simp [clearGroup]
  | d :: ds, [], j => by simp [clearGroup]
  | d :: ds, vs :: rest, 0 => by simp [clearGroup]
  | d :: ds, vs :: rest, j + 1 => by
    simp only [clearGroup, List.getElem?_cons_succ]
    exact clearGroup_getElem? g ds rest j

/-- **C85, numbers, alternatives.** A number that is an alternative is kept even if it is zero. It replaces what was
there before, the other alternatives are gone, and all other fields stay as they are. -/
theorem C85_number_alternative (hS : Good S) {t : T} {i g : Nat} {d : Field T} (hd : (S t)[i]? = some d)
    (hone : d.card = .oneof g) {n : Nat} (hn : n < 2 ^ 64) {v : Int} (hv : PB.meaning d.kind n = some v) {a : Bytes}
    {m : List (List Val)} (ha : PB.read S t a = some m) :
    ∃ m', PB.read S t (a ++ encodeFields [⟨d.num, .varint n⟩]) = some m' ∧
      m'[i]? = some [.num v] ∧
      ∀ j e, j ≠ i → (S t)[j]? = some e →
        m'[j]? = if e.card = .oneof g then (m[j]?).map fun _ => [] else m[j]? := by
  have hr := hS.range t d (List.mem_of_getElem? hd)
  obtain ⟨sub, h⟩ := read_one_more hS hd (.varint n) ⟨hr.1, hr.2, hn⟩ ha
  rw [h]
  unfold readField
  simp only [hone, readVal_number hv, Option.map_some, Option.some.injEq]
  refine ⟨_, rfl, ?_, ?_⟩
  · have hi : i < m.length := by
      rw [TypedFields.as_many (C85_passed_on hS ha).1.1]
      exact (List.getElem?_eq_some_iff.1 hd).1
    have hlen : i < (clearGroup g (S t) m).length := by
      have := clearGroup_getElem? g (S t) m i
      rw [List.getElem?_eq_getElem hi] at this
      exact (List.getElem?_eq_some_iff.1 this).1
    rw [List.getElem?_set_self hlen]
  · intro j e hj he
    rw [List.getElem?_set_ne (Ne.symm hj), clearGroup_getElem?, he]
    by_cases hg : e.card = .oneof g <;> cases m[j]? <;> simp [hg]

/-- **C85, other types.** A field that is written with another type than the definition says is ignored. -/
theorem C85_other_type (hS : Good S) {t : T} {i : Nat} {d : Field T} (hd : (S t)[i]? = some d)
    (hmany : d.card ≠ .many) {w : WireVal} (hw : (⟨d.num, w⟩ : RawField).Ok) (hno : ¬ PB.WrittenAs d.kind w)
    {a : Bytes} {m : List (List Val)} (ha : PB.read S t a = some m) :
    PB.read S t (a ++ encodeFields [⟨d.num, w⟩]) = some m := by
  obtain ⟨sub, h⟩ := read_one_more hS hd w hw ha
  rw [h]
  unfold readField
  cases hc : d.card with
  | many => exact absurd hc hmany
  | _ => simp [readVal_other hno]

/-! ## Concrete cases -/

set_option maxRecDepth 100000 in
/-- A required attribute of kind 1; the 300 of another program is true, a later 0 is false, and a string instead of a
truth value is ignored. -/
example : PB.read search .attribute ([0x10, 1] ++ encodeFields [⟨3, .varint 300⟩]) = some [[], [.num 1], [.num 1], []] ∧
    PB.read search .attribute ([0x10, 1, 0x18, 1] ++ encodeFields [⟨3, .varint 0⟩]) = some [[], [.num 1], [], []] ∧
    PB.read search .attribute ([0x10, 1] ++ encodeFields [⟨2, .varint (2 ^ 64 - 1)⟩]) = some [[], [.num (-1)], [], []] ∧
    PB.read search .attribute ([0x18, 1] ++ encodeFields [⟨3, .bytes (b! "no")⟩]) = some [[], [], [.num 1], []] :=
  ⟨rfl, rfl, rfl, rfl⟩

set_option maxRecDepth 100000 in
/-- A value that is a string becomes the number 0. -/
example : PB.read search .value [0x0a, 1, 0x61] = some [[.str (b! "a")], [], [], [], []] ∧
    PB.read search .value ([0x0a, 1, 0x61] ++ encodeFields [⟨4, .varint 0⟩]) = some [[], [], [], [.num 0], []] :=
  ⟨rfl, rfl⟩

example : (search .attribute)[2]? = some ⟨3, .bool, .one⟩ ∧ PB.meaning (T := SearchMsg) .bool 300 = some 1 :=
  ⟨rfl, rfl⟩

end Verif
