import Verif.Model.Proto

/-!
# Round trip of the wire format
-/

namespace Verif.Proto

theorem toNat_toUInt8 {n : Nat} (h : n < 256) : n.toUInt8.toNat = n := by
  simp [Nat.toUInt8]
  omega

theorem toUInt8_lt {n k : Nat} (h : n < 256) (hk : k < 256) :
    n.toUInt8 < k.toUInt8 ↔ n < k := by
  rw [UInt8.lt_iff_toNat_lt, toNat_toUInt8 h, toNat_toUInt8 hk]

theorem consumeVarintAux_varintAux (f g n : Nat) (rest : Bytes) (hf : n ≤ f)
    (hn : n < 2 * 128 ^ g) :
    consumeVarintAux g (varintAux f n ++ rest) = some (n, rest) := by
  induction g generalizing f n with
  | zero =>
    have hv : varintAux f n = [n.toUInt8] := by
      cases f with
      | zero => rfl
      | succ f => unfold varintAux; rw [if_pos (by omega)]
    rw [hv]
    simp only [List.singleton_append, consumeVarintAux]
    rw [if_pos (by
      have := (toUInt8_lt (n := n) (k := 2) (by omega) (by omega)).2 (by omega)
      exact this), toNat_toUInt8 (by omega)]
  | succ g ih =>
    by_cases h : n < 128
    · have hv : varintAux f n = [n.toUInt8] := by
        cases f with
        | zero => rfl
        | succ f => unfold varintAux; rw [if_pos h]
      rw [hv]
      simp only [List.singleton_append, consumeVarintAux]
      rw [if_pos (by
        have := (toUInt8_lt (n := n) (k := 128) (by omega) (by omega)).2 (by omega)
        exact this), toNat_toUInt8 (by omega)]
    · cases f with
      | zero => omega
      | succ f =>
        have hv : varintAux (f + 1) n = (n % 128 + 128).toUInt8 :: varintAux f (n / 128) := by
          rw [varintAux, if_neg h]
        rw [hv]
        simp only [List.cons_append, consumeVarintAux]
        rw [if_neg (by
          intro hlt
          have := (toUInt8_lt (n := n % 128 + 128) (k := 128) (by omega) (by omega)).1 hlt
          omega)]
        rw [ih f (n / 128) (by omega) (by
          rw [Nat.pow_succ] at hn
          omega)]
        simp only [Option.some.injEq, Prod.mk.injEq, and_true]
        rw [toNat_toUInt8 (by omega)]
        omega

/-- Varints round-trip in the range of `uint64`. -/
theorem consumeVarint_varint {n : Nat} (h : n < 2 ^ 64) (rest : Bytes) :
    consumeVarint (varint n ++ rest) = some (n, rest) := by
  unfold consumeVarint varint
  refine consumeVarintAux_varintAux n 9 n rest (Nat.le_refl _) ?_
  have : 2 * 128 ^ 9 = 2 ^ 64 := by decide
  omega

theorem varintAux_ne_nil (f n : Nat) : varintAux f n ≠ [] := by
  cases f with
  | zero => simp [varintAux]
  | succ f => unfold varintAux; split <;> simp

theorem varint_ne_nil (n : Nat) : varint n ≠ [] := varintAux_ne_nil n n

theorem varint_length_pos (n : Nat) : 0 < (varint n).length :=
  List.length_pos_iff.2 (varint_ne_nil n)

/-- A field that can be written: valid number, sizes in the range of the wire format. -/
def RawField.Ok (f : RawField) : Prop :=
  1 ≤ f.num ∧ f.num ≤ 536870911 ∧
  match f.val with
  | .varint n => n < 2 ^ 64
  | .fixed64 b => b.length = 8
  | .bytes b => b.length < 2 ^ 64
  | .group => False
  | .fixed32 b => b.length = 4

theorem consumeTag_varint {num typ : Nat} (h1 : 1 ≤ num) (h2 : num ≤ 536870911) (h3 : typ < 8)
    (rest : Bytes) : consumeTag (varint (num * 8 + typ) ++ rest) = some (num, typ, rest) := by
  unfold consumeTag
  rw [consumeVarint_varint (by omega)]
  simp only
  rw [if_neg (by omega)]
  have e1 : (num * 8 + typ) / 8 = num := by omega
  have e2 : (num * 8 + typ) % 8 = typ := by omega
  rw [e1, e2]

theorem takeExact_append (a b : Bytes) : takeExact a.length (a ++ b) = some (a, b) := by
  unfold takeExact
  rw [if_neg (by simp)]
  simp

/-- Reading one field back. -/
theorem consume_encodeField {f : RawField} (h : f.Ok) (rest : Bytes) :
    ∃ typ r, consumeTag (encodeField f ++ rest) = some (f.num, typ, r) ∧
      consumeValue f.num typ r = some (f.val, rest) := by
  obtain ⟨num, val⟩ := f
  obtain ⟨h1, h2, h3⟩ := h
  simp only at h1 h2 h3
  cases val with
  | varint n =>
    refine ⟨0, varint n ++ rest, ?_, ?_⟩
    · simp only [encodeField, List.append_assoc]
      have := consumeTag_varint (typ := 0) h1 h2 (by decide) (varint n ++ rest)
      simpa using this
    · simp [consumeValue, consumeScalar, consumeVarint_varint h3]
  | fixed64 b =>
    refine ⟨1, b ++ rest, ?_, ?_⟩
    · simp only [encodeField, List.append_assoc]
      exact consumeTag_varint h1 h2 (by omega) _
    · simp only [] at h3
      have := takeExact_append b rest
      rw [h3] at this
      simp [consumeValue, consumeScalar, this]
  | bytes b =>
    refine ⟨2, varint b.length ++ (b ++ rest), ?_, ?_⟩
    · simp only [encodeField, List.append_assoc]
      exact consumeTag_varint h1 h2 (by omega) _
    · simp [consumeValue, consumeScalar, consumeVarint_varint h3, takeExact_append]
  | group => exact h3.elim
  | fixed32 b =>
    refine ⟨5, b ++ rest, ?_, ?_⟩
    · simp only [encodeField, List.append_assoc]
      exact consumeTag_varint h1 h2 (by omega) _
    · simp only [] at h3
      have := takeExact_append b rest
      rw [h3] at this
      simp [consumeValue, consumeScalar, this]

theorem encodeField_ne_nil {f : RawField} (h : f.Ok) : encodeField f ≠ [] := by
  obtain ⟨num, val⟩ := f
  obtain ⟨_, _, h3⟩ := h
  cases val with
  | varint n => simp [encodeField, varint_ne_nil]
  | fixed64 b => simp [encodeField, varint_ne_nil]
  | bytes b => simp [encodeField, varint_ne_nil]
  | group => exact h3.elim
  | fixed32 b => simp [encodeField, varint_ne_nil]

theorem parseAux_encodeFields {fs : List RawField} (h : ∀ f ∈ fs, f.Ok) (n : Nat)
    (hn : (encodeFields fs).length ≤ n) : parseAux n (encodeFields fs) = some fs := by
  induction fs generalizing n with
  | nil => cases n <;> rfl
  | cons f fs ih =>
    have hf := h f (by simp)
    have he : encodeFields (f :: fs) = encodeField f ++ encodeFields fs := by
      simp [encodeFields]
    have hne := encodeField_ne_nil hf
    rw [he] at hn ⊢
    obtain ⟨typ, r, h1, h2⟩ := consume_encodeField hf (encodeFields fs)
    have hpos : 0 < (encodeField f).length := List.length_pos_iff.2 hne
    rw [List.length_append] at hn
    cases n with
    | zero => omega
    | succ n =>
      cases hb : encodeField f ++ encodeFields fs with
      | nil => simp at hb; exact absurd hb.1 hne
      | cons b bs =>
        rw [hb] at h1
        unfold parseAux
        rw [h1]
        simp only
        rw [h2]
        simp only
        rw [ih (fun g hg => h g (by simp [hg])) n (by omega)]
        rfl

/-- Parsing an encoded list of fields gives the list back. -/
theorem parse_encodeFields {fs : List RawField} (h : ∀ f ∈ fs, f.Ok) :
    parse (encodeFields fs) = some fs :=
  parseAux_encodeFields h _ (Nat.le_refl _)

theorem decodeInto_encodeFields {M : Type} {step : M → RawField → Option M} {fs : List RawField}
    (h : ∀ f ∈ fs, f.Ok) (m : M) :
    decodeInto step m (encodeFields fs) = fs.foldlM step m := by
  unfold decodeInto
  rw [parse_encodeFields h]
  rfl

theorem int32_wire_lt {i : Int} (h : isInt32 i = true) : int32ToWire i < 2 ^ 64 := by
  simp [isInt32] at h
  unfold int32ToWire
  split <;> omega

theorem int32_round_trip {i : Int} (h : isInt32 i = true) : int32OfWire (int32ToWire i) = i := by
  simp [isInt32] at h
  unfold int32OfWire int32ToWire
  split <;> simp only <;> split <;> omega

theorem toInt32_isInt32 (i : Int) : isInt32 (toInt32 i) = true := by
  simp [isInt32]
  unfold toInt32 int32OfWire
  simp only
  split <;> omega

/-- The conversion to `int32` keeps exactly the numbers of that range. -/
theorem toInt32_eq_iff (i : Int) : toInt32 i = i ↔ isInt32 i = true := by
  constructor
  · intro h; rw [← h]; exact toInt32_isInt32 i
  · intro h
    simp [isInt32] at h
    unfold toInt32 int32OfWire
    simp only
    split <;> omega

end Verif.Proto
