import Verif.Model.TextCodes
import Verif.Props.EthRecover

/-!
# C91: the texts of signatures
-/

namespace Verif

/-! ## Specification -/

/-- The text of bytes in base 64 with the number `k` in the unused bits of the last symbol. -/
def base64With (k : Nat) : Bytes → Bytes
  | [] => []
  | [a] => [base64Char (a.toNat / 4), base64Char (a.toNat % 4 * 16 + k), 61, 61]
  | [a, b] => [base64Char (a.toNat / 4), base64Char (a.toNat % 4 * 16 + b.toNat / 16),
      base64Char (b.toNat % 16 * 4 + k), 61]
  | a :: b :: c :: rest =>
    base64Char (a.toNat / 4) :: base64Char (a.toNat % 4 * 16 + b.toNat / 16) ::
      base64Char (b.toNat % 16 * 4 + c.toNat / 64) :: base64Char (c.toNat % 64) :: base64With k rest

/-- How many values the unused bits have. -/
def base64Unused (b : Bytes) : Nat := if b.length % 3 = 0 then 1 else if b.length % 3 = 1 then 16 else 4

/-! ## Base 64 -/

theorem base64Unused_one (a : UInt8) : base64Unused [a] = 16 := rfl

theorem base64Unused_two (a b : UInt8) : base64Unused [a, b] = 4 := rfl

theorem base64Unused_more (a b c : UInt8) (rest : Bytes) : base64Unused (a :: b :: c :: rest) = base64Unused rest := by
  simp only [base64Unused, List.length_cons, show (rest.length + 1 + 1 + 1) % 3 = rest.length % 3 by omega]

theorem base64Val_char : ∀ n < 64, base64Val (base64Char n) = some n := by decide

theorem base64Char_val {c : UInt8} {n : Nat} (h : base64Val c = some n) : n < 64 ∧ base64Char n = c := by
  have all : ∀ k < 256, (base64Val (UInt8.ofNat k)).all (fun n => decide (n < 64 ∧ base64Char n = UInt8.ofNat k)) =
      true := by decide +kernel
  have := all c.toNat c.toNat_lt
  rw [UInt8.ofNat_toNat, h] at this
  simpa using this

theorem base64Char_ne : ∀ n < 64, base64Char n ≠ 61 ∧ base64Char n ≠ 10 ∧ base64Char n ≠ 13 := by decide

theorem ofNat_eq {n : Nat} {a : UInt8} (h : n = a.toNat) : UInt8.ofNat n = a := by rw [h, UInt8.ofNat_toNat]

theorem toNat_ofNat_lt {n : Nat} (h : n < 256) : (UInt8.ofNat n).toNat = n := by
  rw [UInt8.toNat_ofNat', Nat.mod_eq_of_lt h]

theorem base64_with (k : Nat) : ∀ b : Bytes, k < base64Unused b → base64Quanta (base64With k b) = some b
  | [], _ => rfl
  | [a], h => by
    have ha := a.toNat_lt
    have hk : k < 16 := by simpa [base64Unused] using h
    simp only [base64With, base64Quanta]
    rw [base64Val_char _ (by omega), base64Val_char _ (by omega)]
    simp only [and_self, if_true]
    rw [ofNat_eq (a := a) (by omega)]
  | [a, b], h => by
    have ha := a.toNat_lt
    have hb := b.toNat_lt
    have hk : k < 4 := by simpa [base64Unused] using h
    simp only [base64With, base64Quanta]
    rw [base64Val_char _ (by omega), base64Val_char _ (by omega)]
    simp only [if_true]
    rw [if_neg (base64Char_ne _ (by omega)).1, base64Val_char _ (by omega)]
    simp only
    rw [ofNat_eq (a := a) (by omega), ofNat_eq (a := b) (by omega)]
  | a :: b :: c :: rest, h => by
    have ha := a.toNat_lt
    have hb := b.toNat_lt
    have hc := c.toNat_lt
    have ih := base64_with k rest (by rwa [base64Unused_more] at h)
    simp only [base64With, base64Quanta]
    rw [base64Val_char _ (by omega), base64Val_char _ (by omega)]
    simp only
    rw [if_neg (base64Char_ne _ (by omega)).1, base64Val_char _ (by omega)]
    simp only
    rw [if_neg (base64Char_ne _ (by omega)).1, base64Val_char _ (by omega), ih]
    simp only
    rw [ofNat_eq (a := a) (by omega), ofNat_eq (a := b) (by omega), ofNat_eq (a := c) (by omega)]

theorem base64_quanta : ∀ (t b : Bytes), base64Quanta t = some b → ∃ k < base64Unused b, t = base64With k b
  | [], b, h => by
    simp only [base64Quanta, Option.some.injEq] at h
    subst h
    exact ⟨0, by decide, rfl⟩
  | [_], _, h | [_, _], _, h | [_, _, _], _, h => by simp [base64Quanta] at h
  | p :: q :: r :: s :: rest, b, h => by
    rw [base64Quanta] at h
    split at h
    next pv qv hp hq =>
      obtain ⟨hp1, hp2⟩ := base64Char_val hp
      obtain ⟨hq1, hq2⟩ := base64Char_val hq
      have t1 : (UInt8.ofNat (pv * 4 + qv / 16)).toNat = pv * 4 + qv / 16 := toNat_ofNat_lt (by omega)
      have d1 : (pv * 4 + qv / 16) / 4 = pv := by omega
      split at h
      · next hr =>
        split at h
        · next hs =>
          rw [Option.some.injEq] at h
          subst h
          refine ⟨qv % 16, by rw [base64Unused_one]; omega, ?_⟩
          simp only [base64With]
          rw [t1, d1, hp2, show (pv * 4 + qv / 16) % 4 * 16 + qv % 16 = qv by omega, hq2, hr, hs.1, hs.2]
        · simp at h
      · split at h
        · simp at h
        next rv hr =>
        obtain ⟨hr1, hr2⟩ := base64Char_val hr
        have t2 : (UInt8.ofNat (qv % 16 * 16 + rv / 4)).toNat = qv % 16 * 16 + rv / 4 := toNat_ofNat_lt (by omega)
        have d2 : (pv * 4 + qv / 16) % 4 * 16 + (qv % 16 * 16 + rv / 4) / 16 = qv := by omega
        split at h
        · next hs =>
          split at h
          · next hre =>
            rw [Option.some.injEq] at h
            subst h
            refine ⟨rv % 4, by rw [base64Unused_two]; omega, ?_⟩
            simp only [base64With]
            rw [t1, t2, d1, d2, hp2, hq2, show (qv % 16 * 16 + rv / 4) % 16 * 4 + rv % 4 = rv by omega, hr2, hs, hre]
          · simp at h
        · split at h
          next sv out hs ho =>
            obtain ⟨hs1, hs2⟩ := base64Char_val hs
            obtain ⟨k, hk, ih⟩ := base64_quanta rest out ho
            have t3 : (UInt8.ofNat (rv % 4 * 64 + sv)).toNat = rv % 4 * 64 + sv := toNat_ofNat_lt (by omega)
            rw [Option.some.injEq] at h
            subst h
            refine ⟨k, by rwa [base64Unused_more], ?_⟩
            simp only [base64With]
            rw [t1, t2, t3, d1, d2, hp2, hq2, show (qv % 16 * 16 + rv / 4) % 16 * 4 + (rv % 4 * 64 + sv) / 64 = rv by omega,
              hr2, show (rv % 4 * 64 + sv) % 64 = sv by omega, hs2, ← ih]
          · simp at h
    · simp at h

theorem base64With_zero : ∀ b : Bytes, base64With 0 b = base64Encode b
  | [] => rfl
  | [_] => rfl
  | [_, _] => rfl
  | _ :: _ :: _ :: rest => by rw [base64With, base64Encode, base64With_zero rest]

theorem base64With_lines (k : Nat) : ∀ b : Bytes, k < base64Unused b →
    (base64With k b).filter (fun c => c ≠ 10 ∧ c ≠ 13) = base64With k b := by
  have hf : ∀ n < 64, decide (base64Char n ≠ 10 ∧ base64Char n ≠ 13) = true := by decide
  intro b h
  rw [List.filter_eq_self]
  induction b using base64With.induct with
  | case1 => simp [base64With]
  | case2 a =>
    have ha := a.toNat_lt
    have hk : k < 16 := by simpa [base64Unused] using h
    intro c hc
    simp only [base64With, List.mem_cons, List.not_mem_nil, or_false] at hc
    rcases hc with rfl | rfl | rfl | rfl
    · exact hf _ (by omega)
    · exact hf _ (by omega)
    · decide
    · decide
  | case3 a b =>
    have ha := a.toNat_lt
    have hb := b.toNat_lt
    have hk : k < 4 := by simpa [base64Unused] using h
    intro c hc
    simp only [base64With, List.mem_cons, List.not_mem_nil, or_false] at hc
    rcases hc with rfl | rfl | rfl | rfl
    · exact hf _ (by omega)
    · exact hf _ (by omega)
    · exact hf _ (by omega)
    · decide
  | case4 a b c rest ih =>
    have ha := a.toNat_lt
    have hb := b.toNat_lt
    have hc := c.toNat_lt
    have ih := ih (by rwa [base64Unused_more] at h)
    intro d hd
    simp only [base64With, List.mem_cons] at hd
    rcases hd with rfl | rfl | rfl | rfl | hd
    · exact hf _ (by omega)
    · exact hf _ (by omega)
    · exact hf _ (by omega)
    · exact hf _ (by omega)
    · exact ih d hd

/-- **C91.** Exactly these texts are decoded to the bytes: the text of the encoder, with anything in the unused bits of
the last symbol, and with ends of lines anywhere. -/
theorem C91_base64_iff (t b : Bytes) : base64Decode t = some b ↔
    ∃ k < base64Unused b, (t.filter fun c => c ≠ 10 ∧ c ≠ 13) = base64With k b := by
  constructor
  · exact base64_quanta _ b
  · rintro ⟨k, hk, h⟩
    rw [base64Decode, h, base64_with k b hk]

/-- **C91.** What is encoded is decoded to the same bytes. -/
theorem C91_base64_roundtrip (b : Bytes) : base64Decode (base64Encode b) = some b := by
  have h0 : 0 < base64Unused b := by unfold base64Unused; split <;> (try split) <;> omega
  rw [C91_base64_iff]
  exact ⟨0, h0, by rw [← base64With_zero, base64With_lines 0 b h0]⟩

end Verif
