import Mathlib.NumberTheory.LegendreSymbol.Basic
import Verif.Lemmas.FieldPrime

/-!
# Numbers as bytes, and square roots in the field of secp256k1
-/

namespace Verif

instance fieldP_fact : Fact fieldP.Prime := ⟨fieldP_prime⟩

/-! ## Bytes -/

theorem beNat_append (b : Bytes) (x : UInt8) : beNat (b ++ [x]) = beNat b * 256 + x.toNat := by
  simp [beNat, List.foldl_append]

theorem natBE_length : ∀ (k n : Nat), (natBE k n).length = k
  | 0, _ => rfl
  | k + 1, n => by simp [natBE, natBE_length k]

theorem beNat_natBE : ∀ (k n : Nat), n < 256 ^ k → beNat (natBE k n) = n
  | 0, n, h => by
    have : n = 0 := by simpa using h
    subst this; rfl
  | k + 1, n, h => by
    rw [natBE, beNat_append, beNat_natBE k (n / 256) (by rw [pow_succ] at h; omega)]
    have : (UInt8.ofNat (n % 256)).toNat = n % 256 := by
      rw [UInt8.toNat_ofNat']; omega
    omega

theorem natBE_beNat : ∀ (k : Nat) (b : Bytes), b.length = k → natBE k (beNat b) = b
  | 0, b, h => by
    have : b = [] := List.length_eq_zero_iff.1 h
    subst this; rfl
  | k + 1, b, h => by
    have hb : b ≠ [] := by rintro rfl; simp at h
    obtain ⟨c, x, rfl⟩ : ∃ c x, b = c ++ [x] := ⟨b.dropLast, b.getLast hb, (List.dropLast_append_getLast hb).symm⟩
    have hx : x.toNat < 256 := x.toNat_lt
    have hl : c.length = k := by simpa using h
    rw [beNat_append, natBE]
    have h1 : (beNat c * 256 + x.toNat) / 256 = beNat c := by omega
    have h2 : (beNat c * 256 + x.toNat) % 256 = x.toNat := by omega
    rw [h1, h2, natBE_beNat k c hl, UInt8.ofNat_toNat]

theorem beNat_lt : ∀ (k : Nat) (b : Bytes), b.length = k → beNat b < 256 ^ k
  | 0, b, h => by
    have : b = [] := List.length_eq_zero_iff.1 h
    subst this; simp [beNat]
  | k + 1, b, h => by
    have hb : b ≠ [] := by rintro rfl; simp at h
    obtain ⟨c, x, rfl⟩ : ∃ c x, b = c ++ [x] := ⟨b.dropLast, b.getLast hb, (List.dropLast_append_getLast hb).symm⟩
    have hx : x.toNat < 256 := x.toNat_lt
    have := beNat_lt k c (by simpa using h)
    rw [beNat_append, pow_succ]
    omega

/-! ## Square roots -/

theorem fieldP_odd : fieldP % 2 = 1 := by decide +kernel

theorem fieldP_lt : fieldP < 256 ^ 32 := by decide +kernel

/-- The equation of the curve, in numbers and in the field. -/
theorem curve_mod_iff (x y : Nat) : y * y % fieldP = (x * x * x + 7) % fieldP ↔
    (y : ZMod fieldP) ^ 2 = (x : ZMod fieldP) ^ 3 + 7 := by
  have h : y * y % fieldP = (x * x * x + 7) % fieldP ↔ ((y * y : Nat) : ZMod fieldP) = ((x * x * x + 7 : Nat) : ZMod fieldP) := by
    rw [ZMod.natCast_eq_natCast_iff]; rfl
  rw [h]
  push_cast
  constructor
  · intro h; rw [pow_two, h]; ring
  · intro h; rw [← pow_two, h]; ring

theorem root_of_square (a : ZMod fieldP) : (a * a) ^ ((fieldP + 1) / 4) = a ∨ (a * a) ^ ((fieldP + 1) / 4) = -a := by
  by_cases h0 : a = 0
  · subst h0
    left
    rw [mul_zero, zero_pow (by decide +kernel)]
  · have he : (a * a) ^ ((fieldP + 1) / 4) = a ^ (fieldP / 2) * a := by
      rw [← pow_two, ← pow_mul, ← pow_succ]
      congr 1
    rw [he]
    rcases ZMod.pow_div_two_eq_neg_one_or_one fieldP h0 with h | h
    · left; rw [h, one_mul]
    · right; rw [h, neg_one_mul]

/-- The root taken is a number, or the other one, if the number's square is given. -/
theorem powMod_root {y c : Nat} (hy : y < fieldP) (h : y * y % fieldP = c) :
    powMod fieldP c ((fieldP + 1) / 4) = y ∨
    (y ≠ 0 ∧ powMod fieldP c ((fieldP + 1) / 4) = fieldP - y) := by
  have hr : powMod fieldP c ((fieldP + 1) / 4) < fieldP := by
    rw [powMod_eq]; exact Nat.mod_lt _ fieldP_prime.pos
  have hc : ((powMod fieldP c ((fieldP + 1) / 4) : Nat) : ZMod fieldP) = ((y : ZMod fieldP) * y) ^ ((fieldP + 1) / 4) := by
    rw [powMod_eq, ← h, ZMod.natCast_mod, Nat.cast_pow, ZMod.natCast_mod, Nat.cast_mul]
  by_cases h0 : y = 0
  · left
    subst h0
    rw [Nat.cast_zero, mul_zero, zero_pow (by decide +kernel), ← Nat.cast_zero, ZMod.natCast_eq_natCast_iff, Nat.ModEq,
      Nat.mod_eq_of_lt hr, Nat.mod_eq_of_lt fieldP_prime.pos] at hc
    exact hc
  · rcases root_of_square (y : ZMod fieldP) with e | e
    · left
      rw [e, ZMod.natCast_eq_natCast_iff, Nat.ModEq, Nat.mod_eq_of_lt hr, Nat.mod_eq_of_lt hy] at hc
      exact hc
    · right
      refine ⟨h0, ?_⟩
      have hn : (-(y : ZMod fieldP)) = ((fieldP - y : Nat) : ZMod fieldP) := by
        rw [Nat.cast_sub hy.le, ZMod.natCast_self, zero_sub]
      rw [e, hn, ZMod.natCast_eq_natCast_iff, Nat.ModEq, Nat.mod_eq_of_lt hr, Nat.mod_eq_of_lt (by omega)] at hc
      exact hc

/-- What `decompressPoint` returns: the one root of the parity asked for. -/
theorem decompressY_iff (x odd y : Nat) : decompressY x odd = some y ↔
    y < fieldP ∧ y % 2 = odd ∧ (y : ZMod fieldP) ^ 2 = (x : ZMod fieldP) ^ 3 + 7 := by
  have hp := fieldP_prime.pos
  have hodd := fieldP_odd
  rw [← curve_mod_iff]
  have hr : powMod fieldP ((x * x * x + 7) % fieldP) ((fieldP + 1) / 4) < fieldP := by
    rw [powMod_eq]; exact Nat.mod_lt _ hp
  constructor
  · intro h
    simp only [decompressY] at h
    have hs : (if powMod fieldP ((x * x * x + 7) % fieldP) ((fieldP + 1) / 4) % 2 = odd then
        powMod fieldP ((x * x * x + 7) % fieldP) ((fieldP + 1) / 4)
        else (fieldP - powMod fieldP ((x * x * x + 7) % fieldP) ((fieldP + 1) / 4)) % fieldP) < fieldP := by
      split
      · exact hr
      · exact Nat.mod_lt _ hp
    generalize (if powMod fieldP ((x * x * x + 7) % fieldP) ((fieldP + 1) / 4) % 2 = odd then
        powMod fieldP ((x * x * x + 7) % fieldP) ((fieldP + 1) / 4)
        else (fieldP - powMod fieldP ((x * x * x + 7) % fieldP) ((fieldP + 1) / 4)) % fieldP) = z at h hs
    by_cases h1 : z * z % fieldP = (x * x * x + 7) % fieldP
    · by_cases h2 : z % 2 = odd
      · rw [if_neg (not_not.2 h1), if_neg (not_not.2 h2), Option.some.injEq] at h
        subst h
        exact ⟨hs, h2, h1⟩
      · rw [if_neg (not_not.2 h1), if_pos h2] at h
        simp at h
    · rw [if_pos h1] at h
      simp at h
  · rintro ⟨hy, ho, hc⟩
    have hroot := powMod_root hy hc
    simp only [decompressY]
    generalize powMod fieldP ((x * x * x + 7) % fieldP) ((fieldP + 1) / 4) = r at hroot hr
    have hsel : (if r % 2 = odd then r else (fieldP - r) % fieldP) = y := by
      rcases hroot with h | ⟨h0, h⟩
      · rw [if_pos (by rw [h]; exact ho), h]
      · rw [if_neg (by omega)]
        have : fieldP - r = y := by omega
        rw [this, Nat.mod_eq_of_lt hy]
    rw [hsel, if_neg (by simpa using hc), if_neg (by simpa using ho)]

/-- There is one point of a given first coordinate and parity. -/
theorem same_root {x y z : Nat} (hy : y < fieldP) (hz : z < fieldP) (h2 : y % 2 = z % 2)
    (h : (y : ZMod fieldP) ^ 2 = (x : ZMod fieldP) ^ 3 + 7)
    (h' : (z : ZMod fieldP) ^ 2 = (x : ZMod fieldP) ^ 3 + 7) : y = z := by
  have a := (decompressY_iff x (z % 2) y).2 ⟨hy, h2, h⟩
  have b := (decompressY_iff x (z % 2) z).2 ⟨hz, rfl, h'⟩
  rw [a] at b
  exact Option.some.inj b

end Verif
