import Verif.Model.Hashes

/-!
# C91: the constants of the hash functions

The tables of `Verif.Model.Hashes` are those the standards derive: fractional parts of roots of the first primes for
SHA-256, roots of 2, 3, 5 and 7 and powers of one permutation for RIPEMD-160, a linear shift register and a walk over
the lanes for Keccak.
-/

namespace Verif

/-! ## Specification -/

/-- The primes below 312: the first 64. -/
def primesBelow312 : List Nat := (List.range 312).filter fun n => 2 ≤ n ∧ ∀ d < n, 2 ≤ d → n % d ≠ 0

/-- `c` is the fractional part of the `k`-th root of `p`, cut off after 32 binary digits. -/
def FractionOfRoot (k p c : Nat) : Prop :=
  c < 2 ^ 32 ∧ ∃ a < 20, (a * 2 ^ 32 + c) ^ k ≤ p * 2 ^ (32 * k) ∧ p * 2 ^ (32 * k) < (a * 2 ^ 32 + c + 1) ^ k

/-- `c` is the whole part of `2 ^ 30` times the `k`-th root of `p`. -/
def RootTimes (k p c : Nat) : Prop := c ^ k ≤ p * 2 ^ (30 * k) ∧ p * 2 ^ (30 * k) < (c + 1) ^ k

/-- The permutation of RIPEMD-160. -/
def ripemdRho (i : Nat) : Nat := [7, 4, 13, 1, 10, 6, 15, 3, 12, 0, 9, 5, 2, 14, 11, 8].getD i 0

/-- The shift register of Keccak: `x ^ 8 + x ^ 6 + x ^ 5 + x ^ 4 + 1`. -/
def keccakRegister : Nat → Nat
  | 0 => 1
  | t + 1 =>
    forceNat (2 * keccakRegister t) fun r => if 256 ≤ r then r ^^^ 0x171 else r

/-- The lane the walk of Keccak is at. -/
def keccakWalk : Nat → Nat × Nat
  | 0 => (1, 0)
  | t + 1 => let p := keccakWalk t; (p.2, (2 * p.1 + 3 * p.2) % 5)

instance (k p c : Nat) : Decidable (FractionOfRoot k p c) := by unfold FractionOfRoot; infer_instance
instance (k p c : Nat) : Decidable (RootTimes k p c) := by unfold RootTimes; infer_instance

/-! ## Theorems -/

theorem mem_primesBelow312 (n : Nat) : n ∈ primesBelow312 ↔ n < 312 ∧ 2 ≤ n ∧ ∀ d < n, 2 ≤ d → n % d ≠ 0 := by
  simp [primesBelow312]

/-- **C91, SHA-256.** The constants are those of FIPS 180-4. -/
theorem C91_sha256_constants : primesBelow312.length = 64 ∧ sha256K.length = 64 ∧ sha256Init.length = 8 ∧
    (∀ i < 64, FractionOfRoot 3 (primesBelow312.getD i 0) (sha256K.getD i 0)) ∧
    (∀ i < 8, FractionOfRoot 2 (primesBelow312.getD i 0) (sha256Init.getD i 0)) := by
  refine ⟨?_, ?_, ?_, ?_, ?_⟩ <;> decide +kernel

/-- **C91, RIPEMD-160.** The constants and the orders of the words. -/
theorem C91_ripemd_constants :
    (∀ i < 4, RootTimes 2 ([2, 3, 5, 7].getD i 0) (ripemdK (i + 1))) ∧ ripemdK 0 = 0 ∧
    (∀ i < 4, RootTimes 3 ([2, 3, 5, 7].getD i 0) (ripemdK' i)) ∧ ripemdK' 4 = 0 ∧
    ripemdR.length = 80 ∧ ripemdR'.length = 80 ∧ ripemdS.length = 80 ∧ ripemdS'.length = 80 ∧
    (∀ i < 16, ripemdR.getD i 0 = i ∧ ripemdR'.getD i 0 = (9 * i + 5) % 16) ∧
    (∀ i < 64, ripemdR.getD (i + 16) 0 = ripemdRho (ripemdR.getD i 0) ∧
      ripemdR'.getD (i + 16) 0 = ripemdRho (ripemdR'.getD i 0)) := by
  refine ⟨?_, ?_, ?_, ?_, ?_, ?_, ?_, ?_, ?_, ?_⟩ <;> decide +kernel

/-- **C91, Keccak.** The constants of the rounds and the rotations of the lanes. -/
theorem C91_keccak_constants : keccakRC.length = 24 ∧ keccakRot.length = 25 ∧ keccakRot.getD 0 1 = 0 ∧
    (∀ r < 24, ∀ b < 64, (keccakRC.getD r 0).testBit b =
      (List.range 7).any fun j => b + 1 == 2 ^ j && (keccakRegister (j + 7 * r)).testBit 0) ∧
    (∀ r < 24, keccakRC.getD r 0 < 2 ^ 64) ∧
    (∀ t < 24, keccakRot.getD ((keccakWalk t).1 + 5 * (keccakWalk t).2) 0 = (t + 1) * (t + 2) / 2 % 64) := by
  refine ⟨?_, ?_, ?_, ?_, ?_, ?_⟩ <;> decide +kernel

end Verif
