import Mathlib.NumberTheory.LucasPrimality
import Mathlib.Data.List.Prime
import Mathlib.Tactic.NormNum.Prime
import Verif.Model.PubKey

/-!
# The field of secp256k1 is a field

The prime is shown to be prime by Lucas' test, with the factors of its predecessor, and theirs.
-/

namespace Verif

theorem powModAux_eq (m : Nat) : ∀ (fuel a e : Nat), e < 2 ^ fuel → powModAux m fuel a e = a ^ e % m
  | 0, a, e, h => by
    have : e = 0 := by simpa using h
    subst this
    simp [powModAux]
  | fuel + 1, a, e, h => by
    have ih := powModAux_eq m fuel (a * a % m) (e / 2) (by rw [pow_succ] at h; omega)
    have hs : (a * a % m) ^ (e / 2) % m = a ^ (2 * (e / 2)) % m := by
      rw [← Nat.pow_mod, pow_mul, pow_two]
    simp only [powModAux, ih, hs]
    split
    · next ho =>
      have he : e = 2 * (e / 2) + 1 := by omega
      conv => rhs; rw [he, pow_succ, mul_comm]
      rw [Nat.mul_mod, Nat.mod_mod, ← Nat.mul_mod]
    · next ho =>
      have he : e = 2 * (e / 2) := by omega
      conv => rhs; rw [he]

/-- The power by squaring is the power. -/
theorem powMod_eq (m a e : Nat) : powMod m a e = a ^ e % m :=
  powModAux_eq m _ a e Nat.lt_log2_self

/-- Lucas' test, for a list of the prime factors. -/
theorem lucas_list (p a : Nat) (fs : List Nat) (h1 : 1 < p) (hp : fs.prod = p - 1) (hf : ∀ q ∈ fs, q.Prime)
    (ha : powMod p a (p - 1) = 1) (hq : ∀ q ∈ fs, powMod p a ((p - 1) / q) ≠ 1) : p.Prime := by
  have key : ∀ e, ((a : ZMod p) ^ e = 1) ↔ powMod p a e = 1 := by
    intro e
    rw [powMod_eq, ← Nat.cast_pow, ← Nat.cast_one (R := ZMod p), ZMod.natCast_eq_natCast_iff, Nat.ModEq,
      Nat.mod_eq_of_lt h1]
  refine lucas_primality p (a : ZMod p) ((key _).2 ha) ?_
  intro q hqp hd
  rw [← hp, (Nat.prime_iff.1 hqp).dvd_prod_iff] at hd
  obtain ⟨r, hr, hqr⟩ := hd
  have : q = r := (Nat.prime_dvd_prime_iff_eq hqp (hf r hr)).1 hqr
  subst this
  rw [Ne, key]
  exact hq q hr

theorem prime_a : Nat.Prime 173378833005251801 := by
  refine lucas_list _ 6 [2, 2, 2, 5, 5, 2621, 24809, 13331831] (by norm_num) (by norm_num) ?_
    (by decide +kernel) (by decide +kernel)
  simp only [List.forall_mem_cons]
  norm_num

theorem prime_b : Nat.Prime 22149492674086928081353 := by
  refine lucas_list _ 5 [2, 2, 2, 3, 5323, 173378833005251801] (by norm_num) (by norm_num) ?_
    (by decide +kernel) (by decide +kernel)
  simp only [List.forall_mem_cons]
  exact ⟨by norm_num, by norm_num, by norm_num, by norm_num, by norm_num, prime_a, by simp⟩

theorem prime_c : Nat.Prime 132896956044521568488119 := by
  refine lucas_list _ 6 [2, 3, 22149492674086928081353] (by norm_num) (by norm_num) ?_
    (by decide +kernel) (by decide +kernel)
  simp only [List.forall_mem_cons]
  exact ⟨by norm_num, by norm_num, prime_b, by simp⟩

theorem prime_d : Nat.Prime 255515944373312847190720520512484175977 := by
  refine lucas_list _ 3 [2, 2, 2, 7, 7, 11, 1627, 2657, 4423, 41201, 96557, 7240687, 107590001]
    (by norm_num) (by norm_num) ?_ (by decide +kernel) (by decide +kernel)
  simp only [List.forall_mem_cons]
  norm_num

theorem prime_e :
    Nat.Prime 205115282021455665897114700593932402728804164701536103180137503955397371 := by
  refine lucas_list _ 10 [2, 3, 5, 29, 29, 31, 7723, 132896956044521568488119,
    255515944373312847190720520512484175977] (by norm_num) (by norm_num) ?_
    (by decide +kernel) (by decide +kernel)
  simp only [List.forall_mem_cons]
  exact ⟨by norm_num, by norm_num, by norm_num, by norm_num, by norm_num, by norm_num, by norm_num, prime_c,
    prime_d, by simp⟩

/-- The field's modulus is prime. -/
theorem fieldP_prime : fieldP.Prime := by
  refine lucas_list _ 3 [2, 3, 7, 13441,
    205115282021455665897114700593932402728804164701536103180137503955397371] (by decide +kernel)
    (by decide +kernel) ?_ (by decide +kernel) (by decide +kernel)
  simp only [List.forall_mem_cons]
  exact ⟨by norm_num, by norm_num, by norm_num, by norm_num, prime_e, by simp⟩

end Verif
