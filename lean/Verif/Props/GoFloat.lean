import Verif.Props.Retry

/-!
# C40: the floating-point number of a delay

`backOffDelay` takes the logarithm of the delay as a `float64`. What the model uses for it is the nearest number of
53 binary digits, and the one whose last digit is even if there are two.
-/

namespace Verif

open Retry

/-- A whole number that is a `float64` (below the largest one). -/
def IsFloat (x : Nat) : Prop := ∃ m e, m < 2 ^ 53 ∧ x = m * 2 ^ e

/-- How far apart two numbers are. -/
def farApart (a b : Nat) : Nat := (a - b) + (b - a)

theorem float_gap {q s x : Nat} (hq : 2 ^ 52 ≤ q) (hx : IsFloat x) : x ≤ q * 2 ^ s ∨ q * 2 ^ s + 2 ^ s ≤ x := by
  obtain ⟨m, e, hm, rfl⟩ := hx
  rcases Nat.lt_or_ge e s with h | h
  · left
    obtain ⟨k, rfl⟩ : ∃ k, s = e + 1 + k := ⟨s - e - 1, by omega⟩
    calc m * 2 ^ e ≤ 2 ^ 53 * 2 ^ e := Nat.mul_le_mul_right _ (by omega)
      _ = 2 ^ 52 * 2 ^ (e + 1) := by rw [Nat.pow_succ 2 e]; omega
      _ ≤ q * 2 ^ (e + 1) := Nat.mul_le_mul_right _ hq
      _ ≤ q * 2 ^ (e + 1 + k) := Nat.mul_le_mul_left _ (Nat.pow_le_pow_right (by omega) (by omega))
  · obtain ⟨k, rfl⟩ : ∃ k, e = s + k := ⟨e - s, by omega⟩
    rw [Nat.pow_add, show m * (2 ^ s * 2 ^ k) = (m * 2 ^ k) * 2 ^ s by
      rw [Nat.mul_comm (2 ^ s), Nat.mul_assoc]]
    rcases Nat.lt_or_ge q (m * 2 ^ k) with h | h
    · right
      rw [← Nat.succ_mul]
      exact Nat.mul_le_mul_right _ h
    · exact .inl (Nat.mul_le_mul_right _ h)

/-- **C40.** A delay becomes the nearest floating-point number, the even one of two. -/
theorem C40_float (d : Nat) :
    IsFloat (toFloat d) ∧
    ∀ x, IsFloat x →
      farApart (toFloat d) d ≤ farApart x d ∧
      (farApart (toFloat d) d = farApart x d → x ≠ toFloat d →
        ∃ m e, m % 2 = 0 ∧ 2 ^ 52 ≤ m ∧ m ≤ 2 ^ 53 ∧ toFloat d = m * 2 ^ e) := by
  unfold toFloat
  by_cases hd : d < 2 ^ 53
  · rw [if_pos hd]
    refine ⟨⟨d, 0, hd, by simp⟩, fun x hx => ⟨?_, ?_⟩⟩
    · unfold farApart; omega
    · intro h hne
      unfold farApart at h
      omega
  · rw [if_neg hd]
    have hd0 : d ≠ 0 := by omega
    have hl : 53 ≤ d.log2 := (Nat.le_log2 hd0).2 (by omega)
    obtain ⟨s, hs⟩ : ∃ s, d.log2 = 53 + s := ⟨d.log2 - 53, by omega⟩
    have h1 : 2 ^ (53 + s) ≤ d := by rw [← hs]; exact Nat.log2_self_le hd0
    have h2 : d < 2 ^ (54 + s) := by
      have := @Nat.lt_log2_self d
      rw [hs] at this
      rw [show 54 + s = 53 + s + 1 by omega]
      exact this
    simp only [hs, show 53 + s - 52 = s + 1 by omega, show s + 1 - 1 = s by omega]
    have hT : 2 ^ (s + 1) = 2 * 2 ^ s := by rw [Nat.pow_succ, Nat.mul_comm]
    have hpos : 0 < 2 ^ s := Nat.two_pow_pos s
    have hq1 : 2 ^ 52 ≤ d / 2 ^ (s + 1) := by
      rw [Nat.le_div_iff_mul_le (Nat.two_pow_pos _), ← Nat.pow_add, show 52 + (s + 1) = 53 + s by omega]
      exact h1
    have hq2 : d / 2 ^ (s + 1) < 2 ^ 53 := by
      rw [Nat.div_lt_iff_lt_mul (Nat.two_pow_pos _), ← Nat.pow_add, show 53 + (s + 1) = 54 + s by omega]
      exact h2
    have hdm : d / 2 ^ (s + 1) * 2 ^ (s + 1) + d % 2 ^ (s + 1) = d := Nat.div_add_mod' d _
    have hr : d % 2 ^ (s + 1) < 2 ^ (s + 1) := Nat.mod_lt _ (Nat.two_pow_pos _)
    have hgap := fun x => @float_gap (d / 2 ^ (s + 1)) (s + 1) x hq1
    generalize d / 2 ^ (s + 1) = q at *
    generalize d % 2 ^ (s + 1) = r at *
    have hup : (q + 1) * 2 ^ (s + 1) = q * 2 ^ (s + 1) + 2 ^ (s + 1) := Nat.succ_mul _ _
    split
    · rename_i h
      rw [hup]
      refine ⟨?_, fun x hx => ?_⟩
      · rcases Nat.lt_or_ge (q + 1) (2 ^ 53) with hlt | hge
        · exact ⟨q + 1, s + 1, hlt, hup.symm⟩
        · refine ⟨2 ^ 52, s + 2, by omega, ?_⟩
          rw [← hup, show q + 1 = 2 ^ 52 * 2 by omega, Nat.mul_assoc, ← Nat.pow_succ']
      · have hg := hgap x hx
        generalize q * 2 ^ (s + 1) = Q at *
        refine ⟨?_, fun he hne => ?_⟩
        · unfold farApart; omega
        · refine ⟨q + 1, s + 1, ?_, by omega, by omega, ?_⟩
          · unfold farApart at he; omega
          · omega
    · rename_i h
      refine ⟨⟨q, s + 1, hq2, rfl⟩, fun x hx => ?_⟩
      have hg := hgap x hx
      refine ⟨?_, fun he hne => ⟨q, s + 1, ?_, hq1, by omega, rfl⟩⟩
      · generalize q * 2 ^ (s + 1) = Q at *
        unfold farApart; omega
      · generalize q * 2 ^ (s + 1) = Q at *
        unfold farApart at he; omega

/-- A delay half-way between two numbers. -/
example : toFloat (2 ^ 53 + 1) = 2 ^ 53 ∧ toFloat (2 ^ 53 + 3) = 2 ^ 53 + 4 ∧ toFloat (2 ^ 63 - 1) = 2 ^ 63 := by
  decide

end Verif
