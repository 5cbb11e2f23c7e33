import Verif.Model.TextCodes
import Mathlib.Data.Nat.Bitwise

/-!
# The checksum of bech32 is linear
-/

namespace Verif

theorem bech32Gen_xor (a b : Nat) : bech32Gen (a ^^^ b) = bech32Gen a ^^^ bech32Gen b := by
  simp only [bech32Gen, Nat.testBit_xor]
  generalize a.testBit 0 = a0; generalize b.testBit 0 = b0
  generalize a.testBit 1 = a1; generalize b.testBit 1 = b1
  generalize a.testBit 2 = a2; generalize b.testBit 2 = b2
  generalize a.testBit 3 = a3; generalize b.testBit 3 = b3
  generalize a.testBit 4 = a4; generalize b.testBit 4 = b4
  revert a0 b0 a1 b1 a2 b2 a3 b3 a4 b4
  decide +kernel

theorem bech32Step_xor (c d v w : Nat) : bech32Step (c ^^^ d) (v ^^^ w) = bech32Step c v ^^^ bech32Step d w := by
  simp only [bech32Step, Nat.and_xor_distrib_right, Nat.shiftLeft_xor_distrib, Nat.shiftRight_xor_distrib,
    bech32Gen_xor]
  ac_rfl

theorem bech32Run_xor : ∀ (u w : List Nat) (c d : Nat), u.length = w.length →
    bech32Run (c ^^^ d) (List.zipWith (· ^^^ ·) u w) = bech32Run c u ^^^ bech32Run d w
  | [], [], _, _, _ => rfl
  | v :: u, x :: w, c, d, h => by
    simp only [List.zipWith_cons_cons, bech32Run]
    rw [bech32Step_xor, bech32Run_xor u w _ _ (by simpa using h)]

theorem bech32Run_append : ∀ (u w : List Nat) (c : Nat), bech32Run c (u ++ w) = bech32Run (bech32Run c u) w
  | [], _, _ => rfl
  | v :: u, w, c => by simp only [List.cons_append, bech32Run]; exact bech32Run_append u w _

theorem bech32Gen_lt (b : Nat) : bech32Gen b < 2 ^ 30 := by
  simp only [bech32Gen]
  generalize b.testBit 0 = b0
  generalize b.testBit 1 = b1
  generalize b.testBit 2 = b2
  generalize b.testBit 3 = b3
  generalize b.testBit 4 = b4
  revert b0 b1 b2 b3 b4
  decide

theorem bech32Step_lt {v : Nat} (hv : v < 2 ^ 30) (c : Nat) : bech32Step c v < 2 ^ 30 := by
  unfold bech32Step
  refine Nat.xor_lt_two_pow (Nat.xor_lt_two_pow ?_ hv) (bech32Gen_lt _)
  have : c &&& 0x1ffffff < 2 ^ 25 := Nat.and_lt_two_pow _ (by decide)
  rw [Nat.shiftLeft_eq]
  omega

theorem bech32Run_lt : ∀ (l : List Nat) (c : Nat), c < 2 ^ 30 → (∀ v ∈ l, v < 32) → bech32Run c l < 2 ^ 30
  | [], _, hc, _ => hc
  | v :: l, c, _, h => by
    refine bech32Run_lt l _ (bech32Step_lt ?_ c) fun w hw => h w (by simp [hw])
    have := h v (by simp)
    omega

/-- While nothing is shifted out, the symbols are the digits. -/
theorem bech32Step_small {c v : Nat} (hc : c < 2 ^ 25) (hv : v < 32) : bech32Step c v = c * 32 + v := by
  have h1 : c &&& 0x1ffffff = c := by
    rw [show 0x1ffffff = 2 ^ 25 - 1 from rfl, Nat.and_two_pow_sub_one_eq_mod, Nat.mod_eq_of_lt hc]
  have h2 : c >>> 25 = 0 := by rw [Nat.shiftRight_eq_div_pow]; exact Nat.div_eq_of_lt hc
  have h3 : bech32Gen 0 = 0 := by decide
  rw [bech32Step, h1, h2, h3, Nat.xor_zero]
  apply Nat.eq_of_testBit_eq
  intro i
  rw [show c * 32 + v = 2 ^ 5 * c + v by omega, Nat.testBit_two_pow_mul_add _ (by omega), Nat.testBit_xor,
    Nat.testBit_shiftLeft]
  by_cases hi : i < 5
  · simp [hi, show ¬ 5 ≤ i by omega]
  · have : v.testBit i = false := Nat.testBit_lt_two_pow (lt_of_lt_of_le hv (by
      calc 32 = 2 ^ 5 := rfl
        _ ≤ 2 ^ i := Nat.pow_le_pow_right (by omega) (by omega)))
    simp [hi, this, Nat.le_of_not_lt hi]

/-- A step without a symbol loses nothing. -/
theorem bech32Step_zero {c : Nat} (hc : c < 2 ^ 30) (h : bech32Step c 0 = 0) : c = 0 := by
  have hlow : ∀ b < 32, bech32Gen b % 32 = 0 → b = 0 := by decide
  have hb : c >>> 25 < 32 := by rw [Nat.shiftRight_eq_div_pow]; omega
  have h' : (c &&& 0x1ffffff) <<< 5 = bech32Gen (c >>> 25) := by
    rw [bech32Step, Nat.xor_zero] at h
    exact Nat.xor_eq_zero_iff.1 h
  have h0 : c >>> 25 = 0 := by
    apply hlow _ hb
    rw [← h', Nat.shiftLeft_eq]
    omega
  rw [h0, show bech32Gen 0 = 0 from rfl, Nat.shiftLeft_eq, show 0x1ffffff = 2 ^ 25 - 1 from rfl,
    Nat.and_two_pow_sub_one_eq_mod] at h'
  rw [Nat.shiftRight_eq_div_pow] at h0
  omega

/-- With the same symbols, the state before is determined by the state after. -/
theorem bech32Run_inj : ∀ (l : List Nat) (c d : Nat), c < 2 ^ 30 → d < 2 ^ 30 → (∀ v ∈ l, v < 32) →
    bech32Run c l = bech32Run d l → c = d
  | [], _, _, _, _, _, h => h
  | v :: l, c, d, hc, hd, hl, h => by
    have hv : v < 2 ^ 30 := by have := hl v (by simp); omega
    have h1 := bech32Run_inj l _ _ (bech32Step_lt hv c) (bech32Step_lt hv d) (fun w hw => hl w (by simp [hw])) h
    have h2 := bech32Step_xor c d v v
    rw [h1, Nat.xor_self, Nat.xor_self] at h2
    exact Nat.xor_eq_zero_iff.1 (bech32Step_zero (Nat.xor_lt_two_pow hc hd) h2)

theorem bech32Run_small : ∀ (l : List Nat) (c k : Nat), l.length ≤ k → k ≤ 6 → c < 32 ^ (6 - k) → (∀ v ∈ l, v < 32) →
    bech32Run c l = l.foldl (fun n v => n * 32 + v) c
  | [], _, _, _, _, _, _ => rfl
  | v :: l, c, 0, h, _, _, _ => by simp at h
  | v :: l, c, k + 1, h, hk, hc, hl => by
    have hv := hl v (by simp)
    have e : 6 - k = (6 - (k + 1)) + 1 := by omega
    have hp : 32 ^ (6 - (k + 1)) ≤ 32 ^ 5 := Nat.pow_le_pow_right (by omega) (by omega)
    simp only [bech32Run, List.foldl_cons]
    rw [bech32Step_small (by omega) hv]
    apply bech32Run_small l _ k (by simpa using h) (by omega) ?_ fun w hw => hl w (by simp [hw])
    rw [e, pow_succ]
    omega

theorem foldl_symbols_inj : ∀ (l m : List Nat) (c d : Nat), l.length = m.length → (∀ v ∈ l, v < 32) →
    (∀ v ∈ m, v < 32) → l.foldl (fun n v => n * 32 + v) c = m.foldl (fun n v => n * 32 + v) d → c = d ∧ l = m
  | [], [], _, _, _, _, _, h => ⟨h, rfl⟩
  | v :: l, w :: m, c, d, hl, h1, h2, h => by
    have hv := h1 v (by simp)
    have hw := h2 w (by simp)
    obtain ⟨e, rfl⟩ := foldl_symbols_inj l m _ _ (by simpa using hl) (fun x hx => h1 x (by simp [hx]))
      (fun x hx => h2 x (by simp [hx])) h
    have e : c * 32 + v = d * 32 + w := e
    have : c = d ∧ v = w := by omega
    exact ⟨this.1, by rw [this.2]⟩

/-- The six symbols of a number of thirty bits are its digits. -/
theorem bech32Run_digits {q : Nat} (hq : q < 2 ^ 30) : bech32Run 0 [(q >>> 25) &&& 31, (q >>> 20) &&& 31,
    (q >>> 15) &&& 31, (q >>> 10) &&& 31, (q >>> 5) &&& 31, q &&& 31] = q := by
  have h31 : ∀ n, n &&& 31 = n % 32 := fun n => by
    rw [show 31 = 2 ^ 5 - 1 from rfl, Nat.and_two_pow_sub_one_eq_mod]
  simp only [h31, Nat.shiftRight_eq_div_pow]
  rw [bech32Run_small _ 0 6 (by simp) (by omega) (by decide)]
  · simp only [List.foldl_cons, List.foldl_nil]
    omega
  · intro v hv
    simp only [List.mem_cons, List.not_mem_nil, or_false] at hv
    rcases hv with rfl | rfl | rfl | rfl | rfl | rfl <;> exact Nat.mod_lt _ (by omega)

end Verif
