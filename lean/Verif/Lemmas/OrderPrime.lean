import Verif.Lemmas.FieldPrime

/-!
# The order of secp256k1 is prime
-/

namespace Verif

theorem order_prime_a : Nat.Prime 297159362677 := by
  refine lucas_list _ 2 [2, 2, 3, 3, 11, 461, 1627771] (by norm_num) (by norm_num) ?_
    (by decide +kernel) (by decide +kernel)
  simp only [List.forall_mem_cons]
  norm_num

theorem order_prime_f : Nat.Prime 545358713 := by
  refine lucas_list _ 5 [2, 2, 2, 41, 59, 28181] (by norm_num) (by norm_num) ?_ (by decide +kernel) (by decide +kernel)
  simp only [List.forall_mem_cons]
  norm_num

theorem order_prime_b : Nat.Prime 29047611873442575647497758179 := by
  refine lucas_list _ 2 [2, 293, 305873, 545358713, 297159362677] (by norm_num) (by norm_num) ?_
    (by decide +kernel) (by decide +kernel)
  simp only [List.forall_mem_cons]
  exact ⟨by norm_num, by norm_num, by norm_num, order_prime_f, order_prime_a, by simp⟩

theorem order_prime_c : Nat.Prime 341948486974166000522343609283189 := by
  refine lucas_list _ 2 [2, 2, 3, 3, 3, 109, 29047611873442575647497758179] (by norm_num) (by norm_num) ?_
    (by decide +kernel) (by decide +kernel)
  simp only [List.forall_mem_cons]
  exact ⟨by norm_num, by norm_num, by norm_num, by norm_num, by norm_num, by norm_num, order_prime_b, by simp⟩

theorem order_prime_d : Nat.Prime 174723607534414371449 := by
  refine lucas_list _ 3 [2, 2, 2, 17, 59, 4051, 120233, 44706919] (by norm_num) (by norm_num) ?_
    (by decide +kernel) (by decide +kernel)
  simp only [List.forall_mem_cons]
  norm_num

theorem order_prime_e : Nat.Prime 107361793816595537 := by
  refine lucas_list _ 3 [2, 2, 2, 2, 16699, 85831, 4681609] (by norm_num) (by norm_num) ?_
    (by decide +kernel) (by decide +kernel)
  simp only [List.forall_mem_cons]
  norm_num

/-- The order of the group is prime. -/
theorem curveN_prime : curveN.Prime := by
  refine lucas_list _ 7 [2, 2, 2, 2, 2, 2, 3, 149, 631, 107361793816595537, 174723607534414371449,
    341948486974166000522343609283189] (by decide +kernel) (by decide +kernel) ?_
    (by decide +kernel) (by decide +kernel)
  simp only [List.forall_mem_cons]
  exact ⟨by norm_num, by norm_num, by norm_num, by norm_num, by norm_num, by norm_num, by norm_num, by norm_num,
    by norm_num, order_prime_e, order_prime_d, order_prime_c, by simp⟩

end Verif
