import Verif.Model.PeerIdText
import Mathlib.Data.Nat.Digits.Defs
import Mathlib.Data.Nat.Digits.Lemmas

/-! # Lemmas on base 58 -/

namespace Verif

theorem baseValue_ofDigits (base : Nat) (ds : List Nat) : baseValue base ds = Nat.ofDigits base ds.reverse := by
  induction ds using List.reverseRecOn with
  | nil => rfl
  | append_singleton ds d ih =>
    simp only [baseValue, List.foldl_append, List.foldl_cons, List.foldl_nil, List.reverse_append,
      List.reverse_cons, List.reverse_nil, List.nil_append, List.singleton_append, Nat.ofDigits_cons] at ih ⊢
    rw [ih]; ring

theorem baseValue_lt {base : Nat} (hb : 1 < base) {ds : List Nat} (h : ∀ d ∈ ds, d < base) :
    baseValue base ds < base ^ ds.length := by
  rw [baseValue_ofDigits]
  have := Nat.ofDigits_lt_base_pow_length (b := base) (l := ds.reverse) hb (by simpa using h)
  simpa using this

theorem baseDigits_eq {base : Nat} (hb : 1 < base) : ∀ (fuel n : Nat) (acc : List Nat), n < base ^ fuel →
    baseDigits base fuel n acc = (Nat.digits base n).reverse ++ acc
  | 0, n, acc, h => by
    have : n = 0 := by simpa using h
    subst this; simp [baseDigits]
  | fuel + 1, n, acc, h => by
    rw [baseDigits]
    split
    · next h0 => subst h0; simp
    · next h0 =>
      rw [baseDigits_eq hb fuel _ _ (by rw [Nat.div_lt_iff_lt_mul (by omega)]; rwa [← pow_succ]),
        Nat.digits_def' hb (n := n) (by omega)]
      simp

theorem head_digits_reverse {base n : Nat} (d : Nat) (h : (Nat.digits base n).reverse.head? = some d) : d ≠ 0 := by
  have hn : n ≠ 0 := by rintro rfl; simp at h
  rw [List.head?_reverse] at h
  have hne : Nat.digits base n ≠ [] := Nat.digits_ne_nil_iff_ne_zero.2 hn
  rw [List.getLast?_eq_some_getLast hne] at h
  have := Nat.getLast_digit_ne_zero base hn
  rintro rfl
  exact this (by simpa using h)

/-- Zeros at the front, then a highest digit that is none. -/
theorem split_zeros (ds : List Nat) : ∃ k rest, ds = List.replicate k 0 ++ rest ∧
    ds.takeWhile (· == 0) = List.replicate k 0 ∧ ∀ d, rest.head? = some d → d ≠ 0 := by
  induction ds with
  | nil => exact ⟨0, [], rfl, rfl, by simp⟩
  | cons d ds ih =>
    by_cases h : d = 0
    · subst h
      obtain ⟨k, rest, h1, h2, h3⟩ := ih
      refine ⟨k + 1, rest, ?_, ?_, h3⟩
      · rw [h1]; simp [List.replicate_succ]
      · simp [List.replicate_succ, h2]
    · exact ⟨0, d :: ds, rfl, by simp [h], by simpa using h⟩

theorem takeWhile_zeros {k : Nat} {rest : List Nat} (h : ∀ d, rest.head? = some d → d ≠ 0) :
    (List.replicate k 0 ++ rest).takeWhile (· == 0) = List.replicate k 0 := by
  induction k with
  | zero =>
    cases rest with
    | nil => rfl
    | cons d ds => simp [h d rfl]
  | succ k ih => simp [List.replicate_succ, ih]

theorem baseValue_zeros (base k : Nat) (rest : List Nat) :
    baseValue base (List.replicate k 0 ++ rest) = baseValue base rest := by
  rw [baseValue_ofDigits, baseValue_ofDigits, List.reverse_append, List.reverse_replicate,
    Nat.ofDigits_append_replicate_zero]

theorem rebase_eq {b1 b2 : Nat} (h1 : 1 < b1) (h2 : 1 < b2) (h12 : b1 ≤ b2 ^ 2) {k : Nat} {rest : List Nat}
    (hd : ∀ d ∈ rest, d < b1) (hh : ∀ d, rest.head? = some d → d ≠ 0) :
    rebase b1 b2 (List.replicate k 0 ++ rest) =
      List.replicate k 0 ++ (Nat.digits b2 (baseValue b1 rest)).reverse := by
  rw [rebase, takeWhile_zeros hh, baseValue_zeros]
  rw [baseDigits_eq h2 _ _ _, List.append_nil]
  calc baseValue b1 rest < b1 ^ rest.length := baseValue_lt h1 hd
    _ ≤ (b2 ^ 2) ^ rest.length := Nat.pow_le_pow_left h12 _
    _ = b2 ^ (2 * rest.length) := by rw [pow_mul]
    _ ≤ _ := Nat.pow_le_pow_right (by omega) (by simp)

theorem rebase_rebase {b1 b2 : Nat} (h1 : 1 < b1) (h2 : 1 < b2) (h12 : b1 ≤ b2 ^ 2) (h21 : b2 ≤ b1 ^ 2)
    {ds : List Nat} (hd : ∀ d ∈ ds, d < b1) : rebase b2 b1 (rebase b1 b2 ds) = ds := by
  obtain ⟨k, rest, rfl, -, hh⟩ := split_zeros ds
  have hd' : ∀ d ∈ rest, d < b1 := fun d h => hd d (by simp [h])
  rw [rebase_eq h1 h2 h12 hd' hh, rebase_eq h2 h1 h21 _ (fun d h => head_digits_reverse d h)]
  · rw [baseValue_ofDigits, List.reverse_reverse, Nat.ofDigits_digits, baseValue_ofDigits,
      Nat.digits_ofDigits b1 h1 _ (by simpa using hd'), List.reverse_reverse]
    intro hne
    have : rest ≠ [] := by simpa using hne
    rw [List.getLast_reverse]
    exact hh _ (List.head?_eq_some_head (by simpa using hne))
  · intro d h
    exact Nat.digits_lt_base h2 (List.mem_reverse.1 h)

theorem rebase_lt {b1 b2 : Nat} (h1 : 1 < b1) (h2 : 1 < b2) (h12 : b1 ≤ b2 ^ 2)
    {ds : List Nat} (hd : ∀ d ∈ ds, d < b1) : ∀ d ∈ rebase b1 b2 ds, d < b2 := by
  obtain ⟨k, rest, rfl, -, hh⟩ := split_zeros ds
  rw [rebase_eq h1 h2 h12 (fun d h => hd d (by simp [h])) hh]
  intro d h
  rcases List.mem_append.1 h with h | h
  · rw [List.eq_of_mem_replicate h]; omega
  · exact Nat.digits_lt_base h2 (List.mem_reverse.1 h)

end Verif
