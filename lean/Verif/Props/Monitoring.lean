import Verif.Model.Monitoring

/-!
# C47: histograms
-/

namespace Verif

namespace FileHistogram

variable {α : Type}

/-- The number of observations not exceeding a bound. -/
def below (le : α → α → Bool) (bound : α) (vs : List α) : Nat := vs.countP fun v => le v bound

theorem inc_append (pre : List Nat) (n : Nat) (post : List Nat) :
    inc (pre ++ n :: post) pre.length = .ok (pre ++ (n + 1) % 2 ^ 64 :: post) := by
  unfold inc
  simp

/-- One observation adds one to the buckets it does not exceed, and to the total. -/
theorem observeFrom_eq (le : α → α → Bool) (v : α) (bs : List α) (pre cs : List Nat) (total : Nat)
    (hlen : cs.length = bs.length) :
    observeFrom le v bs pre.length (pre ++ cs ++ [total]) =
      .ok (pre ++ (List.zipWith (fun b n => if le v b then (n + 1) % 2 ^ 64 else n) bs cs) ++
        [(total + 1) % 2 ^ 64]) := by
  induction bs generalizing pre cs with
  | nil =>
    obtain rfl : cs = [] := List.length_eq_zero_iff.1 hlen
    simp only [observeFrom, List.append_nil, List.zipWith_nil_left]
    exact inc_append pre total []
  | cons b bs ih =>
    cases cs with
    | nil => simp at hlen
    | cons n cs =>
      have hlen' : cs.length = bs.length := by simpa using hlen
      unfold observeFrom
      cases hle : le v b with
      | true =>
        rw [if_pos rfl]
        have h1 : pre ++ n :: cs ++ [total] = pre ++ n :: (cs ++ [total]) := by simp
        rw [h1, inc_append]
        dsimp only
        have h2 := ih (pre ++ [(n + 1) % 2 ^ 64]) cs hlen'
        simp only [List.length_append, List.length_cons, List.length_nil, Nat.zero_add,
          List.append_assoc, List.cons_append, List.nil_append] at h2
        rw [h2]
        simp [hle]
      | false =>
        rw [if_neg (by simp)]
        have h2 := ih (pre ++ [n]) cs hlen'
        simp only [List.length_append, List.length_cons, List.length_nil, Nat.zero_add,
          List.append_assoc, List.cons_append, List.nil_append] at h2
        simp only [List.append_assoc, List.cons_append]
        rw [h2]
        simp [hle]

theorem observe_eq (le : α → α → Bool) (v : α) (bs : List α) (cs : List Nat) (total : Nat)
    (hlen : cs.length = bs.length) :
    observe le ⟨bs, cs ++ [total]⟩ v =
      .ok ⟨bs, List.zipWith (fun b n => if le v b then (n + 1) % 2 ^ 64 else n) bs cs ++
        [(total + 1) % 2 ^ 64]⟩ := by
  unfold observe
  have h := observeFrom_eq le v bs [] cs total hlen
  simp only [List.length_nil, List.nil_append] at h
  dsimp only
  rw [h]

theorem observeAll_eq (le : α → α → Bool) (bs : List α) (vs : List α) (g : α → Nat) (t : Nat) :
    observeAll le ⟨bs, bs.map (fun b => g b % 2 ^ 64) ++ [t % 2 ^ 64]⟩ vs =
      .ok ⟨bs, bs.map (fun b => (g b + below le b vs) % 2 ^ 64) ++ [(t + vs.length) % 2 ^ 64]⟩ := by
  induction vs generalizing g t with
  | nil => simp [observeAll, below]
  | cons v vs ih =>
    unfold observeAll
    rw [observe_eq le v bs _ _ (by simp)]
    dsimp only
    have hz : List.zipWith (fun b n => if le v b then (n + 1) % 2 ^ 64 else n) bs
        (bs.map fun b => g b % 2 ^ 64) =
        bs.map fun b => (g b + if le v b then 1 else 0) % 2 ^ 64 := by
      rw [List.zipWith_map_right, List.zipWith_self]
      apply List.map_congr_left
      intro b _
      split
      · omega
      · omega
    rw [hz]
    have ht : (t % 2 ^ 64 + 1) % 2 ^ 64 = (t + 1) % 2 ^ 64 := by omega
    rw [ht, ih (fun b => g b + if le v b then 1 else 0) (t + 1)]
    congr 3
    · apply List.map_congr_left
      intro b _
      simp only [below, List.countP_cons]
      congr 1
      split <;> omega
    · simp only [List.length_cons]
      congr 2
      omega

/-- C47: after any sequence of observations, each bucket counts those not exceeding its bound and the
last count all of them, as numbers of 64 bits. No observation crashes. -/
theorem C47_counts (le : α → α → Bool) (buckets : List α) (vs : List α) :
    observeAll le (new buckets) vs =
      .ok ⟨buckets, buckets.map (fun b => below le b vs % 2 ^ 64) ++ [vs.length % 2 ^ 64]⟩ := by
  have h := observeAll_eq le buckets vs (fun _ => 0) 0
  have hn : new buckets = ⟨buckets, buckets.map (fun _ => 0 % 2 ^ 64) ++ [0 % 2 ^ 64]⟩ := by
    unfold new
    congr 1
    rw [List.replicate_succ', List.map_const']
  rw [hn, h]
  simp

/-- C47 for every number of observations that can occur: the counts are exact. -/
theorem C47_exact (le : α → α → Bool) (buckets : List α) (vs : List α) (hlen : vs.length < 2 ^ 64) :
    observeAll le (new buckets) vs =
      .ok ⟨buckets, buckets.map (fun b => below le b vs) ++ [vs.length]⟩ := by
  rw [C47_counts]
  congr 3
  · apply List.map_congr_left
    intro b _
    apply Nat.mod_eq_of_lt
    exact Nat.lt_of_le_of_lt List.countP_le_length hlen
  · rw [Nat.mod_eq_of_lt hlen]

/-- Three buckets, five observations. -/
theorem C47_case :
    observeAll (fun a b : Nat => decide (a ≤ b)) (new [10, 100, 1000]) [5, 10, 11, 5000, 100] =
      .ok ⟨[10, 100, 1000], [2, 4, 4, 5]⟩ := by
  decide

/-- Three observations; one lies on a bound, and one above all bounds. -/
example : observeAll (fun x y : Nat => decide (x ≤ y)) (new [1, 5, 10]) [5, 11, 0] =
    .ok ⟨[1, 5, 10], [1, 2, 2, 3]⟩ := by decide

end FileHistogram

end Verif
