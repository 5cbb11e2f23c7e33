import Verif.Model.DelegateService

/-!
# C67: one client cannot keep the others from the delegate service
-/

namespace Verif

/-- When a connection left `Accept`. -/
def Served.time : Served → Nat
  | .handled t => t
  | .leftOpen t => t

/-- The handler of the connection was started. -/
def Served.isHandled : Served → Bool
  | .handled _ => true
  | .leftOpen _ => false

/-- **C67, exactly.** A connection is served if and only if neither it nor one before it stalls. -/
theorem C67_served_iff (now : Nat) (cs : List Incoming) (i : Nat) :
    ((acceptLoop now cs)[i]?).isSome = true ↔
      i < cs.length ∧ ∀ j ≤ i, ∀ c, cs[j]? = some c → c.takes ≠ none := by
  induction cs generalizing now i with
  | nil => simp [acceptLoop]
  | cons c cs ih =>
    unfold acceptLoop
    cases ht : c.takes with
    | none =>
      simp only [List.getElem?_nil, Option.isSome_none, Bool.false_eq_true, false_iff]
      rintro ⟨_, h⟩
      exact h 0 (Nat.zero_le _) c rfl ht
    | some t =>
      dsimp only
      cases i with
      | zero =>
        simp only [List.getElem?_cons_zero, Option.isSome_some, List.length_cons, Nat.zero_lt_succ,
          Nat.le_zero_eq, true_and, true_iff]
        rintro j rfl c' hc
        simp only [List.getElem?_cons_zero, Option.some.injEq] at hc
        rw [← hc, ht]
        simp
      | succ i =>
        rw [List.getElem?_cons_succ, ih]
        simp only [List.length_cons, Nat.add_lt_add_iff_right]
        refine and_congr_right fun _ => ?_
        constructor
        · intro h j hj c' hc
          cases j with
          | zero =>
            simp only [List.getElem?_cons_zero, Option.some.injEq] at hc
            rw [← hc, ht]
            simp
          | succ j => exact h j (by omega) c' (by simpa using hc)
        · intro h j hj c' hc
          exact h (j + 1) (by omega) c' (by simpa using hc)

/-- **C67, partial.** If no client stalls, every client is served; its handler is started exactly if the
handshake succeeds. Missing from the property: clients that stall. -/
theorem C67_all_served_partial (now : Nat) (cs : List Incoming) (h : ∀ c ∈ cs, c.takes ≠ none) :
    (acceptLoop now cs).map Served.isHandled = cs.map Incoming.ok := by
  induction cs generalizing now with
  | nil => rfl
  | cons c cs ih =>
    unfold acceptLoop
    cases ht : c.takes with
    | none => exact absurd ht (h c (by simp))
    | some t =>
      simp only [List.map_cons]
      rw [ih _ (fun c' hc => h c' (List.mem_cons_of_mem _ hc))]
      congr 1
      cases c.ok <;> rfl

/-- **C67, partial.** A client is served only after it has connected and its own handshake, and at the latest
when those before it have taken their time: waiting in the queue costs at most `T` for each of them, if no
handshake takes longer. -/
theorem C67_time_partial (T A now : Nat) (cs : List Incoming)
    (hT : ∀ c ∈ cs, ∀ t, c.takes = some t → t ≤ T) (hA : ∀ c ∈ cs, c.arrives ≤ A) (hnow : now ≤ A)
    (i : Nat) (s : Served) (hs : (acceptLoop now cs)[i]? = some s) :
    s.time ≤ A + (i + 1) * T ∧ ∀ c, cs[i]? = some c → ∃ t, c.takes = some t ∧ c.arrives + t ≤ s.time := by
  have key : ∀ (cs : List Incoming) (now k : Nat), (∀ c ∈ cs, ∀ t, c.takes = some t → t ≤ T) →
      (∀ c ∈ cs, c.arrives ≤ A) → now ≤ A + k * T → ∀ i s, (acceptLoop now cs)[i]? = some s →
      s.time ≤ A + (k + i + 1) * T ∧
        ∀ c, cs[i]? = some c → ∃ t, c.takes = some t ∧ c.arrives + t ≤ s.time := by
    intro cs
    induction cs with
    | nil => intro now k _ _ _ i s hs; simp [acceptLoop] at hs
    | cons c cs ih =>
      intro now k hT hA hk i s hs
      unfold acceptLoop at hs
      cases ht : c.takes with
      | none => rw [ht] at hs; simp at hs
      | some t =>
        rw [ht] at hs
        dsimp only at hs
        have h1 := hT c (by simp) t ht
        have h2 := hA c (by simp)
        have hdone : max now c.arrives + t ≤ A + (k + 1) * T := by
          rw [Nat.add_mul, Nat.one_mul]
          have : max now c.arrives ≤ A + k * T := Nat.max_le.2 ⟨hk, by omega⟩
          omega
        cases i with
        | zero =>
          simp only [List.getElem?_cons_zero, Option.some.injEq] at hs
          have htime : s.time = max now c.arrives + t := by rw [← hs]; split <;> rfl
          refine ⟨by rw [htime]; exact hdone, ?_⟩
          intro c' hc
          simp only [List.getElem?_cons_zero, Option.some.injEq] at hc
          subst hc
          exact ⟨t, ht, by rw [htime]; have := Nat.le_max_right now c.arrives; omega⟩
        | succ i =>
          rw [List.getElem?_cons_succ] at hs
          obtain ⟨r1, r2⟩ := ih _ (k + 1) (fun c' hc => hT c' (List.mem_cons_of_mem _ hc))
            (fun c' hc => hA c' (List.mem_cons_of_mem _ hc)) hdone i s hs
          exact ⟨by rw [show k + (i + 1) + 1 = k + 1 + i + 1 by omega]; exact r1,
            fun c' hc => r2 c' (by simpa using hc)⟩
  obtain ⟨r1, r2⟩ := key cs now 0 hT hA (by omega) i s hs
  exact ⟨by simpa using r1, r2⟩

/-- **C67 is false, in general.** One client that does not answer the handshake keeps every later client from
the service, for ever. -/
theorem C67_one_stalls (now : Nat) (before after : List Incoming) (c : Incoming) (hc : c.takes = none) :
    acceptLoop now (before ++ c :: after) = acceptLoop now before := by
  induction before generalizing now with
  | nil => simp [acceptLoop, hc]
  | cons d before ih =>
    simp only [List.cons_append, acceptLoop]
    cases d.takes with
    | none => rfl
    | some t => simp only [ih]

/-- Three clients, none of which stalls; the second fails. -/
example : acceptLoop 0 [⟨5, some 2, true⟩, ⟨6, some 10, false⟩, ⟨6, some 2, true⟩, ⟨40, some 1, true⟩] =
    [.handled 7, .leftOpen 17, .handled 19, .handled 41] := by decide

/-- **C67 is false**: the second client is never served. -/
theorem C67_counterexample :
    acceptLoop 0 [⟨0, none, true⟩, ⟨1, some 1, true⟩] = [] := by decide

end Verif
