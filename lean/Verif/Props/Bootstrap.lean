import Verif.Model.Bootstrap

/-!
# C50: connecting to the bootstrap peers
-/

namespace Verif

/-- Every goroutine returned from `Connect`, in any order. -/
def AllReturn (n : Nat) (schedule : List Nat) : Prop := ∀ i : Nat, i < n → i ∈ schedule

/-- A peer is seen in the table in some round, and the time was not over in any round before. -/
def InTableInTime (rs : List TableRound) : Prop :=
  ∃ (k : Nat) (r : TableRound), rs[k]? = some r ∧ r.found = true ∧
    ∀ (j : Nat) (r' : TableRound), j < k → rs[j]? = some r' → r'.expired = false

/-- The time is over in some round, and up to then the peer is not seen in the table. -/
def MissesDeadline (rs : List TableRound) : Prop :=
  ∃ (k : Nat) (r : TableRound), rs[k]? = some r ∧ r.expired = true ∧
    ∀ (j : Nat) (r' : TableRound), j ≤ k → rs[j]? = some r' → r'.found = false

/-- The wait for a peer ends: it is seen, or the time is over. -/
def WaitEnds (rs : List TableRound) : Prop :=
  ∃ r ∈ rs, r.found = true ∨ r.expired = true

theorem waitInTable_found_iff (rs : List TableRound) :
    waitInTable rs = .found ↔ InTableInTime rs := by
  induction rs with
  | nil =>
    constructor
    · intro h
      simp [waitInTable] at h
    · rintro ⟨k, r, h, _⟩
      simp at h
  | cons a rs ih =>
    unfold waitInTable
    constructor
    · intro h
      by_cases hf : a.found = true
      · exact ⟨0, a, by simp, hf, by intro j _ hj; omega⟩
      · rw [if_neg hf] at h
        by_cases he : a.expired = true
        · rw [if_pos he] at h
          cases h
        · rw [if_neg he] at h
          obtain ⟨k, r, hk, hr, hall⟩ := ih.1 h
          refine ⟨k + 1, r, by simpa using hk, hr, ?_⟩
          intro j r' hj hr'
          cases j with
          | zero =>
            simp only [List.getElem?_cons_zero, Option.some.injEq] at hr'
            subst hr'
            simpa using he
          | succ j => exact hall j r' (by omega) (by simpa using hr')
    · rintro ⟨k, r, hk, hr, hall⟩
      cases k with
      | zero =>
        simp only [List.getElem?_cons_zero, Option.some.injEq] at hk
        subst hk
        rw [if_pos hr]
      | succ k =>
        have he : a.expired = false := hall 0 a (by omega) (by simp)
        by_cases hf : a.found = true
        · rw [if_pos hf]
        · rw [if_neg hf, if_neg (by simp [he])]
          refine ih.2 ⟨k, r, by simpa using hk, hr, ?_⟩
          intro j r' hj hr'
          exact hall (j + 1) r' (by omega) (by simpa using hr')

theorem waitInTable_expired_iff (rs : List TableRound) :
    waitInTable rs = .expired ↔ MissesDeadline rs := by
  induction rs with
  | nil =>
    constructor
    · intro h
      simp [waitInTable] at h
    · rintro ⟨k, r, h, _⟩
      simp at h
  | cons a rs ih =>
    unfold waitInTable
    constructor
    · intro h
      by_cases hf : a.found = true
      · rw [if_pos hf] at h
        cases h
      · rw [if_neg hf] at h
        by_cases he : a.expired = true
        · refine ⟨0, a, by simp, he, ?_⟩
          intro j r' hj hr'
          obtain rfl : j = 0 := by omega
          simp only [List.getElem?_cons_zero, Option.some.injEq] at hr'
          subst hr'
          simpa using hf
        · rw [if_neg he] at h
          obtain ⟨k, r, hk, hr, hall⟩ := ih.1 h
          refine ⟨k + 1, r, by simpa using hk, hr, ?_⟩
          intro j r' hj hr'
          cases j with
          | zero =>
            simp only [List.getElem?_cons_zero, Option.some.injEq] at hr'
            subst hr'
            simpa using hf
          | succ j => exact hall j r' (by omega) (by simpa using hr')
    · rintro ⟨k, r, hk, hr, hall⟩
      have hf : a.found = false := hall 0 a (by omega) (by simp)
      rw [if_neg (by simp [hf])]
      by_cases he : a.expired = true
      · rw [if_pos he]
      · rw [if_neg he]
        cases k with
        | zero =>
          simp only [List.getElem?_cons_zero, Option.some.injEq] at hk
          subst hk
          exact absurd hr he
        | succ k =>
          refine ih.2 ⟨k, r, by simpa using hk, hr, ?_⟩
          intro j r' hj hr'
          exact hall (j + 1) r' (by omega) (by simpa using hr')

theorem waitInTable_ends_iff (rs : List TableRound) :
    waitInTable rs ≠ .waiting ↔ WaitEnds rs := by
  induction rs with
  | nil => simp [waitInTable, WaitEnds]
  | cons a rs ih =>
    unfold waitInTable WaitEnds
    by_cases hf : a.found = true
    · simp [hf]
    · by_cases he : a.expired = true
      · simp [hf, he]
      · rw [if_neg hf, if_neg he, ih]
        simp [WaitEnds, hf, he]

theorem waitAllInTable_ok_iff (rounds : Nat → List TableRound) (i n : Nat) :
    waitAllInTable rounds i n = .ok ↔
      ∀ j : Nat, i ≤ j → j < i + n → InTableInTime (rounds j) := by
  induction n generalizing i with
  | zero =>
    simp only [waitAllInTable, true_iff]
    intro j h1 h2
    omega
  | succ n ih =>
    unfold waitAllInTable
    cases h : waitInTable (rounds i) with
    | found =>
      dsimp only
      rw [ih]
      constructor
      · intro hall j h1 h2
        by_cases hj : j = i
        · subst hj
          exact (waitInTable_found_iff _).1 h
        · exact hall j (by omega) (by omega)
      · intro hall j h1 h2
        exact hall j (by omega) (by omega)
    | expired =>
      dsimp only
      constructor
      · intro h'
        cases h'
      · intro hall
        have := (waitInTable_found_iff _).2 (hall i (by omega) (by omega))
        rw [h] at this
        cases this
    | waiting =>
      dsimp only
      constructor
      · intro h'
        cases h'
      · intro hall
        have := (waitInTable_found_iff _).2 (hall i (by omega) (by omega))
        rw [h] at this
        cases this

theorem waitAllInTable_notInTable_iff (rounds : Nat → List TableRound) (i n p : Nat) :
    waitAllInTable rounds i n = .notInTable p ↔
      i ≤ p ∧ p < i + n ∧ MissesDeadline (rounds p) ∧
        ∀ j : Nat, i ≤ j → j < p → InTableInTime (rounds j) := by
  induction n generalizing i with
  | zero =>
    simp only [waitAllInTable]
    constructor
    · intro h
      cases h
    · rintro ⟨h1, h2, _⟩
      omega
  | succ n ih =>
    unfold waitAllInTable
    cases h : waitInTable (rounds i) with
    | found =>
      dsimp only
      rw [ih]
      constructor
      · rintro ⟨h1, h2, h3, h4⟩
        refine ⟨by omega, by omega, h3, ?_⟩
        intro j hj1 hj2
        by_cases hj : j = i
        · subst hj
          exact (waitInTable_found_iff _).1 h
        · exact h4 j (by omega) hj2
      · rintro ⟨h1, h2, h3, h4⟩
        have hne : p ≠ i := by
          rintro rfl
          rw [(waitInTable_expired_iff _).2 h3] at h
          cases h
        exact ⟨by omega, by omega, h3, fun j hj1 hj2 => h4 j (by omega) hj2⟩
    | expired =>
      dsimp only
      constructor
      · intro h'
        cases h'
        exact ⟨Nat.le_refl _, by omega, (waitInTable_expired_iff _).1 h,
          fun j h1 h2 => absurd h1 (by omega)⟩
      · rintro ⟨h1, h2, h3, h4⟩
        by_cases hp : p = i
        · rw [hp]
        · have := (waitInTable_found_iff _).2 (h4 i (Nat.le_refl _) (by omega))
          rw [h] at this
          cases this
    | waiting =>
      dsimp only
      constructor
      · intro h'
        cases h'
      · rintro ⟨h1, h2, h3, h4⟩
        by_cases hp : p = i
        · subst hp
          rw [(waitInTable_expired_iff _).2 h3] at h
          cases h
        · have := (waitInTable_found_iff _).2 (h4 i (Nat.le_refl _) (by omega))
          rw [h] at this
          cases this

theorem waitAllInTable_cases (rounds : Nat → List TableRound) (i n : Nat) :
    waitAllInTable rounds i n = .ok ∨ (∃ p, waitAllInTable rounds i n = .notInTable p) ∨
      (waitAllInTable rounds i n = .waiting ∧
        ∃ j, i ≤ j ∧ j < i + n ∧ ¬ WaitEnds (rounds j)) := by
  induction n generalizing i with
  | zero => exact Or.inl rfl
  | succ n ih =>
    unfold waitAllInTable
    cases h : waitInTable (rounds i) with
    | found =>
      dsimp only
      rcases ih (i + 1) with h' | ⟨p, h'⟩ | ⟨h', j, h1, h2, h3⟩
      · exact Or.inl h'
      · exact Or.inr (Or.inl ⟨p, h'⟩)
      · exact Or.inr (Or.inr ⟨h', j, by omega, by omega, h3⟩)
    | expired => exact Or.inr (Or.inl ⟨i, rfl⟩)
    | waiting =>
      refine Or.inr (Or.inr ⟨rfl, i, Nat.le_refl _, by omega, ?_⟩)
      intro hw
      exact (waitInTable_ends_iff _).2 hw h

/-- What holds of the goroutines in every order: the errors are those of the goroutines that are
back, and no two goroutines have the same number. -/
structure DialsInv (connect : Nat → Option Bytes) (n : Nat) (d : Dials) : Prop where
  nodup : d.pending.Nodup
  bound : ∀ i ∈ d.pending, i < n
  perm : ∃ back : List Nat, (back ++ d.pending).Perm (List.range n) ∧
    d.errs = back.filterMap connect

theorem dialsInv_init (connect : Nat → Option Bytes) (n : Nat) :
    DialsInv connect n (Dials.init n) where
  nodup := List.nodup_range
  bound i hi := by simpa [Dials.init] using hi
  perm := ⟨[], by simp [Dials.init], by simp [Dials.init]⟩

/-- A goroutine never waits to send its error. -/
theorem dials_step_eq (connect : Nat → Option Bytes) (n : Nat) (d : Dials) (i : Nat)
    (h : DialsInv connect n d) (hi : i ∈ d.pending) :
    Dials.step connect n d i = ⟨d.pending.erase i, d.errs ++ (connect i).toList⟩ := by
  unfold Dials.step
  rw [if_pos hi]
  obtain ⟨back, hperm, herrs⟩ := h.perm
  cases hc : connect i with
  | none => simp
  | some e =>
    dsimp only
    rw [if_pos, Option.toList_some]
    have hlen := hperm.length_eq
    rw [List.length_append, List.length_range] at hlen
    have hpos : 0 < d.pending.length := List.length_pos_of_mem hi
    have := List.length_filterMap_le connect back
    rw [herrs]
    omega

theorem dialsInv_step (connect : Nat → Option Bytes) (n : Nat) (d : Dials) (i : Nat)
    (h : DialsInv connect n d) : DialsInv connect n (Dials.step connect n d i) := by
  by_cases hi : i ∈ d.pending
  · rw [dials_step_eq connect n d i h hi]
    obtain ⟨back, hperm, herrs⟩ := h.perm
    refine ⟨h.nodup.erase i, fun j hj => h.bound j (List.mem_of_mem_erase hj), back ++ [i], ?_, ?_⟩
    · refine List.Perm.trans ?_ hperm
      rw [List.append_assoc]
      exact List.Perm.append_left back (List.perm_cons_erase hi).symm
    · dsimp only
      rw [List.filterMap_append, herrs]
      cases hc : connect i <;> simp [hc]
  · unfold Dials.step
    rw [if_neg hi]
    exact h

theorem dialsInv_run (connect : Nat → Option Bytes) (n : Nat) (schedule : List Nat) (d : Dials)
    (h : DialsInv connect n d) : DialsInv connect n (Dials.run connect n schedule d) := by
  induction schedule generalizing d with
  | nil => exact h
  | cons i schedule ih => exact ih _ (dialsInv_step connect n d i h)

theorem dials_pending (connect : Nat → Option Bytes) (n : Nat) (schedule : List Nat) (d : Dials)
    (h : DialsInv connect n d) (j : Nat) :
    j ∈ (Dials.run connect n schedule d).pending ↔ j ∈ d.pending ∧ j ∉ schedule := by
  induction schedule generalizing d with
  | nil => simp [Dials.run]
  | cons i schedule ih =>
    have hrun : Dials.run connect n (i :: schedule) d =
      Dials.run connect n schedule (Dials.step connect n d i) := rfl
    rw [hrun, ih _ (dialsInv_step connect n d i h)]
    by_cases hi : i ∈ d.pending
    · rw [dials_step_eq connect n d i h hi]
      dsimp only
      rw [h.nodup.mem_erase_iff]
      simp only [List.mem_cons, not_or]
      constructor
      · rintro ⟨⟨h1, h2⟩, h3⟩
        exact ⟨h2, h1, h3⟩
      · rintro ⟨h1, h2, h3⟩
        exact ⟨⟨h2, h1⟩, h3⟩
    · have hs : Dials.step connect n d i = d := by
        unfold Dials.step
        rw [if_neg hi]
      rw [hs]
      simp only [List.mem_cons, not_or]
      constructor
      · rintro ⟨h1, h2⟩
        exact ⟨h1, fun hji => hi (hji ▸ h1), h2⟩
      · rintro ⟨h1, _, h3⟩
        exact ⟨h1, h3⟩

theorem drainErrs_eq (es : List Bytes) (count : Nat) (last : Option Bytes) :
    drainErrs es count last = (count + es.length, if es = [] then last else es.getLast?) := by
  induction es generalizing count last with
  | nil => simp [drainErrs]
  | cons e es ih =>
    unfold drainErrs
    rw [ih]
    simp only [List.length_cons, Prod.mk.injEq]
    refine ⟨by omega, ?_⟩
    cases es with
    | nil => simp
    | cons a as => simp [List.getLast?_cons]

/-- After every goroutine is back the errors are those of all peers, in the order of completion. -/
theorem dials_done (connect : Nat → Option Bytes) (n : Nat) (schedule : List Nat)
    (hall : AllReturn n schedule) :
    (Dials.run connect n schedule (Dials.init n)).pending = [] ∧
      ∃ order : List Nat, order.Perm (List.range n) ∧
        (Dials.run connect n schedule (Dials.init n)).errs = order.filterMap connect := by
  have hinit := dialsInv_init connect n
  have hp : (Dials.run connect n schedule (Dials.init n)).pending = [] := by
    apply List.eq_nil_iff_forall_not_mem.2
    intro j hj
    obtain ⟨h1, h2⟩ := (dials_pending connect n schedule _ hinit j).1 hj
    exact h2 (hall j (hinit.bound j h1))
  obtain ⟨back, hperm, herrs⟩ := (dialsInv_run connect n schedule _ hinit).perm
  rw [hp, List.append_nil] at hperm
  exact ⟨hp, back, hperm, herrs⟩

theorem filterMap_length_eq_iff (f : Nat → Option Bytes) (l : List Nat) :
    (l.filterMap f).length = l.length ↔ ∀ i ∈ l, f i ≠ none := by
  induction l with
  | nil => simp
  | cons a l ih =>
    cases hf : f a with
    | none =>
      rw [List.filterMap_cons_none hf]
      have := List.length_filterMap_le f l
      constructor
      · intro h
        simp only [List.length_cons] at h
        omega
      · intro h
        exact absurd hf (h a (by simp))
    | some b =>
      rw [List.filterMap_cons_some hf]
      simp only [List.length_cons, Nat.add_right_cancel_iff, ih, List.mem_cons, forall_eq_or_imp, hf]
      simp

/-- The call is over when all goroutines are back: it does not depend on the order they came back in,
except for the text of the error when all failed, which is that of one of the peers. -/
theorem bootstrapConnect_eq (connect : Nat → Option Bytes) (schedule : List Nat)
    (rounds : Nat → List TableRound) (n : Nat) (hall : AllReturn n schedule) :
    (n = 0 ∧ bootstrapConnect connect schedule rounds n = .ok .notEnoughPeers) ∨
    (0 < n ∧ (∀ i : Nat, i < n → connect i ≠ none) ∧ ∃ (i : Nat) (e : Bytes), i < n ∧
      connect i = some e ∧ bootstrapConnect connect schedule rounds n = .ok (.allFailed e)) ∨
    (0 < n ∧ (∃ i : Nat, i < n ∧ connect i = none) ∧
      bootstrapConnect connect schedule rounds n = .ok (waitAllInTable rounds 0 n)) := by
  by_cases hn : n < 1
  · refine Or.inl ⟨by omega, ?_⟩
    unfold bootstrapConnect
    rw [if_pos hn]
  · refine Or.inr ?_
    obtain ⟨hp, order, hperm, herrs⟩ := dials_done connect n schedule hall
    have hmem : ∀ i : Nat, i ∈ order ↔ i < n := by
      intro i
      rw [hperm.mem_iff, List.mem_range]
    have hlen : order.length = n := by rw [hperm.length_eq, List.length_range]
    have hshape : bootstrapConnect connect schedule rounds n =
        if (order.filterMap connect).length = n then
          allFailedWith (if order.filterMap connect = [] then none
            else (order.filterMap connect).getLast?)
        else .ok (waitAllInTable rounds 0 n) := by
      unfold bootstrapConnect
      rw [if_neg hn]
      dsimp only
      rw [if_neg (by simp [hp]), drainErrs_eq, herrs]
      simp only [Nat.zero_add]
    by_cases hf : (order.filterMap connect).length = n
    · have hall' : ∀ i : Nat, i < n → connect i ≠ none := by
        rw [← hlen] at hf
        have := (filterMap_length_eq_iff connect order).1 (by rw [hf])
        intro i hi
        exact this i ((hmem i).2 hi)
      have hne : order.filterMap connect ≠ [] := by
        intro h
        rw [h] at hf
        simp at hf
        omega
      refine Or.inl ⟨by omega, hall', ?_⟩
      have hlast := List.getLast?_eq_some_getLast hne
      obtain ⟨i, hi, hie⟩ := List.mem_filterMap.1 (List.getLast_mem hne)
      refine ⟨i, _, (hmem i).1 hi, hie, ?_⟩
      rw [hshape, if_pos hf, if_neg hne, hlast]
      rfl
    · refine Or.inr ⟨by omega, ?_, ?_⟩
      · apply Classical.byContradiction
        intro hno
        apply hf
        rw [← hlen, filterMap_length_eq_iff]
        intro i hi hc
        exact hno ⟨i, (hmem i).1 hi, hc⟩
      · rw [hshape, if_neg hf]

/-- C50: once the goroutines are back in any order and the wait for every peer ends, the call returns
an error exactly when the list is empty, every connection fails, or some peer was not in the table
before its deadline; otherwise it succeeds. -/
theorem C50_error_iff (connect : Nat → Option Bytes) (schedule : List Nat)
    (rounds : Nat → List TableRound) (n : Nat) (hall : AllReturn n schedule)
    (hends : ∀ i : Nat, i < n → WaitEnds (rounds i)) :
    ∃ r : BootstrapEnd, bootstrapConnect connect schedule rounds n = .ok r ∧
      (r = .ok ∨ r.isError = true) ∧
      (r.isError = true ↔ n = 0 ∨ (∀ i : Nat, i < n → connect i ≠ none) ∨
        ∃ i : Nat, i < n ∧ ¬ InTableInTime (rounds i)) := by
  rcases bootstrapConnect_eq connect schedule rounds n hall with
    ⟨h0, h⟩ | ⟨hn, hf, i, e, _, _, h⟩ | ⟨hn, ⟨i, hi, hc⟩, h⟩
  · exact ⟨_, h, Or.inr rfl, ⟨fun _ => Or.inl h0, fun _ => rfl⟩⟩
  · exact ⟨_, h, Or.inr rfl, ⟨fun _ => Or.inr (Or.inl hf), fun _ => rfl⟩⟩
  · refine ⟨_, h, ?_⟩
    rcases waitAllInTable_cases rounds 0 n with hw | ⟨p, hw⟩ | ⟨_, j, _, hj, hbad⟩
    · rw [hw]
      refine ⟨Or.inl rfl, ⟨fun h' => absurd h' (by simp [BootstrapEnd.isError]), ?_⟩⟩
      rintro (h' | h' | ⟨j, hj, hbad⟩)
      · omega
      · exact absurd hc (h' i hi)
      · exact absurd ((waitAllInTable_ok_iff rounds 0 n).1 hw j (by omega) (by omega)) hbad
    · rw [hw]
      refine ⟨Or.inr rfl, ⟨fun _ => Or.inr (Or.inr ?_), fun _ => rfl⟩⟩
      obtain ⟨_, h2, h3, _⟩ := (waitAllInTable_notInTable_iff rounds 0 n p).1 hw
      refine ⟨p, by omega, fun hin => ?_⟩
      have h4 := (waitInTable_expired_iff _).2 h3
      rw [(waitInTable_found_iff _).2 hin] at h4
      cases h4
    · exact absurd (hends j (by omega)) hbad

/-- C50, the errors one by one: which of them is returned, for which peer. -/
theorem C50_which_error (connect : Nat → Option Bytes) (schedule : List Nat)
    (rounds : Nat → List TableRound) (n : Nat) (hall : AllReturn n schedule) :
    (bootstrapConnect connect schedule rounds n = .ok .notEnoughPeers ↔ n = 0) ∧
    ((∃ e, bootstrapConnect connect schedule rounds n = .ok (.allFailed e)) ↔
      0 < n ∧ ∀ i : Nat, i < n → connect i ≠ none) ∧
    (∀ e : Bytes, bootstrapConnect connect schedule rounds n = .ok (.allFailed e) →
      ∃ i : Nat, i < n ∧ connect i = some e) ∧
    (∀ p : Nat, bootstrapConnect connect schedule rounds n = .ok (.notInTable p) ↔
      p < n ∧ (∃ i : Nat, i < n ∧ connect i = none) ∧ MissesDeadline (rounds p) ∧
        ∀ j : Nat, j < p → InTableInTime (rounds j)) ∧
    (bootstrapConnect connect schedule rounds n = .ok .ok ↔
      (∃ i : Nat, i < n ∧ connect i = none) ∧ ∀ i : Nat, i < n → InTableInTime (rounds i)) := by
  rcases bootstrapConnect_eq connect schedule rounds n hall with
    ⟨h0, h⟩ | ⟨hn, hf, i, e, hi, hie, h⟩ | ⟨hn, ⟨i, hi, hc⟩, h⟩
  · rw [h]
    subst h0
    simp
  · rw [h]
    refine ⟨by simp; omega, ?_, ?_, ?_, ?_⟩
    · simp [hn]
      exact hf
    · intro e' he'
      simp only [Res.ok.injEq, BootstrapEnd.allFailed.injEq] at he'
      subst he'
      exact ⟨i, hi, hie⟩
    · intro p
      simp only [Res.ok.injEq, reduceCtorEq, false_iff]
      rintro ⟨_, ⟨j, hj, hjc⟩, _⟩
      exact hf j hj hjc
    · simp only [Res.ok.injEq, reduceCtorEq, false_iff]
      rintro ⟨⟨j, hj, hjc⟩, _⟩
      exact hf j hj hjc
  · rw [h]
    have hnot : ∀ e, waitAllInTable rounds 0 n ≠ .allFailed e := by
      intro e
      rcases waitAllInTable_cases rounds 0 n with hw | ⟨p, hw⟩ | ⟨hw, _⟩ <;> rw [hw] <;> simp
    have hnot' : waitAllInTable rounds 0 n ≠ .notEnoughPeers := by
      rcases waitAllInTable_cases rounds 0 n with hw | ⟨p, hw⟩ | ⟨hw, _⟩ <;> rw [hw] <;> simp
    simp only [Res.ok.injEq]
    refine ⟨⟨fun h' => absurd h' hnot', fun h' => by omega⟩,
      ⟨fun ⟨e, h'⟩ => absurd h' (hnot e), fun ⟨_, h'⟩ => absurd hc (h' i hi)⟩,
      fun e h' => absurd h' (hnot e), ?_, ?_⟩
    · intro p
      rw [waitAllInTable_notInTable_iff]
      constructor
      · rintro ⟨_, h2, h3, h4⟩
        exact ⟨by omega, ⟨i, hi, hc⟩, h3, fun j hj => h4 j (by omega) hj⟩
      · rintro ⟨h2, _, h3, h4⟩
        exact ⟨by omega, by omega, h3, fun j _ hj => h4 j hj⟩
    · rw [waitAllInTable_ok_iff]
      constructor
      · intro h'
        exact ⟨⟨i, hi, hc⟩, fun j hj => h' j (by omega) (by omega)⟩
      · rintro ⟨_, h'⟩ j _ hj
        exact h' j (by omega)

/-- One peer of two is reachable, both come into the table: success. One peer is reachable but the
other never comes into the table: an error, although a bootstrap peer is reachable. Both fail, the
second first: the error names the first. -/
theorem C50_case :
    bootstrapConnect (fun i => if i = 1 then some (b! "refused") else none) [1, 0]
      (fun _ => [⟨false, false⟩, ⟨true, false⟩]) 2 = .ok .ok ∧
    bootstrapConnect (fun i => if i = 1 then some (b! "refused") else none) [0, 1]
      (fun i => if i = 0 then [⟨true, false⟩] else [⟨false, false⟩, ⟨false, true⟩]) 2 =
      .ok (.notInTable 1) ∧
    bootstrapConnect (fun i => if i = 0 then some (b! "reset") else some (b! "refused")) [1, 0]
      (fun _ => []) 2 = .ok (.allFailed (b! "reset")) := by
  refine ⟨?_, ?_, ?_⟩ <;> decide

/-! ## Concrete cases -/

namespace BootstrapDemo

/-- Peer 0 refuses, peers 1 and 2 answer. -/
def connect : Nat → Option Bytes
  | 0 => some (b! "refused")
  | _ => none

/-- Every peer is seen in the third round. -/
def seen : Nat → List TableRound := fun _ => [⟨false, false⟩, ⟨false, false⟩, ⟨true, false⟩]

/-- Peer 2 is not seen before the time is over. -/
def late : Nat → List TableRound
  | 2 => [⟨false, false⟩, ⟨false, true⟩]
  | _ => [⟨true, false⟩]

example : AllReturn 3 [2, 0, 1] := by unfold AllReturn; decide
example : WaitEnds (seen 1) := ⟨⟨true, false⟩, by decide, .inl rfl⟩
example : bootstrapConnect connect [2, 0, 1] seen 3 = .ok .ok := by decide
example : bootstrapConnect connect [2, 0, 1] late 3 = .ok (.notInTable 2) := by decide
example : bootstrapConnect (fun i => some [UInt8.ofNat i]) [2, 0, 1] seen 3 = .ok (.allFailed [1]) := by decide
example : bootstrapConnect connect [2, 0] seen 3 = .ok .waiting := by decide

end BootstrapDemo

end Verif
