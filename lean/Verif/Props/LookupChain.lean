import Verif.Model.LookupChain

/-!
# C115: look-ups end

Spec. A look-up of an address ends when all peers answer, and the number of requests that wait for an answer
has a bound. Peers that neither fail nor lie are assumed.
-/

namespace Verif

namespace LookupChain

theorem run_add (net : Nat → LookupNet) (s : LookupChain) (a b : Nat) :
    run net s (a + b) = run (fun n => net (a + n)) (run net s a) b := by
  induction b with
  | zero => rfl
  | succ b ih => rw [← Nat.add_assoc, run, ih]; rfl

/-! ## Look-ups without end -/

/-- The first provider in the list that the peer can reach. -/
def FirstReached (net : LookupNet) (p : Nat) (l : List Nat) (q : Nat) : Prop :=
  ∃ a rest, l = a ++ q :: rest ∧ (∀ x ∈ a, net.reaches p x = false) ∧ net.reaches p q = true

theorem asks_first {net : LookupNet} {p q : Nat} {l : List Nat} (h : FirstReached net p l q)
    (below : List (Nat × List Nat)) : ∃ rest, asks net below p l = ⟨(p, rest) :: below, .asked q⟩ := by
  obtain ⟨a, rest, rfl, ha, hq⟩ := h
  induction a with
  | nil => exact ⟨rest, by simp [asks, hq]⟩
  | cons x a ih =>
    rw [List.cons_append, asks, if_neg (by simp [ha x (by simp)])]
    exact ih fun y hy => ha y (by simp [hy])

/-- **C115 is false as stated.** If some peers are listed for an address that none of them has any more, and
each of them reaches another one of them first, a look-up that comes to one of them does not end: with every
step one more stream is open, and its handler waits. -/
theorem C115_endless (net : Nat → LookupNet) (S : Nat → Prop)
    (hr : ∀ n p, S p → (net n).records p = none)
    (hp : ∀ n p, S p → ∃ q, S q ∧ FirstReached (net n) p ((net n).providers p) q)
    (p : Nat) (h : S p) (n : Nat) :
    (run net (start p) n).waiting.length = n ∧ (∃ q, S q ∧ (run net (start p) n).now = .asked q) ∧
      (run net (start p) n).over = false := by
  have key : (run net (start p) n).waiting.length = n ∧ ∃ q, S q ∧ (run net (start p) n).now = .asked q := by
    induction n with
    | zero => exact ⟨rfl, p, h, rfl⟩
    | succ n ih =>
      obtain ⟨hl, q, hq, hn⟩ := ih
      rw [run]
      obtain ⟨q', hq', hf⟩ := hp n q hq
      obtain ⟨rest, ha⟩ := asks_first hf (run net (start p) n).waiting
      have hs : (run net (start p) n).step (net n) = ⟨(q, rest) :: (run net (start p) n).waiting, .asked q'⟩ := by
        unfold step
        rw [hn]
        simp only [hr n q hq]
        exact ha
      rw [hs]
      exact ⟨by simp [hl], q', hq', rfl⟩
  refine ⟨key.1, key.2, ?_⟩
  obtain ⟨q, _, hn⟩ := key.2
  unfold over
  rw [hn]

/-! ## Look-ups that end -/

/-- A peer asks only peers that have the address, or are of a lower rank. -/
def Ranked (net : Nat → LookupNet) (rank : Nat → Nat) : Prop :=
  ∀ k l m p q, (net k).records p = none → q ∈ (net k).providers p → (net l).reaches p q = true →
    (net m).records q = none → rank q < rank p

theorem Ranked.shift {net : Nat → LookupNet} {rank : Nat → Nat} (h : Ranked net rank) (t : Nat) :
    Ranked (fun n => net (t + n)) rank := fun _ _ _ _ _ h1 h2 h3 h4 => h _ _ _ _ _ h1 h2 h3 h4

/-- From the state, the peers below are left alone until there is an answer for them, and at most `d` others
wait. -/
def Returns (net : Nat → LookupNet) (s : LookupChain) (below : List (Nat × List Nat)) (d : Nat) : Prop :=
  ∃ k o, run net s k = ⟨below, .answer o⟩ ∧ ∀ j ≤ k, (run net s j).waiting.length ≤ below.length + d

theorem Returns.step {net : Nat → LookupNet} {s : LookupChain} {below : List (Nat × List Nat)} {d : Nat}
    (h : Returns (fun n => net (1 + n)) (s.step (net 0)) below d) (hs : s.waiting.length ≤ below.length + d) :
    Returns net s below d := by
  obtain ⟨k, o, hk, hl⟩ := h
  refine ⟨1 + k, o, ?_, fun j hj => ?_⟩
  · rw [run_add]; exact hk
  · cases j with
    | zero => exact hs
    | succ j =>
      have := hl j (by omega)
      rw [Nat.add_comm, run_add]
      exact this

theorem Returns.trans {net : Nat → LookupNet} {s : LookupChain} {mid below : List (Nat × List Nat)} {d e : Nat}
    (h : Returns net s mid d) (hm : mid.length + d ≤ below.length + e)
    (h' : ∀ k o, Returns (fun n => net (k + n)) ⟨mid, .answer o⟩ below e) : Returns net s below e := by
  obtain ⟨k, o, hk, hl⟩ := h
  obtain ⟨k', o', hk', hl'⟩ := h' k o
  refine ⟨k + k', o', ?_, fun j hj => ?_⟩
  · rw [run_add, hk]; exact hk'
  · rcases Nat.lt_or_ge j k with hlt | hge
    · have := hl j (by omega)
      omega
    · obtain ⟨i, rfl⟩ : ∃ i, j = k + i := ⟨j - k, by omega⟩
      rw [run_add, hk]
      exact hl' i (by omega)

theorem returns_now (net : Nat → LookupNet) (below : List (Nat × List Nat)) (o : Option AgentRecord) (d : Nat) :
    Returns net ⟨below, .answer o⟩ below d :=
  ⟨0, o, rfl, fun j hj => by
    obtain rfl : j = 0 := by omega
    simp [run]⟩

theorem returns_asks {d : Nat} {p : Nat} (below : List (Nat × List Nat)) (l : List Nat) :
    ∀ (net : Nat → LookupNet) (net0 : LookupNet),
    (∀ q ∈ l, ∀ t st, (net0.reaches p q = true ∨ ∃ n, (net n).reaches p q = true) →
      Returns (fun n => net (t + n)) ⟨st, .asked q⟩ st d) →
    Returns net (asks net0 below p l) below (d + 1) := by
  induction l with
  | nil => exact fun net net0 _ => returns_now net below none _
  | cons q rest ih =>
    intro net net0 hq
    rw [asks]
    split
    · next hr =>
      have h1 := hq q (by simp) 0 ((p, rest) :: below) (.inl hr)
      simp only [Nat.zero_add] at h1
      refine h1.trans (by simp; omega) fun k o => ?_
      apply Returns.step
      · have hi := ih (fun n => net (k + (1 + n))) (net (k + 0)) fun q' hq' t st hre => by
          have := hq q' (by simp [hq']) (k + (1 + t)) st (.inr (by
            rcases hre with hre | ⟨n, hre⟩
            · exact ⟨_, hre⟩
            · exact ⟨_, hre⟩))
          simpa [Nat.add_assoc] using this
        unfold LookupChain.step
        cases o with
        | none => exact hi
        | some r =>
          dsimp only
          split
          · exact returns_now _ _ _ _
          · exact hi
      · simp
    · exact ih net net0 fun q' hq' => hq q' (by simp [hq'])

theorem returns_asked {rank : Nat → Nat} (d : Nat) :
    ∀ (net : Nat → LookupNet), Ranked net rank → ∀ p, (∀ n, (net n).records p = none → rank p < d) →
      ∀ st, Returns net ⟨st, .asked p⟩ st d := by
  induction d with
  | zero =>
    intro net _ p hp st
    apply Returns.step
    · unfold step
      cases hr : (net 0).records p with
      | none => exact absurd (hp 0 hr) (by omega)
      | some r =>
        simp only [hr]
        exact returns_now _ _ _ _
    · simp
  | succ d ih =>
    intro net hk p hp st
    apply Returns.step
    · unfold step
      cases hr : (net 0).records p with
      | some r =>
        simp only [hr]
        exact returns_now _ _ _ _
      | none =>
        simp only [hr]
        apply returns_asks
        intro q hq t st' hre
        refine ih (fun n => net (1 + (t + n))) (fun _ _ _ _ _ h1 h2 h3 h4 => hk _ _ _ _ _ h1 h2 h3 h4) q ?_ st'
        intro n hn
        have h1 := hp 0 hr
        have : rank q < rank p := by
          rcases hre with hre | ⟨l, hre⟩
          · exact hk 0 0 _ p q hr hq hre hn
          · exact hk 0 _ _ p q hr hq hre hn
        omega
    · simp

/-- **C115, partial.** If the peers can be ranked so that each one without the address finds and reaches only
peers that have it or are of a lower rank, every look-up ends, and never more peers wait than the rank of the
first one and one more. Missing from the property: two peers that are both listed and both do not have the
address any more cannot be ranked, `C115_counterexample`. -/
theorem C115_ends_partial (net : Nat → LookupNet) (rank : Nat → Nat) (h : Ranked net rank) (p : Nat) :
    ∃ k o, run net (start p) k = ⟨[], .answer o⟩ ∧
      ∀ j ≤ k, (run net (start p) j).waiting.length ≤ rank p + 1 := by
  obtain ⟨k, o, hk, hl⟩ := returns_asked (rank p + 1) net h p (fun _ _ => by omega) []
  exact ⟨k, o, hk, fun j hj => by simpa [start] using hl j hj⟩

/-! ## In a network that stays the same -/

theorem over_stays {net : LookupNet} {s : LookupChain} (h : s.over = true) : s.step net = s := by
  obtain ⟨w, now⟩ := s
  unfold over at h
  unfold step
  cases now with
  | asked p => simp at h
  | answer o =>
    cases w with
    | nil => rfl
    | cons x w => simp at h

theorem over_run {net : Nat → LookupNet} {s : LookupChain} {n m : Nat} (h : (run net s n).over = true) (hm : n ≤ m) :
    run net s m = run net s n := by
  obtain ⟨k, rfl⟩ : ∃ k, m = n + k := ⟨m - n, by omega⟩
  clear hm
  induction k with
  | zero => rfl
  | succ k ih => rw [← Nat.add_assoc, run, ih, over_stays h]

/-- A state with more peers below. -/
def above (s : LookupChain) (below : List (Nat × List Nat)) : LookupChain := ⟨s.waiting ++ below, s.now⟩

theorem asks_above (net : LookupNet) (st below : List (Nat × List Nat)) (p : Nat) (l : List Nat) :
    asks net (st ++ below) p l = (asks net st p l).above below := by
  induction l with
  | nil => rfl
  | cons q l ih =>
    rw [asks, asks]
    split
    · rfl
    · exact ih

theorem step_above (net : LookupNet) (s : LookupChain) (below : List (Nat × List Nat)) (h : s.over = false) :
    (s.above below).step net = (s.step net).above below := by
  obtain ⟨w, now⟩ := s
  unfold over at h
  unfold step above
  cases now with
  | asked p =>
    dsimp only
    split
    · rfl
    · exact asks_above _ _ _ _ _
  | answer o =>
    cases w with
    | nil => simp at h
    | cons x w =>
      obtain ⟨p, rest⟩ := x
      simp only [List.cons_append]
      cases o with
      | none => exact asks_above _ _ _ _ _
      | some r =>
        dsimp only
        split
        · rfl
        · exact asks_above _ _ _ _ _

theorem run_above (net : LookupNet) (s : LookupChain) (below : List (Nat × List Nat)) (n : Nat)
    (h : ∀ m < n, (run (fun _ => net) s m).over = false) :
    run (fun _ => net) (s.above below) n = (run (fun _ => net) s n).above below := by
  induction n with
  | zero => rfl
  | succ n ih =>
    rw [run, run, ih fun m hm => h m (by omega), step_above net _ below (h n (by omega))]

/-- A peer that is asked while it waits: no end. -/
theorem again_endless {net : LookupNet} {x n : Nat} {e : List (Nat × List Nat)} (hn : 0 < n)
    (h : run (fun _ => net) (start x) n = ⟨e, .asked x⟩) (m : Nat) :
    (run (fun _ => net) (start x) m).over = false := by
  have hno : ∀ j < n, (run (fun _ => net) (start x) j).over = false := by
    intro j hj
    cases hc : (run (fun _ => net) (start x) j).over with
    | false => rfl
    | true =>
      have := over_run hc (Nat.le_of_lt hj)
      rw [h] at this
      rw [← this] at hc
      simp [over] at hc
  have hk : ∀ k, ∃ e', run (fun _ => net) (start x) (k * n) = ⟨e', .asked x⟩ := by
    intro k
    induction k with
    | zero => exact ⟨[], by simp [run, start]⟩
    | succ k ih =>
      obtain ⟨e', he'⟩ := ih
      refine ⟨e ++ e', ?_⟩
      rw [Nat.succ_mul, run_add, he']
      have := run_above net (start x) e' n hno
      rw [h] at this
      exact this
  cases hc : (run (fun _ => net) (start x) m).over with
  | false => rfl
  | true =>
    obtain ⟨e', he'⟩ := hk m
    have := over_run hc (Nat.le_mul_of_pos_right m hn)
    rw [he'] at this
    rw [← this] at hc
    simp [over] at hc

/-- What the stack says about the past. -/
structure History (net : LookupNet) (p n : Nat) : Prop where
  /-- when a peer that waits was asked, those below it waited as now -/
  asked : ∀ e y r below, (run (fun _ => net) (start p) n).waiting = e ++ (y, r) :: below →
    ∃ j < n, run (fun _ => net) (start p) j = ⟨below, .asked y⟩
  /-- what has happened since is a look-up of its own -/
  since : ∀ e y r below, (run (fun _ => net) (start p) n).waiting = e ++ (y, r) :: below →
    ∃ k, 0 < k ∧ run (fun _ => net) (start y) k = ⟨e ++ [(y, r)], (run (fun _ => net) (start p) n).now⟩

theorem asks_cases (net : LookupNet) (below : List (Nat × List Nat)) (p : Nat) (l : List Nat) :
    (asks net below p l = ⟨below, .answer none⟩) ∨ ∃ q rest, asks net below p l = ⟨(p, rest) :: below, .asked q⟩ := by
  induction l with
  | nil => exact .inl rfl
  | cons q l ih =>
    rw [asks]
    split
    · exact .inr ⟨q, l, rfl⟩
    · exact ih

/-- The ways in which a step changes the stack. -/
theorem step_cases (net : LookupNet) (s : LookupChain) :
    (s.step net).waiting = s.waiting ∨
    (∃ q r, s.now = .asked q ∧ (s.step net).waiting = (q, r) :: s.waiting) ∨
    (∃ q r, s.waiting = (q, r) :: (s.step net).waiting) ∨
    (∃ q r r' w, s.waiting = (q, r) :: w ∧ (s.step net).waiting = (q, r') :: w) := by
  obtain ⟨w, now⟩ := s
  cases now with
  | asked p =>
    cases hr : net.records p with
    | some r => exact .inl (by simp [step, hr])
    | none =>
      have hs : step net ⟨w, .asked p⟩ = asks net w p (net.providers p) := by simp [step, hr]
      rw [hs]
      rcases asks_cases net w p (net.providers p) with h | ⟨q, rest, h⟩
      · exact .inl (by rw [h])
      · exact .inr (.inl ⟨p, rest, rfl, by rw [h]⟩)
  | answer o =>
    cases w with
    | nil => exact .inl rfl
    | cons x w =>
      obtain ⟨p, rest⟩ := x
      have hs : step net ⟨(p, rest) :: w, .answer o⟩ = ⟨w, .answer o⟩ ∨
          step net ⟨(p, rest) :: w, .answer o⟩ = asks net w p rest := by
        cases o with
        | none => exact .inr rfl
        | some r =>
          by_cases hv : net.valid r = true
          · exact .inl (by simp [step, hv])
          · exact .inr (by simp [step, hv])
      rcases hs with hs | hs
      · exact .inr (.inr (.inl ⟨p, rest, by rw [hs]⟩))
      · rw [hs]
        rcases asks_cases net w p rest with h | ⟨q, rest', h⟩
        · exact .inr (.inr (.inl ⟨p, rest, by rw [h]⟩))
        · exact .inr (.inr (.inr ⟨p, rest, rest', w, rfl, by rw [h]⟩))

/-- A split of the stack after a step comes from one before it, or from the peer that was asked. -/
theorem step_split {net : LookupNet} {s : LookupChain} {e : List (Nat × List Nat)} {y : Nat} {r : List Nat}
    {below : List (Nat × List Nat)} (h : (s.step net).waiting = e ++ (y, r) :: below) :
    s = ⟨below, .asked y⟩ ∨ ∃ e' r', s.waiting = e' ++ (y, r') :: below := by
  rcases step_cases net s with hc | ⟨q, r0, hn, hc⟩ | ⟨q, r0, hc⟩ | ⟨q, r0, r1, w, hc, hc'⟩
  · exact .inr ⟨e, r, by rw [← hc, h]⟩
  · rw [hc] at h
    cases e with
    | nil =>
      simp only [List.nil_append, List.cons.injEq, Prod.mk.injEq] at h
      obtain ⟨⟨rfl, _⟩, rfl⟩ := h
      left
      rw [← hn]
    | cons x e =>
      simp only [List.cons_append, List.cons.injEq] at h
      exact .inr ⟨e, r, h.2⟩
  · exact .inr ⟨(q, r0) :: e, r, by rw [hc, h]; rfl⟩
  · rw [hc'] at h
    cases e with
    | nil =>
      simp only [List.nil_append, List.cons.injEq, Prod.mk.injEq] at h
      obtain ⟨⟨rfl, _⟩, rfl⟩ := h
      exact .inr ⟨[], r0, hc⟩
    | cons x e =>
      simp only [List.cons_append, List.cons.injEq] at h
      exact .inr ⟨(q, r0) :: e, r, by rw [hc, h.2]; rfl⟩

theorem history (net : LookupNet) (p n : Nat) : History net p n := by
  induction n with
  | zero => constructor <;> intro e y r below h <;> simp [run, start] at h
  | succ n ih =>
    constructor
    · intro e y r below h
      rcases step_split h with hs | ⟨e', r', hs⟩
      · exact ⟨n, by omega, hs⟩
      · obtain ⟨j, hj, hr⟩ := ih.asked e' y r' below hs
        exact ⟨j, by omega, hr⟩
    · intro e y r below h
      have key : ∃ k, run (fun _ => net) (start p) n = (run (fun _ => net) (start y) k).above below ∧
          (run (fun _ => net) (start y) k).over = false := by
        rcases step_split h with hs | ⟨e', r', hs⟩
        · exact ⟨0, by rw [hs]; rfl, rfl⟩
        · obtain ⟨k, _, hk⟩ := ih.since e' y r' below hs
          refine ⟨k, ?_, ?_⟩
          · rw [hk]
            unfold above
            simp only [List.append_assoc, List.cons_append, List.nil_append]
            rw [← hs]
          · rw [hk]
            unfold over
            split
            · next h1 => simp at h1
            · rfl
      obtain ⟨k, hk, ho⟩ := key
      refine ⟨k + 1, by omega, ?_⟩
      rw [run] at h ⊢
      rw [run]
      rw [hk, step_above net _ below ho] at h ⊢
      have : (step net (run (fun _ => net) (start y) k)).waiting = e ++ [(y, r)] := by
        apply List.append_cancel_right (bs := below)
        simpa [above] using h
      rw [← this]
      rfl

theorem above_over {s : LookupChain} (h : s.over = false) (below : List (Nat × List Nat)) :
    (s.above below).over = false := by
  obtain ⟨w, now⟩ := s
  cases now with
  | asked p => rfl
  | answer o =>
    cases w with
    | nil => simp [over] at h
    | cons x w => rfl

/-- A peer that waits is asked. -/
def Again (net : LookupNet) (s : LookupChain) (n : Nat) : Prop :=
  ∃ q, (run (fun _ => net) s n).now = .asked q ∧ q ∈ (run (fun _ => net) s n).waiting.map Prod.fst

theorem again_never {net : LookupNet} {p n : Nat} (h : Again net (start p) n) (m : Nat) :
    (run (fun _ => net) (start p) m).over = false := by
  obtain ⟨q, hn, hq⟩ := h
  obtain ⟨⟨q', r⟩, hm, rfl⟩ := List.mem_map.1 hq
  obtain ⟨e, below, hw⟩ := List.append_of_mem hm
  obtain ⟨k, hk, hs⟩ := (history net p n).since e q' r below hw
  obtain ⟨j, _, hj⟩ := (history net p n).asked e q' r below hw
  rw [hn] at hs
  have he := again_endless hk hs
  cases hc : (run (fun _ => net) (start p) m).over with
  | false => rfl
  | true =>
    have h1 := over_run hc (Nat.le_add_left m j)
    have h2 := run_above net (start q') below m fun i _ => he i
    have h3 := run_add (fun _ => net) (start p) j m
    have h4 : run (fun _ => net) (start p) (j + m) = (run (fun _ => net) (start q') m).above below := by
      rw [h3, hj]; exact h2
    rw [← h1, h4, above_over (he m) below] at hc
    cases hc

/-! A look-up in which no peer that waits is asked again ends. -/

theorem nat_nodup_le : ∀ {l m : List Nat}, l.Nodup → (∀ x ∈ l, x ∈ m) → l.length ≤ m.length
  | [], _, _, _ => by simp
  | x :: l, m, hn, hm => by
    have hx : x ∈ m := hm x (by simp)
    have h1 : l.length ≤ (m.erase x).length := by
      apply nat_nodup_le (List.nodup_cons.1 hn).2
      intro y hy
      rw [List.mem_erase_of_ne]
      · exact hm y (by simp [hy])
      · rintro rfl
        exact (List.nodup_cons.1 hn).1 hy
    rw [List.length_erase_of_mem hx] at h1
    have : 0 < m.length := List.length_pos_of_mem hx
    simp only [List.length_cons]
    omega

/-- It comes back to those below, or a peer that waits is asked. -/
def BackOrAgain (net : LookupNet) (s : LookupChain) (below : List (Nat × List Nat)) : Prop :=
  (∃ k o, run (fun _ => net) s k = ⟨below, .answer o⟩) ∨ ∃ n, Again net s n

theorem BackOrAgain.after {net : LookupNet} {s s' : LookupChain} {below : List (Nat × List Nat)} (k : Nat)
    (hk : run (fun _ => net) s k = s') (h : BackOrAgain net s' below) : BackOrAgain net s below := by
  rcases h with ⟨k', o, h⟩ | ⟨n, h⟩
  · exact .inl ⟨k + k', o, by rw [run_add, hk]; exact h⟩
  · refine .inr ⟨k + n, ?_⟩
    unfold Again
    rw [run_add, hk]
    exact h

theorem back_asks {net : LookupNet} {N : Nat} {below : List (Nat × List Nat)} {p : Nat}
    (hd : ∀ q, q < N → ∀ r, BackOrAgain net ⟨(p, r) :: below, .asked q⟩ ((p, r) :: below)) (l : List Nat)
    (hl : ∀ q ∈ l, q < N) : BackOrAgain net (asks net below p l) below := by
  induction l with
  | nil => exact .inl ⟨0, none, rfl⟩
  | cons q rest ih =>
    have ih := ih fun x hx => hl x (by simp [hx])
    rw [asks]
    split
    · rcases hd q (hl q (by simp)) rest with ⟨k, o, hk⟩ | h
      · refine BackOrAgain.after k hk (BackOrAgain.after 1 rfl ?_)
        rw [run, run]
        cases o with
        | none => exact ih
        | some r =>
          unfold step
          dsimp only
          split
          · exact .inl ⟨0, some r, rfl⟩
          · exact ih
      · exact .inr h
    · exact ih

theorem back_asked {net : LookupNet} {N : Nat} (hN : ∀ p, ∀ q ∈ net.providers p, q < N) (d : Nat) :
    ∀ (st : List (Nat × List Nat)) (p : Nat), N ≤ st.length + d → (st.map Prod.fst).Nodup →
      (∀ x ∈ st.map Prod.fst, x < N) → p < N → BackOrAgain net ⟨st, .asked p⟩ st := by
  induction d with
  | zero =>
    intro st p hl hn hs hp
    by_cases hm : p ∈ st.map Prod.fst
    · exact .inr ⟨0, p, rfl, hm⟩
    · exfalso
      have := nat_nodup_le (List.nodup_cons.2 ⟨hm, hn⟩) (m := List.range N) (by
        intro x hx
        rcases List.mem_cons.1 hx with rfl | hx
        · exact List.mem_range.2 hp
        · exact List.mem_range.2 (hs x hx))
      simp at this
      omega
  | succ d ih =>
    intro st p hl hn hs hp
    by_cases hm : p ∈ st.map Prod.fst
    · exact .inr ⟨0, p, rfl, hm⟩
    · refine BackOrAgain.after 1 rfl ?_
      rw [run, run]
      cases hr : net.records p with
      | some r => exact .inl ⟨0, some r, by simp [run, step, hr]⟩
      | none =>
        have : step net ⟨st, .asked p⟩ = asks net st p (net.providers p) := by simp [step, hr]
        rw [this]
        refine back_asks (N := N) (fun q hq r => ih _ q ?_ ?_ ?_ hq) _ (hN p)
        · simp only [List.length_cons]; omega
        · simpa using ⟨by simpa using hm, hn⟩
        · intro x hx
          rcases List.mem_cons.1 hx with rfl | hx
          · exact hp
          · exact hs x hx

/-- **C115, when it holds.** In a network of finitely many peers that stays as it is, a look-up ends if and only if
no peer is asked while it waits for an answer itself. -/
theorem C115_iff (net : LookupNet) (N : Nat) (hN : ∀ p, ∀ q ∈ net.providers p, q < N) (p : Nat) (hp : p < N) :
    (∃ n, (run (fun _ => net) (start p) n).over = true) ↔
      ∀ n q, (run (fun _ => net) (start p) n).now = .asked q →
        q ∉ (run (fun _ => net) (start p) n).waiting.map Prod.fst := by
  constructor
  · rintro ⟨m, hm⟩ n q hn hq
    rw [again_never ⟨q, hn, hq⟩ m] at hm
    cases hm
  · intro h
    rcases back_asked hN N [] p (by simp) (by simp) (by simp) hp with ⟨k, o, hk⟩ | ⟨n, q, hn, hq⟩
    · exact ⟨k, by unfold start; rw [hk]; rfl⟩
    · exact absurd hq (h n q hn)

theorem asks_below (net : LookupNet) (below : List (Nat × List Nat)) (p N : Nat) (l : List Nat) (hl : ∀ q ∈ l, q < N) :
    (∀ q, (asks net below p l).now = .asked q → q < N) ∧
      ∀ x ∈ (asks net below p l).waiting, x ∈ below ∨ (x.1 = p ∧ ∀ q ∈ x.2, q < N) := by
  induction l with
  | nil => exact ⟨fun q h => by simp [asks] at h, fun x hx => .inl hx⟩
  | cons y l ih =>
    rw [asks]
    split
    · refine ⟨fun q h => ?_, fun x hx => ?_⟩
      · simp only [LookupNow.asked.injEq] at h
        exact h ▸ hl y (by simp)
      · rcases List.mem_cons.1 hx with rfl | hx
        · exact .inr ⟨rfl, fun q hq => hl q (by simp [hq])⟩
        · exact .inl hx
    · exact ih fun q hq => hl q (by simp [hq])

theorem all_below {net : LookupNet} {N : Nat} (hN : ∀ p, ∀ q ∈ net.providers p, q < N) (p : Nat) (hp : p < N) (n : Nat) :
    (∀ q, (run (fun _ => net) (start p) n).now = .asked q → q < N) ∧
      ∀ x ∈ (run (fun _ => net) (start p) n).waiting, x.1 < N ∧ ∀ q ∈ x.2, q < N := by
  induction n with
  | zero =>
    refine ⟨fun q h => ?_, fun x hx => by simp [run, start] at hx⟩
    simp only [run, start, LookupNow.asked.injEq] at h
    omega
  | succ n ih =>
    rw [run]
    generalize run (fun _ => net) (start p) n = s at ih
    obtain ⟨w, now⟩ := s
    have hasks : ∀ y l (w' : List (Nat × List Nat)), y < N → (∀ q ∈ l, q < N) → (∀ x ∈ w', x.1 < N ∧ ∀ q ∈ x.2, q < N) →
        (∀ q, (asks net w' y l).now = .asked q → q < N) ∧
          ∀ x ∈ (asks net w' y l).waiting, x.1 < N ∧ ∀ q ∈ x.2, q < N := by
      intro y l w' hy hl hw
      obtain ⟨h1, h2⟩ := asks_below net w' y N l hl
      refine ⟨h1, fun x hx => ?_⟩
      rcases h2 x hx with h | ⟨h, h'⟩
      · exact hw x h
      · exact ⟨by omega, h'⟩
    cases now with
    | asked q =>
      cases hr : net.records q with
      | some r =>
        have : step net ⟨w, .asked q⟩ = ⟨w, .answer (some r)⟩ := by simp [step, hr]
        rw [this]
        exact ⟨fun _ h => (by cases h), ih.2⟩
      | none =>
        have : step net ⟨w, .asked q⟩ = asks net w q (net.providers q) := by simp [step, hr]
        rw [this]
        exact hasks q _ w (ih.1 q rfl) (hN q) ih.2
    | answer o =>
      cases w with
      | nil => exact ih
      | cons x w =>
        obtain ⟨y, rest⟩ := x
        have hy := ih.2 (y, rest) (by simp)
        have hw : ∀ x ∈ w, x.1 < N ∧ ∀ q ∈ x.2, q < N := fun x hx => ih.2 x (by simp [hx])
        have hi := hasks y rest w hy.1 hy.2 hw
        cases o with
        | none => exact hi
        | some r =>
          unfold step
          dsimp only
          split
          · exact ⟨fun _ h => (by cases h), hw⟩
          · exact hi

/-- **C115, the bound.** In a network that stays as it is, a look-up that ends has every peer wait at most once at
any time, so never more peers wait than there are. -/
theorem C115_distinct (net : LookupNet) (N : Nat) (hN : ∀ p, ∀ q ∈ net.providers p, q < N) (p : Nat) (hp : p < N)
    (m : Nat) (hm : (run (fun _ => net) (start p) m).over = true) (n : Nat) :
    ((run (fun _ => net) (start p) n).waiting.map Prod.fst).Nodup ∧
      (run (fun _ => net) (start p) n).waiting.length ≤ N := by
  have hnd : ∀ (tail e : List (Nat × List Nat)), (run (fun _ => net) (start p) n).waiting = e ++ tail →
      (tail.map Prod.fst).Nodup := by
    intro tail
    induction tail with
    | nil => simp
    | cons x below ih =>
      intro e he
      obtain ⟨y, r⟩ := x
      have h1 := ih (e ++ [(y, r)]) (by simpa using he)
      rw [List.map_cons, List.nodup_cons]
      refine ⟨fun hy => ?_, h1⟩
      obtain ⟨j, _, hj⟩ := (history net p n).asked e y r below he
      have := again_never (net := net) (p := p) (n := j) ⟨y, by rw [hj], by rw [hj]; exact hy⟩ m
      rw [this] at hm
      cases hm
  have h := hnd _ [] rfl
  refine ⟨h, ?_⟩
  have := nat_nodup_le h (m := List.range N) (by
    intro x hx
    obtain ⟨y, hy, rfl⟩ := List.mem_map.1 hx
    exact List.mem_range.2 ((all_below hN p hp n).2 y hy).1)
  simpa using this

/-! ## The answer -/

theorem asks_answer {net : LookupNet} {below : List (Nat × List Nat)} {p : Nat} {l : List Nat} {r : AgentRecord} :
    (asks net below p l).now ≠ .answer (some r) := by
  rcases asks_cases net below p l with h | ⟨q, rest, h⟩ <;> rw [h] <;> simp

/-- **C115, the answer.** A record that a look-up ends with is one that a peer had in its tables when it was asked.
If it is not the peer asked first, the record has passed the check. -/
theorem C115_answer (net : Nat → LookupNet) (p n : Nat) (r : AgentRecord)
    (h : run net (start p) n = ⟨[], .answer (some r)⟩) :
    (∃ m < n, ∃ q, (run net (start p) m).now = .asked q ∧ (net m).records q = some r) ∧
      ((net 0).records p = some r ∨ ∃ m < n, (net m).valid r = true) := by
  have key : ∀ n, ((run net (start p) n).waiting = [] → ∀ q, (run net (start p) n).now = .asked q → n = 0 ∧ q = p) ∧
      (∀ r, (run net (start p) n).now = .answer (some r) →
        (∃ m < n, ∃ q, (run net (start p) m).now = .asked q ∧ (net m).records q = some r) ∧
        ((run net (start p) n).waiting = [] → (net 0).records p = some r ∨ ∃ m < n, (net m).valid r = true)) := by
    intro n
    induction n with
    | zero => exact ⟨fun _ q h => (by simp [run, start] at h; exact ⟨rfl, h.symm⟩), fun r h => by simp [run, start] at h⟩
    | succ n ih =>
      rw [run]
      generalize hs : run net (start p) n = s at ih
      obtain ⟨w, now⟩ := s
      have hasks : ∀ y l (w' : List (Nat × List Nat)),
          ((asks (net n) w' y l).waiting = [] → ∀ q, (asks (net n) w' y l).now = .asked q → n + 1 = 0 ∧ q = p) := by
        intro y l w' hw q hq
        rcases asks_cases (net n) w' y l with h | ⟨q', rest, h⟩
        · rw [h] at hq; cases hq
        · rw [h] at hw; cases hw
      cases now with
      | asked q =>
        cases hr : (net n).records q with
        | some r0 =>
          have : step (net n) ⟨w, .asked q⟩ = ⟨w, .answer (some r0)⟩ := by simp [step, hr]
          rw [this]
          refine ⟨fun _ _ h => (by cases h), fun r h => ?_⟩
          simp only [LookupNow.answer.injEq, Option.some.injEq] at h
          subst h
          refine ⟨⟨n, by omega, q, by rw [hs], hr⟩, fun hw => ?_⟩
          obtain ⟨rfl, rfl⟩ := ih.1 hw q rfl
          exact .inl hr
        | none =>
          have : step (net n) ⟨w, .asked q⟩ = asks (net n) w q ((net n).providers q) := by simp [step, hr]
          rw [this]
          exact ⟨hasks _ _ _, fun r h => absurd h asks_answer⟩
      | answer o =>
        have hold : ∀ r, o = some r → (∃ m < n + 1, ∃ q, (run net (start p) m).now = .asked q ∧ (net m).records q = some r) := by
          rintro r rfl
          obtain ⟨⟨m, hm, hx⟩, _⟩ := ih.2 r rfl
          exact ⟨m, by omega, hx⟩
        cases w with
        | nil =>
          refine ⟨fun _ _ h => (by cases h), fun r h => ?_⟩
          have h' : o = some r := by simpa [step] using h
          refine ⟨hold r h', fun _ => ?_⟩
          subst h'
          rcases (ih.2 r rfl).2 rfl with h | ⟨m, hm, h⟩
          · exact .inl h
          · exact .inr ⟨m, by omega, h⟩
        | cons x w =>
          obtain ⟨y, rest⟩ := x
          cases o with
          | none => exact ⟨hasks _ _ _, fun r h => absurd h asks_answer⟩
          | some r0 =>
            by_cases hv : (net n).valid r0 = true
            · have : step (net n) ⟨(y, rest) :: w, .answer (some r0)⟩ = ⟨w, .answer (some r0)⟩ := by simp [step, hv]
              rw [this]
              refine ⟨fun _ _ h => (by cases h), fun r h => ?_⟩
              simp only [LookupNow.answer.injEq, Option.some.injEq] at h
              subst h
              exact ⟨hold _ rfl, fun _ => .inr ⟨n, by omega, hv⟩⟩
            · have : step (net n) ⟨(y, rest) :: w, .answer (some r0)⟩ = asks (net n) w y rest := by simp [step, hv]
              rw [this]
              exact ⟨hasks _ _ _, fun r h => absurd h asks_answer⟩
  have := (key n).2 r (by rw [h])
  exact ⟨this.1, this.2 (by rw [h])⟩

/-- **C115, up to date.** If every provider that a peer finds and reaches has a good record, one request is enough:
the answer is the record of the first of them. -/
theorem C115_fresh (net : LookupNet) (p : Nat) (hp : net.records p = none) (q : Nat) (r : AgentRecord)
    (hf : FirstReached net p (net.providers p) q) (hq : net.records q = some r) (hv : net.valid r = true) (n : Nat) :
    run (fun _ => net) (start p) (n + 3) = ⟨[], .answer (some r)⟩ ∧
      (run (fun _ => net) (start p) 1).now = .asked q ∧
      ∀ j, (run (fun _ => net) (start p) j).waiting.length ≤ 1 := by
  obtain ⟨rest, ha⟩ := asks_first hf []
  have h1 : run (fun _ => net) (start p) 1 = ⟨[(p, rest)], .asked q⟩ := by
    simp only [run, start, step, hp, ha]
  have h2 : run (fun _ => net) (start p) 2 = ⟨[(p, rest)], .answer (some r)⟩ := by
    rw [run, h1]; simp only [step, hq]
  have h3 : run (fun _ => net) (start p) 3 = ⟨[], .answer (some r)⟩ := by
    rw [run, h2]; simp [step, hv]
  have h4 : ∀ n, run (fun _ => net) (start p) (n + 3) = ⟨[], .answer (some r)⟩ := fun n => by
    rw [over_run (by rw [h3]; rfl) (by omega : 3 ≤ n + 3), h3]
  refine ⟨h4 n, by rw [h1], fun j => ?_⟩
  match j with
  | 0 => simp [run, start]
  | 1 => rw [h1]; simp
  | 2 => rw [h2]; simp
  | j + 3 => rw [h4]; simp

/-! ## Concrete cases -/

/-- Three peers. An agent was with peers 0 and 1 one after the other, both have announced its address, and it has
left. -/
def left : LookupNet where
  records := fun _ => none
  valid := fun _ => true
  providers := fun _ => [0, 1]
  reaches := fun p q => decide (p ≠ q)

/-- **C115 is false as stated.** Peers 0 and 1 ask each other for the address for ever, and each request holds a
stream and a handler at both ends. -/
theorem C115_counterexample (n : Nat) :
    (run (fun _ => left) (start 2) n).waiting.length = n ∧ (run (fun _ => left) (start 2) n).over = false := by
  have h := C115_endless (fun _ => left) (fun p => p < 3) (fun _ _ _ => rfl) (fun _ p hp => by
    match p, hp with
    | 0, _ => exact ⟨1, by decide, [0], [], rfl, by simp [left], by simp [left]⟩
    | 1, _ => exact ⟨0, by decide, [], [1], rfl, by simp, by simp [left]⟩
    | 2, _ => exact ⟨0, by decide, [], [1], rfl, by simp, by simp [left]⟩) 2 (by decide) n
  exact ⟨h.1, h.2.2⟩

def agent : AgentRecord := ⟨[], [], b! "agent", [], [], [], [], []⟩

/-- The agent is with peer 1 now, and peer 0 still is among the providers: peer 2 asks peer 0, which asks peer 1. -/
def moved : LookupNet :=
  { left with records := fun p => if p = 1 then some agent else none }

example : Ranked (fun _ => moved) id := by
  intro _ _ _ p q _ h2 h3 h4
  simp only [moved, left, List.mem_cons, List.not_mem_nil, or_false, decide_eq_true_eq] at h2 h3 h4
  rcases h2 with rfl | rfl
  · simp only [id]; omega
  · simp at h4

example : run (fun _ => moved) (start 2) 2 = ⟨[(0, []), (2, [1])], .asked 1⟩ ∧
    run (fun _ => moved) (start 2) 5 = ⟨[], .answer (some agent)⟩ := by decide

/-- One peer that is listed and does not have the address any more: it cannot reach itself, the look-up ends. -/
example : run (fun _ => { left with providers := fun _ => [0] }) (start 2) 3 = ⟨[], .answer none⟩ := by decide

end LookupChain

end Verif
