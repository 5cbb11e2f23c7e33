import Mathlib.Data.List.Induction
import Verif.Model.FileMonitor

/-!
# C74: metrics report what happened

Property: the value that is reported for a metric is the one that results from all changes made to the metric
of that name, and no use of a metric crashes the peer. This is a refinement: the specification has one number
per kind and name, and no pointers. It holds if no metric is created twice and none is looked up before it is
created, and only then in general; the peer does neither. The file of metrics can be stopped exactly once, and
only after it was started for writing.
-/

namespace Verif

namespace FileMonitor

/-! ## Specification -/

/-- One number per kind and name; `names` are the names asked for, in order. -/
structure Ideal where
  names : List (MetricKind × Bytes)
  val : MetricKind → Bytes → Int

namespace Ideal

/-- Nothing happened. -/
def init : Ideal := ⟨[], fun _ _ => 0⟩

/-- Change the number of a name. -/
def change (i : Ideal) (h : Nat) (f : Int → Int) : Ideal :=
  match i.names[h]? with
  | some kn => { i with val := fun k n => if (k, n) = kn then f (i.val k n) else i.val k n }
  | none => i

/-- One step. -/
def step (i : Ideal) : Step → Ideal
  | .create k n => { i with names := i.names ++ [(k, n)] }
  | .look k n => { i with names := i.names ++ [(k, n)] }
  | .add h n => i.change h (· + n)
  | .set h n => i.change h fun _ => n

/-- A history. -/
def run (i : Ideal) (steps : List Step) : Ideal := steps.foldl step i

end Ideal

/-- The metrics created by a history. -/
def created (steps : List Step) : List (MetricKind × Bytes) :=
  steps.filterMap fun
    | .create k n => some (k, n)
    | _ => none

/-! ## Proof -/

/-- The metrics `cs` were created. -/
structure Refines (m : FileMonitor) (i : Ideal) (cs : List (MetricKind × Bytes)) : Prop where
  names : m.handles.map (fun h => (h.1, h.2.1)) = i.names
  known : ∀ k n, (∃ r, (m.tables k).get n = some r) ↔ (k, n) ∈ cs
  value : ∀ k n r, (m.tables k).get n = some r → m.values[r]? = some (i.val k n)
  handle : ∀ k n r, (k, n, some r) ∈ m.handles → (m.tables k).get n = some r
  inj : ∀ k n k' n' r, (m.tables k).get n = some r → (m.tables k').get n' = some r → k = k' ∧ n = n'
  fresh : ∀ k n, (k, n) ∉ cs → i.val k n = 0

theorem refines_write {m : FileMonitor} {i : Ideal} {cs : List (MetricKind × Bytes)} (h : Refines m i cs)
    (j : Nat) (f : Int → Int) (hcr : (m.write j f).crashed = false) :
    Refines (m.write j f) (i.change j f) cs := by
  have hnames : i.names[j]? = (m.handles[j]?).map fun h => (h.1, h.2.1) := by
    rw [← h.names, List.getElem?_map]
  unfold write Ideal.change at *
  cases hj : m.handles[j]? with
  | none => rw [hnames, hj]; simpa [hj] using h
  | some kn =>
    obtain ⟨k, n, r⟩ := kn
    cases r with
    | none => simp [hj] at hcr
    | some r =>
      rw [hnames, hj]
      simp only [Option.map_some]
      have hg := h.handle k n r (List.mem_of_getElem? hj)
      have hv := h.value k n r hg
      have hr : r < m.values.length := (List.getElem?_eq_some_iff.1 hv).1
      refine ⟨h.names, h.known, ?_, h.handle, h.inj, ?_⟩
      · intro k' n' r' hg'
        dsimp only at *
        rw [List.getElem?_set]
        by_cases hrr : r = r'
        · subst hrr
          obtain ⟨rfl, rfl⟩ := h.inj _ _ _ _ _ hg' hg
          rw [List.getD_eq_getElem?_getD, hv]
          simp [hr]
        · have : ¬ ((k', n') = (k, n)) := by
            rintro h'
            simp only [Prod.mk.injEq] at h'
            obtain ⟨rfl, rfl⟩ := h'
            rw [hg] at hg'
            exact hrr (by simpa using hg')
          simp only [if_neg hrr, if_neg this]
          exact h.value _ _ _ hg'
      · intro k' n' hn
        dsimp only
        have : ¬ ((k', n') = (k, n)) := by
          rintro h'
          simp only [Prod.mk.injEq] at h'
          obtain ⟨rfl, rfl⟩ := h'
          exact hn ((h.known _ _).1 ⟨r, hg⟩)
        rw [if_neg this]
        exact h.fresh _ _ hn

theorem refines_step {m : FileMonitor} {i : Ideal} {cs : List (MetricKind × Bytes)} (h : Refines m i cs)
    (st : Step) (hal : m.crashed = false) (hcr : (m.step st).crashed = false)
    (hnew : ∀ k n, st = .create k n → (k, n) ∉ cs) :
    Refines (m.step st) (i.step st) (cs ++ created [st]) := by
  unfold step at *
  rw [if_neg (by simp [hal])] at *
  cases st with
  | create k n =>
    have hfresh := hnew k n rfl
    have hnone : (m.tables k).get n = none := by
      cases hg : (m.tables k).get n with
      | none => rfl
      | some r => exact absurd ((h.known _ _).1 ⟨r, hg⟩) hfresh
    have hget : ∀ k' n', (m.setTable k ((m.tables k).set n m.values.length) k').get n' =
        if k' = k ∧ n' = n then some m.values.length else (m.tables k').get n' := by
      intro k' n'
      unfold setTable
      by_cases hk : k' = k
      · subst hk; simp [GoMap.get_set]
      · simp [hk]
    have hlt : ∀ k' n' r, (m.tables k').get n' = some r → r < m.values.length :=
      fun k' n' r hg => (List.getElem?_eq_some_iff.1 (h.value _ _ _ hg)).1
    refine ⟨?_, ?_, ?_, ?_, ?_, ?_⟩
    · simp [Ideal.step, h.names]
    · intro k' n'
      simp only [hget, created, List.filterMap_cons, List.filterMap_nil, List.mem_append, List.mem_singleton,
        Prod.mk.injEq, ← h.known]
      split
      · rename_i hc; simp [hc]
      · rename_i hc; simp [hc]
    · intro k' n' r hg
      rw [hget] at hg
      dsimp only [Ideal.step]
      split at hg
      · rename_i hc
        obtain ⟨rfl, rfl⟩ := hc
        simp only [Option.some.injEq] at hg
        subst hg
        simp [h.fresh _ _ hfresh]
      · rw [List.getElem?_append_left (hlt _ _ _ hg)]
        exact h.value _ _ _ hg
    · intro k' n' r hm
      rw [hget]
      simp only [List.mem_append, List.mem_singleton, Prod.mk.injEq, Option.some.injEq] at hm
      rcases hm with hm | ⟨rfl, rfl, rfl⟩
      · have hg := h.handle _ _ _ hm
        rw [if_neg]
        · exact hg
        · rintro ⟨rfl, rfl⟩; rw [hnone] at hg; simp at hg
      · simp
    · intro k1 n1 k2 n2 r h1 h2
      rw [hget] at h1 h2
      split at h1 <;> split at h2
      · rename_i a b; exact ⟨a.1.trans b.1.symm, a.2.trans b.2.symm⟩
      · have := hlt _ _ _ h2; simp at h1; omega
      · have := hlt _ _ _ h1; simp at h2; omega
      · exact h.inj _ _ _ _ _ h1 h2
    · intro k' n' hn
      simp only [List.mem_append, not_or] at hn
      exact h.fresh _ _ hn.1
  | look k n =>
    refine ⟨by simp [Ideal.step, h.names], by simpa [created] using h.known, h.value, ?_, h.inj,
      by simpa [created, Ideal.step] using h.fresh⟩
    intro k' n' r hm
    simp only [List.mem_append, List.mem_singleton, Prod.mk.injEq] at hm
    rcases hm with hm | ⟨rfl, rfl, hr⟩
    · exact h.handle _ _ _ hm
    · exact hr.symm
  | add j n => simpa [created, Ideal.step] using refines_write h j _ hcr
  | set j n => simpa [created, Ideal.step] using refines_write h j _ hcr

theorem crashed_stays (steps : List Step) (m : FileMonitor) (h : m.crashed = true) : run m steps = m := by
  induction steps with
  | nil => rfl
  | cons st steps ih =>
    have : m.step st = m := by simp [step, h]
    simp only [run, List.foldl_cons, this]
    exact ih

theorem refines_run (steps : List Step) : ∀ (m : FileMonitor) (i : Ideal) (cs : List (MetricKind × Bytes)),
    Refines m i cs → m.crashed = false → (run m steps).crashed = false → (cs ++ created steps).Nodup →
    Refines (run m steps) (i.run steps) (cs ++ created steps) := by
  induction steps with
  | nil => intro m i cs h _ _ _; simpa [created, run, Ideal.run] using h
  | cons st steps ih =>
    intro m i cs h hal hcr hnd
    have hsplit : cs ++ created (st :: steps) = cs ++ created [st] ++ created steps := by
      rw [List.append_assoc]; congr 1
      simp only [created, ← List.filterMap_append]
      rfl
    have hcr1 : (m.step st).crashed = false := by
      cases hc : (m.step st).crashed with
      | false => rfl
      | true =>
        have := crashed_stays steps _ hc
        simp only [run, List.foldl_cons] at hcr this
        rw [this, hc] at hcr; simp at hcr
    rw [hsplit] at hnd ⊢
    refine ih _ _ _ (refines_step h st hal hcr1 ?_) hcr1 hcr hnd
    rintro k n rfl hm
    have := (List.nodup_append.1 (List.nodup_append.1 hnd).1).2.2 (k, n) hm (k, n) (by simp [created])
    exact this rfl

/-- **C74, values, partial.** For every history in which no metric is created twice and nothing crashes: a
metric has a value exactly if it was created, and then it is the number that results from all changes made to
the metric of that name. -/
theorem C74_values_partial (steps : List Step) (hnd : (created steps).Nodup)
    (hcr : (run new steps).crashed = false) (k : MetricKind) (name : Bytes) :
    (run new steps).value k name =
      if (k, name) ∈ created steps then some ((Ideal.init.run steps).val k name) else none := by
  have h := refines_run steps new Ideal.init [] (by
    constructor <;> simp [new, Ideal.init]) rfl hcr (by simpa using hnd)
  simp only [List.nil_append] at h
  unfold value
  split
  · rename_i hm
    obtain ⟨r, hr⟩ := (h.known k name).2 hm
    simp [hr, List.getD_eq_getElem?_getD, h.value _ _ _ hr]
  · rename_i hm
    cases hg : ((run new steps).tables k).get name with
    | none => rfl
    | some r => exact absurd ((h.known _ _).1 ⟨r, hg⟩) hm

/-- **C74, crash.** A step crashes exactly if it changes a metric through a pointer that was obtained for a
name before that metric existed. -/
theorem C74_crash_iff (m : FileMonitor) (hal : m.crashed = false) (st : Step) :
    (m.step st).crashed = true ↔
      ∃ h k name, m.handles[h]? = some (k, name, none) ∧ ((∃ n, st = .add h n) ∨ ∃ n, st = .set h n) := by
  have hw : ∀ (j : Nat) (f : Int → Int), (m.write j f).crashed = true ↔
      ∃ k name, m.handles[j]? = some (k, name, none) := by
    intro j f
    unfold write
    split <;> simp_all
  unfold step
  rw [if_neg (by simp [hal])]
  cases st with
  | create k n => simp [hal]
  | look k n => simp [hal]
  | add j n => simp only [hw]; simp
  | set j n => simp only [hw]; simp

/-- Look-ups of created metrics do not give nil. -/
theorem C74_look (m : FileMonitor) (hal : m.crashed = false) (k : MetricKind) (name : Bytes) :
    (m.step (.look k name)).handles = m.handles ++ [(k, name, (m.tables k).get name)] := by
  simp [step, hal]

/-- A step of the peer after its start: it looks up a metric of its list, or uses a pointer it has. -/
def PeerStep : Step → Prop
  | .create _ _ => False
  | .look k n => (k, n) ∈ peerLooks
  | _ => True

/-- **C74, the peer.** In every history of a peer after its start no use of a metric crashes it, and every
metric has the value that results from all changes of it. -/
theorem C74_peer (steps : List Step) (hp : ∀ st ∈ steps, PeerStep st) :
    (run new (peerMetrics ++ steps)).crashed = false ∧
    ∀ kn ∈ created peerMetrics, (run new (peerMetrics ++ steps)).value kn.1 kn.2 =
      some ((Ideal.init.run (peerMetrics ++ steps)).val kn.1 kn.2) := by
  have hcreated : created (peerMetrics ++ steps) = created peerMetrics := by
    unfold created
    rw [List.filterMap_append]
    have : steps.filterMap (fun | .create k n => some (k, n) | _ => none) =
        ([] : List (MetricKind × Bytes)) := by
      rw [List.filterMap_eq_nil_iff]
      intro st hst
      have := hp st hst
      cases st <;> simp_all [PeerStep]
    rw [this, List.append_nil]
  have hnd : (created peerMetrics).Nodup := by decide +kernel
  have hlooks : ∀ kn ∈ peerLooks, kn ∈ created peerMetrics := by decide +kernel
  -- no nil pointer is ever obtained
  have key : ∀ (steps : List Step) (m : FileMonitor), (∀ st ∈ steps, PeerStep st) →
      m.crashed = false → (∀ kn ∈ created peerMetrics, ∃ r, (m.tables kn.1).get kn.2 = some r) →
      (∀ k n, (k, n, none) ∉ m.handles) → (run m steps).crashed = false := by
    intro steps
    induction steps with
    | nil => intro m _ h _ _; exact h
    | cons st steps ih =>
      intro m hp hal ht hh
      have hps := hp st (by simp)
      have hw : ∀ (j : Nat) (f : Int → Int), (m.write j f).crashed = false ∧
          (m.write j f).tables = m.tables ∧ (m.write j f).handles = m.handles := by
        intro j f
        unfold write
        split
        · exact ⟨hal, rfl, rfl⟩
        · rename_i h; exact absurd (List.mem_of_getElem? h) (hh _ _)
        · exact ⟨hal, rfl, rfl⟩
      have hst : (m.step st).crashed = false ∧ (m.step st).tables = m.tables ∧
          ∀ k n, (k, n, none) ∉ (m.step st).handles := by
        unfold step
        rw [if_neg (by simp [hal])]
        cases st with
        | create k n => exact absurd hps id
        | look k n =>
          refine ⟨hal, rfl, ?_⟩
          intro k' n' hm
          simp only [List.mem_append, List.mem_singleton, Prod.mk.injEq] at hm
          rcases hm with hm | ⟨rfl, rfl, hr⟩
          · exact hh _ _ hm
          · obtain ⟨r, hr'⟩ := ht _ (hlooks _ hps)
            rw [hr'] at hr; simp at hr
        | add j n => obtain ⟨a, b, c⟩ := hw j (· + n); exact ⟨a, b, by dsimp only; rw [c]; exact hh⟩
        | set j n => obtain ⟨a, b, c⟩ := hw j fun _ => n; exact ⟨a, b, by dsimp only; rw [c]; exact hh⟩
      refine ih _ (fun s hs => hp s (by simp [hs])) hst.1 ?_ hst.2.2
      rw [hst.2.1]; exact ht
  have hstart : (run new peerMetrics).crashed = false := by decide +kernel
  have hcr : (run new (peerMetrics ++ steps)).crashed = false := by
    rw [run, List.foldl_append]
    refine key steps _ hp hstart ?_ ?_
    · intro kn hk
      have h := refines_run peerMetrics new Ideal.init [] (by constructor <;> simp [new, Ideal.init]) rfl
        hstart (by simpa using hnd)
      exact (h.known _ _).2 (by simpa using hk)
    · have : ∀ e ∈ (run new peerMetrics).handles, e.2.2 ≠ none := by decide +kernel
      intro k n hm
      exact this _ hm rfl
  refine ⟨hcr, ?_⟩
  intro kn hk
  rw [C74_values_partial _ (by rw [hcreated]; exact hnd) hcr, if_pos (by rw [hcreated]; exact hk)]

/-- **C74, the report.** In whatever order the maps are iterated, the report is made of one line for each gauge
and counter, with its name and value. Histograms are not in it. -/
theorem C74_report (fmtE : Int → Bytes) (ns : Bytes) (m : FileMonitor) (gauges counters : List (Bytes × Nat))
    (hg : gauges.Perm (m.tables .gauge).entries) (hc : counters.Perm (m.tables .counter).entries) :
    ∃ lines : List Bytes, getStats fmtE ns m gauges counters = lines.flatten ∧
      lines.length = (m.tables .gauge).size + (m.tables .counter).size ∧
      (∀ l, l ∈ lines ↔ ∃ k name v, k ≠ .histogram ∧ m.value k name = some v ∧
        l = ns ++ b! "_" ++ name ++ b! " " ++ fmtE v ++ b! "\n") := by
  refine ⟨gauges.map (statLine fmtE ns m) ++ counters.map (statLine fmtE ns m), ?_, ?_, ?_⟩
  · simp [getStats]
  · simp [hg.length_eq, hc.length_eq, GoMap.size]
  · intro l
    have hmem : ∀ (k : MetricKind) (es : List (Bytes × Nat)), es.Perm (m.tables k).entries →
        ((∃ e ∈ es, statLine fmtE ns m e = l) ↔ ∃ name v, m.value k name = some v ∧
          l = ns ++ b! "_" ++ name ++ b! " " ++ fmtE v ++ b! "\n") := by
      intro k es hp
      constructor
      · rintro ⟨⟨name, r⟩, he, rfl⟩
        have := (GoMap.mem_entries_iff _ _ _).1 (hp.mem_iff.1 he)
        exact ⟨name, m.values.getD r 0, by simp [value, this], rfl⟩
      · rintro ⟨name, v, hv, rfl⟩
        simp only [value, Option.map_eq_some_iff] at hv
        obtain ⟨r, hr, rfl⟩ := hv
        exact ⟨(name, r), hp.mem_iff.2 ((GoMap.mem_entries_iff _ _ _).2 hr), rfl⟩
    simp only [List.mem_append, List.mem_map, hmem .gauge gauges hg, hmem .counter counters hc]
    constructor
    · rintro (⟨name, v, h⟩ | ⟨name, v, h⟩)
      · exact ⟨.gauge, name, v, by simp, h⟩
      · exact ⟨.counter, name, v, by simp, h⟩
    · rintro ⟨k, name, v, hk, h⟩
      cases k with
      | gauge => exact .inl ⟨name, v, h⟩
      | counter => exact .inr ⟨name, v, h⟩
      | histogram => exact absurd rfl hk

/-- **C74 is false** of a metric that is created again: changes through the first pointer are lost. -/
theorem C74_counterexample :
    let steps : List Step := [.create .gauge (b! "g"), .create .gauge (b! "g"), .add 0 5]
    (run new steps).crashed = false ∧ (run new steps).value .gauge (b! "g") = some 0 ∧
      (Ideal.init.run steps).val .gauge (b! "g") = 5 := by decide

/-- And a metric that is looked up before it is created crashes the program when it is used. -/
theorem C74_crash_example :
    (run new [.look .counter (b! "c"), .create .counter (b! "c"), .add 0 1]).crashed = true := by decide

example : (run new (peerMetrics ++ [.look .gauge (b! "op_route_count"), .add 11 1, .add 11 1, .add 11 (-1)])).value
    .gauge (b! "op_route_count") = some 1 := by decide +kernel

end FileMonitor

namespace MonitorFile

/-- **C74, the file.** For every order of calls: a call of `Stop` crashes exactly if there was no call of
`Start` before it that writes, or another call of `Stop` after that. -/
theorem C74_stop_iff (write : Bool) (steps : List Step)
    (hal : (run (new write) steps).crashed = false) :
    ((run (new write) steps).step .stop).crashed = true ↔
      ¬ (write = true ∧ .start ∈ steps ∧ .stop ∉ steps) := by
  have key : ∀ (steps : List Step) (m : MonitorFile), m.crashed = false → (run m steps).crashed = false →
      (run m steps).write = m.write ∧
      (m.closing = none → (run m steps).closing =
        if m.write = true ∧ .start ∈ steps then some (decide (.stop ∈ steps)) else none) ∧
      (m.closing = some false → (run m steps).closing = some (decide (.stop ∈ steps))) ∧
      (m.closing = some true → (run m steps).closing = some true ∧ .stop ∉ steps) := by
    intro steps
    induction steps with
    | nil => intro m _ _; simp [run]
    | cons st steps ih =>
      intro m hal hcr
      have hst : (m.step st).crashed = false := by
        cases hc : (m.step st).crashed with
        | false => rfl
        | true =>
          have : ∀ (l : List Step) (m : MonitorFile), m.crashed = true → (run m l).crashed = true := by
            intro l
            induction l with
            | nil => exact fun m h => h
            | cons s l ih' => exact fun m h => ih' _ (by simp [step, h])
          have := this steps _ hc
          simp only [run, List.foldl_cons] at hcr this
          rw [this] at hcr; simp at hcr
      have h := ih (m.step st) hst hcr
      have hrun : run m (st :: steps) = run (m.step st) steps := rfl
      rw [hrun]
      clear hrun hcr ih
      generalize run (m.step st) steps = m' at *
      obtain ⟨w, cl, lo, cr⟩ := m
      simp only at hal
      subst hal
      cases st with
      | start => cases w <;> rcases cl with _ | _ | _ <;> simp_all [step]
      | round => cases w <;> rcases cl with _ | _ | _ <;> simp_all [step]
      | stop => cases w <;> rcases cl with _ | _ | _ <;> simp_all [step]
  obtain ⟨_, h, _, _⟩ := key steps (new write) rfl hal
  have h := h rfl
  unfold step
  rw [if_neg (by simp [hal])]
  dsimp only
  rw [h]
  simp only [new]
  by_cases hw : write = true ∧ Step.start ∈ steps
  · by_cases hs : Step.stop ∈ steps
    · simp [hw.1, hw.2, hs]
    · simpa [hw.1, hw.2, hs, new] using hal
  · simp only [hw, if_false]
    simp only [true_iff]
    exact fun h' => hw ⟨h'.1, h'.2.1⟩

/-- A loop has seen that it is to stop. -/
def Seen (steps : List Step) : Prop := ∃ before after, steps = before ++ .stop :: after ∧ .round ∈ after

/-- **C74, one loop.** For every order of calls that does not crash, there is at most one loop that writes the file: it
is there from the first call of `Start`, if there is something to write to, until it has seen the call of `Stop`. -/
theorem C74_one_loop (write : Bool) (steps : List Step) (hal : (run (new write) steps).crashed = false) :
    ((run (new write) steps).loops = 1 ↔ write = true ∧ .start ∈ steps ∧ ¬ Seen steps) ∧
    (run (new write) steps).loops ≤ 1 := by
  have key : ∀ steps : List Step, (run (new write) steps).crashed = false →
      (run (new write) steps).write = write ∧
      (run (new write) steps).closing =
        (if write = true ∧ .start ∈ steps then some (decide (.stop ∈ steps)) else none) ∧
      (.stop ∈ steps → write = true ∧ .start ∈ steps) ∧
      ((run (new write) steps).loops = 1 ↔ write = true ∧ .start ∈ steps ∧ ¬ Seen steps) ∧
      (run (new write) steps).loops ≤ 1 := by
    intro steps
    induction steps using List.reverseRecOn with
    | nil => intro _; simp [run, new]
    | append_singleton steps st ih =>
      intro hcr
      have hrun : run (new write) (steps ++ [st]) = (run (new write) steps).step st := by simp [run]
      rw [hrun] at hcr ⊢
      have hal : (run (new write) steps).crashed = false := by
        cases hc : (run (new write) steps).crashed with
        | false => rfl
        | true => simp [step, hc] at hcr
      obtain ⟨h1, h2, h3, h4, h5⟩ := ih hal
      have hseen : Seen (steps ++ [st]) ↔ Seen steps ∨ (st = .round ∧ .stop ∈ steps) := by
        constructor
        · rintro ⟨b, a, he, hm⟩
          rcases List.eq_nil_or_concat a with rfl | ⟨a', x, rfl⟩
          · simp at hm
          · rw [List.concat_eq_append, ← List.cons_append, ← List.append_assoc] at he
            obtain ⟨h6, h7⟩ := List.append_inj' he rfl
            simp only [List.cons.injEq, and_true] at h7
            subst h7
            rw [List.concat_eq_append, List.mem_append, List.mem_singleton] at hm
            rcases hm with hm | hm
            · exact .inl ⟨b, a', h6, hm⟩
            · exact .inr ⟨hm.symm, by rw [h6]; simp⟩
        · rintro (⟨b, a, rfl, hm⟩ | ⟨rfl, hm⟩)
          · exact ⟨b, a ++ [st], by simp, by simp [hm]⟩
          · obtain ⟨b, a, rfl⟩ := List.append_of_mem hm
            exact ⟨b, a ++ [.round], by simp, by simp⟩
      rw [hseen]
      have hns : Seen steps → .stop ∈ steps := by
        rintro ⟨b, a, rfl, -⟩
        simp
      generalize run (new write) steps = m at *
      obtain ⟨w, cl, lo, cr⟩ := m
      simp only at hal h1 h2 h4 h5
      subst hal h1 h2
      by_cases hx : w = true ∧ .start ∈ steps
      · obtain ⟨rfl, hy⟩ := hx
        by_cases hs : Step.stop ∈ steps
        · cases st <;> simp_all [step]
        · have : ¬ Seen steps := fun h => hs (hns h)
          cases st <;> simp_all [step]
      · have hs : Step.stop ∉ steps := fun h => hx (h3 h)
        have : ¬ Seen steps := fun h => hs (hns h)
        have h0 : lo ≠ 1 := fun h => hx ⟨(h4.1 h).1, (h4.1 h).2.1⟩
        have h0 : lo = 0 := by omega
        subst h0
        cases w <;> cases st <;> simp_all [step]
  obtain ⟨-, -, -, h⟩ := key steps hal
  exact h

example : (run (new true) [.start, .round, .stop, .round]) = ⟨true, some true, 0, false⟩ := by decide

/-- The peer creates its monitoring without writing: stopping it would crash. -/
example : (run (new false) [.start, .stop]).crashed = true := by decide

end MonitorFile

end Verif
