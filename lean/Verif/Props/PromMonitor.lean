import Verif.Model.PromMonitor
import Verif.Props.FileMonitor

/-!
# C84: a peer can be monitored with Prometheus

Property: monitoring with Prometheus reports the same numbers as the built-in monitoring and crashes no peer.
True of the one peer of a node; a second one in the same process crashes it.
-/

namespace Verif

namespace PromProcess

/-- The steps of the built-in monitoring that correspond to those of service `s`. -/
def erase (s : Nat) (ss : List Step) : List FileMonitor.Step :=
  ss.filterMap fun
    | .create t k name _ => if t = s then some (.create k name) else none
    | .use t st =>
      if t = s then
        match st with
        | .create _ _ => none
        | st => some st
      else none
    | _ => none

theorem run_cons (p : PromProcess) (st : Step) (ss : List Step) : p.run (st :: ss) = (p.step st).run ss := rfl

theorem crashed_stays {p : PromProcess} (h : p.crashed = true) (ss : List Step) : p.run ss = p := by
  induction ss with
  | nil => rfl
  | cons st ss ih =>
    have : p.step st = p := by simp [step, h]
    rw [run_cons, this, ih]

/-- The numbers of service `s` change as those of the built-in monitoring. -/
theorem monitor_step {p : PromProcess} {s : Nat} {v : PromService} (hv : p.services[s]? = some v)
    (hal : v.monitor.crashed = false) (st : Step) (hc : (p.step st).crashed = false) :
    ∃ v', (p.step st).services[s]? = some v' ∧ v'.ns = v.ns ∧ v'.monitor.crashed = false ∧
      v'.monitor = FileMonitor.run v.monitor (erase s [st]) := by
  have hp : p.crashed = false := by
    cases h : p.crashed with
    | false => rfl
    | true => simp [step, h] at hc
  have hlt : s < p.services.length := by
    rcases List.getElem?_eq_some_iff.mp hv with ⟨h, -⟩; exact h
  have hset : ∀ (t : Nat) (w : PromService), t ≠ s → (p.services.set t w)[s]? = some v := by
    intro t w ht
    rw [List.getElem?_set_ne ht, hv]
  unfold step at hc ⊢
  rw [if_neg (by simp [hp])] at hc ⊢
  cases st with
  | new ns =>
    refine ⟨v, ?_, rfl, hal, rfl⟩
    dsimp only
    rw [List.getElem?_append_left hlt, hv]
  | create t k name buckets =>
    dsimp only at hc ⊢
    by_cases ht : t = s
    · subst ht
      simp only [hv] at hc ⊢
      split at hc
      · simp at hc
      · next hn =>
        rw [if_neg hn]
        refine ⟨{ v with monitor := v.monitor.step (.create k name) }, ?_, rfl, ?_, ?_⟩
        · simp [setService, List.getElem?_set_self hlt]
        · simp [FileMonitor.step, hal]
        · simp [erase, FileMonitor.run]
    · cases hw : p.services[t]? with
      | none => exact ⟨v, by simpa using hv, rfl, hal, by simp [erase, ht, FileMonitor.run]⟩
      | some w =>
        simp only [hw] at hc ⊢
        split at hc
        · simp at hc
        · next hn =>
          rw [if_neg hn]
          exact ⟨v, by simp only [setService]; exact hset _ _ ht, rfl, hal,
            by simp [erase, ht, FileMonitor.run]⟩
  | use t st =>
    dsimp only at hc ⊢
    by_cases ht : t = s
    · subst ht
      simp only [hv] at hc ⊢
      have go : ∀ st, (∀ k n, st ≠ FileMonitor.Step.create k n) →
          (if badAmount v.monitor st then { p with crashed := true }
          else { p.setService t { v with monitor := v.monitor.step st } with
            crashed := (v.monitor.step st).crashed }).crashed = false →
          ∃ v', (if badAmount v.monitor st then { p with crashed := true }
          else { p.setService t { v with monitor := v.monitor.step st } with
            crashed := (v.monitor.step st).crashed }).services[t]? = some v' ∧ v'.ns = v.ns ∧
            v'.monitor.crashed = false ∧ v'.monitor = FileMonitor.run v.monitor (erase t [.use t st]) := by
        intro st hne hc
        split at hc
        · simp at hc
        · next hb =>
          rw [if_neg hb]
          refine ⟨{ v with monitor := v.monitor.step st }, ?_, rfl, hc, ?_⟩
          · simp [setService, List.getElem?_set_self hlt]
          · cases st with
            | create k n => exact absurd rfl (hne k n)
            | _ => simp [erase, FileMonitor.run]
      cases st with
      | create k n => exact ⟨v, by simpa using hv, rfl, hal, by simp [erase, FileMonitor.run]⟩
      | look k n => exact go _ (by simp) hc
      | add h n => exact go _ (by simp) hc
      | set h n => exact go _ (by simp) hc
    · have he : erase s [.use t st] = [] := by simp [erase, ht]
      rw [he]
      cases hw : p.services[t]? with
      | none => exact ⟨v, by simpa using hv, rfl, hal, rfl⟩
      | some w =>
        simp only [hw] at hc ⊢
        have go : ∀ st, (if badAmount w.monitor st then { p with crashed := true }
          else { p.setService t { w with monitor := w.monitor.step st } with
            crashed := (w.monitor.step st).crashed }).crashed = false →
          (if badAmount w.monitor st then { p with crashed := true }
          else { p.setService t { w with monitor := w.monitor.step st } with
            crashed := (w.monitor.step st).crashed }).services[s]? = some v := by
          intro st hc
          split at hc
          · simp at hc
          · next hb => rw [if_neg hb]; simp only [setService]; exact hset _ _ ht
        cases st with
        | create k n => exact ⟨v, by simpa using hv, rfl, hal, rfl⟩
        | look k n => exact ⟨v, go _ hc, rfl, hal, rfl⟩
        | add h n => exact ⟨v, go _ hc, rfl, hal, rfl⟩
        | set h n => exact ⟨v, go _ hc, rfl, hal, rfl⟩
  | start t =>
    refine ⟨v, ?_, rfl, hal, rfl⟩
    dsimp only
    split
    · exact hv
    · split <;> exact hv
  | goOn i =>
    dsimp only at hc ⊢
    cases hi : p.starts[i]? with
    | none => exact ⟨v, by simpa using hv, rfl, hal, rfl⟩
    | some x =>
      obtain ⟨t, pc⟩ := x
      simp only [hi] at hc ⊢
      cases pc with
      | checked =>
        dsimp only at hc ⊢
        split <;> exact ⟨v, hv, rfl, hal, rfl⟩
      | handled =>
        dsimp only at hc ⊢
        cases hw : p.services[t]? with
        | none => exact ⟨v, by simpa using hv, rfl, hal, rfl⟩
        | some w =>
          simp only [hw] at hc ⊢
          by_cases ht : t = s
          · subst ht
            rw [hv] at hw
            cases hw
            exact ⟨{ v with running := true }, by simp [setService, List.getElem?_set_self hlt], rfl, hal, rfl⟩
          · exact ⟨v, by simp only [setService]; exact hset _ _ ht, rfl, hal, rfl⟩
      | served => exact ⟨v, hv, rfl, hal, rfl⟩

theorem erase_cons (s : Nat) (st : Step) (ss : List Step) : erase s (st :: ss) = erase s [st] ++ erase s ss := by
  unfold erase
  rw [← List.filterMap_append]
  rfl

theorem monitor_run {p : PromProcess} {s : Nat} {v : PromService} (hv : p.services[s]? = some v)
    (hal : v.monitor.crashed = false) (ss : List Step) (hc : (p.run ss).crashed = false) :
    ∃ v', (p.run ss).services[s]? = some v' ∧ v'.ns = v.ns ∧ v'.monitor.crashed = false ∧
      v'.monitor = FileMonitor.run v.monitor (erase s ss) := by
  induction ss generalizing p v with
  | nil => exact ⟨v, hv, rfl, hal, rfl⟩
  | cons st ss ih =>
    rw [run_cons] at hc ⊢
    have hc1 : (p.step st).crashed = false := by
      cases h : (p.step st).crashed with
      | false => rfl
      | true => rw [crashed_stays h, h] at hc; cases hc
    obtain ⟨v1, h1, h2, h3, h4⟩ := monitor_step hv hal st hc1
    obtain ⟨v2, g1, g2, g3, g4⟩ := ih h1 h3 hc
    refine ⟨v2, g1, g2.trans h2, g3, ?_⟩
    rw [g4, h4, erase_cons s st ss, FileMonitor.run, FileMonitor.run, FileMonitor.run, List.foldl_append]

end PromProcess

open PromProcess

/-- As long as nothing crashes, the numbers of a service are those that the built-in monitoring has after the
same calls, whatever the other services of the process do. -/
theorem C84_same_numbers (p : PromProcess) (ns : Bytes) (ss : List PromProcess.Step)
    (hc : ((p.step (.new ns)).run ss).crashed = false) :
    ∃ v, ((p.step (.new ns)).run ss).services[p.services.length]? = some v ∧ v.ns = ns ∧
      ∀ k name, v.monitor.value k name =
        (FileMonitor.run .new (erase p.services.length ss)).value k name := by
  have hp : p.crashed = false := by
    cases h : p.crashed with
    | false => rfl
    | true =>
      have h1 : p.step (.new ns) = p := by simp [PromProcess.step, h]
      rw [h1, crashed_stays h, h] at hc
      cases hc
  have hv : (p.step (.new ns)).services[p.services.length]? = some ⟨ns, .new, false⟩ := by
    simp [PromProcess.step, hp]
  obtain ⟨v, h1, h2, -, h4⟩ := monitor_run hv rfl ss hc
  exact ⟨v, h1, h2, fun k name => by rw [h4]⟩

/-- Exactly when making a metric crashes the process. -/
theorem C84_create_iff (p : PromProcess) (hp : p.crashed = false) (s : Nat) (v : PromService)
    (hv : p.services[s]? = some v) (k : MetricKind) (name : Bytes) (buckets : List Int) :
    (p.step (.create s k name buckets)).crashed = true ↔
      validName (fullName v.ns name) = false ∨ fullName v.ns name ∈ p.registry ∨
      (k = .histogram ∧ ¬ buckets.Pairwise (· < ·)) := by
  have hinc : ∀ l : List Int, increasing l = true ↔ l.Pairwise (· < ·) := by
    intro l
    induction l with
    | nil => simp [increasing]
    | cons a l ih =>
      cases l with
      | nil => simp [increasing]
      | cons b l =>
        simp only [increasing, Bool.and_eq_true, decide_eq_true_eq, ih]
        constructor
        · rintro ⟨h1, h2⟩
          refine List.pairwise_cons.mpr ⟨?_, h2⟩
          intro x hx
          rcases List.mem_cons.mp hx with rfl | hx
          · exact h1
          · exact Int.lt_trans h1 ((List.pairwise_cons.mp h2).1 x hx)
        · intro h
          exact ⟨(List.pairwise_cons.mp h).1 b (by simp), (List.pairwise_cons.mp h).2⟩
  have hb : increasing buckets = false ↔ ¬ buckets.Pairwise (· < ·) := by
    rw [← hinc]; simp
  unfold PromProcess.step
  rw [if_neg (by simp [hp])]
  simp only [hv]
  rw [← hb]
  split
  · next h => simp [h]
  · next h => simp [setService, hp, h]

/-- The characters a name of a metric may begin with. -/
def metricFirst : Bytes := b! "abcdefghijklmnopqrstuvwxyzABCDEFGHIJKLMNOPQRSTUVWXYZ_:"

/-- A name of a metric: not empty, of letters, digits, `_` and `:`, and no digit first. -/
def MetricName (n : Bytes) : Prop :=
  ∃ c cs, n = c :: cs ∧ c ∈ metricFirst ∧ ∀ x ∈ cs, x ∈ metricFirst ∨ x ∈ b! "0123456789"

/-- The full name of a metric: with the namespace in front, if there is one. -/
inductive FullName : Bytes → Bytes → Bytes → Prop
  | both (ns name : Bytes) : ns ≠ [] → name ≠ [] → FullName ns name (ns ++ b! "_" ++ name)
  | alone (name : Bytes) : FullName [] name name
  | none (ns : Bytes) : FullName ns [] []

theorem nameStart_iff (c : UInt8) : nameStart c = true ↔ c ∈ metricFirst := by
  have : ∀ i : Fin 256, nameStart (UInt8.ofNat i) = true ↔ UInt8.ofNat i ∈ metricFirst := by decide +kernel
  simpa using this ⟨c.toNat, c.toNat_lt⟩

theorem digit_iff (x : UInt8) : (decide (48 ≤ x) && decide (x ≤ 57)) = true ↔ x ∈ b! "0123456789" := by
  have : ∀ i : Fin 256, (decide (48 ≤ UInt8.ofNat i) && decide (UInt8.ofNat i ≤ 57)) = true ↔
      UInt8.ofNat i ∈ b! "0123456789" := by decide +kernel
  have h := this ⟨x.toNat, x.toNat_lt⟩
  simp only [UInt8.ofNat_toNat] at h
  exact h

theorem validName_iff (n : Bytes) : validName n = true ↔ MetricName n := by
  unfold MetricName validName
  cases n with
  | nil => simp
  | cons c cs =>
    simp only [Bool.and_eq_true, List.all_eq_true, Bool.or_eq_true, nameStart_iff]
    constructor
    · rintro ⟨h1, h2⟩
      exact ⟨c, cs, rfl, h1, fun x hx => (h2 x hx).imp id (fun h => (digit_iff x).1 (by simpa using h))⟩
    · rintro ⟨c', cs', h, h1, h2⟩
      cases h
      exact ⟨h1, fun x hx => (h2 x hx).imp id (fun h => by simpa using (digit_iff x).2 h)⟩

theorem fullName_iff (ns name full : Bytes) : fullName ns name = full ↔ FullName ns name full := by
  unfold fullName
  constructor
  · rintro rfl
    split
    · next h => subst h; exact .none _
    · next h =>
      split
      · next h2 => subst h2; exact .alone _
      · next h2 => exact .both _ _ h2 h
  · intro h
    cases h with
    | both _ _ h1 h2 => simp [h1, h2]
    | alone => split <;> simp_all
    | none => simp

/-- **C84.** Exactly when making a metric crashes the process, in terms of names: it has no right name, its name is
taken, or it is a histogram whose buckets do not go up. -/
theorem C84_create_names (p : PromProcess) (hp : p.crashed = false) (s : Nat) (v : PromService)
    (hv : p.services[s]? = some v) (k : MetricKind) (name : Bytes) (buckets : List Int) (full : Bytes)
    (hf : FullName v.ns name full) :
    ((p.step (.create s k name buckets)).crashed = true ↔
      ¬ MetricName full ∨ full ∈ p.registry ∨ (k = .histogram ∧ ¬ buckets.Pairwise (· < ·))) ∧
    ((p.step (.create s k name buckets)).crashed = false →
      (p.step (.create s k name buckets)).registry = p.registry ++ [full]) := by
  have hfull := (fullName_iff _ _ _).2 hf
  constructor
  · rw [C84_create_iff p hp s v hv, hfull, ← validName_iff]
    simp
  · unfold PromProcess.step
    rw [if_neg (by simp [hp])]
    simp only [hv]
    split
    · simp
    · rw [hfull]; simp

/-- **C84.** What a peer makes: these metrics, under these names, with these buckets. -/
theorem C84_peer_names :
    (PromProcess.init.run (setupPeer 0)).registry =
      [b! "acn_dht_op_latency_store", b! "acn_dht_op_latency_lookup", b! "acn_op_latency_register",
       b! "acn_op_latency_route", b! "acn_op_route_count", b! "acn_op_route_count_all",
       b! "acn_op_route_count_success", b! "acn_service_delegate_clients_count",
       b! "acn_service_delegate_clients_count_all", b! "acn_service_relay_clients_count",
       b! "acn_service_relay_clients_count_all"] ∧
    ∀ st ∈ setupPeer 0, ∀ s k name buckets, st = .create s k name buckets →
      s = 0 ∧ buckets = [100, 500, 1000, 10000, 100000, 500000, 1000000] := by
  refine ⟨by decide +kernel, ?_⟩
  intro st hst s k name buckets h
  subst h
  simp [setupPeer, createPeerMetrics, FileMonitor.peerMetrics] at hst
  simp [peerBuckets] at hst
  tauto

/-- The steps of a node with one peer after its start: the peer looks up metrics of its list, uses what it has
(counters only go up) and starts the service; there are no other services. -/
def PromPeerStep : PromProcess.Step → Prop
  | .use s st => s = 0 ∧ FileMonitor.PeerStep st ∧ ∀ h n, st = .add h n → 0 ≤ n
  | .goOn _ => True
  | _ => False

namespace PromProcess

/-- What holds of a node with one peer. -/
structure Alone (p : PromProcess) : Prop where
  alive : p.crashed = false
  starts : p.starts.length ≤ 1
  routed : ∀ s, (s, .checked) ∈ p.starts → p.routed = false

theorem alone_step {p : PromProcess} (h : p.Alone) {v : PromService} (hv : p.services[0]? = some v)
    {st : Step} (hst : PromPeerStep st)
    (hm : ∀ st', erase 0 [st] = [st'] → (v.monitor.step st').crashed = false) : (p.step st).Alone := by
  obtain ⟨ha, hl, hr⟩ := h
  unfold step
  rw [if_neg (by simp [ha])]
  cases st with
  | new ns => cases hst
  | create s k name b => cases hst
  | start s => cases hst
  | use s st =>
    obtain ⟨rfl, hps, hnn⟩ := hst
    simp only [hv]
    have go : ∀ st, (∀ k n, st ≠ FileMonitor.Step.create k n) → (∀ h n, st = .add h n → 0 ≤ n) →
        (v.monitor.step st).crashed = false →
        (if badAmount v.monitor st then { p with crashed := true }
          else { p.setService 0 { v with monitor := v.monitor.step st } with
            crashed := (v.monitor.step st).crashed }).Alone := by
      intro st _ hnn hcr
      have hb : badAmount v.monitor st = false := by
        unfold badAmount
        cases st with
        | add j n =>
          have := hnn j n rfl
          dsimp only
          split
          · simp; omega
          · rfl
        | _ => rfl
      rw [if_neg (by simp [hb])]
      exact ⟨hcr, hl, hr⟩
    cases st with
    | create k n => exact absurd hps id
    | look k n => exact go _ (by simp) hnn (hm _ (by simp [erase]))
    | add j n => exact go _ (by simp) hnn (hm _ (by simp [erase]))
    | set j n => exact go _ (by simp) hnn (hm _ (by simp [erase]))
  | goOn i =>
    dsimp only
    cases hi : p.starts[i]? with
    | none => exact ⟨ha, hl, hr⟩
    | some x =>
      obtain ⟨t, pc⟩ := x
      have h0 : p.starts = [(t, pc)] ∧ i = 0 := by
        have hlt : i < p.starts.length := (List.getElem?_eq_some_iff.mp hi).1
        have hi0 : i = 0 := by omega
        subst hi0
        cases hs : p.starts with
        | nil => rw [hs] at hi; simp at hi
        | cons a l =>
          rw [hs] at hi hl
          simp at hi
          subst hi
          have : l = [] := by
            cases l with
            | nil => rfl
            | cons b l => simp at hl
          rw [this]; exact ⟨rfl, rfl⟩
      obtain ⟨hs, rfl⟩ := h0
      cases pc with
      | checked =>
        have := hr t (by rw [hs]; simp)
        simp only [this]
        refine ⟨ha, by simp [hs], ?_⟩
        intro s hm'
        simp [hs] at hm'
      | handled =>
        dsimp only
        cases p.services[t]? with
        | none => exact ⟨ha, hl, hr⟩
        | some w =>
          refine ⟨ha, by simp [hs], ?_⟩
          intro s hm'
          simp [hs] at hm'
      | served => exact ⟨ha, hl, hr⟩

end PromProcess

/-- A node with one peer that is monitored with Prometheus: the start of monitoring and any use of the metrics
go without a crash, and every metric has the value that results from all changes of it. -/
theorem C84_one_peer (ss : List PromProcess.Step) (hs : ∀ st ∈ ss, PromPeerStep st) :
    (PromProcess.init.run (setupPeer 0 ++ [.start 0] ++ ss)).crashed = false ∧
    ∃ v, (PromProcess.init.run (setupPeer 0 ++ [.start 0] ++ ss)).services[0]? = some v ∧
      ∀ kn ∈ FileMonitor.created FileMonitor.peerMetrics, v.monitor.value kn.1 kn.2 =
        some ((FileMonitor.Ideal.init.run (FileMonitor.peerMetrics ++ erase 0 ss)).val kn.1 kn.2) := by
  have herase : erase 0 (createPeerMetrics 0 ++ [.start 0]) = FileMonitor.peerMetrics := by decide +kernel
  have hstart : (PromProcess.init.run (setupPeer 0 ++ [.start 0])).Alone := by
    refine ⟨by decide +kernel, by decide +kernel, ?_⟩
    intro s _
    decide +kernel
  have hp : ∀ st ∈ erase 0 ss, FileMonitor.PeerStep st := by
    intro st hst
    unfold erase at hst
    rw [List.mem_filterMap] at hst
    obtain ⟨x, hx, he⟩ := hst
    have hxs := hs x hx
    cases x with
    | new ns => cases hxs
    | create s k name b => cases hxs
    | start s => cases hxs
    | goOn i => simp at he
    | use s y =>
      obtain ⟨rfl, h1, -⟩ := hxs
      cases y with
      | create k n => simp at he
      | look k n => simp at he; rw [← he]; exact h1
      | add h n => simp at he; rw [← he]; exact h1
      | set h n => simp at he; rw [← he]; exact h1
  have hpeer := FileMonitor.C74_peer (erase 0 ss) hp
  -- the run stays alive
  have key : ∀ (ss : List PromProcess.Step) (p : PromProcess) (v : PromService), (∀ st ∈ ss, PromPeerStep st) →
      p.Alone → p.services[0]? = some v → v.monitor.crashed = false →
      (FileMonitor.run v.monitor (erase 0 ss)).crashed = false → (p.run ss).crashed = false := by
    intro ss
    induction ss with
    | nil => intro p v _ h _ _ _; exact h.alive
    | cons st ss ih =>
      intro p v hs h hv hal hcr
      rw [erase_cons, FileMonitor.run, List.foldl_append] at hcr
      have hcr1 : (FileMonitor.run v.monitor (erase 0 [st])).crashed = false := by
        cases hx : (FileMonitor.run v.monitor (erase 0 [st])).crashed with
        | false => rfl
        | true =>
          have := FileMonitor.crashed_stays (erase 0 ss) _ hx
          unfold FileMonitor.run at this hx
          rw [this, hx] at hcr
          cases hcr
      have h1 : (p.step st).Alone := by
        refine alone_step h hv (hs st (by simp)) ?_
        intro st' he
        rw [he] at hcr1
        exact hcr1
      obtain ⟨v1, g1, -, g3, g4⟩ := monitor_step hv hal st h1.alive
      refine ih (p.step st) v1 (fun x hx => hs x (List.mem_cons_of_mem _ hx)) h1 g1 g3 ?_
      rw [g4]
      exact hcr
  have hrun : PromProcess.init.run (setupPeer 0 ++ [.start 0] ++ ss) =
      (PromProcess.init.run (setupPeer 0 ++ [.start 0])).run ss := by
    rw [PromProcess.run, PromProcess.run, PromProcess.run, List.foldl_append]
  have hrun' : PromProcess.init.run (setupPeer 0 ++ [.start 0] ++ ss) =
      (PromProcess.init.step (.new peerNamespace)).run ((createPeerMetrics 0 ++ [.start 0]) ++ ss) := by
    simp [setupPeer, PromProcess.run]
  have hfull : erase 0 ((createPeerMetrics 0 ++ [.start 0]) ++ ss) = FileMonitor.peerMetrics ++ erase 0 ss := by
    rw [← herase]; unfold erase; rw [List.filterMap_append]
  -- the state after the start
  have hset : (PromProcess.init.step (.new peerNamespace)).services[0]? =
      some ⟨peerNamespace, .new, false⟩ := rfl
  have hrun0 : PromProcess.init.run (setupPeer 0 ++ [.start 0]) =
      (PromProcess.init.step (.new peerNamespace)).run (createPeerMetrics 0 ++ [.start 0]) := by
    simp [setupPeer, PromProcess.run]
  obtain ⟨v, h1, -, h3, h4⟩ := monitor_run hset rfl (createPeerMetrics 0 ++ [.start 0])
    (by rw [← hrun0]; exact hstart.alive)
  rw [← hrun0] at h1
  have halive : (PromProcess.init.run (setupPeer 0 ++ [.start 0] ++ ss)).crashed = false := by
    rw [hrun]
    refine key ss _ v hs hstart h1 h3 ?_
    rw [h4, herase]
    have := hpeer.1
    rw [FileMonitor.run, List.foldl_append] at this
    exact this
  refine ⟨halive, ?_⟩
  rw [hrun'] at halive ⊢
  obtain ⟨w, g1, -, g3⟩ := C84_same_numbers PromProcess.init peerNamespace _ halive
  refine ⟨w, g1, ?_⟩
  intro kn hk
  rw [g3, ← hpeer.2 kn hk]
  show (FileMonitor.run .new (erase 0 ((createPeerMetrics 0 ++ [.start 0]) ++ ss))).value _ _ = _
  rw [hfull]

/-- The full names of the metrics of a peer. -/
def peerNames : List (MetricKind × Bytes) :=
  (FileMonitor.created FileMonitor.peerMetrics).map fun kn => (kn.1, fullName peerNamespace kn.2)

/-- The page can be made: no name is the name of a histogram with one of the endings that the parts of a
histogram have. -/
theorem C84_page : ∀ h ∈ peerNames, h.1 = .histogram → ∀ m ∈ peerNames,
    m.2 ≠ h.2 ++ b! "_count" ∧ m.2 ≠ h.2 ++ b! "_sum" ∧ m.2 ≠ h.2 ++ b! "_bucket" := by decide +kernel

namespace PromProcess

theorem registry_step {p : PromProcess} {n : Bytes} (h : n ∈ p.registry) (st : Step) : n ∈ (p.step st).registry := by
  unfold step
  split
  · exact h
  · cases st with
    | new ns => exact h
    | create s k name b =>
      dsimp only
      split
      · exact h
      · split
        · exact h
        · exact List.mem_append_left _ h
    | use s st =>
      dsimp only
      split
      · exact h
      · split
        · exact h
        · split <;> exact h
    | start s =>
      dsimp only
      split
      · exact h
      · split <;> exact h
    | goOn i =>
      dsimp only
      split
      · split <;> exact h
      · split <;> exact h
      · exact h

theorem registry_run {n : Bytes} (ss : List Step) : ∀ {p : PromProcess}, n ∈ p.registry → n ∈ (p.run ss).registry := by
  induction ss with
  | nil => exact fun h => h
  | cons st ss ih => exact fun h => ih (registry_step h st)

theorem run_append (p : PromProcess) (a b : List Step) : p.run (a ++ b) = (p.run a).run b := by
  rw [run, run, run, List.foldl_append]

end PromProcess

/-- A second peer in the same process crashes it, whatever the process did since the first one was set up and
whatever it did before. -/
theorem C84_second_peer (p : PromProcess) (mid ss : List PromProcess.Step) :
    let q := (p.run (setupPeer p.services.length)).run mid
    (q.run (setupPeer q.services.length ++ ss)).crashed = true := by
  intro q
  have crash : ∀ (r : PromProcess), r.crashed = true → ∀ ss, (r.run ss).crashed = true := by
    intro r hr ss
    rw [crashed_stays hr, hr]
  by_cases hq : q.crashed = true
  · exact crash q hq _
  have hname : fullName peerNamespace (b! "dht_op_latency_store") ∈ q.registry := by
    refine registry_run mid ?_
    have hset : setupPeer p.services.length = [.new peerNamespace,
        .create p.services.length .histogram (b! "dht_op_latency_store") peerBuckets] ++
        (createPeerMetrics p.services.length).tail := rfl
    have hp : p.crashed = false := by
      cases h : p.crashed with
      | false => rfl
      | true => exact absurd (crash _ (crash p h _) mid) hq
    have h2 : ((p.run [.new peerNamespace,
        .create p.services.length .histogram (b! "dht_op_latency_store") peerBuckets]).crashed) = false := by
      cases h : (p.run [.new peerNamespace,
        .create p.services.length .histogram (b! "dht_op_latency_store") peerBuckets]).crashed with
      | false => rfl
      | true =>
        refine absurd (crash _ ?_ mid) hq
        rw [hset, run_append]
        exact crash _ h _
    rw [hset, run_append]
    refine registry_run _ ?_
    have hs : (p.step (.new peerNamespace)) = { p with services := p.services ++ [⟨peerNamespace, .new, false⟩] } := by
      simp [PromProcess.step, hp]
    rw [run_cons, run_cons, hs] at h2 ⊢
    show _ ∈ (PromProcess.step { p with services := p.services ++ [⟨peerNamespace, .new, false⟩] }
      (.create p.services.length .histogram (b! "dht_op_latency_store") peerBuckets)).registry
    have h2' : (PromProcess.step { p with services := p.services ++ [⟨peerNamespace, .new, false⟩] }
      (.create p.services.length .histogram (b! "dht_op_latency_store") peerBuckets)).crashed = false := h2
    unfold PromProcess.step at h2' ⊢
    rw [if_neg (by simp [hp])] at h2' ⊢
    have hsv : (p.services ++ [(⟨peerNamespace, .new, false⟩ : PromService)])[p.services.length]? =
        some ⟨peerNamespace, .new, false⟩ := by simp
    simp only [hsv] at h2' ⊢
    split at h2'
    · cases h2'
    · next hn =>
      rw [if_neg hn]
      exact List.mem_append_right _ (by simp)
  have hq' : q.crashed = false := by simpa using hq
  have hset : setupPeer q.services.length ++ ss = .new peerNamespace ::
      .create q.services.length .histogram (b! "dht_op_latency_store") peerBuckets ::
      ((createPeerMetrics q.services.length).tail ++ ss) := rfl
  rw [hset, run_cons, run_cons]
  refine crash _ ?_ _
  have hs : (q.step (.new peerNamespace)) = { q with services := q.services ++ [⟨peerNamespace, .new, false⟩] } := by
    simp [PromProcess.step, hq']
  rw [C84_create_iff _ (by rw [hs]; exact hq') q.services.length ⟨peerNamespace, .new, false⟩ (by rw [hs]; simp)]
  refine .inr (.inl ?_)
  rw [hs]
  exact hname

/-- Two peers in one process. -/
theorem C84_counterexample :
    (PromProcess.init.run (setupPeer 0 ++ setupPeer 1)).crashed = true := by decide +kernel

/-- Two services with different namespaces, both started: the path of the page is taken. -/
theorem C84_start_counterexample :
    (PromProcess.init.run [.new (b! "a"), .new (b! "b"), .start 0, .start 1, .goOn 0, .goOn 1]).crashed = true := by
  decide +kernel

/-- One peer: a counter that is looked up and increased twice. -/
example : ((PromProcess.init.run (setupPeer 0 ++ [.start 0] ++
      [.goOn 0, .use 0 (.look .counter (b! "op_route_count_all")), .use 0 (.add 11 1), .use 0 (.add 11 1),
        .goOn 0])).services[0]?.bind fun v => v.monitor.value .counter (b! "op_route_count_all")) = some 2 := by
  decide +kernel

end Verif
