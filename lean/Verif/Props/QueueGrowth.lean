import Verif.Props.PairQueues
import Verif.Lemmas.Tables
import Mathlib.Data.List.Nodup
import Mathlib.Data.List.ProdSigma
import Mathlib.Data.List.Perm.Subperm

/-!
# C108: what a peer keeps for a delegate client is bounded and is given up when the client leaves

Wrong as stated: queues, their goroutines and records are kept for ever, and a client gets as many of them as it names
receivers.

Specification: `kept` counts the envelopes in memory; connections and pairs are counted by lists.
-/

namespace Verif

namespace PairQueues

/-- The envelopes a worker has. -/
def inHand : WorkerPhase → Nat
  | .holding _ _ => 1
  | .busy _ => 1
  | _ => 0

/-- The envelopes in memory: in a channel, or with a worker. -/
def kept (s : PairQueues) : Nat :=
  (s.chans.map List.length).sum + (s.workers.map fun w => inHand w.phase).sum

/-- The connection whose handler takes an envelope in a step. -/
def receiver? : Step → Option Nat
  | .recv h _ => some h
  | _ => none

/-- The pair of the envelope that is taken in a step. -/
def pair? : Step → Option Bytes
  | .recv _ e => some e.pair
  | _ => none

/-- What holds of all states: who made which queue (`made`), and how long queues are. -/
structure Grown (hs : List Nat) (ps : List Bytes) (s : PairQueues) (made : List (Nat × Bytes)) : Prop where
  nodup : made.Nodup
  mem : ∀ x ∈ made, x.1 ∈ hs ∧ x.2 ∈ ps
  workers : s.workers.map (·.pair) = made.map (·.2)
  chans : s.chans.length = s.workers.length
  short : ∀ q ∈ s.chans, q.length ≤ 1000
  table : ∀ x ∈ made, s.table.has x.2 = true
  missing : ∀ h e, s.handlers h = .missing e → h ∈ hs ∧ e.pair ∈ ps ∧ (h, e.pair) ∉ made
  found : ∀ h e, s.handlers h = .found e → s.table.has e.pair = true
  queue : ∀ k, s.table.has k = true → k ∈ s.workers.map (·.pair)
  accepted : ∀ e ∈ s.accepted, s.table.has e.pair = true

theorem has_set {V : Type} (m : GoMap Bytes V) (k a : Bytes) (v : V) :
    (m.set k v).has a = true ↔ a = k ∨ m.has a = true := by
  unfold GoMap.has
  rw [GoMap.get_set]
  split
  · next h => simp [h]
  · next h => simp [h]

theorem setHandler_cases {s : PairQueues} {h h' : Nat} {p q : HandlerPhase} (e : s.setHandler h p h' = q) :
    h' = h ∧ p = q ∨ h' ≠ h ∧ s.handlers h' = q := by
  unfold setHandler at e
  split at e
  · next hh => exact .inl ⟨hh, e⟩
  · next hh => exact .inr ⟨hh, e⟩

theorem set_pairs {ws : List Worker} {i : Nat} {k : Bytes} {p p' : WorkerPhase} (h : ws[i]? = some ⟨k, p⟩) :
    (ws.set i ⟨k, p'⟩).map (·.pair) = ws.map (·.pair) := by
  rw [List.map_set]
  apply List.ext_getElem?
  intro j
  rw [List.getElem?_set]
  split
  · next hij =>
    subst hij
    have hl := (List.getElem?_eq_some_iff.1 h).1
    rw [List.getElem?_map, h]
    simp [hl]
  · rfl

theorem Grown.setWorker {hs : List Nat} {ps : List Bytes} {s : PairQueues} {made : List (Nat × Bytes)}
    (g : Grown hs ps s made) {i : Nat} {k : Bytes} {p p' : WorkerPhase} (h : s.workers[i]? = some ⟨k, p⟩)
    {cs : List (List Envelope)} (hc : cs.length = s.chans.length) (hq : ∀ q ∈ cs, q.length ≤ 1000)
    {rt : List Envelope} :
    Grown hs ps { s with workers := s.workers.set i ⟨k, p'⟩, chans := cs, routed := rt } made where
  nodup := g.nodup
  mem := g.mem
  workers := by rw [set_pairs h]; exact g.workers
  chans := by simp [hc, g.chans]
  short := hq
  table := g.table
  missing := g.missing
  found := g.found
  queue := by
    intro k' hk
    rw [set_pairs h]
    exact g.queue k' hk
  accepted := g.accepted

theorem Grown.step {hs : List Nat} {ps : List Bytes} {s : PairQueues} {made : List (Nat × Bytes)}
    (g : Grown hs ps s made) (st : Step) (h1 : ∀ h, receiver? st = some h → h ∈ hs)
    (h2 : ∀ k, pair? st = some k → k ∈ ps) : ∃ made', Grown hs ps (s.step st) made' := by
  cases st with
  | recv h e =>
    simp only [PairQueues.step]
    split
    · refine ⟨made, g.nodup, g.mem, g.workers, g.chans, g.short, g.table, ?_, ?_, g.queue, g.accepted⟩
      · intro h' e' he
        rcases setHandler_cases he with ⟨rfl, hp⟩ | ⟨-, hp⟩
        · split at hp
          · cases hp
          · next hn =>
            cases hp
            exact ⟨h1 _ rfl, h2 _ rfl, fun hm => hn (g.table _ hm)⟩
        · exact g.missing h' e' hp
      · intro h' e' he
        rcases setHandler_cases he with ⟨rfl, hp⟩ | ⟨-, hp⟩
        · split at hp
          · next hy => cases hp; exact hy
          · cases hp
        · exact g.found h' e' hp
    · exact ⟨made, g⟩
  | create h =>
    simp only [PairQueues.step]
    split
    · next e hh =>
      obtain ⟨m1, m2, m3⟩ := g.missing h e hh
      refine ⟨made ++ [(h, e.pair)], ?_, ?_, ?_, ?_, ?_, ?_, ?_, ?_, ?_, ?_⟩
      · exact List.nodup_append.2 ⟨g.nodup, List.nodup_singleton _, by
          intro a ha b hb hab
          rw [List.mem_singleton] at hb
          exact m3 (hb ▸ hab ▸ ha)⟩
      · intro x hx
        rcases List.mem_append.1 hx with hx | hx
        · exact g.mem x hx
        · rw [List.mem_singleton.1 hx]; exact ⟨m1, m2⟩
      · simp [g.workers]
      · simp [g.chans]
      · intro q hq
        rcases List.mem_append.1 hq with hq | hq
        · exact g.short q hq
        · rw [List.mem_singleton.1 hq]; simp
      · intro x hx
        rw [has_set]
        rcases List.mem_append.1 hx with hx | hx
        · exact .inr (g.table x hx)
        · rw [List.mem_singleton.1 hx]; exact .inl rfl
      · intro h' e' he
        rcases setHandler_cases he with ⟨-, hp⟩ | ⟨hne, hp⟩
        · cases hp
        · obtain ⟨n1, n2, n3⟩ := g.missing h' e' hp
          refine ⟨n1, n2, fun hm => ?_⟩
          rcases List.mem_append.1 hm with hm | hm
          · exact n3 hm
          · rw [List.mem_singleton] at hm
            exact hne (congrArg Prod.fst hm)
      · intro h' e' he
        rw [has_set]
        rcases setHandler_cases he with ⟨-, hp⟩ | ⟨-, hp⟩
        · cases hp; exact .inl rfl
        · exact .inr (g.found h' e' hp)
      · intro k hk
        rw [has_set] at hk
        rw [List.map_append, List.mem_append]
        rcases hk with rfl | hk
        · exact .inr (by simp)
        · exact .inl (g.queue k hk)
      · intro e' he
        rw [has_set]
        exact .inr (g.accepted e' he)
    · exact ⟨made, g⟩
  | put h =>
    simp only [PairQueues.step]
    split
    · next e hh =>
      have hready : ∀ h' (q : HandlerPhase), s.setHandler h .ready h' = q → q ≠ .ready → s.handlers h' = q := by
        intro h' q hq hn
        rcases setHandler_cases hq with ⟨-, hp⟩ | ⟨-, hp⟩
        · exact absurd hp.symm hn
        · exact hp
      split
      · next c hc =>
        split
        · next hlt =>
          refine ⟨made, g.nodup, g.mem, g.workers, by simpa using g.chans, ?_, g.table,
            fun h' e' he => g.missing h' e' (hready _ _ he (by simp)),
            fun h' e' he => g.found h' e' (hready _ _ he (by simp)), g.queue, ?_⟩
          · intro q hq
            rcases List.mem_or_eq_of_mem_set hq with hq | rfl
            · exact g.short q hq
            · simp only [capacity] at hlt
              rw [List.length_append, List.length_singleton]
              omega
          · intro e' he
            rcases List.mem_append.1 he with he | he
            · exact g.accepted e' he
            · rw [List.mem_singleton.1 he]; exact g.found h e hh
        · exact ⟨made, g.nodup, g.mem, g.workers, g.chans, g.short, g.table,
            fun h' e' he => g.missing h' e' (hready _ _ he (by simp)),
            fun h' e' he => g.found h' e' (hready _ _ he (by simp)), g.queue, g.accepted⟩
      · exact ⟨made, g.nodup, g.mem, g.workers, g.chans, g.short, g.table,
          fun h' e' he => g.missing h' e' (hready _ _ he (by simp)),
          fun h' e' he => g.found h' e' (hready _ _ he (by simp)), g.queue, g.accepted⟩
    · exact ⟨made, g⟩
  | start w =>
    simp only [PairQueues.step]
    split
    · next k hw =>
      split
      · exact ⟨made, g.setWorker (rt := s.routed) hw rfl g.short⟩
      · exact ⟨made, g⟩
    · exact ⟨made, g⟩
  | take w =>
    simp only [PairQueues.step]
    split
    · next k c hw =>
      split
      · next e rest hc =>
        refine ⟨made, g.setWorker (rt := s.routed) hw (by simp) ?_⟩
        intro q hq
        rcases List.mem_or_eq_of_mem_set hq with hq | rfl
        · exact g.short q hq
        · have := g.short _ (List.mem_of_getElem? hc)
          rw [List.length_cons] at this
          omega
      · exact ⟨made, g⟩
    · exact ⟨made, g⟩
  | route w =>
    simp only [PairQueues.step]
    split
    · next k c e hw => exact ⟨made, g.setWorker hw rfl g.short⟩
    · exact ⟨made, g⟩
  | finish w =>
    simp only [PairQueues.step]
    split
    · next k c hw => exact ⟨made, g.setWorker (rt := s.routed) hw rfl g.short⟩
    · exact ⟨made, g⟩

theorem grown_run {hs : List Nat} {ps : List Bytes} (steps : List Step)
    (h1 : ∀ st ∈ steps, ∀ h, receiver? st = some h → h ∈ hs)
    (h2 : ∀ st ∈ steps, ∀ k, pair? st = some k → k ∈ ps) :
    ∀ {s : PairQueues} {made : List (Nat × Bytes)}, Grown hs ps s made →
      ∃ made', Grown hs ps (s.run steps) made' := by
  induction steps with
  | nil => exact fun g => ⟨_, g⟩
  | cons st steps ih =>
    intro s made g
    obtain ⟨m', g'⟩ := g.step st (h1 st List.mem_cons_self) (h2 st List.mem_cons_self)
    exact ih (fun x hx => h1 x (List.mem_cons_of_mem _ hx)) (fun x hx => h2 x (List.mem_cons_of_mem _ hx)) g'

theorem grown_init (hs : List Nat) (ps : List Bytes) : Grown hs ps .init [] := by
  constructor <;> simp [init, GoMap.has]

theorem sum_le {α : Type} (l : List α) (f : α → Nat) (n : Nat) (h : ∀ x ∈ l, f x ≤ n) :
    (l.map f).sum ≤ n * l.length := by
  induction l with
  | nil => simp
  | cons x l ih =>
    have h1 := h x List.mem_cons_self
    have h2 := ih fun y hy => h y (List.mem_cons_of_mem _ hy)
    rw [List.map_cons, List.sum_cons, List.length_cons, Nat.mul_succ]
    omega

theorem workers_mono (st : Step) (s : PairQueues) : s.workers.length ≤ (s.step st).workers.length := by
  cases st <;> simp only [PairQueues.step] <;> repeat' split
  all_goals simp

theorem workers_mono_run (steps : List Step) : ∀ s : PairQueues, s.workers.length ≤ (s.run steps).workers.length := by
  induction steps with
  | nil => exact fun s => Nat.le_refl _
  | cons st steps ih => exact fun s => Nat.le_trans (workers_mono st s) (ih _)

end PairQueues

open PairQueues

/-- **C108, partial: queues.** A peer makes at most one queue, with one goroutine, for each connection and each pair of
receiver and sender that it gets on connections. Missing: a bound on the pairs. -/
theorem C108_queues_partial (hs : List Nat) (ps : List Bytes) (steps : List Step)
    (h1 : ∀ h e, Step.recv h e ∈ steps → h ∈ hs) (h2 : ∀ h e, Step.recv h e ∈ steps → e.to ++ e.sender ∈ ps) :
    (run .init steps).chans.length = (run .init steps).workers.length ∧
    (run .init steps).workers.length ≤ hs.length * ps.length := by
  obtain ⟨made, g⟩ := grown_run (hs := hs) (ps := ps) steps
    (by intro st hst h hh
        cases st with
        | recv h' e => simp only [receiver?, Option.some.injEq] at hh; exact hh ▸ h1 _ _ hst
        | _ => cases hh)
    (by intro st hst h hh
        cases st with
        | recv h' e => simp only [pair?, Option.some.injEq] at hh; exact hh ▸ h2 _ _ hst
        | _ => cases hh)
    (grown_init hs ps)
  refine ⟨g.chans, ?_⟩
  have hl : (run .init steps).workers.length = made.length := by
    have := congrArg List.length g.workers
    simpa using this
  rw [hl, ← List.length_product]
  exact (List.subperm_of_subset g.nodup fun x hx => List.mem_product.2 (g.mem x hx)).length_le

/-- **C108, partial: envelopes.** No more than 1001 envelopes wait in memory for each queue. -/
theorem C108_envelopes_partial (steps : List Step) :
    (run .init steps).kept ≤ 1001 * (run .init steps).workers.length := by
  let hs : List Nat := steps.filterMap receiver?
  let ps : List Bytes := steps.filterMap pair?
  obtain ⟨made, g⟩ := grown_run (hs := hs) (ps := ps) steps
    (fun st hst h hh => List.mem_filterMap.2 ⟨st, hst, hh⟩)
    (fun st hst h hh => List.mem_filterMap.2 ⟨st, hst, hh⟩) (grown_init hs ps)
  have h1 := sum_le (run .init steps).chans List.length 1000 g.short
  have h2 := sum_le (run .init steps).workers (fun w => inHand w.phase) 1 (by
    intro w _
    rcases w with ⟨k, ph⟩
    cases ph <;> simp [inHand])
  rw [g.chans] at h1
  unfold kept
  omega

/-- Whoever gets an envelope accepted gets a queue: at least one for each pair. -/
theorem C108_each (steps : List Step) (ps : List Bytes) (hn : ps.Nodup)
    (hp : ∀ k ∈ ps, ∃ e ∈ (run .init steps).accepted, e.to ++ e.sender = k) :
    ps.length ≤ (run .init steps).workers.length := by
  let hs : List Nat := steps.filterMap receiver?
  let qs : List Bytes := steps.filterMap pair?
  obtain ⟨made, g⟩ := grown_run (hs := hs) (ps := qs) steps
    (fun st hst h hh => List.mem_filterMap.2 ⟨st, hst, hh⟩)
    (fun st hst h hh => List.mem_filterMap.2 ⟨st, hst, hh⟩) (grown_init hs qs)
  have hsub : ps ⊆ (run .init steps).workers.map (·.pair) := by
    intro k hk
    obtain ⟨e, he, rfl⟩ := hp k hk
    exact g.queue _ (g.accepted e he)
  have := (List.subperm_of_subset hn hsub).length_le
  simpa using this

namespace PairQueues

/-- One connection sends these envelopes, one after the other. -/
def sendAll (es : List Envelope) : List Step := es.flatMap fun e => [.recv 0 e, .create 0, .put 0]

theorem run_append (s : PairQueues) (a b : List Step) : s.run (a ++ b) = (s.run a).run b := by
  simp [run, List.foldl_append]

/-- What holds while one connection sends envelopes of different pairs and no worker runs. -/
structure Fresh (es : List Envelope) (s : PairQueues) : Prop where
  ready : s.handlers 0 = .ready
  count : s.workers.length = es.length
  table : ∀ k, s.table.has k = true ↔ k ∈ es.map Envelope.pair
  chans : s.chans = es.map fun e => [e]
  accepted : s.accepted = es

theorem fresh_send {es : List Envelope} {s : PairQueues} (f : Fresh es s) (e : Envelope)
    (hne : e.pair ∉ es.map Envelope.pair) :
    Fresh (es ++ [e]) (s.run [.recv 0 e, .create 0, .put 0]) := by
  have hn : s.table.has e.pair = false := by
    rw [Bool.eq_false_iff]; exact fun h => hne ((f.table _).1 h)
  have hl : s.chans.length = es.length := by rw [f.chans]; simp
  have e1 : s.step (.recv 0 e) =
      { s with handlers := s.setHandler 0 (.missing e), received := s.received ++ [e] } := by
    simp [PairQueues.step, f.ready, hn]
  have e3 : (s.run [.recv 0 e, .create 0, .put 0]) =
      { s with
        handlers := fun h' => if h' = 0 then .ready else s.handlers h'
        received := s.received ++ [e]
        table := s.table.set e.pair s.chans.length
        chans := s.chans ++ [[e]]
        workers := s.workers ++ [⟨e.pair, .starting⟩]
        accepted := s.accepted ++ [e] } := by
    show (((s.step (.recv 0 e)).step (.create 0)).step (.put 0)) = _
    rw [e1]
    simp only [PairQueues.step, setHandler, if_pos, GoMap.get_set_self]
    simp [capacity]
    funext h'
    simp only [setHandler]
    split <;> rfl
  rw [e3]
  refine ⟨by simp, by simp [f.count], ?_, by simp [f.chans], by simp [f.accepted]⟩
  intro k
  rw [has_set, f.table]
  simp [or_comm]

theorem fresh_all (es : List Envelope) : ∀ (pre : List Envelope) (s : PairQueues), Fresh pre s →
    ((pre ++ es).map Envelope.pair).Nodup → Fresh (pre ++ es) (s.run (sendAll es)) := by
  induction es with
  | nil => intro pre s f _; rw [List.append_nil]; exact f
  | cons e es ih =>
    intro pre s f hn
    have hstep : Fresh (pre ++ [e]) (s.run [.recv 0 e, .create 0, .put 0]) := by
      refine fresh_send f e fun hm => ?_
      rw [List.map_append, List.nodup_append] at hn
      exact hn.2.2 _ hm _ (by simp) rfl
    have := ih (pre ++ [e]) _ hstep (by simpa using hn)
    rw [show sendAll (e :: es) = [.recv 0 e, .create 0, .put 0] ++ sendAll es from rfl, run_append]
    simpa using this

end PairQueues

/-- **C108 is false: no bound.** One client that sends one envelope to each of any number of receivers makes the peer
start a goroutine for each of them, and there are as many for ever, whatever happens then. -/
theorem C108_queues_counterexample (sender : Bytes) (tos : List Bytes) (hn : tos.Nodup) (after : List Step) :
    tos.length ≤
      (run .init (sendAll (tos.map fun a => ⟨a, sender, [], [], []⟩) ++ after)).workers.length := by
  rw [PairQueues.run_append]
  refine Nat.le_trans ?_ (workers_mono_run after _)
  have f := fresh_all (tos.map fun a => (⟨a, sender, [], [], []⟩ : Envelope)) [] .init
    ⟨rfl, rfl, by simp [init, GoMap.has], rfl, rfl⟩ (by
      rw [List.nil_append, List.map_map]
      exact hn.map fun a b hab => List.append_cancel_right hab)
  rw [f.count]
  simp

/-- **C108 is false: records.** The record of a client that has registered stays in memory, also when it has left. -/
theorem C108_records_counterexample (E : PeerEnv) (s : Tables) (a : Bytes) (h : (s.peer.agentRecords.get a).isSome)
    (steps : List Tables.Step) : ((s.run E steps).peer.agentRecords.get a).isSome := by
  induction steps generalizing s with
  | nil => exact h
  | cons st steps ih =>
    refine ih (s.step E st) ?_
    cases st with
    | delegate c p => simp only [Tables.step]; split <;> exact h
    | delegateRecord c =>
      simp only [Tables.step]
      split
      · exact Tables.isSome_set _ _ _ _ h
      · exact h
    | delegateConn c => simp only [Tables.step]; split <;> exact h
    | delegateFail c => simp only [Tables.step]; split <;> exact h
    | delegateEnd c => simp only [Tables.step]; split <;> exact h
    | relay k rem p => simp only [Tables.step]; split <;> exact h
    | relayRecord k =>
      simp only [Tables.step]
      split
      · exact Tables.isSome_set _ _ _ _ h
      · exact h
    | relayPeer k w =>
      simp only [Tables.step]
      split
      · split <;> exact h
      · exact h
    | mailbox st => exact h
    | route n e =>
      obtain ⟨mb, he, -⟩ := Tables.routeEnvelope_tables s.peer n e
      simp only [Tables.step, he]
      exact h
    | handle n e =>
      obtain ⟨mb, he, -⟩ := Tables.handleAeaEnvelope_tables s.peer n e
      simp only [Tables.step, he]
      exact h

namespace QueueGrowthDemo

/-- Three receivers: three goroutines after three more rounds of one of them. -/
example : (run .init (sendAll ([b! "a", b! "b", b! "c"].map fun a => ⟨a, b! "me", [], [], []⟩) ++
    [.start 1, .take 1, .route 1, .finish 1])).workers.length = 3 := by decide

/-- Two connections with the same pair: two queues, as many as the bound allows. -/
example : (run .init PairDemo.loss).workers.length = [0, 1].length * [b! "bobag"].length := by decide

example : (run .init PairDemo.loss).kept = 1 := by decide

end QueueGrowthDemo

end Verif
