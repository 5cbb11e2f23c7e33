import Verif.Model.Traffic
import Verif.Props.EndToEnd
import Verif.Props.DhtClient

/-!
# Property C130

The network does not multiply envelopes: an envelope that is handed in leads to at most two messages between
nodes and at most two hand-overs, only the node where it was handed in sends it, and after four pieces of
work at most nothing is left to do for it. A message of a stranger is handed over at most once, and never
passed on.
-/

namespace Verif

namespace Traffic

/-! ## Specification -/

/-- What was put into the network during a run, and where. -/
def given : List Step → List (Nat × Task)
  | [] => []
  | .submit p e :: rest => (p, .submit e) :: given rest
  | .stranger p d :: rest => (p, .arrive d) :: given rest
  | .tables _ _ :: rest | .lose _ :: rest | .work _ _ :: rest => given rest

/-- The messages sent because of a cause. -/
def messagesOf (s : Traffic) (k : Nat) : Nat := s.sent.countP fun x => x.1 = k

/-- The hand-overs because of it. -/
def handOversOf (s : Traffic) (k : Nat) : Nat := s.handed.countP fun x => x.1 = k

/-- The work done because of it. -/
def workOf (s : Traffic) (k : Nat) : Nat := s.done.countP fun x => x = k

/-! ## What one call leads to -/

/-- The counts of an outcome. -/
def Within (o : Outcome) (messages slow handed all : Nat) : Prop :=
  o.messages.length ≤ messages ∧ o.slow.length ≤ slow ∧ o.handed ≤ handed ∧
    o.handed + o.messages.length + o.slow.length ≤ all

theorem ofActs_append (a b : List Act) :
    (ofActs (a ++ b)).messages = (ofActs a).messages ++ (ofActs b).messages ∧
    (ofActs (a ++ b)).slow = (ofActs a).slow ++ (ofActs b).slow ∧
    (ofActs (a ++ b)).handed = (ofActs a).handed + (ofActs b).handed := by
  simp [ofActs, List.filterMap_append, List.countP_append]

theorem within_inc {acts : List Act} {m l h a : Nat} (hw : Within (ofActs acts) m l h a) :
    Within (ofActs (.inc :: acts)) m l h a := hw

theorem within_mono {o : Outcome} {m l h a m' l' h' a' : Nat} (hw : Within o m l h a)
    (hm : m ≤ m') (hl : l ≤ l') (hh : h ≤ h') (ha : a ≤ a') : Within o m' l' h' a' := by
  unfold Within at *; omega

theorem stream_outcome (n : Net) (peer : Bytes) (record : Option AgentRecord) (e : Envelope) :
    Within (ofActs (routeWithNewStream n peer record e).1) 1 0 0 1 := by
  obtain ⟨del, hd, _, h⟩ := routeWithNewStream_acts n peer record e
  have : (routeWithNewStream n peer record e).1 = del ∨ (routeWithNewStream n peer record e).1 = del ++ [.dec] := by
    rcases h with h | h | h
    · exact .inl h.2.1
    · exact .inr h.2
    · exact .inr h.2.1
  rcases hd with rfl | ⟨d, _, rfl⟩ <;> rcases this with h | h <;> rw [h] <;> simp [Within, ofActs]

theorem lookup_outcome (s : PeerState) (n : Net) (e : Envelope) :
    Within (ofActs (routeDHTLookup s n e).1) 1 0 0 1 := by
  unfold routeDHTLookup
  split
  · simp [Within, ofActs]
  · split
    · exact stream_outcome ..
    all_goals simp [Within, ofActs]

theorem route_outcome (s : PeerState) (n : Net) (e : Envelope) :
    Within (ofActs (routeEnvelope s n e).2.1) 1 1 1 2 := by
  unfold routeEnvelope
  split
  · simp [Within, ofActs]
  dsimp only
  split
  · simp [Within, ofActs]
  split
  · split
    · split <;> simp [Within, ofActs]
    · simp [Within, ofActs]
  split
  · split <;> simp [Within, ofActs]
  split
  · split
    · simp [Within, ofActs]
    · rename_i peer _
      have := stream_outcome n peer (by assumption) e
      exact within_mono (within_inc this) (by omega) (by omega) (by omega) (by omega)
  · have hl := lookup_outcome (mailboxRoute s e).1 n e
    split
    · rename_i acts heq
      rw [heq] at hl
      dsimp only at hl ⊢
      have h := ofActs_append (.inc :: acts ++ [.dec])
        (if (mailboxRoute s e).1.closing = true then [] else [.slow e])
      have h' := ofActs_append (.inc :: acts) [.dec]
      have hi := within_inc hl
      have hd : ofActs [.dec] = ⟨[], [], 0⟩ := rfl
      have hs : (ofActs (if (mailboxRoute s e).1.closing = true then [] else [.slow e])).messages = [] ∧
          (ofActs (if (mailboxRoute s e).1.closing = true then [] else [.slow e])).slow.length ≤ 1 ∧
          (ofActs (if (mailboxRoute s e).1.closing = true then [] else [.slow e])).handed = 0 := by
        split <;> simp [ofActs]
      simp only [Within] at hi ⊢
      rw [h.1, h.2.1, h.2.2, h'.1, h'.2.1, h'.2.2, hd, hs.1, hs.2.2]
      simp only [List.length_append, List.length_nil]
      omega
    · rename_i acts r _ heq
      rw [heq] at hl
      have hi := within_inc hl
      simp only [Within] at hi ⊢
      omega

theorem handle_outcome (s : PeerState) (n : Net) (e : Envelope) :
    Within (ofActs (handleAeaEnvelope s n e).2.1) 0 0 1 1 := by
  unfold handleAeaEnvelope
  dsimp only
  repeat' split
  all_goals simp [Within, ofActs]

theorem messages_eq (acts : List ClientAct) : (ofClientActs acts).messages = networkDeliveries acts := by
  show acts.filterMap _ = acts.filterMap _
  congr 1
  funext a
  rcases a with _ | ⟨_ | _ | _, _, _⟩ <;> rfl

theorem handed_eq (acts : List ClientAct) : (ofClientActs acts).handed = (agentDeliveries acts).length := by
  unfold ofClientActs agentDeliveries
  induction acts with
  | nil => rfl
  | cons a l ih => cases a <;> simp_all

theorem client_outcome (c : DhtClient) (n : ClientNet) (e : Envelope) :
    Within (ofClientActs (clientRoute c n e).1) 1 0 1 2 := by
  obtain ⟨_, _, ha, hn⟩ := C32_route_partial c n e
  unfold Within
  rw [messages_eq, handed_eq]
  have h1 : (agentDeliveries (clientRoute c n e).1).length ≤ 1 := by rcases ha with h | h <;> simp [h]
  have h2 : (networkDeliveries (clientRoute c n e).1).length ≤ 1 := by
    rcases hn with h | ⟨_, _, _, _, _, _, _, _, h⟩ <;> simp [h]
  have h3 : (ofClientActs (clientRoute c n e).1).slow.length = 0 := rfl
  omega

theorem client_handle_outcome (c : DhtClient) (ok : Bool) (e : Envelope) :
    Within (ofClientActs (clientHandleEnvelope c ok e).1) 0 0 1 1 := by
  unfold clientHandleEnvelope
  split <;> simp [Within, ofClientActs]

/-- What a task is worth. -/
def weight (z y x : Nat) : Task → Nat
  | .submit _ => z
  | .retry _ => y
  | .arrive _ => x

/-- The bounds of a task. -/
theorem perform_outcome (a : Around) (node : TrafficNode) (t : Task) :
    match t with
    | .submit _ => Within (perform a node t) 1 1 1 2
    | .retry _ => Within (perform a node t) 1 0 0 1
    | .arrive _ => Within (perform a node t) 0 0 1 1 := by
  cases t with
  | submit e =>
    cases node with
    | peer s => exact route_outcome ..
    | client c =>
      have := client_outcome c a.client e
      simp only [Within, perform] at this ⊢
      omega
  | retry e =>
    cases node with
    | peer s =>
      simp only [perform, slowAttempt]
      split
      · simp [Within, ofActs]
      · exact lookup_outcome ..
    | client c => simp [Within, perform]
  | arrive d =>
    cases node with
    | peer s =>
      simp only [perform]
      split
      · exact handle_outcome ..
      · simp [Within]
    | client c =>
      simp only [perform]
      split
      · exact client_handle_outcome ..
      · simp [Within]

/-! ## Runs -/

/-- What the work that waits because of a cause is worth. -/
def waiting (f : Task → Nat) (k : Nat) : List Work → Nat
  | [] => 0
  | w :: rest => (if w.cause = k then f w.task else 0) + waiting f k rest

theorem waiting_append (f : Task → Nat) (k : Nat) (a b : List Work) :
    waiting f k (a ++ b) = waiting f k a + waiting f k b := by
  induction a with
  | nil => simp [waiting]
  | cons w a ih => simp only [List.cons_append, waiting, ih]; omega

theorem waiting_erase (f : Task → Nat) (k : Nat) : ∀ (l : List Work) (i : Nat) (w : Work), l[i]? = some w →
    waiting f k (l.eraseIdx i) + (if w.cause = k then f w.task else 0) = waiting f k l
  | [], _, _, h => by simp at h
  | v :: l, 0, w, h => by
    simp at h; subst h
    simp [waiting]; omega
  | v :: l, i + 1, w, h => by
    have := waiting_erase f k l i w (by simpa using h)
    simp only [List.eraseIdx_cons_succ, waiting]
    omega

theorem waiting_erase_le (f : Task → Nat) (k : Nat) (l : List Work) (i : Nat) :
    waiting f k (l.eraseIdx i) ≤ waiting f k l := by
  cases h : l[i]? with
  | none => rw [List.eraseIdx_of_length_le (by simpa using h)]; exact Nat.le_refl _
  | some w => have := waiting_erase f k l i w h; omega

theorem waiting_followUp (z y x k : Nat) (a : Around) (w : Work) (o : Outcome) :
    waiting (weight z y x) k (followUp a w o) =
      if w.cause = k then x * o.messages.length + y * o.slow.length else 0 := by
  unfold followUp
  rw [waiting_append]
  have h1 : waiting (weight z y x) k (o.messages.map fun m => ⟨w.cause, a.nodeOf m.1, .arrive m.2⟩) =
      if w.cause = k then x * o.messages.length else 0 := by
    induction o.messages with
    | nil => simp [waiting]
    | cons m l ih =>
      simp only [List.map_cons, waiting, ih, List.length_cons, weight]
      split <;> simp [Nat.mul_add]; omega
  have h2 : waiting (weight z y x) k (o.slow.map fun e => ⟨w.cause, w.node, .retry e⟩) =
      if w.cause = k then y * o.slow.length else 0 := by
    induction o.slow with
    | nil => simp [waiting]
    | cons m l ih =>
      simp only [List.map_cons, waiting, ih, List.length_cons, weight]
      split <;> simp [Nat.mul_add]; omega
  rw [h1, h2]
  split <;> simp

/-- What a step adds to a count. -/
def spends (out : Outcome → Nat) (s : Traffic) (k : Nat) : Step → Nat
  | .work i a => match s.todo[i]? with
    | some w => if w.cause = k then out (perform a (s.nodes w.node) w.task) else 0
    | none => 0
  | _ => 0

/-- A count keeps within what was given. -/
theorem budget {z y x : Nat} {out : Outcome → Nat}
    (hpay : ∀ a node t, out (perform a node t) + x * (perform a node t).messages.length +
      y * (perform a node t).slow.length ≤ weight z y x t)
    {tally : Traffic → Nat → Nat} (htally : ∀ s st k, tally (step s st) k = tally s k + spends out s k st)
    (k : Nat) : ∀ (steps : List Step) (s : Traffic) (g : List (Nat × Task)), s.causes = g.map (·.1) →
    tally s k + waiting (weight z y x) k s.todo ≤ (g[k]?).elim 0 (fun t => weight z y x t.2) →
    tally (run s steps) k + waiting (weight z y x) k (run s steps).todo ≤
      ((g ++ given steps)[k]?).elim 0 (fun t => weight z y x t.2)
  | [], s, g, _, h => by simpa [run, given] using h
  | st :: rest, s, g, hc, h => by
    have ih := budget hpay htally k rest (step s st)
    have hlen : s.causes.length = g.length := by rw [hc, List.length_map]
    have hold : (g[k]?).elim 0 (fun t => weight z y x t.2) = 0 ∨ k < g.length := by
      by_cases hk : k < g.length
      · exact .inr hk
      · left; rw [List.getElem?_eq_none (by omega)]; rfl
    have hnew : ∀ (p : Nat) (t : Task),
        (g[k]?).elim 0 (fun t => weight z y x t.2) + (if s.causes.length = k then weight z y x t else 0) =
          ((g ++ [(p, t)])[k]?).elim 0 (fun t => weight z y x t.2) := by
      intro p t
      rw [hlen]
      by_cases hk : g.length = k
      · subst hk; simp
      · rw [if_neg hk]
        by_cases hlt : k < g.length
        · rw [List.getElem?_append_left hlt]; rfl
        · rw [List.getElem?_append_right (by omega), List.getElem?_eq_none (by omega),
            List.getElem?_eq_none (by simp; omega)]; rfl
    show tally (run (step s st) rest) k + _ ≤ _
    have ht := htally s st k
    cases st with
    | submit p e =>
      have := ih (g ++ [(p, .submit e)]) (by simp [step, hc]) (by
        rw [ht, ← hnew]
        simp only [spends, step, waiting_append, waiting]
        omega)
      simpa [given, run] using this
    | stranger p d =>
      have := ih (g ++ [(p, .arrive d)]) (by simp [step, hc]) (by
        rw [ht, ← hnew]
        simp only [spends, step, waiting_append, waiting]
        omega)
      simpa [given, run] using this
    | tables p n =>
      exact ih g hc (by rw [ht]; simpa [spends, step] using h)
    | lose i =>
      refine ih g hc ?_
      rw [ht]
      have := waiting_erase_le (weight z y x) k s.todo i
      simp only [spends, step]
      omega
    | work i a =>
      refine ih g ?_ ?_
      · simp only [step]; split <;> exact hc
      · rw [ht]
        simp only [spends, step]
        cases hw : s.todo[i]? with
        | none => simpa using h
        | some w =>
          dsimp only
          have he := waiting_erase (weight z y x) k s.todo i w hw
          have hp := hpay a (s.nodes w.node) w.task
          rw [waiting_append, waiting_followUp]
          by_cases hk : w.cause = k
          · simp only [if_pos hk] at he ⊢
            omega
          · simp only [if_neg hk] at he ⊢
            omega

theorem pays_messages (a : Around) (node : TrafficNode) (t : Task) :
    (perform a node t).messages.length + 0 * (perform a node t).messages.length +
      1 * (perform a node t).slow.length ≤ weight 2 1 0 t := by
  have := perform_outcome a node t
  cases t <;> simp only [Within, weight] at this ⊢ <;> omega

theorem pays_handed (a : Around) (node : TrafficNode) (t : Task) :
    (perform a node t).handed + 1 * (perform a node t).messages.length +
      1 * (perform a node t).slow.length ≤ weight 2 1 1 t := by
  have := perform_outcome a node t
  cases t <;> simp only [Within, weight] at this ⊢ <;> omega

theorem pays_work (a : Around) (node : TrafficNode) (t : Task) :
    1 + 1 * (perform a node t).messages.length + 2 * (perform a node t).slow.length ≤ weight 4 2 1 t := by
  have := perform_outcome a node t
  cases t <;> simp only [Within, weight] at this ⊢ <;> omega

theorem messages_tally (s : Traffic) (st : Step) (k : Nat) :
    messagesOf (step s st) k = messagesOf s k + spends (fun o => o.messages.length) s k st := by
  cases st with
  | work i a =>
    simp only [step, spends]
    cases s.todo[i]? with
    | none => rfl
    | some w =>
      dsimp only [messagesOf]
      rw [List.countP_append, List.countP_map]
      congr 1
      split <;> rename_i h <;> simp [Function.comp_def, h]
  | _ => rfl

theorem handed_tally (s : Traffic) (st : Step) (k : Nat) :
    handOversOf (step s st) k = handOversOf s k + spends (fun o => o.handed) s k st := by
  cases st with
  | work i a =>
    simp only [step, spends]
    cases s.todo[i]? with
    | none => rfl
    | some w =>
      dsimp only [handOversOf]
      rw [List.countP_append, List.countP_replicate]
      simp
  | _ => rfl

theorem work_tally (s : Traffic) (st : Step) (k : Nat) :
    workOf (step s st) k = workOf s k + spends (fun _ => 1) s k st := by
  cases st with
  | work i a =>
    simp only [step, spends]
    cases s.todo[i]? with
    | none => rfl
    | some w =>
      dsimp only [workOf]
      rw [List.countP_append]
      congr 1
      split <;> rename_i h <;> simp [h]
  | _ => rfl

/-- **C130, envelopes of agents**: at most two messages between nodes and two hand-overs, by at most four pieces of
work, however the work is interleaved, the tables change and the network behaves. -/
theorem C130_bounded (nodes : Nat → TrafficNode) (steps : List Step) (k : Nat) :
    messagesOf (run (start nodes) steps) k ≤ 2 ∧ handOversOf (run (start nodes) steps) k ≤ 2 ∧
    workOf (run (start nodes) steps) k ≤ 4 := by
  have lift : ∀ z y x, (((given steps)[k]?).elim 0 fun t => weight z y x t.2) ≤ max z (max y x) := by
    intro z y x
    cases (given steps)[k]? with
    | none => simp
    | some t => obtain ⟨p, t⟩ := t; cases t <;> simp [weight] <;> omega
  have h1 := budget (z := 2) (y := 1) (x := 0) (out := fun o => o.messages.length)
    pays_messages messages_tally k steps (start nodes) [] rfl (by simp [start, messagesOf, waiting])
  have h2 := budget (z := 2) (y := 1) (x := 1) (out := fun o => o.handed)
    pays_handed handed_tally k steps (start nodes) [] rfl (by simp [start, handOversOf, waiting])
  have h3 := budget (z := 4) (y := 2) (x := 1) (out := fun _ => 1)
    pays_work work_tally k steps (start nodes) [] rfl (by simp [start, workOf, waiting])
  rw [List.nil_append] at h1 h2 h3
  have l1 := lift 2 1 0
  have l2 := lift 2 1 1
  have l3 := lift 4 2 1
  simp at l1 l2 l3
  omega

/-- **C130, messages of strangers**: no node passes them on, and they are handed over at most once. -/
theorem C130_stranger (nodes : Nat → TrafficNode) (steps : List Step) {k p : Nat} {d : Bytes}
    (hk : (given steps)[k]? = some (p, .arrive d)) :
    messagesOf (run (start nodes) steps) k = 0 ∧ handOversOf (run (start nodes) steps) k ≤ 1 ∧
    workOf (run (start nodes) steps) k ≤ 1 := by
  have h1 := budget (z := 2) (y := 1) (x := 0) (out := fun o => o.messages.length)
    pays_messages messages_tally k steps (start nodes) [] rfl (by simp [start, messagesOf, waiting])
  have h2 := budget (z := 2) (y := 1) (x := 1) (out := fun o => o.handed)
    pays_handed handed_tally k steps (start nodes) [] rfl (by simp [start, handOversOf, waiting])
  have h3 := budget (z := 4) (y := 2) (x := 1) (out := fun _ => 1)
    pays_work work_tally k steps (start nodes) [] rfl (by simp [start, workOf, waiting])
  rw [List.nil_append, hk] at h1 h2 h3
  simp only [Option.elim_some, weight] at h1 h2 h3
  omega

/-- Nothing happens for what was not put in. -/
theorem C130_nothing_else (nodes : Nat → TrafficNode) (steps : List Step) {k : Nat}
    (hk : (given steps).length ≤ k) :
    messagesOf (run (start nodes) steps) k = 0 ∧ handOversOf (run (start nodes) steps) k = 0 := by
  have h1 := budget (z := 2) (y := 1) (x := 0) (out := fun o => o.messages.length)
    pays_messages messages_tally k steps (start nodes) [] rfl (by simp [start, messagesOf, waiting])
  have h2 := budget (z := 2) (y := 1) (x := 1) (out := fun o => o.handed)
    pays_handed handed_tally k steps (start nodes) [] rfl (by simp [start, handOversOf, waiting])
  rw [List.nil_append, List.getElem?_eq_none hk] at h1 h2
  simp only [Option.elim_none] at h1 h2
  omega

/-! ## The network comes to rest -/

/-- What all the work that waits is worth. -/
def total : List Work → Nat
  | [] => 0
  | w :: rest => weight 4 2 1 w.task + total rest

theorem total_append (a b : List Work) : total (a ++ b) = total a + total b := by
  induction a with
  | nil => simp [total]
  | cons w a ih => simp only [List.cons_append, total, ih]; omega

theorem total_erase : ∀ (l : List Work) (i : Nat) (w : Work), l[i]? = some w →
    total (l.eraseIdx i) + weight 4 2 1 w.task = total l
  | [], _, _, h => by simp at h
  | v :: l, 0, w, h => by
    simp at h; subst h
    simp [total]; omega
  | v :: l, i + 1, w, h => by
    have := total_erase l i w (by simpa using h)
    simp only [List.eraseIdx_cons_succ, total]
    omega

theorem total_followUp (a : Around) (w : Work) (o : Outcome) :
    total (followUp a w o) = o.messages.length + 2 * o.slow.length := by
  unfold followUp
  rw [total_append]
  congr 1
  · induction o.messages with
    | nil => rfl
    | cons m l ih => simp only [List.map_cons, total, ih, List.length_cons, weight]; omega
  · induction o.slow with
    | nil => rfl
    | cons m l ih => simp only [List.map_cons, total, ih, List.length_cons, weight]; omega

/-- **C130, rest**: all in all at most four pieces of work are done for everything that is put in; so if nothing new
comes, the network is at rest after that many, however they are chosen. -/
theorem C130_rest : ∀ (steps : List Step) (s : Traffic),
    (run s steps).done.length + total (run s steps).todo ≤
      s.done.length + total s.todo + 4 * (given steps).length
  | [], s => by simp [run, given]
  | st :: rest, s => by
    have ih := C130_rest rest (step s st)
    show (run (step s st) rest).done.length + total (run (step s st) rest).todo ≤ _
    refine Nat.le_trans ih ?_
    cases st with
    | submit p e => simp only [step, given, total_append, total, weight, List.length_cons]; omega
    | stranger p d => simp only [step, given, total_append, total, weight, List.length_cons]; omega
    | tables p n => exact Nat.le_refl _
    | lose i =>
      simp only [step, given]
      cases hw : s.todo[i]? with
      | none => rw [List.eraseIdx_of_length_le (by simpa using hw)]; exact Nat.le_refl _
      | some w => have := total_erase s.todo i w hw; omega
    | work i a =>
      simp only [step, given]
      cases hw : s.todo[i]? with
      | none => exact Nat.le_refl _
      | some w =>
        have he := total_erase s.todo i w hw
        have hp := pays_work a (s.nodes w.node) w.task
        simp only [total_append, total_followUp, List.length_append, List.length_cons, List.length_nil]
        omega

/-! ## Who sends -/

/-- Messages are sent, and envelopes tried again, only where the envelope was handed in. -/
structure AtHome (s : Traffic) : Prop where
  todo : ∀ w ∈ s.todo, (∀ d, w.task ≠ .arrive d) → s.causes[w.cause]? = some w.node
  sent : ∀ k p d, (k, p, d) ∈ s.sent → s.causes[k]? = some p

theorem atHome_step {s : Traffic} (h : AtHome s) (st : Step) : AtHome (step s st) := by
  have grow : ∀ {k p q : Nat}, s.causes[k]? = some p → (s.causes ++ [q])[k]? = some p := by
    intro k p q hk
    obtain ⟨hlt, _⟩ := List.getElem?_eq_some_iff.1 hk
    rw [List.getElem?_append_left hlt]; exact hk
  cases st with
  | submit p e =>
    refine ⟨fun w hw hn => ?_, fun k q d hx => grow (h.sent k q d hx)⟩
    simp only [step, List.mem_append, List.mem_singleton] at hw ⊢
    rcases hw with hw | rfl
    · exact grow (h.todo w hw hn)
    · simp
  | stranger p d =>
    refine ⟨fun w hw hn => ?_, fun k q d hx => grow (h.sent k q d hx)⟩
    simp only [step, List.mem_append, List.mem_singleton] at hw ⊢
    rcases hw with hw | rfl
    · exact grow (h.todo w hw hn)
    · exact absurd rfl (hn d)
  | tables p n => exact ⟨h.todo, h.sent⟩
  | lose i => exact ⟨fun w hw => h.todo w (List.mem_of_mem_eraseIdx hw), h.sent⟩
  | work i a =>
    simp only [step]
    cases hw : s.todo[i]? with
    | none => exact h
    | some w =>
      have hm : w ∈ s.todo := List.mem_of_getElem? hw
      have ho := perform_outcome a (s.nodes w.node) w.task
      constructor
      · intro v hv hn
        simp only [List.mem_append, followUp, List.mem_map] at hv
        rcases hv with hv | ⟨m, _, rfl⟩ | ⟨e, he, rfl⟩
        · exact h.todo v (List.mem_of_mem_eraseIdx hv) hn
        · exact absurd rfl (hn m.2)
        · refine h.todo w hm fun d hd => ?_
          rw [hd] at ho he
          have := List.length_pos_of_mem he
          have := ho.2.1
          omega
      · intro k p d hx
        simp only [List.mem_append, List.mem_map] at hx
        rcases hx with hx | ⟨m, hmm, hx⟩
        · exact h.sent k p d hx
        · cases hx
          refine h.todo w hm fun d hd => ?_
          rw [hd] at ho hmm
          have := List.length_pos_of_mem hmm
          have := ho.1
          omega

theorem atHome_run : ∀ {steps : List Step} {s : Traffic}, AtHome s → AtHome (run s steps)
  | [], _, h => h
  | st :: rest, s, h => atHome_run (steps := rest) (s := step s st) (atHome_step h st)

theorem causes_run : ∀ (steps : List Step) (s : Traffic), (run s steps).causes = s.causes ++ (given steps).map (·.1)
  | [], s => by simp [run, given]
  | st :: rest, s => by
    have ih := causes_run rest (step s st)
    show (run (step s st) rest).causes = _
    rw [ih]
    cases st with
    | work i a => simp only [step, given]; split <;> rfl
    | _ => simp [step, given]

/-- **C130, one way**: a message is sent by the node where the envelope was handed in and by nobody else: nodes do not
pass on to others what they get from others, and nothing goes in circles. -/
theorem C130_one_way (nodes : Nat → TrafficNode) (steps : List Step) {k p : Nat} {d : Bytes}
    (h : (k, p, d) ∈ (run (start nodes) steps).sent) :
    ∃ e, (given steps)[k]? = some (p, .submit e) := by
  have hh := (atHome_run (steps := steps) (s := start nodes) ⟨by simp [start], by simp [start]⟩).sent k p d h
  rw [causes_run] at hh
  simp only [start, List.nil_append, List.getElem?_map] at hh
  cases hg : (given steps)[k]? with
  | none => rw [hg] at hh; simp at hh
  | some t =>
    obtain ⟨q, t⟩ := t
    rw [hg] at hh
    cases hh
    have only : ∀ (l : List Step) (x : Nat × Task), x ∈ given l → ∀ e, x.2 ≠ .retry e := by
      intro l
      induction l with
      | nil => simp [given]
      | cons st l ih =>
        intro x hx e
        cases st <;> simp only [given, List.mem_cons] at hx
        case submit => rcases hx with rfl | hx; · simp
                       exact ih x hx e
        case stranger => rcases hx with rfl | hx; · simp
                         exact ih x hx e
        all_goals exact ih x hx e
    cases t with
    | submit e => exact ⟨e, rfl⟩
    | retry e => exact absurd rfl (only steps _ (List.mem_of_getElem? hg) e)
    | arrive b =>
      have := (C130_stranger nodes steps hg).1
      have hc : 0 < messagesOf (run (start nodes) steps) k :=
        List.countP_pos_iff.2 ⟨_, h, by simp⟩
      omega

/-- **C130, nothing is missed**, at peers: every message that a call writes to a stream is recorded and arrives later
or gets lost; every envelope that it puts into the slow queue waits there; every hand-over counts, be it to the
mailbox, to the own agent or to a connection. -/
theorem C130_complete_peer {s : Traffic} {i : Nat} {w : Work} {p : PeerState} (a : Around) {acts : List Act}
    (hw : s.todo[i]? = some w) (hp : s.nodes w.node = .peer p)
    (hacts : (∃ e, w.task = .submit e ∧ acts = (routeEnvelope p a.net e).2.1) ∨
      (∃ e, w.task = .retry e ∧ acts = (slowAttempt p a.net e).1) ∨
      ∃ d e, w.task = .arrive d ∧ (receiveEnvelopeFromPeer a.T a.por a.key ⟨[some d], a.writes, []⟩).1 = .ok e ∧
        acts = (handleAeaEnvelope p a.net e).2.1) :
    (∀ q d, .stream q d ∈ acts → (w.cause, w.node, d) ∈ (step s (.work i a)).sent ∧
      ⟨w.cause, a.nodeOf q, .arrive d⟩ ∈ (step s (.work i a)).todo) ∧
    (∀ e, .slow e ∈ acts → ⟨w.cause, w.node, .retry e⟩ ∈ (step s (.work i a)).todo) ∧
    ((∃ x ∈ acts, (∃ e, x = .mailbox e) ∨ (∃ e, x = .agent e) ∨ ∃ c d, x = .conn c d) →
      handOversOf s w.cause < handOversOf (step s (.work i a)) w.cause) := by
  have ho : perform a (s.nodes w.node) w.task = ofActs acts := by
    rw [hp]
    rcases hacts with ⟨e, ht, rfl⟩ | ⟨e, ht, rfl⟩ | ⟨d, e, ht, hr, rfl⟩
    · rw [ht]; rfl
    · rw [ht]; rfl
    · rw [ht]; simp only [perform, hr]
  simp only [step, hw, ho]
  refine ⟨fun q d h => ?_, fun e h => ?_, ?_⟩
  · have hm : (q, d) ∈ (ofActs acts).messages := List.mem_filterMap.2 ⟨_, h, rfl⟩
    exact ⟨List.mem_append_right _ (List.mem_map.2 ⟨_, hm, rfl⟩),
      List.mem_append_right _ (List.mem_append_left _ (List.mem_map.2 ⟨_, hm, rfl⟩))⟩
  · have hm : e ∈ (ofActs acts).slow := List.mem_filterMap.2 ⟨_, h, rfl⟩
    exact List.mem_append_right _ (List.mem_append_right _ (List.mem_map.2 ⟨_, hm, rfl⟩))
  · rintro ⟨x, hx, hk⟩
    have hc : 0 < (ofActs acts).handed := List.countP_pos_iff.2
      ⟨x, hx, by rcases hk with ⟨_, rfl⟩ | ⟨_, rfl⟩ | ⟨_, _, rfl⟩ <;> rfl⟩
    simp only [handOversOf, List.countP_append, List.countP_replicate]
    simpa using hc

/-- **C130, nothing is missed**, at clients. -/
theorem C130_complete_client {s : Traffic} {i : Nat} {w : Work} {c : DhtClient} (a : Around) {acts : List ClientAct}
    (hw : s.todo[i]? = some w) (hp : s.nodes w.node = .client c)
    (hacts : (∃ e, w.task = .submit e ∧ acts = (clientRoute c a.client e).1) ∨
      ∃ d e, w.task = .arrive d ∧ (receiveEnvelopeFromPeer a.T a.por a.key ⟨[some d], a.writes, []⟩).1 = .ok e ∧
        acts = (clientHandleEnvelope c a.agentOk e).1) :
    (∀ q d, .write .envelope q d ∈ acts → (w.cause, w.node, d) ∈ (step s (.work i a)).sent ∧
      ⟨w.cause, a.nodeOf q, .arrive d⟩ ∈ (step s (.work i a)).todo) ∧
    ((∃ e, .agent e ∈ acts) → handOversOf s w.cause < handOversOf (step s (.work i a)) w.cause) := by
  have ho : perform a (s.nodes w.node) w.task = ofClientActs acts := by
    rw [hp]
    rcases hacts with ⟨e, ht, rfl⟩ | ⟨d, e, ht, hr, rfl⟩
    · rw [ht]; rfl
    · rw [ht]; simp only [perform, hr]
  simp only [step, hw, ho]
  refine ⟨fun q d h => ?_, ?_⟩
  · have hm : (q, d) ∈ (ofClientActs acts).messages := List.mem_filterMap.2 ⟨_, h, rfl⟩
    exact ⟨List.mem_append_right _ (List.mem_map.2 ⟨_, hm, rfl⟩),
      List.mem_append_right _ (List.mem_append_left _ (List.mem_map.2 ⟨_, hm, rfl⟩))⟩
  · rintro ⟨e, hx⟩
    have hc : 0 < (ofClientActs acts).handed := List.countP_pos_iff.2 ⟨_, hx, rfl⟩
    simp only [handOversOf, List.countP_append, List.countP_replicate]
    simpa using hc

/-! ## Concrete cases -/

namespace TrafficDemo

/-- The peer that the envelope is sent to: its own agent is `far`. -/
def far : PeerState := { RouteDemo.peer with myAgent := b! "far", mailbox := none }

/-- The sender does not get the answer, whatever the receiver does. -/
def unanswered : Net := { RouteDemo.net with stream := fun _ => some ⟨[], [true], []⟩ }

/-- Behaviour of everything around. -/
def around (n : Net) : Around where
  net := n
  client := ⟨HandlersDemo.por, some, none, true, ⟨⟨none, []⟩, none⟩, fun _ => true, fun _ => true,
    fun _ => ⟨⟨none, []⟩, none⟩⟩
  nodeOf := fun _ => 1
  T := HandlersDemo.T
  por := fun _ _ _ => .ok .success
  key := b! "pk"
  writes := []
  agentOk := true

/-- Two peers. -/
def two : Nat → TrafficNode := fun i => .peer (if i = 0 then RouteDemo.peer else far)

/-- An envelope whose acknowledgement is lost: it is sent, put into the slow queue, sent again, and both messages
arrive. -/
def twice : List Step :=
  [.submit 0 (RouteDemo.env (b! "far")), .work 0 (around unanswered), .work 1 (around RouteDemo.net),
   .work 0 (around RouteDemo.net), .work 0 (around RouteDemo.net)]

set_option maxRecDepth 100000 in
set_option maxHeartbeats 4000000 in
/-- The bounds are reached: one envelope, two messages, handed over twice, by four pieces of work, after which
nothing is left. -/
example : messagesOf (run (start two) twice) 0 = 2 ∧ handOversOf (run (start two) twice) 0 = 2 ∧
    workOf (run (start two) twice) 0 = 4 ∧ (run (start two) twice).todo.length = 0 ∧
    (run (start two) twice).handed = [(0, 1), (0, 1)] := by
  decide +kernel

set_option maxRecDepth 100000 in
set_option maxHeartbeats 4000000 in
/-- A message of a stranger with an envelope for somebody else is not passed on. -/
example : (run (start two) [.stranger 0 TwoPeers.data, .work 0 (around RouteDemo.net)]).sent = [] ∧
    (run (start two) [.stranger 0 TwoPeers.data, .work 0 (around RouteDemo.net)]).todo.length = 0 := by
  decide +kernel

end TrafficDemo

end Traffic

end Verif
