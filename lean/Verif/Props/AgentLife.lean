import Verif.Model.AgentLife
import Mathlib.Data.List.Basic

/-!
# C97: an agent that is stopped and started again
-/

namespace Verif

open Life AgentLife

/-! ## The queues -/

/-- The last of the successful calls of `Start` and `Stop` was one of `Start`. -/
def Life.live (r : List Result) : Prop := (r.filter (· ≠ .notStarted)).getLast? = some .started

theorem live_notStarted (r : List Result) : live (r ++ [.notStarted]) ↔ live r := by
  simp [live, List.filter_append]

theorem live_started (r : List Result) : live (r ++ [.started]) := by
  simp [live, List.filter_append]

theorem live_stopped (r : List Result) : ¬ live (r ++ [.stopped]) := by
  simp [live, List.filter_append]

/-- The queue that the client uses is open. -/
def Life.chanOpen {α : Type} (c : Option Nat) (cs : List (Chan α)) : Prop :=
  ∃ q ch, c = some q ∧ cs[q]? = some ch ∧ ch.closed = false

theorem chanOpen_set {α : Type} {c : Option Nat} {cs : List (Chan α)} {q : Nat} {ch : Chan α} (h : cs[q]? = some ch)
    (items : List α) : chanOpen c (cs.set q { ch with items := items }) ↔ chanOpen c cs := by
  have hq : q < cs.length := (List.getElem?_eq_some_iff.1 h).1
  constructor
  · rintro ⟨p, ch', rfl, h1, h2⟩
    by_cases e : q = p
    · subst e
      rw [List.getElem?_set_self hq] at h1
      cases h1
      exact ⟨_, ch, rfl, h, h2⟩
    · rw [List.getElem?_set_ne e] at h1
      exact ⟨_, ch', rfl, h1, h2⟩
  · rintro ⟨p, ch', rfl, h1, h2⟩
    by_cases e : q = p
    · subst e
      rw [h] at h1
      cases h1
      exact ⟨_, _, rfl, List.getElem?_set_self hq, h2⟩
    · exact ⟨_, ch', rfl, by rw [List.getElem?_set_ne e]; exact h1, h2⟩

theorem chanOpen_new {α : Type} (cs : List (Chan α)) : chanOpen (some cs.length) (cs ++ [⟨[], false⟩]) :=
  ⟨_, _, rfl, List.getElem?_concat_length, rfl⟩

theorem closeChan_none {α : Type} {c : Option Nat} {cs : List (Chan α)} : closeChan c cs = none ↔ ¬ chanOpen c cs := by
  unfold closeChan chanOpen
  cases c with
  | none => simp
  | some k =>
    dsimp only
    cases h : cs[k]? with
    | none => simp [h]
    | some ch => by_cases hc : ch.closed = true <;> simp [h, hc]

theorem closeChan_some {α : Type} {c : Option Nat} {cs cs' : List (Chan α)} (h : closeChan c cs = some cs') :
    chanOpen c cs ∧ ¬ chanOpen c cs' := by
  have ho : chanOpen c cs := by
    by_contra hn
    rw [closeChan_none.2 hn] at h
    cases h
  refine ⟨ho, ?_⟩
  obtain ⟨q, ch, rfl, h1, h2⟩ := ho
  simp only [closeChan, h1, h2, Bool.false_eq_true, if_false, Option.some.injEq] at h
  subst h
  rintro ⟨p, ch', e, h3, h4⟩
  cases e
  rw [List.getElem?_set_self (List.getElem?_eq_some_iff.1 h1).1] at h3
  cases h3
  cases h4

/-- The queues are open from `Start` to `Stop`. -/
structure Life.Queues (s : AgentLife) : Prop where
  out : chanOpen s.out s.outs ↔ live s.results ∧ s.main ≠ .queueClosed
  stat : chanOpen s.stat s.stats ↔ live s.results
  live : s.main = .queueClosed → Life.live s.results

theorem Life.Queues.congr {s s' : AgentLife} (h : Queues s) (h1 : s'.out = s.out) (h2 : chanOpen s.out s'.outs ↔ chanOpen s.out s.outs)
    (h3 : s'.stat = s.stat) (h4 : chanOpen s.stat s'.stats ↔ chanOpen s.stat s.stats)
    (h5 : Life.live s'.results ↔ Life.live s.results) (h6 : s'.main = .queueClosed ↔ s.main = .queueClosed) : Queues s' := by
  obtain ⟨a, b, c⟩ := h
  refine ⟨?_, ?_, ?_⟩
  · rw [h1, h2, h5, a, Ne, Ne, h6]
  · rw [h3, h4, h5, b]
  · rw [h6, h5]; exact c

theorem Life.Queues.same {s s' : AgentLife} (h : Queues s) (h1 : s'.out = s.out) (h2 : s'.outs = s.outs)
    (h3 : s'.stat = s.stat) (h4 : s'.stats = s.stats)
    (h5 : Life.live s'.results ↔ Life.live s.results) (h6 : s'.main = .queueClosed ↔ s.main = .queueClosed) : Queues s' :=
  h.congr h1 (by rw [h2]) h3 (by rw [h4]) h5 h6

theorem queues_retry {s : AgentLife} (n : Nat) (h : Queues s) (hm : s.main ≠ .queueClosed) : Queues (s.retry n) := by
  refine h.same rfl rfl rfl rfl Iff.rfl ?_
  simp only [AgentLife.retry, hm, iff_false]
  split <;> simp

theorem queues_closeConn {s : AgentLife} (h : Queues s) : Queues s.closeConn := by
  unfold closeConn
  split <;> exact h.same rfl rfl rfl rfl Iff.rfl Iff.rfl

theorem queues_goMain {s : AgentLife} (ok : Bool) (h : Queues s) : Queues (s.goMain ok) := by
  unfold goMain
  split
  · exact h
  · next hm =>
    split
    · exact h
    · exact h.same rfl rfl rfl rfl (live_notStarted _) (by simp [hm])
    · dsimp only
      split
      · exact h.same rfl rfl rfl rfl Iff.rfl (by simp [hm])
      · exact h.same rfl rfl rfl rfl (live_notStarted _) (by simp [hm])
  · next n hm =>
    split
    · exact h.same rfl rfl rfl rfl Iff.rfl (by simp [hm])
    · exact queues_retry n h (by simp [hm])
  · next n hm =>
    split
    · exact h
    · exact queues_retry n h (by simp [hm])
    · dsimp only
      split
      · exact h.same rfl rfl rfl rfl Iff.rfl Iff.rfl
      · exact queues_retry n (h.same rfl rfl rfl rfl Iff.rfl Iff.rfl) (by simp [AgentLife.take, hm])
      · refine ⟨?_, ?_, ?_⟩
        · simp only [finish, live_started, true_and]
          exact ⟨fun _ => by simp, fun _ => chanOpen_new _⟩
        · simp only [finish, live_started, iff_true]
          exact chanOpen_new _
        · simp [finish]
  · next hm =>
    exact (queues_closeConn h).same rfl rfl rfl rfl (by
      rw [show s.closeConn.results = s.results by unfold closeConn; split <;> rfl]; exact live_notStarted _) (by
      rw [show s.closeConn.main = s.main by unfold closeConn; split <;> rfl]; simp [hm])
  · next hm =>
    split
    · exact h.same rfl rfl rfl rfl Iff.rfl Iff.rfl
    · split
      · exact (queues_closeConn h).same rfl rfl rfl rfl Iff.rfl (by
          rw [show s.closeConn.main = s.main by unfold closeConn; split <;> rfl]; simp [hm])
      · exact h.same rfl rfl rfl rfl Iff.rfl Iff.rfl
  · next hm =>
    split
    · exact h.same rfl rfl rfl rfl Iff.rfl Iff.rfl
    · next outs hc =>
      obtain ⟨ho, hn⟩ := closeChan_some hc
      have hl := (h.out.1 ho).1
      refine ⟨?_, h.stat, fun _ => hl⟩
      simp [hn]
  · next hm =>
    split
    · exact h.same rfl rfl rfl rfl Iff.rfl Iff.rfl
    · next stats hc =>
      obtain ⟨ho, hn⟩ := closeChan_some hc
      refine ⟨?_, ?_, by simp⟩
      · simp only [live_stopped, false_and, iff_false]
        intro hb
        exact (h.out.1 hb).2 hm
      · simp only [live_stopped, iff_false]
        exact hn

theorem queues_goListener {T : AcnTexts} {rest : Bytes → Envelope} {s : AgentLife} (i : Nat) (l : Listener) (ok : Bool)
    (h : Queues s) : Queues (s.goListener T rest i l ok) := by
  have same : ∀ s' : AgentLife, s'.out = s.out → s'.outs = s.outs → s'.stat = s.stat → s'.stats = s.stats →
      s'.results = s.results → s'.main = s.main → Queues s' := fun s' h1 h2 h3 h4 h5 h6 =>
    h.same h1 h2 h3 h4 (by rw [h5]) (by rw [h6])
  unfold goListener
  split
  · split <;> exact same _ rfl rfl rfl rfl rfl rfl
  · split
    · exact h
    · split
      · exact h
      · exact same _ rfl rfl rfl rfl rfl rfl
      · dsimp only
        split
        · exact same _ rfl rfl rfl rfl rfl rfl
        · split <;> exact same _ rfl rfl rfl rfl rfl rfl
        · split
          · exact same _ rfl rfl rfl rfl rfl rfl
          · split
            · exact same _ rfl rfl rfl rfl rfl rfl
            · split
              · exact same _ rfl rfl rfl rfl rfl rfl
              · split
                · exact same _ rfl rfl rfl rfl rfl rfl
                · split <;> exact same _ rfl rfl rfl rfl rfl rfl
  · exact same _ rfl rfl rfl rfl rfl rfl
  · exact queues_closeConn (same _ rfl rfl rfl rfl rfl rfl)
  · split
    · exact h
    · next ch hc =>
      split
      · exact same _ rfl rfl rfl rfl rfl rfl
      · split
        · exact h.congr rfl (chanOpen_set hc _) rfl Iff.rfl Iff.rfl Iff.rfl
        · exact h
  · exact same _ rfl rfl rfl rfl rfl rfl
  · split
    · exact h
    · next ch hc =>
      split
      · exact same _ rfl rfl rfl rfl rfl rfl
      · split
        · exact h.congr rfl Iff.rfl rfl (chanOpen_set hc _) Iff.rfl Iff.rfl
        · exact h
  · exact h

theorem queues_step (T : AcnTexts) (rest : Bytes → Envelope) {s : AgentLife} (st : AgentLife.Step) (h : Queues s) :
    Queues (s.step T rest st) := by
  have same : ∀ s' : AgentLife, s'.out = s.out → s'.outs = s.outs → s'.stat = s.stat → s'.stats = s.stats →
      s'.results = s.results → s'.main = s.main → Queues s' := fun s' h1 h2 h3 h4 h5 h6 =>
    h.same h1 h2 h3 h4 (by rw [h5]) (by rw [h6])
  unfold step
  split
  · cases st with
    | start dial =>
      simp only [stepAlive]
      split
      · exact h
      · next hm =>
        split
        · exact h.same rfl rfl rfl rfl (live_notStarted _) Iff.rfl
        · exact h.same rfl rfl rfl rfl Iff.rfl (by simp at hm; simp [hm])
    | stop =>
      simp only [stepAlive]
      split
      · exact h
      · next hm => exact h.same rfl rfl rfl rfl Iff.rfl (by simp at hm; simp [hm])
    | go ok => exact queues_goMain ok h
    | arrive k f => exact same _ rfl rfl rfl rfl rfl rfl
    | hangUp k => exact same _ rfl rfl rfl rfl rfl rfl
    | decrypt k n => exact same _ rfl rfl rfl rfl rfl rfl
    | listen i ok =>
      simp only [stepAlive]
      split
      · exact h
      · exact queues_goListener i _ ok h
    | put ok =>
      simp only [stepAlive]
      split
      · exact same _ rfl rfl rfl rfl rfl rfl
      · split
        · exact same _ rfl rfl rfl rfl rfl rfl
        · exact h
    | putGo j =>
      simp only [stepAlive, goPut]
      split
      · split
        · exact h
        · next ch hc =>
          split
          · exact h.congr rfl Iff.rfl rfl (chanOpen_set hc _) Iff.rfl Iff.rfl
          · split
            · exact same _ rfl rfl rfl rfl rfl rfl
            · exact h
      · exact h
    | putTimeout j =>
      simp only [stepAlive]
      split
      · exact same _ rfl rfl rfl rfl rfl rfl
      · exact h
    | get =>
      simp only [stepAlive]
      split
      · exact h
      · split
        · exact h
        · next ch hc =>
          split
          · exact h.congr rfl (chanOpen_set hc _) rfl Iff.rfl Iff.rfl Iff.rfl
          · split
            · exact same _ rfl rfl rfl rfl rfl rfl
            · exact h
  · exact h

theorem queues_run (T : AcnTexts) (rest : Bytes → Envelope) (address : Bytes) (steps : List AgentLife.Step) :
    Queues ((AgentLife.init address).run T rest steps) := by
  have : ∀ (steps : List AgentLife.Step) (s : AgentLife), Queues s → Queues (s.run T rest steps) := by
    intro steps
    induction steps with
    | nil => intro s h; exact h
    | cons st steps ih => intro s h; exact ih _ (queues_step T rest st h)
  refine this steps _ ⟨?_, ?_, by simp [init]⟩ <;> simp [init, chanOpen, live]

/-! ## Who reads what -/

/-- A call of `Start` is at work. -/
def Life.Main.starting : Main → Bool
  | .signature => true
  | .register _ => true
  | .status _ => true
  | .giveUp => true
  | _ => false

structure Life.Readers (s : AgentLife) : Prop where
  conn : ∀ k, s.conn = some k → k + 1 = s.conns.length
  starting : s.main.starting = true → s.conn ≠ none
  born : ∀ l ∈ s.listeners, l.born < s.conns.length
  fresh : s.main.starting = true → ∀ k, s.conn = some k → ∀ l ∈ s.listeners, l.born < k
  reading : ∀ l ∈ s.listeners, ∀ k, l.phase = .reading k → l.born ≤ k ∧ k < s.conns.length
  over : ∀ k c, s.conns[k]? = some c → c.clean = true → ∀ l ∈ s.listeners, l.born < k → l.phase = .stopped
  log : ∀ k c, s.conns[k]? = some c → c.clean = true →
    ∃ a b : List Bytes, c.log = a.map (Prod.mk Reader.start) ++ b.map (Prod.mk (Reader.listener k)) ∧
      (s.main.starting = true → s.conn = some k → b = [])

theorem Life.Readers.congr {s s' : AgentLife} (h : Readers s) (h1 : s'.conn = s.conn)
    (h2 : s'.conns.length = s.conns.length)
    (h3 : ∀ (k : Nat) (c' : Conn), s'.conns[k]? = some c' → ∃ c : Conn, s.conns[k]? = some c ∧ c'.clean = c.clean ∧ c'.log = c.log)
    (h4 : s'.listeners = s.listeners) (h5 : s'.main.starting = true → s.main.starting = true) : Readers s' := by
  refine ⟨?_, ?_, ?_, ?_, ?_, ?_, ?_⟩
  · rw [h1, h2]; exact h.conn
  · rw [h1]; exact fun hs => h.starting (h5 hs)
  · rw [h4, h2]; exact h.born
  · rw [h1, h4]; exact fun hs => h.fresh (h5 hs)
  · rw [h4, h2]; exact h.reading
  · rw [h4]
    intro k c' hc hcl
    obtain ⟨c, e1, e2, _⟩ := h3 k c' hc
    exact h.over k c e1 (e2 ▸ hcl)
  · intro k c' hc hcl
    obtain ⟨c, e1, e2, e3⟩ := h3 k c' hc
    obtain ⟨a, b, e4, e5⟩ := h.log k c e1 (e2 ▸ hcl)
    exact ⟨a, b, e3.trans e4, fun hs hk => e5 (h5 hs) (h1 ▸ hk)⟩

theorem Life.Readers.same {s s' : AgentLife} (h : Readers s) (h1 : s'.conn = s.conn) (h2 : s'.conns = s.conns)
    (h4 : s'.listeners = s.listeners) (h5 : s'.main.starting = true → s.main.starting = true) : Readers s' :=
  h.congr h1 (by rw [h2]) (fun k c' hc => ⟨c', h2 ▸ hc, rfl, rfl⟩) h4 h5

theorem readers_modify {s : AgentLife} (h : Readers s) (k : Nat) (f : Conn → Conn)
    (hf : ∀ c, (f c).clean = c.clean ∧ (f c).log = c.log) : Readers { s with conns := s.conns.modify k f } := by
  refine h.congr rfl (List.length_modify ..) ?_ rfl id
  intro j c' hc
  dsimp only at hc
  rw [List.getElem?_modify] at hc
  cases e : s.conns[j]? with
  | none => rw [e] at hc; cases hc
  | some c =>
    rw [e] at hc
    simp only [Option.map_eq_map, Option.map_some, Option.some.injEq] at hc
    subst hc
    refine ⟨c, rfl, ?_⟩
    split
    · exact hf c
    · exact ⟨rfl, rfl⟩

theorem readers_closeConn {s : AgentLife} (h : Readers s) : Readers s.closeConn := by
  unfold closeConn
  split
  · exact h.same rfl rfl rfl id
  · exact readers_modify h _ _ fun _ => ⟨rfl, rfl⟩

theorem mem_modify {l : List Listener} {i : Nat} {p : Phase} {x : Listener}
    (h : x ∈ l.modify i fun y => { y with phase := p }) : x ∈ l ∨ ∃ y, l[i]? = some y ∧ x = { y with phase := p } := by
  obtain ⟨j, hj⟩ := List.mem_iff_getElem?.1 h
  rw [List.getElem?_modify] at hj
  cases e : l[j]? with
  | none => rw [e] at hj; cases hj
  | some y =>
    rw [e] at hj
    simp only [Option.map_eq_map, Option.map_some, Option.some.injEq] at hj
    split at hj
    · next hij => subst hij; exact .inr ⟨y, e, hj.symm⟩
    · subst hj; exact .inl (List.mem_iff_getElem?.2 ⟨j, e⟩)

theorem readers_setPhase {s : AgentLife} (h : Readers s) {i : Nat} {l : Listener} {p : Phase}
    (hl : s.listeners[i]? = some l) (hns : l.phase ≠ .stopped)
    (hp : ∀ k, p = .reading k → l.born ≤ k ∧ k < s.conns.length) : Readers (s.setPhase i p) := by
  have hm : l ∈ s.listeners := List.mem_iff_getElem?.2 ⟨i, hl⟩
  refine ⟨h.conn, h.starting, ?_, ?_, ?_, ?_, h.log⟩
  · intro x hx
    rcases mem_modify hx with hx | ⟨y, hy, rfl⟩
    · exact h.born x hx
    · exact h.born y (List.mem_iff_getElem?.2 ⟨i, hy⟩)
  · intro hs k hk x hx
    rcases mem_modify hx with hx | ⟨y, hy, rfl⟩
    · exact h.fresh hs k hk x hx
    · exact h.fresh hs k hk y (List.mem_iff_getElem?.2 ⟨i, hy⟩)
  · intro x hx k hk
    rcases mem_modify hx with hx | ⟨y, hy, rfl⟩
    · exact h.reading x hx k hk
    · rw [hl] at hy; cases hy; exact hp k hk
  · intro k c hc hcl x hx hb
    rcases mem_modify hx with hx | ⟨y, hy, rfl⟩
    · exact h.over k c hc hcl x hx hb
    · rw [hl] at hy; cases hy
      exact absurd (h.over k c hc hcl l hm hb) hns

theorem readers_take_listener {s : AgentLife} (h : Readers s) {i k : Nat} {l : Listener} (f : Bytes)
    (hl : s.listeners[i]? = some l) (hp : l.phase = .reading k) : Readers (s.take k (.listener l.born) f) := by
  have hm : l ∈ s.listeners := List.mem_iff_getElem?.2 ⟨i, hl⟩
  have hlen : (s.take k (.listener l.born) f).conns.length = s.conns.length := List.length_modify ..
  have hget : ∀ j c', (s.take k (.listener l.born) f).conns[j]? = some c' → ∃ c, s.conns[j]? = some c ∧
      c'.clean = c.clean ∧ c'.log = if k = j then c.log ++ [(.listener l.born, f)] else c.log := by
    intro j c' hc
    simp only [AgentLife.take] at hc
    rw [List.getElem?_modify] at hc
    cases e : s.conns[j]? with
    | none => rw [e] at hc; cases hc
    | some c =>
      rw [e] at hc
      simp only [Option.map_eq_map, Option.map_some, Option.some.injEq] at hc
      subst hc
      refine ⟨c, rfl, ?_⟩
      split <;> exact ⟨rfl, rfl⟩
  refine ⟨fun j hj => by rw [hlen]; exact h.conn j hj, h.starting, fun x hx => by rw [hlen]; exact h.born x hx,
    h.fresh, fun x hx j hj => by rw [hlen]; exact h.reading x hx j hj, ?_, ?_⟩
  · intro j c' hc hcl
    obtain ⟨c, e1, e2, _⟩ := hget j c' hc
    exact h.over j c e1 (e2 ▸ hcl)
  · intro j c' hc hcl
    obtain ⟨c, e1, e2, e3⟩ := hget j c' hc
    obtain ⟨a, b, e4, e5⟩ := h.log j c e1 (e2 ▸ hcl)
    by_cases hkj : k = j
    · subst hkj
      rw [if_pos rfl] at e3
      have hb : l.born = k := by
        rcases Nat.lt_or_eq_of_le (h.reading l hm k hp).1 with hlt | heq
        · have := h.over k c e1 (e2 ▸ hcl) l hm hlt
          rw [hp] at this; cases this
        · exact heq
      refine ⟨a, b ++ [f], ?_, ?_⟩
      · rw [e3, e4, hb]; simp
      · intro hs hk
        have := h.fresh hs k hk l hm
        omega
    · rw [if_neg hkj] at e3
      exact ⟨a, b, e3.trans e4, e5⟩

theorem readers_take_start {s : AgentLife} (h : Readers s) (f : Bytes) (hs : s.main.starting = true) :
    Readers (s.take (s.conn.getD 0) .start f) := by
  obtain ⟨k, hk⟩ : ∃ k, s.conn = some k := Option.ne_none_iff_exists'.1 (h.starting hs)
  rw [hk, Option.getD_some]
  have hlen : (s.take k .start f).conns.length = s.conns.length := List.length_modify ..
  have hget : ∀ j c', (s.take k .start f).conns[j]? = some c' → ∃ c, s.conns[j]? = some c ∧
      c'.clean = c.clean ∧ c'.log = if k = j then c.log ++ [(.start, f)] else c.log := by
    intro j c' hc
    simp only [AgentLife.take] at hc
    rw [List.getElem?_modify] at hc
    cases e : s.conns[j]? with
    | none => rw [e] at hc; cases hc
    | some c =>
      rw [e] at hc
      simp only [Option.map_eq_map, Option.map_some, Option.some.injEq] at hc
      subst hc
      refine ⟨c, rfl, ?_⟩
      split <;> exact ⟨rfl, rfl⟩
  refine ⟨fun j hj => by rw [hlen]; exact h.conn j hj, h.starting, fun x hx => by rw [hlen]; exact h.born x hx,
    h.fresh, fun x hx j hj => by rw [hlen]; exact h.reading x hx j hj, ?_, ?_⟩
  · intro j c' hc hcl
    obtain ⟨c, e1, e2, _⟩ := hget j c' hc
    exact h.over j c e1 (e2 ▸ hcl)
  · intro j c' hc hcl
    obtain ⟨c, e1, e2, e3⟩ := hget j c' hc
    obtain ⟨a, b, e4, e5⟩ := h.log j c e1 (e2 ▸ hcl)
    by_cases hkj : k = j
    · subst hkj
      rw [if_pos rfl] at e3
      have hb := e5 hs hk
      subst hb
      exact ⟨a ++ [f], [], by rw [e3, e4]; simp, fun _ _ => rfl⟩
    · rw [if_neg hkj] at e3
      exact ⟨a, b, e3.trans e4, e5⟩

theorem readers_finish {s : AgentLife} (h : Readers s) (hs : s.main.starting = true) : Readers s.finish := by
  obtain ⟨k, hk⟩ : ∃ k, s.conn = some k := Option.ne_none_iff_exists'.1 (h.starting hs)
  have hlen := h.conn k hk
  have hmem : ∀ x ∈ s.finish.listeners, x ∈ s.listeners ∨ x = ⟨k, .idle⟩ := by
    intro x hx
    simp only [finish, hk, Option.getD_some, List.mem_append, List.mem_singleton] at hx
    exact hx
  refine ⟨h.conn, by simp [finish, Main.starting], ?_, by simp [finish, Main.starting], ?_, ?_, ?_⟩
  · intro x hx
    rcases hmem x hx with hx | rfl
    · exact h.born x hx
    · show k < s.conns.length
      omega
  · intro x hx j hj
    rcases hmem x hx with hx | rfl
    · exact h.reading x hx j hj
    · cases hj
  · intro j c hc hcl x hx hb
    rcases hmem x hx with hx | rfl
    · exact h.over j c hc hcl x hx hb
    · have := (List.getElem?_eq_some_iff.1 hc).1
      simp only [finish] at this hb
      omega
  · intro j c hc hcl
    obtain ⟨a, b, e, _⟩ := h.log j c hc hcl
    exact ⟨a, b, e, by simp [finish, Main.starting]⟩

theorem readers_goMain {s : AgentLife} (ok : Bool) (h : Readers s) : Readers (s.goMain ok) := by
  have hret : ∀ n, s.main.starting = true → ∀ s' : AgentLife, Readers s' → s'.main = s.main → Readers (s'.retry n) := by
    intro n hs s' h' e
    exact h'.same rfl rfl rfl (fun _ => by rw [e]; exact hs)
  unfold goMain
  split
  · exact h
  · next hm =>
    split
    · exact h
    · exact h.same rfl rfl rfl (by simp [Main.starting])
    · dsimp only
      have := readers_take_start h ‹Bytes› (by simp [hm, Main.starting])
      split
      · exact this.same rfl rfl rfl (fun _ => by simp [AgentLife.take, hm, Main.starting])
      · exact this.same rfl rfl rfl (by simp [Main.starting])
  · next n hm =>
    split
    · exact h.same rfl rfl rfl (by simp [hm, Main.starting])
    · exact hret n (by simp [hm, Main.starting]) s h rfl
  · next n hm =>
    split
    · exact h
    · exact hret n (by simp [hm, Main.starting]) s h rfl
    · dsimp only
      have := readers_take_start h ‹Bytes› (by simp [hm, Main.starting])
      split
      · exact this.same rfl rfl rfl id
      · exact hret n (by simp [hm, Main.starting]) _ this rfl
      · exact readers_finish this (by simp [AgentLife.take, hm, Main.starting])
  · exact (readers_closeConn h).same rfl rfl rfl (by simp [Main.starting])
  · split
    · exact h.same rfl rfl rfl id
    · split
      · exact (readers_closeConn h).same rfl rfl rfl (by simp [Main.starting])
      · exact h.same rfl rfl rfl id
  · split
    · exact h.same rfl rfl rfl id
    · exact h.same rfl rfl rfl (by simp [Main.starting])
  · split
    · exact h.same rfl rfl rfl id
    · exact h.same rfl rfl rfl (by simp [Main.starting])

theorem readers_goListener {T : AcnTexts} {rest : Bytes → Envelope} {s : AgentLife} {i : Nat} {l : Listener} (ok : Bool)
    (hl : s.listeners[i]? = some l) (h : Readers s) : Readers (s.goListener T rest i l ok) := by
  have hm : l ∈ s.listeners := List.mem_iff_getElem?.2 ⟨i, hl⟩
  unfold goListener
  split
  · next hp =>
    split
    · exact h.same rfl rfl rfl id
    · next k hk =>
      refine readers_setPhase h hl (by simp [hp]) ?_
      intro j hj
      cases hj
      have := h.conn k hk
      have := h.born l hm
      omega
  · next k hp =>
    have hns : l.phase ≠ .stopped := by simp [hp]
    split
    · exact h
    · split
      · exact h
      · exact readers_setPhase h hl hns (by intro j hj; split at hj <;> cases hj)
      · next f hf =>
        dsimp only
        have ht := readers_take_listener h f hl hp
        have hset : ∀ p : Phase, (∀ j, p ≠ .reading j) → Readers ((s.take k (.listener l.born) f).setPhase i p) :=
          fun p hp' => readers_setPhase ht hl hns fun j hj => absurd hj (hp' j)
        split
        · exact ht.same rfl rfl rfl id
        · split
          · exact ht
          · exact hset _ (by simp)
        · split
          · exact ht.same rfl rfl rfl id
          · split
            · exact hset _ (by simp)
            · split
              · exact hset _ (by simp)
              · split
                · exact hset _ (by simp)
                · split
                  · exact ht
                  · exact hset _ (by simp)
  · next hp => exact readers_setPhase h hl (by simp [hp]) (by intro j hj; split at hj <;> cases hj)
  · next hp => exact readers_closeConn (readers_setPhase h hl (by simp [hp]) (by intro j hj; cases hj))
  · next hp =>
    split
    · exact h
    · split
      · exact h.same rfl rfl rfl id
      · split
        · exact (readers_setPhase h hl (by simp [hp]) (p := .pushed) (by intro j hj; cases hj)).same rfl rfl rfl id
        · exact h
  · next hp => exact readers_setPhase h hl (by simp [hp]) (by intro j hj; split at hj <;> cases hj)
  · next hp =>
    split
    · exact h
    · split
      · exact h.same rfl rfl rfl id
      · split
        · exact (readers_setPhase h hl (by simp [hp]) (p := .idle) (by intro j hj; cases hj)).same rfl rfl rfl id
        · exact h
  · exact h

theorem readers_step (T : AcnTexts) (rest : Bytes → Envelope) {s : AgentLife} (st : AgentLife.Step) (h : Readers s) :
    Readers (s.step T rest st) := by
  unfold step
  split
  · cases st with
    | start dial =>
      simp only [stepAlive]
      split
      · exact h
      · next hm =>
        simp only [ne_eq, not_not] at hm
        split
        · exact ⟨by simp, by simp [hm, Main.starting], h.born, by simp, h.reading, h.over, fun k c hc hcl => by
            obtain ⟨a, b, e, _⟩ := h.log k c hc hcl
            exact ⟨a, b, e, by simp⟩⟩
        · next accepts =>
          have hget : ∀ k c, (s.conns ++ [⟨accepts, s.listeners.all fun l => l.phase == .stopped, [], [], false, false, [], 0⟩])[k]? =
              some c → s.conns[k]? = some c ∨ k = s.conns.length ∧
                c = ⟨accepts, s.listeners.all fun l => l.phase == .stopped, [], [], false, false, [], 0⟩ := by
            intro k c hc
            rcases Nat.lt_trichotomy k s.conns.length with hk | hk | hk
            · rw [List.getElem?_append_left hk] at hc; exact .inl hc
            · subst hk; rw [List.getElem?_concat_length] at hc; cases hc; exact .inr ⟨rfl, rfl⟩
            · rw [List.getElem?_eq_none (by simp; omega)] at hc; cases hc
          refine ⟨?_, by simp, ?_, ?_, ?_, ?_, ?_⟩
          · intro k hk
            simp only [Option.some.injEq] at hk
            subst hk
            simp
          · intro l hl
            have := h.born l hl
            simp only [List.length_append, List.length_singleton]
            omega
          · intro _ k hk l hl
            simp only [Option.some.injEq] at hk
            subst hk
            exact h.born l hl
          · intro l hl k hk
            have := h.reading l hl k hk
            simp only [List.length_append, List.length_singleton]
            omega
          · intro k c hc hcl l hl hb
            rcases hget k c hc with hc | ⟨rfl, rfl⟩
            · exact h.over k c hc hcl l hl hb
            · simpa using List.all_eq_true.1 hcl l hl
          · intro k c hc hcl
            rcases hget k c hc with hc | ⟨rfl, rfl⟩
            · obtain ⟨a, b, e, _⟩ := h.log k c hc hcl
              refine ⟨a, b, e, ?_⟩
              intro _ hk
              simp only [Option.some.injEq] at hk
              subst hk
              have := (List.getElem?_eq_some_iff.1 hc).1
              omega
            · exact ⟨[], [], rfl, fun _ _ => rfl⟩
    | stop =>
      simp only [stepAlive]
      split
      · exact h
      · exact h.same rfl rfl rfl (by simp [Main.starting])
    | go ok => exact readers_goMain ok h
    | arrive k f => exact readers_modify h _ _ fun c => by split <;> exact ⟨rfl, rfl⟩
    | hangUp k => exact readers_modify h _ _ fun c => ⟨rfl, rfl⟩
    | decrypt k n => exact readers_modify h _ _ fun c => by split <;> exact ⟨rfl, rfl⟩
    | listen i ok =>
      simp only [stepAlive]
      split
      · exact h
      · exact readers_goListener ok ‹_› h
    | put ok =>
      simp only [stepAlive]
      split
      · exact h.same rfl rfl rfl id
      · split
        · exact h.same rfl rfl rfl id
        · exact h
    | putGo j =>
      simp only [stepAlive, goPut]
      split
      · split
        · exact h
        · split
          · exact h.same rfl rfl rfl id
          · split
            · exact h.same rfl rfl rfl id
            · exact h
      · exact h
    | putTimeout j =>
      simp only [stepAlive]
      split
      · exact h.same rfl rfl rfl id
      · exact h
    | get =>
      simp only [stepAlive]
      split
      · exact h
      · split
        · exact h
        · split
          · exact h.same rfl rfl rfl id
          · split
            · exact h.same rfl rfl rfl id
            · exact h
  · exact h

theorem readers_run (T : AcnTexts) (rest : Bytes → Envelope) (address : Bytes) (steps : List AgentLife.Step) :
    Readers ((AgentLife.init address).run T rest steps) := by
  have : ∀ (steps : List AgentLife.Step) (s : AgentLife), Readers s → Readers (s.run T rest steps) := by
    intro steps
    induction steps with
    | nil => intro s h; exact h
    | cons st steps ih => intro s h; exact ih _ (readers_step T rest st h)
  refine this steps _ ⟨?_, ?_, ?_, ?_, ?_, ?_, ?_⟩ <;> simp [init, Main.starting]

/-! ## Nothing is lost on a connection -/

/-- What was read and what is left is what arrived. -/
def Life.Kept (s : AgentLife) : Prop := ∀ c ∈ s.conns, c.log.map Prod.snd ++ c.input = c.arrived

theorem kept_modify {s : AgentLife} (h : Kept s) (k : Nat) (f : Conn → Conn)
    (hf : ∀ c, s.conns[k]? = some c → c.log.map Prod.snd ++ c.input = c.arrived →
      (f c).log.map Prod.snd ++ (f c).input = (f c).arrived) : Kept { s with conns := s.conns.modify k f } := by
  intro c' hc
  obtain ⟨j, hj⟩ := List.mem_iff_getElem?.1 hc
  dsimp only at hj
  rw [List.getElem?_modify] at hj
  cases e : s.conns[j]? with
  | none => rw [e] at hj; cases hj
  | some c =>
    rw [e] at hj
    simp only [Option.map_eq_map, Option.map_some, Option.some.injEq] at hj
    have hk := h c (List.mem_iff_getElem?.2 ⟨j, e⟩)
    split at hj
    · next hkj => subst hkj hj; exact hf c e hk
    · subst hj; exact hk

theorem kept_closeConn {s : AgentLife} (h : Kept s) : Kept s.closeConn := by
  unfold closeConn
  split
  · exact h
  · exact kept_modify h _ _ fun c _ hc => hc

theorem Life.Conn.read_frame {c : Conn} {f : Bytes} (h : c.read = .frame f) : ∃ rest, c.input = f :: rest := by
  unfold Conn.read at h
  split at h
  · next g rest he =>
    split at h
    · cases h
    · cases h; exact ⟨rest, he⟩
  · split at h <;> cases h

theorem kept_take {s : AgentLife} (h : Kept s) {k : Nat} {c : Conn} (r : Reader) {f : Bytes}
    (hk : s.conns[k]? = some c) (hr : c.read = .frame f) : Kept (s.take k r f) := by
  refine kept_modify h k _ ?_
  intro c' hc' he
  rw [hk] at hc'
  cases hc'
  obtain ⟨rest, hi⟩ := Conn.read_frame hr
  rw [hi] at he
  simp [hi, ← he]

theorem mainRead_frame {s : AgentLife} {f : Bytes} (h : s.mainRead = .frame f) :
    ∃ k c, s.conn = some k ∧ s.conns[k]? = some c ∧ c.read = .frame f := by
  unfold mainRead at h
  split at h
  · cases h
  · next k hk =>
    split at h
    · cases h
    · next c hc => exact ⟨k, c, hk, hc, h⟩

theorem kept_goMain {s : AgentLife} (ok : Bool) (h : Kept s) : Kept (s.goMain ok) := by
  unfold goMain
  split
  · exact h
  · split
    · exact h
    · exact h
    · next f hf =>
      obtain ⟨k, c, e1, e2, e3⟩ := mainRead_frame hf
      have := kept_take h .start e2 e3
      dsimp only
      rw [e1, Option.getD_some]
      split <;> exact this
  · split <;> exact h
  · split
    · exact h
    · exact h
    · next f hf =>
      obtain ⟨k, c, e1, e2, e3⟩ := mainRead_frame hf
      have := kept_take h .start e2 e3
      dsimp only
      rw [e1, Option.getD_some]
      split <;> exact this
  · exact kept_closeConn h
  · split
    · exact h
    · split
      · exact kept_closeConn h
      · exact h
  · split <;> exact h
  · split <;> exact h

theorem kept_goListener {T : AcnTexts} {rest : Bytes → Envelope} {s : AgentLife} (i : Nat) (l : Listener) (ok : Bool)
    (h : Kept s) : Kept (s.goListener T rest i l ok) := by
  unfold goListener
  split
  · split <;> exact h
  · split
    · exact h
    · next c hc =>
      split
      · exact h
      · exact h
      · next f hf =>
        have ht := kept_take h (.listener l.born) hc hf
        dsimp only
        split
        · exact ht
        · split <;> exact ht
        · split
          · exact ht
          · split
            · exact ht
            · split
              · exact ht
              · split
                · exact ht
                · split <;> exact ht
  · exact h
  · exact kept_closeConn (s := s.setPhase i .stopped) h
  · split
    · exact h
    · split
      · exact h
      · split <;> exact h
  · exact h
  · split
    · exact h
    · split
      · exact h
      · split <;> exact h
  · exact h

theorem kept_step (T : AcnTexts) (rest : Bytes → Envelope) {s : AgentLife} (st : AgentLife.Step) (h : Kept s) :
    Kept (s.step T rest st) := by
  unfold step
  split
  · cases st with
    | start dial =>
      simp only [stepAlive]
      split
      · exact h
      · split
        · exact h
        · intro c hc
          simp only [List.mem_append, List.mem_singleton] at hc
          rcases hc with hc | rfl
          · exact h c hc
          · rfl
    | stop => simp only [stepAlive]; split <;> exact h
    | go ok => exact kept_goMain ok h
    | arrive k f =>
      refine kept_modify h k _ ?_
      intro c _ hc
      split
      · exact hc
      · simp only
        rw [← List.append_assoc, hc]
    | hangUp k => exact kept_modify h k _ fun c _ hc => hc
    | decrypt k n => exact kept_modify h k _ fun c _ hc => by split <;> exact hc
    | listen i ok =>
      simp only [stepAlive]
      split
      · exact h
      · exact kept_goListener i _ ok h
    | put ok =>
      simp only [stepAlive]
      split
      · exact h
      · split <;> exact h
    | putGo j =>
      simp only [stepAlive, goPut]
      split
      · split
        · exact h
        · split
          · exact h
          · split <;> exact h
      · exact h
    | putTimeout j => simp only [stepAlive]; split <;> exact h
    | get =>
      simp only [stepAlive]
      split
      · exact h
      · split
        · exact h
        · split
          · exact h
          · split <;> exact h
  · exact h

theorem kept_run (T : AcnTexts) (rest : Bytes → Envelope) (address : Bytes) (steps : List AgentLife.Step) :
    Kept ((AgentLife.init address).run T rest steps) := by
  have : ∀ (steps : List AgentLife.Step) (s : AgentLife), Kept s → Kept (s.run T rest steps) := by
    intro steps
    induction steps with
    | nil => intro s h; exact h
    | cons st steps ih => intro s h; exact ih _ (kept_step T rest st h)
  refine this steps _ ?_
  intro c hc
  cases hc

/-- **C97, partial: connections.** In every history, on every connection that was made when the receiving goroutines of
all earlier lives had ended, `Start` reads the first frames and then only the goroutine that it left reads, and
together they have read what arrived, in order, up to what is still there. -/
theorem C97_connection_partial (T : AcnTexts) (rest : Bytes → Envelope) (address : Bytes) (steps : List AgentLife.Step)
    {k : Nat} {c : Conn} (hc : ((AgentLife.init address).run T rest steps).conns[k]? = some c) (hcl : c.clean = true) :
    ∃ a b : List Bytes, c.log = a.map (Prod.mk Reader.start) ++ b.map (Prod.mk (Reader.listener k)) ∧
      a ++ b ++ c.input = c.arrived := by
  obtain ⟨a, b, e, _⟩ := (readers_run T rest address steps).log k c hc hcl
  refine ⟨a, b, e, ?_⟩
  rw [← kept_run T rest address steps c (List.mem_iff_getElem?.2 ⟨k, hc⟩), e]
  simp [Function.comp_def]

/-! ## Stopping -/

theorem closeConn_isOpen (s : AgentLife) : s.closeConn.isOpen = false := by
  unfold closeConn
  split
  · next h => simp [isOpen, h]
  · next k h =>
    simp only [isOpen, h]
    rw [List.getElem?_modify]
    cases s.conns[k]? <;> simp

theorem closeConn_some {s : AgentLife} (h : s.conn ≠ none) :
    s.closeConn = { s with conns := s.closeConn.conns } := by
  unfold closeConn
  split
  · next e => exact absurd e h
  · rfl

theorem step_go {T : AcnTexts} {rest : Bytes → Envelope} {s : AgentLife} (ok : Bool) (h : s.dead = none) :
    s.step T rest (.go ok) = s.goMain ok := by
  simp [step, h, stepAlive]

theorem step_dead {T : AcnTexts} {rest : Bytes → Envelope} {s : AgentLife} (st : AgentLife.Step) (h : s.dead ≠ none) :
    s.step T rest st = s := by
  simp [step, h]

/-- The call of `Stop`, from any state in which the queues are right. -/
theorem stop_call (T : AcnTexts) (rest : Bytes → Envelope) {s : AgentLife} (hq : Queues s) (hd : s.dead = none)
    (hm : s.main = .idle) (ok b b' : Bool) :
    (live s.results ∧ s.isOpen = true ∧ ok = true → ∃ outs stats conns,
      s.run T rest [.stop, .go ok, .go b, .go b'] =
        { s with closing := true, outs := outs, stats := stats, conns := conns, results := s.results ++ [.stopped] } ∧
        conns = s.closeConn.conns ∧
        closeChan s.out s.outs = some outs ∧ closeChan s.stat s.stats = some stats) ∧
    (s.conn = none → (s.run T rest [.stop, .go ok, .go b, .go b']).dead = some .panic) ∧
    (s.conn ≠ none → ¬ (s.isOpen = true ∧ ok = true) →
      (s.run T rest [.stop, .go ok, .go b, .go b']).dead = some .fatal) ∧
    (s.isOpen = true ∧ ok = true → ¬ live s.results →
      (s.run T rest [.stop, .go ok, .go b, .go b']).dead = some .panic) := by
  have e0 : s.run T rest [.stop, .go ok, .go b, .go b'] =
      ((({ s with closing := true, main := .flagged } : AgentLife).goMain ok).step T rest (.go b)).step T rest
        (.go b') := by
    simp only [AgentLife.run, List.foldl_cons, List.foldl_nil]
    rw [show s.step T rest .stop = { s with closing := true, main := .flagged } by simp [step, hd, stepAlive, hm]]
    rw [step_go ok]
    exact hd
  rw [e0]
  generalize hs1 : ({ s with closing := true, main := .flagged } : AgentLife) = s1
  have m1 : s1.main = .flagged := by rw [← hs1]
  have o1 : s1.isOpen = s.isOpen := by rw [← hs1]; rfl
  have c1 : s1.conn = s.conn := by rw [← hs1]
  have hopen : s.isOpen = true ∧ ok = true → s1.goMain ok = { s1 with conns := s1.closeConn.conns, main := .socketClosed } := by
    intro ho
    have hc : s1.conn ≠ none := by
      rw [c1]; intro hn; simp [isOpen, hn] at ho
    simp only [goMain, m1, if_neg hc, o1, ho.1, ho.2, Bool.and_self, if_true]
    rw [closeConn_some hc]
  have cc : s1.closeConn.conns = s.closeConn.conns := by
    rw [← hs1]; unfold closeConn; dsimp only; split <;> rfl
  refine ⟨?_, ?_, ?_, ?_⟩
  · rintro ⟨hl, ho⟩
    have ha : chanOpen s.out s.outs := hq.out.2 ⟨hl, by simp [hm]⟩
    have hb : chanOpen s.stat s.stats := hq.stat.2 hl
    obtain ⟨outs, h1⟩ : ∃ o, closeChan s.out s.outs = some o := by
      cases h : closeChan s.out s.outs with
      | none => exact absurd ha (closeChan_none.1 h)
      | some o => exact ⟨o, rfl⟩
    obtain ⟨stats, h2⟩ : ∃ o, closeChan s.stat s.stats = some o := by
      cases h : closeChan s.stat s.stats with
      | none => exact absurd hb (closeChan_none.1 h)
      | some o => exact ⟨o, rfl⟩
    refine ⟨outs, stats, s1.closeConn.conns, ?_, cc, h1, h2⟩
    rw [hopen ho]
    generalize s1.closeConn.conns = conns
    subst hs1
    rw [step_go b (by exact hd)]
    simp only [goMain, h1]
    rw [step_go b' (by exact hd)]
    simp only [goMain, h2, hm]
  · intro hc
    have : s1.goMain ok = { s1 with dead := some .panic } := by simp [goMain, m1, c1, hc]
    rw [this, step_dead (.go b) (by simp), step_dead (.go b') (by simp)]
  · intro hc ho
    have : s1.goMain ok = { s1 with dead := some .fatal } := by
      simp only [goMain, m1, c1, if_neg hc, o1, Bool.and_eq_true, if_neg ho]
    rw [this, step_dead (.go b) (by simp), step_dead (.go b') (by simp)]
  · intro ho hl
    have h1 : closeChan s.out s.outs = none := closeChan_none.2 fun h => hl (hq.out.1 h).1
    rw [hopen ho]
    generalize s1.closeConn.conns = conns
    subst hs1
    rw [step_go b (by exact hd)]
    simp only [goMain, h1]
    rw [step_dead _ (by simp)]

/-- **C97, partial: `Stop`.** Exactly: in every history, a call of `Stop` that nothing interrupts returns if the last
of the successful calls of `Start` and `Stop` was a `Start`, the connection has not been closed and closing it gives no
error, and then connection and queues are closed; otherwise it ends the process. -/
theorem C97_stop_partial (T : AcnTexts) (rest : Bytes → Envelope) (address : Bytes) (steps : List AgentLife.Step)
    (ok b b' : Bool) :
    let s := (AgentLife.init address).run T rest steps
    let s' := s.run T rest [.stop, .go ok, .go b, .go b']
    s.dead = none → s.main = .idle →
      (s'.dead = none ↔ live s.results ∧ s.isOpen = true ∧ ok = true) ∧
      (s'.dead = none → s'.results = s.results ++ [.stopped] ∧ s'.main = .idle ∧ s'.isOpen = false ∧
        ¬ chanOpen s'.out s'.outs ∧ ¬ chanOpen s'.stat s'.stats) ∧
      (s'.dead = some .fatal ↔ s.conn ≠ none ∧ ¬ (s.isOpen = true ∧ ok = true)) := by
  intro s s' hd hm
  have hq : Queues s := queues_run T rest address steps
  obtain ⟨h1, h2, h3, h4⟩ := stop_call T rest hq hd hm ok b b'
  change _ → ∃ outs stats conns, s' = _ ∧ _ at h1
  change _ → s'.dead = _ at h2
  change _ → _ → s'.dead = _ at h3
  change _ → _ → s'.dead = _ at h4
  clear_value s'
  by_cases hc : s.conn = none
  · have ho : s.isOpen = false := by simp [isOpen, hc]
    simp [h2 hc, ho, hc]
  · by_cases ho : s.isOpen = true ∧ ok = true
    · by_cases hl : live s.results
      · obtain ⟨outs, stats, conns, e, e1, e2, e3⟩ := h1 ⟨hl, ho⟩
        have hd' : s'.dead = none := by rw [e]; exact hd
        refine ⟨by simp [hd', hl, ho], fun _ => ⟨by rw [e], by rw [e]; exact hm, ?_, ?_, ?_⟩, by simp [hd', ho]⟩
        · have := closeConn_isOpen s
          rw [closeConn_some hc, ← e1] at this
          rw [e]; exact this
        · rw [e]; exact (closeChan_some e2).2
        · rw [e]; exact (closeChan_some e3).2
      · simp [h4 ho hl, hl, ho]
    · refine ⟨?_, by simp [h3 hc ho], by simp [h3 hc ho, ho, hc]⟩
      simp only [h3 hc ho, reduceCtorEq, false_iff, not_and]
      intro _ a b
      exact ho ⟨a, b⟩

end Verif
