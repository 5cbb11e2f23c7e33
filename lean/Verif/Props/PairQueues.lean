import Verif.Model.PairQueues
import Verif.Props.Announce

/-!
# C35: order of the envelopes of a delegate client
-/

namespace Verif

open PairQueues

/-- The envelopes of a pair. -/
def ofPair (k : Bytes) (l : List Envelope) : List Envelope := l.filter fun e => e.pair == k

theorem ofPair_append (k : Bytes) (a b : List Envelope) :
    ofPair k (a ++ b) = ofPair k a ++ ofPair k b := List.filter_append ..

theorem ofPair_self (e : Envelope) : ofPair e.pair [e] = [e] := by simp [ofPair]

theorem ofPair_ne {k : Bytes} {e : Envelope} (h : e.pair ≠ k) : ofPair k [e] = [] := by
  simp [ofPair, h]

/-- What a worker holds. -/
def WorkerPhase.held : WorkerPhase → List Envelope
  | .holding _ e => [e]
  | _ => []

/-- The channel of a worker. -/
def WorkerPhase.chan? : WorkerPhase → Option Nat
  | .starting => none
  | .idle c => some c
  | .holding c _ => some c
  | .busy c => some c

namespace PairQueues

/-- The queue of a pair. -/
def queueOf (s : PairQueues) (k : Bytes) : List Envelope :=
  match s.table.get k with
  | some c => (s.chans[c]?).getD []
  | none => []

/-- The envelope a handler is working on. -/
def current (s : PairQueues) (h : Nat) : Option Envelope :=
  match s.handlers h with
  | .ready => none
  | .missing e => some e
  | .found e => some e

/-- Invariant, when every pair is used by one connection. -/
structure Inv (own : Bytes → Nat) (s : PairQueues) : Prop where
  chan : ∀ k c, s.table.get k = some c → c < s.chans.length
  inj : ∀ k k' c, s.table.get k = some c → s.table.get k' = some c → k = k'
  owner : ∀ h e, s.current h = some e → own e.pair = h
  missing : ∀ h e, s.handlers h = .missing e → s.table.get e.pair = none
  found : ∀ h e, s.handlers h = .found e → s.table.get e.pair ≠ none
  bound : ∀ w ∈ s.workers, ∀ c, w.phase.chan? = some c → s.table.get w.pair = some c
  one : (s.workers.map (·.pair)).Nodup
  worker : ∀ k, s.table.get k ≠ none → ∃ w ∈ s.workers, w.pair = k
  noworker : ∀ w ∈ s.workers, s.table.get w.pair ≠ none
  held : ∀ w ∈ s.workers, ∀ e ∈ w.phase.held, e.pair = w.pair
  queued : ∀ k, ∀ e ∈ s.queueOf k, e.pair = k
  empty : ∀ k, s.table.get k = none → ofPair k s.accepted = [] ∧ ofPair k s.routed = []
  balance : ∀ w ∈ s.workers, ofPair w.pair s.routed ++ w.phase.held ++ s.queueOf w.pair =
    ofPair w.pair s.accepted
  /-- what is being handled was received last -/
  last : ∀ h e, s.current h = some e → ∃ l, ofPair e.pair s.received = l ++ [e] ∧
    List.Sublist (ofPair e.pair s.accepted) l
  sub : ∀ k, List.Sublist (ofPair k s.accepted) (ofPair k s.received)

theorem inv_init (own : Bytes → Nat) : Inv own init := by
  constructor <;> simp [init, current, ofPair, queueOf]

/-- Replacing a worker by one with the same pair. -/
theorem workers_set {ws : List Worker} {i : Nat} {k : Bytes} {p p' : WorkerPhase}
    (hone : (ws.map (·.pair)).Nodup) (hi : ws[i]? = some ⟨k, p⟩) :
    ((ws.set i ⟨k, p'⟩).map (·.pair)) = ws.map (·.pair) ∧
    ∀ w ∈ ws.set i ⟨k, p'⟩, w = ⟨k, p'⟩ ∨ (w ∈ ws ∧ w.pair ≠ k) := by
  have hlt : i < ws.length := by
    rcases Nat.lt_or_ge i ws.length with h | h
    · exact h
    · rw [List.getElem?_eq_none h] at hi; simp at hi
  have hget : ws[i] = ⟨k, p⟩ := by
    have := List.getElem?_eq_getElem hlt
    rw [hi] at this; exact (Option.some.inj this).symm
  constructor
  · apply List.ext_getElem?
    intro j
    by_cases hij : i = j
    · subst hij
      rw [List.getElem?_map, List.getElem?_map, List.getElem?_set_self hlt, hi]; rfl
    · rw [List.getElem?_map, List.getElem?_map, List.getElem?_set_ne hij]
  · intro w hw
    obtain ⟨j, hj⟩ := List.mem_iff_getElem?.1 hw
    by_cases hij : i = j
    · subst hij
      rw [List.getElem?_set_self hlt] at hj
      exact .inl (Option.some.inj hj).symm
    · rw [List.getElem?_set_ne hij] at hj
      refine .inr ⟨List.mem_of_getElem? hj, fun hk => hij ?_⟩
      have hjl : j < ws.length := by
        rcases Nat.lt_or_ge j ws.length with h | h
        · exact h
        · rw [List.getElem?_eq_none h] at hj; simp at hj
      have h1 : (ws.map (·.pair))[i]'(by simpa using hlt) = (ws.map (·.pair))[j]'(by simpa using hjl) := by
        have hwj : ws[j] = w := by
          have := List.getElem?_eq_getElem hjl
          rw [hj] at this; exact (Option.some.inj this).symm
        simp [hget, hwj, hk]
      exact (List.getElem_inj hone).1 h1

theorem Inv.step {own : Bytes → Nat} {s : PairQueues} (hinv : Inv own s) (st : Step)
    (hown : ∀ h e, st = .recv h e → own e.pair = h) : Inv own (s.step st) := by
  cases st with
  | recv h e =>
    simp only [PairQueues.step]
    split
    case h_2 => exact hinv
    rename_i hready
    have hcur : ∀ h' e', (if h' = h then (if s.table.has e.pair = true then HandlerPhase.found e else
          HandlerPhase.missing e) else s.handlers h') = .missing e' →
        s.table.get e'.pair = none := by
      intro h' e' hh
      split at hh
      · split at hh
        · simp at hh
        · rename_i hn
          simp only [HandlerPhase.missing.injEq] at hh
          subst hh
          simpa [GoMap.has] using hn
      · exact hinv.missing h' e' hh
    have hcurr : ∀ h' e', PairQueues.current { s with
          handlers := s.setHandler h (if s.table.has e.pair then .found e else .missing e)
          received := s.received ++ [e] } h' = some e' →
        (h' = h ∧ e' = e) ∨ (h' ≠ h ∧ s.current h' = some e') := by
      intro h' e' hh
      simp only [current, setHandler] at hh
      by_cases hhh : h' = h
      · simp only [if_pos hhh] at hh
        split at hh
        · rename_i heq; split at heq <;> simp at heq
        · rename_i e'' heq
          split at heq
          · simp at heq
          · simp at heq hh; exact .inl ⟨hhh, by rw [← hh, ← heq]⟩
        · rename_i e'' heq
          split at heq
          · simp at heq hh; exact .inl ⟨hhh, by rw [← hh, ← heq]⟩
          · simp at heq
      · simp only [if_neg hhh] at hh
        exact .inr ⟨hhh, hh⟩
    refine { chan := hinv.chan, inj := hinv.inj, owner := ?_, missing := hcur, found := ?_,
             bound := hinv.bound, one := hinv.one, worker := hinv.worker, noworker := hinv.noworker,
             held := hinv.held, queued := hinv.queued, empty := hinv.empty, balance := hinv.balance,
             last := ?_, sub := ?_ }
    · intro h' e' hh
      rcases hcurr h' e' hh with ⟨rfl, rfl⟩ | ⟨_, h1⟩
      · exact hown _ _ rfl
      · exact hinv.owner h' e' h1
    · intro h' e' hh
      simp only [setHandler] at hh
      split at hh
      · split at hh
        · rename_i hn
          simp only [HandlerPhase.found.injEq] at hh
          subst hh
          simpa [GoMap.has, Option.isSome_iff_ne_none] using hn
        · simp at hh
      · exact hinv.found h' e' hh
    · intro h' e' hh
      dsimp only
      rcases hcurr h' e' hh with ⟨rfl, rfl⟩ | ⟨hne, h1⟩
      · exact ⟨ofPair e'.pair s.received, by rw [ofPair_append, ofPair_self], hinv.sub _⟩
      · have hp : e.pair ≠ e'.pair := by
          intro hp
          have h2 := hinv.owner h' e' h1
          have h3 := hown h e rfl
          rw [hp, h2] at h3
          exact hne h3
        obtain ⟨l, h2, h3⟩ := hinv.last h' e' h1
        exact ⟨l, by rw [ofPair_append, ofPair_ne hp, List.append_nil]; exact h2, h3⟩
    · intro k
      dsimp only
      rw [ofPair_append]
      exact (hinv.sub k).trans (List.sublist_append_left _ _)
  | create h =>
    simp only [PairQueues.step]
    split
    case h_2 => exact hinv
    rename_i e hmiss
    have hnone := hinv.missing h e hmiss
    have hcurr : ∀ (s' : PairQueues) (h' : Nat) (e' : Envelope),
        s'.handlers = s.setHandler h (.found e) → (s'.current h' = some e' ↔ s.current h' = some e') := by
      intro s' h' e' hs'
      simp only [current, hs', setHandler]
      by_cases hh : h' = h
      · subst hh; simp [hmiss]
      · simp [hh]
    have hqueue : ∀ k, PairQueues.queueOf { s with
          handlers := s.setHandler h (.found e)
          table := s.table.set e.pair s.chans.length
          chans := s.chans ++ [[]]
          workers := s.workers ++ [⟨e.pair, .starting⟩] } k = s.queueOf k := by
      intro k
      simp only [queueOf, GoMap.get_set]
      by_cases hk : k = e.pair
      · subst hk; simp [hnone]
      · simp only [if_neg hk]
        cases hg : s.table.get k with
        | none => rfl
        | some c =>
          dsimp only
          rw [List.getElem?_append_left (hinv.chan k c hg)]
    refine { chan := ?_, inj := ?_, owner := ?_, missing := ?_, found := ?_,
             bound := ?_, one := ?_, worker := ?_, noworker := ?_,
             held := ?_, queued := ?_, empty := ?_, balance := ?_,
             last := ?_, sub := hinv.sub }
    · intro k c hk
      simp only [GoMap.get_set] at hk
      simp only [List.length_append, List.length_singleton]
      split at hk
      · simp only [Option.some.injEq] at hk; omega
      · have := hinv.chan k c hk; omega
    · intro k k' c hk hk'
      simp only [GoMap.get_set] at hk hk'
      split at hk <;> split at hk'
      · rename_i h1 h2; rw [h1, h2]
      · simp only [Option.some.injEq] at hk
        have := hinv.chan k' c hk'; omega
      · simp only [Option.some.injEq] at hk'
        have := hinv.chan k c hk; omega
      · exact hinv.inj k k' c hk hk'
    · intro h' e' hh
      exact hinv.owner h' e' ((hcurr _ h' e' rfl).1 hh)
    · intro h' e' hh
      simp only [setHandler] at hh
      split at hh
      · simp at hh
      · rename_i hne
        have h1 := hinv.missing h' e' hh
        simp only [GoMap.get_set]
        rw [if_neg]
        · exact h1
        · intro hp
          have h2 := hinv.owner h' e' (by simp [current, hh])
          have h3 := hinv.owner h e (by simp [current, hmiss])
          rw [hp, h3] at h2
          exact hne h2.symm
    · intro h' e' hh
      simp only [setHandler] at hh
      simp only [GoMap.get_set]
      split at hh
      · simp only [HandlerPhase.found.injEq] at hh
        rw [if_pos (by rw [hh])]; simp
      · split
        · simp
        · exact hinv.found h' e' hh
    · intro w hw c hc
      simp only [GoMap.get_set]
      rcases List.mem_append.1 hw with hw | hw
      · rw [if_neg]
        · exact hinv.bound w hw c hc
        · intro hp
          exact hinv.noworker w hw (by rw [hp]; exact hnone)
      · simp only [List.mem_singleton] at hw
        subst hw
        simp [WorkerPhase.chan?] at hc
    · simp only [List.map_append, List.map_cons, List.map_nil]
      rw [List.nodup_append]
      refine ⟨hinv.one, by simp, ?_⟩
      intro a ha b hb
      simp only [List.mem_singleton] at hb
      subst hb
      rintro rfl
      obtain ⟨w, hw, hwp⟩ := List.mem_map.1 ha
      exact hinv.noworker w hw (by rw [hwp]; exact hnone)
    · intro k hk
      simp only [GoMap.get_set] at hk
      split at hk
      · rename_i hke
        exact ⟨⟨e.pair, .starting⟩, List.mem_append_right _ (by simp), hke.symm⟩
      · obtain ⟨w, hw, hwp⟩ := hinv.worker k hk
        exact ⟨w, List.mem_append_left _ hw, hwp⟩
    · intro w hw
      simp only [GoMap.get_set]
      split
      · simp
      · rename_i hne
        rcases List.mem_append.1 hw with hw | hw
        · exact hinv.noworker w hw
        · simp only [List.mem_singleton] at hw
          subst hw
          exact absurd rfl hne
    · intro w hw e' he'
      rcases List.mem_append.1 hw with hw | hw
      · exact hinv.held w hw e' he'
      · simp only [List.mem_singleton] at hw
        subst hw
        simp [WorkerPhase.held] at he'
    · intro k
      rw [hqueue k]; exact hinv.queued k
    · intro k hk
      simp only [GoMap.get_set] at hk
      split at hk
      · simp at hk
      · exact hinv.empty k hk
    · intro w hw
      rw [hqueue]
      rcases List.mem_append.1 hw with hw | hw
      · exact hinv.balance w hw
      · simp only [List.mem_singleton] at hw
        subst hw
        have := hinv.empty e.pair hnone
        simp [WorkerPhase.held, queueOf, hnone, this.1, this.2]
    · intro h' e' hh
      exact hinv.last h' e' ((hcurr _ h' e' rfl).1 hh)
  | put h =>
    simp only [PairQueues.step]
    split
    case h_2 => exact hinv
    rename_i e hf
    have hcurr : ∀ (s' : PairQueues) (h' : Nat) (e' : Envelope),
        s'.handlers = s.setHandler h .ready → s'.current h' = some e' →
        h' ≠ h ∧ s.current h' = some e' := by
      intro s' h' e' hs' hh
      simp only [current, hs', setHandler] at hh
      by_cases hhh : h' = h
      · simp [hhh] at hh
      · refine ⟨hhh, ?_⟩
        simp only [if_neg hhh] at hh
        exact hh
    have hmissing : ∀ h' e', s.setHandler h .ready h' = .missing e' → s.handlers h' = .missing e' := by
      intro h' e' hh
      simp only [setHandler] at hh
      split at hh
      · simp at hh
      · exact hh
    have hfound : ∀ h' e', s.setHandler h .ready h' = .found e' → s.handlers h' = .found e' := by
      intro h' e' hh
      simp only [setHandler] at hh
      split at hh
      · simp at hh
      · exact hh
    have hdrop : Inv own { s with handlers := s.setHandler h .ready } :=
      { chan := hinv.chan, inj := hinv.inj,
        owner := fun h' e' hh => hinv.owner h' e' (hcurr _ h' e' rfl hh).2,
        missing := fun h' e' hh => hinv.missing h' e' (hmissing h' e' hh),
        found := fun h' e' hh => hinv.found h' e' (hfound h' e' hh),
        bound := hinv.bound, one := hinv.one, worker := hinv.worker, noworker := hinv.noworker,
        held := hinv.held, queued := hinv.queued, empty := hinv.empty, balance := hinv.balance,
        last := fun h' e' hh => hinv.last h' e' (hcurr _ h' e' rfl hh).2, sub := hinv.sub }
    cases hg : s.table.get e.pair with
    | none => exact absurd hg (hinv.found h e hf)
    | some c =>
      dsimp only
      split
      case isFalse => exact hdrop
      have hc := hinv.chan _ _ hg
      have hqueue : ∀ k, PairQueues.queueOf { s with
            handlers := s.setHandler h .ready
            chans := s.chans.set c ((s.chans[c]?).getD [] ++ [e])
            accepted := s.accepted ++ [e] } k =
          if k = e.pair then s.queueOf k ++ [e] else s.queueOf k := by
        intro k
        simp only [queueOf]
        by_cases hk : k = e.pair
        · subst hk
          rw [if_pos rfl, hg]
          dsimp only
          rw [List.getElem?_set_self hc]; rfl
        · rw [if_neg hk]
          cases hg' : s.table.get k with
          | none => rfl
          | some c' =>
            dsimp only
            have : c ≠ c' := by
              rintro rfl
              exact hk (hinv.inj _ _ _ hg' hg)
            rw [List.getElem?_set_ne this]
      refine { chan := ?_, inj := hinv.inj, owner := hdrop.owner, missing := hdrop.missing,
               found := hdrop.found, bound := hinv.bound, one := hinv.one, worker := hinv.worker,
               noworker := hinv.noworker, held := hinv.held, queued := ?_, empty := ?_,
               balance := ?_, last := ?_, sub := ?_ }
      · intro k c' hk
        simp only [List.length_set]
        exact hinv.chan k c' hk
      · intro k e' he'
        rw [hqueue] at he'
        split at he'
        · rename_i hk
          rcases List.mem_append.1 he' with he' | he'
          · exact hinv.queued k e' he'
          · simp only [List.mem_singleton] at he'
            rw [he', hk]
        · exact hinv.queued k e' he'
      · intro k hk
        have hne : e.pair ≠ k := by
          rintro rfl
          rw [show (s.table.get e.pair) = some c from hg] at hk
          simp at hk
        dsimp only
        rw [ofPair_append, ofPair_ne hne, List.append_nil]
        exact hinv.empty k hk
      · intro w hw
        have hb := hinv.balance w hw
        rw [hqueue]
        dsimp only
        rw [ofPair_append]
        by_cases hk : w.pair = e.pair
        · rw [if_pos hk, ← List.append_assoc, hb, hk, ofPair_self]
        · rw [if_neg hk, ofPair_ne (fun h => hk h.symm), List.append_nil]; exact hb
      · intro h' e' hh
        obtain ⟨hne, h1⟩ := hcurr _ h' e' rfl hh
        obtain ⟨l, h2, h3⟩ := hinv.last h' e' h1
        refine ⟨l, h2, ?_⟩
        have hp : e.pair ≠ e'.pair := by
          intro hp
          have h4 := hinv.owner h' e' h1
          have h5 := hinv.owner h e (by simp [current, hf])
          rw [hp, h4] at h5
          exact hne h5
        dsimp only
        rw [ofPair_append, ofPair_ne hp, List.append_nil]
        exact h3
      · intro k
        dsimp only
        rw [ofPair_append]
        by_cases hk : e.pair = k
        · subst hk
          obtain ⟨l, h2, h3⟩ := hinv.last h e (by simp [current, hf])
          rw [ofPair_self, h2]
          exact h3.append (List.Sublist.refl _)
        · rw [ofPair_ne hk, List.append_nil]
          exact hinv.sub k
  | start w =>
    simp only [PairQueues.step]
    split
    case h_2 => exact hinv
    rename_i k hw
    cases hg : s.table.get k with
    | none => exact hinv
    | some c =>
      dsimp only
      obtain ⟨hm, hmem⟩ := workers_set (p' := .idle c) hinv.one hw
      have hkw : (⟨k, .starting⟩ : Worker) ∈ s.workers := List.mem_of_getElem? hw
      refine { hinv with bound := ?_, one := ?_, worker := ?_, noworker := ?_, held := ?_, balance := ?_ }
      · intro w' hw' c' hc'
        rcases hmem w' hw' with rfl | ⟨h1, _⟩
        · simp only [WorkerPhase.chan?, Option.some.injEq] at hc'
          subst hc'; exact hg
        · exact hinv.bound w' h1 c' hc'
      · dsimp only; rw [hm]; exact hinv.one
      · intro k' hk'
        obtain ⟨w', h1, h2⟩ := hinv.worker k' hk'
        have : k' ∈ (s.workers.set w ⟨k, .idle c⟩).map (·.pair) := by
          rw [hm]; exact List.mem_map.2 ⟨w', h1, h2⟩
        obtain ⟨w'', h3, h4⟩ := List.mem_map.1 this
        exact ⟨w'', h3, h4⟩
      · intro w' hw'
        rcases hmem w' hw' with rfl | ⟨h1, _⟩
        · simp [hg]
        · exact hinv.noworker w' h1
      · intro w' hw'
        rcases hmem w' hw' with rfl | ⟨h1, _⟩
        · simp [WorkerPhase.held]
        · exact hinv.held w' h1
      · intro w' hw'
        rcases hmem w' hw' with rfl | ⟨h1, _⟩
        · have := hinv.balance _ hkw
          exact this
        · exact hinv.balance w' h1
  | take w =>
    simp only [PairQueues.step]
    split
    case h_2 => exact hinv
    rename_i k c hw
    split
    case h_2 => exact hinv
    rename_i e rest hch
    obtain ⟨hm, hmem⟩ := workers_set (p' := .holding c e) hinv.one hw
    have hkw : (⟨k, .idle c⟩ : Worker) ∈ s.workers := List.mem_of_getElem? hw
    have hg : s.table.get k = some c := hinv.bound _ hkw c rfl
    have hc := hinv.chan _ _ hg
    have hqk : s.queueOf k = e :: rest := by simp [queueOf, hg, hch]
    have hqueue : ∀ k', PairQueues.queueOf { s with
          workers := s.workers.set w ⟨k, .holding c e⟩
          chans := s.chans.set c rest } k' = if k' = k then rest else s.queueOf k' := by
      intro k'
      simp only [queueOf]
      by_cases hk : k' = k
      · subst hk
        rw [if_pos rfl, hg]
        dsimp only
        rw [List.getElem?_set_self hc]; rfl
      · rw [if_neg hk]
        cases hg' : s.table.get k' with
        | none => rfl
        | some c' =>
          dsimp only
          have : c ≠ c' := by
            rintro rfl
            exact hk (hinv.inj _ _ _ hg' hg)
          rw [List.getElem?_set_ne this]
    refine { hinv with chan := ?_, bound := ?_, one := ?_, worker := ?_, noworker := ?_, held := ?_,
                       queued := ?_, balance := ?_ }
    · intro k' c' hk'
      simp only [List.length_set]
      exact hinv.chan k' c' hk'
    · intro w' hw' c' hc'
      rcases hmem w' hw' with rfl | ⟨h1, _⟩
      · simp only [WorkerPhase.chan?, Option.some.injEq] at hc'
        subst hc'; exact hg
      · exact hinv.bound w' h1 c' hc'
    · dsimp only; rw [hm]; exact hinv.one
    · intro k' hk'
      obtain ⟨w', h1, h2⟩ := hinv.worker k' hk'
      have : k' ∈ (s.workers.set w ⟨k, .holding c e⟩).map (·.pair) := by
        rw [hm]; exact List.mem_map.2 ⟨w', h1, h2⟩
      obtain ⟨w'', h3, h4⟩ := List.mem_map.1 this
      exact ⟨w'', h3, h4⟩
    · intro w' hw'
      rcases hmem w' hw' with rfl | ⟨h1, _⟩
      · simp [hg]
      · exact hinv.noworker w' h1
    · intro w' hw' e' he'
      rcases hmem w' hw' with rfl | ⟨h1, _⟩
      · simp only [WorkerPhase.held, List.mem_singleton] at he'
        subst he'
        exact hinv.queued k e' (by rw [hqk]; simp)
      · exact hinv.held w' h1 e' he'
    · intro k' e' he'
      rw [hqueue] at he'
      split at he'
      · rename_i hk
        exact hinv.queued k' e' (by rw [hk, hqk]; simp [he'])
      · exact hinv.queued k' e' he'
    · intro w' hw'
      rw [hqueue]
      rcases hmem w' hw' with rfl | ⟨h1, h2⟩
      · have := hinv.balance _ hkw
        simp only [WorkerPhase.held, List.append_nil, hqk] at this
        simp only [if_true, WorkerPhase.held]
        rw [← this]; simp
      · rw [if_neg h2]
        exact hinv.balance w' h1
  | route w =>
    simp only [PairQueues.step]
    split
    case h_2 => exact hinv
    rename_i k c e hw
    obtain ⟨hm, hmem⟩ := workers_set (p' := .busy c) hinv.one hw
    have hkw : (⟨k, .holding c e⟩ : Worker) ∈ s.workers := List.mem_of_getElem? hw
    have hg : s.table.get k = some c := hinv.bound _ hkw c rfl
    have hek : e.pair = k := hinv.held _ hkw e (by simp [WorkerPhase.held])
    refine { hinv with bound := ?_, one := ?_, worker := ?_, noworker := ?_, held := ?_, empty := ?_,
                       balance := ?_ }
    · intro w' hw' c' hc'
      rcases hmem w' hw' with rfl | ⟨h1, _⟩
      · simp only [WorkerPhase.chan?, Option.some.injEq] at hc'
        subst hc'; exact hg
      · exact hinv.bound w' h1 c' hc'
    · dsimp only; rw [hm]; exact hinv.one
    · intro k' hk'
      obtain ⟨w', h1, h2⟩ := hinv.worker k' hk'
      have : k' ∈ (s.workers.set w ⟨k, .busy c⟩).map (·.pair) := by
        rw [hm]; exact List.mem_map.2 ⟨w', h1, h2⟩
      obtain ⟨w'', h3, h4⟩ := List.mem_map.1 this
      exact ⟨w'', h3, h4⟩
    · intro w' hw'
      rcases hmem w' hw' with rfl | ⟨h1, _⟩
      · simp [hg]
      · exact hinv.noworker w' h1
    · intro w' hw'
      rcases hmem w' hw' with rfl | ⟨h1, _⟩
      · simp [WorkerPhase.held]
      · exact hinv.held w' h1
    · intro k' hk'
      have hne : e.pair ≠ k' := by
        rintro rfl
        dsimp only at hk'
        rw [hek, hg] at hk'
        simp at hk'
      dsimp only
      rw [ofPair_append, ofPair_ne hne, List.append_nil]
      exact hinv.empty k' hk'
    · intro w' hw'
      dsimp only
      rw [ofPair_append]
      rcases hmem w' hw' with rfl | ⟨h1, h2⟩
      · have := hinv.balance _ hkw
        simp only [WorkerPhase.held] at this
        rw [← this]
        subst hek
        rw [ofPair_self]; simp [WorkerPhase.held, queueOf]
      · rw [ofPair_ne (by rw [hek]; exact fun h => h2 h.symm), List.append_nil]
        exact hinv.balance w' h1
  | finish w =>
    simp only [PairQueues.step]
    split
    case h_2 => exact hinv
    rename_i k c hw
    obtain ⟨hm, hmem⟩ := workers_set (p' := .idle c) hinv.one hw
    have hkw : (⟨k, .busy c⟩ : Worker) ∈ s.workers := List.mem_of_getElem? hw
    have hg : s.table.get k = some c := hinv.bound _ hkw c rfl
    refine { hinv with bound := ?_, one := ?_, worker := ?_, noworker := ?_, held := ?_, balance := ?_ }
    · intro w' hw' c' hc'
      rcases hmem w' hw' with rfl | ⟨h1, _⟩
      · simp only [WorkerPhase.chan?, Option.some.injEq] at hc'
        subst hc'; exact hg
      · exact hinv.bound w' h1 c' hc'
    · dsimp only; rw [hm]; exact hinv.one
    · intro k' hk'
      obtain ⟨w', h1, h2⟩ := hinv.worker k' hk'
      have : k' ∈ (s.workers.set w ⟨k, .idle c⟩).map (·.pair) := by
        rw [hm]; exact List.mem_map.2 ⟨w', h1, h2⟩
      obtain ⟨w'', h3, h4⟩ := List.mem_map.1 this
      exact ⟨w'', h3, h4⟩
    · intro w' hw'
      rcases hmem w' hw' with rfl | ⟨h1, _⟩
      · simp [hg]
      · exact hinv.noworker w' h1
    · intro w' hw'
      rcases hmem w' hw' with rfl | ⟨h1, _⟩
      · simp [WorkerPhase.held]
      · exact hinv.held w' h1
    · intro w' hw'
      rcases hmem w' hw' with rfl | ⟨h1, _⟩
      · have hb := hinv.balance _ hkw
        exact hb
      · exact hinv.balance w' h1

theorem inv_run {own : Bytes → Nat} (steps : List Step)
    (hown : ∀ h e, .recv h e ∈ steps → own e.pair = h) : Inv own (run .init steps) := by
  have key : ∀ (steps : List Step) (s : PairQueues), Inv own s →
      (∀ h e, .recv h e ∈ steps → own e.pair = h) → Inv own (run s steps) := by
    intro steps
    induction steps with
    | nil => intro s h _; exact h
    | cons st steps ih =>
      intro s h ho
      exact ih _ (h.step st fun h e he => ho h e (by simp [he]))
        fun h e he => ho h e (List.mem_cons_of_mem _ he)
  exact key steps _ (inv_init own) hown

end PairQueues

/-- The envelopes of a sender to a receiver. -/
def between (sender receiver : Bytes) (l : List Envelope) : List Envelope :=
  l.filter fun e => e.sender == sender && e.to == receiver

theorem between_ofPair (a r : Bytes) (l : List Envelope) :
    between a r l = between a r (ofPair (r ++ a) l) := by
  unfold between ofPair
  rw [List.filter_filter]
  congr 1
  funext e
  by_cases h : e.sender = a ∧ e.to = r
  · simp [h.1, h.2, Envelope.pair]
  · simp only [Bool.and_assoc]
    have : (e.sender == a && e.to == r) = false := by
      simpa [Bool.and_eq_false_iff] using fun h1 h2 => h ⟨h1, h2⟩
    rw [← Bool.and_assoc, this]; simp

/-- **C35, partial.** Suppose no two connections of the peer use the same queue. Then for every
scheduling of handlers and workers, and every sender and receiver: `RouteEnvelope` is called for the
envelopes in the order in which they were put into the queue, without loss or duplicates in
between; and they were put there in the order in which the client sent them, except for those
discarded because the queue was full. Missing from the property: two connections that race for one
queue (`C35_race_counterexample`), and envelopes overtaken in the retry queue after `RouteEnvelope`
was called in order (`C35_retry_counterexample`). -/
theorem C35_order_partial (own : Bytes → Nat) (steps : List Step)
    (hown : ∀ h e, .recv h e ∈ steps → own e.pair = h) (sender receiver : Bytes) :
    between sender receiver (run .init steps).routed <+: between sender receiver (run .init steps).accepted ∧
    List.Sublist (between sender receiver (run .init steps).accepted)
      (between sender receiver (run .init steps).received) := by
  have inv := inv_run steps hown
  generalize run .init steps = s at *
  rw [between_ofPair _ _ s.routed, between_ofPair _ _ s.accepted, between_ofPair _ _ s.received]
  constructor
  · cases hg : s.table.get (receiver ++ sender) with
    | none =>
      have := inv.empty _ hg
      rw [this.1, this.2]
      exact List.prefix_refl _
    | some c =>
      obtain ⟨w, hw, hwp⟩ := inv.worker (receiver ++ sender) (by simp [hg])
      have hb := inv.balance w hw
      rw [hwp, List.append_assoc] at hb
      rw [← hb]
      unfold between
      rw [List.filter_append]
      exact List.prefix_append _ _
  · exact (inv.sub _).filter _

/-- A queue never holds more than a worker can be given, and nothing is discarded below the
capacity: an envelope is put exactly if the queue has room. -/
theorem C35_discard_iff (s : PairQueues) (h : Nat) (e : Envelope) (c : Nat) (q : List Envelope)
    (hf : s.handlers h = .found e) (hg : s.table.get e.pair = some c) (hq : s.chans[c]? = some q) :
    (s.step (.put h)).accepted = if q.length < 1000 then s.accepted ++ [e] else s.accepted := by
  simp only [step, hf, hg, hq, Option.getD_some, capacity]
  split <;> rfl

/-! ## Counterexamples -/

namespace PairDemo

/-- An envelope with the given content. -/
def env (m : Bytes) : Envelope := ⟨b! "bob", b! "ag", b! "p", m, []⟩
/-- One connection; routes its envelopes in order. -/
def single : List Step :=
  [.recv 0 (env (b! "1")), .create 0, .put 0, .recv 0 (env (b! "2")), .start 0, .take 0, .put 0, .route 0,
   .finish 0, .take 0, .route 0]
/-- Two connections of the same client find no queue and both make one. -/
def race : List Step :=
  [.recv 0 (env (b! "1")), .recv 1 (env (b! "0")), .create 0, .create 1, .start 0, .start 1, .put 0,
   .recv 0 (env (b! "2")), .put 0, .take 0, .take 1, .route 1, .route 0]
/-- The second queue replaces the first after an envelope was put there. -/
def loss : List Step :=
  [.recv 0 (env (b! "1")), .recv 1 (env (b! "0")), .create 0, .put 0, .create 1, .start 0, .start 1]

end PairDemo

set_option maxRecDepth 100000 in
example : (run .init PairDemo.single).routed = [PairDemo.env (b! "1"), PairDemo.env (b! "2")] := by
  decide

set_option maxRecDepth 100000 in
/-- **C35 is false** of two connections: connection 0 sent `1` before `2`, `RouteEnvelope` is called
for `2` first. -/
theorem C35_race_counterexample :
    (run .init PairDemo.race).received =
      [PairDemo.env (b! "1"), PairDemo.env (b! "0"), PairDemo.env (b! "2")] ∧
    (run .init PairDemo.race).routed = [PairDemo.env (b! "2"), PairDemo.env (b! "1")] := by
  decide

set_option maxRecDepth 100000 in
/-- An envelope can also be lost that way: it is in a queue that no worker reads. -/
theorem C35_lost_counterexample :
    (run .init PairDemo.loss).accepted = [PairDemo.env (b! "1")] ∧
    (run .init PairDemo.loss).chans = [[PairDemo.env (b! "1")], []] ∧
    (run .init PairDemo.loss).workers =
      [⟨b! "bobag", .idle 1⟩, ⟨b! "bobag", .idle 1⟩] := by
  decide

set_option maxRecDepth 100000 in
set_option maxHeartbeats 4000000 in
/-- **C35 is false** of delivery even with one connection: the look-up for the first envelope fails and
it is queued for retry; the second is sent; then the first. -/
theorem C35_retry_counterexample :
    (routeEnvelope RouteDemo.peer { RouteDemo.net with rounds := [⟨[], true⟩] }
      (RouteDemo.env (b! "far"))).2.1 = [.inc, .dec, .slow (RouteDemo.env (b! "far"))] ∧
    RouteDemo.brief (routeEnvelope RouteDemo.peer RouteDemo.net
      { RouteDemo.env (b! "far") with message := b! "2" }).2.1 = [(0, []), (5, b! "pk"), (1, [])] ∧
    RouteDemo.brief (slowAttempt RouteDemo.peer RouteDemo.net (RouteDemo.env (b! "far"))).1 =
      [(5, b! "pk"), (1, [])] := by
  decide

end Verif
