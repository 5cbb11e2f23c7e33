import Verif.Model.Announce
import Verif.Props.Routing

/-!
# C36, C37: the table of delegate connections, and announcing addresses
-/

namespace Verif

/-! ## C37 -/

namespace Announcer

/-- An address marked as announced has been provided, or providing it went wrong, or a call is
about to provide it. -/
structure Inv (s : Announcer) : Prop where
  announced : ∀ a ∈ s.announced, (∃ o, (a, o) ∈ s.log) ∨ (a, .marked) ∈ s.calls
  returned : ∀ a, (a, .returned true) ∈ s.calls →
    a ∈ s.announced ∨ (a, .provided) ∈ s.log ∨ (a, .deadline) ∈ s.log

theorem mem_set {α : Type} {l : List α} {i : Nat} {a x : α} (h : x ∈ l.set i a) : x = a ∨ x ∈ l := by
  rcases List.mem_or_eq_of_mem_set h with h | h
  · exact .inr h
  · exact .inl h

theorem mem_set_of {α : Type} {l : List α} {i : Nat} {a b x : α} (hi : l[i]? = some b) (hx : x ∈ l)
    (hne : x ≠ b) : x ∈ l.set i a := by
  obtain ⟨j, hj⟩ := List.mem_iff_getElem?.1 hx
  have hij : i ≠ j := by
    rintro rfl
    rw [hi] at hj
    exact hne (Option.some.inj hj).symm
  apply List.mem_iff_getElem?.2
  exact ⟨j, by rw [List.getElem?_set_ne hij]; exact hj⟩

theorem mem_set_self {α : Type} {l : List α} {i : Nat} {a b : α} (hi : l[i]? = some b) :
    a ∈ l.set i a := by
  have hlt : i < l.length := by
    rcases Nat.lt_or_ge i l.length with h | h
    · exact h
    · rw [List.getElem?_eq_none h] at hi; simp at hi
  apply List.mem_iff_getElem?.2
  exact ⟨i, by rw [List.getElem?_set_self hlt]⟩

theorem Inv.step {s : Announcer} (h : Inv s) (st : Step) : Inv (s.step st) := by
  cases st with
  | call addr =>
    refine ⟨fun a ha => ?_, fun a ha => ?_⟩
    · rcases h.announced a ha with h1 | h1
      · exact .inl h1
      · exact .inr (List.mem_append_left _ h1)
    · rcases List.mem_append.1 ha with ha | ha
      · exact h.returned a ha
      · simp at ha
  | go i outcome =>
    simp only [Announcer.step]
    cases hi : s.calls[i]? with
    | none => exact h
    | some x =>
      obtain ⟨addr, ph⟩ := x
      cases ph with
      | start =>
        dsimp only
        split
        · rename_i hc
          refine ⟨fun a ha => ?_, fun a ha => ?_⟩
          · rcases h.announced a ha with h1 | h1
            · exact .inl h1
            · exact .inr (mem_set_of hi h1 (by simp))
          · rcases mem_set ha with ha | ha
            · simp only [Prod.mk.injEq, and_true] at ha
              rw [ha]; exact .inl (by simpa using hc)
            · exact h.returned a ha
        · refine ⟨fun a ha => ?_, fun a ha => ?_⟩
          · rcases h.announced a ha with h1 | h1
            · exact .inl h1
            · exact .inr (mem_set_of hi h1 (by simp))
          · rcases mem_set ha with ha | ha
            · simp at ha
            · exact h.returned a ha
      | checked =>
        refine ⟨fun a ha => ?_, fun a ha => ?_⟩
        · rcases List.mem_cons.1 ha with rfl | ha
          · exact .inr (mem_set_self hi)
          · rcases h.announced a ha with h1 | h1
            · exact .inl h1
            · exact .inr (mem_set_of hi h1 (by simp))
        · rcases mem_set ha with ha | ha
          · simp at ha
          · rcases h.returned a ha with h1 | h1
            · exact .inl (List.mem_cons_of_mem _ h1)
            · exact .inr h1
      | marked =>
        refine ⟨fun a ha => ?_, fun a ha => ?_⟩
        · rcases h.announced a ha with ⟨o, h1⟩ | h1
          · exact .inl ⟨o, List.mem_append_left _ h1⟩
          · by_cases heq : a = addr
            · subst heq
              exact .inl ⟨outcome, List.mem_append_right _ (by simp)⟩
            · exact .inr (mem_set_of hi h1 (by simp [heq]))
        · rcases mem_set ha with ha | ha
          · simp only [Prod.mk.injEq, AnnouncePhase.returned.injEq] at ha
            obtain ⟨rfl, ho⟩ := ha
            cases outcome
            · exact .inr (.inl (List.mem_append_right _ (by simp)))
            · exact .inr (.inr (List.mem_append_right _ (by simp)))
            · simp at ho
          · rcases h.returned a ha with h1 | h1 | h1
            · exact .inl h1
            · exact .inr (.inl (List.mem_append_left _ h1))
            · exact .inr (.inr (List.mem_append_left _ h1))
      | returned b => exact h

theorem inv_run (steps : List Step) : Inv (run .init steps) := by
  have key : ∀ (steps : List Step) (s : Announcer), Inv s → Inv (run s steps) := by
    intro steps
    induction steps with
    | nil => intro s h; exact h
    | cons st steps ih => intro s h; exact ih _ (h.step st)
  exact key steps _ ⟨by simp [init], by simp [init]⟩

end Announcer

open Announcer

/-- **C37, partial.** If a registration of an address reported success, the address has been
provided to the DHT, unless an attempt to provide it failed or timed out, or another call is
providing it right now. For every interleaving of calls. Missing from the property: those
exceptions (`C37_counterexample`), and the retry (`C37_never_retried`). -/
theorem C37_success_provided_partial (steps : List Step) (a : Bytes)
    (h : (a, .returned true) ∈ (run .init steps).calls)
    (h1 : (a, .failed) ∉ (run .init steps).log) (h2 : (a, .deadline) ∉ (run .init steps).log)
    (h3 : (a, .marked) ∉ (run .init steps).calls) :
    (a, .provided) ∈ (run .init steps).log := by
  have inv := inv_run steps
  rcases inv.returned a h with ha | ha | ha
  · rcases inv.announced a ha with ⟨o, ho⟩ | ho
    · cases o
      · exact ho
      · exact absurd ho h2
      · exact absurd ho h1
    · exact absurd ho h3
  · exact ha
  · exact absurd ha h2

/-- Once marked, an address stays marked. -/
theorem announced_mono (s : Announcer) (st : Step) (a : Bytes) (h : a ∈ s.announced) :
    a ∈ (s.step st).announced := by
  cases st with
  | call addr => exact h
  | go i outcome =>
    simp only [Announcer.step]
    cases s.calls[i]? with
    | none => exact h
    | some x =>
      obtain ⟨addr, ph⟩ := x
      cases ph
      case start => dsimp only; split <;> exact h
      case checked => exact List.mem_cons_of_mem _ h
      all_goals exact h

/-- **C37 is false** of retries: once an address is marked, which happens before it is provided and
whether or not that succeeds, no later call provides it; every later call reports success. -/
theorem C37_never_retried (steps : List Step) (s : Announcer) (a : Bytes) (h : a ∈ s.announced)
    (hcalls : ∀ ph, (a, ph) ∈ s.calls → ph = .start ∨ ∃ b, ph = .returned b) :
    (run s steps).log.filter (·.1 == a) = s.log.filter (·.1 == a) ∧
    ∀ i, s.calls.length ≤ i → ∀ ph, (run s steps).calls[i]? = some (a, ph) →
      ph = .start ∨ ph = .returned true := by
  suffices key : ∀ (steps : List Step) (s : Announcer) (k : Nat), a ∈ s.announced → k ≤ s.calls.length →
      (∀ ph, (a, ph) ∈ s.calls → ph = .start ∨ ∃ b, ph = .returned b) →
      (∀ i, k ≤ i → ∀ ph, s.calls[i]? = some (a, ph) → ph = .start ∨ ph = .returned true) →
      (run s steps).log.filter (·.1 == a) = s.log.filter (·.1 == a) ∧
      ∀ i, k ≤ i → ∀ ph, (run s steps).calls[i]? = some (a, ph) →
        ph = .start ∨ ph = .returned true by
    apply key steps s s.calls.length h (Nat.le_refl _) hcalls
    intro i hi ph hp
    rw [List.getElem?_eq_none hi] at hp; simp at hp
  clear hcalls h s steps
  intro steps
  induction steps with
  | nil => intro s k _ _ _ hk; exact ⟨rfl, hk⟩
  | cons st steps ih =>
    intro s k ha hlen hc hk
    have hstep : (s.step st).log.filter (·.1 == a) = s.log.filter (·.1 == a) ∧
        k ≤ (s.step st).calls.length ∧
        (∀ ph, (a, ph) ∈ (s.step st).calls → ph = .start ∨ ∃ b, ph = .returned b) ∧
        (∀ i, k ≤ i → ∀ ph, (s.step st).calls[i]? = some (a, ph) → ph = .start ∨ ph = .returned true) := by
      cases st with
      | call addr =>
        refine ⟨rfl, by simp only [Announcer.step, List.length_append]; omega, ?_, ?_⟩
        · intro ph hp
          rcases List.mem_append.1 hp with hp | hp
          · exact hc ph hp
          · simp only [List.mem_singleton, Prod.mk.injEq] at hp; exact .inl hp.2
        · intro i hi ph hp
          simp only [Announcer.step] at hp
          rcases Nat.lt_or_ge i s.calls.length with hlt | hge
          · rw [List.getElem?_append_left hlt] at hp; exact hk i hi ph hp
          · rw [List.getElem?_append_right hge] at hp
            have := List.mem_of_getElem? hp
            simp only [List.mem_singleton, Prod.mk.injEq] at this
            exact .inl this.2
      | go j outcome =>
        simp only [Announcer.step]
        cases hj : s.calls[j]? with
        | none => exact ⟨rfl, hlen, hc, hk⟩
        | some x =>
          obtain ⟨addr, ph0⟩ := x
          have hset : ∀ (y : Bytes × AnnouncePhase),
              (y.1 = a → y.2 = .start ∨ y.2 = .returned true ∨ (j < k ∧ ∃ b, y.2 = .returned b)) →
              k ≤ (s.calls.set j y).length ∧
              (∀ ph, (a, ph) ∈ s.calls.set j y → ph = .start ∨ ∃ b, ph = .returned b) ∧
              (∀ i, k ≤ i → ∀ ph, (s.calls.set j y)[i]? = some (a, ph) →
                ph = .start ∨ ph = .returned true) := by
            intro y hy
            refine ⟨by simpa using hlen, ?_, ?_⟩
            · intro ph hp
              rcases mem_set hp with hp | hp
              · rw [← hp] at hy
                rcases hy rfl with h | h | ⟨_, h⟩
                · exact .inl h
                · exact .inr ⟨true, h⟩
                · exact .inr h
              · exact hc ph hp
            · intro i hi ph hp
              by_cases hij : j = i
              · subst hij
                have hlt : j < s.calls.length := by
                  rcases Nat.lt_or_ge j s.calls.length with h | h
                  · exact h
                  · rw [List.getElem?_eq_none h] at hj; simp at hj
                rw [List.getElem?_set_self hlt] at hp
                have hp := Option.some.inj hp
                rw [hp] at hy
                rcases hy rfl with h | h | ⟨h, _⟩
                · exact .inl h
                · exact .inr h
                · omega
              · rw [List.getElem?_set_ne hij] at hp
                exact hk i hi ph hp
          cases ph0 with
          | start =>
            dsimp only
            split
            · exact ⟨rfl, hset (addr, .returned true) (fun _ => .inr (.inl rfl))⟩
            · rename_i hna
              refine ⟨rfl, hset (addr, .checked) ?_⟩
              intro h0
              simp only at h0
              subst h0
              exact absurd (by simpa using ha) hna
          | checked =>
            refine ⟨rfl, hset (addr, .marked) ?_⟩
            intro h0
            simp only at h0
            subst h0
            have := hc _ (List.mem_of_getElem? hj)
            simp at this
          | marked =>
            dsimp only
            have hne : addr ≠ a := by
              rintro rfl
              have := hc _ (List.mem_of_getElem? hj)
              simp at this
            refine ⟨by simp [hne], hset _ fun h0 => absurd h0 hne⟩
          | returned b => exact ⟨rfl, hlen, hc, hk⟩
    obtain ⟨h1, h2, h3, h4⟩ := hstep
    have := ih (s.step st) k (announced_mono s st a ha) h2 h3 h4
    refine ⟨?_, this.2⟩
    rw [← h1]; exact this.1

/-- **C37 is false**: a failed announcement makes the next call report success without providing
the address; a time-out is reported as success; a concurrent call reports success before the
address is provided. -/
theorem C37_counterexample :
    run .init [.call (b! "a"), .go 0 .provided, .go 0 .provided, .go 0 .failed,
        .call (b! "a"), .go 1 .provided] =
      ⟨[b! "a"], [(b! "a", .returned false), (b! "a", .returned true)], [(b! "a", .failed)]⟩ ∧
    run .init [.call (b! "a"), .go 0 .provided, .go 0 .provided, .go 0 .deadline] =
      ⟨[b! "a"], [(b! "a", .returned true)], [(b! "a", .deadline)]⟩ ∧
    run .init [.call (b! "a"), .go 0 .provided, .go 0 .provided, .call (b! "a"), .go 1 .provided] =
      ⟨[b! "a"], [(b! "a", .marked), (b! "a", .returned true)], []⟩ := by
  decide

example : run .init [.call (b! "a"), .go 0 .provided, .go 0 .provided, .go 0 .provided] =
    ⟨[b! "a"], [(b! "a", .returned true)], [(b! "a", .provided)]⟩ := by decide

/-! ## C36 -/

/-- The event concerns an address. -/
def DelegateEvent.touches (a : Bytes) : DelegateEvent → Bool
  | .registered r => r.address == a
  | .unregistered a' => a' == a
  | _ => false

/-- **C36.** For every interleaving of events of any connections: envelopes for an address go to the
connection of the last event about that address, if it is a registration, else to none. -/
theorem C36_table (evs : List (Nat × DelegateEvent)) (a : Bytes) :
    (table evs).get a =
      match (evs.filter fun x => x.2.touches a).getLast? with
      | some (c, .registered _) => some c
      | _ => none := by
  have key : ∀ evs : List (Nat × DelegateEvent), (table evs.reverse).get a =
      match (evs.reverse.filter fun x => x.2.touches a).getLast? with
      | some (c, .registered _) => some c
      | _ => none := by
    intro evs
    induction evs with
    | nil => simp [table]
    | cons x evs ih =>
      obtain ⟨c, ev⟩ := x
      have ht : table (((c, ev) :: evs).reverse) = tableStep (table evs.reverse) (c, ev) := by
        simp [table]
      rw [ht, List.reverse_cons, List.filter_append]
      cases ev with
      | registered r =>
        simp only [tableStep, GoMap.get_set]
        by_cases hr : a = r.address
        · rw [if_pos hr]
          simp [DelegateEvent.touches, hr]
        · rw [if_neg hr, ih]
          have : (r.address == a) = false := by simpa using fun h => hr h.symm
          simp [DelegateEvent.touches, this]
      | unregistered a' =>
        simp only [tableStep, GoMap.get_erase]
        by_cases hr : a = a'
        · rw [if_pos hr]
          simp [DelegateEvent.touches, hr]
        · rw [if_neg hr, ih]
          have : (a' == a) = false := by simpa using fun h => hr h.symm
          simp [DelegateEvent.touches, this]
      | queued e => simp only [tableStep]; rw [ih]; simp [DelegateEvent.touches]
      | status ad s => simp only [tableStep]; rw [ih]; simp [DelegateEvent.touches]
  have := key evs.reverse
  rwa [List.reverse_reverse] at this

/-- **C36, partial.** As long as no connection of the address ends after the most recent one
registered, envelopes for the address are delivered to that connection. Missing from the property:
the end of an older connection takes the newer one out of the table (`C36_counterexample`). -/
theorem C36_latest_connection_partial (pre post : List (Nat × DelegateEvent)) (c : Nat)
    (r : AgentRecord) (h : ∀ x ∈ post, x.2.touches r.address = false) :
    (table (pre ++ (c, .registered r) :: post)).get r.address = some c := by
  rw [C36_table, List.filter_append, List.filter_cons]
  have hp : post.filter (fun x => x.2.touches r.address) = [] := by
    rw [List.filter_eq_nil_iff]
    intro x hx
    simp [h x hx]
  rw [hp]
  simp [DelegateEvent.touches]

/-- **C36 is false**, for every two connections of an address: if the first ends after the second
registered, the second is still open but envelopes for the address do not reach it. -/
theorem C36_counterexample (c1 c2 : Nat) (r1 r2 : AgentRecord) (h : r2.address = r1.address)
    (evs : List (Nat × DelegateEvent)) :
    (table ([(c1, .registered r1), (c2, .registered r2)] ++ evs ++
      [(c1, .unregistered r1.address)])).get r2.address = none := by
  rw [C36_table, List.filter_append]
  have : ((c1, DelegateEvent.unregistered r1.address) : Nat × DelegateEvent).2.touches r2.address =
      true := by simp [DelegateEvent.touches, h]
  rw [List.filter_cons, if_pos this, List.filter_nil, List.getLast?_append]
  simp

set_option maxRecDepth 100000 in
/-- The events of `C36_counterexample` are those of real handlers: a connection that registers and
ends, and one that registers and stays. -/
theorem C36_counterexample_handlers :
    (delegateConnection HandlersDemo.T HandlersDemo.por (fun _ => []) (b! "pk") true
      ⟨[some HandlersDemo.reg, none], [true], []⟩).1 =
        [.registered PoRDemo.good, .unregistered (b! "ag")] ∧
    (table [(1, .registered PoRDemo.good), (2, .registered PoRDemo.good)]).get (b! "ag") = some 2 ∧
    (table [(1, .registered PoRDemo.good), (2, .registered PoRDemo.good),
      (1, .unregistered (b! "ag"))]).get (b! "ag") = none := by
  decide

end Verif
