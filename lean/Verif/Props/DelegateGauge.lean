import Verif.Model.DelegateGauge
import Verif.Props.PeerHandlers

/-!
# C71: the metrics of delegate connections

Property: the gauge of active delegate connections is the number of delegate connections being served, and
the counter of clients is the number of those that ever were. The second part is proved. The first is false:
a refused connection is subtracted although it was never added.
-/

namespace Verif

namespace DelegateGauge

/-- The number of connections in a phase. -/
def number (s : DelegateGauge) (ph : DelegateConnPhase) : Nat := s.conns.count ph

/-- What the metrics are. -/
def Exact (s : DelegateGauge) : Prop :=
  s.gauge = s.number .serving - s.number .refused ∧ s.clients = s.number .serving + s.number .ended

theorem count_set_of {l : List DelegateConnPhase} {i : Nat} {a b : DelegateConnPhase} (h : l[i]? = some a)
    (hab : a ≠ b) (c : DelegateConnPhase) :
    (l.set i b).count c = if c = b then l.count c + 1 else if c = a then l.count c - 1 else l.count c := by
  have hm : a ∈ l := List.mem_of_getElem? h
  have hpos : 0 < l.count a := List.count_pos_iff.2 hm
  obtain ⟨hi, ha⟩ := List.getElem?_eq_some_iff.1 h
  rw [List.count_set hi, ha]
  by_cases h1 : c = b
  · subst h1; simp [hab]
  · by_cases h2 : c = a
    · subst h2; simp [h1]; exact fun h => h1 h.symm
    · simp [h1, h2, Ne.symm h1, Ne.symm h2]

theorem exact_step {T : AcnTexts} {por : PoRCheck} {porText : StatusCode → Bytes} {myKey : Bytes}
    {s : DelegateGauge} (st : Step) (h : Exact s) : Exact (s.step T por porText myKey st) := by
  obtain ⟨h1, h2⟩ := h
  unfold step
  split
  · exact ⟨h1, h2⟩
  cases st with
  | accept => simpa [Exact, number, List.count_append, List.count_cons] using ⟨h1, h2⟩
  | register i p announced =>
    dsimp only
    split
    · rename_i hi
      split
      · exact ⟨h1, h2⟩
      · simp only [Exact, number, count_set_of hi (b := .refused) (by decide)] at *
        simp only [reduceCtorEq, if_true, if_false]
        omega
      · split
        · simp only [Exact, number, count_set_of hi (b := .serving) (by decide)] at *
          simp only [reduceCtorEq, if_true, if_false]
          omega
        · simp only [Exact, number, count_set_of hi (b := .unannounced) (by decide)] at *
          simp only [reduceCtorEq, if_false]
          exact ⟨h1, h2⟩
    · exact ⟨h1, h2⟩
  | finish i =>
    dsimp only
    split
    · rename_i hi
      have hpos : 0 < s.conns.count .serving := List.count_pos_iff.2 (List.mem_of_getElem? hi)
      simp only [Exact, number, count_set_of hi (b := .ended) (by decide)] at *
      simp only [reduceCtorEq, if_true, if_false]
      omega
    · exact ⟨h1, h2⟩
  | crash i =>
    dsimp only
    split <;> exact ⟨h1, h2⟩

theorem exact_run (T : AcnTexts) (por : PoRCheck) (porText : StatusCode → Bytes) (myKey : Bytes)
    (steps : List Step) : Exact (run T por porText myKey init steps) := by
  have key : ∀ (steps : List Step) (s : DelegateGauge), Exact s → Exact (run T por porText myKey s steps) := by
    intro steps
    induction steps with
    | nil => exact fun s h => h
    | cons st steps ih => exact fun s h => ih _ (exact_step st h)
  exact key steps init (by simp [Exact, number, init])

/-- **C71, the gauge, partial.** In every history the gauge is the number of connections being served minus
the number of those ever refused. Missing: the refused ones should not count. -/
theorem C71_gauge_partial (T : AcnTexts) (por : PoRCheck) (porText : StatusCode → Bytes) (myKey : Bytes)
    (steps : List Step) :
    let s := run T por porText myKey init steps
    s.gauge = s.number .serving - s.number .refused :=
  (exact_run T por porText myKey steps).1

/-- **C71, when the gauge is right.** Exactly if no connection was ever refused. -/
theorem C71_gauge_iff (T : AcnTexts) (por : PoRCheck) (porText : StatusCode → Bytes) (myKey : Bytes)
    (steps : List Step) :
    let s := run T por porText myKey init steps
    s.gauge = s.number .serving ↔ .refused ∉ s.conns := by
  have h := C71_gauge_partial T por porText myKey steps
  dsimp only at *
  rw [h, ← List.count_eq_zero]
  unfold number
  omega

/-- **C71, the counter.** In every history the counter of clients is the number of connections that were
ever served. -/
theorem C71_clients (T : AcnTexts) (por : PoRCheck) (porText : StatusCode → Bytes) (myKey : Bytes)
    (steps : List Step) :
    let s := run T por porText myKey init steps
    s.clients = s.number .serving + s.number .ended :=
  (exact_run T por porText myKey steps).2

/-- What decides about a connection: it is refused exactly if the registration is, and served exactly if
it is accepted and announced. -/
theorem C71_decided (T : AcnTexts) (por : PoRCheck) (porText : StatusCode → Bytes) (myKey : Bytes)
    (s : DelegateGauge) (hc : s.crashed = false) (i : Nat) (hi : s.conns[i]? = some .fresh) (p : Pipe)
    (announced : Bool) :
    let s' := s.step T por porText myKey (.register i p announced)
    let r := (acceptRegistration T por porText myKey p).1
    (s'.conns[i]? = some .refused ↔ ∃ e, r = .err e) ∧
    (s'.conns[i]? = some .serving ↔ (∃ rec, r = .ok rec) ∧ announced = true) ∧
    (s'.crashed = true ↔ r = .panic) ∧
    (s'.clients = s.clients + 1 ↔ (∃ rec, r = .ok rec) ∧ announced = true) := by
  have hl := (List.getElem?_eq_some_iff.1 hi).1
  simp only [step, hc, hi, if_true, Bool.false_eq_true, if_false]
  cases hr : (acceptRegistration T por porText myKey p).1 with
  | panic => simp [hi, hc]
  | err e => simp [List.getElem?_set_self hl, hc]
  | ok r =>
    cases announced <;> simp [List.getElem?_set_self hl, hc]

/-! ## Cases -/

namespace Demo

/-- A record. -/
def good : AgentRecord := ⟨[], [], b! "ag", b! "pk", [], [], [], []⟩
/-- It accepts the record with public key `pk`. -/
def por : PoRCheck := fun r _ _ => if r.publicKey = b! "pk" then .ok .success else .ok .errorInvalidProof
/-- Texts. -/
def texts : AcnTexts := ⟨fun _ => b! "d", fun _ => b! "u"⟩
/-- A registration. -/
def pipe (r : AgentRecord) : Pipe :=
  ⟨[some ((AcnMessage.encode (some (.register (some r)))).getD [])], [true, true], []⟩

end Demo

open Demo in
set_option maxRecDepth 100000 in
example : run texts por (fun _ => b! "x") (b! "k") init
      [.accept, .accept, .register 0 (pipe good) true, .register 1 (pipe good) false, .accept,
       .register 2 (pipe good) true, .finish 0] =
    ⟨[.ended, .unannounced, .serving], 1, 2, false⟩ := by decide +kernel

open Demo in
set_option maxRecDepth 100000 in
/-- **C71 is false** of the gauge: after a connection that is refused it is below zero, and with one
connection being served it is zero. -/
theorem C71_counterexample :
    (run texts por (fun _ => b! "x") (b! "k") init
      [.accept, .register 0 (pipe { good with publicKey := b! "no" }) true]).gauge = -1 ∧
    run texts por (fun _ => b! "x") (b! "k") init
      [.accept, .accept, .register 0 ⟨[none], [], []⟩ true, .register 1 (pipe good) true] =
      ⟨[.refused, .serving], 0, 1, false⟩ := by decide +kernel

end DelegateGauge

end Verif
