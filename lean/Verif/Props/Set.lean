import Verif.Lemmas.Set

/-!
# C17: the set helper behaves as a mathematical set

A program works with any number of sets. The mathematical counterpart of the program's state is
a list of predicates, one for each set, on which the operations act as on mathematical sets.
-/

namespace Verif

/-- Operations on mathematical sets. Note that `copy` yields a set of its own. -/
def SetOp.math {α : Type} (h : List (α → Prop)) : SetOp α → List (α → Prop)
  | .newSet => h ++ [(fun _ => False : α → Prop)]
  | .newFromArray xs => h ++ [(fun y => y ∈ xs : α → Prop)]
  | .add p x => h.modify p (fun (s : α → Prop) (y : α) => s y ∨ y = x)
  | .addFromArray p xs => h.modify p (fun (s : α → Prop) (y : α) => s y ∨ y ∈ xs)
  | .remove p x => h.modify p (fun (s : α → Prop) (y : α) => s y ∧ y ≠ x)
  | .copy p _ => h ++ (h[p]?).toList
  | .difference p q _ _ =>
    match h[p]?, h[q]? with
    | some s, some t => h ++ [(fun y => s y ∧ ¬ t y : α → Prop)]
    | _, _ => h

/-- Executing a program from the empty heap, next to its mathematical counterpart. -/
inductive SetRun {α : Type} [DecidableEq α] : SetHeap α → List (α → Prop) → Prop where
  | init : SetRun [] []
  | step {h : SetHeap α} {m : List (α → Prop)} (op : SetOp α) :
      SetRun h m → op.possible h → SetRun (op.exec h) (op.math m)

/-- The set value `s` represents the mathematical set `m`: membership agrees, the array form
lists the members, each once, and the size is their number. -/
structure Represents {α : Type} [DecidableEq α] (s : GSet α) (m : α → Prop) : Prop where
  contains : ∀ x, s.contains x = true ↔ m x
  toArray : ∀ x, x ∈ s.toArray ↔ m x
  nodup : s.toArray.Nodup
  size : s.size = s.toArray.length

namespace SetProof

variable {α : Type} [DecidableEq α]

def Rel (h : SetHeap α) (m : List (α → Prop)) : Prop :=
  h.length = m.length ∧ ∀ (i : Nat) (s : GSet α) (t : α → Prop), h[i]? = some s → m[i]? = some t →
    s.AllTrue ∧ ∀ x, s.contains x = true ↔ t x

theorem Rel.snoc {h : SetHeap α} {m : List (α → Prop)} (hr : Rel h m) {s : GSet α} {t : α → Prop}
    (ha : s.AllTrue) (hc : ∀ x, s.contains x = true ↔ t x) : Rel (h ++ [s]) (m ++ [t]) := by
  refine ⟨by simp [hr.1], ?_⟩
  intro i s' t' hs ht
  rw [List.getElem?_append] at hs ht
  have hl := hr.1
  by_cases hi : i < h.length
  · rw [if_pos hi] at hs
    rw [if_pos (by omega)] at ht
    exact hr.2 i s' t' hs ht
  · rw [if_neg hi] at hs
    rw [if_neg (by omega)] at ht
    rw [hl] at hs
    cases hk : i - m.length with
    | zero =>
      rw [hk] at hs ht
      simp only [List.getElem?_cons_zero, Option.some.injEq] at hs ht
      subst hs; subst ht
      exact ⟨ha, hc⟩
    | succ k => rw [hk] at hs; simp at hs

theorem Rel.modify {h : SetHeap α} {m : List (α → Prop)} (hr : Rel h m) (p : Nat)
    {f : GSet α → GSet α} {g : (α → Prop) → (α → Prop)}
    (hf : ∀ s t, s.AllTrue → (∀ x, s.contains x = true ↔ t x) →
      (f s).AllTrue ∧ ∀ x, (f s).contains x = true ↔ g t x) :
    Rel (h.modify p f) (m.modify p g) := by
  refine ⟨by simp [hr.1], ?_⟩
  intro i s' t' hs ht
  rw [List.getElem?_modify] at hs ht
  simp only [Option.map_eq_map, Option.map_eq_some_iff] at hs ht
  obtain ⟨s, hs, es⟩ := hs
  obtain ⟨t, ht, et⟩ := ht
  have := hr.2 i s t hs ht
  by_cases hp : p = i
  · simp only [hp, if_true] at es et
    subst es; subst et
    exact hf s t this.1 this.2
  · simp only [hp, if_false] at es et
    subst es; subst et
    exact this

theorem Rel.get {h : SetHeap α} {m : List (α → Prop)} (hr : Rel h m) {p : Nat} {s : GSet α}
    (hs : h[p]? = some s) : ∃ t, m[p]? = some t ∧ s.AllTrue ∧ ∀ x, s.contains x = true ↔ t x := by
  have hl : p < m.length := by rw [← hr.1]; exact (List.getElem?_eq_some_iff.1 hs).1
  refine ⟨m[p], by simp [hl], ?_⟩
  exact hr.2 p s _ hs (by simp [hl])

theorem Rel.exec {h : SetHeap α} {m : List (α → Prop)} (hr : Rel h m) (op : SetOp α)
    (hp : op.possible h) : Rel (op.exec h) (op.math m) := by
  cases op with
  | newSet => exact hr.snoc GSet.allTrue_new (by simp)
  | newFromArray xs =>
    exact hr.snoc (GSet.allTrue_new.foldl_add xs) (by
      intro x
      show (xs.foldl GSet.add GSet.new).contains x = true ↔ _
      rw [GSet.contains_foldl_add]; simp)
  | add p x =>
    refine hr.modify p ?_
    intro s t ha hc
    refine ⟨ha.add x, ?_⟩
    intro y
    rw [GSet.contains_add, hc]
    exact Or.comm
  | addFromArray p xs =>
    refine hr.modify p ?_
    intro s t ha hc
    refine ⟨ha.foldl_add xs, ?_⟩
    intro y
    show (xs.foldl GSet.add s).contains y = true ↔ _
    rw [GSet.contains_foldl_add, hc]
    exact Or.comm
  | remove p x =>
    refine hr.modify p ?_
    intro s t ha hc
    refine ⟨ha.remove x, ?_⟩
    intro y
    rw [GSet.contains_remove, hc]
    exact And.comm
  | copy p o =>
    obtain ⟨s, hs, ho⟩ := hp
    obtain ⟨t, ht, ha, hc⟩ := hr.get hs
    simp only [SetOp.exec, SetOp.math, ht]
    refine hr.snoc (GSet.allTrue_new.foldl_add o) ?_
    intro x
    show (o.foldl GSet.add GSet.new).contains x = true ↔ _
    rw [GSet.contains_foldl_add, ho.mem_iff, ← hc, ← ha.mem_keys]
    simp [GSet.toArray]
  | difference p q o1 o2 =>
    obtain ⟨s, u, hs, hu, ho1, ho2⟩ := hp
    obtain ⟨t, ht, ha, hc⟩ := hr.get hs
    obtain ⟨v, hv, hb, hd⟩ := hr.get hu
    simp only [SetOp.exec, SetOp.math, ht, hv]
    refine hr.snoc ((GSet.allTrue_new.foldl_add o1).foldl_remove o2) ?_
    intro x
    show (o2.foldl GSet.remove (o1.foldl GSet.add GSet.new)).contains x = true ↔ _
    rw [GSet.contains_foldl_remove, GSet.contains_foldl_add, ho1.mem_iff, ho2.mem_iff, ← hc, ← hd,
      ← ha.mem_keys, ← hb.mem_keys]
    simp only [GSet.toArray, GSet.contains_new, Bool.false_eq_true, or_false]
    exact And.comm

end SetProof

/-- **C17.** After every program with sets (any sequence of operations on any number of sets, with
any iteration orders), each set represents its mathematical counterpart. -/
theorem C17_sets_are_mathematical_sets {α : Type} [DecidableEq α] {h : SetHeap α}
    {m : List (α → Prop)} (hr : SetRun h m) :
    h.length = m.length ∧ ∀ (i : Nat) (s : GSet α) (t : α → Prop),
      h[i]? = some s → m[i]? = some t → Represents s t := by
  have key : SetProof.Rel h m := by
    induction hr with
    | init => exact ⟨rfl, by intro i s t hs; simp at hs⟩
    | step op _ hp ih => exact ih.exec op hp
  refine ⟨key.1, ?_⟩
  intro i s t hs ht
  obtain ⟨ha, hc⟩ := key.2 i s t hs ht
  refine ⟨hc, ?_, s.container.keys_nodup, ?_⟩
  · intro x; rw [← hc]; exact ha.mem_keys x
  · simp [GSet.size, GSet.toArray, GoMap.size, GoMap.keys]

/-- Non-vacuity: build {a, b}, copy it, remove `a` from the copy; the original keeps `a`. -/
example : ∃ (h : SetHeap Nat) (m : List (Nat → Prop)), SetRun h m ∧ h.length = 2 ∧
    h.map (fun s => s.contains 1) = [true, false] ∧ h.map (fun s => s.size) = [2, 1] := by
  refine ⟨_, _, .step (.remove 1 1) (.step (.copy 0 [1, 2])
    (.step (.newFromArray [1, 2, 1]) .init trivial) ?_) ?_, ?_, ?_, ?_⟩
  · refine ⟨_, rfl, ?_⟩
    have : (GSet.fromArray [1, 2, 1]).toArray = [1, 2] ∨
      (GSet.fromArray [1, 2, 1]).toArray = [2, 1] := by decide
    rcases this with h | h <;> rw [h]
    exact List.Perm.swap _ _ _
  · show 1 < _; decide
  all_goals decide

end Verif
