import Verif.Model.Dialogue

/-! Lemmas about `GSet` and `newRules`. -/

namespace Verif

namespace GSet

variable {α : Type} [DecidableEq α]

theorem contains_eq (s : GSet α) (x : α) :
    s.contains x = true ↔ s.container.get x = some true := by
  unfold contains
  cases h : s.container.get x with
  | none => simp
  | some v => simp

@[simp] theorem contains_new (x : α) : (new : GSet α).contains x = false := rfl

theorem contains_add (s : GSet α) (x y : α) :
    (s.add x).contains y = true ↔ y = x ∨ s.contains y = true := by
  simp only [contains_eq, add, GoMap.get_set]
  by_cases h : y = x <;> simp [h]

theorem contains_remove (s : GSet α) (x y : α) :
    (s.remove x).contains y = true ↔ y ≠ x ∧ s.contains y = true := by
  simp only [contains_eq, remove, GoMap.get_erase]
  by_cases h : y = x <;> simp [h]

theorem contains_foldl_add (xs : List α) (s : GSet α) (y : α) :
    (xs.foldl add s).contains y = true ↔ y ∈ xs ∨ s.contains y = true := by
  induction xs generalizing s with
  | nil => simp
  | cons x xs ih =>
    simp only [List.foldl_cons, ih, contains_add, List.mem_cons]
    grind

theorem contains_foldl_remove (xs : List α) (s : GSet α) (y : α) :
    (xs.foldl remove s).contains y = true ↔ y ∉ xs ∧ s.contains y = true := by
  induction xs generalizing s with
  | nil => simp
  | cons x xs ih =>
    simp only [List.foldl_cons, ih, contains_remove, List.mem_cons]
    grind

/-- All stored values are `true`, as `Add` is the only writer. -/
def AllTrue (s : GSet α) : Prop := ∀ x v, s.container.get x = some v → v = true

theorem allTrue_new : (new : GSet α).AllTrue := by
  intro x v h; simp [new] at h

theorem AllTrue.add {s : GSet α} (h : s.AllTrue) (x : α) : (s.add x).AllTrue := by
  intro y v hv
  simp only [GSet.add, GoMap.get_set] at hv
  by_cases hy : y = x
  · simp [hy] at hv; exact hv
  · simp [hy] at hv; exact h y v hv

theorem AllTrue.remove {s : GSet α} (h : s.AllTrue) (x : α) : (s.remove x).AllTrue := by
  intro y v hv
  simp only [GSet.remove, GoMap.get_erase] at hv
  by_cases hy : y = x
  · simp [hy] at hv
  · simp [hy] at hv; exact h y v hv

theorem AllTrue.foldl_add {s : GSet α} (h : s.AllTrue) (xs : List α) :
    (xs.foldl GSet.add s).AllTrue := by
  induction xs generalizing s with
  | nil => exact h
  | cons x xs ih => exact ih (h.add x)

theorem AllTrue.foldl_remove {s : GSet α} (h : s.AllTrue) (xs : List α) :
    (xs.foldl GSet.remove s).AllTrue := by
  induction xs generalizing s with
  | nil => exact h
  | cons x xs ih => exact ih (h.remove x)

theorem AllTrue.mem_keys {s : GSet α} (h : s.AllTrue) (x : α) :
    x ∈ s.container.keys ↔ s.contains x = true := by
  rw [GoMap.mem_keys_iff, contains_eq]
  constructor
  · rintro ⟨v, hv⟩; rw [h x v hv] at hv; exact hv
  · intro hv; exact ⟨_, hv⟩

end GSet

theorem newRules_initial (d : RulesDecl) (p : Bytes) :
    (newRules d).initial.contains p = true ↔ p ∈ d.initial := by
  simp [newRules, GSet.contains_foldl_add]

theorem newRules_terminal (d : RulesDecl) (p : Bytes) :
    (newRules d).terminal.contains p = true ↔ p ∈ d.terminal := by
  simp [newRules, GSet.contains_foldl_add]

theorem foldl_set_get {K V W : Type} [DecidableEq K] (f : V → W) (es : List (K × V))
    (acc : GoMap K W) (hn : (es.map Prod.fst).Nodup) (t : K) :
    (es.foldl (fun m e => m.set e.1 (f e.2)) acc).get t =
      match es.lookup t with
      | some l => some (f l)
      | none => acc.get t := by
  induction es generalizing acc with
  | nil => simp
  | cons e es ih =>
    obtain ⟨k, l⟩ := e
    simp only [List.map_cons, List.nodup_cons] at hn
    simp only [List.foldl_cons, ih _ hn.2, List.lookup_cons]
    by_cases h : t = k
    · subst h
      have : es.lookup t = none := by
        cases hl : es.lookup t with
        | none => rfl
        | some w =>
          exfalso
          have := (GoMap.mem_entries_iff ⟨es, hn.2⟩ t w).2 hl
          exact hn.1 (List.mem_map.2 ⟨(t, w), this, rfl⟩)
      simp [this]
    · have hb : (t == k) = false := by simpa using h
      simp only [hb]
      cases es.lookup t with
      | none => simp [GoMap.get_set, h]
      | some w => rfl

theorem foldl_set_get_map {K V W : Type} [DecidableEq K] (f : V → W) (m : GoMap K V) (t : K) :
    (m.entries.foldl (fun m e => m.set e.1 (f e.2)) (GoMap.empty : GoMap K W)).get t =
      (m.get t).map f := by
  rw [foldl_set_get f _ _ m.nodup]
  show _ = Option.map f (m.entries.lookup t)
  cases m.entries.lookup t <;> rfl

theorem newRules_replies (d : RulesDecl) (t : Bytes) :
    (newRules d).validReplies.get t =
      (d.validReplies.get t).map (fun l => l.foldl GSet.add GSet.new) :=
  foldl_set_get_map _ d.validReplies t

/-- The reply check of `validateMessageTarget` reads the declared table. -/
theorem newRules_valid (d : RulesDecl) (t p : Bytes) :
    (match (newRules d).validReplies.get t with
      | some s => s.contains p
      | none => false) = true ↔ ∃ l, d.validReplies.get t = some l ∧ p ∈ l := by
  rw [newRules_replies]
  cases d.validReplies.get t with
  | none => simp
  | some l => simp [GSet.contains_foldl_add]

end Verif
