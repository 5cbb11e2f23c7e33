/-!
# Go values used throughout the model

Go strings and `[]byte` are byte lists; Go maps are association lists with
unique keys; a Go call has one of three outcomes: it returns a value, returns an
error, or panics.
-/

namespace Verif

/-- A Go `string` or `[]byte`. Go strings are arbitrary byte sequences. -/
abbrev Bytes := List UInt8

/-- `b! "abc"` is the byte list of an ASCII literal (expanded at elaboration time). -/
syntax "b!" str : term

macro_rules
  | `(b! $s:str) => do
    let elems ← s.getString.toList.toArray.mapM fun c =>
      `(($(Lean.quote c.toNat) : UInt8))
    `(([$elems,*] : Bytes))

/-- Outcome of a Go call: a value, an error return, or a panic (process crash). -/
inductive Res (ε : Type) (α : Type) where
  | ok (a : α)
  | err (e : ε)
  | panic
  deriving Repr, DecidableEq

namespace Res

variable {ε α β : Type}

/-- The call did not panic. -/
def NoPanic : Res ε α → Prop
  | panic => False
  | _ => True

instance : (r : Res ε α) → Decidable r.NoPanic
  | ok _ => isTrue trivial
  | err _ => isTrue trivial
  | panic => isFalse id

/-- Sequential composition: errors and panics stop the computation. -/
def bind (r : Res ε α) (f : α → Res ε β) : Res ε β :=
  match r with
  | ok a => f a
  | err e => err e
  | panic => panic

end Res

/-- A Go `map[K]V`: association list with unique keys. The order of the list has
no meaning; statements about iteration are up to permutation. -/
structure GoMap (K V : Type) [DecidableEq K] where
  entries : List (K × V)
  nodup : (entries.map Prod.fst).Nodup

namespace GoMap

variable {K V : Type} [DecidableEq K]

/-- `make(map[K]V)` -/
def empty : GoMap K V := ⟨[], by simp⟩

/-- `v, ok := m[k]` -/
def get (m : GoMap K V) (k : K) : Option V := m.entries.lookup k

/-- `_, ok := m[k]` -/
def has (m : GoMap K V) (k : K) : Bool := (m.get k).isSome

/-- `delete(m, k)` -/
def erase (m : GoMap K V) (k : K) : GoMap K V :=
  ⟨m.entries.filter (fun e => e.1 != k),
   m.nodup.sublist (List.filter_sublist.map _)⟩

/-- `m[k] = v` -/
def set (m : GoMap K V) (k : K) (v : V) : GoMap K V :=
  ⟨(k, v) :: (m.erase k).entries, by
    simp only [List.map_cons, List.nodup_cons]
    refine ⟨?_, (m.erase k).nodup⟩
    simp [erase]⟩

/-- The keys, in some order. -/
def keys (m : GoMap K V) : List K := m.entries.map Prod.fst

/-- `len(m)` -/
def size (m : GoMap K V) : Nat := m.entries.length

theorem lookup_filter_ne (l : List (K × V)) (k k' : K) :
    (l.filter (fun e => e.1 != k)).lookup k' = if k' = k then none else l.lookup k' := by
  induction l with
  | nil => simp
  | cons e l ih =>
    obtain ⟨a, v⟩ := e
    by_cases h : a = k
    · subst h
      simp only [List.filter_cons, bne_self_eq_false, Bool.false_eq_true, if_false, ih]
      by_cases h' : k' = a
      · simp [h']
      · have : (k' == a) = false := by simpa using h'
        simp [List.lookup_cons, this, h']
    · have h1 : (a != k) = true := by simpa using h
      simp only [List.filter_cons, h1, if_true, List.lookup_cons]
      by_cases h' : k' = a
      · subst h'
        simp [h]
      · have : (k' == a) = false := by simpa using h'
        simp only [this, ih]

@[simp] theorem get_empty (k : K) : (empty : GoMap K V).get k = none := rfl

theorem get_erase (m : GoMap K V) (k k' : K) :
    (m.erase k).get k' = if k' = k then none else m.get k' :=
  lookup_filter_ne _ _ _

theorem get_set (m : GoMap K V) (k k' : K) (v : V) :
    (m.set k v).get k' = if k' = k then some v else m.get k' := by
  unfold get set
  simp only [List.lookup_cons]
  by_cases h : k' = k
  · simp [h]
  · have : (k' == k) = false := by simpa using h
    simp only [this, h, if_false]
    exact (get_erase m k k').trans (by simp [h, get])

@[simp] theorem get_set_self (m : GoMap K V) (k : K) (v : V) : (m.set k v).get k = some v := by
  simp [get_set]

theorem get_set_ne (m : GoMap K V) {k k' : K} (v : V) (h : k' ≠ k) :
    (m.set k v).get k' = m.get k' := by simp [get_set, h]

@[simp] theorem get_erase_self (m : GoMap K V) (k : K) : (m.erase k).get k = none := by
  simp [get_erase]

theorem get_erase_ne (m : GoMap K V) {k k' : K} (h : k' ≠ k) :
    (m.erase k).get k' = m.get k' := by simp [get_erase, h]

theorem mem_entries_iff (m : GoMap K V) (k : K) (v : V) :
    (k, v) ∈ m.entries ↔ m.get k = some v := by
  obtain ⟨l, h⟩ := m
  unfold get
  simp only
  induction l with
  | nil => simp
  | cons e l ih =>
    obtain ⟨a, w⟩ := e
    simp only [List.map_cons, List.nodup_cons, List.mem_map, Prod.exists, exists_and_right,
      exists_eq_right, not_exists] at h
    have ih := ih h.2
    simp only [List.mem_cons, Prod.mk.injEq, List.lookup_cons]
    by_cases hk : k = a
    · subst hk
      simp only [true_and, beq_self_eq_true, Option.some.injEq]
      constructor
      · rintro (h' | h')
        · exact h'.symm
        · exact absurd h' (h.1 v)
      · intro h'; exact Or.inl h'.symm
    · have hb : (k == a) = false := by simpa using hk
      simp only [hk, false_and, false_or, hb, ih]

theorem mem_keys_iff (m : GoMap K V) (k : K) : k ∈ m.keys ↔ ∃ v, m.get k = some v := by
  simp only [keys, List.mem_map, Prod.exists, exists_and_right, exists_eq_right]
  constructor
  · rintro ⟨v, h⟩; exact ⟨v, (m.mem_entries_iff k v).1 h⟩
  · rintro ⟨v, h⟩; exact ⟨v, (m.mem_entries_iff k v).2 h⟩

theorem has_iff (m : GoMap K V) (k : K) : m.has k = true ↔ ∃ v, m.get k = some v := by
  simp [has, Option.isSome_iff_exists]

theorem has_eq_false_iff (m : GoMap K V) (k : K) : m.has k = false ↔ m.get k = none := by
  simp [has]

theorem keys_nodup (m : GoMap K V) : m.keys.Nodup := m.nodup

end GoMap

end Verif
