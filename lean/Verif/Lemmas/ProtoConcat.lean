import Verif.Lemmas.Proto

/-!
# Concatenated encodings

Decoding `a ++ b` is decoding `a` and then, into the result, `b`.
-/

namespace Verif.Proto

theorem consumeVarintAux_append {g : Nat} {a : Bytes} {n : Nat} {r : Bytes} (b : Bytes)
    (h : consumeVarintAux g a = some (n, r)) : consumeVarintAux g (a ++ b) = some (n, r ++ b) := by
  induction g generalizing a n r with
  | zero =>
    cases a with
    | nil => simp [consumeVarintAux] at h
    | cons y rest =>
      simp only [consumeVarintAux, List.cons_append] at h ⊢
      split at h
      · rename_i hy; rw [if_pos hy]; simp only [Option.some.injEq, Prod.mk.injEq] at h ⊢
        exact ⟨h.1, by rw [h.2]⟩
      · simp at h
  | succ g ih =>
    cases a with
    | nil => simp [consumeVarintAux] at h
    | cons y rest =>
      simp only [consumeVarintAux, List.cons_append] at h ⊢
      split at h
      · rename_i hy; rw [if_pos hy]; simp only [Option.some.injEq, Prod.mk.injEq] at h ⊢
        exact ⟨h.1, by rw [h.2]⟩
      · rename_i hy
        rw [if_neg hy]
        cases hc : consumeVarintAux g rest with
        | none => rw [hc] at h; simp at h
        | some p =>
          obtain ⟨v, r'⟩ := p
          rw [hc] at h
          rw [ih hc]
          simp only [Option.some.injEq, Prod.mk.injEq] at h ⊢
          exact ⟨h.1, by rw [h.2]⟩

theorem consumeVarint_append {a : Bytes} {n : Nat} {r : Bytes} (b : Bytes)
    (h : consumeVarint a = some (n, r)) : consumeVarint (a ++ b) = some (n, r ++ b) :=
  consumeVarintAux_append b h

theorem consumeVarintAux_length {g : Nat} {a : Bytes} {n : Nat} {r : Bytes}
    (h : consumeVarintAux g a = some (n, r)) : r.length < a.length := by
  induction g generalizing a n r with
  | zero =>
    cases a with
    | nil => simp [consumeVarintAux] at h
    | cons y rest =>
      simp only [consumeVarintAux] at h
      split at h
      · simp only [Option.some.injEq, Prod.mk.injEq] at h; rw [← h.2]; simp
      · simp at h
  | succ g ih =>
    cases a with
    | nil => simp [consumeVarintAux] at h
    | cons y rest =>
      simp only [consumeVarintAux] at h
      split at h
      · simp only [Option.some.injEq, Prod.mk.injEq] at h; rw [← h.2]; simp
      · cases hc : consumeVarintAux g rest with
        | none => rw [hc] at h; simp at h
        | some p =>
          obtain ⟨v, r'⟩ := p
          rw [hc] at h
          simp only [Option.some.injEq, Prod.mk.injEq] at h
          rw [← h.2]
          have := ih hc
          simp; omega

theorem consumeTag_append {a : Bytes} {num typ : Nat} {r : Bytes} (b : Bytes)
    (h : consumeTag a = some (num, typ, r)) : consumeTag (a ++ b) = some (num, typ, r ++ b) := by
  unfold consumeTag at h ⊢
  cases hc : consumeVarint a with
  | none => rw [hc] at h; simp at h
  | some p =>
    obtain ⟨v, r'⟩ := p
    rw [hc] at h
    rw [consumeVarint_append b hc]
    simp only at h ⊢
    split at h
    · simp at h
    · rename_i hn
      rw [if_neg hn]
      simp only [Option.some.injEq, Prod.mk.injEq] at h ⊢
      exact ⟨h.1, h.2.1, by rw [h.2.2]⟩

theorem consumeTag_length {a : Bytes} {num typ : Nat} {r : Bytes}
    (h : consumeTag a = some (num, typ, r)) : r.length < a.length := by
  unfold consumeTag at h
  cases hc : consumeVarint a with
  | none => rw [hc] at h; simp at h
  | some p =>
    obtain ⟨v, r'⟩ := p
    rw [hc] at h
    simp only at h
    split at h
    · simp at h
    · simp only [Option.some.injEq, Prod.mk.injEq] at h
      rw [← h.2.2]
      exact consumeVarintAux_length hc

theorem takeExact_some {n : Nat} {a v r : Bytes} (h : takeExact n a = some (v, r)) :
    a = v ++ r ∧ v.length = n := by
  unfold takeExact at h
  split at h
  · simp at h
  · simp only [Option.some.injEq, Prod.mk.injEq] at h
    obtain ⟨rfl, rfl⟩ := h
    simp; omega

theorem takeExact_more {n : Nat} {a v r : Bytes} (b : Bytes) (h : takeExact n a = some (v, r)) :
    takeExact n (a ++ b) = some (v, r ++ b) := by
  obtain ⟨rfl, hl⟩ := takeExact_some h
  rw [List.append_assoc, ← hl]
  exact takeExact_append v (r ++ b)

theorem consumeScalar_append {typ : Nat} {a : Bytes} {v : WireVal} {r : Bytes} (b : Bytes)
    (h : consumeScalar typ a = some (v, r)) : consumeScalar typ (a ++ b) = some (v, r ++ b) := by
  unfold consumeScalar at h ⊢
  split at h
  · cases hc : consumeVarint a with
    | none => simp [hc] at h
    | some p => simp [hc] at h; simp [consumeVarint_append b hc, h]
  · cases hc : takeExact 8 a with
    | none => simp [hc] at h
    | some p => simp [hc] at h; simp [takeExact_more b hc, h]
  · cases hc : consumeVarint a with
    | none => simp [hc] at h
    | some p =>
      cases ht : takeExact p.1 p.2 with
      | none => simp [hc, ht] at h
      | some q => simp [hc, ht] at h; simp [consumeVarint_append b hc, takeExact_more b ht, h]
  · cases hc : takeExact 4 a with
    | none => simp [hc] at h
    | some p => simp [hc] at h; simp [takeExact_more b hc, h]
  · simp at h

theorem consumeScalar_length {typ : Nat} {a : Bytes} {v : WireVal} {r : Bytes}
    (h : consumeScalar typ a = some (v, r)) : r.length ≤ a.length := by
  unfold consumeScalar at h
  split at h
  · cases hc : consumeVarint a with
    | none => simp [hc] at h
    | some p =>
      obtain ⟨n, r'⟩ := p
      simp [hc] at h
      rw [← h.2]
      exact Nat.le_of_lt (consumeVarintAux_length hc)
  · cases hc : takeExact 8 a with
    | none => simp [hc] at h
    | some p =>
      obtain ⟨n, r'⟩ := p
      simp [hc] at h
      rw [← h.2, (takeExact_some hc).1]; simp
  · cases hc : consumeVarint a with
    | none => simp [hc] at h
    | some p =>
      obtain ⟨n, r'⟩ := p
      cases ht : takeExact n r' with
      | none => simp [hc, ht] at h
      | some q =>
        obtain ⟨w, r''⟩ := q
        simp [hc, ht] at h
        have h1 := consumeVarintAux_length hc
        have h2 := (takeExact_some ht).1
        rw [← h.2]
        rw [h2] at h1
        simp at h1; omega
  · cases hc : takeExact 4 a with
    | none => simp [hc] at h
    | some p =>
      obtain ⟨n, r'⟩ := p
      simp [hc] at h
      rw [← h.2, (takeExact_some hc).1]; simp
  · simp at h

theorem skipGroup_append {f f' : Nat} {st : List Nat} {a r : Bytes} (b : Bytes) (hf : f ≤ f')
    (h : skipGroup f st a = some r) : skipGroup f' st (a ++ b) = some (r ++ b) := by
  induction f generalizing f' st a r with
  | zero =>
    cases st with
    | nil => cases f' <;> (simp [skipGroup] at h ⊢; exact h)
    | cons g st => simp [skipGroup] at h
  | succ f ih =>
    cases st with
    | nil => cases f' <;> (simp [skipGroup] at h ⊢; exact h)
    | cons g st =>
      cases f' with
      | zero => omega
      | succ f' =>
        simp only [skipGroup] at h ⊢
        cases ht : consumeTag a with
        | none => rw [ht] at h; simp at h
        | some p =>
          obtain ⟨num, typ, rest⟩ := p
          rw [ht] at h
          rw [consumeTag_append b ht]
          simp only at h ⊢
          split at h
          · rename_i h4
            rw [if_pos h4]
            split at h
            · rename_i hg; rw [if_pos hg]; exact ih (by omega) h
            · simp at h
          · rename_i h4
            rw [if_neg h4]
            split at h
            · rename_i h3; rw [if_pos h3]; exact ih (by omega) h
            · rename_i h3
              rw [if_neg h3]
              cases hs : consumeScalar typ rest with
              | none => rw [hs] at h; simp at h
              | some q =>
                obtain ⟨v, rest'⟩ := q
                rw [hs] at h
                rw [consumeScalar_append b hs]
                exact ih (by omega) h

theorem skipGroup_length {f : Nat} {st : List Nat} {a r : Bytes}
    (h : skipGroup f st a = some r) : r.length ≤ a.length := by
  induction f generalizing st a r with
  | zero =>
    cases st with
    | nil => simp [skipGroup] at h; rw [h]; exact Nat.le_refl _
    | cons g st => simp [skipGroup] at h
  | succ f ih =>
    cases st with
    | nil => simp [skipGroup] at h; rw [h]; exact Nat.le_refl _
    | cons g st =>
      simp only [skipGroup] at h
      cases ht : consumeTag a with
      | none => rw [ht] at h; simp at h
      | some p =>
        obtain ⟨num, typ, rest⟩ := p
        rw [ht] at h
        have h1 := consumeTag_length ht
        simp only at h
        split at h
        · split at h
          · have := ih h; omega
          · simp at h
        · split at h
          · have := ih h; omega
          · cases hs : consumeScalar typ rest with
            | none => rw [hs] at h; simp at h
            | some q =>
              obtain ⟨v, rest'⟩ := q
              rw [hs] at h
              have h2 := consumeScalar_length hs
              have := ih h
              omega

theorem consumeValue_append {num typ : Nat} {a : Bytes} {v : WireVal} {r : Bytes} (b : Bytes)
    (h : consumeValue num typ a = some (v, r)) : consumeValue num typ (a ++ b) = some (v, r ++ b) := by
  unfold consumeValue at h ⊢
  split at h
  · rename_i h3
    rw [if_pos h3]
    cases hs : skipGroup (a.length + 1) [num] a with
    | none => rw [hs] at h; simp at h
    | some r' =>
      rw [hs] at h
      simp at h
      rw [skipGroup_append b (f' := (a ++ b).length + 1) (by simp) hs]
      simp [h]
  · rename_i h3
    rw [if_neg h3]
    exact consumeScalar_append b h

theorem consumeValue_length {num typ : Nat} {a : Bytes} {v : WireVal} {r : Bytes}
    (h : consumeValue num typ a = some (v, r)) : r.length ≤ a.length := by
  unfold consumeValue at h
  split at h
  · cases hs : skipGroup (a.length + 1) [num] a with
    | none => rw [hs] at h; simp at h
    | some r' =>
      rw [hs] at h
      simp at h
      rw [← h.2]
      exact skipGroup_length hs
  · exact consumeScalar_length h

theorem parseAux_fuel {f : Nat} {a : Bytes} (h : a.length ≤ f) : parseAux f a = parse a := by
  unfold parse
  induction hn : a.length using Nat.strongRecOn generalizing a f with
  | _ n ih =>
    subst hn
    cases a with
    | nil => cases f <;> rfl
    | cons x xs =>
      cases f with
      | zero => simp at h
      | succ f =>
        simp only [List.length_cons, parseAux]
        cases ht : consumeTag (x :: xs) with
        | none => rfl
        | some p =>
          obtain ⟨num, typ, rest⟩ := p
          simp only
          have h1 := consumeTag_length ht
          cases hv : consumeValue num typ rest with
          | none => rfl
          | some q =>
            obtain ⟨v, rest'⟩ := q
            simp only
            have h2 := consumeValue_length hv
            simp only [List.length_cons] at h h1
            rw [ih rest'.length (by simp; omega) (f := f) (by omega) rfl,
              ih rest'.length (by simp; omega) (f := xs.length) (by omega) rfl]

theorem parse_cons {x : UInt8} {xs : Bytes} {num typ : Nat} {rest : Bytes} {v : WireVal} {rest' : Bytes}
    (ht : consumeTag (x :: xs) = some (num, typ, rest)) (hv : consumeValue num typ rest = some (v, rest')) :
    parse (x :: xs) = (parse rest').map (⟨num, v⟩ :: ·) := by
  have h1 := consumeTag_length ht
  have h2 := consumeValue_length hv
  simp only [List.length_cons] at h1
  show parseAux (xs.length + 1) (x :: xs) = _
  simp only [parseAux, ht, hv]
  rw [parseAux_fuel (by omega)]

/-- Parsing a concatenation. -/
theorem parse_append {a b : Bytes} {fs : List RawField} (h : parse a = some fs) :
    parse (a ++ b) = (parse b).map (fs ++ ·) := by
  induction hn : a.length using Nat.strongRecOn generalizing a fs with
  | _ n ih =>
    subst hn
    cases a with
    | nil =>
      have : fs = [] := by simpa [parse, parseAux] using h.symm
      subst this
      cases hb : parse b <;> simp [hb]
    | cons x xs =>
      have h' := h
      unfold parse at h
      simp only [List.length_cons, parseAux] at h
      cases ht : consumeTag (x :: xs) with
      | none => rw [ht] at h; simp at h
      | some p =>
        obtain ⟨num, typ, rest⟩ := p
        rw [ht] at h
        simp only at h
        cases hv : consumeValue num typ rest with
        | none => rw [hv] at h; simp at h
        | some q =>
          obtain ⟨v, rest'⟩ := q
          have h1 := consumeTag_length ht
          have h2 := consumeValue_length hv
          simp only [List.length_cons] at h1
          rw [parse_cons ht hv] at h'
          cases hr : parse rest' with
          | none => rw [hr] at h'; simp at h'
          | some gs =>
            rw [hr] at h'
            simp at h'
            subst h'
            rw [List.cons_append, parse_cons (by rw [← List.cons_append]; exact consumeTag_append b ht)
              (consumeValue_append b hv)]
            rw [ih rest'.length (by simp; omega) hr rfl]
            cases parse b <;> simp

/-- Decoding a concatenation: the second part is decoded into the result of the first. -/
theorem decodeInto_append {M : Type} {step : M → RawField → Option M} {m m1 : M} {a : Bytes} (b : Bytes)
    (h : decodeInto step m a = some m1) :
    decodeInto step m (a ++ b) = decodeInto step m1 b := by
  unfold decodeInto at h ⊢
  cases hp : parse a with
  | none => rw [hp] at h; simp at h
  | some fs =>
    rw [hp] at h
    simp at h
    rw [parse_append hp]
    cases hb : parse b with
    | none => simp
    | some gs => simp [List.foldlM_append, h]

end Verif.Proto
