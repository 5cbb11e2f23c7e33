import Verif.Model.RetryError
import Verif.Props.Retry

/-!
# C70: the error of a failed registration

Property: the error that is reported after all tries failed names the error of every try, with its number.
This is false of the code: the error of each try overwrites that of the one before, so the text names the
last one, as number 1. The text of a list of errors in general, and when making it crashes, is proved.
-/

namespace Verif

namespace RetryError

/-- The digits of a number, highest first; the digit `d` is the byte `48 + d`. -/
def numeral (n : Nat) : Bytes :=
  if n < 10 then [UInt8.ofNat (48 + n)] else numeral (n / 10) ++ [UInt8.ofNat (48 + n % 10)]

/-- The lines for a list of errors: each with its number, counted from `i + 1`. -/
def numbered : Nat → List Bytes → List Bytes
  | _, [] => []
  | i, t :: ts => (b! "#" ++ numeral (i + 1) ++ b! ": " ++ t) :: numbered (i + 1) ts

/-- A nil is followed by an error. -/
def Gap (e : List (Option Bytes)) : Prop :=
  ∃ (i j : Nat) (t : Bytes), i < j ∧ e[i]? = some none ∧ e[j]? = some (some t)

theorem lenWithoutNil_eq (e : List (Option Bytes)) : lenWithoutNil e = (e.filterMap id).length := by
  have key : ∀ (e : List (Option Bytes)) (n : Nat),
      e.foldl (fun n v => if v.isSome then n + 1 else n) n = n + (e.filterMap id).length := by
    intro e
    induction e with
    | nil => intro n; rfl
    | cons v e ih =>
      intro n
      cases v with
      | none => simp [ih]
      | some t => simp [ih]; omega
  simpa [lenWithoutNil] using key e 0

theorem decimal_eq (n : Nat) : decimal n = numeral n := by
  have digit : ∀ i : Fin 10, UInt8.ofNat (Nat.digitChar i).toNat = UInt8.ofNat (48 + i) := by decide
  induction n using Nat.strongRecOn with
  | _ n ih =>
    rw [numeral]
    split
    · rename_i h
      rw [decimal, Nat.toDigits_of_lt_base h]
      simpa using digit ⟨n, h⟩
    · rename_i h
      rw [← ih (n / 10) (by omega), decimal, decimal, Nat.toDigits_of_base_le (by omega) (by omega)]
      simpa using digit ⟨n % 10, by omega⟩

theorem joinLines_eq (ls : List Bytes) : joinLines ls = (b! "\n").intercalate ls := by
  induction ls with
  | nil => rfl
  | cons l ls ih =>
    cases ls with
    | nil => simp [joinLines, List.intercalate]
    | cons m ls =>
      rw [joinLines, ih]
      simp [List.intercalate]
      simp

theorem fill_nones (i n : Nat) (log : List Bytes) : fill i (List.replicate n none) log = .ok log := by
  induction n generalizing i with
  | zero => rfl
  | succ n ih => simpa [List.replicate_succ, fill] using ih (i + 1)

theorem fill_prefix (ts : List Bytes) (n : Nat) (done : List Bytes) :
    fill done.length (ts.map some ++ List.replicate n none) (done ++ List.replicate ts.length []) =
      .ok (done ++ numbered done.length ts) := by
  induction ts generalizing done with
  | nil => simpa [numbered] using fill_nones done.length n done
  | cons t ts ih =>
    have h := ih (done ++ [line done.length t])
    simp only [List.length_append, List.length_singleton, List.append_assoc, List.singleton_append] at h
    simp only [List.map_cons, List.cons_append, fill, List.length_append, List.length_cons,
      List.length_replicate, List.replicate_succ, numbered]
    rw [if_pos (by omega)]
    rw [List.set_append_right _ _ (Nat.le_refl _), Nat.sub_self, List.set_cons_zero, h, ← decimal_eq]
    rfl

/-- A list without gap is errors followed by nils. -/
theorem no_gap {e : List (Option Bytes)} (h : ¬ Gap e) :
    ∃ (ts : List Bytes) (n : Nat), e = ts.map some ++ List.replicate n none := by
  induction e with
  | nil => exact ⟨[], 0, rfl⟩
  | cons v e ih =>
    cases v with
    | none =>
      refine ⟨[], e.length + 1, ?_⟩
      simp only [List.map_nil, List.nil_append, List.replicate_succ, List.cons.injEq, true_and]
      refine List.eq_replicate_iff.2 ⟨rfl, ?_⟩
      intro v hv
      cases v with
      | none => rfl
      | some t =>
        obtain ⟨k, hk⟩ := List.getElem?_of_mem hv
        exact absurd ⟨0, k + 1, t, by omega, by simp, by simpa using hk⟩ h
    | some t =>
      obtain ⟨ts, n, rfl⟩ := ih (by
        rintro ⟨i, j, t', hij, hi, hj⟩
        exact h ⟨i + 1, j + 1, t', by omega, by simpa using hi, by simpa using hj⟩)
      exact ⟨t :: ts, n, rfl⟩

/-- An error at or beyond the length crashes. -/
theorem fill_panics (e : List (Option Bytes)) : ∀ (i : Nat) (log : List Bytes),
    (∃ j t, e[j]? = some (some t) ∧ log.length ≤ i + j) → fill i e log = .panic := by
  induction e with
  | nil => rintro i log ⟨j, t, h, _⟩; simp at h
  | cons v e ih =>
    rintro i log ⟨j, t, hj, hl⟩
    cases v with
    | none =>
      cases j with
      | zero => simp at hj
      | succ j => exact ih (i + 1) log ⟨j, t, by simpa using hj, by omega⟩
    | some t' =>
      simp only [fill]
      split
      · cases j with
        | zero => omega
        | succ j => exact ih (i + 1) _ ⟨j, t, by simpa using hj, by simp; omega⟩
      · rfl

/-- There are at most as many errors as places up to the last of them, and fewer if one place is empty. -/
theorem length_before {e : List (Option Bytes)} {i j : Nat} {t : Bytes} (hij : i < j)
    (hi : e[i]? = some none) (hj : e[j]? = some (some t))
    (hlast : ∀ k t', e[k]? = some (some t') → k ≤ j) : (e.filterMap id).length ≤ j := by
  have hafter : (e.drop (j + 1)).filterMap id = [] := by
    rw [List.filterMap_eq_nil_iff]
    intro v hv
    cases v with
    | none => rfl
    | some t' =>
      obtain ⟨k, hk⟩ := List.getElem?_of_mem hv
      rw [List.getElem?_drop] at hk
      have := hlast _ _ hk
      omega
  have hsplit : e.filterMap id = (e.take (j + 1)).filterMap id := by
    conv => lhs; rw [← List.take_append_drop (j + 1) e, List.filterMap_append, hafter, List.append_nil]
  have hmem : none ∈ e.take (j + 1) :=
    List.mem_of_getElem? (i := i) (by rw [List.getElem?_take]; rw [if_pos (by omega)]; exact hi)
  have hlt : ∀ (l : List (Option Bytes)), none ∈ l → (l.filterMap id).length < l.length := by
    intro l
    induction l with
    | nil => simp
    | cons v l ih =>
      intro hm
      cases v with
      | none => have := List.length_filterMap_le id l; simp; omega
      | some t => have := ih (by simpa using hm); simpa using this
  have := hlt _ hmem
  have h2 : (e.take (j + 1)).length ≤ j + 1 := by simp; omega
  rw [hsplit]; omega

/-- The place of the last error. -/
theorem last_error {e : List (Option Bytes)} {j : Nat} {t : Bytes} (hj : e[j]? = some (some t)) :
    ∃ m t', j ≤ m ∧ e[m]? = some (some t') ∧ ∀ k t'', e[k]? = some (some t'') → k ≤ m := by
  have key : ∀ (d j : Nat) (t : Bytes), e.length - j ≤ d → e[j]? = some (some t) →
      ∃ m t', j ≤ m ∧ e[m]? = some (some t') ∧ ∀ k t'', e[k]? = some (some t'') → k ≤ m := by
    intro d
    induction d with
    | zero =>
      intro j t hd hj
      have := (List.getElem?_eq_some_iff.1 hj).1
      omega
    | succ d ih =>
      intro j t hd hj
      by_cases h : ∃ k t', j < k ∧ e[k]? = some (some t')
      · obtain ⟨k, t', hk, hkt⟩ := h
        have := (List.getElem?_eq_some_iff.1 hkt).1
        obtain ⟨m, t'', h1, h2, h3⟩ := ih k t' (by omega) hkt
        exact ⟨m, t'', by omega, h2, h3⟩
      · exact ⟨j, t, Nat.le_refl _, hj, fun k t'' hk => by
          apply Nat.le_of_not_lt; intro hlt; exact h ⟨k, t'', hlt, hk⟩⟩
  exact key _ j t (Nat.le_refl _) hj

/-- **C70, the text of a list.** Making the text of a list of errors crashes exactly if some error comes
after a nil. -/
theorem C70_text_crash_iff (e : List (Option Bytes)) : errorText e = .panic ↔ Gap e := by
  constructor
  · intro h
    apply Classical.byContradiction
    intro hg
    obtain ⟨ts, n, rfl⟩ := no_gap hg
    have hl : lenWithoutNil (ts.map some ++ List.replicate n none) = ts.length := by
      rw [lenWithoutNil_eq]; simp [List.filterMap_append, List.filterMap_replicate_of_none]
    have := fill_prefix ts n []
    simp only [List.length_nil, List.nil_append] at this
    simp [errorText, hl, this] at h
  · rintro ⟨i, j, t, hij, hi, hj⟩
    obtain ⟨m, t', hm, hmt, hlast⟩ := last_error hj
    have hlen := length_before (by omega) hi hmt hlast
    have := fill_panics e 0 (List.replicate (lenWithoutNil e) []) ⟨m, t', hmt, by
      rw [List.length_replicate, lenWithoutNil_eq]; omega⟩
    simp [errorText, this]

/-- **C70, the text of a list.** Otherwise the text has one line for each error, with its number. -/
theorem C70_text (ts : List Bytes) (n : Nat) :
    errorText (ts.map some ++ List.replicate n none) =
      .ok (b! "All attempts fail:\n" ++ (b! "\n").intercalate (numbered 0 ts)) := by
  rw [← joinLines_eq]
  have hl : lenWithoutNil (ts.map some ++ List.replicate n none) = ts.length := by
    rw [lenWithoutNil_eq]; simp [List.filterMap_append, List.filterMap_replicate_of_none]
  have := fill_prefix ts n []
  simp only [List.length_nil, List.nil_append] at this
  simp [errorText, hl, this]

theorem collected_eq (ts : List Bytes) (t : Bytes) : collected (ts ++ [t]) = [some t] := by
  have key : ∀ (ts : List Bytes) (v : Option Bytes),
      ∃ v', ts.foldl (fun e t => e.set 0 (some t)) [v] = [v'] := by
    intro ts
    induction ts with
    | nil => exact fun v => ⟨v, rfl⟩
    | cons t ts ih => exact fun v => ih (some t)
  obtain ⟨v, hv⟩ := key ts none
  rw [collected, List.foldl_append, hv]; rfl

open Retry in
/-- **C70, partial.** If a registration fails, for every behaviour of the node, then all five tries failed
and the text of the error names that of the last try, as number 1; making the text does not crash.
Missing: the errors of the other tries. -/
theorem C70_report_partial {log rnd : Nat → Nat} (hlog : FloorLog log) (text : AcnErr → Bytes)
    (attempt : PipeM Unit) (p : Pipe) (e : AcnErr) (h : (withRetry log rnd attempt p).result = .err e) :
    ∃ es p', Fails attempt p es p' ∧ es.length = 5 ∧ es.getLast? = some e ∧
      errorText (collected (es.map text)) = .ok (b! "All attempts fail:\n#1: " ++ text e) := by
  obtain ⟨_, _, es, p', hf, hc⟩ := C40_tries (rnd := rnd) hlog attempt p
  rcases hc with ⟨_, _, _, h', _⟩ | ⟨_, _, _, h', _⟩ | ⟨e', hl, hlast, h', _⟩
  · rw [h'] at h; simp at h
  · rw [h'] at h; simp at h
  · rw [h'] at h
    simp only [Res.err.injEq] at h
    subst h
    refine ⟨es, p', hf, hl, hlast, ?_⟩
    obtain ⟨ts, rfl⟩ := List.getLast?_eq_some_iff.1 hlast
    rw [List.map_append, List.map_singleton, collected_eq]
    have := C70_text [text e'] 0
    simp only [List.map_cons, List.map_nil, List.replicate_zero, List.append_nil] at this
    rw [this]
    simp [numbered, numeral, List.intercalate]

/-- **C70 is false**: of five different errors the text names the last, and calls it the first. -/
theorem C70_counterexample :
    errorText (collected [b! "a", b! "b", b! "c", b! "d", b! "e"]) = .ok (b! "All attempts fail:\n#1: e") ∧
    errorText (collected [b! "a", b! "b", b! "c", b! "d", b! "e"]) ≠
      .ok (b! "All attempts fail:\n" ++ (b! "\n").intercalate (numbered 0 [b! "a", b! "b", b! "c", b! "d", b! "e"])) := by
  refine ⟨by decide, ?_⟩
  have h : errorText (collected [b! "a", b! "b", b! "c", b! "d", b! "e"]) =
      .ok (b! "All attempts fail:\n#1: e") := by decide
  rw [h]
  simp [numbered, numeral, List.intercalate]

/-! ## Cases -/

example : errorText [some (b! "a"), some (b! "bc"), none] = .ok (b! "All attempts fail:\n#1: a\n#2: bc") := by
  decide

example : errorText [none, some (b! "a")] = .panic := by decide

end RetryError

end Verif
