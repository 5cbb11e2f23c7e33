import Verif.Lemmas.Schema
import Verif.Lemmas.Decoded

/-!
# What is read from arbitrary bytes
-/

namespace Verif.PB

open Proto

variable {T : Type} {S : Schema T}

/-! ## Nesting -/

theorem foldlM_fails {M : Type} {step : M → RawField → Option M} {fs : List RawField} {f : RawField}
    (hf : f ∈ fs) (h : ∀ m, step m f = none) (m : M) : fs.foldlM step m = none := by
  induction fs generalizing m with
  | nil => simp at hf
  | cons g fs ih =>
    simp only [List.foldlM_cons]
    rcases List.mem_cons.mp hf with rfl | hf
    · rw [h]; rfl
    · cases step m g with
      | none => rfl
      | some m1 => exact ih hf m1

theorem deep_zip {ds : List (Field T)} {m : List (List Val)} (hlen : ds.length = m.length) {n : Nat}
    (h : n < depthFields m) : ∃ d vs, (d, vs) ∈ ds.zip m ∧ ∃ v ∈ vs, n < depth v := by
  have hall : ∀ vs : List Val, n < depthAll vs → ∃ v ∈ vs, n < depth v := by
    intro vs
    induction vs with
    | nil => simp [depthAll]
    | cons v vs ih =>
      intro hv
      simp only [depthAll] at hv
      by_cases hd : n < depth v
      · exact ⟨v, by simp, hd⟩
      · obtain ⟨w, hw, hd⟩ := ih (by omega)
        exact ⟨w, by simp [hw], hd⟩
  induction m generalizing ds with
  | nil => simp [depthFields] at h
  | cons vs rest ih =>
    cases ds with
    | nil => simp at hlen
    | cons d ds =>
      simp only [depthFields] at h
      by_cases hv : n < depthAll vs
      · exact ⟨d, vs, by simp, hall vs hv⟩
      · obtain ⟨e, ws, hm, hw⟩ := ih (ds := ds) (by simpa using hlen) (by omega)
        exact ⟨e, ws, by simp [hm], hw⟩

theorem typed_length {ds : List (Field T)} {m : List (List Val)} (h : TypedFields S ds m) :
    ds.length = m.length := by
  induction m generalizing ds with
  | nil => cases h; rfl
  | cons vs rest ih =>
    cases ds with
    | nil => exact h.elim
    | cons d ds => simp [ih h.2.2]

theorem raw_mem {ds : List (Field T)} {m : List (List Val)} {d : Field T} {vs : List Val}
    (hm : (d, vs) ∈ ds.zip m) {v : Val} (hv : v ∈ vs) (hp : d.kind.packs = false) :
    (⟨d.num, wire S d.kind v⟩ : RawField) ∈ rawFields S ds m := by
  induction m generalizing ds with
  | nil => simp at hm
  | cons ws rest ih =>
    cases ds with
    | nil => simp at hm
    | cons e ds =>
      simp only [rawFields, List.mem_append]
      rcases List.mem_cons.mp hm with hm | hm
      · cases hm
        left
        unfold rawField
        rw [if_neg (by simp [hp]), wires_eq, List.map_map, List.mem_map]
        exact ⟨v, hv, rfl⟩
      · exact .inr (ih hm)

theorem readRaw_eq (hS : Good S) (sub : Reader T) {t : T} {d : Field T} (hd : d ∈ S t) :
    ∃ i, ∀ m w, readRaw S sub (S t) m ⟨d.num, w⟩ = readField S sub (S t) d i m w := by
  obtain ⟨pre, post, he⟩ := List.append_of_mem hd
  have hn := hS.nums t
  rw [he] at hn ⊢
  exact ⟨pre.length, fun m w => readRaw_mid sub hn m w⟩

theorem readField_fails (sub : Reader T) (ds : List (Field T)) (d : Field T) (i : Nat) (m : List (List Val))
    (w : WireVal) (hp : d.kind.packs = false) (h : ∀ old, readVal S sub d.kind old w = none) :
    readField S sub ds d i m w = none := by
  unfold readField
  cases d.card <;> simp only [h, Option.map_none, hp]

/-- Messages that are nested too deep cannot be read. -/
theorem readInto_deep (hS : Good S) (n : Nat) : ∀ (t : T) (m m0 : List (List Val)), IsMessage S t m →
    n < nesting m → (bytesOf S t m).length < 2 ^ 64 → readInto S n t m0 (bytesOf S t m) = none := by
  induction n with
  | zero => intro t m m0 _ _ _; rfl
  | succ n ih =>
    intro t m m0 ⟨ht, hx⟩ hd hl
    unfold readInto
    unfold bytesOf at hl ⊢
    rw [decodeInto_encodeFields (ok_of_shape hl (rawFields_shape (hS.range t) ht))]
    obtain ⟨d, vs, hm, v, hv, hdv⟩ := deep_zip (typed_length ht) (n := n) (by unfold nesting at hd; omega)
    have h1 := (typed_zip ht d vs hm).2 v hv
    cases v with
    | msg fs =>
      cases hk : d.kind with
      | msg e =>
        rw [hk] at h1
        have h4 := length_zip hl d vs hm _ hv (by rw [hk]; rfl) (bytesOf S e fs)
          (by rw [hk]; simp only [wire, bytesOf])
        have h5 := fun m0 => ih e fs m0 h1 hdv h4
        refine foldlM_fails (raw_mem hm hv (by rw [hk]; rfl)) ?_ m0
        intro m1
        obtain ⟨i, hi⟩ := readRaw_eq hS (readInto S n) (List.of_mem_zip hm).1
        rw [hi]
        refine readField_fails _ _ _ _ _ _ (by rw [hk]; rfl) ?_
        intro old
        rw [hk]
        simp only [wire, readVal]
        rw [show encodeFields (rawFields S (S e) fs) = bytesOf S e fs from rfl, h5]
        rfl
      | _ => rw [hk] at h1; exact h1.elim
    | num i => simp [depth] at hdv
    | dbl i => simp [depth] at hdv
    | str i => simp [depth] at hdv

/-- The nesting of a message is at most the number of its bytes and one. -/
theorem nesting_le (S : Schema T) (n : Nat) : ∀ (t : T) (m : List (List Val)), IsMessage S t m →
    (bytesOf S t m).length ≤ n → nesting m ≤ n + 1 := by
  induction n with
  | zero =>
    intro t m ⟨ht, hx⟩ hl
    by_cases hd : nesting m ≤ 1
    · exact hd
    · obtain ⟨d, vs, hm, v, hv, hdv⟩ := deep_zip (typed_length ht) (n := 0) (by unfold nesting at hd; omega)
      have h1 := (typed_zip ht d vs hm).2 v hv
      cases v with
      | msg fs =>
        cases hk : d.kind with
        | msg e =>
          have := bytes_length_lt (raw_mem (S := S) hm hv (by rw [hk]; rfl) |> fun h => by
            rw [hk] at h; simpa only [wire] using h)
          unfold bytesOf at hl
          omega
        | _ => rw [hk] at h1; exact h1.elim
      | num i => simp [depth] at hdv
      | dbl i => simp [depth] at hdv
      | str i => simp [depth] at hdv
  | succ n ih =>
    intro t m ⟨ht, hx⟩ hl
    by_cases hd : nesting m ≤ n + 1 + 1
    · exact hd
    · obtain ⟨d, vs, hm, v, hv, hdv⟩ := deep_zip (typed_length ht) (n := n + 1) (by unfold nesting at hd; omega)
      have h1 := (typed_zip ht d vs hm).2 v hv
      cases v with
      | msg fs =>
        cases hk : d.kind with
        | msg e =>
          rw [hk] at h1
          have := bytes_length_lt (raw_mem (S := S) hm hv (by rw [hk]; rfl) |> fun h => by
            rw [hk] at h; simpa only [wire] using h)
          have h2 := ih e fs h1 (by unfold bytesOf at hl ⊢; omega)
          have hdv' : n + 1 < nesting fs := hdv
          omega
        | _ => rw [hk] at h1; exact h1.elim
      | num i => simp [depth] at hdv
      | dbl i => simp [depth] at hdv
      | str i => simp [depth] at hdv

/-! ## The limit -/

theorem foldlM_congr_mem {M : Type} {f g : M → RawField → Option M} {fs : List RawField}
    (h : ∀ x ∈ fs, ∀ m, f m x = g m x) (m : M) : fs.foldlM f m = fs.foldlM g m := by
  induction fs generalizing m with
  | nil => rfl
  | cons x fs ih =>
    simp only [List.foldlM_cons, h x (by simp)]
    cases g m x with
    | none => rfl
    | some m1 => exact ih (fun y hy => h y (by simp [hy])) m1

theorem readVal_congr {s1 s2 : Reader T} {k : Kind T} {w : WireVal}
    (h : ∀ t m b, w = .bytes b → s1 t m b = s2 t m b) (old : Option Val) :
    readVal S s1 k old w = readVal S s2 k old w := by
  cases k <;> cases w <;> simp only [readVal]
  rw [h _ _ _ rfl]

theorem unpackOne_sub (s1 s2 : Reader T) (k : Kind T) (b : Bytes) : unpackOne S s1 k b = unpackOne S s2 k b := by
  cases k <;> simp only [unpackOne, readVal]

theorem unpack_sub (s1 s2 : Reader T) (k : Kind T) (n : Nat) (b : Bytes) :
    unpack S s1 k n b = unpack S s2 k n b := by
  induction n generalizing b with
  | zero => cases b <;> rfl
  | succ n ih =>
    cases b with
    | nil => rfl
    | cons x xs =>
      simp only [unpack]
      rw [unpackOne_sub s1 s2]
      congr 1
      funext y
      rw [ih]

theorem readRaw_congr {s1 s2 : Reader T} {f : RawField}
    (h : ∀ t m b, f.val = .bytes b → s1 t m b = s2 t m b) (ds : List (Field T)) (m : List (List Val)) :
    readRaw S s1 ds m f = readRaw S s2 ds m f := by
  unfold readRaw
  have hv : ∀ k old, readVal S s1 k old f.val = readVal S s2 k old f.val := fun k old => readVal_congr h old
  have hu : ∀ k n b, unpack S s1 k n b = unpack S s2 k n b := unpack_sub s1 s2
  cases ds.findIdx? fun d => d.num == f.num with
  | none => rfl
  | some i =>
    dsimp only
    cases ds[i]? with
    | none => rfl
    | some d =>
      dsimp only
      unfold readField
      cases hc : d.card with
      | many =>
        dsimp only
        cases hp : d.kind.packs with
        | false => simp only [hv]
        | true =>
          cases hw : f.val with
          | bytes b => simp only [hu]
          | _ => simp only [← hw, hv]
      | _ => simp only [hv]

/-- More room than a message has bytes makes no difference. -/
theorem readInto_stable (S : Schema T) (N : Nat) : ∀ (t : T) (m : List (List Val)) (b : Bytes) (n : Nat),
    b.length ≤ N → b.length < n → readInto S n t m b = readInto S (b.length + 1) t m b := by
  induction N with
  | zero =>
    intro t m b n hN hn
    have hb : b = [] := List.length_eq_zero_iff.mp (by omega)
    subst hb
    cases n with
    | zero => cases hn
    | succ n => rfl
  | succ N ih =>
    intro t m b n hN hn
    cases n with
    | zero => omega
    | succ n =>
      unfold readInto decodeInto
      cases hp : parse b with
      | none => rfl
      | some fs =>
        simp only [Option.bind_some]
        refine foldlM_congr_mem ?_ m
        intro f hf m1
        refine readRaw_congr ?_ _ _
        intro t' m' v hv
        have hlt : v.length < b.length := by
          have h1 := parse_minimal hp
          have h2 : (⟨f.num, .bytes v⟩ : RawField) ∈ fs := by rw [← hv]; exact hf
          have := bytes_length_lt h2
          omega
        rw [ih t' m' v n (by omega) (by omega), ih t' m' v b.length (by omega) hlt]

theorem readVal_mono {s1 s2 : Reader T} (h : ∀ t m b m', s1 t m b = some m' → s2 t m b = some m') {k : Kind T}
    {w : WireVal} {old : Option Val} {x : Option Val} (hx : readVal S s1 k old w = some x) :
    readVal S s2 k old w = some x := by
  cases k <;> cases w <;> simp only [readVal] at hx ⊢ <;> try exact hx
  rw [Option.map_eq_some_iff] at hx ⊢
  obtain ⟨fs, h1, h2⟩ := hx
  exact ⟨fs, h _ _ _ _ h1, h2⟩

theorem readRaw_mono {s1 s2 : Reader T} (h : ∀ t m b m', s1 t m b = some m' → s2 t m b = some m')
    {ds : List (Field T)} {m m' : List (List Val)} {f : RawField} (hx : readRaw S s1 ds m f = some m') :
    readRaw S s2 ds m f = some m' := by
  unfold readRaw at hx ⊢
  split at hx
  · exact hx
  · split at hx
    · exact hx
    · next d _ =>
      have go : ∀ (old : Option Val) (g : Option Val → List (List Val)),
          (readVal S s1 d.kind old f.val).map g = some m' → (readVal S s2 d.kind old f.val).map g = some m' := by
        intro old g hg
        rw [Option.map_eq_some_iff] at hg ⊢
        obtain ⟨x, h1, h2⟩ := hg
        exact ⟨x, readVal_mono h h1, h2⟩
      unfold readField at hx ⊢
      cases hc : d.card with
      | many =>
        simp only [hc] at hx ⊢
        split at hx
        · rw [unpack_sub s2 s1]; exact hx
        · exact go _ _ hx
      | _ => simp only [hc] at hx ⊢; exact go _ _ hx

theorem foldlM_mono {M : Type} {f g : M → RawField → Option M} (h : ∀ m x m', f m x = some m' → g m x = some m')
    {fs : List RawField} {m m' : M} (hf : fs.foldlM f m = some m') : fs.foldlM g m = some m' := by
  induction fs generalizing m with
  | nil => exact hf
  | cons x fs ih =>
    simp only [List.foldlM_cons] at hf ⊢
    cases hx : f m x with
    | none => rw [hx] at hf; cases hf
    | some m1 =>
      rw [hx] at hf
      rw [h _ _ _ hx]
      exact ih hf

/-- A larger limit reads the same. -/
theorem readInto_mono (S : Schema T) (n : Nat) : ∀ (t : T) (m : List (List Val)) (b : Bytes) (m' : List (List Val)),
    readInto S n t m b = some m' → readInto S (n + 1) t m b = some m' := by
  induction n with
  | zero => intro t m b m' h; cases h
  | succ n ih =>
    intro t m b m' h
    unfold readInto decodeInto at h ⊢
    cases hp : parse b with
    | none => rw [hp] at h; cases h
    | some fs =>
      rw [hp] at h
      simp only [Option.bind_some] at h ⊢
      exact foldlM_mono (fun m x m' hx => readRaw_mono ih hx) h

theorem readInto_le {n k : Nat} (hk : n ≤ k) {t : T} {m : List (List Val)} {b : Bytes} {m' : List (List Val)}
    (h : readInto S n t m b = some m') : readInto S k t m b = some m' := by
  induction hk with
  | refl => exact h
  | step _ ih => exact readInto_mono S _ _ _ _ _ ih

end Verif.PB
