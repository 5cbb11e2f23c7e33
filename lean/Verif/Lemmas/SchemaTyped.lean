import Verif.Lemmas.SchemaRead

/-!
# What is read is a message of the definition
-/

namespace Verif.PB

open Proto

variable {T : Type} {S : Schema T}

/-- A value that can be written. -/
def Fine (S : Schema T) (k : Kind T) (v : Val) : Prop := Typed S k v ∧ texts S k v = true

/-- Fields that can be written. -/
def FineFields (S : Schema T) (ds : List (Field T)) (m : List (List Val)) : Prop :=
  TypedFields S ds m ∧ textsFields S ds m = true

/-- A message that can be written. -/
def FineMsg (S : Schema T) (t : T) (m : List (List Val)) : Prop :=
  FineFields S (S t) m ∧ Exclusive (S t) m

theorem fine_iff (ds : List (Field T)) (m : List (List Val)) : FineFields S ds m ↔
    ds.length = m.length ∧ ∀ (i : Nat) (d : Field T) (vs : List Val), ds[i]? = some d → m[i]? = some vs →
      CardOk d.card vs ∧ ∀ v ∈ vs, Fine S d.kind v := by
  induction m generalizing ds with
  | nil =>
    cases ds with
    | nil => simp [FineFields, TypedFields, textsFields]
    | cons d ds => simp [FineFields, TypedFields]
  | cons vs rest ih =>
    cases ds with
    | nil => simp [FineFields, TypedFields]
    | cons d ds =>
      have hh : FineFields S (d :: ds) (vs :: rest) ↔
          (CardOk d.card vs ∧ ∀ v ∈ vs, Fine S d.kind v) ∧ FineFields S ds rest := by
        simp only [FineFields, TypedFields, textsFields, Bool.and_eq_true, typedAll_iff, textsAll_iff, Fine]
        constructor
        · rintro ⟨⟨h1, h2, h3⟩, h4, h5⟩
          exact ⟨⟨h1, fun v hv => ⟨h2 v hv, h4 v hv⟩⟩, h3, h5⟩
        · rintro ⟨⟨h1, h2⟩, h3, h4⟩
          exact ⟨⟨h1, fun v hv => (h2 v hv).1, h3⟩, fun v hv => (h2 v hv).2, h4⟩
      rw [hh, ih]
      constructor
      · rintro ⟨h1, h2, h3⟩
        refine ⟨by simp [h2], ?_⟩
        intro i e ws hi hm
        cases i with
        | zero => simp at hi hm; subst hi; subst hm; exact h1
        | succ i => exact h3 i e ws (by simpa using hi) (by simpa using hm)
      · rintro ⟨h1, h2⟩
        refine ⟨h2 0 d vs rfl rfl, by simpa using h1, ?_⟩
        intro i e ws hi hm
        exact h2 (i + 1) e ws (by simpa using hi) (by simpa using hm)

theorem fine_set {ds : List (Field T)} {m : List (List Val)} (h : FineFields S ds m) {i : Nat} {d : Field T}
    (hi : ds[i]? = some d) {vs : List Val} (hc : CardOk d.card vs) (hv : ∀ v ∈ vs, Fine S d.kind v) :
    FineFields S ds (m.set i vs) := by
  rw [fine_iff] at h ⊢
  refine ⟨by simpa using h.1, ?_⟩
  intro j e ws hj hm
  by_cases hij : i = j
  · subst hij
    rw [hi] at hj
    cases hj
    have hlt : i < m.length := by rw [← h.1]; exact (List.getElem?_eq_some_iff.mp hi).1
    rw [List.getElem?_set_self hlt] at hm
    cases hm
    exact ⟨hc, hv⟩
  · rw [List.getElem?_set_ne hij] at hm
    exact h.2 j e ws hj hm

theorem exclusive_set {ds : List (Field T)} {m : List (List Val)} (h : Exclusive ds m) {i : Nat} {d : Field T}
    (hi : ds[i]? = some d) (hc : ∀ g, d.card ≠ .oneof g) (vs : List Val) : Exclusive ds (m.set i vs) := by
  intro j k e f g hjk hj hk he hf
  have hne : ∀ l x, ds[l]? = some x → x.card = .oneof g → (m.set i vs).getD l [] = m.getD l [] := by
    intro l x hl hx
    have : i ≠ l := by
      intro hil
      subst hil
      rw [hi] at hl
      cases hl
      exact hc g hx
    rw [List.getD_eq_getElem?_getD, List.getElem?_set_ne this, ← List.getD_eq_getElem?_getD]
  rw [hne j e hj he, hne k f hk hf]
  exact h j k e f g hjk hj hk he hf

theorem clearGroup_getElem? (g : Nat) : ∀ (ds : List (Field T)) (m : List (List Val)) (i : Nat), ds.length = m.length →
    (clearGroup g ds m)[i]? =
      match ds[i]?, m[i]? with
      | some d, some vs => some (if d.card = .oneof g then [] else vs)
      | _, _ => none
  | [], [], i, _ => by simp [clearGroup]
  | [], _ :: _, _, h => by simp at h
  | _ :: _, [], _, h => by simp at h
  | d :: ds, vs :: rest, 0, _ => by simp [clearGroup]
  | d :: ds, vs :: rest, i + 1, h => by
    simp only [clearGroup, List.getElem?_cons_succ]
    exact clearGroup_getElem? g ds rest i (by simpa using h)

theorem clearGroup_length (g : Nat) : ∀ (ds : List (Field T)) (m : List (List Val)),
    (clearGroup g ds m).length = m.length
  | [], m => by simp [clearGroup]
  | _ :: _, [] => by simp [clearGroup]
  | d :: ds, vs :: rest => by simp [clearGroup, clearGroup_length g ds rest]

theorem fine_clear {ds : List (Field T)} {m : List (List Val)} (h : FineFields S ds m) (g : Nat) :
    FineFields S ds (clearGroup g ds m) := by
  have hl := (fine_iff ds m).mp h |>.1
  rw [fine_iff] at h ⊢
  refine ⟨by rw [clearGroup_length]; exact hl, ?_⟩
  intro i d vs hd hm
  rw [clearGroup_getElem? g ds m i hl, hd] at hm
  cases hv : m[i]? with
  | none => rw [hv] at hm; simp at hm
  | some ws =>
    rw [hv] at hm
    simp only [Option.some.injEq] at hm
    split at hm
    · next hc =>
      subst hm
      exact ⟨by rw [hc]; simp [CardOk], by simp⟩
    · subst hm
      exact h.2 i d ws hd hv

theorem exclusive_oneof {ds : List (Field T)} {m : List (List Val)} (hl : ds.length = m.length) (h : Exclusive ds m)
    {i : Nat} {d : Field T} (hi : ds[i]? = some d) {g : Nat} (hc : d.card = .oneof g) (vs : List Val) :
    Exclusive ds ((clearGroup g ds m).set i vs) := by
  have val : ∀ l x, ds[l]? = some x → i ≠ l →
      ((clearGroup g ds m).set i vs).getD l [] = if x.card = .oneof g then [] else m.getD l [] := by
    intro l x hx hil
    rw [List.getD_eq_getElem?_getD, List.getElem?_set_ne hil, clearGroup_getElem? g ds m l hl, hx]
    have hlt : l < m.length := by rw [← hl]; exact (List.getElem?_eq_some_iff.mp hx).1
    rw [List.getElem?_eq_getElem hlt]
    simp only [Option.getD_some]
    split
    · rfl
    · simp [List.getD, hlt]
  intro j k e f g' hjk hj hk he hf
  by_cases hg : g' = g
  · subst hg
    by_cases hij : i = j
    · right
      rw [val k f hk (by omega), if_pos hf]
    · left
      rw [val j e hj hij, if_pos he]
  · have hij : i ≠ j := by
      intro hij
      subst hij
      rw [hi] at hj
      cases hj
      rw [hc] at he
      cases he
      exact hg rfl
    have hik : i ≠ k := by
      intro hik
      subst hik
      rw [hi] at hk
      cases hk
      rw [hc] at hf
      cases hf
      exact hg rfl
    rw [val j e hj hij, val k f hk hik]
    rw [if_neg (by rw [he]; intro hh; cases hh; exact hg rfl), if_neg (by rw [hf]; intro hh; cases hh; exact hg rfl)]
    exact h j k e f g' hjk hj hk he hf

/-! ## A new message -/

theorem zero_fine (hS : Good S) {t : T} {d : Field T} (hd : d ∈ S t) (hc : d.card = .always) :
    Fine S d.kind (zeroOf S d.kind) := by
  cases hk : d.kind with
  | msg e =>
    have hpl := hS.plain t d hd (by rw [hc]; simp) e hk
    have hf : FineFields S (S e) ((S e).map fun _ => []) := by
      rw [fine_iff]
      refine ⟨by simp, ?_⟩
      intro i x vs hi hm
      rw [List.getElem?_map, hi] at hm
      simp only [Option.map_some, Option.some.injEq] at hm
      subst hm
      refine ⟨?_, by simp⟩
      have := hpl x (List.mem_of_getElem? hi)
      unfold CardOk
      cases hx : x.card <;> simp
      exact this hx
    refine ⟨⟨hf.1, ?_⟩, hf.2⟩
    intro i j x y g _ hi _ _ _
    left
    rw [List.getD_eq_getElem?_getD, List.getElem?_map, hi]
    rfl
  | _ => simp [Fine, Typed, zeroOf, texts, utf8Valid]

theorem fresh_fine (hS : Good S) (t : T) : FineMsg S t (fresh S (S t)) := by
  refine ⟨?_, ?_⟩
  · rw [fine_iff]
    refine ⟨by simp [fresh], ?_⟩
    intro i d vs hi hm
    simp only [fresh, List.getElem?_map, hi, Option.map_some, Option.some.injEq] at hm
    subst hm
    split
    · next hc =>
      refine ⟨by rw [hc]; simp [CardOk], ?_⟩
      intro v hv
      simp only [List.mem_singleton] at hv
      subst hv
      exact zero_fine hS (List.mem_of_getElem? hi) hc
    · next hc =>
      refine ⟨?_, by simp⟩
      unfold CardOk
      cases hx : d.card <;> simp
      exact hc hx
  · intro i j d e g _ hi _ hd _
    left
    rw [List.getD_eq_getElem?_getD]
    simp [fresh, hi, hd]

/-! ## Reading -/

/-- The bytes of a `double` from the wire are eight. -/
theorem parse_fixed64 {b : Bytes} {fs : List RawField} (h : parse b = some fs) :
    ∀ f ∈ fs, ∀ v, f.val = .fixed64 v → v.length = 8 := by
  have go : ∀ (n : Nat) (b : Bytes) (fs : List RawField), parseAux n b = some fs →
      ∀ f ∈ fs, ∀ v, f.val = .fixed64 v → v.length = 8 := by
    intro n
    induction n with
    | zero =>
      intro b fs h
      cases b with
      | nil => cases h; simp
      | cons x xs => cases h
    | succ n ih =>
      intro b fs h
      cases b with
      | nil => cases h; simp
      | cons x xs =>
        unfold parseAux at h
        cases ht : consumeTag (x :: xs) with
        | none => rw [ht] at h; cases h
        | some r =>
          obtain ⟨num, typ, rest⟩ := r
          rw [ht] at h
          simp only at h
          cases hv : consumeValue num typ rest with
          | none => rw [hv] at h; cases h
          | some r =>
            obtain ⟨w, rest'⟩ := r
            rw [hv] at h
            simp only [Option.map_eq_some_iff] at h
            obtain ⟨gs, hg, rfl⟩ := h
            intro f hf v hfv
            rcases List.mem_cons.mp hf with rfl | hf
            · simp only at hfv
              subst hfv
              unfold consumeValue at hv
              split at hv
              · simp only [Option.map_eq_some_iff] at hv
                obtain ⟨_, _, h2⟩ := hv
                cases h2
              · unfold consumeScalar at hv
                split at hv
                · simp only [Option.map_eq_some_iff] at hv
                  obtain ⟨_, _, h2⟩ := hv
                  cases h2
                · simp only [Option.map_eq_some_iff] at hv
                  obtain ⟨⟨a, c⟩, h1, h2⟩ := hv
                  cases h2
                  exact (takeExact_some h1).2
                · rw [Option.bind_eq_some_iff] at hv
                  obtain ⟨_, _, h2⟩ := hv
                  simp only [Option.map_eq_some_iff] at h2
                  obtain ⟨_, _, h3⟩ := h2
                  cases h3
                · simp only [Option.map_eq_some_iff] at hv
                  obtain ⟨_, _, h2⟩ := hv
                  cases h2
                · cases hv
            · exact ih rest' gs hg f hf v hfv
  exact go _ b fs h

theorem int64OfWire_range (n : Nat) : -2 ^ 63 ≤ int64OfWire n ∧ int64OfWire n < 2 ^ 63 := by
  unfold int64OfWire
  simp only
  split <;> omega

/-- A reader that keeps messages messages. -/
def KeepsFine (S : Schema T) (sub : Reader T) : Prop :=
  ∀ t m b m', sub t m b = some m' → FineMsg S t m → FineMsg S t m'

theorem readVal_fine (hS : Good S) {sub : Reader T} (hsub : KeepsFine S sub) {k : Kind T} {old : Option Val}
    {w : WireVal} {v : Val} (ho : ∀ x ∈ old, Fine S k x) (hw : ∀ b, w = .fixed64 b → b.length = 8)
    (h : readVal S sub k old w = some (some v)) : Fine S k v := by
  have i32 : ∀ n, -2 ^ 31 ≤ int32OfWire n ∧ int32OfWire n < 2 ^ 31 := by
    intro n
    have := int32OfWire_range n
    simpa [isInt32] using this
  cases k <;> cases w <;> simp only [readVal, Option.some.injEq, reduceCtorEq] at h
  · subst h; exact ⟨i32 _, rfl⟩
  · subst h; exact ⟨int64OfWire_range _, rfl⟩
  · subst h
    refine ⟨?_, rfl⟩
    show _ ∨ _
    split <;> simp
  · subst h; exact ⟨i32 _, rfl⟩
  · subst h; exact ⟨hw _ rfl, rfl⟩
  · split at h
    · next hu =>
      simp only [Option.some.injEq] at h
      subst h
      exact ⟨trivial, hu⟩
    · cases h
  · subst h; exact ⟨trivial, rfl⟩
  · next t b =>
    rw [Option.map_eq_some_iff] at h
    obtain ⟨fs, h1, h2⟩ := h
    simp only [Option.some.injEq] at h2
    subst h2
    have key : ∀ m0, FineMsg S t m0 → sub t m0 b = some fs → Fine S (.msg t) (.msg fs) := by
      intro m0 h0 h1
      have := hsub t _ b fs h1 h0
      exact ⟨⟨this.1.1, this.2⟩, this.1.2⟩
    cases old with
    | none => exact key _ (fresh_fine hS t) h1
    | some x =>
      cases x with
      | msg fs' =>
        have := ho (.msg fs') (by simp)
        exact key _ ⟨⟨this.1.1, this.2⟩, this.1.2⟩ h1
      | _ => exact key _ (fresh_fine hS t) h1

theorem unpackOne_fine (hS : Good S) {sub : Reader T} (hsub : KeepsFine S sub) {k : Kind T} {b : Bytes} {v : Val}
    {r : Bytes} (h : unpackOne S sub k b = some (v, r)) : Fine S k v := by
  have go : ∀ k : Kind T, ((consumeVarint b).bind fun (n, r) =>
      match readVal S sub k none (.varint n) with
      | some (some v) => some (v, r)
      | _ => none) = some (v, r) → Fine S k v := by
    intro k h
    rw [Option.bind_eq_some_iff] at h
    obtain ⟨⟨n, r'⟩, -, h2⟩ := h
    simp only at h2
    split at h2
    · next x hx =>
      cases h2
      exact readVal_fine hS hsub (by simp) (by simp) hx
    · cases h2
  cases k with
  | double =>
    simp only [unpackOne, Option.map_eq_some_iff] at h
    obtain ⟨⟨a, c⟩, h1, h2⟩ := h
    cases h2
    exact ⟨(takeExact_some h1).2, rfl⟩
  | _ => exact go _ h

theorem unpack_fine (hS : Good S) {sub : Reader T} (hsub : KeepsFine S sub) {k : Kind T} (n : Nat) :
    ∀ {b : Bytes} {vs : List Val}, unpack S sub k n b = some vs → ∀ v ∈ vs, Fine S k v := by
  induction n with
  | zero =>
    intro b vs h
    cases b with
    | nil => cases h; simp
    | cons x xs => cases h
  | succ n ih =>
    intro b vs h
    cases b with
    | nil => cases h; simp
    | cons x xs =>
      simp only [unpack] at h
      rw [Option.bind_eq_some_iff] at h
      obtain ⟨⟨v, r⟩, h1, h2⟩ := h
      simp only [Option.map_eq_some_iff] at h2
      obtain ⟨ws, h2, rfl⟩ := h2
      intro y hy
      rcases List.mem_cons.mp hy with rfl | hy
      · exact unpackOne_fine hS hsub h1
      · exact ih h2 y hy

theorem setEntry_nodup {es : List Val} (h : (es.map keyOf).Nodup) (e : Val) : ((setEntry es e).map keyOf).Nodup := by
  unfold setEntry
  split
  · have : (es.map fun x => if keyOf x = keyOf e then e else x).map keyOf = es.map keyOf := by
      rw [List.map_map]
      refine List.map_congr_left ?_
      intro x _
      simp only [Function.comp]
      split
      · next hx => exact hx.symm
      · rfl
    rw [this]
    exact h
  · next hn =>
    rw [List.map_append, List.nodup_append]
    refine ⟨h, by simp, ?_⟩
    intro a ha b hb hab
    simp only [List.map_cons, List.map_nil, List.mem_singleton] at hb
    subst hb
    subst hab
    rw [List.mem_map] at ha
    obtain ⟨x, hx, hk⟩ := ha
    apply hn
    simp only [List.any_eq_true, beq_iff_eq]
    exact ⟨x, hx, hk⟩

theorem setEntry_mem {es : List Val} {e x : Val} (h : x ∈ setEntry es e) : x = e ∨ x ∈ es := by
  unfold setEntry at h
  split at h
  · rw [List.mem_map] at h
    obtain ⟨y, hy, h⟩ := h
    split at h
    · exact .inl h.symm
    · exact .inr (h ▸ hy)
  · rw [List.mem_append, List.mem_singleton] at h
    exact h.symm

theorem readField_fine (hS : Good S) {sub : Reader T} (hsub : KeepsFine S sub) {t : T} {d : Field T} {i : Nat}
    (hi : (S t)[i]? = some d) {m m' : List (List Val)} {w : WireVal} (hw : ∀ b, w = .fixed64 b → b.length = 8)
    (h : readField S sub (S t) d i m w = some m') (hm : FineMsg S t m) : FineMsg S t m' := by
  obtain ⟨hf, hx⟩ := hm
  have hl := ((fine_iff _ _).mp hf).1
  have hlt : i < m.length := by rw [← hl]; exact (List.getElem?_eq_some_iff.mp hi).1
  have hold := ((fine_iff _ _).mp hf).2 i d m[i] hi (List.getElem?_eq_getElem hlt)
  have hgd : m.getD i [] = m[i] := by simp [List.getD, hlt]
  unfold readField at h
  rw [hgd] at h
  simp only at h
  have hhead : ∀ x ∈ m[i].head?, Fine S d.kind x := by
    intro x hx
    exact hold.2 x (List.mem_of_head? hx)
  cases hc : d.card with
  | one =>
    simp only [hc, Option.map_eq_some_iff] at h
    obtain ⟨x, h1, h2⟩ := h
    cases x with
    | none => simp only at h2; subst h2; exact ⟨hf, hx⟩
    | some v =>
      simp only at h2
      subst h2
      have hv := readVal_fine hS hsub hhead hw h1
      refine ⟨fine_set hf hi ?_ ?_, exclusive_set hx hi (by simp [hc]) _⟩
      · rw [hc]
        split
        · exact .inl rfl
        · next hz => exact .inr ⟨v, rfl, fun h => hz ((isZero_iff v).2 h)⟩
      · intro y hy
        split at hy
        · simp at hy
        · simp only [List.mem_singleton] at hy; subst hy; exact hv
  | always =>
    simp only [hc, Option.map_eq_some_iff] at h
    obtain ⟨x, h1, h2⟩ := h
    cases x with
    | none => simp only at h2; subst h2; exact ⟨hf, hx⟩
    | some v =>
      simp only at h2
      subst h2
      have hv := readVal_fine hS hsub hhead hw h1
      refine ⟨fine_set hf hi (by rw [hc]; rfl) ?_, exclusive_set hx hi (by simp [hc]) _⟩
      intro y hy
      simp only [List.mem_singleton] at hy; subst hy; exact hv
  | oneof g =>
    simp only [hc, Option.map_eq_some_iff] at h
    obtain ⟨x, h1, h2⟩ := h
    cases x with
    | none => simp only at h2; subst h2; exact ⟨hf, hx⟩
    | some v =>
      simp only at h2
      subst h2
      have hv := readVal_fine hS hsub hhead hw h1
      refine ⟨fine_set (fine_clear hf g) hi (by rw [hc]; simp [CardOk]) ?_, exclusive_oneof hl hx hi hc _⟩
      intro y hy
      simp only [List.mem_singleton] at hy; subst hy; exact hv
  | map =>
    simp only [hc, Option.map_eq_some_iff] at h
    obtain ⟨x, h1, h2⟩ := h
    cases x with
    | none => simp only at h2; subst h2; exact ⟨hf, hx⟩
    | some v =>
      simp only at h2
      subst h2
      have hv := readVal_fine hS hsub (by simp) hw h1
      rw [hc] at hold
      have hkeys : (m[i].map keyOf).Nodup := by
        obtain ⟨e, k, x, h1, h2, h3⟩ := hS.maps t d (List.mem_of_getElem? hi) hc
        refine keyOf_nodup h2 h3 (fun y hy => ?_) hold.1
        have := (hold.2 y hy).1
        rw [h1] at this
        exact this
      refine ⟨fine_set hf hi (by rw [hc]; exact entryKey_nodup (setEntry_nodup hkeys v)) ?_, exclusive_set hx hi (by simp [hc]) _⟩
      intro y hy
      rcases setEntry_mem hy with rfl | hy
      · exact hv
      · exact hold.2 y hy
  | many =>
    simp only [hc] at h
    have app : ∀ xs : List Val, (∀ v ∈ xs, Fine S d.kind v) → FineMsg S t (m.set i (m[i] ++ xs)) := by
      intro xs hxs
      refine ⟨fine_set hf hi (by rw [hc]; trivial) ?_, exclusive_set hx hi (by simp [hc]) _⟩
      intro y hy
      rcases List.mem_append.mp hy with hy | hy
      · exact hold.2 y hy
      · exact hxs y hy
    split at h
    · rw [Option.map_eq_some_iff] at h
      obtain ⟨xs, h1, h2⟩ := h
      subst h2
      exact app xs (unpack_fine hS hsub _ h1)
    · rw [Option.map_eq_some_iff] at h
      obtain ⟨x, h1, h2⟩ := h
      cases x with
      | none => simp only at h2; subst h2; exact ⟨hf, hx⟩
      | some v =>
        simp only at h2
        subst h2
        refine app [v] ?_
        intro y hy
        simp only [List.mem_singleton] at hy
        subst hy
        exact readVal_fine hS hsub (by simp) hw h1

theorem readInto_fine (hS : Good S) (n : Nat) : KeepsFine S (readInto S n) := by
  induction n with
  | zero => intro t m b m' h; cases h
  | succ n ih =>
    intro t m b m' h hm
    unfold readInto decodeInto at h
    rw [Option.bind_eq_some_iff] at h
    obtain ⟨fs, hp, h⟩ := h
    have h8 := parse_fixed64 hp
    clear hp
    induction fs generalizing m with
    | nil => simp at h; subst h; exact hm
    | cons f fs ihf =>
      simp only [List.foldlM_cons] at h
      cases hr : readRaw S (readInto S n) (S t) m f with
      | none => rw [hr] at h; cases h
      | some m1 =>
        rw [hr] at h
        refine ihf m1 ?_ h (fun x hx => h8 x (by simp [hx]))
        unfold readRaw at hr
        split at hr
        · cases hr; exact hm
        · split at hr
          · cases hr; exact hm
          · next i _ d hd => exact readField_fine hS ih hd (h8 f (by simp)) hr hm

end Verif.PB
