import Verif.Spec.Schema
import Verif.Lemmas.Proto
import Verif.Lemmas.Messages

/-!
# Writing and reading messages by their definition
-/

namespace Verif.PB

open Proto

variable {T : Type} {S : Schema T}

/-! ## Numbers -/

theorem int64_round_trip {i : Int} (h : -2 ^ 63 ≤ i ∧ i < 2 ^ 63) : int64OfWire (int32ToWire i) = i := by
  unfold int64OfWire int32ToWire
  split <;> simp only <;> split <;> omega

theorem wire_num_lt {k : Kind T} {i : Int} (h : Typed S k (.num i)) : int32ToWire i < 2 ^ 64 := by
  have : -2 ^ 63 ≤ i ∧ i < 2 ^ 63 := by
    cases k <;> simp only [Typed] at h <;> first | exact h | omega
  unfold int32ToWire
  split <;> omega

/-! ## The fields on the wire can be parsed -/

/-- Apart from the sizes of bytes. -/
def Shape (f : RawField) : Prop :=
  1 ≤ f.num ∧ f.num ≤ 536870911 ∧
  match f.val with
  | .varint n => n < 2 ^ 64
  | .fixed64 b => b.length = 8
  | .bytes _ => True
  | .group => False
  | .fixed32 _ => False

theorem ok_of_shape {fs : List RawField} (hl : (encodeFields fs).length < 2 ^ 64) (h : ∀ f ∈ fs, Shape f) :
    ∀ f ∈ fs, f.Ok := by
  intro f hf
  obtain ⟨h1, h2, h3⟩ := h f hf
  refine ⟨h1, h2, ?_⟩
  obtain ⟨num, val⟩ := f
  cases val with
  | varint n => exact h3
  | fixed64 b => exact h3
  | bytes b =>
    have := bytes_length_lt hf
    show b.length < 2 ^ 64
    omega
  | group => exact h3
  | fixed32 b => exact h3.elim

theorem wire_shape {k : Kind T} {v : Val} (h : Typed S k v) (num : Nat) (hn : 1 ≤ num ∧ num ≤ 536870911) :
    Shape ⟨num, wire S k v⟩ := by
  refine ⟨hn.1, hn.2, ?_⟩
  cases v with
  | num i => simp only [wire]; exact wire_num_lt h
  | dbl b => cases k <;> simp only [Typed] at h; simp only [wire]; exact h
  | str b => simp only [wire]
  | msg fs => cases k <;> simp only [wire]

theorem wires_eq (k : Kind T) (vs : List Val) : wires S k vs = vs.map (wire S k) := by
  induction vs with
  | nil => rfl
  | cons v vs ih => simp only [wires, List.map_cons, ih]

theorem typedAll_iff (k : Kind T) (vs : List Val) : TypedAll S k vs ↔ ∀ v ∈ vs, Typed S k v := by
  induction vs with
  | nil => simp [TypedAll]
  | cons v vs ih => simp [TypedAll, ih]

theorem textsAll_iff (k : Kind T) (vs : List Val) : textsAll S k vs = true ↔ ∀ v ∈ vs, texts S k v = true := by
  induction vs with
  | nil => simp [textsAll]
  | cons v vs ih => simp [textsAll, ih]

theorem depthAll_le (vs : List Val) (n : Nat) : depthAll vs ≤ n ↔ ∀ v ∈ vs, depth v ≤ n := by
  induction vs with
  | nil => simp [depthAll]
  | cons v vs ih => simp [depthAll, ← ih, Nat.max_le]

theorem rawField_shape (d : Field T) (hd : 1 ≤ d.num ∧ d.num ≤ 536870911) {vs : List Val}
    (h : TypedAll S d.kind vs) : ∀ f ∈ rawField d (wires S d.kind vs), Shape f := by
  intro f hf
  unfold rawField at hf
  split at hf
  · split at hf
    · simp at hf
    · simp only [List.mem_singleton] at hf
      subst hf
      exact ⟨hd.1, hd.2, trivial⟩
  · rw [wires_eq, List.map_map, List.mem_map] at hf
    obtain ⟨v, hv, rfl⟩ := hf
    exact wire_shape ((typedAll_iff _ _).mp h v hv) _ hd

theorem rawFields_shape {ds : List (Field T)} (hd : ∀ d ∈ ds, 1 ≤ d.num ∧ d.num ≤ 536870911)
    {m : List (List Val)} (h : TypedFields S ds m) : ∀ f ∈ rawFields S ds m, Shape f := by
  induction m generalizing ds with
  | nil => simp [rawFields]
  | cons vs rest ih =>
    cases ds with
    | nil => simp [rawFields]
    | cons d ds =>
      obtain ⟨-, h2, h3⟩ := h
      intro f hf
      simp only [rawFields, List.mem_append] at hf
      rcases hf with hf | hf
      · exact rawField_shape d (hd d (by simp)) h2 f hf
      · exact ih (fun x hx => hd x (by simp [hx])) h3 f hf

/-! ## Packed numbers -/

theorem unpackOne_num (sub : Reader T) {k : Kind T} {i : Int} (h : Typed S k (.num i)) (rest : Bytes) :
    unpackOne S sub k (varint (int32ToWire i) ++ rest) = some (.num i, rest) := by
  have hl := wire_num_lt h
  cases k with
  | int32 =>
    have hi : isInt32 i = true := by simp [isInt32]; exact h
    simp [unpackOne, consumeVarint_varint hl, readVal, int32_round_trip hi]
  | enum =>
    have hi : isInt32 i = true := by simp [isInt32]; exact h
    simp [unpackOne, consumeVarint_varint hl, readVal, int32_round_trip hi]
  | int64 => simp [unpackOne, consumeVarint_varint hl, readVal, int64_round_trip h]
  | bool =>
    rcases h with rfl | rfl
    · simp only [unpackOne, consumeVarint_varint hl, readVal]
      rfl
    · simp only [unpackOne, consumeVarint_varint hl, readVal]
      rfl
  | double => exact h.elim
  | string => exact h.elim
  | bytes => exact h.elim
  | msg t => exact h.elim

theorem unpack_pack (sub : Reader T) {k : Kind T} (hp : k.packs = true) {vs : List Val} (h : TypedAll S k vs)
    (n : Nat) (hn : (packBytes (wires S k vs)).length ≤ n) :
    unpack S sub k n (packBytes (wires S k vs)) = some vs := by
  induction vs generalizing n with
  | nil => cases n <;> rfl
  | cons v vs ih =>
    obtain ⟨hv, hvs⟩ := h
    have key : ∃ e, packBytes (wires S k (v :: vs)) = e ++ packBytes (wires S k vs) ∧ e ≠ [] ∧
        unpackOne S sub k (e ++ packBytes (wires S k vs)) = some (v, packBytes (wires S k vs)) := by
      cases v with
      | num i =>
        exact ⟨varint (int32ToWire i), by simp [wires, wire, packBytes], varint_ne_nil _,
          unpackOne_num sub hv _⟩
      | dbl b =>
        cases k with
        | double =>
          have hb : b.length = 8 := hv
          refine ⟨b, by simp [wires, wire, packBytes], ?_, ?_⟩
          · intro h0; rw [h0] at hb; cases hb
          · have := takeExact_append b (packBytes (wires S .double vs))
            rw [hb] at this
            simp [unpackOne, this]
        | _ => exact hv.elim
      | str b => cases k <;> first | exact hv.elim | cases hp
      | msg fs => cases k <;> first | exact hv.elim | cases hp
    obtain ⟨e, he, hne, hu⟩ := key
    rw [he] at hn ⊢
    have hpos : 0 < e.length := List.length_pos_iff.2 hne
    rw [List.length_append] at hn
    cases n with
    | zero => omega
    | succ n =>
      cases hb : e ++ packBytes (wires S k vs) with
      | nil => simp at hb; exact absurd hb.1 hne
      | cons b bs =>
        rw [hb] at hu
        unfold unpack
        rw [hu]
        simp only [Option.bind_some]
        rw [ih hvs n (by omega)]
        rfl

/-! ## The fold over the fields of a message -/

/-- A reader gives back the messages of a definition that it was given as bytes. -/
def Reads (S : Schema T) (sub : Reader T) (k : Kind T) (v : Val) : Prop :=
  readVal S sub k none (wire S k v) = some (some v)

theorem reads_scalar (sub : Reader T) {k : Kind T} {v : Val} (h : Typed S k v) (ht : texts S k v = true)
    (hm : ∀ fs, v ≠ .msg fs) : ∀ old, readVal S sub k old (wire S k v) = some (some v) := by
  intro old
  cases v with
  | num i =>
    cases k with
    | int32 =>
      have hi : isInt32 i = true := by simp [isInt32]; exact h
      simp [wire, readVal, int32_round_trip hi]
    | enum =>
      have hi : isInt32 i = true := by simp [isInt32]; exact h
      simp [wire, readVal, int32_round_trip hi]
    | int64 => simp [wire, readVal, int64_round_trip h]
    | bool => rcases h with rfl | rfl <;> simp [wire, readVal, int32ToWire]
    | double => exact h.elim
    | string => exact h.elim
    | bytes => exact h.elim
    | msg t => exact h.elim
  | dbl b =>
    cases k with
    | double => simp [wire, readVal]
    | _ => exact h.elim
  | str b =>
    cases k with
    | string =>
      have : utf8Valid b = true := ht
      simp [wire, readVal, this]
    | bytes => simp [wire, readVal]
    | _ => exact h.elim
  | msg fs => exact absurd rfl (hm fs)

theorem findIdx_mid {pre post : List (Field T)} {d : Field T}
    (h : ((pre ++ d :: post).map (·.num)).Nodup) :
    (pre ++ d :: post).findIdx? (fun x => x.num == d.num) = some pre.length := by
  rw [List.findIdx?_eq_some_iff_getElem]
  refine ⟨by simp, by simp, ?_⟩
  intro j hj
  rw [List.getElem_append_left hj]
  simp only [List.map_append, List.map_cons, List.nodup_append] at h
  have := h.2.2 (pre[j].num) (List.mem_map.mpr ⟨pre[j], List.getElem_mem hj, rfl⟩) d.num (by simp)
  simpa using this

theorem getD_mid {α : Type} (a : List (List α)) (v : List α) (b : List (List α)) :
    (a ++ v :: b).getD a.length [] = v := by simp [List.getD]

theorem set_mid {α : Type} (a : List α) (v w : α) (b : List α) : (a ++ v :: b).set a.length w = a ++ w :: b := by
  simp

/-- The step for a field in its place. -/
theorem readRaw_mid (sub : Reader T) {pre post : List (Field T)} {d : Field T}
    (h : ((pre ++ d :: post).map (·.num)).Nodup) (m : List (List Val)) (w : WireVal) :
    readRaw S sub (pre ++ d :: post) m ⟨d.num, w⟩ =
      readField S sub (pre ++ d :: post) d pre.length m w := by
  unfold readRaw
  simp only [findIdx_mid h]
  simp

/-- Nothing is removed if nothing of the group is there. -/
theorem clearGroup_id (g : Nat) : ∀ (ds : List (Field T)) (m : List (List Val)),
    (∀ i d, ds[i]? = some d → d.card = .oneof g → m.getD i [] = []) → clearGroup g ds m = m
  | [], _, _ => by simp [clearGroup]
  | _ :: _, [], _ => by simp [clearGroup]
  | d :: ds, vs :: rest, h => by
    simp only [clearGroup]
    rw [clearGroup_id g ds rest (fun i e hi he => by simpa using h (i + 1) e (by simpa using hi) he)]
    split
    · next hc =>
      have := h 0 d rfl hc
      simp at this
      rw [this]
    · rfl

theorem fold_many (sub : Reader T) {pre post : List (Field T)} {d : Field T}
    (hn : ((pre ++ d :: post).map (·.num)).Nodup) {a : List (List Val)} (ha : a.length = pre.length)
    (b : List (List Val)) (hc : d.card = .many) (hk : d.kind.packs = false)
    (vs : List Val) (hr : ∀ v ∈ vs, Reads S sub d.kind v) (old : List Val) :
    ((wires S d.kind vs).map fun w => (⟨d.num, w⟩ : RawField)).foldlM (readRaw S sub (pre ++ d :: post))
      (a ++ old :: b) = some (a ++ (old ++ vs) :: b) := by
  induction vs generalizing old with
  | nil => simp [wires]
  | cons v vs ih =>
    simp only [wires, List.map_cons, List.foldlM_cons]
    rw [readRaw_mid sub hn]
    have hv := hr v (by simp)
    unfold Reads at hv
    unfold readField
    rw [← ha, getD_mid]
    simp only [hc, hk, hv, Option.map_some, set_mid]
    rw [show (some (a ++ (old ++ [v]) :: b) >>= fun s' => List.foldlM (readRaw S sub (pre ++ d :: post)) s'
      ((wires S d.kind vs).map fun w => (⟨d.num, w⟩ : RawField))) = List.foldlM (readRaw S sub (pre ++ d :: post))
      (a ++ (old ++ [v]) :: b) ((wires S d.kind vs).map fun w => (⟨d.num, w⟩ : RawField)) from rfl]
    rw [ih (fun x hx => hr x (by simp [hx]))]
    simp

theorem setEntry_new {es : List Val} {e : Val} (h : keyOf e ∉ es.map keyOf) : setEntry es e = es ++ [e] := by
  unfold setEntry
  rw [if_neg]
  simp only [List.any_eq_true, beq_iff_eq, not_exists, not_and]
  intro x hx he
  exact h (List.mem_map.mpr ⟨x, hx, he⟩)

theorem fold_map (sub : Reader T) {pre post : List (Field T)} {d : Field T}
    (hn : ((pre ++ d :: post).map (·.num)).Nodup) {a : List (List Val)} (ha : a.length = pre.length)
    (b : List (List Val)) (hc : d.card = .map)
    (vs : List Val) (hr : ∀ v ∈ vs, Reads S sub d.kind v) (old : List Val)
    (hd : ((old ++ vs).map keyOf).Nodup) :
    ((wires S d.kind vs).map fun w => (⟨d.num, w⟩ : RawField)).foldlM (readRaw S sub (pre ++ d :: post))
      (a ++ old :: b) = some (a ++ (old ++ vs) :: b) := by
  induction vs generalizing old with
  | nil => simp [wires]
  | cons v vs ih =>
    simp only [wires, List.map_cons, List.foldlM_cons]
    rw [readRaw_mid sub hn]
    have hv := hr v (by simp)
    unfold Reads at hv
    unfold readField
    rw [← ha, getD_mid]
    have hnew : keyOf v ∉ old.map keyOf := by
      intro hm
      rw [List.map_append, List.nodup_append] at hd
      exact hd.2.2 _ hm (keyOf v) (by simp) rfl
    simp only [hc, hv, Option.map_some, set_mid, setEntry_new hnew]
    rw [show (some (a ++ (old ++ [v]) :: b) >>= fun s' => List.foldlM (readRaw S sub (pre ++ d :: post)) s'
      ((wires S d.kind vs).map fun w => (⟨d.num, w⟩ : RawField))) = List.foldlM (readRaw S sub (pre ++ d :: post))
      (a ++ (old ++ [v]) :: b) ((wires S d.kind vs).map fun w => (⟨d.num, w⟩ : RawField)) from rfl]
    rw [ih (fun x hx => hr x (by simp [hx])) _ (by simpa using hd)]
    simp

theorem isZero_iff (v : Val) : isZero v = true ↔ IsZeroVal v := by
  cases v <;> simp [isZero, IsZeroVal, List.replicate]

theorem isZero_false {v : Val} (h : ¬ IsZeroVal v) : isZero v = false := by
  rw [← Bool.not_eq_true, isZero_iff]; exact h

/-- What a new message has for a field. -/
def start (S : Schema T) (d : Field T) : List Val := if d.card = .always then [zeroOf S d.kind] else []

theorem fold_field (sub : Reader T) {pre post : List (Field T)} {d : Field T}
    (hn : ((pre ++ d :: post).map (·.num)).Nodup) {a : List (List Val)} (ha : a.length = pre.length)
    (b : List (List Val)) (hlen : (encodeFields (rawField d (wires S d.kind vs))).length < 2 ^ 64)
    (hc : CardOk d.card vs) (hkeys : d.card = .map → (vs.map keyOf).Nodup) (ht : TypedAll S d.kind vs)
    (hr : ∀ v ∈ vs, Reads S sub d.kind v)
    (hz : d.card = .always → ∀ v ∈ vs, readVal S sub d.kind (some (zeroOf S d.kind)) (wire S d.kind v) = some (some v))
    (hx : ∀ g, d.card = .oneof g → vs ≠ [] →
      ∀ i e, (pre ++ d :: post)[i]? = some e → e.card = .oneof g → (a ++ [] :: b).getD i [] = []) :
    (rawField d (wires S d.kind vs)).foldlM (readRaw S sub (pre ++ d :: post)) (a ++ start S d :: b) =
      some (a ++ vs :: b) := by
  unfold start
  cases hcd : d.card with
  | one =>
    rw [if_neg (by simp)]
    simp only [rawField, hcd, reduceCtorEq, false_and, if_false]
    rw [hcd] at hc
    rcases hc with rfl | ⟨v, rfl, hv⟩
    · simp [wires]
    · simp only [wires, List.map_cons, List.map_nil, List.foldlM_cons, List.foldlM_nil]
      rw [readRaw_mid sub hn]
      have h1 := hr v (by simp)
      unfold Reads at h1
      unfold readField
      rw [← ha, getD_mid]
      simp only [hcd, List.head?_nil, h1, Option.map_some, isZero_false hv, set_mid]
      rfl
  | oneof g =>
    rw [if_neg (by simp)]
    simp only [rawField, hcd, reduceCtorEq, false_and, if_false]
    rw [hcd] at hc
    match vs, hc with
    | [], _ => simp [wires]
    | [v], _ =>
      simp only [wires, List.map_cons, List.map_nil, List.foldlM_cons, List.foldlM_nil]
      rw [readRaw_mid sub hn]
      have h1 := hr v (by simp)
      unfold Reads at h1
      unfold readField
      rw [← ha, getD_mid]
      simp only [hcd, List.head?_nil, h1, Option.map_some]
      rw [clearGroup_id g _ _ (hx g hcd (by simp)), set_mid]
      rfl
  | many =>
    rw [if_neg (by simp)]
    cases hp : d.kind.packs with
    | false =>
      simp only [rawField, hp, Bool.false_eq_true, and_false, if_false]
      have := fold_many sub hn ha b hcd hp vs hr []
      simpa using this
    | true =>
      simp only [rawField, hcd, hp, and_self, if_true]
      cases vs with
      | nil => simp [wires]
      | cons v vs =>
        simp only [wires]
        simp only [List.foldlM_cons, List.foldlM_nil]
        rw [readRaw_mid sub hn]
        have := unpack_pack sub hp ht _ (Nat.le_refl _)
        simp only [wires] at this
        unfold readField
        rw [← ha, getD_mid]
        simp only [hcd, hp, this, Option.map_some, List.nil_append, set_mid]
        rfl
  | map =>
    rw [if_neg (by simp)]
    simp only [rawField, hcd, reduceCtorEq, false_and, if_false]
    have := fold_map sub hn ha b hcd vs hr [] (hkeys hcd)
    simpa using this
  | always =>
    rw [if_pos rfl]
    simp only [rawField, hcd, reduceCtorEq, false_and, if_false]
    rw [hcd] at hc
    match vs, hc with
    | [v], _ =>
      simp only [wires, List.map_cons, List.map_nil, List.foldlM_cons, List.foldlM_nil]
      rw [readRaw_mid sub hn]
      have h1 := hz hcd v (by simp)
      unfold readField
      rw [← ha, getD_mid]
      simp only [hcd, List.head?_cons, h1, Option.map_some, set_mid]
      rfl

theorem fresh_eq (ds : List (Field T)) : fresh S ds = ds.map (start S) := rfl

/-- The entries of a map have a key, which is a number or a string. -/
theorem entry_typed {e : T} {k v : Kind T} (he : S e = [⟨1, k, .always⟩, ⟨2, v, .always⟩])
    (hk : k = .int32 ∨ k = .int64 ∨ k = .bool ∨ k = .string) {x : Val} (hx : Typed S (.msg e) x) :
    ∃ y rest, x = .msg ([y] :: rest) ∧ ((∃ i, y = .num i) ∨ ∃ b, y = .str b) := by
  cases x with
  | msg fs =>
    simp only [Typed, he] at hx
    obtain ⟨hx, _⟩ := hx
    cases fs with
    | nil => simp [TypedFields] at hx
    | cons vs rest =>
      obtain ⟨h1, h2, _⟩ := hx
      simp only [CardOk] at h1
      match vs, h1 with
      | [y], _ =>
        refine ⟨y, rest, rfl, ?_⟩
        have h3 := h2.1
        cases y with
        | num i => exact Or.inl ⟨i, rfl⟩
        | str b => exact Or.inr ⟨b, rfl⟩
        | dbl b => rcases hk with rfl | rfl | rfl | rfl <;> simp [Typed] at h3
        | msg fs => rcases hk with rfl | rfl | rfl | rfl <;> simp [Typed] at h3
  | num i => simp [Typed] at hx
  | dbl b => simp [Typed] at hx
  | str b => simp [Typed] at hx

/-- Entries with different keys have different keys. -/
theorem keyOf_nodup {e : T} {k v : Kind T} (he : S e = [⟨1, k, .always⟩, ⟨2, v, .always⟩])
    (hk : k = .int32 ∨ k = .int64 ∨ k = .bool ∨ k = .string) {vs : List Val}
    (ht : ∀ x ∈ vs, Typed S (.msg e) x) (hn : (vs.map entryKey).Nodup) : (vs.map keyOf).Nodup := by
  induction vs with
  | nil => simp
  | cons x vs ih =>
    rw [List.map_cons, List.nodup_cons] at hn ⊢
    refine ⟨?_, ih (fun y hy => ht y (by simp [hy])) hn.2⟩
    intro hm
    apply hn.1
    obtain ⟨y, hy, hxy⟩ := List.mem_map.1 hm
    refine List.mem_map.2 ⟨y, hy, ?_⟩
    obtain ⟨a, r, rfl, ha⟩ := entry_typed he hk (ht x (by simp))
    obtain ⟨b, r', rfl, hb⟩ := entry_typed he hk (ht y (by simp [hy]))
    rcases ha with ⟨i, rfl⟩ | ⟨i, rfl⟩ <;> rcases hb with ⟨j, rfl⟩ | ⟨j, rfl⟩ <;>
      simp [keyOf, entryKey] at hxy ⊢ <;> exact hxy

theorem entryKey_nodup {vs : List Val} (hn : (vs.map keyOf).Nodup) : (vs.map entryKey).Nodup := by
  induction vs with
  | nil => simp
  | cons x vs ih =>
    rw [List.map_cons, List.nodup_cons] at hn ⊢
    refine ⟨?_, ih hn.2⟩
    intro hm
    apply hn.1
    obtain ⟨y, hy, hxy⟩ := List.mem_map.1 hm
    refine List.mem_map.2 ⟨y, hy, ?_⟩
    unfold entryKey at hxy
    split at hxy
    · split at hxy
      · simp only [Option.some.injEq] at hxy
        subst hxy
        have same : ∀ (k : Val) a b a' b', keyOf (.msg ((k :: a) :: b)) = keyOf (.msg ((k :: a') :: b')) := by
          intro k a b a' b'
          cases k <;> rfl
        exact same _ _ _ _ _
      · simp at hxy
    · split at hxy
      · simp at hxy
      · have other : ∀ z : Val, (∀ k a b, z = .msg ((k :: a) :: b) → False) → keyOf z = .other := by
          intro z hz
          unfold keyOf
          split
          · exact (hz _ _ _ rfl).elim
          · exact (hz _ _ _ rfl).elim
          · rfl
        rw [other x (by assumption), other y (by assumption)]

theorem fold_fields (sub : Reader T) (post : List (Field T)) : ∀ (pre : List (Field T)) (a m : List (List Val)),
    (∀ d ∈ post, d.card = .map → ∃ e k v, d.kind = .msg e ∧
      S e = [⟨1, k, .always⟩, ⟨2, v, .always⟩] ∧ (k = .int32 ∨ k = .int64 ∨ k = .bool ∨ k = .string)) →
    ((pre ++ post).map (·.num)).Nodup → a.length = pre.length → TypedFields S post m →
    Exclusive (pre ++ post) (a ++ m) → (encodeFields (rawFields S post m)).length < 2 ^ 64 →
    (∀ d vs, (d, vs) ∈ post.zip m → ∀ v ∈ vs, Reads S sub d.kind v ∧
      (d.card = .always → readVal S sub d.kind (some (zeroOf S d.kind)) (wire S d.kind v) = some (some v))) →
    (rawFields S post m).foldlM (readRaw S sub (pre ++ post)) (a ++ fresh S post) = some (a ++ m) := by
  induction post with
  | nil =>
    intro pre a m _ _ _ ht _ _ _
    cases m with
    | nil => simp [rawFields, fresh]
    | cons vs rest => exact ht.elim
  | cons d post ih =>
    intro pre a m hmap hn ha ht hx hl hr
    cases m with
    | nil => cases ht
    | cons vs rest =>
      obtain ⟨hc, hta, htr⟩ := ht
      simp only [rawFields] at hl ⊢
      have hl' : (encodeFields (rawField d (wires S d.kind vs))).length +
          (encodeFields (rawFields S post rest)).length < 2 ^ 64 := by
        simpa [encodeFields] using hl
      have h1 := fold_field (vs := vs) sub hn ha (fresh S post) (by omega) hc (by
          intro hcd
          obtain ⟨e, k, v, h1, h2, h3⟩ := hmap d (by simp) hcd
          rw [hcd] at hc
          rw [h1] at hta
          exact keyOf_nodup h2 h3 ((typedAll_iff _ _).mp hta) hc) hta
        (fun v hv => (hr d vs (by simp) v hv).1)
        (fun hcd v hv => (hr d vs (by simp) v hv).2 hcd) (by
          intro g hg hne i e hi he
          rcases Nat.lt_trichotomy i a.length with hlt | heq | hgt
          · have := hx i a.length e d g (by omega) hi (by rw [ha]; simp) he hg
            rw [getD_mid] at this
            rcases this with h | h
            · rw [List.getD_eq_getElem?_getD, List.getElem?_append_left hlt] at h ⊢
              exact h
            · exact absurd h hne
          · subst heq
            rw [getD_mid]
          · rw [List.getD_eq_getElem?_getD, List.getElem?_append_right (by omega)]
            rw [List.getElem?_append_right (by omega)] at hi
            have h2 : i - a.length = (i - a.length - 1) + 1 := by omega
            rw [h2, List.getElem?_cons_succ]
            rw [← ha, h2, List.getElem?_cons_succ] at hi
            simp only [fresh, List.getElem?_map, hi, Option.map_some, Option.getD_some]
            rw [if_neg (by rw [he]; simp)])
      refine foldlM_seq h1 ?_
      have h2 := ih (pre ++ [d]) (a ++ [vs]) rest (fun x hx => hmap x (by simp [hx])) (by simpa using hn) (by simp [ha]) htr (by simpa using hx)
        (by omega) (fun e ws hm => hr e ws (by simp [hm]))
      simpa using h2

theorem texts_zip {ds : List (Field T)} {m : List (List Val)} (h : textsFields S ds m = true) :
    ∀ d vs, (d, vs) ∈ ds.zip m → ∀ v ∈ vs, texts S d.kind v = true := by
  induction m generalizing ds with
  | nil => simp
  | cons ws rest ih =>
    cases ds with
    | nil => simp
    | cons e ds =>
      simp only [textsFields, Bool.and_eq_true] at h
      intro d vs hm
      rcases List.mem_cons.mp hm with h1 | h1
      · cases h1
        exact (textsAll_iff _ _).mp h.1
      · exact ih h.2 d vs h1

theorem typed_zip {ds : List (Field T)} {m : List (List Val)} (h : TypedFields S ds m) :
    ∀ d vs, (d, vs) ∈ ds.zip m → CardOk d.card vs ∧ ∀ v ∈ vs, Typed S d.kind v := by
  induction m generalizing ds with
  | nil => simp
  | cons ws rest ih =>
    cases ds with
    | nil => simp
    | cons e ds =>
      obtain ⟨h1, h2, h3⟩ := h
      intro d vs hm
      rcases List.mem_cons.mp hm with hm | hm
      · cases hm
        exact ⟨h1, (typedAll_iff _ _).mp h2⟩
      · exact ih h3 d vs hm

theorem depth_zip {ds : List (Field T)} {m : List (List Val)} {n : Nat} (h : depthFields m ≤ n) :
    ∀ d vs, (d, vs) ∈ ds.zip m → ∀ v ∈ vs, depth v ≤ n := by
  induction m generalizing ds with
  | nil => simp
  | cons ws rest ih =>
    cases ds with
    | nil => simp
    | cons e ds =>
      simp only [depthFields, Nat.max_le] at h
      intro d vs hm
      rcases List.mem_cons.mp hm with hm | hm
      · cases hm
        exact (depthAll_le _ _).mp h.1
      · exact ih h.2 d vs hm

/-- The bytes of a contained message are fewer than those of the message. -/
theorem length_zip {ds : List (Field T)} {m : List (List Val)} {N : Nat}
    (h : (encodeFields (rawFields S ds m)).length < N) :
    ∀ d vs, (d, vs) ∈ ds.zip m → ∀ v ∈ vs, d.kind.packs = false → ∀ b, wire S d.kind v = .bytes b → b.length < N := by
  induction m generalizing ds with
  | nil => simp
  | cons ws rest ih =>
    cases ds with
    | nil => simp
    | cons e ds =>
      have h' : (encodeFields (rawField e (wires S e.kind ws))).length +
          (encodeFields (rawFields S ds rest)).length < N := by
        simpa [rawFields, encodeFields] using h
      intro d vs hm v hv hp b hb
      rcases List.mem_cons.mp hm with hm | hm
      · cases hm
        have : (⟨e.num, .bytes b⟩ : RawField) ∈ rawField e (wires S e.kind ws) := by
          unfold rawField
          rw [if_neg (by simp [hp]), wires_eq, List.map_map, List.mem_map]
          exact ⟨v, hv, by simp [hb]⟩
        have := bytes_length_lt this
        omega
      · exact ih (by omega) d vs hm v hv hp b hb

/-- A message that is written and read again is the same. -/
theorem readInto_bytesOf (hS : Good S) (n : Nat) : ∀ (t : T) (m : List (List Val)), IsMessage S t m →
    textsFields S (S t) m = true → nesting m ≤ n → (bytesOf S t m).length < 2 ^ 64 →
    readInto S n t (fresh S (S t)) (bytesOf S t m) = some m := by
  induction n with
  | zero => intro t m _ _ hd; simp [nesting] at hd
  | succ n ih =>
    intro t m ⟨ht, hx⟩ htx hd hl
    unfold bytesOf at hl ⊢
    unfold readInto
    rw [decodeInto_encodeFields (ok_of_shape hl (rawFields_shape (hS.range t) ht))]
    have hd' : depthFields m ≤ n := by unfold nesting at hd; omega
    have hsub : ∀ d vs, (d, vs) ∈ (S t).zip m → ∀ v ∈ vs, ∀ e, d.kind = .msg e → ∀ fs, v = .msg fs →
        readInto S n e (fresh S (S e)) (bytesOf S e fs) = some fs := by
      intro d vs hm v hv e he fs hfs
      have h1 := (typed_zip ht d vs hm).2 v hv
      have h2 := texts_zip htx d vs hm v hv
      have h3 := depth_zip hd' d vs hm v hv
      have h4 := length_zip hl d vs hm v hv (by rw [he]; rfl) (bytesOf S e fs)
        (by rw [he, hfs]; simp only [wire, bytesOf])
      rw [he, hfs] at h1 h2
      rw [hfs] at h3
      exact ih e fs h1 h2 h3 h4
    have := fold_fields (readInto S n) (S t) [] [] m (hS.maps t) (by simpa using hS.nums t) rfl ht (by simpa using hx) hl ?_
    · simpa using this
    · intro d vs hm v hv
      have h1 := (typed_zip ht d vs hm).2 v hv
      have h2 := texts_zip htx d vs hm v hv
      have hdm : d ∈ S t := (List.of_mem_zip hm).1
      cases v with
      | msg fs =>
        cases hk : d.kind with
        | msg e =>
          have h3 := hsub d vs hm _ hv e hk fs rfl
          rw [hk] at h1
          refine ⟨?_, ?_⟩
          · unfold Reads
            simp only [wire, readVal]
            rw [show encodeFields (rawFields S (S e) fs) = bytesOf S e fs from rfl, h3]
            rfl
          · intro hc
            have hpl := hS.plain t d hdm (by rw [hc]; simp) e hk
            have hz : (S e).map (fun _ => ([] : List Val)) = fresh S (S e) := by
              unfold fresh
              refine List.map_congr_left ?_
              intro x hxm
              rw [if_neg (hpl x hxm)]
            simp only [wire, readVal, zeroOf]
            rw [show encodeFields (rawFields S (S e) fs) = bytesOf S e fs from rfl, hz, h3]
            rfl
        | _ => rw [hk] at h1; exact h1.elim
      | num i => exact ⟨reads_scalar _ h1 h2 (by simp) _, fun _ => reads_scalar _ h1 h2 (by simp) _⟩
      | dbl i => exact ⟨reads_scalar _ h1 h2 (by simp) _, fun _ => reads_scalar _ h1 h2 (by simp) _⟩
      | str i => exact ⟨reads_scalar _ h1 h2 (by simp) _, fun _ => reads_scalar _ h1 h2 (by simp) _⟩

end Verif.PB
