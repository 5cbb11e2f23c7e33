import Verif.Model.Definitions
import Verif.Lemmas.SchemaTyped
import Verif.Props.Compat
import Verif.Lemmas.Decoded
import Verif.Lemmas.Utf8

/-!
# C85: messages of all protocols survive

Property: a message of any of the protocols that come with the code is read by the other side as it was
written, and what is read can be passed on.
-/

namespace Verif

open PB Proto

namespace PB

theorem good_search : Good search where
  nums t := by cases t <;> decide
  range t := by cases t <;> simp [search]
  maps t := by cases t <;> simp [search]
  plain t := by
    intro d hd _ e he x hx
    cases e <;> simp only [search, List.mem_cons, List.not_mem_nil, or_false] at hx <;>
      first | exact hx.elim | (rcases hx with rfl | rfl | rfl | rfl | rfl <;> simp) | (rcases hx with rfl | rfl | rfl | rfl <;> simp) | (rcases hx with rfl | rfl | rfl <;> simp) | (rcases hx with rfl | rfl <;> simp) | (rcases hx with rfl; simp)

theorem good_fipa : Good fipa where
  nums t := by cases t <;> decide
  range t := by cases t <;> simp [fipa]
  maps t := by cases t <;> simp [fipa]
  plain t := by
    cases t <;> simp [fipa]

theorem good_default : Good default_ where
  nums t := by cases t <;> decide
  range t := by cases t <;> simp [default_]
  maps t := by cases t <;> simp [default_]
  plain t := by cases t <;> simp [default_]

theorem good_base : Good base where
  nums t := by cases t <;> decide
  range t := by cases t <;> simp [base]
  maps t := by cases t <;> simp [base]
  plain t := by cases t <;> simp [base]

theorem good_acn : Good acn where
  nums t := by cases t <;> decide
  range t := by cases t <;> simp [acn]
  maps t := by cases t <;> simp [acn]
  plain t := by cases t <;> simp [acn]

end PB

variable {T : Type} {S : Schema T}

namespace PB

mutual

theorem texts_within (S : Schema T) (k : Kind T) : (v : Val) →
    (texts S k v = true ↔ ∀ b, Within S k v .string (.str b) → IsText b)
  | .num i => by
    simp only [texts, true_iff]
    intro b h
    cases h
  | .dbl x => by
    simp only [texts, true_iff]
    intro b h
    cases h
  | .str x => by
    constructor
    · intro h b hw
      cases hw
      simp only [texts] at h
      exact (utf8Valid_iff _).1 h
    · intro h
      cases k <;> simp only [texts]
      exact (utf8Valid_iff _).2 (h x (.here _ _))
  | .msg fs => by
    constructor
    · intro h b hw
      cases hw with
      | @inside t _ i d vs v _ _ h1 h2 h3 h4 =>
        simp only [texts] at h
        exact (textsFields_within S (S t) fs).1 h i d vs v b h1 h2 h3 h4
    · intro h
      cases k with
      | msg t =>
        simp only [texts]
        exact (textsFields_within S (S t) fs).2 fun i d vs v b h1 h2 h3 h4 => h b (.inside h1 h2 h3 h4)
      | _ => simp only [texts]

theorem textsAll_within (S : Schema T) (k : Kind T) : (vs : List Val) →
    (textsAll S k vs = true ↔ ∀ v ∈ vs, ∀ b, Within S k v .string (.str b) → IsText b)
  | [] => by simp [textsAll]
  | v :: vs => by
    simp only [textsAll, Bool.and_eq_true, texts_within S k v, textsAll_within S k vs, List.mem_cons,
      forall_eq_or_imp]

theorem textsFields_within (S : Schema T) (ds : List (Field T)) : (fs : List (List Val)) →
    (textsFields S ds fs = true ↔ ∀ (i : Nat) (d : Field T) (vs : List Val) (v : Val) (b : Bytes),
      ds[i]? = some d → fs[i]? = some vs → v ∈ vs → Within S d.kind v .string (.str b) → IsText b)
  | [] => by simp [textsFields]
  | vs :: rest => by
    cases ds with
    | nil => simp [textsFields]
    | cons d ds =>
      simp only [textsFields, Bool.and_eq_true, textsAll_within S d.kind vs, textsFields_within S ds rest]
      constructor
      · rintro ⟨h1, h2⟩ i e ws v b hi hw
        cases i with
        | zero =>
          simp only [List.getElem?_cons_zero, Option.some.injEq] at hi hw
          subst hi hw
          exact fun hv => h1 v hv b
        | succ i =>
          simp only [List.getElem?_cons_succ] at hi hw
          exact h2 i e ws v b hi hw
      · intro h
        exact ⟨fun v hv b => h 0 d vs v b rfl rfl hv,
          fun i e ws v b hi hw => h (i + 1) e ws v b (by simpa using hi) (by simpa using hw)⟩

end

theorem textsFields_iff (S : Schema T) (t : T) (m : List (List Val)) :
    textsFields S (S t) m = true ↔ StringsAreText S t m := by
  have := texts_within S (.msg t) (.msg m)
  simp only [texts] at this
  exact this

end PB

/-- What can be written: exactly the messages whose strings are text. -/
theorem C85_written_iff (S : Schema T) (t : T) (m : List (List Val)) :
    (PB.write S t m).isSome ↔ StringsAreText S t m := by
  rw [← textsFields_iff]
  unfold PB.write
  split <;> simp_all

/-- Non-vacuity: a search for what has the location attribute of a given name; whether it can be written depends on
the name. -/
example (b : Bytes) : (PB.write search .constraint [[.str b], [], [], [], []]).isSome ↔ IsText b := by
  rw [← utf8Valid_iff]
  by_cases h : utf8Valid b = true
  · simp [PB.write, textsFields, textsAll, texts, search, h]
  · simp [PB.write, textsFields, textsAll, texts, search, h]

/-- What is missing is zero: no bytes are a message without values, whose fields that are always there are zero
or, if they are messages, without values. -/
theorem C85_missing (S : Schema T) (t : T) :
    ∃ m, PB.read S t [] = some m ∧ m.length = (S t).length ∧
      ∀ (i : Nat) (d : Field T) (vs : List Val), (S t)[i]? = some d → m[i]? = some vs →
        if d.card = .always then
          ∃ v, vs = [v] ∧ (IsZeroVal v ∨ ∃ u fs, d.kind = .msg u ∧ v = .msg fs ∧ ∀ x ∈ fs, x = [])
        else vs = [] := by
  refine ⟨fresh S (S t), by simp [PB.read, readLimited, readInto, decodeInto, parse, parseAux], by simp [fresh], ?_⟩
  intro i d vs hi hm
  simp only [fresh, List.getElem?_map, hi, Option.map_some, Option.some.injEq] at hm
  subst hm
  split
  · refine ⟨_, rfl, ?_⟩
    cases hk : d.kind with
    | msg u => exact .inr ⟨u, _, rfl, rfl, by simp⟩
    | _ => simp [zeroOf, IsZeroVal, List.replicate]
  · rfl

/-- A message of any definition is read as it was written. -/
theorem C85_round_trip (hS : Good S) {t : T} {m : List (List Val)} (hm : IsMessage S t m) {b : Bytes}
    (hw : PB.write S t m = some b) (hl : b.length < 2 ^ 64) : PB.read S t b = some m := by
  unfold PB.write at hw
  split at hw
  · next ht =>
    cases hw
    exact readInto_bytesOf hS _ t m hm ht (nesting_le S _ t m hm (Nat.le_refl _)) hl
  · cases hw

/-- Different messages are written differently. -/
theorem C85_injective (hS : Good S) {t : T} {m m' : List (List Val)} (hm : IsMessage S t m) (hm' : IsMessage S t m')
    {b : Bytes} (hw : PB.write S t m = some b) (hw' : PB.write S t m' = some b) (hl : b.length < 2 ^ 64) : m = m' :=
  Option.some.inj ((C85_round_trip hS hm hw hl).symm.trans (C85_round_trip hS hm' hw' hl))

/-- With a limit on nesting exactly the messages within it are read. -/
theorem C85_limit_iff (hS : Good S) {t : T} {m : List (List Val)} (hm : IsMessage S t m) {b : Bytes}
    (hw : PB.write S t m = some b) (hl : b.length < 2 ^ 64) (n : Nat) :
    PB.readLimited S n t b = if nesting m ≤ n then some m else none := by
  unfold PB.write at hw
  split at hw
  · next ht =>
    cases hw
    split
    · next hn => exact readInto_bytesOf hS n t m hm ht hn hl
    · next hn => exact readInto_deep hS n t m _ hm (by omega) hl
  · cases hw

/-- A limit only refuses: what is read with one is what is read without. -/
theorem C85_limit_agrees (S : Schema T) {n : Nat} {t : T} {b : Bytes} {m : List (List Val)}
    (h : PB.readLimited S n t b = some m) : PB.read S t b = some m := by
  unfold PB.readLimited at h
  unfold PB.read PB.readLimited
  have h1 := readInto_le (Nat.le_max_left n (b.length + 1)) h
  rw [readInto_stable S b.length t _ b _ (Nat.le_refl _) (by omega)] at h1
  exact h1

/-- The bytes are as many as the nesting: without a limit is with any limit above the length. -/
theorem C85_unlimited (S : Schema T) (t : T) (b : Bytes) {n : Nat} (hn : b.length < n) :
    PB.readLimited S n t b = PB.read S t b :=
  readInto_stable S b.length t _ b n (Nat.le_refl _) hn

/-- Whatever bytes are read, the result is a message of the definition and can be passed on. -/
theorem C85_passed_on (hS : Good S) {t : T} {b : Bytes} {m : List (List Val)} (h : PB.read S t b = some m) :
    IsMessage S t m ∧ ∃ b', PB.write S t m = some b' ∧ (b'.length < 2 ^ 64 → PB.read S t b' = some m) := by
  have hf := readInto_fine hS _ t _ b m h (fresh_fine hS t)
  have hm : IsMessage S t m := ⟨hf.1.1, hf.2⟩
  refine ⟨hm, bytesOf S t m, ?_, ?_⟩
  · unfold PB.write
    rw [if_pos hf.1.2]
  · intro hl
    refine C85_round_trip hS hm ?_ hl
    unfold PB.write
    rw [if_pos hf.1.2]

/-- Fields that a definition does not know are ignored, wherever a field may begin. -/
theorem C85_unknown_ignored (S : Schema T) {t : T} {a u : Bytes} (b : Bytes) (n : Nat)
    (ha : (PB.readLimited S n t a).isSome) (hu : OnlyOtherFields ((S t).map (·.num)) u) :
    PB.readLimited S n t (a ++ u ++ b) = PB.readLimited S n t (a ++ b) := by
  unfold PB.readLimited at ha ⊢
  cases n with
  | zero => rfl
  | succ n =>
    unfold readInto at ha ⊢
    obtain ⟨m1, hm1⟩ := Option.isSome_iff_exists.mp ha
    refine decodeInto_insert ?_ b hm1 hu
    intro m f hf
    unfold readRaw
    have : (S t).findIdx? (fun d => d.num == f.num) = none := by
      rw [List.findIdx?_eq_none_iff]
      intro d hd
      simp only [beq_eq_false_iff_ne, ne_eq]
      intro he
      exact hf (List.mem_map.mpr ⟨d, hd, he⟩)
    rw [this]

/-! ## The protocols -/

/-- All definitions of the project. -/
inductive Protocol where
  | search | fipa | default_ | base | acn

/-- The messages of a protocol. -/
def Protocol.Msg : Protocol → Type
  | .search => SearchMsg
  | .fipa => FipaMsg
  | .default_ => DefaultMsg
  | .base => BaseMsg
  | .acn => AcnMsg

/-- The definitions of a protocol. -/
def Protocol.schema : (p : Protocol) → Schema p.Msg
  | .search => PB.search
  | .fipa => PB.fipa
  | .default_ => PB.default_
  | .base => PB.base
  | .acn => PB.acn

theorem Protocol.good : (p : Protocol) → Good p.schema
  | .search => good_search
  | .fipa => good_fipa
  | .default_ => good_default
  | .base => good_base
  | .acn => good_acn

/-- **C85.** A message of a protocol whose strings are text can be written and is read as it was written; and
whatever is read can be passed on. -/
theorem C85_protocols (p : Protocol) (t : p.Msg) :
    (∀ m, IsMessage p.schema t m → StringsAreText p.schema t m →
      ∃ b, PB.write p.schema t m = some b ∧ (b.length < 2 ^ 64 → PB.read p.schema t b = some m)) ∧
    (∀ b m, PB.read p.schema t b = some m → IsMessage p.schema t m ∧
      ∃ b', PB.write p.schema t m = some b' ∧ (b'.length < 2 ^ 64 → PB.read p.schema t b' = some m)) := by
  refine ⟨?_, fun b m h => C85_passed_on p.good h⟩
  intro m hm ht
  obtain ⟨b, hb⟩ := Option.isSome_iff_exists.mp ((C85_written_iff p.schema t m).mpr ht)
  exact ⟨b, hb, C85_round_trip p.good hm hb⟩

/-! ## Choices -/

/-- The messages of which at most one field can be set, from some field on: values, ranges, sets, expressions and
constraints of searches (a constraint has its name, too), and the messages of the protocols, of which each is of one
performative. -/
def choiceFrom : (p : Protocol) → p.Msg → Option Nat
  | .search, (.value : SearchMsg) => some 0
  | .search, (.range : SearchMsg) => some 0
  | .search, (.setValues : SearchMsg) => some 0
  | .search, (.expr : SearchMsg) => some 0
  | .search, (.constraint : SearchMsg) => some 1
  | .fipa, (.message : FipaMsg) => some 0
  | .default_, (.message : DefaultMsg) => some 0
  | .base, (.message : BaseMsg) => some 0
  | .base, (.value : BaseMsg) => some 0
  | .acn, (.message : AcnMsg) => some 0
  | _, _ => none

/-- All fields from `k` on are members of the same `oneof`. -/
def memberFrom {T : Type} (ds : List (Field T)) (k : Nat) : Bool := (ds.drop k).all fun d => d.card = .oneof 0

theorem choice_members (p : Protocol) (t : p.Msg) (k : Nat) (h : choiceFrom p t = some k) :
    memberFrom (p.schema t) k = true := by
  cases p <;> cases t <;> cases h <;> rfl

/-- **C85.** Whatever bytes are read, at most one alternative of a choice is set: no message is of two performatives, no
expression is both an `or` and an `and`, and so on. -/
theorem C85_one_alternative (p : Protocol) (t : p.Msg) (k : Nat) (hk : choiceFrom p t = some k) (b : Bytes)
    (m : List (List Val)) (h : PB.read p.schema t b = some m) (i j : Nat) (hi : k ≤ i) (hij : i < j) :
    m.getD i [] = [] ∨ m.getD j [] = [] := by
  obtain ⟨⟨hty, hex⟩, _⟩ := (C85_protocols p t).2 b m h
  have hall := choice_members p t k hk
  by_cases hj : j < (p.schema t).length
  · have mem : ∀ i, k ≤ i → ∀ d, (p.schema t)[i]? = some d → d.card = .oneof 0 := by
      intro i hi d hd
      unfold memberFrom at hall
      rw [List.all_eq_true] at hall
      refine of_decide_eq_true (hall d (List.mem_iff_getElem?.2 ⟨i - k, ?_⟩))
      rw [List.getElem?_drop, Nat.add_sub_cancel' hi]
      exact hd
    have hi' : (p.schema t)[i]? = some (p.schema t)[i] := List.getElem?_eq_getElem (by omega)
    have hj' : (p.schema t)[j]? = some (p.schema t)[j] := List.getElem?_eq_getElem hj
    exact hex i j _ _ 0 (by omega) hi' hj' (mem i hi _ hi') (mem j (by omega) _ hj')
  · right
    have hlen : m.length = (p.schema t).length := by
      exact (typed_length hty).symm
    rw [List.getD_eq_getElem?_getD, List.getElem?_eq_none (by omega)]
    rfl

/-- Concrete case: a message of the default protocol with a `bytes` and then an `end` is an `end`. -/
example : (PB.read default_ .message [42, 0, 50, 0]).map (bytesOf default_ .message) = some [50, 0] := by
  decide +kernel

/-! ## Nested searches -/

/-- `not (not (… c))`. -/
def notNot : Nat → List (List Val)
  | 0 => [[], [], [], [.msg [[.str (b! "a")], [], [], [], []]]]
  | n + 1 => [[], [], [.msg [[.msg (notNot n)]]], []]

theorem notNot_message (n : Nat) : IsMessage search .expr (notNot n) ∧
    textsFields search (search .expr) (notNot n) = true ∧ nesting (notNot n) = 2 * n + 2 := by
  induction n with
  | zero =>
    refine ⟨⟨?_, ?_⟩, by decide, by decide⟩
    · simp [notNot, search, TypedFields, TypedAll, Typed, CardOk, IsZeroVal, Exclusive]
      intro i j d e g hij hi hj
      match i, j with
      | 0, 0 => simp at hij
      | 0, j + 1 => simp at hi; subst hi; simp
      | i + 1, j =>
        match i with
        | 0 => simp at hi; subst hi; simp
        | 1 => simp at hi; subst hi; simp
        | 2 => simp at hi; subst hi; simp
        | 3 => simp at hi; subst hi; simp
        | i + 4 => simp at hi
    · intro i j d e g hij hi hj hd he
      match i, j with
      | 0, j => simp [notNot]
      | 1, j => simp [notNot]
      | 2, j => simp [notNot]
      | 3, 0 => simp [notNot]
      | 3, 1 => simp [notNot]
      | 3, 2 => simp [notNot]
      | 3, 3 => simp at hij
      | 3, j + 4 => simp [search] at hj
      | i + 4, j => simp [search] at hi
  | succ n ih =>
    obtain ⟨⟨h1, h2⟩, h3, h4⟩ := ih
    refine ⟨⟨?_, ?_⟩, ?_, ?_⟩
    · have hn : Exclusive (search .not) [[.msg (notNot n)]] := by
        intro i j d e g hij hi hj hd he
        match i with
        | 0 => simp [search] at hi; subst hi; simp at hd
        | i + 1 => simp [search] at hi
      have ht : TypedFields search (search .not) [[.msg (notNot n)]] :=
        ⟨.inr ⟨_, rfl, id⟩, ⟨⟨h1, h2⟩, trivial⟩, rfl⟩
      exact ⟨Nat.zero_le _, trivial, Nat.zero_le _, trivial, Nat.le_refl _, ⟨⟨ht, hn⟩, trivial⟩, Nat.zero_le _,
        trivial, rfl⟩
    · intro i j d e g hij hi hj hd he
      match i, j with
      | 0, j => simp [notNot]
      | 1, j => simp [notNot]
      | 3, j => simp [notNot]
      | 2, 0 => simp [notNot]
      | 2, 1 => simp [notNot]
      | 2, 3 => simp [notNot]
      | 2, 2 => simp at hij
      | 2, j + 4 => simp [search] at hj
      | i + 4, j => simp [search] at hi
    · show (true && (true && ((((textsFields search (search .expr) (notNot n)) && true) && true) && true)
        && (true && true))) = true
      rw [h3]
      rfl
    · unfold nesting at h4 ⊢
      simp only [notNot, depthFields, depthAll, depth]
      omega

theorem varint_length_le (k : Nat) : ∀ n, n < 128 ^ (k + 1) → (varint n).length ≤ k + 1 := by
  induction k with
  | zero =>
    intro n h
    rw [varint_small (by simpa using h)]
    exact Nat.le_refl _
  | succ k ih =>
    intro n h
    by_cases hn : n < 128
    · rw [varint_small hn]
      omega
    · rw [varint_big (by omega)]
      have := ih (n / 128) (by rw [Nat.div_lt_iff_lt_mul (by decide)]; rw [Nat.pow_succ] at h; exact h)
      omega

theorem notNot_length (n : Nat) (hn : n < 2 ^ 58) : (bytesOf search .expr (notNot n)).length ≤ 22 * n + 5 := by
  induction n with
  | zero => decide
  | succ n ih =>
    have ih := ih (by omega)
    have e : bytesOf search .expr (notNot (n + 1)) = encodeFields [⟨3, .bytes (encodeFields [⟨1, .bytes
        (bytesOf search .expr (notNot n))⟩])⟩] := rfl
    have hv : ∀ k, k < 2 ^ 64 → (varint k).length ≤ 10 := fun k hk =>
      varint_length_le 9 k (Nat.lt_of_lt_of_le hk (by decide))
    have h8 : ∀ k, k < 128 → (varint k).length = 1 := fun k hk => varint_small hk
    have h1 := hv (bytesOf search .expr (notNot n)).length (by omega)
    have hi : (encodeFields [⟨1, .bytes (bytesOf search .expr (notNot n))⟩]).length ≤ 22 * n + 5 + 11 := by
      simp only [encodeFields, List.map_cons, List.map_nil, List.flatten_cons, List.flatten_nil, encodeField,
        List.length_append, List.length_nil]
      have := h8 (1 * 8 + 2) (by decide)
      omega
    rw [e]
    have h2 := hv (encodeFields [⟨1, .bytes (bytesOf search .expr (notNot n))⟩]).length (by omega)
    generalize encodeFields [⟨1, .bytes (bytesOf search .expr (notNot n))⟩] = x at hi h2
    simp only [encodeFields, List.map_cons, List.map_nil, List.flatten_cons, List.flatten_nil, encodeField,
      List.length_append, List.length_nil]
    have := h8 (3 * 8 + 2) (by decide)
    omega

/-- Whatever the limit, there is a search that can be written and is read without a limit, but not with it. -/
theorem C85_limit_counterexample (n : Nat) (hn : n < 2 ^ 58) :
    ∃ m b, IsMessage search .expr m ∧ PB.write search .expr m = some b ∧ b.length ≤ 22 * n + 5 ∧
      PB.read search .expr b = some m ∧ PB.readLimited search n .expr b = none := by
  obtain ⟨h1, h2, h3⟩ := notNot_message n
  have hl := notNot_length n hn
  have hw : PB.write search .expr (notNot n) = some (bytesOf search .expr (notNot n)) := by
    unfold PB.write
    rw [if_pos h2]
  refine ⟨_, _, h1, hw, hl, C85_round_trip good_search h1 hw (by omega), ?_⟩
  rw [C85_limit_iff good_search h1 hw (by omega), if_neg (by omega)]

/-! ## Examples -/

/-- `name ∈ {3, -1}`: packed numbers, negative ones too. -/
example : PB.write search .expr
    [[], [], [], [.msg [[.str (b! "n")], [.msg [[.num 1], [.msg [[], [], [], [.msg [[.num 3, .num (-1)]]], []]]]],
      [], [], []]]]
    = some [34, 24, 10, 1, 110, 18, 19, 8, 1, 18, 15, 34, 13, 10, 11, 3, 255, 255, 255, 255, 255, 255, 255, 255, 255, 1] := by
  decide +kernel

/-- It is read; also when the numbers come one by one. -/
example : (PB.read search .ints [8, 3, 8, 5]).map (bytesOf search .ints) = some [10, 2, 3, 5] := by decide +kernel

/-- The last member of a `oneof` wins, and the same key of a map is set again. -/
example : (PB.read search .value [10, 1, 97, 24, 1]).map (bytesOf search .value) = some [24, 1] := by decide +kernel

example : (PB.read fipa .inform [10, 6, 10, 1, 97, 18, 1, 98, 10, 6, 10, 1, 97, 18, 1, 99]).map (bytesOf fipa .inform)
    = some [10, 6, 10, 1, 97, 18, 1, 99] := by decide +kernel

/-- A string that is no text is refused by both sides. -/
example : PB.write search .strings [[.str [255]]] = none ∧ (PB.read search .strings [10, 1, 255]).isNone = true := by
  decide +kernel

end Verif
