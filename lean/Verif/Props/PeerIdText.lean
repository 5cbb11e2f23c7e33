import Verif.Lemmas.Base58
import Verif.Props.PubKey
import Verif.Model.TextCodes
import Verif.Props.GoPrims

/-!
# C93: texts of peer ids

Specification: a text in base 58 and the bytes it stands for have the same number of ones and zeros at the front, and
what follows is the same number (`Base58Pair`).
-/

namespace Verif

/-! ## Specification -/

/-- The value of a symbol, by the published table: digits without 0, capital letters without I and O, small
letters without l. -/
def base58Symbol (c : UInt8) : Option Nat :=
  let n := c.toNat
  if 49 ≤ n ∧ n ≤ 57 then some (n - 49)
  else if 65 ≤ n ∧ n ≤ 72 then some (n - 65 + 9)
  else if 74 ≤ n ∧ n ≤ 78 then some (n - 74 + 17)
  else if 80 ≤ n ∧ n ≤ 90 then some (n - 80 + 22)
  else if 97 ≤ n ∧ n ≤ 107 then some (n - 97 + 33)
  else if 109 ≤ n ∧ n ≤ 122 then some (n - 109 + 44)
  else none

/-- The text and the bytes stand for each other. -/
def Base58Pair (t b : Bytes) : Prop :=
  ∃ (k : Nat) (ds : List Nat) (bs : Bytes),
    t.map base58Symbol = (List.replicate k 0 ++ ds).map some ∧
    b = List.replicate k 0 ++ bs ∧
    (∀ d, ds.head? = some d → d ≠ 0) ∧ (∀ x, bs.head? = some x → x ≠ 0) ∧
    Nat.ofDigits 58 ds.reverse = beNat bs

/-- What `IDFromPublicKey` gives: the key itself, up to 42 bytes, or a hash of 32 bytes. -/
def IsPeerId (id : Bytes) : Prop :=
  (∃ d : Bytes, d.length ≤ 42 ∧ id = 0 :: UInt8.ofNat d.length :: d) ∨
  (∃ d : Bytes, d.length = 32 ∧ id = 0x12 :: 0x20 :: d)

/-- What the libraries do with small numbers and with the codes 0 (no hash) and 18 (SHA-256). -/
structure IdWorld.Sane (W : IdWorld) : Prop where
  small : ∀ (c : UInt8) (r : Bytes), c.toNat < 128 → W.uvarint (c :: r) = some (c.toNat, r)
  identity : W.knownCode 0 = true
  sha256 : W.knownCode 18 = true

/-! ## Base 58 -/

theorem base58Digit_eq (c : UInt8) : base58Digit c = base58Symbol c := by
  exact forall_byte (p := fun c => base58Digit c = base58Symbol c) (by decide +kernel) c

theorem base58Digit_lt {c : UInt8} {d : Nat} (h : base58Digit c = some d) : d < 58 ∧ base58Alphabet.getD d 0 = c := by
  have : ∀ c : UInt8, ∀ d ∈ base58Digit c, d < 58 ∧ base58Alphabet.getD d 0 = c :=
    forall_byte (by decide +kernel)
  exact this c d h

theorem base58Digit_char {d : Nat} (h : d < 58) : base58Digit (base58Alphabet.getD d 0) = some d := by
  have : ∀ d : Fin 58, base58Digit (base58Alphabet.getD d 0) = some d.1 := by decide +kernel
  exact this ⟨d, h⟩

theorem base58Digits_eq_some : ∀ {t : Bytes} {ds : List Nat},
    base58Digits t = some ds ↔ (∀ d ∈ ds, d < 58) ∧ t = ds.map (fun d => base58Alphabet.getD d 0)
  | [], ds => by
    cases ds <;> simp [base58Digits]
  | c :: cs, ds => by
    rw [base58Digits]
    constructor
    · intro h
      split at h
      · next d ds' h1 h2 =>
        obtain rfl : d :: ds' = ds := by simpa using h
        obtain ⟨h3, h4⟩ := base58Digits_eq_some.1 h2
        obtain ⟨h5, h6⟩ := base58Digit_lt h1
        refine ⟨by simpa [h5] using h3, ?_⟩
        rw [List.map_cons, h6, ← h4]
      · simp at h
    · rintro ⟨h1, h2⟩
      cases ds with
      | nil => simp at h2
      | cons d ds =>
        simp only [List.map_cons, List.cons.injEq] at h2
        have := base58Digits_eq_some.2 ⟨fun d' h' => h1 d' (by simp [h']), h2.2⟩
        rw [h2.1, base58Digit_char (h1 d (by simp)), this]

theorem toNat_lt_256 {b : Bytes} : ∀ d ∈ b.map UInt8.toNat, d < 256 := by
  intro d h
  obtain ⟨x, -, rfl⟩ := List.mem_map.1 h
  exact x.toNat_lt

theorem map_ofNat_toNat (b : Bytes) : (b.map UInt8.toNat).map UInt8.ofNat = b := by
  rw [List.map_map]
  conv => rhs; rw [← List.map_id b]
  apply List.map_congr_left
  intro x _
  simp

theorem map_toNat_ofNat {ds : List Nat} (h : ∀ d ∈ ds, d < 256) : (ds.map UInt8.ofNat).map UInt8.toNat = ds := by
  rw [List.map_map]
  conv => rhs; rw [← List.map_id ds]
  apply List.map_congr_left
  intro x hx
  have := h x hx
  simp [Nat.mod_eq_of_lt this]

theorem base58Encode_ne_nil {b : Bytes} (h : b ≠ []) : base58Encode b ≠ [] := by
  intro h0
  have : rebase 256 58 (b.map UInt8.toNat) = [] := by simpa [base58Encode] using h0
  have h2 := rebase_rebase (b1 := 256) (b2 := 58) (by omega) (by omega) (by omega) (by omega) (toNat_lt_256 (b := b))
  rw [this] at h2
  have h3 : rebase 58 256 [] = [] := rfl
  rw [h3] at h2
  exact h (by simpa using h2.symm)

/-- **C93.** A text decodes to bytes exactly if it is the text of those bytes, and only the empty text has none. -/
theorem C93_base58_iff (t b : Bytes) : base58Decode t = some b ↔ t ≠ [] ∧ base58Encode b = t := by
  rw [base58Decode]
  constructor
  · intro h
    split at h
    · simp at h
    · next hne =>
      refine ⟨hne, ?_⟩
      split at h
      · simp at h
      · next ds hds =>
        obtain ⟨h1, h2⟩ := base58Digits_eq_some.1 hds
        obtain rfl := Option.some.inj h
        have hlt := rebase_lt (b1 := 58) (b2 := 256) (by omega) (by omega) (by omega) h1
        rw [base58Encode, map_toNat_ofNat hlt, rebase_rebase (by omega) (by omega) (by omega) (by omega) h1, h2]
  · rintro ⟨hne, rfl⟩
    rw [if_neg hne]
    have hlt := rebase_lt (b1 := 256) (b2 := 58) (by omega) (by omega) (by omega) (toNat_lt_256 (b := b))
    have : base58Digits (base58Encode b) = some (rebase 256 58 (b.map UInt8.toNat)) :=
      base58Digits_eq_some.2 ⟨hlt, rfl⟩
    rw [this]
    simp only [Option.some.injEq]
    rw [rebase_rebase (by omega) (by omega) (by omega) (by omega) toNat_lt_256, map_ofNat_toNat]

theorem base58_roundtrip {b : Bytes} (h : b ≠ []) : base58Decode (base58Encode b) = some b :=
  (C93_base58_iff _ _).2 ⟨base58Encode_ne_nil h, rfl⟩

theorem base58Encode_nil : base58Encode [] = [] := rfl

theorem base58Encode_inj {a b : Bytes} : base58Encode a = base58Encode b ↔ a = b := by
  refine ⟨fun h => ?_, fun h => by rw [h]⟩
  by_cases ha : a = []
  · subst ha
    by_contra hb
    exact base58Encode_ne_nil (b := b) (fun h => hb h.symm) (by rw [← h]; rfl)
  · have h1 := base58_roundtrip ha
    have hb : b ≠ [] := by
      rintro rfl
      exact base58Encode_ne_nil ha (by rw [h]; rfl)
    rw [h, base58_roundtrip hb] at h1
    exact (Option.some.inj h1).symm

theorem beNat_baseValue (b : Bytes) : beNat b = baseValue 256 (b.map UInt8.toNat) := by
  rw [beNat, baseValue, List.foldl_map]

/-- **C93.** The text of bytes is the text the table and the arithmetic give. -/
theorem C93_base58_pair (t b : Bytes) : base58Encode b = t ↔ Base58Pair t b := by
  constructor
  · rintro rfl
    obtain ⟨k, rest, h1, -, h3⟩ := split_zeros (b.map UInt8.toNat)
    have hlt : ∀ d ∈ rest, d < 256 := fun d h => toNat_lt_256 (b := b) d (by rw [h1]; simp [h])
    refine ⟨k, (Nat.digits 58 (baseValue 256 rest)).reverse, rest.map UInt8.ofNat, ?_, ?_,
      fun d h => head_digits_reverse d h, ?_, ?_⟩
    · have hreb := rebase_eq (b1 := 256) (b2 := 58) (k := k) (by omega) (by omega) (by omega) hlt h3
      rw [base58Encode, h1, hreb, List.map_map]
      apply List.map_congr_left
      intro d hd
      rw [Function.comp, ← base58Digit_eq, base58Digit_char]
      rcases List.mem_append.1 hd with h | h
      · rw [List.eq_of_mem_replicate h]; omega
      · exact Nat.digits_lt_base (by omega) (List.mem_reverse.1 h)
    · rw [← map_ofNat_toNat b, h1]; simp
    · intro x hx
      rw [List.head?_map, Option.map_eq_some_iff] at hx
      obtain ⟨d, hd, rfl⟩ := hx
      intro h0
      have hd' := hlt d (List.mem_of_mem_head? hd)
      have := congrArg UInt8.toNat h0
      have h4 := h3 d hd
      simp [Nat.mod_eq_of_lt hd'] at this
      exact h4 this
    · rw [List.reverse_reverse, Nat.ofDigits_digits, beNat_baseValue, map_toNat_ofNat hlt]
  · rintro ⟨k, ds, bs, h1, rfl, h3, h4, h5⟩
    have hdig : base58Digits t = some (List.replicate k 0 ++ ds) := by
      rw [List.map_congr_left (fun c _ => (base58Digit_eq c).symm)] at h1
      generalize List.replicate k 0 ++ ds = l at h1
      clear h3 h4 h5
      induction t generalizing l with
      | nil => cases l <;> simp_all [base58Digits]
      | cons c cs ih =>
        cases l with
        | nil => simp at h1
        | cons d l =>
          simp only [List.map_cons, List.cons.injEq] at h1
          rw [base58Digits, h1.1, ih l h1.2]
    obtain ⟨hlt, ht⟩ := base58Digits_eq_some.1 hdig
    have hlt' : ∀ d ∈ ds, d < 58 := fun d h => hlt d (by simp [h])
    have hb : (List.replicate k (0 : UInt8) ++ bs).map UInt8.toNat = List.replicate k 0 ++ bs.map UInt8.toNat := by simp
    have hh : ∀ d, (bs.map UInt8.toNat).head? = some d → d ≠ 0 := by
      intro d hd
      rw [List.head?_map, Option.map_eq_some_iff] at hd
      obtain ⟨x, hx, rfl⟩ := hd
      intro h0
      exact h4 x hx (UInt8.toNat_inj.1 (by simpa using h0))
    have hreb := rebase_eq (b1 := 256) (b2 := 58) (k := k) (by omega) (by omega) (by omega) (toNat_lt_256 (b := bs)) hh
    rw [base58Encode, hb, hreb, ht, ← beNat_baseValue, ← h5, Nat.digits_ofDigits 58 (by omega) _ (by simpa using hlt'),
      List.reverse_reverse]
    intro hne
    rw [List.getLast_reverse]
    exact h3 _ (List.head?_eq_some_head (by simpa using hne))

/-! ## Peer ids -/

theorem IsPeerId.ne_nil {id : Bytes} (h : IsPeerId id) : id ≠ [] := by
  rcases h with ⟨d, -, rfl⟩ | ⟨d, -, rfl⟩ <;> simp

theorem IsPeerId.multihash {W : IdWorld} (hW : W.Sane) {id : Bytes} (h : IsPeerId id) : multihashOk W id = true := by
  rcases h with ⟨d, hd, rfl⟩ | ⟨d, hd, rfl⟩
  · have hn : (UInt8.ofNat d.length).toNat = d.length := by simp; omega
    rw [multihashOk, if_neg (by simp), hW.small _ _ (by simp)]
    simp only []
    rw [hW.small _ _ (by rw [hn]; omega)]
    simp only [hn]
    rw [if_neg (by omega), if_neg (by omega), if_neg (by simp)]
    exact hW.identity
  · rw [multihashOk, if_neg (by simp), hW.small _ _ (by decide)]
    simp only []
    rw [hW.small _ _ (by decide)]
    simp only [hd]
    rw [if_neg (by decide), if_neg (by decide), if_neg (by decide)]
    exact hW.sha256

/-- The highest digits of a number between two bounds. -/
theorem digits_between {base n m lo k : Nat} (hb : 1 < base) (hlo : 0 < lo) (h1 : lo * base ^ k ≤ n)
    (h2 : n < (lo + 1) * base ^ k) (hm : m = lo) :
    ∃ tail : List Nat, tail.length = k ∧ (Nat.digits base n).reverse = (Nat.digits base m).reverse ++ tail := by
  subst hm
  induction k generalizing n with
  | zero =>
    obtain rfl : n = m := by simp at h1 h2; omega
    exact ⟨[], rfl, by simp⟩
  | succ k ih =>
    have hpos : 0 < n := by
      have : 0 < m * base ^ (k + 1) := Nat.mul_pos hlo (Nat.pow_pos (by omega))
      omega
    obtain ⟨tail, ht, h⟩ := ih (n := n / base)
      (by rw [Nat.le_div_iff_mul_le (by omega)]; rw [pow_succ] at h1; linarith)
      (by rw [Nat.div_lt_iff_lt_mul (by omega)]; rw [pow_succ] at h2; linarith)
    refine ⟨tail ++ [n % base], by simp [ht], ?_⟩
    rw [Nat.digits_def' hb hpos, List.reverse_cons, h, List.append_assoc]

theorem base58Encode_zero (b : Bytes) : base58Encode (0 :: b) = 49 :: base58Encode b := by
  obtain ⟨k, rest, h1, -, h3⟩ := split_zeros (b.map UInt8.toNat)
  have hlt : ∀ d ∈ rest, d < 256 := fun d h => toNat_lt_256 (b := b) d (by rw [h1]; simp [h])
  have e1 := rebase_eq (b1 := 256) (b2 := 58) (k := k) (by omega) (by omega) (by omega) hlt h3
  have e2 := rebase_eq (b1 := 256) (b2 := 58) (k := k + 1) (by omega) (by omega) (by omega) hlt h3
  have hz : (0 :: b).map UInt8.toNat = List.replicate (k + 1) 0 ++ rest := by
    simp [h1, List.replicate_succ]
  rw [base58Encode, hz, e2, base58Encode, h1, e1, List.replicate_succ]
  rfl

/-- The text of bytes without a zero at the front, from its value. -/
theorem base58Encode_pos {c : UInt8} {b : Bytes} (hc : c ≠ 0) :
    base58Encode (c :: b) = ((Nat.digits 58 (beNat (c :: b))).reverse).map fun d => base58Alphabet.getD d 0 := by
  have hh : ∀ d, ((c :: b).map UInt8.toNat).head? = some d → d ≠ 0 := by
    intro d hd
    have : c.toNat = d := by simpa using hd
    subst this
    intro h0
    exact hc (UInt8.toNat_inj.1 (by simpa using h0))
  have := rebase_eq (b1 := 256) (b2 := 58) (k := 0) (by omega) (by omega) (by omega) (toNat_lt_256 (b := c :: b)) hh
  simp only [List.replicate_zero, List.nil_append] at this
  rw [base58Encode, this, beNat_baseValue]

theorem beNat_cons_bounds (p d : Bytes) : beNat p * 256 ^ d.length ≤ beNat (p ++ d) ∧
    beNat (p ++ d) < (beNat p + 1) * 256 ^ d.length := by
  induction d using List.reverseRecOn with
  | nil => simp
  | append_singleton d x ih =>
    rw [← List.append_assoc, beNat_append, List.length_append, List.length_singleton, pow_succ]
    have := x.toNat_lt
    obtain ⟨h1, h2⟩ := ih
    constructor
    · nlinarith
    · have : beNat (p ++ d) + 1 ≤ (beNat p + 1) * 256 ^ d.length := h2
      nlinarith

/-- Bytes with a fixed beginning and length have texts with a fixed beginning and length. -/
theorem base58_prefix {c : UInt8} {p d : Bytes} {k lo : Nat} (hc : c ≠ 0)
    (h1 : lo * 58 ^ k ≤ beNat (c :: p) * 256 ^ d.length)
    (h2 : (beNat (c :: p) + 1) * 256 ^ d.length ≤ (lo + 1) * 58 ^ k) (hlo : 0 < lo) :
    ∃ tail : Bytes, tail.length = k ∧
      base58Encode (c :: p ++ d) = (((Nat.digits 58 lo).reverse).map fun i => base58Alphabet.getD i 0) ++ tail := by
  obtain ⟨h3, h4⟩ := beNat_cons_bounds (c :: p) d
  obtain ⟨tail, ht, h⟩ := digits_between (base := 58) (n := beNat (c :: p ++ d)) (by omega) hlo (h1.trans h3)
    (lt_of_lt_of_le h4 h2) rfl
  refine ⟨tail.map fun i => base58Alphabet.getD i 0, by simpa using ht, ?_⟩
  rw [List.cons_append, base58Encode_pos hc, ← List.cons_append, h, List.map_append]

/-- **C93.** The text of an id that is a hash has 46 symbols and begins with `Qm`. -/
theorem C93_hash_text (d : Bytes) (hd : d.length = 32) :
    ∃ tail : Bytes, tail.length = 44 ∧ prettyId (0x12 :: 0x20 :: d) = b! "Qm" ++ tail := by
  obtain ⟨tail, h1, h2⟩ := base58_prefix (c := 0x12) (p := [0x20]) (d := d) (k := 44) (lo := 23 * 58 + 44)
    (by decide) (by rw [hd]; decide +kernel) (by rw [hd]; decide +kernel) (by decide)
  refine ⟨tail, h1, ?_⟩
  have h3 : ((Nat.digits 58 (23 * 58 + 44)).reverse).map (fun i => base58Alphabet.getD i 0) = b! "Qm" := by
    decide +kernel
  rw [h3] at h2
  exact h2

/-- **C93.** The text of the id of a secp256k1 key has 53 symbols and begins with `16Uiu2HA`. -/
theorem C93_key_text (k : CurveKey) :
    ∃ tail : Bytes, tail.length = 45 ∧ prettyId (peerIdOf k) = b! "16Uiu2HA" ++ tail := by
  have h3 : ((Nat.digits 58 208539221917).reverse).map (fun i => base58Alphabet.getD i 0) = b! "6Uiu2HA" := by
    decide +kernel
  have key : ∀ m : UInt8, m = 2 ∨ m = 3 → ∃ tail : Bytes, tail.length = 45 ∧
      base58Encode ([37, 8, 2, 18, 33, m] ++ natBE 32 k.x) = b! "6Uiu2HA" ++ tail := by
    intro m hm
    have hl := natBE_length 32 k.x
    obtain ⟨tail, h1, h2⟩ := base58_prefix (c := 37) (p := [8, 2, 18, 33, m]) (d := natBE 32 k.x) (k := 45)
      (lo := 208539221917) (by decide) (by rw [hl]; rcases hm with rfl | rfl <;> decide +kernel)
      (by rw [hl]; rcases hm with rfl | rfl <;> decide +kernel) (by decide)
    rw [h3] at h2
    exact ⟨tail, h1, h2⟩
  have hm : UInt8.ofNat (2 + k.y % 2) = 2 ∨ UInt8.ofNat (2 + k.y % 2) = 3 := by
    rcases Nat.mod_two_eq_zero_or_one k.y with h | h <;> simp [h]
  obtain ⟨tail, h1, h2⟩ := key _ hm
  refine ⟨tail, h1, ?_⟩
  have e : peerIdOf k = 0 :: ([37, 8, 2, 18, 33, UInt8.ofNat (2 + k.y % 2)] ++ natBE 32 k.x) := by
    simp only [peerIdOf, compressedKey, List.cons_append, List.nil_append]
  rw [prettyId, e, base58Encode_zero, h2]
  rfl

/-- **C93.** Every id `IDFromPublicKey` gives, for whatever type of key, is read back from its text. -/
theorem C93_roundtrip {W : IdWorld} (hW : W.Sane) {id : Bytes} (h : IsPeerId id) :
    peerDecode W (prettyId id) = some id := by
  have hm := h.multihash hW
  have hr := base58_roundtrip h.ne_nil
  have hp : ((b! "Qm").isPrefixOf (prettyId id) || (b! "1").isPrefixOf (prettyId id)) = true := by
    rcases h with ⟨d, hd, rfl⟩ | ⟨d, hd, rfl⟩
    · rw [prettyId, base58Encode_zero]
      simp [List.isPrefixOf]
    · obtain ⟨tail, -, h2⟩ := C93_hash_text d hd
      rw [h2]
      simp [List.isPrefixOf]
  rw [peerDecode, hp, prettyId, hr]
  simp [hm]

/-- **C93.** `IDFromPublicKey` gives such ids only; for a secp256k1 key it is the id of C88. -/
theorem C93_ids (b : Bytes) (k : CurveKey) :
    IsPeerId (idOfKeyBytes b) ∧ idOfKeyBytes ([8, 2, 18, 33] ++ compressedKey k) = peerIdOf k := by
  constructor
  · rw [idOfKeyBytes]
    split
    · next h => exact .inl ⟨b, h, rfl⟩
    · exact .inr ⟨sha256 b, (C91_hash_length b).1, rfl⟩
  · have hl : ([8, 2, 18, 33] ++ compressedKey k).length = 37 := by
      simp [compressedKey, natBE_length]
    rw [idOfKeyBytes, hl, if_pos (by decide), peerIdOf]
    rfl

/-- **C93.** Among the texts that begin like the text of a peer id, one is read as an id exactly if it is the text of
that id and the id is a multihash. So no id has two such texts. -/
theorem C93_decode_iff (W : IdWorld) {s : Bytes} (h : b! "Qm" <+: s ∨ b! "1" <+: s) (id : Bytes) :
    peerDecode W s = some id ↔ prettyId id = s ∧ multihashOk W id = true := by
  have hp : ((b! "Qm").isPrefixOf s || (b! "1").isPrefixOf s) = true := by
    simpa [Bool.or_eq_true, List.isPrefixOf_iff_prefix] using h
  have hne : s ≠ [] := by rintro rfl; simp at h
  rw [peerDecode, hp]
  simp only [if_true]
  constructor
  · intro h1
    split at h1
    · simp at h1
    · next b hb =>
      split at h1
      · next hm =>
        obtain rfl := Option.some.inj h1
        exact ⟨((C93_base58_iff _ _).1 hb).2, hm⟩
      · simp at h1
  · rintro ⟨h1, h2⟩
    rw [(C93_base58_iff s id).2 ⟨hne, h1⟩]
    simp [h2]

/-- **C93.** Ids of the two usual kinds, read from a text: all bytes after the length are the key or hash. -/
theorem C93_multihash {W : IdWorld} (hW : W.Sane) (c n : UInt8) (d : Bytes) (hc : c.toNat < 128) (hn : n.toNat < 128) :
    multihashOk W (c :: n :: d) = true ↔ d.length = n.toNat ∧ W.knownCode c.toNat = true := by
  rw [multihashOk, if_neg (by simp), hW.small _ _ hc]
  simp only []
  rw [hW.small _ _ hn]
  simp only []
  rw [if_neg (by omega)]
  by_cases h1 : n.toNat > d.length
  · rw [if_pos h1]; simp; omega
  · rw [if_neg h1]
    by_cases h2 : d.length = n.toNat
    · rw [if_neg (by simp [h2])]; simp [h2]
    · rw [if_pos h2]; simp [h2]

/-- **C93.** Comparing texts is comparing ids (dhtclient.go:104); for keys it is comparing keys. -/
theorem C93_same_text (a b : Bytes) {k l : CurveKey} (hk : ValidKey k) (hl : ValidKey l) :
    (prettyId a = prettyId b ↔ a = b) ∧ (prettyId (peerIdOf k) = prettyId (peerIdOf l) ↔ k = l) :=
  ⟨base58Encode_inj, base58Encode_inj.trans (C88_determined hk hl).2⟩

theorem idFromText_isPeerId {strictX : Bool} {t id : Bytes} (h : idFromText strictX t = some id) :
    ∃ k, id = peerIdOf k := by
  unfold idFromText at h
  split at h
  · simp at h
  · split at h
    · simp at h
    · next k _ => exact ⟨k, (Option.some.inj h).symm⟩

/-- **C93.** What `initAgentRecordPersistentStorage` keeps for a record (dhtpeer.go:498-503) is read by
`RouteEnvelope` (dhtpeer.go:1155) as the id of the record's key: the branch marked CRITICAL is never taken for it. -/
theorem C93_stored {W : IdWorld} (hW : W.Sane) {strictX : Bool} {t id : Bytes} (h : idFromText strictX t = some id) :
    peerDecode W (prettyId id) = some id := by
  obtain ⟨k, rfl⟩ := idFromText_isPeerId h
  rw [← (C93_ids [] k).2]
  exact C93_roundtrip hW (C93_ids _ k).1

namespace PeerIdTextDemo

/-- go-varint, and the codes of the two kinds of ids. -/
def world : IdWorld where
  uvarint := goUvarint
  knownCode n := n == 0 || n == 18
  fromCid _ := none

theorem world_sane : world.Sane where
  small c r h := by
    simp only [world, goUvarint, goUvarintAux, h, if_true]
    simp
  identity := rfl
  sha256 := rfl

/-- The keys and ids of `tests/conftest.py:252-262`. -/
example : (idFromText true (b! "0217a59bd805c310aca4febe0e99ce22ee3712ae085dc1e5630430b1e15a584bb7")).map prettyId =
    some (b! "16Uiu2HAkw1ypeQYQbRFV5hKUxGRHocwU5ohmVmCnyJNg36tnPFdx") := by decide +kernel
example : (idFromText true (b! "03fa7cfae1037cba5218f0f5743802eced8de3247c55ecebaae46c7d3679e3f91d")).map prettyId =
    some (b! "16Uiu2HAmVWnopQAqq4pniYLw44VRvYxBUoRHqjz1Hh2SoCyjbyRW") := by decide +kernel
/-- `TestComputeCID`, utils_test.go. -/
example : prettyId (computeCid (b! "fetch19dq2mkcpp6x0aypxt9c9gz6n4fqvax0x9a7t5r")) =
    b! "QmZ6ryKyS9rSnesX8YnFLAmFwFuRMdHpE7pQ2V6SjXTbqM" := by decide +kernel
example : peerDecode world (b! "QmZ6ryKyS9rSnesX8YnFLAmFwFuRMdHpE7pQ2V6SjXTbqM") =
    some (computeCid (b! "fetch19dq2mkcpp6x0aypxt9c9gz6n4fqvax0x9a7t5r")) := by decide +kernel
/-- A symbol that is none, a text that is too short, the zero key. -/
example : peerDecode world (b! "Qm0") = none := by decide +kernel
example : peerDecode world (b! "16Uiu2HA") = none := by decide +kernel
example : peerDecode world (b! "11") = some [0, 0] := by decide +kernel
example : base58Encode [0, 0, 1, 0] = b! "115R" := by decide +kernel

end PeerIdTextDemo

end Verif
