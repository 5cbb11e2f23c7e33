import Verif.Lemmas.Bech32
import Verif.Props.EthRecover

/-!
# C92: an address determines its ledger and its hash
-/

namespace Verif

/-! ## Specification -/

/-- The remainder of BIP-173. -/
def bip173Polymod (values : List Nat) : Nat :=
  values.foldl (fun chk v =>
    (List.range 5).foldl (fun c i =>
      if (chk / 2 ^ 25 / 2 ^ i) % 2 = 1 then
        c ^^^ [0x3b6a57b2, 0x26508e6d, 0x1ea119fa, 0x3d4233dd, 0x2a1462b3].getD i 0 else c)
      ((chk % 2 ^ 25) * 2 ^ 5 ^^^ v)) 1

/-- Symbols that are valid after a prefix. -/
structure Bip173Valid (hrp : Bytes) (symbols : List Nat) : Prop where
  range : ∀ v ∈ symbols, v < 32
  checksum : bip173Polymod (hrp.map (fun c => c.toNat / 32) ++ [0] ++ hrp.map (fun c => c.toNat % 32) ++ symbols) = 1

/-- The text of symbols. -/
def bip173Text (hrp : Bytes) (symbols : List Nat) : Bytes :=
  hrp ++ b! "1" ++ symbols.map fun v => (b! "qpzry9x8gf2tvdw0s3jn54khce6mua7l").getD v 0

/-! ## The checksum -/

theorem bip173_step (chk v : Nat) : (List.range 5).foldl (fun c i =>
      if (chk / 2 ^ 25 / 2 ^ i) % 2 = 1 then
        c ^^^ [0x3b6a57b2, 0x26508e6d, 0x1ea119fa, 0x3d4233dd, 0x2a1462b3].getD i 0 else c)
      ((chk % 2 ^ 25) * 2 ^ 5 ^^^ v) = bech32Step chk v := by
  have ht : ∀ b i, b.testBit i = decide (b / 2 ^ i % 2 = 1) := fun b i => Nat.testBit_eq_decide_div_mod_eq
  have hx : ∀ (p : Prop) [Decidable p] (c g : Nat), (if p then c ^^^ g else c) = c ^^^ (if p then g else 0) := by
    intro p _ c g
    split <;> simp
  unfold bech32Step bech32Gen
  rw [show 0x1ffffff = 2 ^ 25 - 1 from rfl, Nat.and_two_pow_sub_one_eq_mod, Nat.shiftLeft_eq, Nat.shiftRight_eq_div_pow]
  simp only [ht, decide_eq_true_eq]
  rw [show List.range 5 = [0, 1, 2, 3, 4] from rfl]
  simp only [List.foldl_cons, List.foldl_nil, hx]
  simp only [List.getD_cons_zero, List.getD_cons_succ]
  ac_rfl

theorem bip173_run : ∀ (l : List Nat) (c : Nat), l.foldl (fun chk v =>
    (List.range 5).foldl (fun c i =>
      if (chk / 2 ^ 25 / 2 ^ i) % 2 = 1 then
        c ^^^ [0x3b6a57b2, 0x26508e6d, 0x1ea119fa, 0x3d4233dd, 0x2a1462b3].getD i 0 else c)
      ((chk % 2 ^ 25) * 2 ^ 5 ^^^ v)) c = bech32Run c l
  | [], _ => rfl
  | v :: l, c => by
    rw [List.foldl_cons, bip173_step, bip173_run l]
    rfl

theorem bip173_eq (hrp : Bytes) (symbols : List Nat) :
    bip173Polymod (hrp.map (fun c => c.toNat / 32) ++ [0] ++ hrp.map (fun c => c.toNat % 32) ++ symbols) =
      bech32Run 1 (bech32Expand hrp ++ symbols) := by
  rw [bip173Polymod, bip173_run, bech32Expand]
  congr 1
  simp

theorem bech32Expand_lt (hrp : Bytes) : ∀ v ∈ bech32Expand hrp, v < 32 := by
  intro v hv
  simp only [bech32Expand, List.mem_append, List.mem_map, List.mem_cons] at hv
  rcases hv with ⟨c, _, rfl⟩ | rfl | ⟨c, _, rfl⟩
  · have := c.toNat_lt; omega
  · omega
  · exact Nat.mod_lt _ (by omega)

theorem and31_lt (n : Nat) : n &&& 31 < 32 := by
  rw [show 31 = 2 ^ 5 - 1 from rfl, Nat.and_two_pow_sub_one_eq_mod]
  exact Nat.mod_lt _ (by omega)

theorem bech32Checksum_lt (hrp : Bytes) (data : List Nat) : ∀ v ∈ bech32Checksum hrp data, v < 32 := by
  intro v hv
  simp only [bech32Checksum, List.mem_cons, List.not_mem_nil, or_false] at hv
  rcases hv with rfl | rfl | rfl | rfl | rfl | rfl <;> exact and31_lt _

/-- **C92.** With the checksum that is computed, the symbols are valid. -/
theorem C92_checksum (hrp : Bytes) {data : List Nat} (h : ∀ v ∈ data, v < 32) :
    Bip173Valid hrp (data ++ bech32Checksum hrp data) := by
  refine ⟨?_, ?_⟩
  · intro v hv
    rcases List.mem_append.1 hv with hv | hv
    · exact h v hv
    · exact bech32Checksum_lt _ _ v hv
  · rw [bip173_eq, ← List.append_assoc, bech32Run_append]
    have hlt : bech32Run 1 (bech32Expand hrp ++ data ++ [0, 0, 0, 0, 0, 0]) < 2 ^ 30 := by
      apply bech32Run_lt _ _ (by decide)
      intro v hv
      simp only [List.mem_append, List.mem_cons, List.not_mem_nil, or_false] at hv
      rcases hv with (hv | hv) | hv
      · exact bech32Expand_lt _ v hv
      · exact h v hv
      · omega
    unfold bech32Checksum
    rw [bech32Run_append _ [0, 0, 0, 0, 0, 0]] at hlt ⊢
    generalize bech32Run 1 (bech32Expand hrp ++ data) = s at hlt ⊢
    generalize hp : bech32Run s [0, 0, 0, 0, 0, 0] = p at hlt ⊢
    dsimp only
    have hq : p ^^^ 1 < 2 ^ 30 := Nat.xor_lt_two_pow hlt (by decide)
    have hd := bech32Run_digits hq
    generalize hl : [((p ^^^ 1) >>> 25) &&& 31, ((p ^^^ 1) >>> 20) &&& 31, ((p ^^^ 1) >>> 15) &&& 31,
      ((p ^^^ 1) >>> 10) &&& 31, ((p ^^^ 1) >>> 5) &&& 31, (p ^^^ 1) &&& 31] = l at hd ⊢
    have hll : l.length = 6 := by rw [← hl]; rfl
    have hx := bech32Run_xor [0, 0, 0, 0, 0, 0] l s 0 (by rw [hll]; rfl)
    have hz : List.zipWith (· ^^^ ·) [0, 0, 0, 0, 0, 0] l = l := by
      rw [← hl]; simp
    rw [hz, Nat.xor_zero, hp, hd] at hx
    rw [hx, ← Nat.xor_assoc, Nat.xor_self, Nat.zero_xor]

/-- **C92.** No two valid texts with the same prefix differ in up to six neighbouring symbols only. -/
theorem C92_window (hrp : Bytes) (u a b t : List Nat) (hl : a.length = b.length) (h6 : a.length ≤ 6)
    (ha : Bip173Valid hrp (u ++ a ++ t)) (hb : Bip173Valid hrp (u ++ b ++ t)) : a = b := by
  have e1 := ha.checksum
  have e2 := hb.checksum
  rw [bip173_eq, List.append_assoc, ← List.append_assoc, bech32Run_append, bech32Run_append] at e1 e2
  have hs : bech32Run 1 (bech32Expand hrp ++ u) < 2 ^ 30 := by
    apply bech32Run_lt _ _ (by decide)
    intro v hv
    rcases List.mem_append.1 hv with hv | hv
    · exact bech32Expand_lt _ v hv
    · exact ha.range v (by simp [hv])
  generalize bech32Run 1 (bech32Expand hrp ++ u) = s at *
  have ra : ∀ v ∈ a, v < 32 := fun v hv => ha.range v (by simp [hv])
  have rb : ∀ v ∈ b, v < 32 := fun v hv => hb.range v (by simp [hv])
  have rt : ∀ v ∈ t, v < 32 := fun v hv => ha.range v (by simp [hv])
  have e := bech32Run_inj t _ _ (bech32Run_lt a s hs ra) (bech32Run_lt b s hs rb) rt (e1.trans e2.symm)
  have split : ∀ l : List Nat, bech32Run s l = bech32Run s (l.map fun _ => 0) ^^^ bech32Run 0 l := by
    intro l
    have := bech32Run_xor (l.map fun _ => 0) l s 0 (by simp)
    rw [Nat.xor_zero] at this
    rw [← this]
    congr 1
    clear this
    induction l with
    | nil => rfl
    | cons v l ih => rw [List.map_cons, List.zipWith_cons_cons, ← ih, Nat.zero_xor]
  rw [split a, split b] at e
  have hz : (a.map fun _ => 0) = b.map fun _ => 0 := by
    rw [List.map_const', List.map_const', hl]
  rw [hz] at e
  have e := Nat.xor_right_injective e
  rw [bech32Run_small a 0 6 h6 (by omega) (by decide) ra, bech32Run_small b 0 6 (by omega) (by omega) (by decide) rb] at e
  exact (foldl_symbols_inj a b 0 0 hl ra rb e).2

/-! ## Bits -/

theorem ofBits_bitsOf : ∀ (k n : Nat), n < 2 ^ k → ofBits (bitsOf k n) = n
  | 0, n, h => by
    have : n = 0 := by simpa using h
    subst this; rfl
  | k + 1, n, h => by
    rw [pow_succ] at h
    have ih := ofBits_bitsOf k (n / 2) (by omega)
    have h2 : (n % 2 == 1).toNat = n % 2 := by
      rcases Nat.mod_two_eq_zero_or_one n with h | h <;> rw [h] <;> rfl
    rw [bitsOf, ofBits, List.foldl_append]
    show 2 * ofBits (bitsOf k (n / 2)) + (n % 2 == 1).toNat = n
    rw [ih, h2]
    omega

theorem bitsOf_length : ∀ (k n : Nat), (bitsOf k n).length = k
  | 0, _ => rfl
  | k + 1, n => by rw [bitsOf, List.length_append, bitsOf_length k]; rfl

theorem byteBits_length (b : Bytes) : (b.flatMap fun x => bitsOf 8 x.toNat).length = 8 * b.length := by
  induction b with
  | nil => rfl
  | cons x b ih => rw [List.flatMap_cons, List.length_append, ih, bitsOf_length, List.length_cons]; omega

theorem byteBits_inj : ∀ (a b : Bytes), (a.flatMap fun x => bitsOf 8 x.toNat) = (b.flatMap fun x => bitsOf 8 x.toNat) →
    a = b
  | [], [], _ => rfl
  | [], y :: b, h => by have := congrArg List.length h; simp [bitsOf_length] at this; omega
  | x :: a, [], h => by have := congrArg List.length h; simp [bitsOf_length] at this
  | x :: a, y :: b, h => by
    simp only [List.flatMap_cons] at h
    obtain ⟨h1, h2⟩ := List.append_inj h (by rw [bitsOf_length, bitsOf_length])
    have h3 := congrArg ofBits h1
    rw [ofBits_bitsOf 8 _ x.toNat_lt, ofBits_bitsOf 8 _ y.toNat_lt] at h3
    rw [byteBits_inj a b h2, UInt8.toNat_inj.1 h3]

theorem five_bits : ∀ a b c d e : Bool, bitsOf 5 (ofBits [a, b, c, d, e]) = [a, b, c, d, e] ∧
    ofBits [a, b, c, d, e] < 32 := by decide

/-- The groups are the bits, and zeros up to a multiple of five. -/
theorem groups5_spec : ∀ l : List Bool,
    (groups5 l).flatMap (bitsOf 5) = l ++ List.replicate ((5 - l.length % 5) % 5) false ∧
    (groups5 l).length = (l.length + 4) / 5 ∧ ∀ v ∈ groups5 l, v < 32
  | [] => by simp [groups5]
  | [a] => by
    obtain ⟨h1, h2⟩ := five_bits a false false false false
    exact ⟨by simpa [groups5] using h1, by simp [groups5], by simpa [groups5] using h2⟩
  | [a, b] => by
    obtain ⟨h1, h2⟩ := five_bits a b false false false
    exact ⟨by simpa [groups5] using h1, by simp [groups5], by simpa [groups5] using h2⟩
  | [a, b, c] => by
    obtain ⟨h1, h2⟩ := five_bits a b c false false
    exact ⟨by simpa [groups5] using h1, by simp [groups5], by simpa [groups5] using h2⟩
  | [a, b, c, d] => by
    obtain ⟨h1, h2⟩ := five_bits a b c d false
    exact ⟨by simpa [groups5] using h1, by simp [groups5], by simpa [groups5] using h2⟩
  | a :: b :: c :: d :: e :: rest => by
    obtain ⟨h1, h2⟩ := five_bits a b c d e
    obtain ⟨i1, i2, i3⟩ := groups5_spec rest
    refine ⟨?_, ?_, ?_⟩
    · rw [groups5, List.flatMap_cons, h1, i1]
      simp only [List.length_cons, List.cons_append, List.nil_append,
        show (rest.length + 1 + 1 + 1 + 1 + 1) % 5 = rest.length % 5 by omega]
    · rw [groups5, List.length_cons, i2]
      simp only [List.length_cons]
      omega
    · intro v hv
      rw [groups5, List.mem_cons] at hv
      rcases hv with rfl | hv
      · exact h2
      · exact i3 v hv

theorem convertBits_inj {a b : Bytes} (h : convertBits a = convertBits b) : a = b := by
  obtain ⟨a1, a2, _⟩ := groups5_spec (a.flatMap fun x => bitsOf 8 x.toNat)
  obtain ⟨b1, b2, _⟩ := groups5_spec (b.flatMap fun x => bitsOf 8 x.toNat)
  rw [convertBits, convertBits] at h
  rw [h, b2, byteBits_length, byteBits_length] at a2
  have hl : a.length = b.length := by omega
  rw [h, b1] at a1
  exact (byteBits_inj _ _ (List.append_inj a1 (by rw [byteBits_length, byteBits_length, hl])).1).symm

/-! ## Texts -/

theorem charset_inj : ∀ v < 32, ∀ w < 32,
    (b! "qpzry9x8gf2tvdw0s3jn54khce6mua7l").getD v 0 = (b! "qpzry9x8gf2tvdw0s3jn54khce6mua7l").getD w 0 → v = w := by
  decide +kernel

theorem charset_one : ∀ v < 32, (b! "qpzry9x8gf2tvdw0s3jn54khce6mua7l").getD v 0 ≠ 49 := by decide

theorem charset_get : ∀ v < 32, bech32Charset[v]? = some ((b! "qpzry9x8gf2tvdw0s3jn54khce6mua7l").getD v 0) := by decide

theorem bech32Chars_eq : ∀ l : List Nat, (∀ v ∈ l, v < 32) →
    bech32Chars l = some (l.map fun v => (b! "qpzry9x8gf2tvdw0s3jn54khce6mua7l").getD v 0)
  | [], _ => rfl
  | v :: l, h => by
    rw [bech32Chars, charset_get v (h v (by simp)), bech32Chars_eq l fun w hw => h w (by simp [hw])]
    rfl

/-- The text before the last digit one, and the symbols after it, are determined. -/
theorem bip173Text_inj {p p' : Bytes} {l l' : List Nat} (hl : ∀ v ∈ l, v < 32) (hl' : ∀ v ∈ l', v < 32)
    (h : bip173Text p l = bip173Text p' l') : p = p' ∧ l = l' := by
  have no : ∀ m : List Nat, (∀ v ∈ m, v < 32) →
      (49 : UInt8) ∉ m.map fun v => (b! "qpzry9x8gf2tvdw0s3jn54khce6mua7l").getD v 0 := by
    intro m hm h
    obtain ⟨v, hv, e⟩ := List.mem_map.1 h
    exact charset_one v (hm v hv) e
  have map_inj : ∀ (m n : List Nat), (∀ v ∈ m, v < 32) → (∀ v ∈ n, v < 32) →
      m.map (fun v => (b! "qpzry9x8gf2tvdw0s3jn54khce6mua7l").getD v 0) =
        n.map (fun v => (b! "qpzry9x8gf2tvdw0s3jn54khce6mua7l").getD v 0) → m = n := by
    intro m
    induction m with
    | nil => intro n _ _ h; cases n <;> simp_all
    | cons v m ih =>
      intro n hm hn h
      cases n with
      | nil => simp at h
      | cons w n =>
        rw [List.map_cons, List.map_cons, List.cons.injEq] at h
        rw [charset_inj v (hm v (by simp)) w (hn w (by simp)) h.1,
          ih n (fun x hx => hm x (by simp [hx])) (fun x hx => hn x (by simp [hx])) h.2]
  have n1 := no l hl
  have n2 := no l' hl'
  unfold bip173Text at h
  rw [List.append_assoc, List.append_assoc] at h
  have key : ∀ (q q' cs cs' : Bytes), (49 : UInt8) ∉ cs → (49 : UInt8) ∉ cs' → q ++ 49 :: cs = q' ++ 49 :: cs' →
      q = q' ∧ cs = cs' := by
    intro q q' cs cs' n1 n2 h
    rcases List.append_eq_append_iff.1 h with ⟨as, e1, e2⟩ | ⟨as, e1, e2⟩
    · cases as with
      | nil => simp at e1 e2; exact ⟨e1.symm, e2⟩
      | cons a as =>
        rw [List.cons_append, List.cons.injEq] at e2
        exact absurd (by rw [e2.2]; simp) n1
    · cases as with
      | nil => simp at e1 e2; exact ⟨e1, e2.symm⟩
      | cons a as =>
        rw [List.cons_append, List.cons.injEq] at e2
        exact absurd (by rw [e2.2]; simp) n2
  obtain ⟨e1, e2⟩ := key p p' _ _ n1 n2 h
  exact ⟨e1, map_inj l l' hl hl' e2⟩

/-- **C92.** The text of a hash always exists. It has valid symbols after the prefix: those of the bits of the hash
filled up with zeros, and six more. -/
theorem C92_text (hrp hash : Bytes) : ∃ data check, bech32Text hrp hash = some (bip173Text hrp (data ++ check)) ∧
    Bip173Valid hrp (data ++ check) ∧ check.length = 6 ∧ data.length = (8 * hash.length + 4) / 5 ∧
    data.flatMap (bitsOf 5) = (hash.flatMap fun x => bitsOf 8 x.toNat) ++
      List.replicate ((5 - 8 * hash.length % 5) % 5) false := by
  obtain ⟨h1, h2, h3⟩ := groups5_spec (hash.flatMap fun x => bitsOf 8 x.toNat)
  have hv := C92_checksum hrp h3
  rw [byteBits_length] at h1 h2
  refine ⟨_, _, ?_, hv, rfl, h2, h1⟩
  rw [bech32Text, bech32Encode, convertBits, bech32Chars_eq _ hv.range]
  simp [bip173Text]

/-- **C92.** Two hashes have the same text exactly if they and the prefixes are equal. -/
theorem C92_text_iff (p p' h h' : Bytes) : bech32Text p h = bech32Text p' h' ↔ p = p' ∧ h = h' := by
  constructor
  · intro e
    have v : ∀ q x, ∀ w ∈ convertBits x ++ bech32Checksum q (convertBits x), w < 32 := fun q x =>
      (C92_checksum q (groups5_spec _).2.2).range
    have t : ∀ q x, bech32Text q x = some (bip173Text q (convertBits x ++ bech32Checksum q (convertBits x))) := by
      intro q x
      rw [bech32Text, bech32Encode, bech32Chars_eq _ (v q x)]
      simp [bip173Text]
    rw [t, t, Option.some.injEq] at e
    obtain ⟨e1, e2⟩ := bip173Text_inj (v _ _) (v _ _) e
    refine ⟨e1, convertBits_inj (List.append_inj' e2 rfl).1⟩
  · rintro ⟨rfl, rfl⟩; rfl

/-! ## Addresses -/

/-- The hash behind an address. -/
def addressHash (P : Prims) (ledger key : Bytes) : Bytes :=
  if ledger = b! "ethereum" then (P.keccak key).drop 12 else P.ripemd160 (P.sha256 key)

/-- **C92.** Two keys of any ledgers have the same address exactly if the ledgers are the same and the hashes of the
key bytes are. -/
theorem C92_address_iff {P : Prims} (hb : P.bech32 = bech32Text) (hk : ∀ x, (P.keccak x).length = 32)
    {l l' k k' a a' : Bytes} (h : addressOf P l k = .ok a) (h' : addressOf P l' k' = .ok a') :
    ∃ b b', hexDecode (if l = b! "ethereum" then k.drop 2 else k) = some b ∧
      hexDecode (if l' = b! "ethereum" then k'.drop 2 else k') = some b' ∧
      (a = a' ↔ l = l' ∧ addressHash P l b = addressHash P l' b') := by
  have key : ∀ {l k a}, addressOf P l k = .ok a → ∃ b, hexDecode (if l = b! "ethereum" then k.drop 2 else k) = some b ∧
      ((l = b! "fetchai" ∧ bech32Text (b! "fetch") (addressHash P l b) = some a) ∨
       (l = b! "cosmos" ∧ bech32Text (b! "cosmos") (addressHash P l b) = some a) ∨
       (l = b! "ethereum" ∧ eip55 P (addressHash P l b) = .ok a ∧ (addressHash P l b).length ≤ 32)) := by
    intro l k a h
    unfold addressOf at h
    have cos : ∀ pre : Bytes, cosmosAddress P pre k = .ok a → ∃ b, hexDecode k = some b ∧
        bech32Text pre (P.ripemd160 (P.sha256 b)) = some a := by
      intro pre h
      unfold cosmosAddress at h
      split at h
      · simp at h
      next b hb' =>
      rw [hb] at h
      split at h
      · simp at h
      next t ht =>
      rw [Res.ok.injEq] at h
      subst h
      exact ⟨b, hb', ht⟩
    split at h
    · next hl =>
      obtain ⟨b, h1, h2⟩ := cos _ h
      subst hl
      exact ⟨b, h1, Or.inl ⟨rfl, h2⟩⟩
    split at h
    · next hl =>
      obtain ⟨b, h1, h2⟩ := cos _ h
      subst hl
      exact ⟨b, h1, Or.inr (Or.inl ⟨rfl, h2⟩)⟩
    split at h
    · next hl =>
      unfold ethAddress at h
      split at h
      · simp at h
      split at h
      · simp at h
      next b hb' =>
      dsimp only at h
      split at h
      · simp at h
      subst hl
      refine ⟨b, hb', Or.inr (Or.inr ⟨rfl, h, ?_⟩)⟩
      show ((P.keccak b).drop 12).length ≤ 32
      rw [List.length_drop, hk]; omega
    · simp at h
  have one : ∀ {p h t}, bech32Text p h = some t → ∃ cs, t = p ++ 49 :: cs := by
    intro p h t e
    obtain ⟨d, c, e1, _⟩ := C92_text p h
    rw [e, Option.some.injEq] at e1
    exact ⟨_, by rw [e1, bip173Text, List.append_assoc]; rfl⟩
  have zero : ∀ {x t}, x.length ≤ 32 → eip55 P x = .ok t → ∃ r, t = 48 :: 120 :: r := by
    intro x t hx e
    obtain ⟨r, e1, _⟩ := C44_case_only P hk x hx
    rw [e, Res.ok.injEq] at e1
    exact ⟨r, e1⟩
  obtain ⟨b, hb1, hcase⟩ := key h
  obtain ⟨b', hb1', hcase'⟩ := key h'
  refine ⟨b, b', hb1, hb1', ?_⟩
  rcases hcase with ⟨rfl, e⟩ | ⟨rfl, e⟩ | ⟨rfl, e, el⟩ <;> rcases hcase' with ⟨rfl, e'⟩ | ⟨rfl, e'⟩ | ⟨rfl, e', el'⟩
  · have := C92_text_iff (b! "fetch") (b! "fetch") (addressHash P (b! "fetchai") b) (addressHash P (b! "fetchai") b')
    rw [e, e'] at this
    simpa using this
  · obtain ⟨cs, rfl⟩ := one e
    obtain ⟨cs', rfl⟩ := one e'
    simp
  · obtain ⟨cs, rfl⟩ := one e
    obtain ⟨cs', rfl⟩ := zero el' e'
    simp
  · obtain ⟨cs, rfl⟩ := one e
    obtain ⟨cs', rfl⟩ := one e'
    simp
  · have := C92_text_iff (b! "cosmos") (b! "cosmos") (addressHash P (b! "cosmos") b) (addressHash P (b! "cosmos") b')
    rw [e, e'] at this
    simpa using this
  · obtain ⟨cs, rfl⟩ := one e
    obtain ⟨cs', rfl⟩ := zero el' e'
    simp
  · obtain ⟨cs, rfl⟩ := zero el e
    obtain ⟨cs', rfl⟩ := one e'
    simp
  · obtain ⟨cs, rfl⟩ := zero el e
    obtain ⟨cs', rfl⟩ := one e'
    simp
  · have := C44_injective P hk _ _ el el'
    rw [e, e', Res.ok.injEq] at this
    simpa using this

/-- **C92.** A content id has 34 bytes, and two addresses have the same exactly if their hashes are the same. -/
theorem C92_cid (a b : Bytes) : (computeCid a = computeCid b ↔ sha256 a = sha256 b) ∧
    ∃ h, computeCid a = 0x12 :: 0x20 :: h ∧ h = sha256 a := by
  refine ⟨?_, _, rfl, rfl⟩
  simp [computeCid]

namespace AddressesDemo

/-- Four symbols and six of the checksum. -/
example : bech32Text (b! "fetch") [1, 2] = some (b! "fetch1qypq5nvnft") := by decide +kernel
example : (bech32Text (b! "cosmos") (List.replicate 20 0)).map List.length = some 45 := by decide +kernel
example : bip173Polymod ([3, 3, 3, 3, 3] ++ [0] ++ [6, 5, 20, 3, 8] ++ [0, 4, 1, 0] ++ bech32Checksum (b! "fetch") [0, 4, 1, 0]) = 1 := by
  decide +kernel

end AddressesDemo

end Verif
