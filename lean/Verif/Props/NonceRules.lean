import Verif.Props.GoPrims

/-!
# C91: the nonce is that of RFC 6979

Specification: HMAC by RFC 2104, section 2, and the sequence of candidates by RFC 6979, section 3.2, for SHA-256 and
the order of secp256k1.
-/

namespace Verif

/-! ## Specification -/

/-- The key of RFC 2104: one that is too long is hashed, one that is short is followed by zeros. -/
def rfcKeyByte (key : Bytes) (i : Nat) : UInt8 := if key.length ≤ 64 then key.getD i 0 else (sha256 key).getD i 0

/-- HMAC of RFC 2104: `H(K XOR opad, H(K XOR ipad, text))`. -/
def rfcHmac (key text : Bytes) : Bytes :=
  sha256 ((List.range 64).map (fun i => rfcKeyByte key i ^^^ 0x5c) ++
    sha256 ((List.range 64).map (fun i => rfcKeyByte key i ^^^ 0x36) ++ text))

/-- `int2octets(x) || bits2octets(h1)` -/
def rfcSeed (d : Nat) (hash : Bytes) : Bytes := natBE 32 d ++ natBE 32 (beNat (hash.take 32) % curveN)

/-- The values of `K` and `V` of section 3.2 before the candidate with this number, steps b to g and step h.3. -/
def rfcState (d : Nat) (hash : Bytes) : Nat → Bytes × Bytes
  | 0 =>
    let k1 := rfcHmac (List.replicate 32 0x00) (List.replicate 32 0x01 ++ [0x00] ++ rfcSeed d hash)
    let v1 := rfcHmac k1 (List.replicate 32 0x01)
    let k2 := rfcHmac k1 (v1 ++ [0x01] ++ rfcSeed d hash)
    (k2, rfcHmac k2 v1)
  | i + 1 =>
    let (k, v) := rfcState d hash i
    let t := rfcHmac k v
    let k' := rfcHmac k (t ++ [0x00])
    (k', rfcHmac k' t)

/-- The candidates, step h.2. -/
def rfcCandidate (d : Nat) (hash : Bytes) (i : Nat) : Nat :=
  beNat (rfcHmac (rfcState d hash i).1 (rfcState d hash i).2)

/-! ## The theorem -/

theorem block_eq (k : Bytes) (h : k.length ≤ 64) (m : UInt8) :
    (k ++ List.replicate (64 - k.length) 0).map (· ^^^ m) = (List.range 64).map fun i => k.getD i 0 ^^^ m := by
  apply List.ext_getElem
  · simp; omega
  · intro i h1 h2
    simp only [List.length_map, List.length_range] at h2
    simp only [List.getElem_map, List.getElem_range]
    congr 1
    by_cases hi : i < k.length
    · rw [List.getElem_append_left hi, List.getD_eq_getElem _ _ hi]
    · rw [List.getElem_append_right (by omega), List.getElem_replicate, List.getD_eq_default _ _ (by omega)]

/-- **C91.** The HMAC is that of RFC 2104. -/
theorem C91_hmac (key message : Bytes) : hmacSha256 key message = rfcHmac key message := by
  unfold hmacSha256 rfcHmac rfcKeyByte
  dsimp only
  by_cases h : 64 < key.length
  · have h' : ¬ key.length ≤ 64 := by omega
    simp only [if_pos h, if_neg h']
    rw [block_eq _ (by rw [(C91_hash_length key).1]; omega), block_eq _ (by rw [(C91_hash_length key).1]; omega)]
  · have h' : key.length ≤ 64 := by omega
    simp only [if_neg h, if_pos h']
    rw [block_eq _ h', block_eq _ h']

theorem bits2octets_eq (hash : Bytes) : bits2octets hash = natBE 32 (beNat (hash.take 32) % curveN) := by
  unfold bits2octets hashToInt
  dsimp only
  have hlt : beNat (hash.take 32) < 256 ^ 32 :=
    lt_of_lt_of_le (beNat_lt _ (hash.take 32) rfl) (Nat.pow_le_pow_right (by omega) (by simp))
  have h2 : 256 ^ 32 < 2 * curveN := by decide +kernel
  congr 1
  generalize beNat (hash.take 32) = z at *
  generalize (256 : Nat) ^ 32 = B at *
  generalize curveN = q at *
  split
  · next h => exact (Nat.mod_eq_of_lt h).symm
  · next h => rw [Nat.mod_eq_sub_mod (by omega), Nat.mod_eq_of_lt (by omega)]

theorem rfcState_succ (d : Nat) (hash : Bytes) (i : Nat) :
    rfcState d hash (i + 1) =
      (rfcHmac (rfcState d hash i).1 (rfcHmac (rfcState d hash i).1 (rfcState d hash i).2 ++ [0x00]),
       rfcHmac (rfcHmac (rfcState d hash i).1 (rfcHmac (rfcState d hash i).1 (rfcState d hash i).2 ++ [0x00]))
         (rfcHmac (rfcState d hash i).1 (rfcState d hash i).2)) := rfl

theorem nonceLoop_iff (d : Nat) (hash : Bytes) (n : Nat) : ∀ (fuel j : Nat),
    nonceLoop fuel (rfcState d hash j).1 (rfcState d hash j).2 = some n ↔
      ∃ i, j ≤ i ∧ i < j + fuel ∧ rfcCandidate d hash i = n ∧ (1 ≤ n ∧ n < curveN) ∧
        ∀ l, j ≤ l → l < i → ¬ (1 ≤ rfcCandidate d hash l ∧ rfcCandidate d hash l < curveN)
  | 0, j => by
    simp only [nonceLoop]
    constructor
    · intro h; simp at h
    · rintro ⟨i, h1, h2, -⟩; omega
  | fuel + 1, j => by
    have ih := nonceLoop_iff d hash n fuel (j + 1)
    rw [rfcState_succ] at ih
    rw [nonceLoop]
    simp only [C91_hmac]
    have hc : beNat (rfcHmac (rfcState d hash j).1 (rfcState d hash j).2) = rfcCandidate d hash j := rfl
    rw [hc]
    by_cases h : 1 ≤ rfcCandidate d hash j ∧ rfcCandidate d hash j < curveN
    · rw [if_pos h]
      constructor
      · intro he
        obtain rfl := Option.some.inj he
        exact ⟨j, le_refl _, by omega, rfl, h, fun l h1 h2 => absurd h1 (by omega)⟩
      · rintro ⟨i, h1, h2, h3, h4, h5⟩
        rcases Nat.lt_or_ge j i with hji | hji
        · exact absurd h (h5 j (le_refl _) hji)
        · obtain rfl : i = j := by omega
          rw [h3]
    · rw [if_neg h, ih]
      constructor
      · rintro ⟨i, h1, h2, h3, h4, h5⟩
        refine ⟨i, by omega, by omega, h3, h4, fun l hl1 hl2 => ?_⟩
        rcases Nat.lt_or_ge j l with hjl | hjl
        · exact h5 l hjl hl2
        · obtain rfl : l = j := by omega
          exact h
      · rintro ⟨i, h1, h2, h3, h4, h5⟩
        rcases Nat.lt_or_ge j i with hji | hji
        · exact ⟨i, hji, by omega, h3, h4, fun l hl1 hl2 => h5 l (by omega) hl2⟩
        · obtain rfl : i = j := by omega
          exact absurd (h3 ▸ h4) h

/-- **C91.** The nonce is that of RFC 6979: the first candidate between one and the order, if it is among the first
`fuel` ones. -/
theorem C91_rfc6979 (fuel d n : Nat) (hash : Bytes) :
    rfcNonce fuel d hash = some n ↔
      ∃ i < fuel, rfcCandidate d hash i = n ∧ (1 ≤ n ∧ n < curveN) ∧
        ∀ l < i, ¬ (1 ≤ rfcCandidate d hash l ∧ rfcCandidate d hash l < curveN) := by
  have e : rfcNonce fuel d hash = nonceLoop fuel (rfcState d hash 0).1 (rfcState d hash 0).2 := by
    unfold rfcNonce
    simp only [C91_hmac, bits2octets_eq, rfcState, rfcSeed, List.append_assoc, List.cons_append, List.nil_append]
  rw [e, nonceLoop_iff]
  constructor
  · rintro ⟨i, -, h2, h3, h4, h5⟩
    exact ⟨i, by omega, h3, h4, fun l hl => h5 l (by omega) hl⟩
  · rintro ⟨i, h2, h3, h4, h5⟩
    exact ⟨i, by omega, by omega, h3, h4, fun l _ hl => h5 l hl⟩

/-- The first value of RFC 4231, section 4.2: the key is twenty times 0x0b, the text is "Hi There". -/
example : hmacSha256 (List.replicate 20 0x0b) (b! "Hi There") =
    [0xb0, 0x34, 0x4c, 0x61, 0xd8, 0xdb, 0x38, 0x53, 0x5c, 0xa8, 0xaf, 0xce, 0xaf, 0x0b, 0xf1, 0x2b,
     0x88, 0x1d, 0xc2, 0x00, 0xc9, 0x83, 0x3d, 0xa7, 0x26, 0xe9, 0x37, 0x6c, 0x2e, 0x32, 0xcf, 0xf7] := by
  decide +kernel

end Verif
