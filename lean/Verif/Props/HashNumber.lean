import Verif.Props.GoPrims
import Verif.Props.PeerIdText

/-!
# C89 and C91: the number that is signed
-/

namespace Verif

/-- Keys that were read strictly are points. -/
theorem parsed_valid {b : Bytes} {q : CurveKey} (h : parsePubKey true b = some q) : ValidKey q := by
  rcases (C88_parse_iff true b q).1 h with ⟨xs, _, _, _, h1, h2, h3⟩ | ⟨_, _, _, _, _, _, _, _, _, h1⟩
  · exact ⟨h1 rfl, h2, h3⟩
  · exact h1

theorem beNat_bigEndian (b : Bytes) : beNat b = bigEndian b := by
  induction b using List.reverseRecOn with
  | nil => rfl
  | append_singleton b x ih =>
    rw [beNat_append, ih]
    clear ih
    induction b with
    | nil => simp [bigEndian]
    | cons c b ih =>
      simp only [List.cons_append, bigEndian, List.length_append, List.length_singleton, ← ih]
      ring

/-- **C89.** The number of a hash is the number its bytes are, without the bytes after the first 32. -/
theorem C89_hash_number (h : Bytes) : hashToInt h = bigEndian h / 256 ^ (h.length - 32) := by
  obtain ⟨h1, h2⟩ := beNat_cons_bounds (h.take 32) (h.drop 32)
  rw [List.take_append_drop, List.length_drop] at h1 h2
  have hp : 0 < 256 ^ (h.length - 32) := Nat.pow_pos (by omega)
  rw [← beNat_bigEndian]
  unfold hashToInt
  refine (Nat.div_eq_of_lt_le ?_ ?_).symm
  · exact h1
  · exact h2

/-- **C91.** The number that is signed for a message is the number that its SHA-256 is. -/
theorem hashToInt_sha256 (m : Bytes) : hashToInt (sha256 m) = bigEndian (sha256 m) := by
  rw [C89_hash_number, (C91_hash_length m).1, Nat.sub_self, Nat.pow_zero, Nat.div_one]

/-- **C91.** A fetchai or cosmos signature is accepted exactly if it is the base 64 text of two numbers of equal length
(the second may be one byte longer) that are a signature of the SHA-256 of the message under the point whose bytes the
public key is in hexadecimal. Signatures of up to 249 bytes. -/
theorem C91_fetchai_iff (message signature pubKey : Bytes)
    (hlen : ∀ sb, base64Decode signature = some sb → sb.length ≤ 249) :
    verifyFetchAI (goPrims true) message signature pubKey = .ok true ↔
      ∃ k a b q, hexDecode pubKey = some k ∧ parsePubKey true k = some q ∧ base64Decode signature = some (a ++ b) ∧
        (b.length = a.length ∨ b.length = a.length + 1) ∧
        ∃ hq : ValidKey q, SignatureOf (keyPoint hq) (bigEndian (sha256 message)) (bigEndian a) (bigEndian b) := by
  rw [C61_fetchai_signature (goPrims true) message signature pubKey hlen]
  constructor
  · rintro ⟨k, a, b, h1, h2, h3, h4, _, _, _, _, h5⟩
    cases hq : parsePubKey true k with
    | none => simp [goPrims, hq] at h2
    | some q =>
      simp only [goPrims, hq] at h5
      rw [hashToInt_sha256] at h5
      exact ⟨k, a, b, q, h1, hq, h3, h4, parsed_valid hq, (C89_verify_iff _ _ _ _).1 h5⟩
  · rintro ⟨k, a, b, q, h1, h2, h3, h4, hq, h5⟩
    refine ⟨k, a, b, h1, by simp [goPrims, h2], h3, h4, h5.1.1, h5.1.2, h5.2.1.1, h5.2.1.2, ?_⟩
    simp only [goPrims, h2]
    rw [hashToInt_sha256]
    exact (C89_verify_iff hq _ _ _).2 h5

/-- **C91.** An ethereum signature is accepted exactly if it is the hexadecimal text, after `0x`, of 65 bytes: two numbers
that are a signature, of the Keccak-256 of the message after its prefix and length, under a point whose coordinates
have the address of the key text, and 27 or 28, which says which of the two points belongs to the first number. -/
theorem C91_ethereum_iff (message signature pubKey : Bytes) :
    verifyEth (goPrims true) message signature pubKey = .ok true ↔
    ∃ c1 c2 key kb x t rb sb v q, ∃ hq : ValidKey q, pubKey = c1 :: c2 :: key ∧ hexDecode key = some kb ∧
      signature = 48 :: x :: t ∧ (x = 120 ∨ x = 88) ∧ rb.length = 32 ∧ sb.length = 32 ∧
      hexDecode t = some (rb ++ (sb ++ [v])) ∧ (v = 27 ∨ v = 28) ∧
      RecoverableSig (keyPoint hq) (bigEndian (keccak256 (25 :: (b! "Ethereum Signed Message:" ++ [10] ++
        ((Nat.toDigits 10 message.length).map fun c => UInt8.ofNat c.toNat) ++ message))))
        (bigEndian rb) (bigEndian sb) false (v.toNat - 27) ∧
      (keccak256 kb).drop 12 = (keccak256 (natBE 32 q.x ++ natBE 32 q.y)).drop 12 := by
  have hn : hashToInt (keccak256 (ethMessage message)) =
      bigEndian (keccak256 (25 :: (b! "Ethereum Signed Message:" ++ [10] ++
        ((Nat.toDigits 10 message.length).map fun c => UInt8.ofNat c.toNat) ++ message))) := by
    rw [C89_hash_number, (C91_hash_length _).2.2, Nat.sub_self, Nat.pow_zero, Nat.div_one]
    rfl
  rw [C90_accepts_iff (C91_prims true).2]
  simp only [beNat_bigEndian]
  rw [← hn]
  rfl

end Verif
