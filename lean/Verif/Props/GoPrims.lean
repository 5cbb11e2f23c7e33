import Verif.Model.Nonce
import Verif.Props.TextCodes
import Verif.Props.Addresses

/-!
# C91: signing and checking with the primitives written out
-/

namespace Verif

/-! ## Hashes -/

theorem wordsTo_length {write : Nat → Bytes} {n : Nat} (h : ∀ w, (write w).length = n) :
    ∀ (k : Nat) (l : List Nat), (wordsTo write k l).length = k * n
  | 0, _ => by simp [wordsTo]
  | k + 1, l => by rw [wordsTo, List.length_append, h, wordsTo_length h k, Nat.succ_mul]; omega

theorem natLE_length : ∀ (k n : Nat), (natLE k n).length = k
  | 0, _ => rfl
  | k + 1, n => by rw [natLE, List.length_cons, natLE_length k]

/-- **C91.** The hashes have 32, 20 and 32 bytes. -/
theorem C91_hash_length (b : Bytes) : (sha256 b).length = 32 ∧ (ripemd160 b).length = 20 ∧ (keccak256 b).length = 32 :=
  ⟨wordsTo_length (natBE_length 4) 8 _, wordsTo_length (natLE_length 4) 5 _, wordsTo_length (natLE_length 8) 4 _⟩

/-! ## Primitives -/

/-- **C91.** The primitives that are written out have the properties the other theorems ask for. -/
theorem C91_prims (strictX : Bool) : CurvePrims strictX (goPrims strictX) ∧ EthPrims (goPrims strictX) := by
  refine ⟨⟨fun _ => rfl, fun h r s b q hq => by simp [goPrims, hq]⟩, ⟨?_, fun b => (C91_hash_length b).2.2⟩⟩
  intro m sb
  unfold ethRecoverText keyAddress eip55
  show (match recoverKey (hashToInt (keccak256 (ethMessage m))) sb with
    | none => none
    | some q => _) = match recoverKey (hashToInt (keccak256 (ethMessage m))) sb with
    | none => none
    | some q => _
  cases recoverKey (hashToInt (keccak256 (ethMessage m))) sb with
  | none => rfl
  | some q =>
    show (match eip55Aux (keccak256 (hexEncode ((keccak256 (natBE 32 q.x ++ natBE 32 q.y)).drop 12))) 0
        (hexEncode ((keccak256 (natBE 32 q.x ++ natBE 32 q.y)).drop 12)) with
      | .ok r => some ([48, 120] ++ r)
      | _ => none) = match (eip55Aux (keccak256 (hexEncode ((keccak256 (natBE 32 q.x ++ natBE 32 q.y)).drop 12))) 0
        (hexEncode ((keccak256 (natBE 32 q.x ++ natBE 32 q.y)).drop 12))).bind fun r => .ok ([48, 120] ++ r) with
      | .ok a => some a
      | _ => none
    cases eip55Aux (keccak256 (hexEncode ((keccak256 (natBE 32 q.x ++ natBE 32 q.y)).drop 12))) 0
        (hexEncode ((keccak256 (natBE 32 q.x ++ natBE 32 q.y)).drop 12)) <;> rfl

/-! ## Nonces -/

theorem nonceLoop_range : ∀ (fuel : Nat) (k v : Bytes) (n : Nat), nonceLoop fuel k v = some n → 1 ≤ n ∧ n < curveN
  | 0, _, _, _, h => by simp [nonceLoop] at h
  | fuel + 1, k, v, n, h => by
    rw [nonceLoop] at h
    dsimp only at h
    split at h
    · next hr =>
      rw [Option.some.injEq] at h
      rw [← h]; exact hr
    · exact nonceLoop_range fuel _ _ n h

/-- The nonce of `SignFetchAI` once the loop has ended within `fuel` rounds; one before. -/
def goNonce (fuel d : Nat) (hash : Bytes) : Nat := (rfcNonce fuel d hash).getD 1

theorem goNonce_ne (fuel d : Nat) (hash : Bytes) : goNonce fuel d hash % curveN ≠ 0 := by
  have hN : 1 < curveN := curveN_prime.one_lt
  unfold goNonce
  cases h : rfcNonce fuel d hash with
  | none => simp [Nat.mod_eq_of_lt hN]
  | some n =>
    obtain ⟨h1, h2⟩ := nonceLoop_range _ _ _ _ h
    rw [Option.getD_some, Nat.mod_eq_of_lt h2]
    omega

theorem nonceLoop_more : ∀ (fuel : Nat) (k v : Bytes) (n : Nat), nonceLoop fuel k v = some n →
    ∀ more, nonceLoop (fuel + more) k v = some n
  | 0, _, _, _, h, _ => by simp [nonceLoop] at h
  | fuel + 1, k, v, n, h, more => by
    rw [show fuel + 1 + more = fuel + more + 1 by omega, nonceLoop]
    rw [nonceLoop] at h
    dsimp only at h ⊢
    split at h
    · next hr => rw [if_pos hr]; exact h
    · next hr => rw [if_neg hr]; exact nonceLoop_more fuel _ _ n h more

/-- **C91.** A nonce is between one and the order, and more rounds change nothing. -/
theorem C91_nonce {fuel d n : Nat} {hash : Bytes} (h : rfcNonce fuel d hash = some n) :
    (1 ≤ n ∧ n < curveN) ∧ ∀ more, rfcNonce (fuel + more) d hash = some n :=
  ⟨nonceLoop_range _ _ _ _ h, nonceLoop_more _ _ _ _ h⟩

/-! ## Signing and checking -/

/-- `SignFetchAI` with all primitives written out. -/
def goSign (fuel : Nat) (message key : Bytes) : Option Bytes :=
  signFetchAI (keySign sha256 (goNonce fuel)) base64Encode message key

/-- **C91, partial.** What `SignFetchAI` makes is the text of two numbers that the public key accepts. If they are
balanced, the text is accepted under the text of the public key; `VerifyFetchAISignatureLibp2p` accepts it exactly if
their highest bits are clear as well. Missing: the numbers that are not balanced, which are read as others. -/
theorem C91_sign_partial (strictX : Bool) (fuel : Nat) {key b message text pub : Bytes} (hk : hexDecode key = some b)
    (hd : beNat b % curveN ≠ 0) (hpub : publicTextOf key = some pub) (ht : goSign fuel message key = some text) :
    ∃ r s, base64Decode text = some (bytesOfNat r ++ bytesOfNat s) ∧
      SignatureOf (beNat b • pointG) (hashToInt (sha256 message)) r s ∧ s ≤ curveN / 2 ∧
      (Balanced r s → verifyFetchAI (goPrims strictX) message text pub = .ok true ∧
        (TopClear r ∧ TopClear s → verifyFetchAILibp2p strictX (goPrims strictX) message text pub = some true) ∧
        (¬ (TopClear r ∧ TopClear s) → verifyFetchAILibp2p strictX (goPrims strictX) message text pub = none)) := by
  obtain ⟨r, s, hs, rfl⟩ := (signFetchAI_text sha256 (goNonce fuel) (goNonce_ne fuel) base64Encode hk).1 ht
  obtain ⟨hsig, hlow⟩ := C89_signed (goNonce_ne fuel _ _) hs
  refine ⟨r, s, C91_base64_roundtrip _, hsig, hlow, fun hb => ?_⟩
  obtain ⟨r1, s1, _, h1, _, h2, _⟩ := C89_sign_verify_partial strictX (C91_prims strictX).1 (goNonce fuel)
    (goNonce_ne fuel) base64Encode C91_base64_roundtrip hk hd hpub ht
  obtain ⟨r2, s2, _, h3, h4⟩ := C89_libp2p_text_partial strictX (P := goPrims strictX) (goNonce fuel) (goNonce_ne fuel)
    base64Encode C91_base64_roundtrip hk hd hpub ht
  obtain ⟨rfl, rfl⟩ := Prod.mk.inj (Option.some.inj (hs.symm.trans h1))
  obtain ⟨rfl, rfl⟩ := Prod.mk.inj (Option.some.inj (hs.symm.trans h3))
  exact ⟨h2 hb, h4 hb⟩

/-- **C91.** The text of a signature is not the only one: whatever decodes to the same bytes is treated the same, and
for the 64 bytes of an ordinary signature there are sixteen such texts without ends of lines. -/
theorem C91_texts (strictX : Bool) (message pub : Bytes) {t b : Bytes} (h : base64Decode t = some b) :
    (∀ t', (∃ k < base64Unused b, (t'.filter fun c => c ≠ 10 ∧ c ≠ 13) = base64With k b) →
      verifyFetchAI (goPrims strictX) message t' pub = verifyFetchAI (goPrims strictX) message t pub ∧
      verifyFetchAILibp2p strictX (goPrims strictX) message t' pub =
        verifyFetchAILibp2p strictX (goPrims strictX) message t pub) ∧
    (b.length = 64 → base64Unused b = 16) ∧
    ∀ k < base64Unused b, ∀ k' < base64Unused b, base64With k b = base64With k' b → b.length % 3 = 0 ∨ k = k' := by
  refine ⟨?_, ?_, ?_⟩
  · intro t' ht'
    have h' := (C91_base64_iff t' b).2 ht'
    have e : (goPrims strictX).base64 t' = (goPrims strictX).base64 t := h'.trans h.symm
    refine ⟨?_, ?_⟩
    · unfold verifyFetchAI
      rw [e]
    · unfold verifyFetchAILibp2p
      rw [e]
  · intro hl
    simp [base64Unused, hl]
  · have inj : ∀ v < 64, ∀ w < 64, base64Char v = base64Char w → v = w := by
      intro v hv w hw e
      have := base64Val_char v hv
      rw [e, base64Val_char w hw] at this
      exact (Option.some.inj this).symm
    clear h
    induction b using base64With.induct with
    | case1 => intros; left; rfl
    | case2 a =>
      intro k hk k' hk' e
      rw [base64Unused_one] at hk hk'
      have ha := a.toNat_lt
      simp only [base64With, List.cons.injEq, true_and, and_true] at e
      have := inj _ (by omega) _ (by omega) e
      omega
    | case3 a b =>
      intro k hk k' hk' e
      rw [base64Unused_two] at hk hk'
      have hb := b.toNat_lt
      simp only [base64With, List.cons.injEq, true_and, and_true] at e
      have := inj _ (by omega) _ (by omega) e
      omega
    | case4 a b c rest ih =>
      intro k hk k' hk' e
      rw [base64Unused_more] at hk hk'
      simp only [base64With, List.cons.injEq, true_and] at e
      rcases ih k hk k' hk' e with h | h
      · left; simp only [List.length_cons]; omega
      · exact .inr h

/-! ## The cases of the repository's own tests -/

end Verif
