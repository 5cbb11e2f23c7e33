import Verif.Props.Ecdsa

/-!
# C89: signatures as bytes and as text
-/

namespace Verif

theorem bytesOfNat_zero : bytesOfNat 0 = [] := rfl

theorem bytesOfNat_head {n : Nat} {b : UInt8} {rest : Bytes} (h : bytesOfNat n = b :: rest) : b ≠ 0 := by
  rintro rfl
  have hn : n ≠ 0 := by
    rintro rfl
    rw [bytesOfNat_zero] at h
    simp at h
  have h1 : 256 ^ ((bytesOfNat n).length - 1) ≤ n := ((bytesOfNatAux_length (Nat.le_refl n)).2 hn).1
  have h2 := natOfBytes_bytesOfNat n
  rw [h] at h1 h2
  have h3 : natOfBytes (0 :: rest) = natOfBytes rest := by
    simp [natOfBytes]
  rw [h3] at h2
  have h4 := natOfBytes_lt rest
  simp only [List.length_cons, Nat.add_sub_cancel] at h1
  omega

theorem natOfBytes_zero_cons (b : Bytes) : natOfBytes (0 :: b) = natOfBytes b := by
  simp [natOfBytes]

theorem canonicalInt_spec {n : Nat} (hn : n ≠ 0) :
    canonicalPadding (canonicalInt n) = true ∧ natOfBytes (canonicalInt n) = n ∧ canonicalInt n ≠ [] ∧
    (canonicalInt n).length ≤ byteLen n + 1 := by
  have hp := byteLen_pos hn
  unfold byteLen at *
  unfold canonicalInt
  have h2 := natOfBytes_bytesOfNat n
  cases hb : bytesOfNat n with
  | nil => rw [hb] at hp; simp at hp
  | cons b rest =>
    have h0 := bytesOfNat_head hb
    rw [hb] at h2
    dsimp only
    by_cases h : 128 ≤ b
    · rw [if_pos h]
      refine ⟨?_, by rw [natOfBytes_zero_cons, h2], by simp, by simp⟩
      have : ¬ b < 128 := by rw [UInt8.not_lt]; exact h
      simp [canonicalPadding, this]
    · rw [if_neg h]
      refine ⟨?_, h2, by simp, by simp⟩
      cases rest with
      | nil => simp [canonicalPadding]; exact UInt8.not_le.1 h
      | cons c rest =>
        simp only [canonicalPadding, if_neg h]
        simp [h0]

theorem curveN_lt : curveN < 256 ^ 32 := by decide +kernel

/-- **C89.** The bytes of a signature are read back as its numbers. -/
theorem C89_der {r s : Nat} (hr : 0 < r ∧ r < curveN) (hs : 0 < s ∧ s ≤ curveN / 2) :
    parseSig true (serializeSig r s) = some (r, s) := by
  have hN := curveN_lt
  obtain ⟨a1, a2, a3, a4⟩ := canonicalInt_spec (n := r) (by omega)
  obtain ⟨b1, b2, b3, b4⟩ := canonicalInt_spec (n := s) (by omega)
  have lr := byteLen_le (n := r) (k := 32) (by omega)
  have ls := byteLen_le (n := s) (k := 32) (by omega)
  have u : ∀ k, k < 256 → (k.toUInt8).toNat = k := by
    intro k hk
    rw [Nat.toUInt8, UInt8.toNat_ofNat', Nat.mod_eq_of_lt hk]
  rw [parseSig_some_iff]
  refine ⟨canonicalInt r, canonicalInt s, [], _, _, _, ?_, u _ (by omega), ?_, u _ (by omega), u _ (by omega), a3, b3,
    fun _ => ⟨a1, b1⟩, a2.symm, b2.symm, by omega, by omega, hr.2, by omega⟩
  · simp only [serializeSig]
    rw [if_neg (by omega)]
    simp
  · rw [u _ (by omega)]; omega

/-- **C89.** A signature that a libp2p key makes is accepted by its public key, whatever the message, the hash
function and the nonces in range; a key that is a multiple of the order has no public key. -/
theorem C89_libp2p (sha256 : Bytes → Bytes) (nonce : Nat → Bytes → Nat)
    (hn : ∀ d h, nonce d h % curveN ≠ 0) {d : Nat} (hd : d % curveN ≠ 0) {message sig : Bytes}
    (h : libp2pSign sha256 nonce d message = some sig) :
    libp2pVerify sha256 (publicOf d) message sig = some true := by
  unfold libp2pSign at h
  rw [Option.map_eq_some_iff] at h
  obtain ⟨⟨r, s⟩, h1, h2⟩ := h
  dsimp only at h2
  subst h2
  obtain ⟨hsig, hlow⟩ := C89_signed (hn _ _) h1
  obtain ⟨hv, hp⟩ := (C89_public d).1 hd
  have hr := hsig.1
  have hs := hsig.2.1
  unfold libp2pVerify
  rw [C89_der hr ⟨hs.1, hlow⟩]
  dsimp only
  rw [(C89_verify_iff hv _ _ _).2 (by rw [hp]; exact hsig)]

/-- What `SignFetchAI` writes. -/
theorem signFetchAI_text (sha256 : Bytes → Bytes) (nonce : Nat → Bytes → Nat)
    (hn : ∀ d h, nonce d h % curveN ≠ 0) (enc : Bytes → Bytes) {key b message text : Bytes}
    (hk : hexDecode key = some b) :
    signFetchAI (keySign sha256 nonce) enc message key = some text ↔
    ∃ r s, ecdsaSign (nonce (beNat b) (sha256 message)) (beNat b) (hashToInt (sha256 message)) = some (r, s) ∧
      text = enc (bytesOfNat r ++ bytesOfNat s) := by
  simp only [signFetchAI, keySign, keyPairOf, hk, libp2pSign]
  cases hs : ecdsaSign (nonce (beNat b) (sha256 message)) (beNat b) (hashToInt (sha256 message)) with
  | none => simp
  | some p =>
    obtain ⟨r, s⟩ := p
    obtain ⟨hsig, hlow⟩ := C89_signed (hn _ _) hs
    simp only [Option.map_some, Option.bind_some, derToStr, C89_der hsig.1 ⟨hsig.2.1.1, hlow⟩, Option.some.injEq,
      Prod.mk.injEq]
    constructor
    · intro h; exact ⟨r, s, ⟨rfl, rfl⟩, h.symm⟩
    · rintro ⟨_, _, ⟨rfl, rfl⟩, h⟩; exact h.symm

/-- **C89, partial.** What `SignFetchAI` signs with a private key, `VerifyFetchAISignatureBTC` accepts under the text
of its public key, if the two numbers are balanced. Missing: the others. -/
theorem C89_sign_verify_partial (strictX : Bool) {P : Prims} (hP : CurvePrims strictX P)
    (nonce : Nat → Bytes → Nat) (hn : ∀ d h, nonce d h % curveN ≠ 0) (enc : Bytes → Bytes)
    (henc : ∀ x, P.base64 (enc x) = some x) {key b message text pub : Bytes} (hk : hexDecode key = some b)
    (hd : beNat b % curveN ≠ 0) (hpub : publicTextOf key = some pub)
    (ht : signFetchAI (keySign P.sha256 nonce) enc message key = some text) :
    ∃ r s, text = enc (bytesOfNat r ++ bytesOfNat s) ∧
      ecdsaSign (nonce (beNat b) (P.sha256 message)) (beNat b) (hashToInt (P.sha256 message)) = some (r, s) ∧
      ecdsaVerify (publicOf (beNat b)) (hashToInt (P.sha256 message)) r s = true ∧
      (Balanced r s → verifyFetchAI P message text pub = .ok true) ∧
      (¬ Balanced r s → verifyFetchAI P message text pub = .err () ∨
        ∃ r' s', (r', s') ≠ (r, s) ∧ parseSig false (strToDer (bytesOfNat r ++ bytesOfNat s)) = some (r', s') ∧
          verifyFetchAI P message text pub =
            .ok (ecdsaVerify (publicOf (beNat b)) (hashToInt (P.sha256 message)) r' s')) := by
  obtain ⟨r, s, hs, rfl⟩ := (signFetchAI_text P.sha256 nonce hn enc hk).1 ht
  obtain ⟨hsig, hlow⟩ := C89_signed (hn _ _) hs
  obtain ⟨hv, hp⟩ := (C89_public _).1 hd
  have hver : ecdsaVerify (publicOf (beNat b)) (hashToInt (P.sha256 message)) r s = true :=
    (C89_verify_iff hv _ _ _).2 (by rw [hp]; exact hsig)
  have hder := C89_der hsig.1 ⟨hsig.2.1.1, hlow⟩
  have hstr : derToStr (serializeSig r s) = some (bytesOfNat r ++ bytesOfNat s) := by
    simp [derToStr, hder]
  have hpt : pub = hexEncode (compressedKey (publicOf (beNat b))) := by
    rw [publicTextOf, hk] at hpub
    exact (Option.some.inj hpub).symm
  have hparse := (C88_bytes_roundtrip strictX hv).1
  have hred : verifyFetchAI P message (enc (bytesOfNat r ++ bytesOfNat s)) pub =
      match parseSig false (strToDer (bytesOfNat r ++ bytesOfNat s)) with
      | none => .err ()
      | some (r, s) => .ok (ecdsaVerify (publicOf (beNat b)) (hashToInt (P.sha256 message)) r s) := by
    unfold verifyFetchAI
    rw [hpt, hexDecode_hexEncode]
    dsimp only
    rw [hP.keyOk, hparse, henc]
    dsimp only
    simp only [Option.isSome_some, Bool.not_true, Bool.false_eq_true, if_false]
    split
    · next h => rw [h]
    · next r' s' h => rw [h, hP.ecdsa _ _ _ _ _ hparse]
  refine ⟨r, s, rfl, hs, hver, ?_, ?_⟩
  · intro hb
    obtain ⟨t, h1, h2⟩ := (C43_round_trip_iff_partial hder).2 hb
    rw [hstr] at h1
    rw [hred, Option.some.inj h1, h2]
    dsimp only
    rw [hver]
  · intro hb
    rw [hred]
    cases hq : parseSig false (strToDer (bytesOfNat r ++ bytesOfNat s)) with
    | none => exact .inl rfl
    | some p =>
      obtain ⟨r', s'⟩ := p
      refine .inr ⟨r', s', ?_, rfl, rfl⟩
      rintro ⟨⟩
      exact hb ((C43_round_trip_iff_partial hder).1 ⟨_, hstr, hq⟩)

/-- The number's first byte has its highest bit clear. -/
def TopClear (n : Nat) : Prop := ∃ b rest, bytesOfNat n = b :: rest ∧ b < 128

theorem canonicalPadding_bytesOfNat {n : Nat} (hn : n ≠ 0) : canonicalPadding (bytesOfNat n) = true ↔ TopClear n := by
  have hp := byteLen_pos hn
  unfold byteLen at hp
  unfold TopClear
  cases hb : bytesOfNat n with
  | nil => rw [hb] at hp; simp at hp
  | cons b rest =>
    have h0 := bytesOfNat_head hb
    have e : (∃ c r, b :: rest = c :: r ∧ c < 128) ↔ b < 128 := by
      constructor
      · rintro ⟨c, r, h, h'⟩
        rw [List.cons.injEq] at h
        rw [h.1]; exact h'
      · intro h; exact ⟨b, rest, rfl, h⟩
    rw [e]
    by_cases h : 128 ≤ b
    · simp only [canonicalPadding, if_pos h]
      simp only [Bool.false_eq_true, false_iff, UInt8.not_lt]
      exact h
    · have hlt := UInt8.not_le.1 h
      cases rest with
      | nil => simp [canonicalPadding, hlt]
      | cons c rest =>
        simp only [canonicalPadding, if_neg h]
        simp [h0, hlt]

/-- **C89, partial.** `VerifyFetchAISignatureLibp2p` reads the same text as strict DER: of the balanced signatures it
accepts exactly those whose two numbers have their highest bit clear, and gives an error for the others. -/
theorem C89_libp2p_text_partial (strictX : Bool) {P : Prims} (nonce : Nat → Bytes → Nat)
    (hn : ∀ d h, nonce d h % curveN ≠ 0) (enc : Bytes → Bytes)
    (henc : ∀ x, P.base64 (enc x) = some x) {key b message text pub : Bytes} (hk : hexDecode key = some b)
    (hd : beNat b % curveN ≠ 0) (hpub : publicTextOf key = some pub)
    (ht : signFetchAI (keySign P.sha256 nonce) enc message key = some text) :
    ∃ r s, text = enc (bytesOfNat r ++ bytesOfNat s) ∧
      ecdsaSign (nonce (beNat b) (P.sha256 message)) (beNat b) (hashToInt (P.sha256 message)) = some (r, s) ∧ (Balanced r s →
      (TopClear r ∧ TopClear s → verifyFetchAILibp2p strictX P message text pub = some true) ∧
      (¬ (TopClear r ∧ TopClear s) → verifyFetchAILibp2p strictX P message text pub = none)) := by
  obtain ⟨r, s, hs, rfl⟩ := (signFetchAI_text P.sha256 nonce hn enc hk).1 ht
  obtain ⟨hsig, hlow⟩ := C89_signed (hn _ _) hs
  obtain ⟨hv, hp⟩ := (C89_public _).1 hd
  have hver : ecdsaVerify (publicOf (beNat b)) (hashToInt (P.sha256 message)) r s = true :=
    (C89_verify_iff hv _ _ _).2 (by rw [hp]; exact hsig)
  have hr := hsig.1
  have hs2 := hsig.2.1
  have hpt : pub = keyText (publicOf (beNat b)) := by
    rw [publicTextOf, hk] at hpub
    exact (Option.some.inj hpub).symm
  have hN := curveN_lt
  have lr := byteLen_le (n := r) (k := 32) (by omega)
  have ls := byteLen_le (n := s) (k := 32) (by omega)
  have pr := byteLen_pos (n := r) (by omega)
  have ps := byteLen_pos (n := s) (by omega)
  have u : ∀ k, k < 256 → (k.toUInt8).toNat = k := by
    intro k hk
    rw [Nat.toUInt8, UInt8.toNat_ofNat', Nat.mod_eq_of_lt hk]
  have hred : verifyFetchAILibp2p strictX P message (enc (bytesOfNat r ++ bytesOfNat s)) pub =
      libp2pVerify P.sha256 (publicOf (beNat b)) message (strToDer (bytesOfNat r ++ bytesOfNat s)) := by
    unfold verifyFetchAILibp2p
    rw [hpt, (C88_text_roundtrip strictX hv).1, henc]
  refine ⟨r, s, rfl, hs, fun hb => ?_⟩
  have hk2 : (bytesOfNat r ++ bytesOfNat s).length / 2 = byteLen r := by
    rw [List.length_append]
    show (byteLen r + byteLen s) / 2 = byteLen r
    rcases hb with hb | hb <;> omega
  have e1 : List.take (byteLen r) (bytesOfNat r ++ bytesOfNat s) = bytesOfNat r := List.take_left' rfl
  have e2 : List.drop (byteLen r) (bytesOfNat r ++ bytesOfNat s) = bytesOfNat s := List.drop_left' rfl
  have hst : strToDer (bytesOfNat r ++ bytesOfNat s) =
      0x30 :: (4 + byteLen r + byteLen s).toUInt8 :: 0x02 :: (byteLen r).toUInt8 ::
        (bytesOfNat r ++ 0x02 :: (byteLen s).toUInt8 :: (bytesOfNat s ++ [])) := by
    unfold strToDer
    simp only [hk2, e1, e2]
    simp [byteLen]
  rw [hred]
  unfold libp2pVerify
  constructor
  · rintro ⟨c1, c2⟩
    have : parseSig true (strToDer (bytesOfNat r ++ bytesOfNat s)) = some (r, s) := by
      rw [parseSig_some_iff]
      refine ⟨bytesOfNat r, bytesOfNat s, [], _, _, _, hst, u _ (by omega), by rw [u _ (by omega)]; omega, u _ (by omega),
        u _ (by omega), ?_, ?_, fun _ => ⟨(canonicalPadding_bytesOfNat (by omega)).2 c1,
          (canonicalPadding_bytesOfNat (by omega)).2 c2⟩, (natOfBytes_bytesOfNat r).symm, (natOfBytes_bytesOfNat s).symm,
        by omega, by omega, hr.2, hs2.2⟩
      · exact List.length_pos_iff.1 pr
      · exact List.length_pos_iff.1 ps
    rw [this]
    dsimp only
    rw [hver]
  · intro hc
    cases hq : parseSig true (strToDer (bytesOfNat r ++ bytesOfNat s)) with
    | none => rfl
    | some p =>
      exfalso
      obtain ⟨r', s'⟩ := p
      rw [parseSig_some_iff] at hq
      obtain ⟨rb, sb, junk, l, l1, l2, h1, h2, h3, h4, h5, _, _, h6, _⟩ := hq
      rw [hst] at h1
      simp only [List.cons.injEq, true_and] at h1
      obtain ⟨hl, hl1, htail⟩ := h1
      have hrb : rb.length = (bytesOfNat r).length := by
        rw [← h4, ← hl1, u _ (by omega)]; rfl
      obtain ⟨q1, q2⟩ := List.append_inj htail hrb.symm
      simp only [List.cons.injEq, true_and, List.append_nil] at q2
      have hsb : sb.length = (bytesOfNat s).length := by
        rw [← h5, ← q2.1, u _ (by omega)]; rfl
      have q3 : bytesOfNat s = sb := by
        have := q2.2
        have hj : junk = [] := by
          have := congrArg List.length this
          rw [List.length_append] at this
          exact List.length_eq_zero_iff.1 (by omega)
        rw [hj, List.append_nil] at this
        exact this
      obtain ⟨c1, c2⟩ := h6 rfl
      rw [← q1, canonicalPadding_bytesOfNat (by omega)] at c1
      rw [← q3, canonicalPadding_bytesOfNat (by omega)] at c2
      exact hc ⟨c1, c2⟩

namespace EcdsaDemo

/-- The private key 1 and the nonce 1 give this number the second number 7. -/
def e : Nat := 0x8641998106234453aa5f9d6a3178f4f7b812e00b817a776265dfdd31b93e29b0

theorem signed : ecdsaSign 1 1 e = some (curveG.x, 7) := by decide +kernel

theorem read_wrong : parseSig false (strToDer (bytesOfNat curveG.x ++ bytesOfNat 7)) =
    some (0x79be667ef9dcbbac55a06295ce870b07, 0x29bfcdb2dce28d959f2815b16f8179807) := by decide +kernel

theorem refused : ecdsaVerify (publicOf 1) e 0x79be667ef9dcbbac55a06295ce870b07 0x29bfcdb2dce28d959f2815b16f8179807 =
    false := by decide +kernel

example : publicOf 1 = curveG := by decide +kernel
example : (publicOf 2).x = 0xc6047f9441ed7d6d3045406e95c07cd85c778e4b8cef3ca7abac09b95c709ee5 := by decide +kernel
/-- A key of 33 zero bytes is taken; its public text is read by nobody. -/
example : keyPairOf (hexEncode (List.replicate 33 0)) = some (0, ⟨0, 0⟩) ∧
    (publicTextOf (hexEncode (List.replicate 33 0))).bind (btcKeyFromText true) = none := by decide +kernel

end EcdsaDemo

/-- **C89 is false** for the text form: a signature that the public key accepts, whose text is read as other
numbers, which it does not accept. -/
theorem C89_text_counterexample : ∃ k d e r s r' s', (0 < k ∧ k < curveN) ∧ d % curveN ≠ 0 ∧
    ecdsaSign k d e = some (r, s) ∧ ecdsaVerify (publicOf d) e r s = true ∧
    parseSig false (strToDer (bytesOfNat r ++ bytesOfNat s)) = some (r', s') ∧
    ecdsaVerify (publicOf d) e r' s' = false := by
  refine ⟨1, 1, EcdsaDemo.e, curveG.x, 7, _, _, by decide +kernel, by decide +kernel, EcdsaDemo.signed, ?_,
    EcdsaDemo.read_wrong, EcdsaDemo.refused⟩
  obtain ⟨hv, hp⟩ := (C89_public 1).1 (by decide +kernel)
  refine (C89_verify_iff hv _ _ _).2 ?_
  rw [hp]
  exact (C89_signed (by decide +kernel) EcdsaDemo.signed).1

/-- Any primitives, with the curve operations of secp256k1. -/
def withCurve (strictX : Bool) (P : Prims) : Prims :=
  { P with
    pubKeyOk := fun b => (parsePubKey strictX b).isSome
    ecdsa := fun h r s b =>
      match parsePubKey strictX b with
      | none => false
      | some q => ecdsaVerify q (hashToInt h) r s }

/-- There are such primitives, whatever the rest of them is. -/
theorem withCurve_is (strictX : Bool) (P : Prims) : CurvePrims strictX (withCurve strictX P) :=
  ⟨fun _ => rfl, fun h r s b q hq => by simp [withCurve, hq]⟩

end Verif
