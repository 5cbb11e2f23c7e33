import Verif.Lemmas.KeyBytes
import Verif.Model.PoR
import Verif.Props.Crypto
import Verif.Props.TlsCheck

/-!
# C88: a peer's key, its text and its identifier determine each other
-/

namespace Verif

/-- A key of the curve: two elements of the field that satisfy `y² = x³ + 7`. -/
structure ValidKey (k : CurveKey) : Prop where
  x_lt : k.x < fieldP
  y_lt : k.y < fieldP
  curve : (k.y : ZMod fieldP) ^ 2 = (k.x : ZMod fieldP) ^ 3 + 7

/-- The first byte of a compressed key. -/
def compressedMagic (k : CurveKey) : UInt8 := if k.y % 2 = 0 then 2 else 3

/-- The first bytes of a key in 65 bytes: plain (the lowest bit is not looked at), or with the parity of `y`. -/
def longMagics (k : CurveKey) : List UInt8 := [4, 5, if k.y % 2 = 0 then 6 else 7]

theorem compressedKey_eq (k : CurveKey) : compressedKey k = compressedMagic k :: natBE 32 k.x := by
  unfold compressedKey compressedMagic
  rcases Nat.mod_two_eq_zero_or_one k.y with h | h <;> rw [h] <;> rfl

theorem magic_compressed (m : UInt8) (k : CurveKey) :
    (m.toNat - m.toNat % 2 = 2 ∧ k.y % 2 = m.toNat % 2) ↔ m = compressedMagic k := by
  unfold compressedMagic
  constructor
  · rintro ⟨h1, h2⟩
    rw [h2]
    apply UInt8.toNat_inj.1
    split
    · simp; omega
    · simp; omega
  · intro h
    split at h
    · next h0 => subst h; exact ⟨rfl, h0⟩
    · next h0 => subst h; exact ⟨rfl, by simp; omega⟩

theorem magic_long (m : UInt8) (k : CurveKey) :
    ((m.toNat - m.toNat % 2 = 4 ∨ m.toNat - m.toNat % 2 = 6) ∧
      ¬(m.toNat - m.toNat % 2 = 6 ∧ m.toNat % 2 ≠ k.y % 2)) ↔ m ∈ longMagics k := by
  unfold longMagics
  simp only [List.mem_cons, List.not_mem_nil, or_false]
  constructor
  · rintro ⟨h1, h2⟩
    rcases h1 with h1 | h1
    · rcases Nat.mod_two_eq_zero_or_one m.toNat with h | h
      · left; apply UInt8.toNat_inj.1; simp; omega
      · right; left; apply UInt8.toNat_inj.1; simp; omega
    · right; right
      have h3 : m.toNat % 2 = k.y % 2 := by
        by_cases e : m.toNat % 2 = k.y % 2
        · exact e
        · exact absurd ⟨h1, e⟩ h2
      rw [← h3]
      apply UInt8.toNat_inj.1
      split
      · simp; omega
      · simp; omega
  · rintro (h | h | h)
    · subst h; exact ⟨.inl rfl, by simp⟩
    · subst h; exact ⟨.inl rfl, by simp⟩
    · split at h
      · next h0 => subst h; exact ⟨.inr rfl, by simp; omega⟩
      · next h0 => subst h; exact ⟨.inr rfl, by simp; omega⟩

/-- **C88.** The byte strings that are read as a key, and the key each of them is. -/
theorem C88_parse_iff (strictX : Bool) (b : Bytes) (k : CurveKey) : parsePubKey strictX b = some k ↔
    (∃ xs, xs.length = 32 ∧ b = compressedMagic k :: xs ∧ k.x = beNat xs ∧
      (strictX = true → k.x < fieldP) ∧ k.y < fieldP ∧ (k.y : ZMod fieldP) ^ 2 = (k.x : ZMod fieldP) ^ 3 + 7) ∨
    (∃ m xs ys, xs.length = 32 ∧ ys.length = 32 ∧ m ∈ longMagics k ∧ b = m :: (xs ++ ys) ∧
      k.x = beNat xs ∧ k.y = beNat ys ∧ ValidKey k) := by
  rcases k with ⟨x, y⟩
  cases b with
  | nil => simp [parsePubKey]
  | cons m rest =>
    simp only [parsePubKey, List.cons.injEq]
    constructor
    · intro h
      by_cases h64 : rest.length = 64
      · right
        rw [if_pos h64] at h
        split at h
        · simp at h
        next hf =>
        split at h
        · simp at h
        next hy =>
        split at h
        · simp at h
        next hl =>
        split at h
        · simp at h
        next hc =>
        rw [Option.some.injEq, CurveKey.mk.injEq] at h
        obtain ⟨rfl, rfl⟩ := h
        refine ⟨m, rest.take 32, rest.drop 32, by simp; omega, by simp; omega, (magic_long m _).1 ⟨by omega, hy⟩, ⟨rfl,
          (List.take_append_drop 32 rest).symm⟩, rfl, rfl, by simp only; omega, by simp only; omega, ?_⟩
        exact (curve_mod_iff _ _).1 (not_not.1 hc)
      · rw [if_neg h64] at h
        by_cases h32 : rest.length = 32
        · left
          rw [if_pos h32] at h
          split at h
          · simp at h
          next hf =>
          split at h
          · simp at h
          next hx =>
          rw [Option.map_eq_some_iff] at h
          obtain ⟨z, hz, hk⟩ := h
          rw [CurveKey.mk.injEq] at hk
          obtain ⟨rfl, rfl⟩ := hk
          obtain ⟨z1, z2, z3⟩ := (decompressY_iff _ _ _).1 hz
          refine ⟨rest, h32, ⟨(magic_compressed m ⟨_, z⟩).1 ⟨not_not.1 hf, z2⟩, rfl⟩, rfl, ?_, z1, z3⟩
          intro hs
          simp only [hs, true_and, not_le] at hx
          exact hx
        · rw [if_neg h32] at h
          simp at h
    · rintro (⟨xs, hl, ⟨hm, rfl⟩, hx, hs, hy, hc⟩ | ⟨m', xs, ys, hl1, hl2, hm, ⟨rfl, rfl⟩, hx, hy, hv⟩)
      · obtain ⟨m1, m2⟩ := (magic_compressed m ⟨x, y⟩).2 hm
        simp only at hx hs hy hc m2
        subst hx
        rw [if_neg (by omega), if_pos hl, if_neg (not_not.2 m1), if_neg, (decompressY_iff _ _ _).2 ⟨hy, m2, hc⟩]
        · rfl
        · rintro ⟨h1, h2⟩
          exact absurd (hs h1) (by omega)
      · obtain ⟨m1, m2⟩ := (magic_long m ⟨x, y⟩).2 hm
        have ht : (xs ++ ys).take 32 = xs := by rw [← hl1]; simp
        have hd : (xs ++ ys).drop 32 = ys := by rw [← hl1]; simp
        have v1 := hv.x_lt
        have v2 := hv.y_lt
        have v3 := hv.curve
        simp only at hx hy v1 v2 v3 m2
        rw [if_pos (by simp; omega), ht, hd, ← hx, ← hy, if_neg (by omega), if_neg m2, if_neg (by omega),
          if_neg (not_not.2 ((curve_mod_iff _ _).2 v3))]

/-- **C88.** Every key is read back from its compressed and from its long form, whatever the version of the library. -/
theorem C88_bytes_roundtrip (strictX : Bool) {k : CurveKey} (h : ValidKey k) :
    parsePubKey strictX (compressedKey k) = some k ∧ parsePubKey strictX (uncompressedKey k) = some k := by
  have hx : k.x < 256 ^ 32 := lt_trans h.x_lt fieldP_lt
  have hy : k.y < 256 ^ 32 := lt_trans h.y_lt fieldP_lt
  constructor
  · rw [C88_parse_iff, compressedKey_eq]
    left
    exact ⟨_, natBE_length 32 _, rfl, (beNat_natBE 32 _ hx).symm, fun _ => h.x_lt, h.y_lt, h.curve⟩
  · rw [C88_parse_iff]
    right
    exact ⟨4, _, _, natBE_length 32 _, natBE_length 32 _, by simp [longMagics], rfl, (beNat_natBE 32 _ hx).symm,
      (beNat_natBE 32 _ hy).symm, h⟩

/-- A key that was read is determined by its compressed form. -/
theorem parsed_inj {s : Bool} {b c : Bytes} {k l : CurveKey} (hk : parsePubKey s b = some k)
    (hl : parsePubKey s c = some l) (h : compressedKey k = compressedKey l) : k = l := by
  have bound : ∀ {b k}, parsePubKey s b = some k → k.x < 256 ^ 32 ∧ k.y < fieldP ∧
      (k.y : ZMod fieldP) ^ 2 = (k.x : ZMod fieldP) ^ 3 + 7 := by
    intro b k h
    rcases (C88_parse_iff s b k).1 h with ⟨xs, h1, _, h3, _, h4, h5⟩ | ⟨_, _, _, _, _, _, _, _, _, hv⟩
    · exact ⟨by rw [h3]; exact beNat_lt 32 xs h1, h4, h5⟩
    · exact ⟨lt_trans hv.x_lt fieldP_lt, hv.y_lt, hv.curve⟩
  obtain ⟨k1, k2, k3⟩ := bound hk
  obtain ⟨l1, l2, l3⟩ := bound hl
  rw [compressedKey_eq, compressedKey_eq, List.cons.injEq] at h
  have hx : k.x = l.x := by
    rw [← beNat_natBE 32 _ k1, ← beNat_natBE 32 _ l1, h.2]
  have hp := h.1
  unfold compressedMagic at hp
  have hp2 : k.y % 2 = l.y % 2 := by
    split at hp <;> split at hp <;> simp_all
  have hy : k.y = l.y := same_root k2 l2 hp2 k3 (by rw [hx]; exact l3)
  cases k; cases l
  simp only at hx hy
  rw [hx, hy]

theorem hexEncode_inj {a b : Bytes} (h : hexEncode a = hexEncode b) : a = b := by
  have := hexDecode_hexEncode a
  rw [h, hexDecode_hexEncode] at this
  exact (Option.some.inj this).symm

/-- **C88.** Two keys have the same text exactly if they are the same key, and the same identifier exactly then. -/
theorem C88_determined {k l : CurveKey} (hk : ValidKey k) (hl : ValidKey l) :
    (keyText k = keyText l ↔ k = l) ∧ (peerIdOf k = peerIdOf l ↔ k = l) := by
  have key : compressedKey k = compressedKey l → k = l :=
    parsed_inj (C88_bytes_roundtrip true hk).1 (C88_bytes_roundtrip true hl).1
  refine ⟨⟨fun h => key (hexEncode_inj h), by rintro rfl; rfl⟩, ⟨fun h => key ?_, by rintro rfl; rfl⟩⟩
  exact List.append_cancel_left h

/-- What is decoded without an error is what is decoded before the error. -/
theorem hexPrefix_of_decode : ∀ {t b : Bytes}, hexDecode t = some b → hexPrefix t = b
  | [], b, h => by
    rw [hexDecode, Option.some.injEq] at h; subst h; rfl
  | [_], b, h => by simp [hexDecode] at h
  | x :: y :: rest, b, h => by
    rw [hexDecode] at h
    rw [hexPrefix]
    split at h
    · next v w r h1 h2 h3 =>
      rw [h1, h2]
      simp only
      rw [Option.some.injEq] at h
      rw [hexPrefix_of_decode h3, h]
    · simp at h

/-- **C88.** The text of a key is read back as the key by both of the functions that read texts, and its
identifier is the key's; the identifier of the long form is the same one. -/
theorem C88_text_roundtrip (strictX : Bool) {k : CurveKey} (h : ValidKey k) :
    pubKeyFromText strictX (keyText k) = some k ∧ btcKeyFromText strictX (keyText k) = some k ∧
    btcKeyFromUncompressed strictX (hexEncode (natBE 32 k.x ++ natBE 32 k.y)) = some k ∧
    idFromText strictX (keyText k) = some (peerIdOf k) ∧
    idFromUncompressed strictX (hexEncode (natBE 32 k.x ++ natBE 32 k.y)) = some (peerIdOf k) := by
  have hd := hexDecode_hexEncode (compressedKey k)
  have hu := hexDecode_hexEncode (natBE 32 k.x ++ natBE 32 k.y)
  obtain ⟨r1, r2⟩ := C88_bytes_roundtrip strictX h
  have hb : btcKeyFromUncompressed strictX (hexEncode (natBE 32 k.x ++ natBE 32 k.y)) = some k := by
    rw [btcKeyFromUncompressed, hu]; exact r2
  refine ⟨?_, ?_, hb, ?_, ?_⟩
  · rw [pubKeyFromText, keyText, hexPrefix_of_decode hd, r1]
  · rw [btcKeyFromText, keyText, hd]; exact r1
  · rw [idFromText, keyText, hd]; simp only [r1]
  · rw [idFromUncompressed, hb]

/-- **C88.** The texts that give a key's identifier: the hexadecimal forms, in any letter case, of the
compressed key and of the long form with any of its first bytes. -/
theorem C88_id_iff (strictX : Bool) {k : CurveKey} (h : ValidKey k) (t : Bytes) :
    idFromText strictX t = some (peerIdOf k) ↔
    hexDecode t = some (compressedKey k) ∨
      ∃ m ∈ longMagics k, hexDecode t = some (m :: (natBE 32 k.x ++ natBE 32 k.y)) := by
  have hx : k.x < 256 ^ 32 := lt_trans h.x_lt fieldP_lt
  have hy : k.y < 256 ^ 32 := lt_trans h.y_lt fieldP_lt
  unfold idFromText
  cases ht : hexDecode t with
  | none => simp
  | some b =>
    simp only [Option.some.injEq]
    have step : parsePubKey strictX b = some k ↔ (match parsePubKey strictX b with
        | none => none
        | some k => some (peerIdOf k)) = some (peerIdOf k) := by
      constructor
      · intro e; rw [e]
      · intro e
        split at e
        · simp at e
        · next l hl =>
          rw [Option.some.injEq] at e
          have := parsed_inj hl (C88_bytes_roundtrip strictX h).1 (List.append_cancel_left e)
          rw [hl, this]
    refine step.symm.trans ?_
    rw [C88_parse_iff]
    constructor
    · rintro (⟨xs, h1, h2, h3, _⟩ | ⟨m, xs, ys, h1, h2, h3, h4, h5, h6, _⟩)
      · left
        rw [h2, compressedKey_eq, h3, natBE_beNat 32 xs h1]
      · right
        exact ⟨m, h3, by rw [h4, h5, h6, natBE_beNat 32 xs h1, natBE_beNat 32 ys h2]⟩
    · rintro (h1 | ⟨m, h1, h2⟩)
      · left
        exact ⟨_, natBE_length 32 _, by rw [h1, compressedKey_eq], (beNat_natBE 32 _ hx).symm, fun _ => h.x_lt,
          h.y_lt, h.curve⟩
      · right
        exact ⟨m, _, _, natBE_length 32 _, natBE_length 32 _, h1, h2, (beNat_natBE 32 _ hx).symm,
          (beNat_natBE 32 _ hy).symm, h⟩

/-- **C88.** Two texts give the same identifier exactly if they are read as the same key. -/
theorem C88_id_agrees (strictX : Bool) {t u : Bytes} {k l : CurveKey} (ht : btcKeyFromText strictX t = some k)
    (hu : btcKeyFromText strictX u = some l) :
    (idFromText strictX t = idFromText strictX u ↔ k = l) ∧ idFromText strictX t = some (peerIdOf k) := by
  unfold btcKeyFromText at ht hu
  unfold idFromText
  cases h1 : hexDecode t with
  | none => rw [h1] at ht; simp at ht
  | some b =>
    cases h2 : hexDecode u with
    | none => rw [h2] at hu; simp at hu
    | some c =>
      rw [h1] at ht
      rw [h2] at hu
      simp only at ht hu ⊢
      rw [ht, hu]
      refine ⟨⟨fun e => ?_, by rintro rfl; rfl⟩, rfl⟩
      rw [Option.some.injEq] at e
      exact parsed_inj ht hu (List.append_cancel_left e)

/-- **C88.** The two functions that read texts agree on every text in hexadecimal digits; the one of libp2p
also reads a key's text with anything behind it that is not hexadecimal. -/
theorem C88_two_readers (strictX : Bool) (t : Bytes) :
    (∀ k, btcKeyFromText strictX t = some k → pubKeyFromText strictX t = some k) ∧
    (∀ k junk : Bytes, ∀ x y : UInt8, (hexVal x = none ∨ hexVal y = none) →
      pubKeyFromText strictX (hexEncode k ++ x :: y :: junk) = parsePubKey strictX k) := by
  constructor
  · intro k h
    unfold btcKeyFromText at h
    cases hd : hexDecode t with
    | none => rw [hd] at h; simp at h
    | some b =>
      rw [hd] at h
      rw [pubKeyFromText, hexPrefix_of_decode hd]
      exact h
  · intro k junk x y h
    rw [pubKeyFromText, C64_key_text_partial k junk x y h, hexPrefix_of_decode (hexDecode_hexEncode k)]

/-- **C88.** `BTCPubKeyFromEthereumPublicKey` panics exactly on texts of fewer than two bytes, and otherwise
does not look at the first two. -/
theorem C88_ethereum (strictX : Bool) (t : Bytes) :
    (btcKeyFromEthereum strictX t = .panic ↔ t.length < 2) ∧
    (∀ (a b : UInt8) (k : CurveKey), ValidKey k →
      btcKeyFromEthereum strictX (a :: b :: hexEncode (natBE 32 k.x ++ natBE 32 k.y)) = .ok k) := by
  constructor
  · unfold btcKeyFromEthereum
    by_cases h : t.length < 2
    · simp [h]
    · rw [if_neg h]
      constructor
      · intro e; split at e <;> simp at e
      · intro e; exact absurd e h
  · intro a b k h
    unfold btcKeyFromEthereum
    rw [if_neg (by simp)]
    simp only [List.drop_succ_cons, List.drop_zero]
    rw [(C88_text_roundtrip strictX h).2.2.1]

/-- **C88, partial.** A record that names a peer by another text of the same key is refused, although the peer
it leads to is the same one: proofs compare texts, look-ups compare identifiers. -/
theorem C88_other_text_partial (strictX : Bool)
    (addressOf : Bytes → Bytes → Res Unit Bytes)
    (verify : Bytes → Bytes → Bytes → Bytes → Res Unit Bool) {k : CurveKey} (h : ValidKey k)
    (record : AgentRecord) (ha : record.ledgerId ∈ supportedLedgers) {t : Bytes}
    (hr : record.peerPublicKey = t) (hne : t ≠ keyText k) :
    isValidPoR addressOf verify record record.address (keyText k) = .ok .errorWrongPublicKey ∧
    (hexDecode t = some (compressedKey k) → idFromText strictX t = idFromText strictX (keyText k)) ∧
    (∃ u, u ≠ keyText k ∧ idFromText strictX u = idFromText strictX (keyText k)) := by
  refine ⟨?_, ?_, hexEncode (uncompressedKey k), ?_, ?_⟩
  · unfold isValidPoR
    rw [if_neg (by simp), if_neg (by simp [ha]), if_pos (by rw [hr]; exact hne)]
  · intro hd
    rw [(C88_text_roundtrip strictX h).2.2.2.1, (C88_id_iff strictX h t).2 (.inl hd)]
  · intro e
    have := congrArg List.length (hexEncode_inj e)
    simp [uncompressedKey, compressedKey, natBE_length] at this
  · rw [(C88_text_roundtrip strictX h).2.2.2.1, C88_id_iff strictX h]
    right
    exact ⟨4, by simp [longMagics], hexDecode_hexEncode _⟩

namespace PubKeyDemo

/-- The base point of secp256k1, the public key of the private key 1. -/
def G : CurveKey :=
  ⟨0x79be667ef9dcbbac55a06295ce870b07029bfcdb2dce28d959f2815b16f81798,
   0x483ada7726a3c4655da4fbfc0e1108a8fd17b448a68554199c47d08ffb10d4b8⟩

theorem G_valid : ValidKey G :=
  ⟨by decide +kernel, by decide +kernel, (curve_mod_iff _ _).1 (by decide +kernel)⟩

example : keyText G = b! "0279be667ef9dcbbac55a06295ce870b07029bfcdb2dce28d959f2815b16f81798" := by decide +kernel
example (s : Bool) : pubKeyFromText s (keyText G) = some G := (C88_text_roundtrip s G_valid).1
example : btcKeyFromText true (keyText G) = some G := by decide +kernel
/-- In capital letters: another text, the same identifier. -/
example : idFromText true (b! "0279BE667EF9DCBBAC55A06295CE870B07029BFCDB2DCE28D959F2815B16F81798") =
    some (peerIdOf G) := by decide +kernel
/-- No point has the first coordinate 5: its key is refused. -/
example : btcKeyFromText true (b! "020000000000000000000000000000000000000000000000000000000000000005") = none := by
  decide +kernel
/-- Junk behind the text: one of the two readers takes it. -/
example : pubKeyFromText true (keyText G ++ b! "zz") = some G ∧ btcKeyFromText true (keyText G ++ b! "zz") = none := by
  decide +kernel
example : btcKeyFromEthereum true (b! "0") = .panic := by decide
example : (parsePubKey true (uncompressedKey G)) = some G ∧ parsePubKey true (7 :: (uncompressedKey G).drop 1) = none ∧
    parsePubKey true (6 :: (uncompressedKey G).drop 1) = some G := by decide +kernel

end PubKeyDemo

/-- **C88, partial.** If the library does not refuse a compressed coordinate of at least the prime, one point of
the curve has two texts in small letters and two identifiers. -/
theorem C88_loose_counterexample : ∃ t u k l, t ≠ u ∧ btcKeyFromText false t = some k ∧ btcKeyFromText false u = some l ∧
    t = keyText k ∧ u = keyText l ∧ ((k.x : ZMod fieldP) = l.x ∧ k.y = l.y) ∧
    idFromText false t ≠ idFromText false u ∧ btcKeyFromText true t = some k ∧ btcKeyFromText true u = none := by
  refine ⟨b! "020000000000000000000000000000000000000000000000000000000000000001",
    b! "02fffffffffffffffffffffffffffffffffffffffffffffffffffffffefffffc30",
    ⟨1, 0x4218f20ae6c646b363db68605822fb14264ca8d2587fdd6fbc750d587e76a7ee⟩,
    ⟨fieldP + 1, 0x4218f20ae6c646b363db68605822fb14264ca8d2587fdd6fbc750d587e76a7ee⟩,
    by decide, by decide +kernel, by decide +kernel, by decide +kernel, by decide +kernel, ⟨?_, rfl⟩,
    by decide +kernel, by decide +kernel, by decide +kernel⟩
  simp

end Verif
