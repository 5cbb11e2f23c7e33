import Verif.Model.SessionKey
import Verif.Props.TlsCheck
import Verif.Props.EcdsaText
import Verif.Props.GoPrims
import Verif.Props.HashNumber

/-!
# C95: the signed session key of a peer, on the curve
-/

namespace Verif

open WeierstrassCurve.Affine

/-- **C95.** An agent accepts a connection exactly if the server's first message is, in strict DER, a signature of the
marshalled key of the *last* certificate under the key whose text the agent was given. -/
theorem C95_connect_iff (text : Bytes) (conn : Option TlsConn) (rest : List Bytes) :
    tlsConnect (curvePeerKeys true) text conn = .ok rest ↔
      ∃ c key pre sig q r s, conn = some c ∧ c.certs = pre ++ [.ecdsa key] ∧
        readConn none c.input = (.ok sig, rest) ∧ parseSig true sig = some (r, s) ∧
        pubKeyFromText true text = some q ∧
        ∃ hq : ValidKey q, SignatureOf (keyPoint hq) (bigEndian (sha256 key)) r s := by
  simp only [← hashToInt_sha256]
  rw [C64_connect_iff_partial]
  constructor
  · rintro ⟨c, key, pre, sig, h1, h2, h3, h4, h5⟩
    simp only [curvePeerKeys] at h4 h5
    cases hq : parsePubKey true (hexPrefix text) with
    | none => simp [hq] at h4
    | some q =>
      rw [hq] at h5
      simp only [libp2pVerify] at h5
      cases hp : parseSig true sig with
      | none => simp [hp] at h5
      | some rs =>
        obtain ⟨r, s⟩ := rs
        simp only [hp, Option.some.injEq] at h5
        exact ⟨c, key, pre, sig, q, r, s, h1, h2, h3, hp, hq, parsed_valid hq, (C89_verify_iff _ _ _ _).1 h5⟩
  · rintro ⟨c, key, pre, sig, q, r, s, h1, h2, h3, h4, h5, hq, h6⟩
    refine ⟨c, key, pre, sig, h1, h2, h3, ?_, ?_⟩
    · rw [pubKeyFromText] at h5
      simp [curvePeerKeys, h5]
    · rw [pubKeyFromText] at h5
      simp only [curvePeerKeys, h5, libp2pVerify, h4]
      rw [(C89_verify_iff hq _ _ _).2 h6]

/-- The bytes of a signature are few, and some. -/
theorem libp2pSign_length {sha : Bytes → Bytes} {nonce : Nat → Bytes → Nat} (hn : ∀ d h, nonce d h % curveN ≠ 0)
    {d : Nat} {m sig : Bytes} (h : libp2pSign sha nonce d m = some sig) : sig ≠ [] ∧ sig.length ≤ 72 := by
  unfold libp2pSign at h
  rw [Option.map_eq_some_iff] at h
  obtain ⟨⟨r, s⟩, h1, rfl⟩ := h
  obtain ⟨hsig, hlow⟩ := C89_signed (hn _ _) h1
  have hN := curveN_lt
  have hr := hsig.1
  have hs := hsig.2.1
  obtain ⟨_, _, _, a4⟩ := canonicalInt_spec (n := r) (by omega)
  obtain ⟨_, _, _, b4⟩ := canonicalInt_spec (n := s) (by omega)
  have lr := byteLen_le (n := r) (k := 32) (by omega)
  have ls := byteLen_le (n := s) (k := 32) (by omega)
  simp only [serializeSig]
  rw [if_neg (by omega)]
  refine ⟨by simp, ?_⟩
  simp only [List.length_append, List.length_cons, List.length_nil]
  omega

/-- The session key of a peer whose private key is the number `d`. -/
def goSessionKey (fuel d : Nat) (cert : Option Bytes) : Option SessionKey :=
  makeSessionKey (libp2pSign sha256 (goNonce fuel) d) cert

/-- **C95.** An agent that was given the text of a peer's public key connects to this peer, whatever its certificate
is, if the transport keeps the pieces whole; what comes after the signature is left. -/
theorem C95_honest_peer (strictX : Bool) {fuel d : Nat} (hd : d % curveN ≠ 0) {cert : Option Bytes} {k : SessionKey}
    (hk : goSessionKey fuel d cert = some k) {later cs : List Bytes}
    (hw : Whole (pieces (k.signature :: later)) cs) :
    cert = some k.certKey ∧ k.delegate.2 = .ok (pieces [k.signature]).flatten ∧
    ∃ rest, tlsConnect (curvePeerKeys strictX) (keyText (publicOf d)) (some ⟨k.delegate.1, cs⟩) = .ok rest ∧
      Whole (pieces later) rest := by
  unfold goSessionKey makeSessionKey at hk
  cases cert with
  | none => simp at hk
  | some key =>
    dsimp only at hk
    cases hs : sessionSignature (libp2pSign sha256 (goNonce fuel) d) key with
    | none => simp [hs] at hk
    | some sig =>
      simp only [hs, Option.some.injEq] at hk
      subst hk
      obtain ⟨hne, hlen⟩ := libp2pSign_length (goNonce_ne fuel) hs
      obtain ⟨hv, _⟩ := (C89_public d).1 hd
      have hb := (C88_bytes_roundtrip strictX hv).1
      have hp : hexPrefix (keyText (publicOf d)) = compressedKey (publicOf d) :=
        hexPrefix_of_decode (hexDecode_hexEncode _)
      refine ⟨rfl, ?_, ?_⟩
      · have hacc : acceptWrites sig = .ok (frame sig) := by
          unfold acceptWrites writeBytes
          rw [if_neg (fun h : sig.length = 0 => hne (List.length_eq_zero_iff.1 h))]
          rw [if_neg (by have : (72 : Nat) ≤ maxInt32 := by decide
                         omega)]
        show acceptWrites sig = _
        rw [hacc, pieces_flatten]
        simp
      · refine C64_honest_peer (sign := libp2pSign sha256 (goNonce fuel) d) ?_ ?_ hs (by omega) hw
        · rw [hp]; simp [curvePeerKeys, hb]
        · intro m s hms
          rw [hp]
          simp only [curvePeerKeys, hb]
          exact C89_libp2p sha256 (goNonce fuel) (goNonce_ne fuel) hd hms

/-- **C95.** The mailbox gives out, to everyone who asks with GET, the signature that the delegate service sends; to
others it gives an error. -/
theorem C95_mailbox (k : SessionKey) (method : Bytes) :
    (method = b! "GET" → k.mailbox method = (200, k.signature)) ∧
    (method ≠ b! "GET" → k.mailbox method = (400, b! "invalid method")) := by
  unfold SessionKey.mailbox
  exact ⟨fun h => if_neg (not_not.2 h), fun h => if_pos h⟩

/-- **C95 is false, of every peer.** With what the peer gives to everyone, its certificate and the answer of its
mailbox, whoever has a key `mine` of its own passes the check of the agent that was given the peer's public key. -/
theorem C95_impersonation (strictX : Bool) {fuel d : Nat} (hd : d % curveN ≠ 0) {cert : Option Bytes}
    {k : SessionKey} (hk : goSessionKey fuel d cert = some k) (mine : Bytes) :
    ∃ c, c.heldBy mine ∧ c.certs = .ecdsa mine :: k.delegate.1 ∧
      c.input = [be32 (k.mailbox (b! "GET")).2.length, (k.mailbox (b! "GET")).2] ∧
      tlsConnect (curvePeerKeys strictX) (keyText (publicOf d)) (some c) = .ok [] := by
  have hm := (C95_mailbox k _).1 rfl
  have hne : k.signature ≠ [] := by
    unfold goSessionKey makeSessionKey at hk
    cases cert with
    | none => simp at hk
    | some key =>
      dsimp only at hk
      cases hs : sessionSignature (libp2pSign sha256 (goNonce fuel) d) key with
      | none => simp [hs] at hk
      | some sig =>
        simp only [hs, Option.some.injEq] at hk
        subst hk
        exact (libp2pSign_length (goNonce_ne fuel) hs).1
  have hpieces : pieces [k.signature] = [be32 k.signature.length, k.signature] := by
    simp [pieces, hne]
  obtain ⟨_, _, rest, h1, h2⟩ := C95_honest_peer strictX hd hk (later := [])
    (cs := [be32 k.signature.length, k.signature]) (by rw [hpieces]; exact .own (by simp [be32]) (.own hne .nil))
  obtain ⟨h3, h4⟩ := C64_impersonation h1 mine
  have h5 : rest = [] := by
    cases rest with
    | nil => rfl
    | cons a b => cases h2
  subst h5
  exact ⟨_, h4, rfl, by rw [hm], h3⟩

/-- There are such session keys. -/
example : (goSessionKey 1 5 (some [4, 1, 2])).isSome = true := by decide +kernel

end Verif
