import Verif.Model.Hashes

/-!
# The nonce of a signature

`Sign` of btcec, called at libs/go/libp2p_node/utils/utils.go:380 and libs/go/aealite/wallet/utils.go:221 through
go-libp2p-core, takes its nonce from RFC 6979 with SHA-256; written out from the published behaviour of btcec.
-/

namespace Verif

/-- `hmac.New(sha256.New, key)` over a message; the block has 64 bytes. -/
def hmacSha256 (key message : Bytes) : Bytes :=
  let k := if 64 < key.length then sha256 key else key
  let block := k ++ List.replicate (64 - k.length) 0
  sha256 (block.map (· ^^^ 0x5c) ++ sha256 (block.map (· ^^^ 0x36) ++ message))

/-- `bits2octets` for a hash of 32 bytes -/
def bits2octets (hash : Bytes) : Bytes :=
  let z := hashToInt hash
  natBE 32 (if z < curveN then z else z - curveN)

/-- The loop: one more value, taken if it is between one and the order. `none`: it goes on after `fuel` values. -/
def nonceLoop : Nat → Bytes → Bytes → Option Nat
  | 0, _, _ => none
  | fuel + 1, k, v =>
    let v := hmacSha256 k v
    let secret := beNat v
    if 1 ≤ secret ∧ secret < curveN then some secret
    else
      let k := hmacSha256 k (v ++ [0])
      nonceLoop fuel k (hmacSha256 k v)

/-- `nonceRFC6979`. The private key is written in 32 bytes; higher bytes are left out. -/
def rfcNonce (fuel d : Nat) (hash : Bytes) : Option Nat :=
  let bx := natBE 32 d ++ bits2octets hash
  let v := List.replicate 32 1
  let k := List.replicate 32 0
  let k := hmacSha256 k (v ++ 0 :: bx)
  let v := hmacSha256 k v
  let k := hmacSha256 k (v ++ 1 :: bx)
  let v := hmacSha256 k v
  nonceLoop fuel k v

end Verif
