import Verif.Model.Crypto
import Verif.Model.TlsCheck

/-!
# Public keys and peer identifiers

libs/go/libp2p_node/utils/utils.go:238-267 and 550-608 (aealite/wallet/utils.go:72-101 and 397-408 are the
same functions). The Go code calls three libraries; their published behaviour is written out here:

* `btcec.ParsePubKey` and `PublicKey.SerializeCompressed` (btcd v0.20.1-beta, v0.21.0-beta);
  `crypto.UnmarshalSecp256k1PublicKey` and `Secp256k1PublicKey.Raw` of go-libp2p-core call them;
* `peer.IDFromPublicKey` of go-libp2p-core: the protobuf `{Type: 2, Data: compressed key}` is 37 bytes, at
  most 42, so the identifier holds it as it is (identity multihash);
* `btcec.PrivKeyFromBytes`, whose scalar multiplication is a parameter.

Whether a compressed key with a coordinate of at least the field's prime is refused depends on the version of
the library: that is the parameter `strictX`.
-/

namespace Verif

/-- The prime of the field of secp256k1. -/
def fieldP : Nat := 2 ^ 256 - 2 ^ 32 - 977

/-- Square and multiply, for an exponent below two to the `fuel`. -/
def powModAux (m : Nat) : Nat → Nat → Nat → Nat
  | 0, _, _ => 1 % m
  | fuel + 1, a, e =>
    let r := powModAux m fuel (a * a % m) (e / 2)
    if e % 2 = 1 then a * r % m else r

/-- A power modulo `m`. -/
def powMod (m a e : Nat) : Nat := powModAux m (e.log2 + 1) a e

/-- `big.Int.SetBytes` -/
def beNat (b : Bytes) : Nat := b.foldl (fun n x => n * 256 + x.toNat) 0

/-- `paddedAppend`: the number in `k` bytes, the highest first. -/
def natBE : Nat → Nat → Bytes
  | 0, _ => []
  | k + 1, n => natBE k (n / 256) ++ [UInt8.ofNat (n % 256)]

/-- A `btcec.PublicKey`. -/
structure CurveKey where
  x : Nat
  y : Nat
  deriving DecidableEq, Repr

/-- `SerializeCompressed` -/
def compressedKey (k : CurveKey) : Bytes := UInt8.ofNat (2 + k.y % 2) :: natBE 32 k.x

/-- `SerializeUncompressed` -/
def uncompressedKey (k : CurveKey) : Bytes := 4 :: (natBE 32 k.x ++ natBE 32 k.y)

/-- `decompressPoint`: the root of `x³ + 7` of the parity asked for. -/
def decompressY (x : Nat) (odd : Nat) : Option Nat :=
  let c := (x * x * x + 7) % fieldP
  let r := powMod fieldP c ((fieldP + 1) / 4)
  let y := if r % 2 = odd then r else (fieldP - r) % fieldP
  if y * y % fieldP ≠ c then none
  else if y % 2 ≠ odd then none
  else some y

/-- `btcec.ParsePubKey` -/
def parsePubKey (strictX : Bool) (b : Bytes) : Option CurveKey :=
  match b with
  | [] => none
  | magic :: rest =>
    let odd := magic.toNat % 2
    let format := magic.toNat - odd
    if rest.length = 64 then
      let x := beNat (rest.take 32)
      let y := beNat (rest.drop 32)
      if format ≠ 4 ∧ format ≠ 6 then none
      else if format = 6 ∧ odd ≠ y % 2 then none
      else if fieldP ≤ x ∨ fieldP ≤ y then none
      else if y * y % fieldP ≠ (x * x * x + 7) % fieldP then none
      else some ⟨x, y⟩
    else if rest.length = 32 then
      if format ≠ 2 then none
      else if strictX ∧ fieldP ≤ beNat rest then none
      else (decompressY (beNat rest) odd).map fun y => ⟨beNat rest, y⟩
    else none

/-- `FetchAIPublicKeyFromPubKey`: utils.go:245-251 -/
def keyText (k : CurveKey) : Bytes := hexEncode (compressedKey k)

/-- `PubKeyFromFetchAIPublicKey`: utils.go:239-242. The error of the hexadecimal decoding is ignored. -/
def pubKeyFromText (strictX : Bool) (text : Bytes) : Option CurveKey := parsePubKey strictX (hexPrefix text)

/-- `BTCPubKeyFromFetchAIPublicKey`: utils.go:254-261 -/
def btcKeyFromText (strictX : Bool) (text : Bytes) : Option CurveKey :=
  match hexDecode text with
  | none => none
  | some b => parsePubKey strictX b

/-- `BTCPubKeyFromUncompressedHex`: utils.go:571-582 -/
def btcKeyFromUncompressed (strictX : Bool) (text : Bytes) : Option CurveKey :=
  match hexDecode text with
  | none => none
  | some b => parsePubKey strictX (4 :: b)

/-- `BTCPubKeyFromEthereumPublicKey`: utils.go:265-267. The text is cut without looking at its length. -/
def btcKeyFromEthereum (strictX : Bool) (text : Bytes) : Res Unit CurveKey :=
  if text.length < 2 then .panic
  else match btcKeyFromUncompressed strictX (text.drop 2) with
    | none => .err ()
    | some k => .ok k

/-- `peer.IDFromPublicKey`: an identity multihash of 37 bytes, the protobuf of the key. -/
def peerIdOf (k : CurveKey) : Bytes := [0, 37, 8, 2, 18, 33] ++ compressedKey k

/-- `IDFromFetchAIPublicKey`: utils.go:551-568 -/
def idFromText (strictX : Bool) (text : Bytes) : Option Bytes :=
  match hexDecode text with
  | none => none
  | some b =>
    match parsePubKey strictX b with
    | none => none
    | some k => some (peerIdOf k)

/-- `IDFromFetchAIPublicKeyUncompressed`: utils.go:585-597 -/
def idFromUncompressed (strictX : Bool) (text : Bytes) : Option Bytes :=
  match btcKeyFromUncompressed strictX text with
  | none => none
  | some k => some (peerIdOf k)

end Verif
