import Verif.Model.PubKey
import Verif.Model.LiteStart

/-!
# Private keys and signatures over secp256k1

libs/go/libp2p_node/utils/utils.go:330-388, 441-456 and 599-608, libs/go/aealite/wallet/utils.go:168-229,
282-296 and 398-408.

Written out here is the published behaviour of the libraries the Go code calls: the group of secp256k1 (in
affine coordinates; btcec computes the same points in Jacobian ones), `btcec.PrivKeyFromBytes`,
`PrivateKey.Sign` and `Signature.Serialize` of btcec, `ecdsa.Verify` of the standard library (called by
`Signature.Verify`), and `Sign` and `Verify` of the secp256k1 keys of go-libp2p-core. The nonce of RFC 6979 and
SHA-256 are parameters.
-/

namespace Verif

/-! ## The group -/

/-- The inverse of an element of the field. -/
def fieldInv (a : Nat) : Nat := powMod fieldP a (fieldP - 2)

/-- The slope of the line through two points, the tangent if they are equal. -/
def curveSlope (a b : CurveKey) : Nat :=
  if a.x = b.x then 3 * a.x * a.x * fieldInv (2 * a.y % fieldP) % fieldP
  else (b.y + (fieldP - a.y)) * fieldInv ((b.x + (fieldP - a.x)) % fieldP) % fieldP

/-- The third point of a line, reflected. -/
def curveThird (a b : CurveKey) (l : Nat) : CurveKey :=
  let x := (l * l + (fieldP - a.x) + (fieldP - b.x)) % fieldP
  ⟨x, (l * (a.x + (fieldP - x)) + (fieldP - a.y)) % fieldP⟩

/-- Addition of points; `none` is the point at infinity (in Go, the coordinates are both zero). -/
def curveAdd : Option CurveKey → Option CurveKey → Option CurveKey
  | none, q => q
  | some a, none => some a
  | some a, some b =>
    if a.x = b.x ∧ (a.y + b.y) % fieldP = 0 then none
    else some (curveThird a b (curveSlope a b))

/-- Double and add, for a number below two to the `fuel`. -/
def curveMulAux : Nat → Nat → Option CurveKey → Option CurveKey
  | 0, _, _ => none
  | fuel + 1, n, p =>
    let r := curveMulAux fuel (n / 2) (curveAdd p p)
    if n % 2 = 1 then curveAdd p r else r

/-- `ScalarMult` -/
def curveMul (n : Nat) (p : Option CurveKey) : Option CurveKey := curveMulAux (n.log2 + 1) n p

/-- The base point. -/
def curveG : CurveKey :=
  ⟨0x79be667ef9dcbbac55a06295ce870b07029bfcdb2dce28d959f2815b16f81798,
   0x483ada7726a3c4655da4fbfc0e1108a8fd17b448a68554199c47d08ffb10d4b8⟩

/-- The coordinates Go uses for a point: both zero at infinity. -/
def coordsOf : Option CurveKey → CurveKey
  | none => ⟨0, 0⟩
  | some k => k

/-! ## Keys -/

/-- The public key of `btcec.PrivKeyFromBytes`, for the number the bytes are. -/
def publicOf (d : Nat) : CurveKey := coordsOf (curveMul d (some curveG))

/-- `KeyPairFromFetchAIKey`: utils.go:442-456. The private and the public key. Nothing is asked of the length
or the size of the number. -/
def keyPairOf (key : Bytes) : Option (Nat × CurveKey) :=
  match hexDecode key with
  | none => none
  | some b => some (beNat b, publicOf (beNat b))

/-- `FetchAIPublicKeyFromFetchAIPrivateKey`: utils.go:600-608; `FetchAIPublicKeyFromPrivateKey`:
wallet/utils.go:398-408. -/
def publicTextOf (key : Bytes) : Option Bytes :=
  match hexDecode key with
  | none => none
  | some b => some (hexEncode (compressedKey (publicOf (beNat b))))

/-! ## Signatures -/

/-- `hashToInt`, for an order of 256 bits -/
def hashToInt (hash : Bytes) : Nat := beNat (hash.take 32)

/-- The inverse modulo the order. -/
def orderInv (a : Nat) : Nat := powMod curveN a (curveN - 2)

/-- `signRFC6979` of btcec with the nonce `k`. -/
def ecdsaSign (k d e : Nat) : Option (Nat × Nat) :=
  let r := (publicOf k).x % curveN
  if r = 0 then none
  else
    let s := (d * r + e) * orderInv k % curveN
    let s' := if curveN / 2 < s then curveN - s else s
    if s' = 0 then none else some (r, s')

/-- `ecdsa.Verify` of the standard library -/
def ecdsaVerify (q : CurveKey) (e r s : Nat) : Bool :=
  if r = 0 ∨ s = 0 ∨ curveN ≤ r ∨ curveN ≤ s then false
  else
    let w := orderInv s
    let u1 := e * w % curveN
    let u2 := r * w % curveN
    match curveAdd (curveMul u1 (some curveG)) (curveMul u2 (some q)) with
    | none => false
    | some p => p.x % curveN == r

/-- `canonicalizeInt` of btcec -/
def canonicalInt (n : Nat) : Bytes :=
  match bytesOfNat n with
  | [] => [0]
  | b :: rest => if 128 ≤ b then 0 :: b :: rest else b :: rest

/-- `Signature.Serialize` of btcec -/
def serializeSig (r s : Nat) : Bytes :=
  let s' := if curveN / 2 < s then curveN - s else s
  let rb := canonicalInt r
  let sb := canonicalInt s'
  [0x30, (4 + rb.length + sb.length).toUInt8, 0x02, rb.length.toUInt8] ++ rb ++ [0x02, sb.length.toUInt8] ++ sb

/-- `Sign` of a libp2p key; `nonce` is `nonceRFC6979`. -/
def libp2pSign (sha256 : Bytes → Bytes) (nonce : Nat → Bytes → Nat) (d : Nat) (message : Bytes) : Option Bytes :=
  (ecdsaSign (nonce d (sha256 message)) d (hashToInt (sha256 message))).map fun (r, s) => serializeSig r s

/-- `Verify` of a libp2p key; `none` is an error. -/
def libp2pVerify (sha256 : Bytes → Bytes) (q : CurveKey) (message sig : Bytes) : Option Bool :=
  match parseSig true sig with
  | none => none
  | some (r, s) => some (ecdsaVerify q (hashToInt (sha256 message)) r s)

/-- The first two steps of `SignFetchAI`: `KeyPairFromFetchAIKey` and `Sign`. -/
def keySign (sha256 : Bytes → Bytes) (nonce : Nat → Bytes → Nat) (key message : Bytes) : Option Bytes :=
  match keyPairOf key with
  | none => none
  | some (d, _) => libp2pSign sha256 nonce d message

/-- `VerifyFetchAISignatureLibp2p`: utils.go:354-370, wallet/utils.go:193-212. `none` is an error. -/
def verifyFetchAILibp2p (strictX : Bool) (P : Prims) (message signature pubKey : Bytes) : Option Bool :=
  match pubKeyFromText strictX pubKey with
  | none => none
  | some q =>
    match P.base64 signature with
    | none => none
    | some sb => libp2pVerify P.sha256 q message (strToDer sb)

/-- Primitives whose curve operations are those of secp256k1. -/
structure CurvePrims (strictX : Bool) (P : Prims) : Prop where
  /-- `btcec.ParsePubKey` -/
  keyOk : ∀ b, P.pubKeyOk b = (parsePubKey strictX b).isSome
  /-- `Signature.Verify` -/
  ecdsa : ∀ h r s b q, parsePubKey strictX b = some q → P.ecdsa h r s b = ecdsaVerify q (hashToInt h) r s

end Verif
