import Verif.Model.Ecdsa
import Verif.Model.RetryError

/-!
# Recovering a key from an ethereum signature

libs/go/libp2p_node/utils/utils.go:390-418, libs/go/aealite/wallet/utils.go:231-259. `SigToPub` and
`PubkeyToAddress` of go-ethereum are written out from their published behaviour: 65 bytes, the two numbers in 32
bytes each and a recovery id below 4, of which the lowest bit is the parity of the point and the next says that
the order was subtracted from its first coordinate.
-/

namespace Verif

/-- The message `signHashETH` hashes: utils.go:391 -/
def ethMessage (data : Bytes) : Bytes :=
  25 :: b! "Ethereum Signed Message:" ++ [10] ++ RetryError.decimal data.length ++ data

/-- The key of the point `s/r · R - e/r · G`; `none` if it is at infinity. -/
def recoverFrom (e r s : Nat) (point : CurveKey) : Option CurveKey :=
  let w := orderInv r
  let u1 := (curveN - e % curveN) * w % curveN
  let u2 := s * w % curveN
  curveAdd (curveMul u1 (some curveG)) (curveMul u2 (some point))

/-- `SigToPub`: the number of the hash, and the bytes of the signature. -/
def recoverKey (e : Nat) (sig : Bytes) : Option CurveKey :=
  if sig.length ≠ 65 then none
  else
    let r := beNat (sig.take 32)
    let s := beNat ((sig.drop 32).take 32)
    match sig[64]? with
    | none => none
    | some v =>
      if 4 ≤ v.toNat then none
      else if r = 0 ∨ s = 0 ∨ curveN ≤ r ∨ curveN ≤ s then none
      else
        let x := if 2 ≤ v.toNat then r + curveN else r
        if fieldP ≤ x then none
        else match decompressY x (v.toNat % 2) with
          | none => none
          | some y => recoverFrom e r s ⟨x, y⟩

/-- `PubkeyToAddress(key).Hex()` -/
def keyAddress (P : Prims) (q : CurveKey) : Res Unit Bytes :=
  eip55 P ((P.keccak (natBE 32 q.x ++ natBE 32 q.y)).drop 12)

/-- `signHashETH` and `SigToPub`, then `PubkeyToAddress(..).Hex()`. -/
def ethRecoverText (P : Prims) (message sig : Bytes) : Option Bytes :=
  match recoverKey (hashToInt (P.keccak (ethMessage message))) sig with
  | none => none
  | some q =>
    match keyAddress P q with
    | .ok a => some a
    | _ => none

/-- Primitives whose recovery is that of secp256k1, and whose hash has 32 bytes. -/
structure EthPrims (P : Prims) : Prop where
  recover : ∀ m sb, P.ethRecover m sb = ethRecoverText P m sb
  hash : ∀ b, (P.keccak b).length = 32

end Verif
