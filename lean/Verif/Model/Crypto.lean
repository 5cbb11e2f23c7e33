import Verif.Model.Go

/-!
# Keys, addresses and signatures

libs/go/libp2p_node/utils/utils.go:236-560 and libs/go/aealite/wallet/utils.go (the same
functions for the agent side).

The hash functions, curve operations, bech32 and base64 are parameters (`Prims`). Modelled
concretely: hexadecimal text, the two signature formats, the parser of github.com/btcsuite/btcd
(`btcec.ParseDERSignature`, `btcec.ParseSignature`, whose source is not in /repo), the checksum
address and the dispatch per ledger. A slice or index out of range is a panic.
-/

namespace Verif

/-- The primitives taken from libraries. -/
structure Prims where
  /-- `sha256` -/
  sha256 : Bytes → Bytes
  /-- `ripemd160` -/
  ripemd160 : Bytes → Bytes
  /-- `sha3.NewLegacyKeccak256` -/
  keccak : Bytes → Bytes
  /-- `bech32.ConvertBits` to five bits, then `bech32.Encode` with a prefix -/
  bech32 : Bytes → Bytes → Option Bytes
  /-- `base64.StdEncoding.DecodeString` -/
  base64 : Bytes → Option Bytes
  /-- `btcec.ParsePubKey` accepts the bytes -/
  pubKeyOk : Bytes → Bool
  /-- `Signature.Verify`: hash, the two numbers, key -/
  ecdsa : Bytes → Nat → Nat → Bytes → Bool
  /-- `signHashETH` and `SigToPub`, then `PubkeyToAddress(..).Hex()`: message, 65 signature bytes -/
  ethRecover : Bytes → Bytes → Option Bytes

/-! ## Hexadecimal text -/

/-- The value of a hexadecimal digit. -/
def hexVal (c : UInt8) : Option UInt8 :=
  if 48 ≤ c ∧ c ≤ 57 then some (c - 48)
  else if 97 ≤ c ∧ c ≤ 102 then some (c - 87)
  else if 65 ≤ c ∧ c ≤ 70 then some (c - 55)
  else none

/-- `hex.DecodeString` -/
def hexDecode : Bytes → Option Bytes
  | [] => some []
  | [_] => none
  | a :: b :: rest =>
    match hexVal a, hexVal b, hexDecode rest with
    | some x, some y, some r => some ((x * 16 + y) :: r)
    | _, _, _ => none

/-- The lower-case digit of a value below sixteen. -/
def hexDigit (v : UInt8) : UInt8 := if v < 10 then 48 + v else 87 + v

/-- `hex.EncodeToString` -/
def hexEncode (b : Bytes) : Bytes := b.flatMap fun x => [hexDigit (x / 16), hexDigit (x % 16)]

/-- `hexutil.Decode` of go-ethereum: the text must begin with `0x` or `0X`. -/
def hexutilDecode (s : Bytes) : Option Bytes :=
  match s with
  | 48 :: x :: rest => if x = 120 ∨ x = 88 then hexDecode rest else none
  | _ => none

/-! ## Signatures -/

/-- `ConvertStrEncodedSignatureToDER`: utils.go:273-288, wallet/utils.go:107-124. -/
def strToDer (sig : Bytes) : Bytes :=
  let rb := sig.take (sig.length / 2)
  let sb := sig.drop (sig.length / 2)
  [0x30, (4 + rb.length + sb.length).toUInt8, 0x02, rb.length.toUInt8] ++ rb ++
    [0x02, sb.length.toUInt8] ++ sb

/-- `big.Int.SetBytes` -/
def natOfBytes (b : Bytes) : Nat := b.foldl (fun n x => n * 256 + x.toNat) 0

/-- `big.Int.Bytes`: big-endian without leading zeros. The first argument is fuel. -/
def bytesOfNatAux : Nat → Nat → Bytes
  | 0, _ => []
  | f + 1, n => if n = 0 then [] else bytesOfNatAux f (n / 256) ++ [(n % 256).toUInt8]

/-- `big.Int.Bytes` -/
def bytesOfNat (n : Nat) : Bytes := bytesOfNatAux n n

/-- The order of the group of secp256k1. -/
def curveN : Nat := 115792089237316195423570985008687907852837564279074904382605163141518161494337

/-- `canonicalPadding` of btcec: the number is not negative and not padded more than needed. -/
def canonicalPadding (b : Bytes) : Bool :=
  match b with
  | [] => true
  | b0 :: rest =>
    if 128 ≤ b0 then false
    else match rest with
      | [] => true
      | b1 :: _ => !(b0 == 0 && b1 < 128)

/-- `btcec.parseSig`. With `der` it is `ParseDERSignature`, without `ParseSignature`. -/
def parseSig (der : Bool) (sig : Bytes) : Option (Nat × Nat) :=
  if sig.length < 8 then none
  else match sig with
    | 0x30 :: sl :: rest =>
      let total := (sl + 2).toNat
      if sig.length < total ∨ total < 8 then none
      else match rest.take (total - 2) with
        | 0x02 :: rl :: rest =>
          if rl.toNat = 0 ∨ rest.length < rl.toNat + 3 then none
          else
            let rb := rest.take rl.toNat
            if der && !canonicalPadding rb then none
            else match rest.drop rl.toNat with
              | 0x02 :: slen :: sb =>
                if slen.toNat = 0 ∨ sb.length < slen.toNat then none
                else if der && !canonicalPadding (sb.take slen.toNat) then none
                else if sb.length ≠ slen.toNat then none
                else
                  let r := natOfBytes rb
                  let s := natOfBytes sb
                  if r = 0 ∨ s = 0 ∨ curveN ≤ r ∨ curveN ≤ s then none else some (r, s)
              | _ => none
        | _ => none
    | _ => none

/-- `ConvertDEREncodedSignatureToStr`: utils.go:293-299, wallet/utils.go:130-136 -/
def derToStr (sig : Bytes) : Option Bytes :=
  (parseSig true sig).map fun (r, s) => bytesOfNat r ++ bytesOfNat s

/-- `VerifyFetchAISignatureBTC`: utils.go:330-351, wallet/utils.go:168-190 -/
def verifyFetchAI (P : Prims) (message signature pubKey : Bytes) : Res Unit Bool :=
  match hexDecode pubKey with
  | none => .err ()
  | some k =>
    if !P.pubKeyOk k then .err ()
    else match P.base64 signature with
      | none => .err ()
      | some sb =>
        match parseSig false (strToDer sb) with
        | none => .err ()
        | some (r, s) => .ok (P.ecdsa (P.sha256 message) r s k)

/-! ## Addresses -/

/-- The loop of `encodeChecksumEIP55`: utils.go:528-548, wallet/utils.go:360-382. A hash shorter
than the index is a panic. -/
def eip55Aux (hash : Bytes) : Nat → Bytes → Res Unit Bytes
  | _, [] => .ok []
  | i, c :: rest =>
    match hash[i / 2]? with
    | none => .panic
    | some h =>
      let v := if i % 2 = 0 then h / 16 else h % 16
      let c' := if 57 < c ∧ 7 < v then c - 32 else c
      (eip55Aux hash (i + 1) rest).bind fun r => .ok (c' :: r)

/-- `encodeChecksumEIP55` -/
def eip55 (P : Prims) (address : Bytes) : Res Unit Bytes :=
  let text := hexEncode address
  (eip55Aux (P.keccak text) 0 text).bind fun r => .ok ([48, 120] ++ r)

/-- `EthereumAddressFromPublicKey`: utils.go:509-523. `publicKey[2:]` panics on a shorter text,
`sha3KeccakHash[12:]` on a shorter hash. -/
def ethAddress (P : Prims) (pubKey : Bytes) : Res Unit Bytes :=
  if pubKey.length < 2 then .panic
  else match hexDecode (pubKey.drop 2) with
    | none => .err ()
    | some b =>
      let h := P.keccak b
      if h.length < 12 then .panic else eip55 P (h.drop 12)

/-- `cosmosAddressFromPublicKeyWithPrefix`: utils.go:478-501 -/
def cosmosAddress (P : Prims) (pre pubKey : Bytes) : Res Unit Bytes :=
  match hexDecode pubKey with
  | none => .err ()
  | some b =>
    match P.bech32 pre (P.ripemd160 (P.sha256 b)) with
    | none => .err ()
    | some a => .ok a

/-- `AgentAddressFromPublicKey`: utils.go:459-464 with the table of lines 67-71 -/
def addressOf (P : Prims) (ledger pubKey : Bytes) : Res Unit Bytes :=
  if ledger = b! "fetchai" then cosmosAddress P (b! "fetch") pubKey
  else if ledger = b! "cosmos" then cosmosAddress P (b! "cosmos") pubKey
  else if ledger = b! "ethereum" then ethAddress P pubKey
  else .err ()

/-- `RecoverAddressFromEthereumSignature`: utils.go:399-418. `sigBytes[64]` panics on fewer
bytes. -/
def ethRecoverAddress (P : Prims) (message signature : Bytes) : Res Unit Bytes :=
  match hexutilDecode signature with
  | none => .err ()
  | some sb =>
    match sb[64]? with
    | none => .panic
    | some v =>
      if v ≠ 27 ∧ v ≠ 28 then .err ()
      else match P.ethRecover message (sb.set 64 (v - 27)) with
        | none => .err ()
        | some a => .ok a

/-- `VerifyEthereumSignatureETH`: utils.go:421-439 -/
def verifyEth (P : Prims) (message signature pubKey : Bytes) : Res Unit Bool :=
  (ethAddress P pubKey).bind fun expected =>
    (ethRecoverAddress P message signature).bind fun recovered =>
      if recovered ≠ expected then .err () else .ok true

/-- `VerifyLedgerSignature`: utils.go:316-327 with the table of lines 72-76 -/
def verifyLedger (P : Prims) (ledger message signature pubKey : Bytes) : Res Unit Bool :=
  if ledger = b! "fetchai" then verifyFetchAI P message signature pubKey
  else if ledger = b! "cosmos" then verifyFetchAI P message signature pubKey
  else if ledger = b! "ethereum" then verifyEth P message signature pubKey
  else .err ()

end Verif
