import Verif.Model.Hashes
import Verif.Model.EthRecover

/-!
# The text codes of signatures, addresses and content ids

`base64.StdEncoding` (libs/go/libp2p_node/utils/utils.go:304, 362, 386), `bech32.ConvertBits` and `bech32.Encode` of
btcutil (utils.go:497-501) and `ComputeCID` (utils.go:203-218), written out from the published behaviour of the
libraries; with them all primitives are functions.
-/

namespace Verif

/-! ## Base 64 -/

def base64Alphabet : Bytes := b! "ABCDEFGHIJKLMNOPQRSTUVWXYZabcdefghijklmnopqrstuvwxyz0123456789+/"

def base64Char (n : Nat) : UInt8 := base64Alphabet.getD n 0

/-- The entry of the decoding table. -/
def base64Val (c : UInt8) : Option Nat :=
  if 65 ≤ c ∧ c ≤ 90 then some (c.toNat - 65)
  else if 97 ≤ c ∧ c ≤ 122 then some (c.toNat - 71)
  else if 48 ≤ c ∧ c ≤ 57 then some (c.toNat + 4)
  else if c = 43 then some 62
  else if c = 47 then some 63
  else none

/-- `EncodeToString` -/
def base64Encode : Bytes → Bytes
  | [] => []
  | [a] => [base64Char (a.toNat / 4), base64Char (a.toNat % 4 * 16), 61, 61]
  | [a, b] => [base64Char (a.toNat / 4), base64Char (a.toNat % 4 * 16 + b.toNat / 16),
      base64Char (b.toNat % 16 * 4), 61]
  | a :: b :: c :: rest =>
    base64Char (a.toNat / 4) :: base64Char (a.toNat % 4 * 16 + b.toNat / 16) ::
      base64Char (b.toNat % 16 * 4 + c.toNat / 64) :: base64Char (c.toNat % 64) :: base64Encode rest

/-- The quanta of four, once the ends of lines are left out. The unused bits of the last symbol are not looked at
(the encoding is not `Strict`). -/
def base64Quanta : Bytes → Option Bytes
  | [] => some []
  | p :: q :: r :: s :: rest =>
    match base64Val p, base64Val q with
    | some p, some q =>
      if r = 61 then
        if s = 61 ∧ rest = [] then some [UInt8.ofNat (p * 4 + q / 16)] else none
      else match base64Val r with
        | none => none
        | some r =>
          if s = 61 then
            if rest = [] then some [UInt8.ofNat (p * 4 + q / 16), UInt8.ofNat (q % 16 * 16 + r / 4)] else none
          else match base64Val s, base64Quanta rest with
            | some s, some out =>
              some (UInt8.ofNat (p * 4 + q / 16) :: UInt8.ofNat (q % 16 * 16 + r / 4) ::
                UInt8.ofNat (r % 4 * 64 + s) :: out)
            | _, _ => none
    | _, _ => none
  | _ => none

/-- `DecodeString`: ends of lines are left out wherever they are. -/
def base64Decode (t : Bytes) : Option Bytes := base64Quanta (t.filter fun c => c ≠ 10 ∧ c ≠ 13)

/-! ## Bech32 -/

/-- The bits of a number below two to the `k`, the highest first. -/
def bitsOf : Nat → Nat → List Bool
  | 0, _ => []
  | k + 1, n => bitsOf k (n / 2) ++ [n % 2 == 1]

/-- The number of bits, the highest first. -/
def ofBits (l : List Bool) : Nat := l.foldl (fun n b => 2 * n + b.toNat) 0

/-- Groups of five bits; the last one is filled with zeros. -/
def groups5 : List Bool → List Nat
  | a :: b :: c :: d :: e :: rest => ofBits [a, b, c, d, e] :: groups5 rest
  | [] => []
  | l => [ofBits (l ++ List.replicate (5 - l.length) false)]

/-- `ConvertBits(data, 8, 5, true)` -/
def convertBits (data : Bytes) : List Nat := groups5 (data.flatMap fun x => bitsOf 8 x.toNat)

def bech32Charset : Bytes := b! "qpzry9x8gf2tvdw0s3jn54khce6mua7l"

/-- The generators, by the bits that select them. -/
def bech32Gen (b : Nat) : Nat :=
  (if b.testBit 0 then 0x3b6a57b2 else 0) ^^^ (if b.testBit 1 then 0x26508e6d else 0) ^^^
  (if b.testBit 2 then 0x1ea119fa else 0) ^^^ (if b.testBit 3 then 0x3d4233dd else 0) ^^^
  (if b.testBit 4 then 0x2a1462b3 else 0)

def bech32Step (chk v : Nat) : Nat := ((chk &&& 0x1ffffff) <<< 5 ^^^ v) ^^^ bech32Gen (chk >>> 25)

/-- `bech32Polymod`, from any state. -/
def bech32Run : Nat → List Nat → Nat
  | chk, [] => chk
  | chk, v :: vs => bech32Run (bech32Step chk v) vs

/-- `bech32HrpExpand` -/
def bech32Expand (hrp : Bytes) : List Nat :=
  hrp.map (fun c => c.toNat / 32) ++ 0 :: hrp.map (fun c => c.toNat % 32)

/-- `bech32Checksum` -/
def bech32Checksum (hrp : Bytes) (data : List Nat) : List Nat :=
  let polymod := bech32Run 1 (bech32Expand hrp ++ data ++ [0, 0, 0, 0, 0, 0]) ^^^ 1
  [(polymod >>> 25) &&& 31, (polymod >>> 20) &&& 31, (polymod >>> 15) &&& 31, (polymod >>> 10) &&& 31,
    (polymod >>> 5) &&& 31, polymod &&& 31]

/-- `toChars` -/
def bech32Chars : List Nat → Option Bytes
  | [] => some []
  | v :: vs =>
    match bech32Charset[v]?, bech32Chars vs with
    | some c, some cs => some (c :: cs)
    | _, _ => none

/-- `Encode` -/
def bech32Encode (hrp : Bytes) (data : List Nat) : Option Bytes :=
  match bech32Chars (data ++ bech32Checksum hrp data) with
  | none => none
  | some cs => some (hrp ++ 49 :: cs)

/-- `ConvertBits`, then `Encode`: utils.go:497-501 -/
def bech32Text (hrp hash : Bytes) : Option Bytes := bech32Encode hrp (convertBits hash)

/-! ## Content ids -/

/-- `ComputeCID`: utils.go:203-218. Version 0: the multihash itself, of SHA-256 with its 32 bytes. There is no error
for this prefix. -/
def computeCid (addr : Bytes) : Bytes := 0x12 :: 0x20 :: sha256 addr

/-! ## All primitives -/

/-- The libraries the code calls; `strictX` as for `parsePubKey`. -/
def goPrims (strictX : Bool) : Prims where
  sha256 := sha256
  ripemd160 := ripemd160
  keccak := keccak256
  bech32 := bech32Text
  base64 := base64Decode
  pubKeyOk b := (parsePubKey strictX b).isSome
  ecdsa h r s b :=
    match parsePubKey strictX b with
    | none => false
    | some q => ecdsaVerify q (hashToInt h) r s
  ethRecover m sb :=
    match recoverKey (hashToInt (keccak256 (ethMessage m))) sb with
    | none => none
    | some q =>
      let text := hexEncode ((keccak256 (natBE 32 q.x ++ natBE 32 q.y)).drop 12)
      match eip55Aux (keccak256 text) 0 text with
      | .ok r => some ([48, 120] ++ r)
      | _ => none

end Verif
