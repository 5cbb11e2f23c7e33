import Verif.Model.PubKey
import Verif.Model.Hashes

/-!
# Texts of peer ids

`Pretty` and `peer.Decode` of go-libp2p-core v0.5.3 (`go.mod`), as far as dhtpeer.go:503, 1155, 1558, 1577, 1588,
1757, dhtpeer.go:360, 1019-1026 and dhtclient.go:104, 425, 527 use them: base 58 of github.com/mr-tron/base58, and
`FromB58String`, `Cast` and `Decode` of go-multihash v0.0.13. `IDFromPublicKey` is used at dhtpeer.go:358, 1553, 1572
and utils.go:562, 591.

The libraries are not in `/repo`; they are written out from their published behaviour. Base 58 is given by its
arithmetic (the code carries words of 32 bits). Which codes of hash functions are known, how numbers of several
bytes are read, and ids that are given as content ids are parameters (`IdWorld`).
-/

namespace Verif

/-! ## Base 58 -/

/-- The number with these digits, the highest first. -/
def baseValue (base : Nat) (ds : List Nat) : Nat := ds.foldl (fun n d => n * base + d) 0

/-- The digits of a number, the highest first, before `acc`. -/
def baseDigits (base : Nat) : Nat → Nat → List Nat → List Nat
  | 0, _, acc => acc
  | fuel + 1, n, acc => if n = 0 then acc else baseDigits base fuel (n / base) (n % base :: acc)

/-- Digits in another base; zeros at the front are kept one by one. -/
def rebase (b1 b2 : Nat) (ds : List Nat) : List Nat :=
  ds.takeWhile (· == 0) ++ baseDigits b2 (2 * ds.length) (baseValue b1 ds) []

/-- `BTCAlphabet` -/
def base58Alphabet : Bytes := b! "123456789ABCDEFGHJKLMNPQRSTUVWXYZabcdefghijkmnopqrstuvwxyz"

/-- A symbol's value. -/
def base58Digit (c : UInt8) : Option Nat := base58Alphabet.idxOf? c

/-- The values of all symbols. -/
def base58Digits : Bytes → Option (List Nat)
  | [] => some []
  | c :: cs =>
    match base58Digit c, base58Digits cs with
    | some d, some ds => some (d :: ds)
    | _, _ => none

/-- `FastBase58Encoding` -/
def base58Encode (b : Bytes) : Bytes :=
  (rebase 256 58 (b.map UInt8.toNat)).map fun d => base58Alphabet.getD d 0

/-- `FastBase58Decoding`: an error for the empty text. -/
def base58Decode (t : Bytes) : Option Bytes :=
  if t = [] then none
  else
    match base58Digits t with
    | none => none
    | some ds => some ((rebase 58 256 ds).map UInt8.ofNat)

/-! ## Multihashes and peer ids -/

/-- What is left open of the libraries. -/
structure IdWorld where
  /-- a number at the front, and what follows it -/
  uvarint : Bytes → Option (Nat × Bytes)
  /-- `ValidCode` -/
  knownCode : Nat → Bool
  /-- `cid.Decode` and then `FromCid` -/
  fromCid : Bytes → Option Bytes

/-- `readMultihashFromBuf`, the test of the length in `Decode`, and `ValidCode` in `Cast`. -/
def multihashOk (W : IdWorld) (b : Bytes) : Bool :=
  if b.length < 2 then false
  else
    match W.uvarint b with
    | none => false
    | some (code, b1) =>
      match W.uvarint b1 with
      | none => false
      | some (n, digest) =>
        if n > 2 ^ 31 - 1 then false
        else if n > digest.length then false
        else if digest.length ≠ n then false
        else W.knownCode code

/-- `ID.Pretty` -/
def prettyId (id : Bytes) : Bytes := base58Encode id

/-- `peer.Decode` -/
def peerDecode (W : IdWorld) (s : Bytes) : Option Bytes :=
  if (b! "Qm").isPrefixOf s || (b! "1").isPrefixOf s then
    match base58Decode s with
    | none => none
    | some b => if multihashOk W b then some b else none
  else W.fromCid s

/-- `IDFromPublicKey` for the bytes of a public key of any type: keys of up to 42 bytes are in the id itself. -/
def idOfKeyBytes (b : Bytes) : Bytes :=
  if b.length ≤ 42 then 0 :: UInt8.ofNat b.length :: b else 0x12 :: 0x20 :: sha256 b

/-- `FromUvarint` of go-varint: up to nine bytes, the shortest form. -/
def goUvarintAux : Nat → Nat → Nat → Bytes → Option (Nat × Bytes)
  | 0, _, _, _ => none
  | _ + 1, _, _, [] => none
  | fuel + 1, shift, x, c :: cs =>
    if c.toNat < 128 then
      if c = 0 ∧ shift > 0 then none else some (x + c.toNat * 2 ^ shift, cs)
    else goUvarintAux fuel (shift + 7) (x + (c.toNat - 128) * 2 ^ shift) cs

/-- `FromUvarint` -/
def goUvarint (b : Bytes) : Option (Nat × Bytes) := goUvarintAux 9 0 0 b

end Verif
