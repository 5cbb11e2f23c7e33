import Verif.Model.Ecdsa

/-!
# The three hash functions

`crypto/sha256`, `golang.org/x/crypto/ripemd160` and `sha3.NewLegacyKeccak256`, used at
libs/go/libp2p_node/utils/utils.go:340, 380, 392, 485-495, 516-519 and libs/go/aealite/wallet/utils.go, written out
from the published standards (FIPS 180-4; Dobbertin, Bosselaers and Preneel 1996; the Keccak submission, with the
padding byte 1). Words are numbers.
-/

namespace Verif

/-- The value first, then the function: evaluates to `f n`. -/
def forceNat {α : Type} (n : Nat) (f : Nat → α) : α :=
  match n with
  | 0 => f 0
  | k + 1 => f (k + 1)

/-- The values first, then the function: evaluates to `f l`. -/
def forceList {α : Type} : List Nat → (List Nat → α) → α
  | [], f => f []
  | x :: xs, f => forceNat x fun x => forceList xs fun xs => f (x :: xs)

def word32 (n : Nat) : Nat := n % 0x100000000

def rotl32 (n k : Nat) : Nat := word32 (n <<< k) ||| (n >>> (32 - k))

def rotr32 (n k : Nat) : Nat := rotl32 n (32 - k)

def not32 (n : Nat) : Nat := 0xffffffff ^^^ n

def rotl64 (n k : Nat) : Nat := (n <<< k) % 0x10000000000000000 ||| (n >>> (64 - k))

/-- The bytes of a number, the lowest first. -/
def natLE : Nat → Nat → Bytes
  | 0, _ => []
  | k + 1, n => UInt8.ofNat (n % 256) :: natLE k (n / 256)

/-- The number of bytes, the lowest first. -/
def leNat : Bytes → Nat
  | [] => 0
  | x :: b => x.toNat + 256 * leNat b

/-- `k` groups of `size` bytes, each as a number. -/
def wordsOf (read : Bytes → Nat) (size : Nat) : Nat → Bytes → List Nat
  | 0, _ => []
  | k + 1, b => read (b.take size) :: wordsOf read size k (b.drop size)

/-- The bytes of the first `k` words. -/
def wordsTo (write : Nat → Bytes) : Nat → List Nat → Bytes
  | 0, _ => []
  | k + 1, w => write (w.headD 0) ++ wordsTo write k w.tail

/-- A message of these bytes, a one bit, zeros, and the length in bits as `len` gives it, in blocks of 64 bytes. -/
def padded64 (len : Nat → Bytes) (b : Bytes) : Bytes :=
  b ++ 0x80 :: List.replicate ((119 - b.length % 64) % 64) 0 ++ len (8 * b.length)

/-- Runs `f` over `k` blocks. -/
def overBlocks (size : Nat) (f : List Nat → Bytes → List Nat) : Nat → List Nat → Bytes → List Nat
  | 0, st, _ => st
  | k + 1, st, b => forceList (f st (b.take size)) fun st => overBlocks size f k st (b.drop size)

/-! ## SHA-256 -/

def sha256K : List Nat := [
    0x428a2f98, 0x71374491, 0xb5c0fbcf, 0xe9b5dba5, 0x3956c25b, 0x59f111f1, 0x923f82a4, 0xab1c5ed5,
    0xd807aa98, 0x12835b01, 0x243185be, 0x550c7dc3, 0x72be5d74, 0x80deb1fe, 0x9bdc06a7, 0xc19bf174,
    0xe49b69c1, 0xefbe4786, 0xfc19dc6, 0x240ca1cc, 0x2de92c6f, 0x4a7484aa, 0x5cb0a9dc, 0x76f988da,
    0x983e5152, 0xa831c66d, 0xb00327c8, 0xbf597fc7, 0xc6e00bf3, 0xd5a79147, 0x6ca6351, 0x14292967,
    0x27b70a85, 0x2e1b2138, 0x4d2c6dfc, 0x53380d13, 0x650a7354, 0x766a0abb, 0x81c2c92e, 0x92722c85,
    0xa2bfe8a1, 0xa81a664b, 0xc24b8b70, 0xc76c51a3, 0xd192e819, 0xd6990624, 0xf40e3585, 0x106aa070,
    0x19a4c116, 0x1e376c08, 0x2748774c, 0x34b0bcb5, 0x391c0cb3, 0x4ed8aa4a, 0x5b9cca4f, 0x682e6ff3,
    0x748f82ee, 0x78a5636f, 0x84c87814, 0x8cc70208, 0x90befffa, 0xa4506ceb, 0xbef9a3f7, 0xc67178f2]

def sha256Init : List Nat := [
    0x6a09e667, 0xbb67ae85, 0x3c6ef372, 0xa54ff53a, 0x510e527f, 0x9b05688c, 0x1f83d9ab, 0x5be0cd19]

/-- The words of the schedule, the last first; the words so far are given the last first. -/
def sha256Schedule : Nat → List Nat → List Nat
  | 0, w => w
  | k + 1, w =>
    let w2 := w.getD 1 0
    let w15 := w.getD 14 0
    let s1 := rotr32 w2 17 ^^^ rotr32 w2 19 ^^^ (w2 >>> 10)
    let s0 := rotr32 w15 7 ^^^ rotr32 w15 18 ^^^ (w15 >>> 3)
    forceNat (word32 (s1 + w.getD 6 0 + s0 + w.getD 15 0)) fun v => sha256Schedule k (v :: w)

def sha256Rounds : List Nat → List Nat → List Nat → List Nat
  | k :: ks, w :: ws, [a, b, c, d, e, f, g, h] =>
    let s1 := rotr32 e 6 ^^^ rotr32 e 11 ^^^ rotr32 e 25
    let ch := (e &&& f) ^^^ (not32 e &&& g)
    let s0 := rotr32 a 2 ^^^ rotr32 a 13 ^^^ rotr32 a 22
    let maj := (a &&& b) ^^^ (a &&& c) ^^^ (b &&& c)
    forceNat (h + s1 + ch + k + w) fun t1 =>
    forceNat (word32 (t1 + s0 + maj)) fun a' =>
    forceNat (word32 (d + t1)) fun e' => sha256Rounds ks ws [a', a, b, c, e', e, f, g]
  | _, _, st => st

def sha256Block (st : List Nat) (b : Bytes) : List Nat :=
  List.zipWith (fun x y => word32 (x + y)) st
    (sha256Rounds sha256K (sha256Schedule 48 (wordsOf beNat 4 16 b).reverse).reverse st)

/-- `sha256.Sum256` -/
def sha256 (b : Bytes) : Bytes :=
  let m := padded64 (natBE 8) b
  wordsTo (natBE 4) 8 (overBlocks 64 sha256Block (m.length / 64) sha256Init m)

/-! ## RIPEMD-160 -/

def ripemdR : List Nat := [
    0, 1, 2, 3, 4, 5, 6, 7, 8, 9, 10, 11, 12, 13, 14, 15,
    7, 4, 13, 1, 10, 6, 15, 3, 12, 0, 9, 5, 2, 14, 11, 8,
    3, 10, 14, 4, 9, 15, 8, 1, 2, 7, 0, 6, 13, 11, 5, 12,
    1, 9, 11, 10, 0, 8, 12, 4, 13, 3, 7, 15, 14, 5, 6, 2,
    4, 0, 5, 9, 7, 12, 2, 10, 14, 1, 3, 8, 11, 6, 15, 13]

def ripemdR' : List Nat := [
    5, 14, 7, 0, 9, 2, 11, 4, 13, 6, 15, 8, 1, 10, 3, 12,
    6, 11, 3, 7, 0, 13, 5, 10, 14, 15, 8, 12, 4, 9, 1, 2,
    15, 5, 1, 3, 7, 14, 6, 9, 11, 8, 12, 2, 10, 0, 4, 13,
    8, 6, 4, 1, 3, 11, 15, 0, 5, 12, 2, 13, 9, 7, 10, 14,
    12, 15, 10, 4, 1, 5, 8, 7, 6, 2, 13, 14, 0, 3, 9, 11]

def ripemdS : List Nat := [
    11, 14, 15, 12, 5, 8, 7, 9, 11, 13, 14, 15, 6, 7, 9, 8,
    7, 6, 8, 13, 11, 9, 7, 15, 7, 12, 15, 9, 11, 7, 13, 12,
    11, 13, 6, 7, 14, 9, 13, 15, 14, 8, 13, 6, 5, 12, 7, 5,
    11, 12, 14, 15, 14, 15, 9, 8, 9, 14, 5, 6, 8, 6, 5, 12,
    9, 15, 5, 11, 6, 8, 13, 12, 5, 12, 13, 14, 11, 8, 5, 6]

def ripemdS' : List Nat := [
    8, 9, 9, 11, 13, 15, 15, 5, 7, 7, 8, 11, 14, 14, 12, 6,
    9, 13, 15, 7, 12, 8, 9, 11, 7, 7, 12, 7, 6, 15, 13, 11,
    9, 7, 15, 11, 8, 6, 6, 14, 12, 13, 5, 14, 13, 13, 7, 5,
    15, 5, 8, 11, 14, 14, 6, 14, 6, 9, 12, 9, 12, 5, 15, 8,
    8, 5, 12, 9, 12, 5, 14, 6, 8, 13, 6, 5, 15, 13, 11, 11]

/-- The five functions. -/
def ripemdF (round x y z : Nat) : Nat :=
  match round with
  | 0 => x ^^^ y ^^^ z
  | 1 => (x &&& y) ||| (not32 x &&& z)
  | 2 => (x ||| not32 y) ^^^ z
  | 3 => (x &&& z) ||| (y &&& not32 z)
  | _ => x ^^^ (y ||| not32 z)

def ripemdK (round : Nat) : Nat := [0, 0x5a827999, 0x6ed9eba1, 0x8f1bbcdc, 0xa953fd4e].getD round 0

def ripemdK' (round : Nat) : Nat := [0x50a28be6, 0x5c4dd124, 0x6d703ef3, 0x7a6d76e9, 0].getD round 0

/-- One line: the function and the constant for each step, the order of the words, and the rotations. -/
def ripemdLine (f : Nat → Nat → Nat → Nat → Nat) (k : Nat → Nat) (w : List Nat) :
    Nat → List Nat → List Nat → List Nat → List Nat
  | j, r :: rs, s :: ss, [a, b, c, d, e] =>
    forceNat (word32 (rotl32 (word32 (a + f (j / 16) b c d + w.getD r 0 + k (j / 16))) s + e)) fun t =>
    forceNat (rotl32 c 10) fun c' => ripemdLine f k w (j + 1) rs ss [e, t, b, c', d]
  | _, _, _, st => st

def ripemdJoin : List Nat → List Nat → List Nat → List Nat
  | [h0, h1, h2, h3, h4], [a, b, c, d, e], [a', b', c', d', e'] =>
    [word32 (h1 + c + d'), word32 (h2 + d + e'), word32 (h3 + e + a'), word32 (h4 + a + b'), word32 (h0 + b + c')]
  | st, _, _ => st

def ripemdBlock (st : List Nat) (b : Bytes) : List Nat :=
  forceList (wordsOf leNat 4 16 b) fun w =>
  ripemdJoin st (ripemdLine ripemdF ripemdK w 0 ripemdR ripemdS st)
    (ripemdLine (fun j => ripemdF (4 - j)) ripemdK' w 0 ripemdR' ripemdS' st)

/-- `ripemd160` -/
def ripemd160 (b : Bytes) : Bytes :=
  let m := padded64 (natLE 8) b
  wordsTo (natLE 4) 5
    (overBlocks 64 ripemdBlock (m.length / 64) [0x67452301, 0xefcdab89, 0x98badcfe, 0x10325476, 0xc3d2e1f0] m)

/-! ## Keccak-256 -/

def keccakRC : List Nat := [
    0x1, 0x8082, 0x800000000000808a, 0x8000000080008000, 0x808b, 0x80000001,
    0x8000000080008081, 0x8000000000008009, 0x8a, 0x88, 0x80008009, 0x8000000a,
    0x8000808b, 0x800000000000008b, 0x8000000000008089, 0x8000000000008003, 0x8000000000008002, 0x8000000000000080,
    0x800a, 0x800000008000000a, 0x8000000080008081, 0x8000000000008080, 0x80000001, 0x8000000080008008]

def keccakRot : List Nat := [
    0, 1, 62, 28, 27, 36, 44, 6, 55, 20, 3, 10, 43, 25, 39, 41, 45, 15, 21, 8, 18, 2, 61, 56, 14]

def keccakRound (a : List Nat) (rc : Nat) : List Nat :=
  forceList ((List.range 5).map fun x =>
    a.getD x 0 ^^^ a.getD (x + 5) 0 ^^^ a.getD (x + 10) 0 ^^^ a.getD (x + 15) 0 ^^^ a.getD (x + 20) 0) fun c =>
  forceList ((List.range 5).map fun x => c.getD ((x + 4) % 5) 0 ^^^ rotl64 (c.getD ((x + 1) % 5) 0) 1) fun d =>
  forceList ((List.range 25).map fun i =>
    let x := (i % 5 + 3 * (i / 5)) % 5
    let j := x + 5 * (i % 5)
    rotl64 (a.getD j 0 ^^^ d.getD x 0) (keccakRot.getD j 0)) fun b =>
  (List.range 25).map fun i =>
    let y := 5 * (i / 5)
    let next := b.getD (y + (i % 5 + 1) % 5) 0
    let over := b.getD (y + (i % 5 + 2) % 5) 0
    b.getD i 0 ^^^ (over ^^^ (next &&& over)) ^^^ (if i = 0 then rc else 0)

def keccakRounds : List Nat → List Nat → List Nat
  | [], a => a
  | rc :: rcs, a => forceList (keccakRound a rc) fun a => keccakRounds rcs a

def keccakBlock (st : List Nat) (b : Bytes) : List Nat :=
  keccakRounds keccakRC (List.zipWith (· ^^^ ·) st (wordsOf leNat 8 17 b ++ List.replicate 8 0))

/-- A byte 1, zeros and the highest bit of the last byte, in blocks of 136 bytes. -/
def keccakPad (b : Bytes) : Bytes :=
  let k := 135 - b.length % 136
  b ++ (if k = 0 then [0x81] else 1 :: List.replicate (k - 1) 0 ++ [0x80])

/-- `sha3.NewLegacyKeccak256` -/
def keccak256 (b : Bytes) : Bytes :=
  let m := keccakPad b
  wordsTo (natLE 8) 4 (overBlocks 136 keccakBlock (m.length / 136) (List.replicate 25 0) m)

end Verif
