import Verif.Model.Go

/-!
# RIPEMD-160 as Dobbertin, Bosselaers and Preneel define it

Words are vectors of 32 bits; the orders of the words and the rotations come from the permutations and the table of
the paper. Messages are of whole bytes.
-/

namespace Verif.Ripemd

abbrev Word := BitVec 32

/-- The function of each round, counted from 0. -/
def f : Nat → Word → Word → Word → Word
  | 0, x, y, z => x ^^^ y ^^^ z
  | 1, x, y, z => (x &&& y) ||| (~~~x &&& z)
  | 2, x, y, z => (x ||| ~~~y) ^^^ z
  | 3, x, y, z => (x &&& z) ||| (y &&& ~~~z)
  | _, x, y, z => x ^^^ (y ||| ~~~z)

/-- The permutation ρ -/
def rho (i : Nat) : Nat := [7, 4, 13, 1, 10, 6, 15, 3, 12, 0, 9, 5, 2, 14, 11, 8].getD i 0

/-- The permutation π -/
def pi (i : Nat) : Nat := (9 * i + 5) % 16

/-- The permutation ρ, applied as often as the number of the round says. -/
def rhoTimes : Nat → Nat → Nat
  | 0, i => i
  | n + 1, i => rho (rhoTimes n i)

/-- By how much is rotated, for each round and each word of the block. -/
def shift (round word : Nat) : Nat :=
  ([[11, 14, 15, 12, 5, 8, 7, 9, 11, 13, 14, 15, 6, 7, 9, 8],
    [12, 13, 11, 15, 6, 9, 9, 7, 12, 15, 11, 13, 7, 8, 7, 7],
    [13, 15, 14, 11, 7, 7, 6, 8, 13, 14, 13, 12, 5, 5, 6, 9],
    [14, 11, 12, 14, 8, 6, 5, 5, 15, 12, 15, 14, 9, 9, 8, 6],
    [15, 12, 13, 13, 9, 5, 8, 6, 14, 11, 12, 11, 8, 6, 5, 5]].getD round []).getD word 0

structure Vars where
  (a b c d e : Word)

def Vars.step (g : Word → Word → Word → Word) (k x : Word) (s : Nat) (v : Vars) : Vars :=
  { a := v.e, b := (v.a + g v.b v.c v.d + x + k).rotateLeft s + v.e, c := v.b, d := v.c.rotateLeft 10, e := v.d }

/-- The left line: step `j` takes the word `ρ^round (j mod 16)`. -/
def left (k : Nat → Word) (x : Nat → Word) (v : Vars) : Vars :=
  (List.range' 0 80).foldl (fun v j =>
    let w := rhoTimes (j / 16) (j % 16)
    v.step (f (j / 16)) (k (j / 16)) (x w) (shift (j / 16) w)) v

/-- The right line: the functions in the other order, and the words `ρ^round (π (j mod 16))`. -/
def right (k : Nat → Word) (x : Nat → Word) (v : Vars) : Vars :=
  (List.range' 0 80).foldl (fun v j =>
    let w := rhoTimes (j / 16) (pi (j % 16))
    v.step (f (4 - j / 16)) (k (j / 16)) (x w) (shift (j / 16) w)) v

def compress (k k' : Nat → Word) (x : Nat → Word) (h : Vars) : Vars :=
  let l := left k x h
  let r := right k' x h
  ⟨h.b + l.c + r.d, h.c + l.d + r.e, h.d + l.e + r.a, h.e + l.a + r.b, h.a + l.b + r.c⟩

/-- Four bytes, the lowest first, are a word. -/
def wordAt (p : Bytes) (i : Nat) : Word :=
  BitVec.ofNat 32 ((p.getD i 0).toNat + (p.getD (i + 1) 0).toNat * 2 ^ 8 + (p.getD (i + 2) 0).toNat * 2 ^ 16 +
    (p.getD (i + 3) 0).toNat * 2 ^ 24)

def bytesOf (w : Word) : Bytes :=
  [0, 8, 16, 24].map fun s => UInt8.ofNat ((w >>> s).toNat % 256)

/-- `p` is the padded message. -/
structure Padded (m p : Bytes) : Prop where
  form : ∃ k, k < 64 ∧ p = m ++ [0x80] ++ List.replicate k 0 ++
    [0, 8, 16, 24, 32, 40, 48, 56].map fun s => UInt8.ofNat (8 * m.length / 2 ^ s % 256)
  whole : p.length % 64 = 0

def init : Vars := ⟨0x67452301, 0xefcdab89, 0x98badcfe, 0x10325476, 0xc3d2e1f0⟩

def digest (k k' : Nat → Word) (p : Bytes) : Bytes :=
  let v := (List.range (p.length / 64)).foldl
    (fun v i => compress k k' (fun t => wordAt p (64 * i + 4 * t)) v) init
  [v.a, v.b, v.c, v.d, v.e].flatMap bytesOf

end Verif.Ripemd
