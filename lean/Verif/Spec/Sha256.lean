import Verif.Model.Go

/-!
# SHA-256 as FIPS 180-4 defines it

Words are vectors of 32 bits, the schedule is the sequence of section 6.2.2, and the round is the one given there, for
a sequence of 64 constants and eight initial words. Messages are of whole bytes.
-/

namespace Verif.Sha2

abbrev Word := BitVec 32

def ch (x y z : Word) : Word := (x &&& y) ^^^ (~~~x &&& z)
def maj (x y z : Word) : Word := (x &&& y) ^^^ (x &&& z) ^^^ (y &&& z)
def bigSigma0 (x : Word) : Word := x.rotateRight 2 ^^^ x.rotateRight 13 ^^^ x.rotateRight 22
def bigSigma1 (x : Word) : Word := x.rotateRight 6 ^^^ x.rotateRight 11 ^^^ x.rotateRight 25
def smallSigma0 (x : Word) : Word := x.rotateRight 7 ^^^ x.rotateRight 18 ^^^ (x >>> 3)
def smallSigma1 (x : Word) : Word := x.rotateRight 17 ^^^ x.rotateRight 19 ^^^ (x >>> 10)

/-- The schedule: the words of the block, then sums of earlier ones. -/
def schedule (m : Nat → Word) (t : Nat) : Word :=
  if t < 16 then m t
  else smallSigma1 (schedule m (t - 2)) + schedule m (t - 7) + smallSigma0 (schedule m (t - 15)) +
    schedule m (t - 16)

/-- The working variables. -/
structure Vars where
  (a b c d e f g h : Word)

def Vars.round (k w : Word) (v : Vars) : Vars :=
  let t1 := v.h + bigSigma1 v.e + ch v.e v.f v.g + k + w
  let t2 := bigSigma0 v.a + maj v.a v.b v.c
  { a := t1 + t2, b := v.a, c := v.b, d := v.c, e := v.d + t1, f := v.e, g := v.f, h := v.g }

def Vars.add (v u : Vars) : Vars :=
  ⟨v.a + u.a, v.b + u.b, v.c + u.c, v.d + u.d, v.e + u.e, v.f + u.f, v.g + u.g, v.h + u.h⟩

/-- The next hash value, for the words of a block. -/
def compress (k : Nat → Word) (m : Nat → Word) (v : Vars) : Vars :=
  v.add ((List.range 64).foldl (fun u t => u.round (k t) (schedule m t)) v)

/-- Four bytes, the highest first, are a word. -/
def wordAt (p : Bytes) (i : Nat) : Word :=
  BitVec.ofNat 32 ((p.getD i 0).toNat * 2 ^ 24 + (p.getD (i + 1) 0).toNat * 2 ^ 16 +
    (p.getD (i + 2) 0).toNat * 2 ^ 8 + (p.getD (i + 3) 0).toNat)

def bytesOf (w : Word) : Bytes :=
  [24, 16, 8, 0].map fun s => UInt8.ofNat ((w >>> s).toNat % 256)

/-- `p` is the padded message: the bit one, as few zeros as possible, and the length in bits in 64 bits. -/
structure Padded (m p : Bytes) : Prop where
  form : ∃ k, k < 64 ∧ p = m ++ [0x80] ++ List.replicate k 0 ++
    [56, 48, 40, 32, 24, 16, 8, 0].map fun s => UInt8.ofNat (8 * m.length / 2 ^ s % 256)
  whole : p.length % 64 = 0

/-- The hash value of a padded message. -/
def digest (k : Nat → Word) (init : Vars) (p : Bytes) : Bytes :=
  let v := (List.range (p.length / 64)).foldl
    (fun v i => compress k (fun t => wordAt p (64 * i + 4 * t)) v) init
  [v.a, v.b, v.c, v.d, v.e, v.f, v.g, v.h].flatMap bytesOf

end Verif.Sha2
