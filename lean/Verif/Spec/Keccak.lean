import Verif.Model.Go

/-!
# Keccak-256 as the Keccak submission defines it

The state is an array of 5 × 5 × 64 bits, the five steps are given for single bits, and the sponge takes 1088 bits of
the padded message at a time. Messages are of whole bytes; the bits of a byte are counted from the lowest.
-/

namespace Verif.Keccak

/-- Bits by column, row and place; only columns and rows below 5 and places below 64 count. -/
abbrev State := Nat → Nat → Nat → Bool

/-- The parity of a column. -/
def parity (a : State) (x z : Nat) : Bool := a x 0 z ^^ a x 1 z ^^ a x 2 z ^^ a x 3 z ^^ a x 4 z

def theta (a : State) : State := fun x y z =>
  a x y z ^^ (parity a ((x + 4) % 5) z ^^ parity a ((x + 1) % 5) ((z + 63) % 64))

def rho (offset : Nat → Nat → Nat) (a : State) : State := fun x y z =>
  a x y ((z + (64 - offset x y % 64)) % 64)

def pi (a : State) : State := fun x y z => a ((x + 3 * y) % 5) x z

def chi (a : State) : State := fun x y z => a x y z ^^ (!(a ((x + 1) % 5) y z) && a ((x + 2) % 5) y z)

def iota (rc : Nat → Bool) (a : State) : State := fun x y z => a x y z ^^ (x == 0 && y == 0 && rc z)

def round (offset : Nat → Nat → Nat) (rc : Nat → Bool) (a : State) : State :=
  iota rc (chi (pi (rho offset (theta a))))

/-- `Keccak-f[1600]`: 24 rounds. -/
def permute (offset : Nat → Nat → Nat) (rc : Nat → Nat → Bool) (a : State) : State :=
  (List.range 24).foldl (fun a r => round offset (rc r) a) a

/-- The register that gives the constants: `x^8 + x^6 + x^5 + x^4 + 1`, bits as in the standard (`r 0` goes out). -/
def register : Nat → Nat → Bool
  | 0, i => i == 0
  | t + 1, i =>
    let out := register t 7
    if i = 0 then out
    else if i = 4 ∨ i = 5 ∨ i = 6 then register t (i - 1) ^^ out
    else if i < 8 then register t (i - 1)
    else false

/-- The constant of a round: the places `2^j - 1` have the bits of the register. -/
def roundConstant (r z : Nat) : Bool :=
  (List.range 7).any fun j => z + 1 == 2 ^ j && register (j + 7 * r) 0

/-- The walk over the columns and rows. -/
def walk : Nat → Nat × Nat
  | 0 => (1, 0)
  | t + 1 => ((walk t).2, (2 * (walk t).1 + 3 * (walk t).2) % 5)

/-- The offsets: zero at the origin, triangular numbers along the walk. -/
def Offsets (offset : Nat → Nat → Nat) : Prop :=
  offset 0 0 = 0 ∧ ∀ t < 24, offset (walk t).1 (walk t).2 = (t + 1) * (t + 2) / 2

def bit (p : Bytes) (n : Nat) : Bool := (p.getD (n / 8) 0).toNat.testBit (n % 8)

/-- `p` is the padded message: a one, as few zeros as possible, and a one, up to whole blocks of 1088 bits. -/
structure Padded (m p : Bytes) : Prop where
  longer : m.length < p.length
  least : p.length ≤ m.length + 136
  whole : p.length % 136 = 0
  bits : ∀ n < 8 * p.length, bit p n =
    if n < 8 * m.length then bit m n else decide (n = 8 * m.length ∨ n = 8 * p.length - 1)

/-- The state after all blocks. -/
def absorb (offset : Nat → Nat → Nat) (p : Bytes) : State :=
  (List.range (p.length / 136)).foldl (fun a i => permute offset roundConstant fun x y z =>
    a x y z ^^ (decide (64 * (5 * y + x) + z < 1088) && bit p (1088 * i + (64 * (5 * y + x) + z)))) fun _ _ _ => false

/-- The digest: the first 256 bits of the state. -/
def IsDigest (offset : Nat → Nat → Nat) (p out : Bytes) : Prop :=
  out.length = 32 ∧ ∀ n < 256, bit out n = absorb offset p (n / 64 % 5) (n / 64 / 5) (n % 64)

end Verif.Keccak
