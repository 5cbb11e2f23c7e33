import Verif.Model.Go

/-!
# What a signature is

Independent of the model: numbers in big-endian form, and the strict DER form of two positive numbers.
-/

namespace Verif

/-- The number that bytes stand for, most significant first. -/
def bigEndian : Bytes → Nat
  | [] => 0
  | x :: xs => x.toNat * 256 ^ xs.length + bigEndian xs

/-- `b` is the DER form of the number `n`: not negative and without a byte that could be left out. -/
structure IsDerInt (b : Bytes) (n : Nat) : Prop where
  value : bigEndian b = n
  notNegative : ∃ x xs, b = x :: xs ∧ x.toNat < 128
  shortest : ∀ y ys, b = 0 :: y :: ys → 128 ≤ y.toNat

/-- `d` is the DER form of a signature with the numbers `r` and `s`: a sequence of two integers with
one-byte lengths, at most 253 bytes of content. -/
def IsDerSig (d : Bytes) (r s : Nat) : Prop :=
  ∃ (rb sb : Bytes) (l lr ls : UInt8),
    d = [0x30, l, 0x02, lr] ++ rb ++ [0x02, ls] ++ sb ∧
    l.toNat = 4 + rb.length + sb.length ∧ l.toNat ≤ 253 ∧ lr.toNat = rb.length ∧ ls.toNat = sb.length ∧
    IsDerInt rb r ∧ IsDerInt sb s

end Verif
