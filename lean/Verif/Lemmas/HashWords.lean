import Verif.Model.Hashes
import Verif.Lemmas.KeyBytes

/-!
# Words as numbers and as vectors of bits
-/

namespace Verif

theorem forceNat_eq {α : Type} (n : Nat) (f : Nat → α) : forceNat n f = f n := by
  cases n <;> rfl

theorem forceList_eq {α : Type} (l : List Nat) (f : List Nat → α) : forceList l f = f l := by
  induction l generalizing f with
  | nil => rfl
  | cons x xs ih => rw [forceList, forceNat_eq, ih]

theorem word32_eq (n : Nat) : word32 n = (BitVec.ofNat 32 n).toNat := by
  simp [word32, BitVec.toNat_ofNat]

theorem rotl32_eq (x : BitVec 32) {k : Nat} (h : k < 32) : rotl32 x.toNat k = (x.rotateLeft k).toNat := by
  rw [BitVec.toNat_rotateLeft, rotl32, word32, Nat.mod_eq_of_lt h]

theorem rotr32_eq (x : BitVec 32) {k : Nat} (h0 : 0 < k) (h : k < 32) : rotr32 x.toNat k = (x.rotateRight k).toNat := by
  rw [BitVec.toNat_rotateRight, rotr32, rotl32, word32, Nat.mod_eq_of_lt h, Nat.or_comm,
    show 32 - (32 - k) = k by omega]

theorem not32_eq (x : BitVec 32) : not32 x.toNat = (~~~x).toNat := by
  apply Nat.eq_of_testBit_eq
  intro i
  rw [not32, Nat.testBit_xor, show (0xffffffff : Nat) = 2 ^ 32 - 1 by norm_num, Nat.testBit_two_pow_sub_one]
  rw [BitVec.testBit_toNat, BitVec.testBit_toNat, BitVec.getLsbD_not]
  by_cases hi : i < 32
  · simp [hi]
  · simp [hi, BitVec.getLsbD_of_ge x i (by omega)]

theorem wordsOf_length (read : Bytes → Nat) (size k : Nat) (b : Bytes) : (wordsOf read size k b).length = k := by
  induction k generalizing b with
  | zero => rfl
  | succ k ih => simp [wordsOf, ih]

theorem wordsOf_eq (read : Bytes → Nat) (size k : Nat) (b : Bytes) :
    wordsOf read size k b = (List.range k).map fun i => read ((b.drop (size * i)).take size) := by
  induction k generalizing b with
  | zero => rfl
  | succ k ih =>
    rw [wordsOf, ih, List.range_succ_eq_map, List.map_cons, List.map_map]
    simp only [Nat.mul_zero, List.drop_zero, List.cons.injEq, true_and]
    apply List.map_congr_left
    intro i _
    simp only [Function.comp_apply, List.drop_drop]
    rw [show size + size * i = size * i.succ by rw [Nat.mul_succ, Nat.add_comm]]

theorem overBlocks_eq (size : Nat) (f : List Nat → Bytes → List Nat) (k : Nat) (st : List Nat) (b : Bytes) :
    overBlocks size f k st b =
      (List.range k).foldl (fun st i => f st ((b.drop (size * i)).take size)) st := by
  induction k generalizing st b with
  | zero => rfl
  | succ k ih =>
    rw [overBlocks, forceList_eq, ih, List.range_succ_eq_map, List.foldl_cons, List.foldl_map]
    simp only [Nat.mul_zero, List.drop_zero, List.drop_drop]
    congr 1
    funext st i
    rw [show size + size * i = size * i.succ by rw [Nat.mul_succ, Nat.add_comm]]

theorem getD_drop_take {b : Bytes} {n k i : Nat} (h : i < k) :
    ((b.drop n).take k).getD i 0 = b.getD (n + i) 0 := by
  simp [List.getD_eq_getElem?_getD, h]

end Verif
