import Mathlib.Data.List.GetD
import Verif.Lemmas.HashWords
import Verif.Spec.Sha256
import Verif.Props.HashConstants

/-!
# C96: SHA-256 is the function of the standard
-/

namespace Verif

open Sha2

/-- The working variables as a list of numbers. -/
def Sha2.Vars.list (v : Vars) : List Nat :=
  [v.a.toNat, v.b.toNat, v.c.toNat, v.d.toNat, v.e.toNat, v.f.toNat, v.g.toNat, v.h.toNat]

theorem sha256Rounds_eq (k w : Nat → Word) (l : List Nat) (v : Vars) :
    sha256Rounds (l.map fun t => (k t).toNat) (l.map fun t => (w t).toNat) v.list =
      (l.foldl (fun u t => u.round (k t) (w t)) v).list := by
  induction l generalizing v with
  | nil => rw [List.map_nil, sha256Rounds]; rfl; simp
  | cons t l ih =>
    rw [List.foldl_cons, ← ih, List.map_cons, List.map_cons]
    simp only [Vars.list, sha256Rounds, forceNat_eq]
    have hs : ∀ x : Word, rotr32 x.toNat 6 ^^^ rotr32 x.toNat 11 ^^^ rotr32 x.toNat 25 = (bigSigma1 x).toNat := by
      intro x
      simp only [bigSigma1, BitVec.toNat_xor, ← rotr32_eq x (k := 6) (by omega) (by omega),
        ← rotr32_eq x (k := 11) (by omega) (by omega), ← rotr32_eq x (k := 25) (by omega) (by omega)]
    have hs0 : ∀ x : Word, rotr32 x.toNat 2 ^^^ rotr32 x.toNat 13 ^^^ rotr32 x.toNat 22 = (bigSigma0 x).toNat := by
      intro x
      simp only [bigSigma0, BitVec.toNat_xor, ← rotr32_eq x (k := 2) (by omega) (by omega),
        ← rotr32_eq x (k := 13) (by omega) (by omega), ← rotr32_eq x (k := 22) (by omega) (by omega)]
    have hc : ∀ x y z : Word, (x.toNat &&& y.toNat) ^^^ (not32 x.toNat &&& z.toNat) = (ch x y z).toNat := by
      intro x y z
      rw [not32_eq, ch, BitVec.toNat_xor, BitVec.toNat_and, BitVec.toNat_and]
    have hm : ∀ x y z : Word, (x.toNat &&& y.toNat) ^^^ (x.toNat &&& z.toNat) ^^^ (y.toNat &&& z.toNat) =
        (maj x y z).toNat := by
      intro x y z
      rw [maj, BitVec.toNat_xor, BitVec.toNat_xor, BitVec.toNat_and, BitVec.toNat_and, BitVec.toNat_and]
    rw [hs, hs0, hc, hm]
    congr 2
    · simp only [word32_eq, BitVec.ofNat_add, BitVec.ofNat_toNat, BitVec.setWidth_eq, Vars.round]
      congr 1
      ac_rfl
    · congr 4
      simp only [word32_eq, BitVec.ofNat_add, BitVec.ofNat_toNat, BitVec.setWidth_eq, Vars.round]

theorem sha256Schedule_eq (m : Nat → Word) (k n : Nat) (h : 16 ≤ n) :
    sha256Schedule k ((List.range n).map fun t => (schedule m t).toNat).reverse =
      ((List.range (n + k)).map fun t => (schedule m t).toNat).reverse := by
  induction k generalizing n with
  | zero => rfl
  | succ k ih =>
    have hg : ∀ i, i < n → ((List.range n).map fun t => (schedule m t).toNat).reverse.getD i 0 =
        (schedule m (n - 1 - i)).toNat := by
      intro i hi
      rw [List.getD_eq_getElem?_getD, List.getElem?_reverse (by simpa using hi)]
      simp only [List.length_map, List.length_range]
      rw [List.getElem?_map, List.getElem?_range (by omega)]
      rfl
    rw [sha256Schedule]
    simp only [forceNat_eq]
    rw [hg 1 (by omega), hg 14 (by omega), hg 6 (by omega), hg 15 (by omega)]
    have h1 : ∀ x : Word, rotr32 x.toNat 17 ^^^ rotr32 x.toNat 19 ^^^ (x.toNat >>> 10) = (smallSigma1 x).toNat := by
      intro x
      simp only [smallSigma1, BitVec.toNat_xor, ← rotr32_eq x (k := 17) (by omega) (by omega),
        ← rotr32_eq x (k := 19) (by omega) (by omega), BitVec.toNat_ushiftRight]
    have h0 : ∀ x : Word, rotr32 x.toNat 7 ^^^ rotr32 x.toNat 18 ^^^ (x.toNat >>> 3) = (smallSigma0 x).toNat := by
      intro x
      simp only [smallSigma0, BitVec.toNat_xor, ← rotr32_eq x (k := 7) (by omega) (by omega),
        ← rotr32_eq x (k := 18) (by omega) (by omega), BitVec.toNat_ushiftRight]
    rw [h1, h0]
    have hw : word32 ((smallSigma1 (schedule m (n - 1 - 1))).toNat + (schedule m (n - 1 - 6)).toNat +
        (smallSigma0 (schedule m (n - 1 - 14))).toNat + (schedule m (n - 1 - 15)).toNat) =
        (schedule m n).toNat := by
      conv_rhs => rw [schedule]
      rw [if_neg (by omega), word32_eq]
      simp only [BitVec.ofNat_add, BitVec.ofNat_toNat, BitVec.setWidth_eq]
      rfl
    rw [hw]
    have hcons : (schedule m n).toNat :: ((List.range n).map fun t => (schedule m t).toNat).reverse =
        ((List.range (n + 1)).map fun t => (schedule m t).toNat).reverse := by
      rw [List.range_succ, List.map_append, List.reverse_append]
      rfl
    rw [hcons, ih (n + 1) (by omega)]
    rw [show n + 1 + k = n + (k + 1) by omega]

theorem beNat_word (p : Bytes) (i : Nat) (h : i + 4 ≤ p.length) :
    beNat ((p.drop i).take 4) = (wordAt p i).toNat := by
  obtain ⟨a, b, c, d, hd⟩ : ∃ a b c d, (p.drop i).take 4 = [a, b, c, d] := by
    have hl : ((p.drop i).take 4).length = 4 := by simp; omega
    match hm : (p.drop i).take 4, hl with
    | [a, b, c, d], _ => exact ⟨a, b, c, d, rfl⟩
  have g : ∀ j < 4, p.getD (i + j) 0 = [a, b, c, d].getD j 0 := by
    intro j hj
    rw [← hd, getD_drop_take hj]
  have g0 := g 0 (by omega)
  have g1 := g 1 (by omega)
  have g2 := g 2 (by omega)
  have g3 := g 3 (by omega)
  simp only [Nat.add_zero] at g0
  rw [hd, wordAt, g0, g1, g2, g3]
  have := a.toNat_lt
  have := b.toNat_lt
  have := c.toNat_lt
  have := d.toNat_lt
  simp only [beNat, List.foldl_cons, List.foldl_nil, BitVec.toNat_ofNat, List.getD_cons_zero, List.getD_cons_succ]
  omega

theorem sha256Block_eq {k : Nat → Word} (hk : sha256K = (List.range 64).map fun t => (k t).toNat)
    (p : Bytes) (i : Nat) (h : i + 64 ≤ p.length) (v : Vars) :
    sha256Block v.list ((p.drop i).take 64) = (compress k (fun t => wordAt p (i + 4 * t)) v).list := by
  have hm : wordsOf beNat 4 16 ((p.drop i).take 64) =
      (List.range 16).map fun t => (schedule (fun t => wordAt p (i + 4 * t)) t).toNat := by
    rw [wordsOf_eq]
    apply List.map_congr_left
    intro t ht
    rw [List.mem_range] at ht
    rw [schedule, if_pos ht, ← beNat_word p (i + 4 * t) (by omega), List.drop_take, List.drop_drop, List.take_take]
    rw [Nat.min_eq_left (by omega)]
  unfold sha256Block
  rw [hm, sha256Schedule_eq _ 48 16 (by omega), List.reverse_reverse, hk]
  rw [sha256Rounds_eq k (schedule fun t => wordAt p (i + 4 * t)) (List.range 64) v]
  simp only [compress, Vars.list, Vars.add, List.zipWith_cons_cons, List.zipWith_nil_right, word32_eq,
    BitVec.ofNat_add, BitVec.ofNat_toNat, BitVec.setWidth_eq]

theorem natBE4_word (w : Word) : natBE 4 w.toNat = bytesOf w := by
  simp only [natBE, bytesOf, List.map_cons, List.map_nil, List.nil_append, List.cons_append, BitVec.toNat_ushiftRight,
    Nat.shiftRight_eq_div_pow]
  norm_num [Nat.div_div_eq_div_mul]

theorem padded64_spec (m : Bytes) : Padded m (padded64 (natBE 8) m) := by
  have hl : natBE 8 (8 * m.length) = [56, 48, 40, 32, 24, 16, 8, 0].map fun s => UInt8.ofNat (8 * m.length / 2 ^ s % 256) := by
    simp only [natBE, List.map_cons, List.map_nil, List.nil_append, List.cons_append, Nat.div_div_eq_div_mul]
    norm_num
  refine ⟨⟨(119 - m.length % 64) % 64, Nat.mod_lt _ (by omega), ?_⟩, ?_⟩
  · rw [padded64, hl]; simp
  · rw [padded64, hl]
    simp only [List.length_append, List.length_cons, List.length_replicate, List.length_map, List.length_nil]
    omega

/-- The padded message is determined. -/
theorem Sha2.Padded.unique {m p q : Bytes} (hp : Padded m p) (hq : Padded m q) : p = q := by
  obtain ⟨⟨k, hk, hp⟩, hp'⟩ := hp
  obtain ⟨⟨j, hj, hq⟩, hq'⟩ := hq
  have : k = j := by
    rw [hp] at hp'
    rw [hq] at hq'
    simp only [List.length_append, List.length_cons, List.length_replicate, List.length_map, List.length_nil] at hp' hq'
    omega
  rw [hp, hq, this]

/-- The fractional part of a root is determined. -/
theorem FractionOfRoot.unique {k p c c' : Nat} (h0 : k ≠ 0) (h : FractionOfRoot k p c) (h' : FractionOfRoot k p c') :
    c = c' := by
  obtain ⟨hc, a, _, h1, h2⟩ := h
  obtain ⟨hc', a', _, h1', h2'⟩ := h'
  have e1 := lt_of_pow_lt_pow_left₀ k (Nat.zero_le _) (lt_of_le_of_lt h1 h2')
  have e2 := lt_of_pow_lt_pow_left₀ k (Nat.zero_le _) (lt_of_le_of_lt h1' h2)
  omega

/-- **C96, SHA-256.** The function is the one of the standard: for the constants that are the fractional parts of the
cube roots of the first 64 primes, the initial values that are those of the square roots of the first eight, and the
padded message. -/
theorem C96_sha256 {k : Nat → Word} {init : Vars}
    (hk : ∀ t < 64, FractionOfRoot 3 (primesBelow312.getD t 0) (k t).toNat)
    (hi : ∀ t < 8, FractionOfRoot 2 (primesBelow312.getD t 0) (init.list.getD t 0))
    {m p : Bytes} (hp : Padded m p) : sha256 m = digest k init p := by
  obtain ⟨_, hlK, hlI, hK, hI⟩ := C91_sha256_constants
  have hk' : sha256K = (List.range 64).map fun t => (k t).toNat := by
    apply List.ext_getElem
    · simp [hlK]
    · intro t h1 h2
      have ht : t < 64 := by simpa using h2
      have := (hK t ht).unique (by omega) (hk t ht)
      rw [List.getD_eq_getElem _ _ h1] at this
      simpa using this
  have hi' : sha256Init = init.list := by
    apply List.ext_getElem
    · simp [hlI, Vars.list]
    · intro t h1 h2
      have ht : t < 8 := by simpa [Vars.list] using h2
      have := (hI t ht).unique (by omega) (hi t ht)
      rw [List.getD_eq_getElem _ _ h1, List.getD_eq_getElem _ _ h2] at this
      exact this
  have hp' : padded64 (natBE 8) m = p := (padded64_spec m).unique hp
  unfold sha256
  rw [hp']
  dsimp only
  rw [overBlocks_eq, hi']
  have hfold : ∀ n, 64 * n ≤ p.length →
      (List.range n).foldl (fun st i => sha256Block st ((p.drop (64 * i)).take 64)) init.list =
      ((List.range n).foldl (fun v i => compress k (fun t => wordAt p (64 * i + 4 * t)) v) init).list := by
    intro n
    induction n with
    | zero => intro _; rfl
    | succ n ih =>
      intro hn
      rw [List.range_succ, List.foldl_append, List.foldl_append, ih (by omega)]
      simp only [List.foldl_cons, List.foldl_nil]
      rw [sha256Block_eq hk' p (64 * n) (by omega)]
  rw [hfold _ (Nat.mul_div_le _ _)]
  simp only [digest, Vars.list, wordsTo, List.headD_cons, List.tail_cons, natBE4_word, List.flatMap_cons,
    List.flatMap_nil]

/-- The constants and the padding are there. -/
example : (∃ (k : Nat → Word) (init : Vars), (∀ t < 64, FractionOfRoot 3 (primesBelow312.getD t 0) (k t).toNat) ∧
    ∀ t < 8, FractionOfRoot 2 (primesBelow312.getD t 0) (init.list.getD t 0)) ∧ ∀ m, ∃ p, Padded m p :=
  ⟨⟨fun t => BitVec.ofNat 32 (sha256K.getD t 0), ⟨0x6a09e667, 0xbb67ae85, 0x3c6ef372, 0xa54ff53a, 0x510e527f,
    0x9b05688c, 0x1f83d9ab, 0x5be0cd19⟩, by decide +kernel, by decide +kernel⟩, fun m => ⟨_, padded64_spec m⟩⟩

end Verif
