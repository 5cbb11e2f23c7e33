import Mathlib.Data.List.GetD
import Verif.Lemmas.HashWords
import Verif.Spec.Ripemd
import Verif.Props.HashConstants

/-!
# C96: RIPEMD-160 is the function of its authors
-/

namespace Verif

open Ripemd

def Ripemd.Vars.list (v : Vars) : List Nat := [v.a.toNat, v.b.toNat, v.c.toNat, v.d.toNat, v.e.toNat]

theorem ripemdF_eq (round : Nat) (x y z : Word) : ripemdF round x.toNat y.toNat z.toNat = (f round x y z).toNat := by
  match round with
  | 0 | 1 | 2 | 3 | _ + 4 =>
    simp only [ripemdF, f, not32_eq, BitVec.toNat_xor, BitVec.toNat_and, BitVec.toNat_or]

theorem ripemdLine_eq {F : Nat → Nat → Nat → Nat → Nat} {g : Nat → Word → Word → Word → Word}
    (hF : ∀ n x y z, F n (x : Word).toNat (y : Word).toNat (z : Word).toNat = (g n x y z).toNat)
    {K : Nat → Nat} {k : Nat → Word} (hK : ∀ n < 5, K n = (k n).toNat)
    {w : List Nat} {x : Nat → Word} (hw : ∀ i < 16, w.getD i 0 = (x i).toNat) {r s : Nat → Nat}
    (hr : ∀ j < 80, r j < 16) (hs : ∀ j < 80, s j < 32) (n j : Nat) (hn : j + n ≤ 80) (v : Vars) :
    ripemdLine F K w j ((List.range' j n).map r) ((List.range' j n).map s) v.list =
      ((List.range' j n).foldl (fun v j => v.step (g (j / 16)) (k (j / 16)) (x (r j)) (s j)) v).list := by
  induction n generalizing j v with
  | zero => simp [ripemdLine]
  | succ n ih =>
    rw [List.range'_succ, List.map_cons, List.map_cons, List.foldl_cons, ← ih (j + 1) (by omega)]
    simp only [Vars.list, ripemdLine, forceNat_eq]
    rw [hF, hK _ (by omega), hw _ (hr j (by omega)), rotl32_eq v.c (by omega), word32_eq (_ + (k (j / 16)).toNat),
      rotl32_eq _ (hs j (by omega)), word32_eq]
    simp only [BitVec.ofNat_add, BitVec.ofNat_toNat, BitVec.setWidth_eq, Vars.step]

theorem leNat_word (p : Bytes) (i : Nat) (h : i + 4 ≤ p.length) :
    leNat ((p.drop i).take 4) = (wordAt p i).toNat := by
  obtain ⟨a, b, c, d, hd⟩ : ∃ a b c d, (p.drop i).take 4 = [a, b, c, d] := by
    have hl : ((p.drop i).take 4).length = 4 := by simp; omega
    match hm : (p.drop i).take 4, hl with
    | [a, b, c, d], _ => exact ⟨a, b, c, d, rfl⟩
  have g : ∀ j < 4, p.getD (i + j) 0 = [a, b, c, d].getD j 0 := by
    intro j hj
    rw [← hd, getD_drop_take hj]
  have g0 := g 0 (by omega)
  have g1 := g 1 (by omega)
  have g2 := g 2 (by omega)
  have g3 := g 3 (by omega)
  simp only [Nat.add_zero] at g0
  rw [hd, wordAt, g0, g1, g2, g3]
  have := a.toNat_lt
  have := b.toNat_lt
  have := c.toNat_lt
  have := d.toNat_lt
  simp only [leNat, BitVec.toNat_ofNat, List.getD_cons_zero, List.getD_cons_succ]
  omega

theorem natLE4_word (w : Word) : natLE 4 w.toNat = bytesOf w := by
  simp only [natLE, bytesOf, List.map_cons, List.map_nil, BitVec.toNat_ushiftRight, Nat.shiftRight_eq_div_pow]
  norm_num [Nat.div_div_eq_div_mul]

theorem ripemd_padded (m : Bytes) : Padded m (padded64 (natLE 8) m) := by
  have hl : natLE 8 (8 * m.length) = [0, 8, 16, 24, 32, 40, 48, 56].map fun s => UInt8.ofNat (8 * m.length / 2 ^ s % 256) := by
    simp only [natLE, List.map_cons, List.map_nil, Nat.div_div_eq_div_mul]
    norm_num
  refine ⟨⟨(119 - m.length % 64) % 64, Nat.mod_lt _ (by omega), ?_⟩, ?_⟩
  · rw [padded64, hl]; simp
  · rw [padded64, hl]
    simp only [List.length_append, List.length_cons, List.length_replicate, List.length_map, List.length_nil]
    omega

theorem Ripemd.Padded.unique {m p q : Bytes} (hp : Padded m p) (hq : Padded m q) : p = q := by
  obtain ⟨⟨k, hk, hp⟩, hp'⟩ := hp
  obtain ⟨⟨j, hj, hq⟩, hq'⟩ := hq
  have : k = j := by
    rw [hp] at hp'
    rw [hq] at hq'
    simp only [List.length_append, List.length_cons, List.length_replicate, List.length_map, List.length_nil] at hp' hq'
    omega
  rw [hp, hq, this]

theorem RootTimes.unique {k p c c' : Nat} (h : RootTimes k p c) (h' : RootTimes k p c') : c = c' := by
  have e1 := lt_of_pow_lt_pow_left₀ k (Nat.zero_le _) (lt_of_le_of_lt h.1 h'.2)
  have e2 := lt_of_pow_lt_pow_left₀ k (Nat.zero_le _) (lt_of_le_of_lt h'.1 h.2)
  omega

/-- The orders of the words and the rotations are those of the paper. -/
theorem ripemd_tables :
    ripemdR = (List.range' 0 80).map (fun j => rhoTimes (j / 16) (j % 16)) ∧
    ripemdR' = (List.range' 0 80).map (fun j => rhoTimes (j / 16) (pi (j % 16))) ∧
    ripemdS = (List.range' 0 80).map (fun j => shift (j / 16) (rhoTimes (j / 16) (j % 16))) ∧
    ripemdS' = (List.range' 0 80).map (fun j => shift (j / 16) (rhoTimes (j / 16) (pi (j % 16)))) := by
  refine ⟨?_, ?_, ?_, ?_⟩ <;> decide +kernel

theorem mem_table {t : List Nat} {g : Nat → Nat} {n : Nat} (h : t = (List.range' 0 80).map g)
    (hn : ∀ x ∈ t, x < n) : ∀ j < 80, g j < n := by
  intro j hj
  apply hn
  rw [h, List.mem_map]
  exact ⟨j, by rw [List.mem_range'_1]; omega, rfl⟩

theorem ripemdBlock_eq {k k' : Nat → Word} (hk : ∀ n < 5, ripemdK n = (k n).toNat)
    (hk' : ∀ n < 5, ripemdK' n = (k' n).toNat) (p : Bytes) (i : Nat) (h : i + 64 ≤ p.length) (v : Vars) :
    ripemdBlock v.list ((p.drop i).take 64) = (compress k k' (fun t => wordAt p (i + 4 * t)) v).list := by
  have hm : wordsOf leNat 4 16 ((p.drop i).take 64) = (List.range 16).map fun t => (wordAt p (i + 4 * t)).toNat := by
    rw [wordsOf_eq]
    apply List.map_congr_left
    intro t ht
    rw [List.mem_range] at ht
    rw [← leNat_word p (i + 4 * t) (by omega), List.drop_take, List.drop_drop, List.take_take]
    rw [Nat.min_eq_left (by omega)]
  have hw : ∀ t < 16, (wordsOf leNat 4 16 ((p.drop i).take 64)).getD t 0 = (wordAt p (i + 4 * t)).toNat := by
    intro t ht
    rw [hm, List.getD_eq_getElem?_getD, List.getElem?_map, List.getElem?_range ht, Option.map_some, Option.getD_some]
  obtain ⟨t1, t2, t3, t4⟩ := ripemd_tables
  have hl : ripemdLine ripemdF ripemdK (wordsOf leNat 4 16 ((p.drop i).take 64)) 0 ripemdR ripemdS v.list =
      (left k (fun t => wordAt p (i + 4 * t)) v).list := by
    rw [t1, t3]
    exact ripemdLine_eq ripemdF_eq hk hw (r := fun j => rhoTimes (j / 16) (j % 16))
      (s := fun j => shift (j / 16) (rhoTimes (j / 16) (j % 16))) (mem_table t1 (by decide)) (mem_table t3 (by decide))
      80 0 (by omega) v
  have hr : ripemdLine (fun j => ripemdF (4 - j)) ripemdK' (wordsOf leNat 4 16 ((p.drop i).take 64)) 0 ripemdR'
      ripemdS' v.list = (right k' (fun t => wordAt p (i + 4 * t)) v).list := by
    rw [t2, t4]
    exact ripemdLine_eq (F := fun j => ripemdF (4 - j)) (g := fun j => f (4 - j))
      (fun n x y z => ripemdF_eq (4 - n) x y z) hk' hw (r := fun j => rhoTimes (j / 16) (pi (j % 16)))
      (s := fun j => shift (j / 16) (rhoTimes (j / 16) (pi (j % 16)))) (mem_table t2 (by decide))
      (mem_table t4 (by decide)) 80 0 (by omega) v
  unfold ripemdBlock
  rw [forceList_eq, hl, hr]
  unfold compress
  generalize left k (fun t => wordAt p (i + 4 * t)) v = l
  generalize right k' (fun t => wordAt p (i + 4 * t)) v = r
  simp only [Vars.list, ripemdJoin, word32_eq, BitVec.ofNat_add, BitVec.ofNat_toNat, BitVec.setWidth_eq]

/-- **C96, RIPEMD-160.** The function is the one of the paper, for its constants: the whole parts of `2^30` times the
square roots and the cube roots of 2, 3, 5 and 7, and zeros. -/
theorem C96_ripemd160 {k k' : Nat → Word} (h0 : k 0 = 0)
    (hk : ∀ i < 4, RootTimes 2 ([2, 3, 5, 7].getD i 0) (k (i + 1)).toNat)
    (hk' : ∀ i < 4, RootTimes 3 ([2, 3, 5, 7].getD i 0) (k' i).toNat) (h4 : k' 4 = 0)
    {m p : Bytes} (hp : Padded m p) : ripemd160 m = digest k k' p := by
  obtain ⟨c1, c2, c3, c4, _⟩ := C91_ripemd_constants
  have e : ∀ n < 5, ripemdK n = (k n).toNat := by
    intro n hn
    match n with
    | 0 => rw [c2, h0]; rfl
    | n + 1 => exact (c1 n (by omega)).unique (hk n (by omega))
  have e' : ∀ n < 5, ripemdK' n = (k' n).toNat := by
    intro n hn
    by_cases hn4 : n = 4
    · subst hn4; rw [c4, h4]; rfl
    · exact (c3 n (by omega)).unique (hk' n (by omega))
  have hp' : padded64 (natLE 8) m = p := (ripemd_padded m).unique hp
  unfold ripemd160
  rw [hp']
  dsimp only
  rw [overBlocks_eq, show [0x67452301, 0xefcdab89, 0x98badcfe, 0x10325476, 0xc3d2e1f0] = Ripemd.init.list from rfl]
  have hfold : ∀ n, 64 * n ≤ p.length →
      (List.range n).foldl (fun st i => ripemdBlock st ((p.drop (64 * i)).take 64)) Ripemd.init.list =
      ((List.range n).foldl (fun v i => compress k k' (fun t => wordAt p (64 * i + 4 * t)) v) Ripemd.init).list := by
    intro n
    induction n with
    | zero => intro _; rfl
    | succ n ih =>
      intro hn
      rw [List.range_succ, List.foldl_append, List.foldl_append, ih (by omega)]
      simp only [List.foldl_cons, List.foldl_nil]
      rw [ripemdBlock_eq e e' p (64 * n) (by omega)]
  rw [hfold _ (Nat.mul_div_le _ _)]
  simp only [digest, Vars.list, wordsTo, List.headD_cons, List.tail_cons, natLE4_word, List.flatMap_cons,
    List.flatMap_nil]

/-- The constants and the padding are there. -/
example : (∃ k k' : Nat → Word, k 0 = 0 ∧ (∀ i < 4, RootTimes 2 ([2, 3, 5, 7].getD i 0) (k (i + 1)).toNat) ∧
    (∀ i < 4, RootTimes 3 ([2, 3, 5, 7].getD i 0) (k' i).toNat) ∧ k' 4 = 0) ∧ ∀ m, ∃ p, Padded m p :=
  ⟨⟨fun i => BitVec.ofNat 32 (ripemdK i), fun i => BitVec.ofNat 32 (ripemdK' i), by decide +kernel, by decide +kernel,
    by decide +kernel, by decide +kernel⟩, fun m => ⟨_, ripemd_padded m⟩⟩

end Verif
