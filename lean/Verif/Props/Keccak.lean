import Mathlib.Data.List.GetD
import Mathlib.Tactic.IntervalCases
import Verif.Lemmas.HashWords
import Verif.Spec.Keccak
import Verif.Props.HashConstants
import Verif.Props.GoPrims

/-!
# C96: Keccak-256 is the function of its authors
-/

namespace Verif

open Keccak

theorem getD_map_range {α : Type} {n i : Nat} (f : Nat → α) (d : α) (h : i < n) :
    ((List.range n).map f).getD i d = f i := by
  rw [List.getD_eq_getElem?_getD, List.getElem?_map, List.getElem?_range h, Option.map_some, Option.getD_some]

theorem rotl64_lt {n k : Nat} (hn : n < 2 ^ 64) : rotl64 n k < 2 ^ 64 := by
  unfold rotl64
  refine Nat.or_lt_two_pow (Nat.mod_lt _ (by norm_num)) ?_
  exact lt_of_le_of_lt (Nat.shiftRight_le _ _) hn

theorem rotl64_testBit {n k z : Nat} (hn : n < 2 ^ 64) (hk : k < 64) (hz : z < 64) :
    (rotl64 n k).testBit z = n.testBit ((z + (64 - k)) % 64) := by
  unfold rotl64
  rw [Nat.testBit_or, show (0x10000000000000000 : Nat) = 2 ^ 64 by norm_num, Nat.testBit_mod_two_pow,
    Nat.testBit_shiftLeft, Nat.testBit_shiftRight]
  by_cases h : k ≤ z
  · rw [show (z + (64 - k)) % 64 = z - k by omega]
    have : n.testBit (64 - k + z) = false :=
      Nat.testBit_lt_two_pow (lt_of_lt_of_le hn (Nat.pow_le_pow_right (by omega) (by omega)))
    simp [h, hz, this]
  · rw [show (z + (64 - k)) % 64 = 64 - k + z by omega]
    simp [h]

/-- The lanes are the bits. -/
structure Lanes (a : List Nat) (s : State) : Prop where
  length : a.length = 25
  lt : ∀ i, a.getD i 0 < 2 ^ 64
  bits : ∀ x < 5, ∀ y < 5, ∀ z < 64, (a.getD (x + 5 * y) 0).testBit z = s x y z

theorem getD_lt_of {f : Nat → Nat} {n : Nat} (h : ∀ i < n, f i < 2 ^ 64) (i : Nat) :
    ((List.range n).map f).getD i 0 < 2 ^ 64 := by
  by_cases hi : i < n
  · rw [getD_map_range _ _ hi]; exact h i hi
  · rw [List.getD_eq_default _ _ (by simpa using hi)]; norm_num

theorem keccakRound_lanes {offset : Nat → Nat → Nat} (ho : ∀ x < 5, ∀ y < 5, keccakRot.getD (x + 5 * y) 0 = offset x y % 64)
    {a : List Nat} {s : State} (h : Lanes a s) {rc : Nat} (hrc : rc < 2 ^ 64) :
    Lanes (keccakRound a rc) (round offset (fun z => rc.testBit z) s) := by
  unfold keccakRound
  simp only [forceList_eq]
  generalize hc : (List.range 5).map (fun x => a.getD x 0 ^^^ a.getD (x + 5) 0 ^^^ a.getD (x + 10) 0 ^^^
    a.getD (x + 15) 0 ^^^ a.getD (x + 20) 0) = c
  have c_lt : ∀ i, c.getD i 0 < 2 ^ 64 := by
    rw [← hc]
    refine getD_lt_of fun i _ => ?_
    exact Nat.xor_lt_two_pow (Nat.xor_lt_two_pow (Nat.xor_lt_two_pow (Nat.xor_lt_two_pow (h.lt _) (h.lt _)) (h.lt _))
      (h.lt _)) (h.lt _)
  have c_bit : ∀ x < 5, ∀ z < 64, (c.getD x 0).testBit z = parity s x z := by
    intro x hx z hz
    rw [← hc, getD_map_range _ _ hx]
    have b0 := h.bits x hx 0 (by omega) z hz
    have b1 := h.bits x hx 1 (by omega) z hz
    have b2 := h.bits x hx 2 (by omega) z hz
    have b3 := h.bits x hx 3 (by omega) z hz
    have b4 := h.bits x hx 4 (by omega) z hz
    simp only [Nat.mul_zero, Nat.add_zero, Nat.mul_one, Nat.reduceMul] at b0 b1 b2 b3 b4
    simp only [Nat.testBit_xor, b0, b1, b2, b3, b4, parity]
  clear hc
  generalize hd : (List.range 5).map (fun x => c.getD ((x + 4) % 5) 0 ^^^ rotl64 (c.getD ((x + 1) % 5) 0) 1) = d
  have d_lt : ∀ i, d.getD i 0 < 2 ^ 64 := by
    rw [← hd]
    exact getD_lt_of fun i _ => Nat.xor_lt_two_pow (c_lt _) (rotl64_lt (c_lt _))
  have d_bit : ∀ x < 5, ∀ z < 64, (d.getD x 0).testBit z =
      (parity s ((x + 4) % 5) z ^^ parity s ((x + 1) % 5) ((z + 63) % 64)) := by
    intro x hx z hz
    rw [← hd, getD_map_range _ _ hx, Nat.testBit_xor, rotl64_testBit (c_lt _) (by omega) hz,
      c_bit _ (by omega) _ hz, c_bit _ (by omega) _ (by omega)]
  clear hd
  generalize hb : (List.range 25).map (fun i => rotl64 (a.getD ((i % 5 + 3 * (i / 5)) % 5 + 5 * (i % 5)) 0 ^^^
    d.getD ((i % 5 + 3 * (i / 5)) % 5) 0) (keccakRot.getD ((i % 5 + 3 * (i / 5)) % 5 + 5 * (i % 5)) 0)) = b
  have b_lt : ∀ i, b.getD i 0 < 2 ^ 64 := by
    rw [← hb]
    exact getD_lt_of fun i _ => rotl64_lt (Nat.xor_lt_two_pow (h.lt _) (d_lt _))
  have b_bit : ∀ x < 5, ∀ y < 5, ∀ z < 64, (b.getD (x + 5 * y) 0).testBit z = pi (rho offset (theta s)) x y z := by
    intro x hx y hy z hz
    rw [← hb, getD_map_range _ _ (by omega)]
    rw [show (x + 5 * y) % 5 = x by omega, show (x + 5 * y) / 5 = y by omega]
    have hx' : (x + 3 * y) % 5 < 5 := by omega
    rw [ho _ hx' x hx, rotl64_testBit (Nat.xor_lt_two_pow (h.lt _) (d_lt _)) (Nat.mod_lt _ (by omega)) hz,
      Nat.testBit_xor, h.bits _ hx' _ hx _ (by omega), d_bit _ hx' _ (by omega)]
    rfl
  clear hb
  refine ⟨by simp, ?_, ?_⟩
  · refine getD_lt_of fun i _ => ?_
    refine Nat.xor_lt_two_pow (Nat.xor_lt_two_pow (b_lt _) (Nat.xor_lt_two_pow (b_lt _) ?_)) ?_
    · exact lt_of_le_of_lt Nat.and_le_left (b_lt _)
    · split
      · exact hrc
      · norm_num
  · intro x hx y hy z hz
    rw [getD_map_range _ _ (by omega)]
    rw [show (x + 5 * y) % 5 = x by omega, show (x + 5 * y) / 5 = y by omega]
    rw [show 5 * y + (x + 1) % 5 = (x + 1) % 5 + 5 * y by omega, show 5 * y + (x + 2) % 5 = (x + 2) % 5 + 5 * y by omega]
    simp only [Nat.testBit_xor, Nat.testBit_and, b_bit x hx y hy z hz, b_bit ((x + 1) % 5) (by omega) y hy z hz,
      b_bit ((x + 2) % 5) (by omega) y hy z hz, round, iota, chi]
    have hif : (if x + 5 * y = 0 then rc else 0).testBit z = (x == 0 && y == 0 && rc.testBit z) := by
      by_cases hx0 : x = 0
      · by_cases hy0 : y = 0
        · simp [hx0, hy0]
        · simp [hx0, hy0]
      · simp [hx0]
    rw [hif]
    generalize pi (rho offset (theta s)) x y z = u
    generalize pi (rho offset (theta s)) ((x + 1) % 5) y z = v
    generalize pi (rho offset (theta s)) ((x + 2) % 5) y z = w
    cases u <;> cases v <;> cases w <;> rfl

/-! ## The permutation -/

theorem Lanes.congr {a : List Nat} {s s' : State} (h : Lanes a s) (e : ∀ x < 5, ∀ y < 5, ∀ z < 64, s x y z = s' x y z) :
    Lanes a s' :=
  ⟨h.length, h.lt, fun x hx y hy z hz => (h.bits x hx y hy z hz).trans (e x hx y hy z hz)⟩

theorem keccakRegister_eq (t : Nat) : keccakRegister t < 256 ∧ ∀ i, (keccakRegister t).testBit i = register t i := by
  induction t with
  | zero =>
    refine ⟨by decide, fun i => ?_⟩
    show (1 : Nat).testBit i = (i == 0)
    cases i with
    | zero => rfl
    | succ i => simp [Nat.testBit_succ]
  | succ t ih =>
    obtain ⟨hlt, hb⟩ := ih
    rw [keccakRegister, forceNat_eq]
    have h7 : register t 7 = decide (128 ≤ keccakRegister t) := by
      rw [← hb 7, Nat.testBit_eq_decide_div_mod_eq]
      exact decide_eq_decide.2 (by omega)
    have hbig : ∀ i, 8 ≤ i → register t i = false := by
      intro i hi
      rw [← hb i]
      exact Nat.testBit_lt_two_pow (lt_of_lt_of_le hlt (Nat.pow_le_pow_right (by omega) hi : 2 ^ 8 ≤ 2 ^ i))
    have hdouble : ∀ i, (2 * keccakRegister t).testBit i = (decide (i ≠ 0) && register t (i - 1)) := by
      intro i
      cases i with
      | zero => simp
      | succ i => rw [Nat.testBit_succ, Nat.mul_div_cancel_left _ (by omega)]; simp [hb i]
    have hmask : ∀ i, (0x171 : Nat).testBit i = decide (i = 0 ∨ i = 4 ∨ i = 5 ∨ i = 6 ∨ i = 8) := by
      intro i
      by_cases hi : i < 9
      · revert i; decide
      · rw [Nat.testBit_lt_two_pow (lt_of_lt_of_le (by norm_num : 0x171 < 2 ^ 9) (Nat.pow_le_pow_right (by omega) (by omega)))]
        exact (decide_eq_false (by omega)).symm
    constructor
    · split
      · next h =>
        apply Nat.lt_of_testBit 8
        · rw [Nat.testBit_xor, hdouble, hmask, h7]
          have : 128 ≤ keccakRegister t := by omega
          simp [this]
        · rfl
        · intro j hj
          rw [Nat.testBit_xor, hdouble, hmask, hbig _ (by omega)]
          rw [Nat.testBit_lt_two_pow (lt_of_lt_of_le (by norm_num : 256 < 2 ^ 9) (Nat.pow_le_pow_right (by omega) (by omega)))]
          simp; omega
      · omega
    · intro i
      rw [register]
      by_cases h : 256 ≤ 2 * keccakRegister t
      · rw [if_pos h, Nat.testBit_xor, hdouble, hmask, h7, decide_eq_true (by omega : 128 ≤ keccakRegister t)]
        by_cases h9 : i < 9
        · interval_cases i <;> simp [h7, decide_eq_true (by omega : 128 ≤ keccakRegister t)]
        · rw [hbig _ (by omega)]
          rw [if_neg (by omega), if_neg (by omega), if_neg (by omega), decide_eq_false (by omega : ¬ (i = 0 ∨ i = 4 ∨ i = 5 ∨ i = 6 ∨ i = 8))]
          simp
      · rw [if_neg h, hdouble, h7, decide_eq_false (by omega : ¬ 128 ≤ keccakRegister t)]
        by_cases h9 : i < 9
        · interval_cases i <;> simp [h7, decide_eq_false (by omega : ¬ 128 ≤ keccakRegister t)]
        · rw [hbig _ (by omega)]
          rw [if_neg (by omega), if_neg (by omega), if_neg (by omega)]
          simp

theorem keccakWalk_eq (t : Nat) : keccakWalk t = walk t := by
  induction t with
  | zero => rfl
  | succ t ih => simp only [keccakWalk, walk, ih]

theorem walk_all : ∀ x < 5, ∀ y < 5, (x = 0 ∧ y = 0) ∨ ∃ t < 24, keccakWalk t = (x, y) := by decide +kernel

theorem offsets_rot {offset : Nat → Nat → Nat} (h : Offsets offset) :
    ∀ x < 5, ∀ y < 5, keccakRot.getD (x + 5 * y) 0 = offset x y % 64 := by
  intro x hx y hy
  obtain ⟨_, _, _, _, _, hr⟩ := C91_keccak_constants
  rcases walk_all x hx y hy with ⟨rfl, rfl⟩ | ⟨t, ht, e⟩
  · rw [h.1]; rfl
  · have h1 := hr t ht
    have h2 := h.2 t ht
    rw [← keccakWalk_eq, e] at h2
    rw [e] at h1
    rw [h1, h2]

theorem keccakRounds_eq (l a : List Nat) : keccakRounds l a = l.foldl keccakRound a := by
  induction l generalizing a with
  | nil => rfl
  | cons r l ih => rw [keccakRounds, forceList_eq, ih, List.foldl_cons]

theorem roundConstant_eq {r z : Nat} (hr : r < 24) (hz : z < 64) :
    (keccakRC.getD r 0).testBit z = roundConstant r z := by
  obtain ⟨_, _, _, hc, _⟩ := C91_keccak_constants
  rw [hc r hr z hz, roundConstant]
  simp only [(keccakRegister_eq _).2]

theorem keccakRounds_lanes {offset : Nat → Nat → Nat} (ho : Offsets offset) {a : List Nat} {s : State} (h : Lanes a s) :
    Lanes (keccakRounds keccakRC a) (permute offset roundConstant s) := by
  have he : keccakRC = (List.range 24).map fun r => keccakRC.getD r 0 := by decide
  obtain ⟨_, _, _, _, hlt, _⟩ := C91_keccak_constants
  rw [keccakRounds_eq, he, List.foldl_map, permute]
  have : ∀ n ≤ 24, Lanes ((List.range n).foldl (fun a r => keccakRound a (keccakRC.getD r 0)) a)
      ((List.range n).foldl (fun a r => round offset (roundConstant r) a) s) := by
    intro n
    induction n with
    | zero => intro _; exact h
    | succ n ih =>
      intro hn
      rw [List.range_succ, List.foldl_append, List.foldl_append]
      simp only [List.foldl_cons, List.foldl_nil]
      refine (keccakRound_lanes (offsets_rot ho) (ih (by omega)) (hlt n (by omega))).congr ?_
      intro x _ y _ z hz
      simp only [round, iota, roundConstant_eq (show n < 24 by omega) hz]
  exact this 24 le_rfl

/-! ## Bytes and bits -/

theorem leNat_testBit (b : Bytes) (n : Nat) : (leNat b).testBit n = bit b n := by
  induction b generalizing n with
  | nil => simp [leNat, bit]
  | cons x b ih =>
    rw [leNat, Nat.add_comm, show (256 : Nat) = 2 ^ 8 by norm_num, Nat.testBit_two_pow_mul_add _ x.toNat_lt]
    unfold bit
    by_cases h : n < 8
    · rw [if_pos h, Nat.div_eq_of_lt h, Nat.mod_eq_of_lt h]; rfl
    · rw [if_neg h, ih, bit, show n / 8 = (n - 8) / 8 + 1 by omega, List.getD_cons_succ, show (n - 8) % 8 = n % 8 by omega]

theorem leNat_lt (b : Bytes) : leNat b < 2 ^ (8 * b.length) := by
  induction b with
  | nil => simp [leNat]
  | cons x b ih =>
    rw [leNat, List.length_cons, Nat.mul_succ, Nat.pow_add]
    have := x.toNat_lt
    omega

theorem bit_append (p q : Bytes) (n : Nat) :
    bit (p ++ q) n = if n < 8 * p.length then bit p n else bit q (n - 8 * p.length) := by
  unfold bit
  split
  · next h => rw [List.getD_append _ _ _ _ (by omega)]
  · next h =>
    rw [List.getD_append_right _ _ _ _ (by omega), show n / 8 - p.length = (n - 8 * p.length) / 8 by omega,
      show n % 8 = (n - 8 * p.length) % 8 by omega]

theorem bit_out {p : Bytes} {n : Nat} (h : 8 * p.length ≤ n) : bit p n = false := by
  unfold bit
  rw [List.getD_eq_default _ _ (by omega)]
  simp

theorem bit_natLE (k w n : Nat) (h : n < 8 * k) : bit (natLE k w) n = w.testBit n := by
  induction k generalizing w n with
  | zero => omega
  | succ k ih =>
    rw [natLE]
    by_cases h8 : n < 8
    · unfold bit
      rw [Nat.div_eq_of_lt h8, Nat.mod_eq_of_lt h8, List.getD_cons_zero, UInt8.toNat_ofNat', Nat.mod_mod,
        show (256 : Nat) = 2 ^ 8 by norm_num, Nat.testBit_mod_two_pow]
      simp [h8]
    · have e : bit (UInt8.ofNat (w % 256) :: natLE k (w / 256)) n = bit (natLE k (w / 256)) (n - 8) := by
        unfold bit
        rw [show n / 8 = (n - 8) / 8 + 1 by omega, List.getD_cons_succ, show (n - 8) % 8 = n % 8 by omega]
      rw [e, ih _ _ (by omega), show (256 : Nat) = 2 ^ 8 by norm_num, Nat.testBit_div_two_pow]
      congr 1
      omega

theorem bit_wordsTo (k : Nat) (l : List Nat) (n : Nat) (h : n < 64 * k) :
    bit (wordsTo (natLE 8) k l) n = (l.getD (n / 64) 0).testBit (n % 64) := by
  induction k generalizing l n with
  | zero => omega
  | succ k ih =>
    rw [wordsTo, bit_append, natLE_length]
    by_cases h64 : n < 8 * 8
    · rw [if_pos h64, bit_natLE _ _ _ h64, Nat.div_eq_of_lt h64, Nat.mod_eq_of_lt h64]
      cases l <;> rfl
    · rw [if_neg h64, ih _ _ (by omega), show n / 64 = (n - 8 * 8) / 64 + 1 by omega,
        show n % 64 = (n - 8 * 8) % 64 by omega]
      cases l with
      | nil => simp
      | cons a l => rw [List.getD_cons_succ]; rfl

theorem bytes_of_bits {p q : Bytes} (hl : p.length = q.length) (h : ∀ n < 8 * p.length, bit p n = bit q n) : p = q := by
  apply List.ext_getElem hl
  intro i hi hj
  apply UInt8.toNat_inj.1
  apply Nat.eq_of_testBit_eq
  intro j
  by_cases hj8 : j < 8
  · have := h (8 * i + j) (by omega)
    unfold bit at this
    rw [show (8 * i + j) / 8 = i by omega, show (8 * i + j) % 8 = j by omega, List.getD_eq_getElem _ _ hi,
      List.getD_eq_getElem _ _ hj] at this
    exact this
  · have big : ∀ x : UInt8, x.toNat.testBit j = false := fun x =>
      Nat.testBit_lt_two_pow (lt_of_lt_of_le x.toNat_lt (Nat.pow_le_pow_right (by omega) (by omega : 8 ≤ j)))
    rw [big, big]

theorem bit_cons (x : UInt8) (b : Bytes) (n : Nat) :
    bit (x :: b) n = if n < 8 then x.toNat.testBit n else bit b (n - 8) := by
  have := bit_append [x] b n
  rw [List.singleton_append] at this
  rw [this]
  simp only [List.length_singleton, Nat.mul_one]
  split
  · next h => unfold bit; rw [Nat.div_eq_of_lt h, Nat.mod_eq_of_lt h]; rfl
  · rfl

theorem bit_zeros (k n : Nat) : bit (List.replicate k 0) n = false := by
  unfold bit
  have : (List.replicate k (0 : UInt8)).getD (n / 8) 0 = 0 := by
    rw [List.getD_eq_getElem?_getD, List.getElem?_replicate]
    split <;> rfl
  rw [this]
  simp

theorem keccak_padded (m : Bytes) : Padded m (keccakPad m) := by
  have hone : ∀ n < 8, (1 : UInt8).toNat.testBit n = decide (n = 0) := by decide
  have htop : ∀ n < 8, (0x80 : UInt8).toNat.testBit n = decide (n = 7) := by decide
  have hboth : ∀ n < 8, (0x81 : UInt8).toNat.testBit n = decide (n = 0 ∨ n = 7) := by decide
  have hlen : (keccakPad m).length = m.length + (135 - m.length % 136) + 1 := by
    unfold keccakPad
    dsimp only
    split
    · next h => simp [h]
    · simp; omega
  refine ⟨by omega, by omega, by omega, ?_⟩
  intro n hn
  rw [hlen] at hn ⊢
  unfold keccakPad
  dsimp only
  rw [bit_append]
  by_cases hm : n < 8 * m.length
  · rw [if_pos hm, if_pos hm]
  · rw [if_neg hm, if_neg hm]
    split
    · next h =>
      rw [bit_cons, if_pos (by omega), hboth _ (by omega)]
      exact decide_eq_decide.2 (by omega)
    · next h =>
      rw [List.cons_append, bit_cons]
      by_cases h8 : n - 8 * m.length < 8
      · rw [if_pos h8, hone _ h8]
        exact decide_eq_decide.2 (by omega)
      · rw [if_neg h8, bit_append, List.length_replicate]
        by_cases hz : n - 8 * m.length - 8 < 8 * (135 - m.length % 136 - 1)
        · rw [if_pos hz, bit_zeros]
          exact (decide_eq_false (by omega)).symm
        · rw [if_neg hz, bit_cons, if_pos (by omega), htop _ (by omega)]
          exact decide_eq_decide.2 (by omega)

theorem Keccak.Padded.unique {m p q : Bytes} (hp : Padded m p) (hq : Padded m q) : p = q := by
  have hl : p.length = q.length := by
    have h1 := hp.longer; have h2 := hp.least; have h3 := hp.whole
    have h4 := hq.longer; have h5 := hq.least; have h6 := hq.whole
    omega
  refine bytes_of_bits hl fun n hn => ?_
  rw [hp.bits n hn, hq.bits n (by omega), hl]

/-! ## The sponge -/

theorem keccakBlock_lanes {offset : Nat → Nat → Nat} (ho : Offsets offset) {a : List Nat} {s : State} (h : Lanes a s)
    (p : Bytes) (i : Nat) :
    Lanes (keccakBlock a ((p.drop (136 * i)).take 136)) (permute offset roundConstant fun x y z =>
      s x y z ^^ (decide (64 * (5 * y + x) + z < 1088) && bit p (1088 * i + (64 * (5 * y + x) + z)))) := by
  apply keccakRounds_lanes ho
  have hw : ∀ t < 25, (wordsOf leNat 8 17 ((p.drop (136 * i)).take 136) ++ List.replicate 8 0).getD t 0 =
      if t < 17 then leNat (((p.drop (136 * i)).take 136).drop (8 * t) |>.take 8) else 0 := by
    intro t ht
    split
    · next h17 =>
      rw [List.getD_append _ _ _ _ (by rw [wordsOf_length]; exact h17), wordsOf_eq, getD_map_range _ _ h17]
    · next h17 =>
      rw [List.getD_append_right _ _ _ _ (by rw [wordsOf_length]; omega), wordsOf_length, List.getD_eq_getElem?_getD,
        List.getElem?_replicate, if_pos (by omega)]
      rfl
  have hlen : (wordsOf leNat 8 17 ((p.drop (136 * i)).take 136) ++ List.replicate 8 0).length = 25 := by
    rw [List.length_append, wordsOf_length, List.length_replicate]
  have hz : ∀ t < 25, (List.zipWith (· ^^^ ·) a (wordsOf leNat 8 17 ((p.drop (136 * i)).take 136) ++
      List.replicate 8 0)).getD t 0 = a.getD t 0 ^^^
      if t < 17 then leNat (((p.drop (136 * i)).take 136).drop (8 * t) |>.take 8) else 0 := by
    intro t ht
    rw [← hw t ht]
    have h1 : t < a.length := by rw [h.length]; exact ht
    rw [List.getD_eq_getElem _ _ (by rw [List.length_zipWith, h.length, hlen]; exact ht), List.getElem_zipWith,
      List.getD_eq_getElem _ _ h1, List.getD_eq_getElem _ _ (by rw [hlen]; exact ht)]
  have hin : ∀ b : Bytes, leNat (b.take 8) < 2 ^ 64 := fun b =>
    lt_of_lt_of_le (leNat_lt _) (Nat.pow_le_pow_right (by omega) (by rw [List.length_take]; omega))
  refine ⟨by rw [List.length_zipWith, h.length, hlen]; rfl, ?_, ?_⟩
  · intro t
    by_cases ht : t < 25
    · rw [hz t ht]
      refine Nat.xor_lt_two_pow (h.lt t) ?_
      split
      · exact hin _
      · norm_num
    · rw [List.getD_eq_default _ _ (by rw [List.length_zipWith, h.length, hlen]; omega)]
      norm_num
  · intro x hx y hy z hz64
    rw [hz _ (by omega), Nat.testBit_xor, h.bits x hx y hy z hz64]
    congr 1
    by_cases h17 : x + 5 * y < 17
    · rw [if_pos h17, leNat_testBit, decide_eq_true (by omega), Bool.true_and]
      unfold bit
      rw [List.drop_take, List.take_take, List.drop_drop, getD_drop_take (by omega)]
      rw [show 136 * i + 8 * (x + 5 * y) + z / 8 = (1088 * i + (64 * (5 * y + x) + z)) / 8 by omega,
        show z % 8 = (1088 * i + (64 * (5 * y + x) + z)) % 8 by omega]
    · rw [if_neg h17, decide_eq_false (by omega)]
      simp

/-- **C96, Keccak-256.** The function is the one of the Keccak submission, for the offsets it defines. -/
theorem C96_keccak256 {offset : Nat → Nat → Nat} (ho : Offsets offset) {m p : Bytes} (hp : Padded m p) :
    IsDigest offset p (keccak256 m) := by
  have hp' : keccakPad m = p := (keccak_padded m).unique hp
  unfold keccak256
  rw [hp']
  dsimp only
  rw [overBlocks_eq]
  refine ⟨wordsTo_length (n := 8) (fun w => natLE_length 8 w) 4 _, ?_⟩
  have hfold : ∀ n, Lanes ((List.range n).foldl (fun st i => keccakBlock st ((p.drop (136 * i)).take 136))
      (List.replicate 25 0)) ((List.range n).foldl (fun a i => permute offset roundConstant fun x y z =>
      a x y z ^^ (decide (64 * (5 * y + x) + z < 1088) && bit p (1088 * i + (64 * (5 * y + x) + z))))
      fun _ _ _ => false) := by
    intro n
    induction n with
    | zero =>
      have h0 : ∀ t, (List.replicate 25 0).getD t 0 = 0 := by
        intro t
        rw [List.getD_eq_getElem?_getD, List.getElem?_replicate]
        split <;> rfl
      exact ⟨rfl, fun t => by rw [List.range_zero, List.foldl_nil, h0]; norm_num, fun x _ y _ z _ => by
        rw [List.range_zero, List.foldl_nil, h0]; simp⟩
    | succ n ih =>
      rw [List.range_succ, List.foldl_append, List.foldl_append]
      simp only [List.foldl_cons, List.foldl_nil]
      exact keccakBlock_lanes ho ih p n
  intro n hn
  rw [bit_wordsTo 4 _ n (by omega), absorb, ← (hfold (p.length / 136)).bits _ (by omega) _ (by omega) _ (by omega)]
  rw [show n / 64 % 5 + 5 * (n / 64 / 5) = n / 64 by omega]

/-- The digest is the only one. -/
theorem C96_keccak256_iff {offset : Nat → Nat → Nat} (ho : Offsets offset) {m p : Bytes} (hp : Padded m p)
    (out : Bytes) : IsDigest offset p out ↔ out = keccak256 m := by
  have h := C96_keccak256 ho hp
  constructor
  · intro h'
    exact bytes_of_bits (by rw [h.1, h'.1]) fun n hn => by
      rw [h'.2 n (by rw [h'.1] at hn; omega), h.2 n (by rw [h'.1] at hn; omega)]
  · rintro rfl; exact h

/-- The offsets and the padding are there. -/
example : (∃ offset, Offsets offset) ∧ ∀ m, ∃ p, Padded m p := by
  refine ⟨⟨fun x y => if x = 0 ∧ y = 0 then 0 else
    ((List.range 24).find? fun t => keccakWalk t == (x, y)).elim 0 fun t => (t + 1) * (t + 2) / 2, rfl, ?_⟩,
    fun m => ⟨_, keccak_padded m⟩⟩
  intro t ht
  rw [← keccakWalk_eq]
  revert t
  decide +kernel

end Verif
