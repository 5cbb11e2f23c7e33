import Verif.Props.Crypto
import Verif.Spec.Signature

/-!
# Parsing of signatures, exactly
-/

namespace Verif

theorem bigEndian_eq (b : Bytes) : bigEndian b = natOfBytes b := by
  induction b with
  | nil => rfl
  | cons x xs ih =>
    have := natOfBytes_append [x] xs
    simp only [List.singleton_append] at this
    rw [this, bigEndian, ih]
    simp [natOfBytes]

theorem bigEndian_lt (b : Bytes) : bigEndian b < 256 ^ b.length := by
  rw [bigEndian_eq]; exact natOfBytes_lt b

/-- The bytes of a number are determined by it and by how many there are. -/
theorem bigEndian_inj {a b : Bytes} (hl : a.length = b.length) (h : bigEndian a = bigEndian b) : a = b := by
  induction a generalizing b with
  | nil =>
    cases b with
    | nil => rfl
    | cons _ _ => simp at hl
  | cons x xs ih =>
    cases b with
    | nil => simp at hl
    | cons y ys =>
      simp only [List.length_cons, Nat.add_right_cancel_iff] at hl
      simp only [bigEndian, hl] at h
      have h1 := bigEndian_lt xs
      have h2 := bigEndian_lt ys
      rw [hl] at h1
      have hx : x.toNat = y.toNat := by
        have e1 : (x.toNat * 256 ^ ys.length + bigEndian xs) / 256 ^ ys.length = x.toNat := by
          rw [Nat.mul_comm, Nat.mul_add_div (by omega), Nat.div_eq_of_lt h1, Nat.add_zero]
        have e2 : (y.toNat * 256 ^ ys.length + bigEndian ys) / 256 ^ ys.length = y.toNat := by
          rw [Nat.mul_comm, Nat.mul_add_div (by omega), Nat.div_eq_of_lt h2, Nat.add_zero]
        rw [← e1, ← e2, h]
      rw [hx] at h
      rw [UInt8.toNat_inj.1 hx, ih hl (by omega)]

/-- A DER integer is at least as large as its length allows. -/
theorem IsDerInt.ge {b : Bytes} {n : Nat} (h : IsDerInt b n) :
    128 * 256 ^ (b.length - 2) ≤ n ∨ b.length = 1 := by
  obtain ⟨hv, ⟨x, xs, rfl, hx⟩, hs⟩ := h
  cases xs with
  | nil => right; rfl
  | cons y ys =>
    left
    simp only [List.length_cons, Nat.reduceSubDiff]
    rw [← hv]
    simp only [bigEndian, List.length_cons]
    by_cases h0 : x.toNat = 0
    · have hx0 : x = 0 := UInt8.toNat_inj.1 (by rw [h0]; rfl)
      subst hx0
      have := hs y ys rfl
      have : 128 * 256 ^ ys.length ≤ y.toNat * 256 ^ ys.length := Nat.mul_le_mul_right _ this
      omega
    · have : 1 * 256 ^ (ys.length + 1) ≤ x.toNat * 256 ^ (ys.length + 1) :=
        Nat.mul_le_mul_right _ (by omega)
      have e : 256 ^ (ys.length + 1) = 256 ^ ys.length * 256 := Nat.pow_succ ..
      omega

theorem IsDerInt.lt {b : Bytes} {n : Nat} (h : IsDerInt b n) : n < 128 * 256 ^ (b.length - 1) := by
  obtain ⟨hv, ⟨x, xs, rfl, hx⟩, _⟩ := h
  rw [← hv]
  simp only [bigEndian, List.length_cons, Nat.add_sub_cancel]
  have h1 := bigEndian_lt xs
  have : x.toNat * 256 ^ xs.length ≤ 127 * 256 ^ xs.length := Nat.mul_le_mul_right _ (by omega)
  omega

/-- There is at most one DER form of a number. -/
theorem IsDerInt.unique {a b : Bytes} {n : Nat} (ha : IsDerInt a n) (hb : IsDerInt b n) :
    a = b := by
  have key : ∀ {a b : Bytes}, IsDerInt a n → IsDerInt b n → ¬ a.length < b.length := by
    intro a b ha hb hlt
    have h1 := ha.lt
    obtain ⟨x, xs, rfl, _⟩ := ha.notNegative
    rcases hb.ge with h2 | h2
    · have : 256 ^ ((x :: xs).length - 1) ≤ 256 ^ (b.length - 2) :=
        Nat.pow_le_pow_right (by decide) (by omega)
      omega
    · simp only [List.length_cons] at hlt; omega
  have h1 := key ha hb
  have h2 := key hb ha
  exact bigEndian_inj (by omega) (ha.value.trans hb.value.symm)

theorem canonicalPadding_iff {b : Bytes} (hb : b ≠ []) :
    canonicalPadding b = true ↔ IsDerInt b (natOfBytes b) := by
  constructor
  · intro h
    refine ⟨bigEndian_eq b, ?_, ?_⟩
    · cases b with
      | nil => exact absurd rfl hb
      | cons x xs =>
        refine ⟨x, xs, rfl, ?_⟩
        unfold canonicalPadding at h
        dsimp only at h
        split at h
        · simp at h
        · rename_i hx
          rw [UInt8.le_iff_toNat_le] at hx
          simpa using hx
    · rintro y ys rfl
      simp only [canonicalPadding] at h
      rw [if_neg (by decide)] at h
      simp only [beq_self_eq_true, Bool.true_and, Bool.not_eq_true', decide_eq_false_iff_not,
        UInt8.lt_iff_toNat_lt, Nat.not_lt] at h
      exact h
  · intro ⟨_, ⟨x, xs, e, hx⟩, hs⟩
    subst e
    unfold canonicalPadding
    dsimp only
    rw [if_neg (by rw [UInt8.le_iff_toNat_le]; simpa using hx)]
    cases xs with
    | nil => rfl
    | cons y ys =>
      dsimp only
      by_cases h0 : x = 0
      · subst h0
        have := hs y ys rfl
        simp only [beq_self_eq_true, Bool.true_and, Bool.not_eq_true', decide_eq_false_iff_not,
          UInt8.lt_iff_toNat_lt, Nat.not_lt]
        exact this
      · simp [h0]

/-- What the parser accepts, byte by byte. -/
theorem parseSig_some_iff (der : Bool) (sig : Bytes) (r s : Nat) :
    parseSig der sig = some (r, s) ↔
      ∃ (rb sb junk : Bytes) (l lr ls : UInt8),
        sig = 0x30 :: l :: 0x02 :: lr :: (rb ++ 0x02 :: ls :: (sb ++ junk)) ∧
        l.toNat = 4 + rb.length + sb.length ∧ l.toNat ≤ 253 ∧ lr.toNat = rb.length ∧
        ls.toNat = sb.length ∧ rb ≠ [] ∧ sb ≠ [] ∧
        (der = true → canonicalPadding rb = true ∧ canonicalPadding sb = true) ∧
        r = natOfBytes rb ∧ s = natOfBytes sb ∧ r ≠ 0 ∧ s ≠ 0 ∧ r < curveN ∧ s < curveN := by
  constructor
  · intro h
    unfold parseSig at h
    split at h
    · simp at h
    split at h
    case h_2 => simp at h
    rename_i l rest hlen
    dsimp only at h
    split at h
    · simp at h
    rename_i htot
    split at h
    case h_2 => simp at h
    rename_i _ lr rest2 hr2
    split at h
    · simp at h
    rename_i hrl
    split at h
    · simp at h
    rename_i hcr
    split at h
    case h_2 => simp at h
    rename_i _ ls sb hsb
    split at h
    · simp at h
    rename_i hsl
    split at h
    · simp at h
    rename_i hcs
    split at h
    · simp at h
    rename_i hse
    split at h
    · simp at h
    rename_i hn
    simp only [Option.some.injEq, Prod.mk.injEq] at h
    simp only [not_or, Nat.not_lt, Nat.not_le] at htot hrl hsl hn
    simp only [ne_eq, Decidable.not_not] at hse
    have hl : (l + 2).toNat = l.toNat + 2 := by
      have := UInt8.toNat_add l 2
      have h2 : (2 : UInt8).toNat = 2 := rfl
      have := l.toNat_lt
      omega
    have hsplit : rest = (0x02 :: lr :: rest2) ++ rest.drop ((l + 2).toNat - 2) := by
      rw [← hr2, List.take_append_drop]
    have hrest2 : rest2 = rest2.take lr.toNat ++ (0x02 :: ls :: sb) := by
      rw [← hsb, List.take_append_drop]
    have hlr : (rest2.take lr.toNat).length = lr.toNat := by
      rw [List.length_take]; omega
    have hlen2 : rest2.length = lr.toNat + 2 + ls.toNat := by
      rw [hrest2, List.length_append, hlr]
      simp only [List.length_cons]; omega
    have hlen3 : (rest.take ((l + 2).toNat - 2)).length = l.toNat := by
      rw [List.length_take]
      simp only [List.length_cons] at htot
      omega
    rw [hr2] at hlen3
    simp only [List.length_cons] at hlen3
    have hsbt : sb.take ls.toNat = sb := List.take_of_length_le (by omega)
    rw [hsbt] at hcs
    refine ⟨rest2.take lr.toNat, sb, rest.drop ((l + 2).toNat - 2), l, lr, ls, ?_, ?_, ?_, hlr.symm,
      hse.symm, ?_, ?_, ?_, h.1.symm, h.2.symm, ?_, ?_, ?_, ?_⟩
    · generalize hj : rest.drop ((l + 2).toNat - 2) = junk at *
      rw [hsplit]
      simp only [List.cons_append, List.cons.injEq, true_and]
      conv => lhs; rw [hrest2]
      simp
    · rw [hlr]; omega
    · have := l.toNat_lt
      have := (l + 2).toNat_lt
      omega
    · intro he; rw [he] at hlr; simp at hlr; omega
    · intro he; rw [he] at hse; simp at hse; omega
    · intro hd
      subst hd
      simp only [Bool.true_and, Bool.not_eq_true', Bool.not_eq_false] at hcr hcs
      exact ⟨hcr, hcs⟩
    · rw [← h.1]; omega
    · rw [← h.2]; omega
    · rw [← h.1]; omega
    · rw [← h.2]; omega
  · rintro ⟨rb, sb, junk, l, lr, ls, rfl, hl, hl2, hlr, hls, hrb, hsb, hc, rfl, rfl, h1, h2, h3, h4⟩
    have p1 := List.length_pos_iff.2 hrb
    have p2 := List.length_pos_iff.2 hsb
    have ht : (l + 2).toNat = 6 + rb.length + sb.length := by
      have := UInt8.toNat_add l 2
      have h2 : (2 : UInt8).toNat = 2 := rfl
      omega
    have htake : (0x02 :: lr :: (rb ++ 0x02 :: ls :: (sb ++ junk))).take (6 + rb.length + sb.length - 2) =
        0x02 :: lr :: (rb ++ 0x02 :: ls :: sb) := by
      have e : (0x02 :: lr :: (rb ++ 0x02 :: ls :: (sb ++ junk)) : Bytes) =
          (0x02 :: lr :: (rb ++ 0x02 :: ls :: sb)) ++ junk := by simp
      rw [e]
      refine List.take_left' ?_
      simp only [List.length_cons, List.length_append]
      omega
    unfold parseSig
    simp only [ht]
    rw [if_neg (by simp only [List.length_cons, List.length_append]; omega)]
    rw [if_neg (by simp only [List.length_cons, List.length_append]; omega)]
    rw [htake]
    simp only [hlr]
    rw [if_neg (by simp only [List.length_cons, List.length_append]; omega)]
    rw [List.take_left' rfl, List.drop_left' rfl]
    simp only [hls]
    have hcr : (der && !canonicalPadding rb) = false := by
      cases der with
      | false => rfl
      | true => rw [(hc rfl).1]; rfl
    have hcs : (der && !canonicalPadding sb) = false := by
      cases der with
      | false => rfl
      | true => rw [(hc rfl).2]; rfl
    rw [hcr, List.take_of_length_le (Nat.le_refl _), hcs]
    simp only [Bool.false_eq_true, if_false]
    rw [if_neg (by omega), if_neg (by simp), if_neg (by omega)]

/-- Parsing what `strToDer` makes: the two halves. -/
theorem parseSig_strToDer_long {x : Bytes} (hl : x.length ≤ 249) (r s : Nat) :
    parseSig false (strToDer x) = some (r, s) ↔
      r = bigEndian (x.take (x.length / 2)) ∧ s = bigEndian (x.drop (x.length / 2)) ∧
      0 < r ∧ r < curveN ∧ 0 < s ∧ s < curveN := by
  have hrb : (x.take (x.length / 2)).length = x.length / 2 := by rw [List.length_take]; omega
  have hsb : (x.drop (x.length / 2)).length = x.length - x.length / 2 := by rw [List.length_drop]
  rw [parseSig_some_iff]
  simp only [bigEndian_eq]
  generalize hr : x.take (x.length / 2) = rb at *
  generalize hs : x.drop (x.length / 2) = sb at *
  have e : strToDer x = 0x30 :: (4 + rb.length + sb.length).toUInt8 ::
      (0x02 :: rb.length.toUInt8 :: (rb ++ 0x02 :: sb.length.toUInt8 :: sb)) := by
    simp [strToDer, hr, hs]
  have t1 : (4 + rb.length + sb.length).toUInt8.toNat = 4 + rb.length + sb.length := toUInt8_small (by omega)
  have t2 : rb.length.toUInt8.toNat = rb.length := toUInt8_small (by omega)
  have t3 : sb.length.toUInt8.toNat = sb.length := toUInt8_small (by omega)
  constructor
  · rintro ⟨rb', sb', junk, l, lr, ls, he, h1, h2, h3, h4, _, _, _, hr', hs', n1, n2, n3, n4⟩
    rw [e] at he
    simp only [List.cons.injEq, true_and] at he
    obtain ⟨rfl, rfl, he⟩ := he
    have hlen : rb.length = rb'.length := by omega
    obtain ⟨e1, e2⟩ := List.append_inj he hlen
    simp only [List.cons.injEq, true_and] at e2
    obtain ⟨rfl, e2⟩ := e2
    have hlen2 : sb.length = sb'.length := by omega
    have hj : sb ++ [] = sb' ++ junk := by rw [List.append_nil]; exact e2
    obtain ⟨e3, _⟩ := List.append_inj hj hlen2
    subst e1 e3
    exact ⟨hr', hs', by omega, n3, by omega, n4⟩
  · rintro ⟨rfl, rfl, n1, n2, n3, n4⟩
    refine ⟨rb, sb, [], _, _, _, by rw [e, List.append_nil], t1, by omega, t2, t3, ?_, ?_, by simp, rfl, rfl,
      by omega, by omega, n2, n4⟩
    · intro h; rw [h] at n1; simp [natOfBytes] at n1
    · intro h; rw [h] at n3; simp [natOfBytes] at n3

end Verif
