import Verif.Model.Proto
import Verif.Spec.Text

/-!
# The UTF-8 check of the model accepts exactly the text
-/

namespace Verif.Proto

theorem utf8_ofNat_toNat {n : Nat} (h : n < 256) : (UInt8.ofNat n).toNat = n := by
  simp; omega

theorem utf8Valid_encodeChar (c : Char) (r : Bytes) :
    utf8Valid (String.utf8EncodeChar c ++ r) = utf8Valid r := by
  have hv : c.val.toNat < 0xd800 ∨ (0xdfff < c.val.toNat ∧ c.val.toNat < 0x110000) := c.valid
  generalize hn : c.val.toNat = v at hv
  unfold String.utf8EncodeChar
  simp only [hn]
  split
  · rename_i h
    simp only [List.singleton_append]
    rw [utf8Valid.eq_def]
    dsimp only
    rw [if_pos (by rw [UInt8.lt_iff_toNat_lt, utf8_ofNat_toNat (by omega)]; show v < 128; omega)]
  split
  · rename_i h1 h2
    generalize hb0 : UInt8.ofNat (v / 64 % 32 + 192) = b0
    generalize hb1 : UInt8.ofNat (v % 64 + 128) = b1
    have e0 : b0.toNat = v / 64 % 32 + 192 := by rw [← hb0]; exact utf8_ofNat_toNat (by omega)
    have e1 : b1.toNat = v % 64 + 128 := by rw [← hb1]; exact utf8_ofNat_toNat (by omega)
    simp only [List.cons_append, List.nil_append]
    rw [utf8Valid.eq_def]
    dsimp only
    simp only [UInt8.lt_iff_toNat_lt, UInt8.le_iff_toNat_le, isCont, e0, e1, UInt8.reduceToNat]
    rw [if_neg (by omega), if_pos (by simp; omega)]
    have : (decide (128 ≤ v % 64 + 128) && decide (v % 64 + 128 ≤ 191)) = true := by simp; omega
    rw [this, Bool.true_and]
  split
  · rename_i h1 h2 h3
    generalize hb0 : UInt8.ofNat (v / 4096 % 16 + 224) = b0
    generalize hb1 : UInt8.ofNat (v / 64 % 64 + 128) = b1
    generalize hb2 : UInt8.ofNat (v % 64 + 128) = b2
    have e0 : b0.toNat = v / 4096 % 16 + 224 := by rw [← hb0]; exact utf8_ofNat_toNat (by omega)
    have e1 : b1.toNat = v / 64 % 64 + 128 := by rw [← hb1]; exact utf8_ofNat_toNat (by omega)
    have e2 : b2.toNat = v % 64 + 128 := by rw [← hb2]; exact utf8_ofNat_toNat (by omega)
    simp only [List.cons_append, List.nil_append]
    rw [utf8Valid.eq_def]
    dsimp only
    simp only [UInt8.lt_iff_toNat_lt, UInt8.le_iff_toNat_le, isCont, e0, e1, e2, UInt8.reduceToNat,
      beq_iff_eq, ← UInt8.toNat_inj]
    rw [if_neg (by omega), if_neg (by simp <;> omega)]
    by_cases hE0 : v / 4096 % 16 + 224 = 224
    · rw [if_pos hE0]
      have : (decide (160 ≤ v / 64 % 64 + 128) && decide (v / 64 % 64 + 128 ≤ 191) &&
        (decide (128 ≤ v % 64 + 128) && decide (v % 64 + 128 ≤ 191))) = true := by simp; omega
      rw [this, Bool.true_and]
    rw [if_neg hE0]
    by_cases hED : v / 4096 % 16 + 224 = 237
    · rw [if_pos hED]
      have : (decide (128 ≤ v / 64 % 64 + 128) && decide (v / 64 % 64 + 128 ≤ 159) &&
        (decide (128 ≤ v % 64 + 128) && decide (v % 64 + 128 ≤ 191))) = true := by simp; omega
      rw [this, Bool.true_and]
    rw [if_neg hED, if_pos (by simp; omega)]
    have : ((decide (128 ≤ v / 64 % 64 + 128) && decide (v / 64 % 64 + 128 ≤ 191)) &&
        (decide (128 ≤ v % 64 + 128) && decide (v % 64 + 128 ≤ 191))) = true := by simp; omega
    rw [this, Bool.true_and]
  · rename_i h1 h2 h3
    generalize hb0 : UInt8.ofNat (v / 262144 % 8 + 240) = b0
    generalize hb1 : UInt8.ofNat (v / 4096 % 64 + 128) = b1
    generalize hb2 : UInt8.ofNat (v / 64 % 64 + 128) = b2
    generalize hb3 : UInt8.ofNat (v % 64 + 128) = b3
    have e0 : b0.toNat = v / 262144 % 8 + 240 := by rw [← hb0]; exact utf8_ofNat_toNat (by omega)
    have e1 : b1.toNat = v / 4096 % 64 + 128 := by rw [← hb1]; exact utf8_ofNat_toNat (by omega)
    have e2 : b2.toNat = v / 64 % 64 + 128 := by rw [← hb2]; exact utf8_ofNat_toNat (by omega)
    have e3 : b3.toNat = v % 64 + 128 := by rw [← hb3]; exact utf8_ofNat_toNat (by omega)
    simp only [List.cons_append, List.nil_append]
    rw [utf8Valid.eq_def]
    dsimp only
    simp only [UInt8.lt_iff_toNat_lt, UInt8.le_iff_toNat_le, isCont, e0, e1, e2, e3,
      UInt8.reduceToNat, beq_iff_eq, ← UInt8.toNat_inj]
    rw [if_neg (by omega), if_neg (by simp <;> omega), if_neg (by omega), if_neg (by omega),
      if_neg (by simp <;> omega)]
    by_cases hF0 : v / 262144 % 8 + 240 = 240
    · rw [if_pos hF0]
      have : (decide (144 ≤ v / 4096 % 64 + 128) && decide (v / 4096 % 64 + 128 ≤ 191) &&
        (decide (128 ≤ v / 64 % 64 + 128) && decide (v / 64 % 64 + 128 ≤ 191)) &&
        (decide (128 ≤ v % 64 + 128) && decide (v % 64 + 128 ≤ 191))) = true := by simp; omega
      rw [this, Bool.true_and]
    rw [if_neg hF0]
    by_cases hF4 : v / 262144 % 8 + 240 = 244
    · rw [if_pos hF4]
      have : (decide (128 ≤ v / 4096 % 64 + 128) && decide (v / 4096 % 64 + 128 ≤ 143) &&
        (decide (128 ≤ v / 64 % 64 + 128) && decide (v / 64 % 64 + 128 ≤ 191)) &&
        (decide (128 ≤ v % 64 + 128) && decide (v % 64 + 128 ≤ 191))) = true := by simp; omega
      rw [this, Bool.true_and]
    rw [if_neg hF4, if_pos (by simp; omega)]
    have : ((decide (128 ≤ v / 4096 % 64 + 128) && decide (v / 4096 % 64 + 128 ≤ 191)) &&
        (decide (128 ≤ v / 64 % 64 + 128) && decide (v / 64 % 64 + 128 ≤ 191)) &&
        (decide (128 ≤ v % 64 + 128) && decide (v % 64 + 128 ≤ 191))) = true := by simp; omega
    rw [this, Bool.true_and]

theorem utf8Valid_of_isText {b : Bytes} (h : IsText b) : utf8Valid b = true := by
  obtain ⟨cs, rfl⟩ := h
  induction cs with
  | nil => rfl
  | cons c cs ih => rw [List.flatMap_cons, utf8Valid_encodeChar]; exact ih

/-- A character from its number. -/
theorem exists_char {v : Nat} (h : v < 0xd800 ∨ (0xdfff < v ∧ v < 0x110000)) :
    ∃ c : Char, c.val.toNat = v := by
  refine ⟨⟨UInt32.ofNat v, ?_⟩, ?_⟩
  · have e : (UInt32.ofNat v).toNat = v := by simp; omega
    show (UInt32.ofNat v).toNat.isValidChar
    rw [e]
    exact h
  · simp; omega

theorem uint8_eq_ofNat {b : UInt8} {n : Nat} (h : b.toNat = n) : b = UInt8.ofNat n := by
  rw [← h]; simp

theorem encodeChar_one {b0 : UInt8} (h : b0.toNat < 128) :
    ∃ c : Char, String.utf8EncodeChar c = [b0] := by
  obtain ⟨c, hc⟩ := exists_char (v := b0.toNat) (by omega)
  refine ⟨c, ?_⟩
  unfold String.utf8EncodeChar
  simp only [hc]
  rw [if_pos (by omega)]
  simp

theorem encodeChar_two {b0 b1 : UInt8} (h0 : 194 ≤ b0.toNat ∧ b0.toNat ≤ 223)
    (h1 : 128 ≤ b1.toNat ∧ b1.toNat ≤ 191) : ∃ c : Char, String.utf8EncodeChar c = [b0, b1] := by
  obtain ⟨c, hc⟩ := exists_char (v := (b0.toNat - 192) * 64 + (b1.toNat - 128)) (by omega)
  refine ⟨c, ?_⟩
  unfold String.utf8EncodeChar
  simp only [hc]
  rw [if_neg (by omega), if_pos (by omega)]
  rw [← uint8_eq_ofNat (b := b0) (by omega), ← uint8_eq_ofNat (b := b1) (by omega)]

theorem encodeChar_three {b0 b1 b2 : UInt8} (h0 : 224 ≤ b0.toNat ∧ b0.toNat ≤ 239)
    (h1 : 128 ≤ b1.toNat ∧ b1.toNat ≤ 191) (h2 : 128 ≤ b2.toNat ∧ b2.toNat ≤ 191)
    (ho : b0.toNat = 224 → 160 ≤ b1.toNat) (hs : b0.toNat = 237 → b1.toNat ≤ 159) :
    ∃ c : Char, String.utf8EncodeChar c = [b0, b1, b2] := by
  obtain ⟨c, hc⟩ := exists_char
    (v := (b0.toNat - 224) * 4096 + (b1.toNat - 128) * 64 + (b2.toNat - 128)) (by omega)
  refine ⟨c, ?_⟩
  unfold String.utf8EncodeChar
  simp only [hc]
  rw [if_neg (by omega), if_neg (by omega), if_pos (by omega)]
  rw [← uint8_eq_ofNat (b := b0) (by omega), ← uint8_eq_ofNat (b := b1) (by omega),
    ← uint8_eq_ofNat (b := b2) (by omega)]

theorem encodeChar_four {b0 b1 b2 b3 : UInt8} (h0 : 240 ≤ b0.toNat ∧ b0.toNat ≤ 244)
    (h1 : 128 ≤ b1.toNat ∧ b1.toNat ≤ 191) (h2 : 128 ≤ b2.toNat ∧ b2.toNat ≤ 191)
    (h3 : 128 ≤ b3.toNat ∧ b3.toNat ≤ 191)
    (ho : b0.toNat = 240 → 144 ≤ b1.toNat) (hs : b0.toNat = 244 → b1.toNat ≤ 143) :
    ∃ c : Char, String.utf8EncodeChar c = [b0, b1, b2, b3] := by
  obtain ⟨c, hc⟩ := exists_char
    (v := (b0.toNat - 240) * 262144 + (b1.toNat - 128) * 4096 + (b2.toNat - 128) * 64 +
      (b3.toNat - 128)) (by omega)
  refine ⟨c, ?_⟩
  unfold String.utf8EncodeChar
  simp only [hc]
  rw [if_neg (by omega), if_neg (by omega), if_neg (by omega)]
  rw [← uint8_eq_ofNat (b := b0) (by omega), ← uint8_eq_ofNat (b := b1) (by omega),
    ← uint8_eq_ofNat (b := b2) (by omega), ← uint8_eq_ofNat (b := b3) (by omega)]

theorem isText_append {a r : Bytes} (h : ∃ c : Char, String.utf8EncodeChar c = a) (hr : IsText r) :
    IsText (a ++ r) := by
  obtain ⟨c, rfl⟩ := h
  obtain ⟨cs, rfl⟩ := hr
  exact ⟨c :: cs, by simp⟩

theorem isText_of_utf8Valid (b : Bytes) (h : utf8Valid b = true) : IsText b := by
  induction hn : b.length using Nat.strongRecOn generalizing b with
  | _ n ih =>
    subst hn
    match b with
    | [] => exact ⟨[], rfl⟩
    | b0 :: r0 =>
      rw [utf8Valid.eq_def] at h
      dsimp only at h
      simp only [UInt8.lt_iff_toNat_lt, UInt8.le_iff_toNat_le, isCont, UInt8.reduceToNat,
        beq_iff_eq, ← UInt8.toNat_inj] at h
      split at h
      · rename_i h0
        exact isText_append (a := [b0]) (encodeChar_one h0) (ih _ (by simp) _ h rfl)
      match r0 with
      | [] => simp at h
      | b1 :: r1 =>
        simp only at h
        split at h
        · rename_i h0
          simp only [Bool.and_eq_true, decide_eq_true_eq] at h h0
          exact isText_append (a := [b0, b1]) (encodeChar_two h0 h.1)
            (ih _ (by simp; omega) _ h.2 rfl)
        match r1 with
        | [] => simp at h
        | b2 :: r2 =>
          simp only at h
          split at h
          · rename_i h0
            simp only [Bool.and_eq_true, decide_eq_true_eq] at h
            exact isText_append (a := [b0, b1, b2])
              (encodeChar_three (by omega) (by omega) (by omega) (by omega) (by omega))
              (ih _ (by simp; omega) _ h.2 rfl)
          split at h
          · rename_i h0
            simp only [Bool.and_eq_true, decide_eq_true_eq] at h
            exact isText_append (a := [b0, b1, b2])
              (encodeChar_three (by omega) (by omega) (by omega) (by omega) (by omega))
              (ih _ (by simp; omega) _ h.2 rfl)
          split at h
          · rename_i h0
            simp only [Bool.and_eq_true, decide_eq_true_eq] at h h0
            exact isText_append (a := [b0, b1, b2])
              (encodeChar_three (by omega) (by omega) (by omega) (by omega) (by omega))
              (ih _ (by simp; omega) _ h.2 rfl)
          match r2 with
          | [] => simp at h
          | b3 :: r3 =>
            simp only at h
            split at h
            · rename_i h0
              simp only [Bool.and_eq_true, decide_eq_true_eq] at h
              exact isText_append (a := [b0, b1, b2, b3])
                (encodeChar_four (by omega) (by omega) (by omega) (by omega) (by omega) (by omega))
                (ih _ (by simp; omega) _ h.2 rfl)
            split at h
            · rename_i h0
              simp only [Bool.and_eq_true, decide_eq_true_eq] at h
              exact isText_append (a := [b0, b1, b2, b3])
                (encodeChar_four (by omega) (by omega) (by omega) (by omega) (by omega) (by omega))
                (ih _ (by simp; omega) _ h.2 rfl)
            split at h
            · rename_i h0
              simp only [Bool.and_eq_true, decide_eq_true_eq] at h h0
              exact isText_append (a := [b0, b1, b2, b3])
                (encodeChar_four (by omega) (by omega) (by omega) (by omega) (by omega) (by omega))
                (ih _ (by simp; omega) _ h.2 rfl)
            · simp at h

/-- The check accepts exactly the UTF-8 forms of character sequences. -/
theorem utf8Valid_iff (b : Bytes) : utf8Valid b = true ↔ IsText b :=
  ⟨isText_of_utf8Valid b, utf8Valid_of_isText⟩

end Verif.Proto
