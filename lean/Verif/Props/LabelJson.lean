import Verif.Model.LabelJson
import Verif.Lemmas.Utf8

/-!
# C14: JSON form of dialogue labels
-/

namespace Verif

namespace Json

open Proto

/-! ## UTF-8 sequences -/

/-- A text is valid if its first sequence is valid and the rest is. -/
theorem utf8Valid_step (c : UInt8) (r : Bytes) :
    utf8Valid (c :: r) = (decide (seqLen (c :: r) ≠ 0) && utf8Valid ((c :: r).drop (seqLen (c :: r)))) := by
  unfold seqLen
  rw [utf8Valid.eq_def]
  dsimp only
  by_cases h0 : c < 0x80
  · simp [h0]
  · simp only [if_neg h0]
    rcases r with _ | ⟨b1, r1⟩
    · simp
    · dsimp only
      by_cases h1 : (0xC2 ≤ c && c ≤ 0xDF) = true
      · simp only [if_pos h1]
        cases isCont b1 <;> simp
      · simp only [if_neg h1]
        rcases r1 with _ | ⟨b2, r2⟩
        · simp
        · dsimp only
          by_cases h2 : (c == 0xE0) = true
          · simp only [if_pos h2]
            cases (0xA0 ≤ b1 && b1 ≤ 0xBF && isCont b2) <;> simp
          · simp only [if_neg h2]
            by_cases h3 : (c == 0xED) = true
            · simp only [if_pos h3]
              cases (0x80 ≤ b1 && b1 ≤ 0x9F && isCont b2) <;> simp
            · simp only [if_neg h3]
              by_cases h4 : (0xE1 ≤ c && c ≤ 0xEF) = true
              · simp only [if_pos h4]
                cases (isCont b1 && isCont b2) <;> simp
              · simp only [if_neg h4]
                rcases r2 with _ | ⟨b3, r3⟩
                · simp
                · dsimp only
                  by_cases h5 : (c == 0xF0) = true
                  · simp only [if_pos h5]
                    cases (0x90 ≤ b1 && b1 ≤ 0xBF && isCont b2 && isCont b3) <;> simp
                  · simp only [if_neg h5]
                    by_cases h6 : (c == 0xF4) = true
                    · simp only [if_pos h6]
                      cases (0x80 ≤ b1 && b1 ≤ 0x8F && isCont b2 && isCont b3) <;> simp
                    · simp only [if_neg h6]
                      by_cases h7 : (0xF1 ≤ c && c ≤ 0xF3) = true
                      · simp only [if_pos h7]
                        cases (isCont b1 && isCont b2 && isCont b3) <;> simp
                      · simp only [if_neg h7]; simp

theorem isCont_high {b : UInt8} (h : isCont b = true) : 0x80 ≤ b := by
  unfold isCont at h
  simp at h
  exact h.1

theorem high_of_not_lt {c : UInt8} (h : ¬c < 0x80) : 0x80 ≤ c := by
  rw [UInt8.not_lt] at h
  exact h

/-- The first sequence of a text is one ASCII character or consists of bytes from 0x80 on. -/
theorem seqLen_cases (c : UInt8) (r : Bytes) :
    (c < 0x80 ∧ seqLen (c :: r) = 1) ∨
    (¬c < 0x80 ∧ (∀ b ∈ (c :: r).take (seqLen (c :: r)), 0x80 ≤ b) ∧
      seqLen (c :: r) ≤ (c :: r).length) := by
  by_cases h0 : c < 0x80
  · left
    refine ⟨h0, ?_⟩
    unfold seqLen
    dsimp only
    rw [if_pos h0]
  · right
    refine ⟨h0, ?_⟩
    have hc := high_of_not_lt h0
    have zero : ∀ l : Bytes, (∀ b ∈ l.take 0, (0x80 : UInt8) ≤ b) ∧ 0 ≤ l.length := by
      intro l; simp
    have two : ∀ (b1 : UInt8) (l : Bytes), 0x80 ≤ b1 →
        (∀ b ∈ (c :: b1 :: l).take 2, (0x80 : UInt8) ≤ b) ∧ 2 ≤ (c :: b1 :: l).length := by
      intro b1 l h1
      refine ⟨?_, by simp⟩
      intro b hb
      simp at hb
      rcases hb with rfl | rfl <;> assumption
    have three : ∀ (b1 b2 : UInt8) (l : Bytes), 0x80 ≤ b1 → 0x80 ≤ b2 →
        (∀ b ∈ (c :: b1 :: b2 :: l).take 3, (0x80 : UInt8) ≤ b) ∧
        3 ≤ (c :: b1 :: b2 :: l).length := by
      intro b1 b2 l h1 h2
      refine ⟨?_, by simp⟩
      intro b hb
      simp at hb
      rcases hb with rfl | rfl | rfl <;> assumption
    have four : ∀ (b1 b2 b3 : UInt8) (l : Bytes), 0x80 ≤ b1 → 0x80 ≤ b2 → 0x80 ≤ b3 →
        (∀ b ∈ (c :: b1 :: b2 :: b3 :: l).take 4, (0x80 : UInt8) ≤ b) ∧
        4 ≤ (c :: b1 :: b2 :: b3 :: l).length := by
      intro b1 b2 b3 l h1 h2 h3
      refine ⟨?_, by simp⟩
      intro b hb
      simp at hb
      rcases hb with rfl | rfl | rfl | rfl <;> assumption
    have hA0 : ∀ b : UInt8, 0xA0 ≤ b → 0x80 ≤ b := fun b h => UInt8.le_trans (by decide) h
    have h90 : ∀ b : UInt8, 0x90 ≤ b → 0x80 ≤ b := fun b h => UInt8.le_trans (by decide) h
    unfold seqLen
    simp only [if_neg h0]
    rcases r with _ | ⟨b1, r1⟩
    · exact zero _
    · dsimp only
      split
      · split
        · exact two _ _ (isCont_high (by assumption))
        · exact zero _
      · rcases r1 with _ | ⟨b2, r2⟩
        · exact zero _
        · dsimp only
          split
          · split
            · rename_i h; simp at h; exact three _ _ _ (hA0 _ h.1.1) (isCont_high h.2)
            · exact zero _
          · split
            · split
              · rename_i h; simp at h; exact three _ _ _ h.1.1 (isCont_high h.2)
              · exact zero _
            · split
              · split
                · rename_i h; simp at h; exact three _ _ _ (isCont_high h.1) (isCont_high h.2)
                · exact zero _
              · rcases r2 with _ | ⟨b3, r3⟩
                · exact zero _
                · dsimp only
                  split
                  · split
                    · rename_i h; simp at h
                      exact four _ _ _ _ (h90 _ h.1.1.1) (isCont_high h.1.2) (isCont_high h.2)
                    · exact zero _
                  · split
                    · split
                      · rename_i h; simp at h
                        exact four _ _ _ _ h.1.1.1 (isCont_high h.1.2) (isCont_high h.2)
                      · exact zero _
                    · split
                      · split
                        · rename_i h; simp at h
                          exact four _ _ _ _ (isCont_high h.1.1) (isCont_high h.1.2)
                            (isCont_high h.2)
                        · exact zero _
                      · exact zero _

theorem utf8Valid_ascii {c : UInt8} (h : c < 0x80) (r : Bytes) : utf8Valid (c :: r) = utf8Valid r := by
  rw [utf8Valid.eq_def]
  dsimp only
  rw [if_pos h]

/-! ## Unquoting -/

/-- A text without escapes that is valid UTF-8 is unchanged. -/
theorem unquoteAux_plain (f : Nat) (s : Bytes) (hf : s.length ≤ f) (hb : backslash ∉ s)
    (hv : utf8Valid s = true) : unquoteAux f s = s := by
  induction f generalizing s with
  | zero =>
    cases s with
    | nil => rfl
    | cons c r => simp at hf
  | succ f ih =>
    cases s with
    | nil => rfl
    | cons c r =>
      rw [utf8Valid_step] at hv
      simp only [ne_eq, decide_not, Bool.and_eq_true, Bool.not_eq_eq_eq_not, Bool.not_true,
        decide_eq_false_iff_not] at hv
      obtain ⟨h0, hv⟩ := hv
      have hc : c ≠ backslash := fun e => hb (by simp [e])
      unfold unquoteAux
      rw [if_neg hc, if_neg h0, ih, List.take_append_drop]
      · simp only [List.length_drop, List.length_cons] at *
        omega
      · intro hm
        exact hb (List.mem_of_mem_drop hm)
      · exact hv

theorem unquote_plain {s : Bytes} (hb : backslash ∉ s) (hv : utf8Valid s = true) : unquote s = s :=
  unquoteAux_plain _ s (Nat.le_refl _) hb hv

theorem utf8Valid_replacement (t : Bytes) : utf8Valid (replacement ++ t) = utf8Valid t := by
  unfold replacement
  rw [List.cons_append, utf8Valid_step]
  have : seqLen (0xEF :: ([0xBF, 0xBD] ++ t)) = 3 := by
    simp [seqLen, isCont]
  rw [this]
  simp

theorem u8 (n : Nat) (h : n < 256) (k : Nat) (hk : k < 256) :
    (k.toUInt8 ≤ n.toUInt8 ↔ k ≤ n) ∧ (n.toUInt8 ≤ k.toUInt8 ↔ n ≤ k) ∧
    (n.toUInt8 < k.toUInt8 ↔ n < k) ∧ (n.toUInt8 = k.toUInt8 ↔ n = k) := by
  have e1 : n.toUInt8.toNat = n := by simp [Nat.toUInt8]; omega
  have e2 : k.toUInt8.toNat = k := by simp [Nat.toUInt8]; omega
  refine ⟨?_, ?_, ?_, ?_⟩
  · rw [UInt8.le_iff_toNat_le, e1, e2]
  · rw [UInt8.le_iff_toNat_le, e1, e2]
  · rw [UInt8.lt_iff_toNat_lt, e1, e2]
  · rw [← UInt8.toNat_inj, e1, e2]

theorem cont_u8 (n : Nat) (h : n < 64) : isCont (0x80 + n).toUInt8 = true := by
  unfold isCont
  simp only [Bool.and_eq_true, decide_eq_true_eq]
  refine ⟨((u8 (0x80 + n) (by omega) 0x80 (by omega)).1).2 (by omega),
    ((u8 (0x80 + n) (by omega) 0xBF (by omega)).2.1).2 (by omega)⟩

/-- An encoded character is a valid sequence. -/
theorem utf8Valid_encodeRune (n : Nat) (t : Bytes) : utf8Valid (encodeRune n ++ t) = utf8Valid t := by
  unfold encodeRune
  split
  · rename_i h
    apply utf8Valid_ascii
    exact ((u8 n (by omega) 0x80 (by omega)).2.2.1).2 h
  rename_i h1
  split
  · rename_i h2
    rw [List.cons_append, utf8Valid_step]
    have hb := u8 (0xC0 + n / 64) (by omega)
    have g1 : ¬(0xC0 + n / 64).toUInt8 < 0x80 := fun h => by
      have := ((hb 0x80 (by omega)).2.2.1).1 h; omega
    have g2 : (0xC2 ≤ (0xC0 + n / 64).toUInt8 && (0xC0 + n / 64).toUInt8 ≤ 0xDF) = true := by
      simp only [Bool.and_eq_true, decide_eq_true_eq]
      exact ⟨((hb 0xC2 (by omega)).1).2 (by omega), ((hb 0xDF (by omega)).2.1).2 (by omega)⟩
    have e : seqLen ((0xC0 + n / 64).toUInt8 :: ([(0x80 + n % 64).toUInt8] ++ t)) = 2 := by
      unfold seqLen
      dsimp only [List.cons_append, List.nil_append]
      rw [if_neg g1, if_pos g2, if_pos (cont_u8 _ (by omega))]
    rw [e]; simp
  rename_i h2
  split
  · exact utf8Valid_replacement t
  rename_i h3
  split
  · rename_i h4
    rw [List.cons_append, utf8Valid_step]
    have hb := u8 (0xE0 + n / 4096) (by omega)
    have hm := u8 (0x80 + n / 64 % 64) (by omega)
    have g1 : ¬(0xE0 + n / 4096).toUInt8 < 0x80 := fun h => by
      have := ((hb 0x80 (by omega)).2.2.1).1 h; omega
    have g2 : ¬(0xC2 ≤ (0xE0 + n / 4096).toUInt8 && (0xE0 + n / 4096).toUInt8 ≤ 0xDF) = true := by
      simp only [Bool.and_eq_true, decide_eq_true_eq]
      rintro ⟨-, h⟩
      have := ((hb 0xDF (by omega)).2.1).1 h
      omega
    have hc1 := cont_u8 (n / 64 % 64) (by omega)
    have hc2 := cont_u8 (n % 64) (by omega)
    have e : seqLen ((0xE0 + n / 4096).toUInt8 ::
        ([(0x80 + n / 64 % 64).toUInt8, (0x80 + n % 64).toUInt8] ++ t)) = 3 := by
      unfold seqLen
      dsimp only [List.cons_append, List.nil_append]
      rw [if_neg g1, if_neg g2]
      by_cases hE0 : n / 4096 = 0
      · have g3 : ((0xE0 + n / 4096).toUInt8 == 0xE0) = true := by rw [hE0]; rfl
        have g4 : (0xA0 ≤ (0x80 + n / 64 % 64).toUInt8 && (0x80 + n / 64 % 64).toUInt8 ≤ 0xBF &&
            isCont (0x80 + n % 64).toUInt8) = true := by
          simp only [Bool.and_eq_true, decide_eq_true_eq]
          exact ⟨⟨((hm 0xA0 (by omega)).1).2 (by omega), ((hm 0xBF (by omega)).2.1).2 (by omega)⟩, hc2⟩
        rw [if_pos g3, if_pos g4]
      · have g3 : ¬((0xE0 + n / 4096).toUInt8 == 0xE0) = true := by
          simp only [beq_iff_eq]
          intro h
          have := ((hb 0xE0 (by omega)).2.2.2).1 h
          omega
        rw [if_neg g3]
        by_cases hED : n / 4096 = 13
        · have g4 : ((0xE0 + n / 4096).toUInt8 == 0xED) = true := by rw [hED]; rfl
          have g5 : (0x80 ≤ (0x80 + n / 64 % 64).toUInt8 && (0x80 + n / 64 % 64).toUInt8 ≤ 0x9F &&
              isCont (0x80 + n % 64).toUInt8) = true := by
            simp only [Bool.and_eq_true, decide_eq_true_eq]
            exact ⟨⟨((hm 0x80 (by omega)).1).2 (by omega), ((hm 0x9F (by omega)).2.1).2 (by omega)⟩,
              hc2⟩
          rw [if_pos g4, if_pos g5]
        · have g4 : ¬((0xE0 + n / 4096).toUInt8 == 0xED) = true := by
            simp only [beq_iff_eq]
            intro h
            have := ((hb 0xED (by omega)).2.2.2).1 h
            omega
          have g5 : (0xE1 ≤ (0xE0 + n / 4096).toUInt8 && (0xE0 + n / 4096).toUInt8 ≤ 0xEF) = true := by
            simp only [Bool.and_eq_true, decide_eq_true_eq]
            exact ⟨((hb 0xE1 (by omega)).1).2 (by omega), ((hb 0xEF (by omega)).2.1).2 (by omega)⟩
          have g6 : (isCont (0x80 + n / 64 % 64).toUInt8 && isCont (0x80 + n % 64).toUInt8) = true := by
            rw [hc1, hc2]; rfl
          rw [if_neg g4, if_pos g5, if_pos g6]
    rw [e]; simp
  rename_i h4
  split
  · rename_i h5
    rw [List.cons_append, utf8Valid_step]
    have hb := u8 (0xF0 + n / 262144) (by omega)
    have hm := u8 (0x80 + n / 4096 % 64) (by omega)
    have g1 : ¬(0xF0 + n / 262144).toUInt8 < 0x80 := fun h => by
      have := ((hb 0x80 (by omega)).2.2.1).1 h; omega
    have g2 : ¬(0xC2 ≤ (0xF0 + n / 262144).toUInt8 && (0xF0 + n / 262144).toUInt8 ≤ 0xDF) = true := by
      simp only [Bool.and_eq_true, decide_eq_true_eq]
      rintro ⟨-, h⟩
      have := ((hb 0xDF (by omega)).2.1).1 h
      omega
    have g3 : ¬((0xF0 + n / 262144).toUInt8 == 0xE0) = true := by
      simp only [beq_iff_eq]
      intro h
      have := ((hb 0xE0 (by omega)).2.2.2).1 h
      omega
    have g4 : ¬((0xF0 + n / 262144).toUInt8 == 0xED) = true := by
      simp only [beq_iff_eq]
      intro h
      have := ((hb 0xED (by omega)).2.2.2).1 h
      omega
    have g5 : ¬(0xE1 ≤ (0xF0 + n / 262144).toUInt8 && (0xF0 + n / 262144).toUInt8 ≤ 0xEF) = true := by
      simp only [Bool.and_eq_true, decide_eq_true_eq]
      rintro ⟨-, h⟩
      have := ((hb 0xEF (by omega)).2.1).1 h
      omega
    have hc1 := cont_u8 (n / 4096 % 64) (by omega)
    have hc2 := cont_u8 (n / 64 % 64) (by omega)
    have hc3 := cont_u8 (n % 64) (by omega)
    have e : seqLen ((0xF0 + n / 262144).toUInt8 ::
        ([(0x80 + n / 4096 % 64).toUInt8, (0x80 + n / 64 % 64).toUInt8,
          (0x80 + n % 64).toUInt8] ++ t)) = 4 := by
      unfold seqLen
      dsimp only [List.cons_append, List.nil_append]
      rw [if_neg g1, if_neg g2, if_neg g3, if_neg g4, if_neg g5]
      by_cases hF0 : n / 262144 = 0
      · have g6 : ((0xF0 + n / 262144).toUInt8 == 0xF0) = true := by rw [hF0]; rfl
        have g7 : (0x90 ≤ (0x80 + n / 4096 % 64).toUInt8 && (0x80 + n / 4096 % 64).toUInt8 ≤ 0xBF &&
            isCont (0x80 + n / 64 % 64).toUInt8 && isCont (0x80 + n % 64).toUInt8) = true := by
          simp only [Bool.and_eq_true, decide_eq_true_eq]
          exact ⟨⟨⟨((hm 0x90 (by omega)).1).2 (by omega),
            ((hm 0xBF (by omega)).2.1).2 (by omega)⟩, hc2⟩, hc3⟩
        rw [if_pos g6, if_pos g7]
      · have g6 : ¬((0xF0 + n / 262144).toUInt8 == 0xF0) = true := by
          simp only [beq_iff_eq]
          intro h
          have := ((hb 0xF0 (by omega)).2.2.2).1 h
          omega
        rw [if_neg g6]
        by_cases hF4 : n / 262144 = 4
        · have g7 : ((0xF0 + n / 262144).toUInt8 == 0xF4) = true := by rw [hF4]; rfl
          have g8 : (0x80 ≤ (0x80 + n / 4096 % 64).toUInt8 && (0x80 + n / 4096 % 64).toUInt8 ≤ 0x8F &&
              isCont (0x80 + n / 64 % 64).toUInt8 && isCont (0x80 + n % 64).toUInt8) = true := by
            simp only [Bool.and_eq_true, decide_eq_true_eq]
            exact ⟨⟨⟨((hm 0x80 (by omega)).1).2 (by omega),
              ((hm 0x8F (by omega)).2.1).2 (by omega)⟩, hc2⟩, hc3⟩
          rw [if_pos g7, if_pos g8]
        · have g7 : ¬((0xF0 + n / 262144).toUInt8 == 0xF4) = true := by
            simp only [beq_iff_eq]
            intro h
            have := ((hb 0xF4 (by omega)).2.2.2).1 h
            omega
          have g8 : (0xF1 ≤ (0xF0 + n / 262144).toUInt8 &&
              (0xF0 + n / 262144).toUInt8 ≤ 0xF3) = true := by
            simp only [Bool.and_eq_true, decide_eq_true_eq]
            exact ⟨((hb 0xF1 (by omega)).1).2 (by omega), ((hb 0xF3 (by omega)).2.1).2 (by omega)⟩
          have g9 : (isCont (0x80 + n / 4096 % 64).toUInt8 && isCont (0x80 + n / 64 % 64).toUInt8 &&
              isCont (0x80 + n % 64).toUInt8) = true := by
            rw [hc1, hc2, hc3]; rfl
          rw [if_neg g7, if_pos g8, if_pos g9]
    rw [e]; simp
  · exact utf8Valid_replacement t

theorem escapeVal_ascii {x y : UInt8} (h : escapeVal x = some y) : y < 0x80 := by
  unfold escapeVal at h
  split at h
  · rename_i hx
    cases h
    rcases hx with rfl | rfl | rfl <;> decide
  · split at h
    · cases h; decide
    · split at h
      · cases h; decide
      · split at h
        · cases h; decide
        · split at h
          · cases h; decide
          · split at h
            · cases h; decide
            · cases h

/-- The first sequence of a text is unaffected by what follows it. -/
theorem utf8Valid_take_append (c : UInt8) (r t : Bytes) (h : seqLen (c :: r) ≠ 0) :
    utf8Valid ((c :: r).take (seqLen (c :: r)) ++ t) = utf8Valid t := by
  have key : ∀ (l : Bytes) (n : Nat), seqLen (c :: r) = n → n ≠ 0 →
      (c :: r).take n = l → seqLen (l ++ t) = n ∧ l.length = n := by
    intro l n hn h0 hl
    subst hl
    unfold seqLen at hn ⊢
    dsimp only at hn
    split at hn
    · rename_i hc
      subst hn
      simp [hc]
    · rename_i hc
      rcases r with _ | ⟨b1, r1⟩
      · exact absurd hn.symm h0
      · dsimp only at hn
        split at hn
        · split at hn
          · rename_i h1 h2
            subst hn
            simp [hc, h1, h2]
          · exact absurd hn.symm h0
        · rename_i h1
          rcases r1 with _ | ⟨b2, r2⟩
          · exact absurd hn.symm h0
          · dsimp only at hn
            split at hn
            · split at hn
              · rename_i h2 h3
                subst hn
                dsimp only [List.take_succ_cons, List.take_zero, List.cons_append]
                rw [if_neg hc, if_neg h1, if_pos h2, if_pos h3]
                exact ⟨rfl, rfl⟩
              · exact absurd hn.symm h0
            · rename_i h2
              split at hn
              · split at hn
                · rename_i h3 h4
                  subst hn
                  dsimp only [List.take_succ_cons, List.take_zero, List.cons_append]
                  rw [if_neg hc, if_neg h1, if_neg h2, if_pos h3, if_pos h4]
                  exact ⟨rfl, rfl⟩
                · exact absurd hn.symm h0
              · rename_i h3
                split at hn
                · split at hn
                  · rename_i h4 h5
                    subst hn
                    dsimp only [List.take_succ_cons, List.take_zero, List.cons_append]
                    rw [if_neg hc, if_neg h1, if_neg h2, if_neg h3, if_pos h4, if_pos h5]
                    exact ⟨rfl, rfl⟩
                  · exact absurd hn.symm h0
                · rename_i h4
                  rcases r2 with _ | ⟨b3, r3⟩
                  · exact absurd hn.symm h0
                  · dsimp only at hn
                    split at hn
                    · split at hn
                      · rename_i h5 h6
                        subst hn
                        dsimp only [List.take_succ_cons, List.take_zero, List.cons_append]
                        rw [if_neg hc, if_neg h1, if_neg h2, if_neg h3, if_neg h4, if_pos h5,
                          if_pos h6]
                        exact ⟨rfl, rfl⟩
                      · exact absurd hn.symm h0
                    · rename_i h5
                      split at hn
                      · split at hn
                        · rename_i h6 h7
                          subst hn
                          dsimp only [List.take_succ_cons, List.take_zero, List.cons_append]
                          rw [if_neg hc, if_neg h1, if_neg h2, if_neg h3, if_neg h4, if_neg h5,
                            if_pos h6, if_pos h7]
                          exact ⟨rfl, rfl⟩
                        · exact absurd hn.symm h0
                      · rename_i h6
                        split at hn
                        · split at hn
                          · rename_i h7 h8
                            subst hn
                            dsimp only [List.take_succ_cons, List.take_zero, List.cons_append]
                            rw [if_neg hc, if_neg h1, if_neg h2, if_neg h3, if_neg h4, if_neg h5,
                              if_neg h6, if_pos h7, if_pos h8]
                            exact ⟨rfl, rfl⟩
                          · exact absurd hn.symm h0
                        · exact absurd hn.symm h0
  obtain ⟨h1, h2⟩ := key _ _ rfl h rfl
  cases hl : (c :: r).take (seqLen (c :: r)) with
  | nil => rw [hl] at h2; exact absurd h2.symm h
  | cons d l =>
    rw [hl] at h1 h2
    rw [List.cons_append, utf8Valid_step, ← List.cons_append, h1, ← h2, List.drop_left]
    simp

/-- Unquoting always gives valid UTF-8. -/
theorem utf8Valid_unquoteAux (f : Nat) (s : Bytes) : utf8Valid (unquoteAux f s) = true := by
  induction f generalizing s with
  | zero => simp [unquoteAux, utf8Valid]
  | succ f ih =>
    cases s with
    | nil => simp [unquoteAux, utf8Valid]
    | cons c r =>
      unfold unquoteAux
      split
      · split
        · split
          · split
            · split
              · rw [utf8Valid_encodeRune]; exact ih _
              · rw [utf8Valid_replacement]; exact ih _
            · rw [utf8Valid_replacement]; exact ih _
          · rw [utf8Valid_encodeRune]; exact ih _
        · split
          · rfl
          · split
            · rfl
            · rename_i he
              rw [utf8Valid_ascii (escapeVal_ascii he)]
              exact ih _
      · split
        · rw [utf8Valid_replacement]; exact ih _
        · rename_i h
          rw [utf8Valid_take_append _ _ _ h]
          exact ih _

theorem hexVal_ascii {c : UInt8} {n : Nat} (h : hexVal c = some n) : c < 0x80 := by
  have lt : ∀ k : UInt8, c ≤ k → k < 0x80 → c < 0x80 := fun k h1 h2 => UInt8.lt_of_le_of_lt h1 h2
  unfold hexVal at h
  split at h
  · rename_i hx; exact lt 57 hx.2 (by decide)
  · split at h
    · rename_i hx; exact lt 102 hx.2 (by decide)
    · split at h
      · rename_i hx; exact lt 70 hx.2 (by decide)
      · cases h

/-- What four digits leave, and that they are ASCII. -/
theorem getu4_spec {s rest : Bytes} {n : Nat} (h : getu4 s = some (n, rest)) :
    s.length = rest.length + 6 ∧ utf8Valid s = utf8Valid rest ∧ n < 65536 := by
  unfold getu4 at h
  split at h
  · rename_i t
    unfold hex4 at h
    split at h
    · rename_i a b c d rest'
      split at h
      · rename_i a' b' c' d' ha hb hc hd
        simp only [Option.some.injEq, Prod.mk.injEq] at h
        obtain ⟨hn, rfl⟩ := h
        have hlt : ∀ {c : UInt8} {n : Nat}, hexVal c = some n → n < 16 := by
          intro c n h
          unfold hexVal at h
          split at h
          · rename_i hx
            cases h
            have h1 := UInt8.le_iff_toNat_le.1 hx.2
            have : (57 : UInt8).toNat = 57 := rfl
            omega
          · split at h
            · rename_i hx
              cases h
              have h1 := UInt8.le_iff_toNat_le.1 hx.2
              have : (102 : UInt8).toNat = 102 := rfl
              omega
            · split at h
              · rename_i hx
                cases h
                have h1 := UInt8.le_iff_toNat_le.1 hx.2
                have : (70 : UInt8).toNat = 70 := rfl
                omega
              · cases h
        have := hlt ha
        have := hlt hb
        have := hlt hc
        have := hlt hd
        refine ⟨by simp, ?_, by omega⟩
        rw [utf8Valid_ascii (by decide), utf8Valid_ascii (by decide),
          utf8Valid_ascii (hexVal_ascii ha), utf8Valid_ascii (hexVal_ascii hb),
          utf8Valid_ascii (hexVal_ascii hc), utf8Valid_ascii (hexVal_ascii hd)]
      · cases h
    · cases h
  · cases h

theorem encodeRune_length (n : Nat) : (encodeRune n).length ≤ 4 ∧ (n < 65536 → (encodeRune n).length ≤ 3) := by
  unfold encodeRune replacement
  split
  · simp
  · split
    · simp
    · split
      · simp
      · split
        · simp
        · split
          · rename_i h _; simp; omega
          · simp

/-- Unquoting valid text does not make it longer, and shorter if there is an escape. -/
theorem unquoteAux_length (f : Nat) (s : Bytes) (hv : utf8Valid s = true) :
    (unquoteAux f s).length ≤ s.length ∧
    (backslash ∈ s → (unquoteAux f s).length < s.length) := by
  induction f generalizing s with
  | zero =>
    refine ⟨by simp [unquoteAux], ?_⟩
    intro h
    simp only [unquoteAux, List.length_nil]
    exact List.length_pos_of_mem h
  | succ f ih =>
    cases s with
    | nil => simp [unquoteAux]
    | cons c r =>
      unfold unquoteAux
      split
      · rename_i hc
        have comb : ∀ l : Bytes, l.length < (c :: r).length →
            l.length ≤ (c :: r).length ∧ (backslash ∈ c :: r → l.length < (c :: r).length) :=
          fun l h => ⟨Nat.le_of_lt h, fun _ => h⟩
        apply comb
        cases hg : getu4 (c :: r) with
        | some p =>
          obtain ⟨n, rest⟩ := p
          obtain ⟨g1, g2, g3⟩ := getu4_spec hg
          have i1 := (ih rest (by rw [← g2]; exact hv)).1
          have hrep : replacement.length = 3 := rfl
          dsimp only
          split
          · split
            · rename_i m rest' hg'
              obtain ⟨g1', g2', g3'⟩ := getu4_spec hg'
              have i2 := (ih rest' (by rw [← g2', ← g2]; exact hv)).1
              split
              · have := (encodeRune_length (0x10000 + (n - 0xD800) * 0x400 + (m - 0xDC00))).1
                simp only [List.length_append]
                omega
              · simp only [List.length_append]
                omega
            · simp only [List.length_append]
              omega
          · have := (encodeRune_length n).2 g3
            simp only [List.length_append]
            omega
        | none =>
          dsimp only
          cases r with
          | nil => simp
          | cons x rest =>
            dsimp only
            -- the byte after the backslash
            have hv' : utf8Valid (x :: rest) = true := by
              rw [hc, utf8Valid_ascii (by decide)] at hv
              exact hv
            cases he : escapeVal x with
            | some y =>
              have hx : x < 0x80 := by
                unfold escapeVal at he
                split at he
                · rename_i hx; rcases hx with rfl | rfl | rfl <;> decide
                · split at he
                  · rename_i hx; subst hx; decide
                  · split at he
                    · rename_i hx; subst hx; decide
                    · split at he
                      · rename_i hx; subst hx; decide
                      · split at he
                        · rename_i hx; subst hx; decide
                        · split at he
                          · rename_i hx; subst hx; decide
                          · cases he
              rw [utf8Valid_ascii hx] at hv'
              have := (ih rest hv').1
              simp only [List.length_cons]
              omega
            | none => simp
      · rename_i hc
        rw [utf8Valid_step] at hv
        simp only [ne_eq, decide_not, Bool.and_eq_true, Bool.not_eq_eq_eq_not, Bool.not_true,
          decide_eq_false_iff_not] at hv
        obtain ⟨h0, hv⟩ := hv
        rw [if_neg h0]
        obtain ⟨i1, i2⟩ := ih _ hv
        have hsplit : (c :: r).length = ((c :: r).take (seqLen (c :: r))).length +
            ((c :: r).drop (seqLen (c :: r))).length := by
          rw [← List.length_append, List.take_append_drop]
        rw [List.length_append, hsplit]
        refine ⟨by omega, ?_⟩
        intro hm
        have hmem : backslash ∈ (c :: r).drop (seqLen (c :: r)) := by
          rw [← List.take_append_drop (seqLen (c :: r)) (c :: r)] at hm
          rcases List.mem_append.1 hm with hm | hm
          · rcases seqLen_cases c r with ⟨-, h1⟩ | ⟨-, h1, -⟩
            · rw [h1] at hm
              simp at hm
              exact absurd hm.symm hc
            · exact absurd (h1 _ hm) (by decide)
          · exact hm
        have := i2 hmem
        omega

/-! ## The scanner -/

/-- The state of the scanner after a text without quotes, `none` if it is refused. -/
def scanEnd : StrState → Bytes → Option StrState
  | st, [] => some st
  | .plain, c :: r =>
    if c = backslash then scanEnd .escape r else if c < 32 then none else scanEnd .plain r
  | .escape, c :: r =>
    if c = 117 then scanEnd (.hex 3) r
    else if (escapeVal c).isSome then scanEnd .plain r else none
  | .hex n, c :: r =>
    if (hexVal c).isSome then
      match n with
      | 0 => scanEnd .plain r
      | n + 1 => scanEnd (.hex n) r
    else none

/-- Scanning a text without quotes that is followed by a quote. -/
theorem scan_noquote (st : StrState) (v rest : Bytes) (h : quote ∉ v) :
    scanString st (v ++ quote :: rest) =
      match scanEnd st v with
      | none => none
      | some .plain => some (v, rest)
      | some .escape => (scanString .plain rest).map fun (a, b) => (v ++ quote :: a, b)
      | some (.hex _) => none := by
  induction v generalizing st with
  | nil =>
    cases st with
    | plain => simp [scanString, scanEnd]
    | escape =>
      show scanString .escape (quote :: rest) =
        (scanString .plain rest).map fun (a, b) => (quote :: a, b)
      have h1 : ¬quote = 117 := by decide
      have h2 : (escapeVal quote).isSome = true := by decide
      generalize hx : scanString .plain rest = x
      unfold scanString
      rw [if_neg h1, if_pos h2, hx]
    | hex n =>
      show scanString (.hex n) (quote :: rest) = none
      unfold scanString
      have h1 : ¬(hexVal quote).isSome = true := by decide
      rw [if_neg h1]
  | cons c v ih =>
    simp only [List.mem_cons, not_or] at h
    have ih := fun st => ih st h.2
    have push : ∀ st, (scanString st (v ++ quote :: rest)).map (fun p : Bytes × Bytes => (c :: p.1, p.2)) =
        match scanEnd st v with
        | none => none
        | some .plain => some (c :: v, rest)
        | some .escape => (scanString .plain rest).map fun (a, b) => (c :: v ++ quote :: a, b)
        | some (.hex _) => none := by
      intro st
      rw [ih st]
      cases scanEnd st v with
      | none => rfl
      | some e =>
        cases e with
        | plain => rfl
        | hex n => rfl
        | escape =>
          dsimp only
          cases scanString .plain rest <;> rfl
    rw [List.cons_append]
    cases st with
    | plain =>
      rw [scanString.eq_def, scanEnd.eq_def]
      dsimp only
      rw [if_neg (fun e => h.1 e.symm)]
      split
      · exact push _
      · split
        · rfl
        · exact push _
    | escape =>
      rw [scanString.eq_def, scanEnd.eq_def]
      dsimp only
      split
      · exact push _
      · split
        · exact push _
        · rfl
    | hex n =>
      rw [scanString.eq_def, scanEnd.eq_def]
      dsimp only
      split
      · cases n with
        | zero => exact push _
        | succ n => exact push _
      · rfl

theorem scanEnd_plain {v : Bytes} (hb : backslash ∉ v) (hc : ∀ c ∈ v, 32 ≤ c) :
    scanEnd .plain v = some .plain := by
  induction v with
  | nil => rfl
  | cons c v ih =>
    simp only [List.mem_cons, not_or] at hb
    unfold scanEnd
    have h1 : ¬c < 32 := by
      rw [UInt8.not_lt]; exact hc c (by simp)
    rw [if_neg (fun e => hb.1 e.symm), if_neg h1]
    exact ih hb.2 fun d hd => hc d (List.mem_cons_of_mem _ hd)

theorem scanEnd_no_control {v : Bytes} (h : scanEnd .plain v = some .plain) : ∀ c ∈ v, 32 ≤ c := by
  have hex32 : ∀ c : UInt8, (hexVal c).isSome = true → 32 ≤ c := by
    intro c h
    have le : ∀ k : UInt8, k ≤ c → 32 ≤ k → 32 ≤ c := fun k h1 h2 => UInt8.le_trans h2 h1
    unfold hexVal at h
    split at h
    · rename_i hx; exact le 48 hx.1 (by decide)
    · split at h
      · rename_i hx; exact le 97 hx.1 (by decide)
      · split at h
        · rename_i hx; exact le 65 hx.1 (by decide)
        · cases h
  have esc32 : ∀ c : UInt8, (escapeVal c).isSome = true → 32 ≤ c := by
    intro c h
    unfold escapeVal at h
    split at h
    · rename_i hx; rcases hx with rfl | rfl | rfl <;> decide
    · split at h
      · rename_i hx; subst hx; decide
      · split at h
        · rename_i hx; subst hx; decide
        · split at h
          · rename_i hx; subst hx; decide
          · split at h
            · rename_i hx; subst hx; decide
            · split at h
              · rename_i hx; subst hx; decide
              · cases h
  have key : ∀ (v : Bytes) (st e : StrState), scanEnd st v = some e → ∀ c ∈ v, 32 ≤ c := by
    intro v
    induction v with
    | nil => intro st e _ c hc; cases hc
    | cons d v ih =>
      intro st e h c hc
      have here : 32 ≤ d ∧ ∃ st', scanEnd st' v = some e := by
        cases st with
        | plain =>
          unfold scanEnd at h
          split at h
          · rename_i hd; exact ⟨by rw [hd]; decide, _, h⟩
          · split at h
            · cases h
            · rename_i hd
              exact ⟨by rw [UInt8.not_lt] at hd; exact hd, _, h⟩
        | escape =>
          unfold scanEnd at h
          split at h
          · rename_i hd; exact ⟨by rw [hd]; decide, _, h⟩
          · split at h
            · rename_i hd; exact ⟨esc32 _ hd, _, h⟩
            · cases h
        | hex n =>
          unfold scanEnd at h
          split at h
          · rename_i hd
            cases n with
            | zero => exact ⟨hex32 _ hd, _, h⟩
            | succ n => exact ⟨hex32 _ hd, _, h⟩
          · cases h
      obtain ⟨h1, st', h2⟩ := here
      rcases List.mem_cons.1 hc with rfl | hc
      · exact h1
      · exact ih st' e h2 c hc
  exact key v _ _ h

/-! ## The parser on the texts of the encoder -/

/-- The text of the encoder after the opening brace. -/
def jsonBody : List (Bytes × Bytes) → Bytes
  | [] => []
  | [f] => quote :: (f.1 ++ quote :: 58 :: 32 :: quote :: (f.2 ++ quote :: [125]))
  | f :: g :: rest =>
    quote :: (f.1 ++ quote :: 58 :: 32 :: quote :: (f.2 ++ quote :: 44 :: jsonBody (g :: rest)))

theorem jsonBody_cons (f : Bytes × Bytes) (rest : List (Bytes × Bytes)) :
    ∃ t, jsonBody (f :: rest) = quote :: (f.1 ++ quote :: 58 :: 32 :: quote :: (f.2 ++ quote :: t)) ∧
      ((rest = [] ∧ t = [125]) ∨ (rest ≠ [] ∧ t = 44 :: jsonBody rest)) := by
  cases rest with
  | nil => exact ⟨_, rfl, .inl ⟨rfl, rfl⟩⟩
  | cons g rest => exact ⟨_, rfl, .inr ⟨by simp, rfl⟩⟩

/-- A key of the encoder. -/
structure GoodKey (k : Bytes) : Prop where
  head : ∃ t, k = 100 :: t
  noQuote : quote ∉ k
  noBackslash : backslash ∉ k
  noControl : ∀ c ∈ k, 32 ≤ c
  valid : utf8Valid k = true

theorem members_body (order : List (Bytes × Bytes)) (fuel : Nat) (hne : order ≠ [])
    (hf : order.length + 1 ≤ fuel) (hk : ∀ f ∈ order, GoodKey f.1 ∧ quote ∉ f.2) :
    ((∀ f ∈ order, scanEnd .plain f.2 = some .plain) ∧
      members fuel (jsonBody order) = some (order.map fun f => (f.1, .str (unquote f.2)), [])) ∨
    (¬(∀ f ∈ order, scanEnd .plain f.2 = some .plain) ∧ members fuel (jsonBody order) = none) := by
  induction order generalizing fuel with
  | nil => exact absurd rfl hne
  | cons f rest ih =>
    obtain ⟨t, ht, hcase⟩ := jsonBody_cons f rest
    obtain ⟨hkey, hval⟩ := hk f (by simp)
    cases fuel with
    | zero => simp at hf
    | succ fuel =>
      cases fuel with
      | zero => simp at hf
      | succ fuel =>
      rw [ht]
      have hscan : scanString .plain (f.1 ++ quote :: 58 :: 32 :: quote :: (f.2 ++ quote :: t)) =
          some (f.1, 58 :: 32 :: quote :: (f.2 ++ quote :: t)) := by
        rw [scan_noquote _ _ _ hkey.noQuote, scanEnd_plain hkey.noBackslash hkey.noControl]
      have hkeyq : unquote f.1 = f.1 := unquote_plain hkey.noBackslash hkey.valid
      unfold members
      rw [if_pos rfl, hscan]
      dsimp only
      have hs1 : skipSpace (58 :: 32 :: quote :: (f.2 ++ quote :: t)) =
          58 :: 32 :: quote :: (f.2 ++ quote :: t) := rfl
      rw [hs1]
      dsimp only
      rw [if_pos rfl]
      have hs2 : skipSpace (32 :: quote :: (f.2 ++ quote :: t)) = quote :: (f.2 ++ quote :: t) := rfl
      rw [hs2]
      have hvalue : value (fuel + 1) (quote :: (f.2 ++ quote :: t)) =
          (scanString .plain (f.2 ++ quote :: t)).map fun (a, b) => (.str (unquote a), b) := by
        unfold value
        dsimp only
        rw [if_pos rfl]
      rw [hvalue, scan_noquote _ _ _ hval]
      have bad : scanEnd .plain f.2 ≠ some .plain →
          ¬(∀ g ∈ f :: rest, scanEnd .plain g.2 = some .plain) := fun h h' => h (h' f (by simp))
      cases he : scanEnd .plain f.2 with
      | none => right; exact ⟨bad (by rw [he]; simp), rfl⟩
      | some e =>
        cases e with
        | hex n => right; exact ⟨bad (by rw [he]; simp), rfl⟩
        | escape =>
          right
          refine ⟨bad (by rw [he]; simp), ?_⟩
          dsimp only
          rcases hcase with ⟨-, rfl⟩ | ⟨hr, rfl⟩
          · rfl
          · cases rest with
            | nil => exact absurd rfl hr
            | cons g rest =>
              obtain ⟨t', ht', -⟩ := jsonBody_cons g rest
              obtain ⟨u, hu⟩ := (hk g (by simp)).1.head
              rw [ht', hu]
              rfl
        | plain =>
          dsimp only [Option.map_some]
          rcases hcase with ⟨rfl, rfl⟩ | ⟨hr, rfl⟩
          · left
            refine ⟨?_, ?_⟩
            · intro g hg
              simp only [List.mem_singleton] at hg
              rw [hg]; exact he
            · have : skipSpace [125] = [125] := rfl
              have h44 : ¬(125 : UInt8) = 44 := by decide
              rw [this]
              dsimp only
              rw [hkeyq, if_neg h44, if_pos rfl]
              rfl
          · have hs3 : skipSpace (44 :: jsonBody rest) = 44 :: jsonBody rest := rfl
            rw [hs3]
            dsimp only
            rw [if_pos rfl]
            have hs4 : skipSpace (jsonBody rest) = jsonBody rest := by
              cases rest with
              | nil => rfl
              | cons g rest =>
                obtain ⟨t', ht', -⟩ := jsonBody_cons g rest
                rw [ht']
                rfl
            rw [hs4, hkeyq]
            simp only [List.length_cons] at hf
            rcases ih (fuel + 1) hr (by omega) (fun g hg => hk g (List.mem_cons_of_mem _ hg)) with
              ⟨h1, h2⟩ | ⟨h1, h2⟩
            · left
              refine ⟨?_, ?_⟩
              · intro g hg
                rcases List.mem_cons.1 hg with rfl | hg
                · exact he
                · exact h1 g hg
              · rw [h2]; rfl
            · right
              refine ⟨fun h => h1 fun g hg => h g (List.mem_cons_of_mem _ hg), ?_⟩
              rw [h2]; rfl

/-- Entering text values into a map. -/
theorem toMap_strings (order : List (Bytes × Bytes)) (m : GoMap Bytes Bytes) :
    ∃ m', toMap (order.map fun f => (f.1, .str (unquote f.2))) m = some m' ∧
      (∀ k, k ∉ order.map Prod.fst → m'.get k = m.get k) ∧
      ((order.map Prod.fst).Nodup → ∀ f ∈ order, m'.get f.1 = some (unquote f.2)) := by
  induction order generalizing m with
  | nil => exact ⟨m, rfl, fun _ _ => rfl, fun _ f hf => by cases hf⟩
  | cons f rest ih =>
    obtain ⟨m', h1, h2, h3⟩ := ih (m.set f.1 (unquote f.2))
    refine ⟨m', h1, ?_, ?_⟩
    · intro k hk
      simp only [List.map_cons, List.mem_cons, not_or] at hk
      rw [h2 k hk.2, GoMap.get_set, if_neg hk.1]
    · intro hn g hg
      simp only [List.map_cons, List.nodup_cons] at hn
      rcases List.mem_cons.1 hg with rfl | hg
      · rw [h2 _ hn.1, GoMap.get_set, if_pos rfl]
      · exact h3 hn.2 g hg

end Json

namespace DialogueLabel

open Json Proto

theorem marshal_eq (order : List (Bytes × Bytes)) (h : order ≠ []) :
    marshalJson order = 123 :: jsonBody order := by
  have key : ∀ order : List (Bytes × Bytes), order ≠ [] →
      ∃ t, (order.map jsonField).flatten = t ++ [44] ∧ jsonBody order = t ++ [125] := by
    intro order
    induction order with
    | nil => intro h; exact absurd rfl h
    | cons f rest ih =>
      intro _
      obtain ⟨t, ht, hcase⟩ := jsonBody_cons f rest
      rcases hcase with ⟨rfl, rfl⟩ | ⟨hr, rfl⟩
      · refine ⟨quote :: (f.1 ++ quote :: 58 :: 32 :: quote :: (f.2 ++ [quote])), ?_, ?_⟩
        · simp [jsonField, quote]
        · rw [ht]; simp
      · obtain ⟨u, h1, h2⟩ := ih hr
        refine ⟨quote :: (f.1 ++ quote :: 58 :: 32 :: quote :: (f.2 ++ quote :: 44 :: u)), ?_, ?_⟩
        · rw [List.map_cons, List.flatten_cons, h1]
          simp [jsonField, quote]
        · rw [ht, h2]; simp
  obtain ⟨t, h1, h2⟩ := key order h
  unfold marshalJson
  rw [h1, h2]
  have : (b! "{" ++ (t ++ [44])) = (123 :: t) ++ [44] := by simp
  rw [this, List.dropLast_concat]
  rfl

theorem goodKeys (l : DialogueLabel) : ∀ f ∈ jsonFields l, GoodKey f.1 := by
  intro f hf
  simp only [jsonFields, List.mem_cons, List.not_mem_nil, or_false] at hf
  have k1 : GoodKey keyStarterRef := ⟨⟨_, rfl⟩, by decide, by decide, by decide, by decide⟩
  have k2 : GoodKey keyResponderRef := ⟨⟨_, rfl⟩, by decide, by decide, by decide, by decide⟩
  have k3 : GoodKey keyOpponent := ⟨⟨_, rfl⟩, by decide, by decide, by decide, by decide⟩
  have k4 : GoodKey keyStarterAddr := ⟨⟨_, rfl⟩, by decide, by decide, by decide, by decide⟩
  rcases hf with rfl | rfl | rfl | rfl
  · exact k1
  · exact k2
  · exact k3
  · exact k4

/-- The components of a label. -/
def components (l : DialogueLabel) : List Bytes :=
  [l.reference.starter, l.reference.responder, l.opponent, l.starterAddr]

theorem components_eq (l : DialogueLabel) : (jsonFields l).map Prod.snd = components l := rfl

/-- Decoding the text of a label whose components contain no quote. -/
theorem unmarshal_marshal (l : DialogueLabel) (order : List (Bytes × Bytes))
    (ho : order.Perm (jsonFields l)) (hq : ∀ v ∈ components l, quote ∉ v) :
    ((∀ v ∈ components l, scanEnd .plain v = some .plain) ∧
      unmarshalJson (marshalJson order) = some
        ⟨⟨unquote l.reference.starter, unquote l.reference.responder⟩, unquote l.opponent,
          unquote l.starterAddr⟩) ∨
    (¬(∀ v ∈ components l, scanEnd .plain v = some .plain) ∧
      unmarshalJson (marshalJson order) = none) := by
  have hlen : order.length = 4 := ho.length_eq
  have hne : order ≠ [] := by intro h; rw [h] at hlen; simp at hlen
  have hmem : ∀ f, f ∈ order ↔ f ∈ jsonFields l := fun f => ho.mem_iff
  have hk : ∀ f ∈ order, GoodKey f.1 ∧ quote ∉ f.2 := by
    intro f hf
    refine ⟨goodKeys l f ((hmem f).1 hf), ?_⟩
    apply hq
    rw [← components_eq]
    exact List.mem_map_of_mem ((hmem f).1 hf)
  have hall : (∀ f ∈ order, scanEnd .plain f.2 = some .plain) ↔
      (∀ v ∈ components l, scanEnd .plain v = some .plain) := by
    rw [← components_eq]
    constructor
    · intro h v hv
      obtain ⟨f, hf, rfl⟩ := List.mem_map.1 hv
      exact h f ((hmem f).2 hf)
    · intro h f hf
      exact h _ (List.mem_map_of_mem ((hmem f).1 hf))
  have hmap : unmarshalMap (marshalJson order) =
      (match members (2 * (marshalJson order).length + 2) (jsonBody order) with
      | none => none
      | some (l, rest) => if skipSpace rest = [] then toMap l GoMap.empty else none) := by
    unfold unmarshalMap
    generalize 2 * (marshalJson order).length + 2 = fuel
    rw [marshal_eq order hne]
    cases order with
    | nil => exact absurd rfl hne
    | cons f rest =>
      obtain ⟨t, ht, -⟩ := jsonBody_cons f rest
      rw [ht]
      rfl
  have hfuel : order.length + 1 ≤ 2 * (marshalJson order).length + 2 := by
    rw [marshal_eq order hne, hlen]
    cases order with
    | nil => exact absurd rfl hne
    | cons f rest =>
      obtain ⟨t, ht, -⟩ := jsonBody_cons f rest
      rw [ht]
      simp only [List.length_cons]
      omega
  rcases members_body order _ hne hfuel hk with ⟨h1, h2⟩ | ⟨h1, h2⟩
  · left
    refine ⟨hall.1 h1, ?_⟩
    unfold unmarshalJson
    rw [hmap, h2]
    dsimp only
    obtain ⟨m, hm1, -, hm3⟩ := toMap_strings order GoMap.empty
    have hnodup : (order.map Prod.fst).Nodup := by
      apply ((ho.map Prod.fst).nodup_iff).2
      show [keyStarterRef, keyResponderRef, keyOpponent, keyStarterAddr].Nodup
      decide
    have g := fun f hf => hm3 hnodup f ((hmem f).2 hf)
    have g1 := g (keyStarterRef, l.reference.starter) (by simp [jsonFields])
    have g2 := g (keyResponderRef, l.reference.responder) (by simp [jsonFields])
    have g3 := g (keyOpponent, l.opponent) (by simp [jsonFields])
    have g4 := g (keyStarterAddr, l.starterAddr) (by simp [jsonFields])
    dsimp only at g1 g2 g3 g4
    have hnil : skipSpace [] = [] := rfl
    rw [if_pos hnil, hm1, Option.map_some, g1, g2, g3, g4]
    rfl
  · right
    refine ⟨fun h => h1 (hall.2 h), ?_⟩
    unfold unmarshalJson
    rw [hmap, h2]
    rfl

/-- A text that JSON represents by itself: no quote, no backslash, no control character, valid
UTF-8. -/
def PlainText (v : Bytes) : Prop :=
  quote ∉ v ∧ backslash ∉ v ∧ (∀ c ∈ v, 32 ≤ c) ∧ IsText v

/-- C14, the part that holds: a label whose components are plain texts is decoded to itself, for every
order of the fields. What is missing: other components. -/
theorem C14_round_trip_partial (l : DialogueLabel) (order : List (Bytes × Bytes))
    (ho : order.Perm (jsonFields l)) (hp : ∀ v ∈ components l, PlainText v) :
    unmarshalJson (marshalJson order) = some l := by
  rcases unmarshal_marshal l order ho (fun v hv => (hp v hv).1) with ⟨-, h⟩ | ⟨h, -⟩
  · rw [h]
    have u := fun v hv => unquote_plain (hp v hv).2.1 ((utf8Valid_iff v).2 (hp v hv).2.2.2)
    rw [u l.reference.starter (by simp [components]), u l.reference.responder (by simp [components]),
      u l.opponent (by simp [components]), u l.starterAddr (by simp [components])]
  · exact absurd (fun v hv => scanEnd_plain (hp v hv).2.1 (hp v hv).2.2.1) h

/-- C14, exact condition for components without quotes: the label survives exactly if they are plain
texts. -/
theorem C14_round_trip_iff (l : DialogueLabel) (order : List (Bytes × Bytes))
    (ho : order.Perm (jsonFields l)) (hq : ∀ v ∈ components l, quote ∉ v) :
    unmarshalJson (marshalJson order) = some l ↔ ∀ v ∈ components l, PlainText v := by
  refine ⟨?_, C14_round_trip_partial l order ho⟩
  intro h
  rcases unmarshal_marshal l order ho hq with ⟨h1, h2⟩ | ⟨-, h2⟩
  · rw [h] at h2
    obtain ⟨⟨s, r⟩, o, a⟩ := l
    simp only [Option.some.injEq, DialogueLabel.mk.injEq, DialogueReference.mk.injEq] at h2
    obtain ⟨⟨e1, e2⟩, e3, e4⟩ := h2
    have fixed : ∀ v ∈ components ⟨⟨s, r⟩, o, a⟩, unquote v = v := by
      intro v hv
      simp only [components, List.mem_cons, List.not_mem_nil, or_false] at hv
      rcases hv with rfl | rfl | rfl | rfl
      · exact e1.symm
      · exact e2.symm
      · exact e3.symm
      · exact e4.symm
    intro v hv
    have hfix := fixed v hv
    have hvalid : utf8Valid v = true := by
      rw [← hfix]
      exact utf8Valid_unquoteAux _ _
    refine ⟨hq v hv, ?_, scanEnd_no_control (h1 v hv), (utf8Valid_iff v).1 hvalid⟩
    intro hb
    have := (unquoteAux_length v.length v hvalid).2 hb
    have e : unquoteAux v.length v = v := hfix
    rw [e] at this
    omega
  · rw [h] at h2
    cases h2

/-- An opponent address that contains a quote. -/
def c14Label : DialogueLabel :=
  ⟨⟨b! "1", b! "2"⟩, b! "x\",\"dialogue_starter_addr\": \"evil", b! "y"⟩

set_option maxRecDepth 100000 in
set_option maxHeartbeats 4000000 in
/-- C14 is false: a component with quotes is read as further fields, so another label is decoded; and
which one depends on the order of the fields. -/
theorem C14_counterexample :
    unmarshalJson (marshalJson (jsonFields c14Label)) = some ⟨⟨b! "1", b! "2"⟩, b! "x", b! "y"⟩ ∧
    unmarshalJson (marshalJson (jsonFields c14Label).reverse) =
      some ⟨⟨b! "1", b! "2"⟩, b! "x", b! "evil"⟩ := by
  decide

set_option maxRecDepth 100000 in
set_option maxHeartbeats 4000000 in
/-- A label with letters outside ASCII and an empty component survives. -/
theorem C14_case :
    let l : DialogueLabel := ⟨⟨[0xC3, 0xA9, 32, 47], []⟩, [0xF0, 0x9F, 0x98, 0x80], b! "a_b"⟩
    unmarshalJson (marshalJson (jsonFields l).reverse) = some l := by
  decide

/-- A plain label survives, in any order of the fields; a backslash does not. -/
example : unmarshalJson (marshalJson (jsonFields ⟨⟨b! "1", []⟩, b! "ann", b! "b_b"⟩).reverse) =
    some ⟨⟨b! "1", []⟩, b! "ann", b! "b_b"⟩ := by decide +kernel
example : unmarshalJson (marshalJson (jsonFields ⟨⟨b! "1", []⟩, b! "a\\n", b! "bob"⟩)) ≠
    some ⟨⟨b! "1", []⟩, b! "a\\n", b! "bob"⟩ := by decide +kernel

end DialogueLabel

end Verif
