import Verif.Model.Framing

/-!
# Reading frames
-/

namespace Verif

theorem toUInt8_toNat_of_lt {n : Nat} (h : n < 256) : n.toUInt8.toNat = n := by
  simp [Nat.toUInt8, UInt8.toNat_ofNat', Nat.mod_eq_of_lt h]

theorem be32_length (n : Nat) : (be32 n).length = 4 := rfl

theorem be32ToNat_be32 (n : Nat) (rest : Bytes) : be32ToNat (be32 n ++ rest) = n % 2 ^ 32 := by
  simp only [be32, be32ToNat, List.cons_append]
  rw [toUInt8_toNat_of_lt (Nat.mod_lt _ (by decide)), toUInt8_toNat_of_lt (Nat.mod_lt _ (by decide)),
    toUInt8_toNat_of_lt (Nat.mod_lt _ (by decide)), toUInt8_toNat_of_lt (Nat.mod_lt _ (by decide))]
  omega

theorem be32ToNat_be32_lt {n : Nat} (h : n < 2 ^ 32) : be32ToNat (be32 n) = n := by
  have := be32ToNat_be32 n []
  rw [List.append_nil] at this
  rw [this, Nat.mod_eq_of_lt h]

theorem padTo_full {n : Nat} {b : Bytes} (h : b.length = n) : padTo n b = b := by
  simp [padTo, h]

/-! ## Segments that keep pieces whole -/

/-- The segments `cs` consist of the non-empty pieces `ps`, none of them split. -/
inductive Whole : List Bytes → List Bytes → Prop where
  /-- nothing -/
  | nil : Whole [] []
  /-- a piece in a segment of its own -/
  | own {p : Bytes} {ps cs : List Bytes} : p ≠ [] → Whole ps cs → Whole (p :: ps) (p :: cs)
  /-- a piece at the front of the segment of the next one -/
  | joined {p c : Bytes} {ps cs : List Bytes} :
      p ≠ [] → c ≠ [] → Whole ps (c :: cs) → Whole (p :: ps) ((p ++ c) :: cs)

theorem Whole.flatten {ps cs : List Bytes} (h : Whole ps cs) : cs.flatten = ps.flatten := by
  induction h with
  | nil => rfl
  | own _ _ ih => simp [ih]
  | joined _ _ _ ih => simpa using ih

theorem Whole.readOnce {p : Bytes} {ps cs : List Bytes} (h : Whole (p :: ps) cs) :
    ∃ cs', readOnce p.length cs = some (p, cs') ∧ Whole ps cs' := by
  cases h with
  | @own _ _ cs hp hw =>
    refine ⟨cs, ?_, hw⟩
    have : p.length ≠ 0 := fun h => hp (List.length_eq_zero_iff.1 h)
    simp [Verif.readOnce, this]
  | @joined _ c _ cs hp hc hw =>
    refine ⟨c :: cs, ?_, hw⟩
    have : p.length ≠ 0 := fun h => hp (List.length_eq_zero_iff.1 h)
    simp [Verif.readOnce, this, hc]

/-- The pieces a reader asks for: header and data of every frame; an empty data piece is not
read. -/
def pieces (ds : List Bytes) : List Bytes :=
  ds.flatMap fun d => if d = [] then [be32 d.length] else [be32 d.length, d]

theorem pieces_flatten (ds : List Bytes) : (pieces ds).flatten = (ds.map frame).flatten := by
  induction ds with
  | nil => rfl
  | cons d ds ih =>
    simp only [pieces, List.flatMap_cons, List.flatten_append, List.map_cons, List.flatten_cons]
    rw [show (ds.flatMap fun d => if d = [] then [be32 d.length] else [be32 d.length, d]).flatten =
      (ds.map frame).flatten from ih]
    congr 1
    split
    · rename_i h; simp [frame, h]
    · simp [frame]

/-- One frame read from segments that keep its pieces whole. -/
theorem readConn_whole {limit : Option Nat} {d : Bytes} {ds cs : List Bytes}
    (hd : d.length < 2 ^ 32) (hlim : ∀ l ∈ limit, d.length ≤ l) (h : Whole (pieces (d :: ds)) cs) :
    ∃ cs', readConn limit cs = (.ok d, cs') ∧ Whole (pieces ds) cs' := by
  have hpc : pieces (d :: ds) = be32 d.length :: ((if d = [] then [] else [d]) ++ pieces ds) := by
    simp only [pieces, List.flatMap_cons]
    split <;> simp
  rw [hpc] at h
  obtain ⟨cs1, h1, hw1⟩ := h.readOnce
  rw [be32_length] at h1
  unfold readConn
  rw [h1]
  dsimp only
  rw [padTo_full (be32_length _), be32ToNat_be32_lt hd]
  have hnl : ¬ (limit.any (· < d.length) = true) := by
    cases limit with
    | none => simp
    | some l => simpa using hlim l rfl
  rw [if_neg hnl]
  by_cases hz : d = []
  · rw [if_pos hz] at hw1
    subst hz
    refine ⟨cs1, ?_, hw1⟩
    simp [readOnce, padTo]
  · rw [if_neg hz] at hw1
    obtain ⟨cs2, h2, hw2⟩ := Whole.readOnce hw1
    refine ⟨cs2, ?_, hw2⟩
    rw [h2]
    dsimp only
    rw [padTo_full rfl]

/-! ## Full reads through a buffer -/

theorem readOnce_prefix {n : Nat} {cs : List Bytes} (hn : n ≠ 0) (hc : ∀ c ∈ cs, c ≠ [])
    (hf : cs.flatten ≠ []) :
    ∃ d cs', readOnce n cs = some (d, cs') ∧ d ≠ [] ∧ d.length ≤ n ∧ cs.flatten = d ++ cs'.flatten ∧
      ∀ c ∈ cs', c ≠ [] := by
  cases cs with
  | nil => simp at hf
  | cons c cs =>
    have hc0 := hc c (by simp)
    refine ⟨c.take n, if c.drop n = [] then cs else c.drop n :: cs, by simp [readOnce, hn], ?_, ?_, ?_, ?_⟩
    · simp [hn, hc0]
    · rw [List.length_take]; omega
    · split
      · rename_i h
        have := List.take_append_drop n c
        rw [h, List.append_nil] at this
        rw [this]; simp
      · rw [List.flatten_cons, List.flatten_cons, ← List.append_assoc, List.take_append_drop]
    · intro x hx
      split at hx
      · exact hc x (by simp [hx])
      · rename_i h
        rcases List.mem_cons.1 hx with hx | hx
        · rw [hx]; exact h
        · exact hc x (by simp [hx])

theorem bufRead_prefix {n : Nat} {buf : Bytes} {cs : List Bytes} (hn : n ≠ 0)
    (hc : ∀ c ∈ cs, c ≠ []) (hf : buf ++ cs.flatten ≠ []) :
    ∃ d buf' cs', bufRead n buf cs = some (d, buf', cs') ∧ d ≠ [] ∧ d.length ≤ n ∧
      buf ++ cs.flatten = d ++ (buf' ++ cs'.flatten) ∧ ∀ c ∈ cs', c ≠ [] := by
  by_cases hb : buf = []
  · subst hb
    simp only [List.nil_append] at hf
    by_cases hbig : bufioSize ≤ n
    · obtain ⟨d, cs', h1, h2, h3, h4, h5⟩ := readOnce_prefix hn hc hf
      refine ⟨d, [], cs', ?_, h2, h3, by simpa using h4, h5⟩
      simp [bufRead, hbig, h1]
    · obtain ⟨d, cs', h1, h2, h3, h4, h5⟩ := readOnce_prefix (n := bufioSize) (by decide) hc hf
      refine ⟨d.take n, d.drop n, cs', ?_, ?_, ?_, ?_, h5⟩
      · simp [bufRead, hbig, h1]
      · simp [hn, h2]
      · rw [List.length_take]; omega
      · rw [List.nil_append, h4, ← List.append_assoc, List.take_append_drop]
  · refine ⟨buf.take n, buf.drop n, cs, ?_, ?_, ?_, ?_, hc⟩
    · simp [bufRead, hb]
    · simp [hn, hb]
    · rw [List.length_take]; omega
    · rw [← List.append_assoc, List.take_append_drop]

/-- If `x` comes next on the stream, a full read of its length gives `x`. -/
theorem readFull_ok {fuel n : Nat} {acc buf x rest : Bytes} {cs : List Bytes} (hfuel : n ≤ fuel)
    (hx : x.length = n) (hc : ∀ c ∈ cs, c ≠ []) (h : buf ++ cs.flatten = x ++ rest) :
    ∃ buf' cs', readFull fuel n acc buf cs = (.ok (acc ++ x), buf', cs') ∧
      buf' ++ cs'.flatten = rest ∧ ∀ c ∈ cs', c ≠ [] := by
  induction fuel generalizing n acc buf x cs with
  | zero =>
    have : n = 0 := by omega
    subst this
    have : x = [] := List.length_eq_zero_iff.1 hx
    subst this
    exact ⟨buf, cs, by simp [readFull], by simpa using h, hc⟩
  | succ fuel ih =>
    by_cases hn : n = 0
    · subst hn
      have : x = [] := List.length_eq_zero_iff.1 hx
      subst this
      exact ⟨buf, cs, by simp [readFull], by simpa using h, hc⟩
    · have hxn : x ≠ [] := by intro h0; rw [h0] at hx; exact hn hx.symm
      have hne : buf ++ cs.flatten ≠ [] := by rw [h]; simp [hxn]
      obtain ⟨d, buf', cs', h1, h2, h3, h4, h5⟩ := bufRead_prefix hn hc hne
      have hd : d = x.take d.length := by
        have e : d ++ (buf' ++ cs'.flatten) = x ++ rest := by rw [← h4, h]
        have := congrArg (List.take d.length) e
        rw [List.take_left' rfl, List.take_append_of_le_length (by omega)] at this
        exact this
      have hdx : x = d ++ x.drop d.length := by
        conv => lhs; rw [← List.take_append_drop d.length x]
        rw [← hd]
      have hrest : buf' ++ cs'.flatten = x.drop d.length ++ rest := by
        have e : d ++ (buf' ++ cs'.flatten) = d ++ (x.drop d.length ++ rest) := by
          rw [← h4, h, ← List.append_assoc, ← hdx]
        exact List.append_cancel_left e
      have hdl : d.length ≠ 0 := fun h => h2 (List.length_eq_zero_iff.1 h)
      obtain ⟨b2, c2, g1, g2, g3⟩ := ih (n := n - d.length) (acc := acc ++ d) (buf := buf')
        (x := x.drop d.length) (cs := cs') (by omega) (by rw [List.length_drop]; omega) h5 hrest
      refine ⟨b2, c2, ?_, g2, g3⟩
      rw [readFull, if_neg hn]
      simp only [h1]
      rw [g1, List.append_assoc, ← hdx]

end Verif
