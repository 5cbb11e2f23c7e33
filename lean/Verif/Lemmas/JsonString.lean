import Verif.Props.LabelJson
import Verif.Lemmas.Utf8
import Verif.Spec.Json

/-!
# JSON strings: the decoder and the grammar agree
-/

namespace Verif.Json

open Proto

/-! ## Characters -/

theorem seqLen_ascii {c : UInt8} (h : c < 0x80) (r : Bytes) : seqLen (c :: r) = 1 := by
  unfold seqLen
  dsimp only
  rw [if_pos h]

/-- The length the decoder finds is that of the character. -/
theorem seqLen_encodeChar (c : Char) (t : Bytes) :
    seqLen (String.utf8EncodeChar c ++ t) = (String.utf8EncodeChar c).length := by
  have hv : c.val.toNat < 0xd800 ∨ (0xdfff < c.val.toNat ∧ c.val.toNat < 0x110000) := c.valid
  generalize hn : c.val.toNat = v at hv
  unfold String.utf8EncodeChar
  simp only [hn]
  split
  · rename_i h
    simp only [List.singleton_append]
    rw [seqLen_ascii (by rw [UInt8.lt_iff_toNat_lt, utf8_ofNat_toNat (by omega)]; show v < 128; omega)]
    rfl
  split
  · rename_i h1 h2
    generalize hb0 : UInt8.ofNat (v / 64 % 32 + 192) = b0
    generalize hb1 : UInt8.ofNat (v % 64 + 128) = b1
    have e0 : b0.toNat = v / 64 % 32 + 192 := by rw [← hb0]; exact utf8_ofNat_toNat (by omega)
    have e1 : b1.toNat = v % 64 + 128 := by rw [← hb1]; exact utf8_ofNat_toNat (by omega)
    simp only [List.cons_append, List.nil_append]
    unfold seqLen
    simp only [UInt8.lt_iff_toNat_lt, UInt8.le_iff_toNat_le, isCont, e0, e1, UInt8.reduceToNat]
    rw [if_neg (by omega), if_pos (by simp; omega), if_pos (by simp; omega)]
    rfl
  split
  · rename_i h1 h2 h3
    generalize hb0 : UInt8.ofNat (v / 4096 % 16 + 224) = b0
    generalize hb1 : UInt8.ofNat (v / 64 % 64 + 128) = b1
    generalize hb2 : UInt8.ofNat (v % 64 + 128) = b2
    have e0 : b0.toNat = v / 4096 % 16 + 224 := by rw [← hb0]; exact utf8_ofNat_toNat (by omega)
    have e1 : b1.toNat = v / 64 % 64 + 128 := by rw [← hb1]; exact utf8_ofNat_toNat (by omega)
    have e2 : b2.toNat = v % 64 + 128 := by rw [← hb2]; exact utf8_ofNat_toNat (by omega)
    simp only [List.cons_append, List.nil_append]
    unfold seqLen
    simp only [UInt8.lt_iff_toNat_lt, UInt8.le_iff_toNat_le, isCont, e0, e1, e2, UInt8.reduceToNat,
      beq_iff_eq, ← UInt8.toNat_inj]
    rw [if_neg (by omega), if_neg (by simp <;> omega)]
    by_cases hE0 : v / 4096 % 16 + 224 = 224
    · rw [if_pos hE0, if_pos (by simp; omega)]
      rfl
    rw [if_neg hE0]
    by_cases hED : v / 4096 % 16 + 224 = 237
    · rw [if_pos hED, if_pos (by simp; omega)]
      rfl
    rw [if_neg hED, if_pos (by simp; omega), if_pos (by simp; omega)]
    rfl
  · rename_i h1 h2 h3
    generalize hb0 : UInt8.ofNat (v / 262144 % 8 + 240) = b0
    generalize hb1 : UInt8.ofNat (v / 4096 % 64 + 128) = b1
    generalize hb2 : UInt8.ofNat (v / 64 % 64 + 128) = b2
    generalize hb3 : UInt8.ofNat (v % 64 + 128) = b3
    have e0 : b0.toNat = v / 262144 % 8 + 240 := by rw [← hb0]; exact utf8_ofNat_toNat (by omega)
    have e1 : b1.toNat = v / 4096 % 64 + 128 := by rw [← hb1]; exact utf8_ofNat_toNat (by omega)
    have e2 : b2.toNat = v / 64 % 64 + 128 := by rw [← hb2]; exact utf8_ofNat_toNat (by omega)
    have e3 : b3.toNat = v % 64 + 128 := by rw [← hb3]; exact utf8_ofNat_toNat (by omega)
    simp only [List.cons_append, List.nil_append]
    unfold seqLen
    simp only [UInt8.lt_iff_toNat_lt, UInt8.le_iff_toNat_le, isCont, e0, e1, e2, e3,
      UInt8.reduceToNat, beq_iff_eq, ← UInt8.toNat_inj]
    rw [if_neg (by omega), if_neg (by simp <;> omega), if_neg (by omega), if_neg (by omega),
      if_neg (by simp <;> omega)]
    by_cases hF0 : v / 262144 % 8 + 240 = 240
    · rw [if_pos hF0, if_pos (by simp; omega)]
      rfl
    rw [if_neg hF0]
    by_cases hF4 : v / 262144 % 8 + 240 = 244
    · rw [if_pos hF4, if_pos (by simp; omega)]
      rfl
    rw [if_neg hF4, if_pos (by simp; omega), if_pos (by simp; omega)]
    rfl

theorem encodeChar_ne_nil (c : Char) : String.utf8EncodeChar c ≠ [] := by
  unfold String.utf8EncodeChar
  dsimp only
  split
  · simp
  · split
    · simp
    · split <;> simp

/-- Where the decoder finds a character there is one. -/
theorem seqLen_char {c : UInt8} {r : Bytes} (h : seqLen (c :: r) ≠ 0) :
    ∃ ch : Char, (c :: r).take (seqLen (c :: r)) = String.utf8EncodeChar ch ∧
      c :: r = String.utf8EncodeChar ch ++ (c :: r).drop (seqLen (c :: r)) := by
  have hv : utf8Valid ((c :: r).take (seqLen (c :: r)) ++ []) = utf8Valid [] := utf8Valid_take_append c r [] h
  rw [List.append_nil] at hv
  obtain ⟨cs, hcs⟩ := (utf8Valid_iff _).1 (hv.trans (by rfl : utf8Valid [] = true))
  cases cs with
  | nil =>
    rw [List.flatMap_nil, List.take_eq_nil_iff] at hcs
    rcases hcs with h0 | h0
    · exact absurd h0 h
    · cases h0
  | cons ch cs =>
    rw [List.flatMap_cons] at hcs
    have e : c :: r = String.utf8EncodeChar ch ++
        (cs.flatMap String.utf8EncodeChar ++ (c :: r).drop (seqLen (c :: r))) := by
      rw [← List.append_assoc, ← hcs, List.take_append_drop]
    have hl : seqLen (c :: r) = (String.utf8EncodeChar ch).length := by
      conv => lhs; rw [e]
      rw [seqLen_encodeChar]
    have ht : (c :: r).take (seqLen (c :: r)) = String.utf8EncodeChar ch := by
      rw [hl]
      conv => lhs; rw [e]
      rw [List.take_left' rfl]
    refine ⟨ch, ht, ?_⟩
    rw [← ht, List.take_append_drop]

theorem seqLen_zero_iff {c : UInt8} {r : Bytes} :
    seqLen (c :: r) = 0 ↔ ∀ (ch : Char) (t : Bytes), c :: r ≠ String.utf8EncodeChar ch ++ t := by
  constructor
  · intro h ch t e
    rw [e, seqLen_encodeChar] at h
    exact encodeChar_ne_nil ch (List.length_eq_zero_iff.1 h)
  · intro h
    refine Classical.byContradiction fun h0 => ?_
    obtain ⟨ch, -, e⟩ := seqLen_char h0
    exact h ch _ e

/-- The encoder of the decoder writes characters. -/
theorem encodeRune_char (c : Char) : encodeRune c.toNat = String.utf8EncodeChar c := by
  have hv : c.val.toNat < 0xd800 ∨ (0xdfff < c.val.toNat ∧ c.val.toNat < 0x110000) := c.valid
  unfold encodeRune String.utf8EncodeChar
  show (if c.val.toNat < 0x80 then _ else _) = _
  change (if c.val.toNat < 0x80 then [c.val.toNat.toUInt8] else
    if c.val.toNat < 0x800 then [(0xC0 + c.val.toNat / 64).toUInt8, (0x80 + c.val.toNat % 64).toUInt8]
    else if 0xD800 ≤ c.val.toNat ∧ c.val.toNat < 0xE000 then replacement
    else if c.val.toNat < 0x10000 then
      [(0xE0 + c.val.toNat / 4096).toUInt8, (0x80 + c.val.toNat / 64 % 64).toUInt8,
        (0x80 + c.val.toNat % 64).toUInt8]
    else if c.val.toNat < 0x110000 then
      [(0xF0 + c.val.toNat / 262144).toUInt8, (0x80 + c.val.toNat / 4096 % 64).toUInt8,
        (0x80 + c.val.toNat / 64 % 64).toUInt8, (0x80 + c.val.toNat % 64).toUInt8]
    else replacement) = _
  generalize c.val.toNat = v at hv
  by_cases h1 : v < 0x80
  · simp only [h1, show v ≤ 127 by omega, if_true]
  by_cases h2 : v < 0x800
  · simp only [h1, h2, show ¬ v ≤ 127 by omega, show v ≤ 2047 by omega, if_true, if_false]
    rw [show 0xC0 + v / 64 = v / 64 % 32 + 192 by omega, show 0x80 + v % 64 = v % 64 + 128 by omega]
  have hs : ¬ (0xD800 ≤ v ∧ v < 0xE000) := by omega
  by_cases h3 : v < 0x10000
  · simp only [h1, h2, h3, hs, show ¬ v ≤ 127 by omega, show ¬ v ≤ 2047 by omega, show v ≤ 65535 by omega, if_true,
      if_false]
    rw [show 0xE0 + v / 4096 = v / 4096 % 16 + 224 by omega, show 0x80 + v % 64 = v % 64 + 128 by omega,
      show 0x80 + v / 64 % 64 = v / 64 % 64 + 128 by omega]
  simp only [h1, h2, h3, hs, show ¬ v ≤ 127 by omega, show ¬ v ≤ 2047 by omega, show ¬ v ≤ 65535 by omega,
    show v < 0x110000 by omega, if_true, if_false]
  rw [show 0xF0 + v / 262144 = v / 262144 % 8 + 240 by omega, show 0x80 + v % 64 = v % 64 + 128 by omega,
    show 0x80 + v / 64 % 64 = v / 64 % 64 + 128 by omega, show 0x80 + v / 4096 % 64 = v / 4096 % 64 + 128 by omega]

theorem replacement_eq : replacement = jsonReplacement := by decide +kernel

/-- Every number that is no surrogate is a character. -/
theorem char_of_nat {n : Nat} (h : n < 0xD800 ∨ (0xDFFF < n ∧ n < 0x110000)) : ∃ c : Char, c.toNat = n := by
  refine ⟨Char.ofNat n, ?_⟩
  have : n.isValidChar := h
  rw [Char.ofNat, dif_pos this]
  rfl

/-! ## Escapes -/

theorem hexVal_iff (c : UInt8) (n : Nat) : hexVal c = some n ↔ IsHexDigit c n := by
  constructor
  · revert n
    have key : ∀ i : Fin 256, ∀ n, hexVal (UInt8.ofFin i) = some n → IsHexDigit (UInt8.ofFin i) n := by
      have : ∀ i : Fin 256, (hexVal (UInt8.ofFin i)).all (fun n =>
          decide ((b! "0123456789abcdef")[n]? = some (UInt8.ofFin i) ∨
            (b! "0123456789ABCDEF")[n]? = some (UInt8.ofFin i))) = true := by decide +kernel
      intro i n hn
      have := this i
      rw [hn] at this
      unfold IsHexDigit
      simpa using this
    have := key c.toFin
    simpa using this
  · intro h
    have hn : n < 16 := by
      rcases h with h | h
      · have := (List.getElem?_eq_some_iff.1 h).1; simpa using this
      · have := (List.getElem?_eq_some_iff.1 h).1; simpa using this
    have key : ∀ i : Fin 16, (∀ c, (b! "0123456789abcdef")[i.val]? = some c → hexVal c = some i.val) ∧
        (∀ c, (b! "0123456789ABCDEF")[i.val]? = some c → hexVal c = some i.val) := by
      have : ∀ i : Fin 16, (b! "0123456789abcdef")[i.val]?.bind hexVal = some i.val ∧
          (b! "0123456789ABCDEF")[i.val]?.bind hexVal = some i.val := by decide +kernel
      intro i
      obtain ⟨h1, h2⟩ := this i
      constructor
      · intro c hc; rw [hc] at h1; exact h1
      · intro c hc; rw [hc] at h2; exact h2
    rcases h with h | h
    · exact (key ⟨n, hn⟩).1 c h
    · exact (key ⟨n, hn⟩).2 c h

theorem hex4_iff {s : Bytes} {n : Nat} {r : Bytes} :
    hex4 s = some (n, r) ↔ ∃ h, s = h ++ r ∧ IsHex4 h n := by
  constructor
  · intro h
    unfold hex4 at h
    split at h
    · split at h
      · next a b c d rest _ _ _ _ na nb nc nd ha hb hc hd =>
        simp only [Option.some.injEq, Prod.mk.injEq] at h
        obtain ⟨h1, rfl⟩ := h
        exact ⟨[a, b, c, d], rfl, a, b, c, d, na, nb, nc, nd, rfl, (hexVal_iff _ _).1 ha, (hexVal_iff _ _).1 hb,
          (hexVal_iff _ _).1 hc, (hexVal_iff _ _).1 hd, by omega⟩
      · cases h
    · cases h
  · rintro ⟨h, rfl, c0, c1, c2, c3, n0, n1, n2, n3, rfl, h0, h1, h2, h3, rfl⟩
    simp only [List.cons_append, List.nil_append, hex4, (hexVal_iff _ _).2 h0, (hexVal_iff _ _).2 h1,
      (hexVal_iff _ _).2 h2, (hexVal_iff _ _).2 h3]
    congr 2
    omega

theorem getu4_iff {s : Bytes} {n : Nat} {r : Bytes} :
    getu4 s = some (n, r) ↔ ∃ h, s = b! "\\u" ++ h ++ r ∧ IsHex4 h n := by
  constructor
  · intro h
    unfold getu4 at h
    split at h
    · obtain ⟨d, rfl, hd⟩ := hex4_iff.1 h
      exact ⟨d, rfl, hd⟩
    · cases h
  · rintro ⟨h, rfl, hd⟩
    show hex4 (h ++ r) = _
    exact hex4_iff.2 ⟨h, rfl, hd⟩

theorem IsHex4.lt {h : Bytes} {n : Nat} (hh : IsHex4 h n) : n < 65536 := by
  obtain ⟨c0, c1, c2, c3, n0, n1, n2, n3, -, h0, h1, h2, h3, rfl⟩ := hh
  have key : ∀ {c n}, IsHexDigit c n → n < 16 := by
    intro c n h
    rcases h with h | h
    · have := (List.getElem?_eq_some_iff.1 h).1; simpa using this
    · have := (List.getElem?_eq_some_iff.1 h).1; simpa using this
  have := key h0
  have := key h1
  have := key h2
  have := key h3
  omega

theorem escapeVal_iff (x y : UInt8) : escapeVal x = some y ↔ ([92, x], y) ∈ jsonEscapes := by
  unfold escapeVal jsonEscapes
  by_cases h1 : x = 34
  · subst h1; simp; exact eq_comm
  by_cases h2 : x = 92
  · subst h2; simp; exact eq_comm
  by_cases h3 : x = 47
  · subst h3; simp; exact eq_comm
  by_cases h4 : x = 98
  · subst h4; simp; exact eq_comm
  by_cases h5 : x = 102
  · subst h5; simp; exact eq_comm
  by_cases h6 : x = 110
  · subst h6; simp; exact eq_comm
  by_cases h7 : x = 114
  · subst h7; simp; exact eq_comm
  by_cases h8 : x = 116
  · subst h8; simp; exact eq_comm
  simp [h1, h2, h3, h4, h5, h6, h7, h8]

theorem escape_shape {e : Bytes} {y : UInt8} (h : (e, y) ∈ jsonEscapes) : ∃ x, e = [92, x] ∧ escapeVal x = some y := by
  have : ∀ p ∈ jsonEscapes, ∃ x, p.1 = [92, x] ∧ escapeVal x = some p.2 := by
    intro p hp
    simp only [jsonEscapes, List.mem_cons, List.not_mem_nil, or_false] at hp
    rcases hp with rfl | rfl | rfl | rfl | rfl | rfl | rfl | rfl <;> exact ⟨_, rfl, rfl⟩
  exact this (e, y) h

/-! ## The scanner -/

/-- A text that the scanner takes for the inside of a string. -/
inductive Body : Bytes → Prop where
  | nil : Body []
  | byte {c : UInt8} {r : Bytes} (hq : c ≠ 34) (hb : c ≠ 92) (hc : ¬ c < 32) : Body r → Body (c :: r)
  | escape {x : UInt8} {r : Bytes} (hx : (escapeVal x).isSome) : Body r → Body (92 :: x :: r)
  | unicode {h : Bytes} {n : Nat} {r : Bytes} (hh : IsHex4 h n) : Body r → Body (b! "\\u" ++ h ++ r)

theorem Body.high {c : UInt8} {r : Bytes} (h : Body (c :: r)) (hc : c ≠ 92) : Body r := by
  generalize hs : c :: r = s at h
  cases h with
  | nil => cases hs
  | byte _ _ _ h => cases hs; exact h
  | escape _ _ => cases hs; exact absurd rfl hc
  | unicode _ _ => cases hs; exact absurd rfl hc

theorem Body.drop {s : Bytes} (h : Body s) (n : Nat) (hn : ∀ c ∈ s.take n, c ≠ 92) : Body (s.drop n) := by
  induction n generalizing s with
  | zero => exact h
  | succ n ih =>
    cases s with
    | nil => exact h
    | cons c r =>
      rw [List.drop_succ_cons]
      rw [List.take_succ_cons] at hn
      exact ih (h.high (hn c (by simp))) fun x hx => hn x (by simp [hx])

theorem Body.getu4 {s r : Bytes} {n : Nat} (h : Body s) (hg : getu4 s = some (n, r)) : Body r := by
  obtain ⟨d, hs, c0, c1, c2, c3, n0, n1, n2, n3, rfl, h0, h1, h2, h3, -⟩ := getu4_iff.1 hg
  simp only [List.cons_append, List.nil_append] at hs
  cases h with
  | nil => cases hs
  | byte hq hb hc h => cases hs; exact absurd rfl hb
  | escape hx h => cases hs; exact absurd hx (by decide)
  | @unicode d' n' r' hh h =>
    obtain ⟨a0, a1, a2, a3, m0, m1, m2, m3, rfl, -⟩ := hh
    cases hs
    exact h

theorem Body.escape' {x : UInt8} {r : Bytes} (h : Body (92 :: x :: r)) (hg : Json.getu4 (92 :: x :: r) = none) :
    (escapeVal x).isSome ∧ Body r := by
  generalize hs : 92 :: x :: r = s at h hg
  cases h with
  | nil => cases hs
  | byte hq hb hc h => cases hs; exact absurd rfl hb
  | escape hx h => cases hs; exact ⟨hx, h⟩
  | @unicode d' n' r' hh h =>
    rw [getu4_iff.2 ⟨d', rfl, hh⟩] at hg
    cases hg

theorem body_nonempty_escape : ¬ Body [92] := by
  intro h
  generalize hs : [(92 : UInt8)] = s at h
  cases h with
  | nil => cases hs
  | byte hq hb hc h => cases hs; exact hb rfl
  | escape hx h => cases hs
  | unicode hh h => cases hs

/-- The scanner reads such a text up to the quotation mark. -/
theorem scan_body {raw : Bytes} (h : Body raw) (rest : Bytes) :
    scanString .plain (raw ++ 34 :: rest) = some (raw, rest) := by
  induction h with
  | nil => rfl
  | @byte c r hq hb hc _ ih =>
    rw [List.cons_append, scanString, if_neg hq, if_neg hb, if_neg hc, ih]
    rfl
  | @escape x r hx _ ih =>
    have hu : x ≠ 117 := by rintro rfl; exact absurd hx (by decide)
    rw [List.cons_append, List.cons_append, scanString, if_neg (by decide), if_pos rfl, scanString, if_neg hu,
      if_pos hx, ih]
    rfl
  | @unicode h n r hh _ ih =>
    obtain ⟨c0, c1, c2, c3, n0, n1, n2, n3, rfl, h0, h1, h2, h3, -⟩ := hh
    have hs : ∀ {c n}, IsHexDigit c n → (hexVal c).isSome = true := by
      intro c n h; rw [(hexVal_iff c n).2 h]; rfl
    simp only [List.cons_append, List.nil_append]
    rw [scanString, if_neg (by decide), if_pos rfl, scanString, if_pos rfl, scanString, if_pos (hs h0)]
    dsimp only
    rw [scanString, if_pos (hs h1)]
    dsimp only
    rw [scanString, if_pos (hs h2)]
    dsimp only
    rw [scanString, if_pos (hs h3)]
    dsimp only
    rw [ih]
    rfl

theorem scan_hex {k : Nat} {s raw rest : Bytes} (h : scanString (.hex k) s = some (raw, rest)) :
    ∃ c n s' raw', s = c :: s' ∧ raw = c :: raw' ∧ IsHexDigit c n ∧
      scanString (match k with | 0 => .plain | k + 1 => .hex k) s' = some (raw', rest) := by
  cases s with
  | nil => simp [scanString] at h
  | cons c s' =>
    rw [scanString.eq_def] at h
    dsimp only at h
    split at h
    · next hx =>
      obtain ⟨n, hn⟩ := Option.isSome_iff_exists.1 hx
      cases k with
      | zero =>
        simp only [Option.map_eq_some_iff, Prod.mk.injEq] at h
        obtain ⟨⟨a, b⟩, ha, rfl, rfl⟩ := h
        exact ⟨c, n, s', a, rfl, rfl, (hexVal_iff _ _).1 hn, ha⟩
      | succ k =>
        simp only [Option.map_eq_some_iff, Prod.mk.injEq] at h
        obtain ⟨⟨a, b⟩, ha, rfl, rfl⟩ := h
        exact ⟨c, n, s', a, rfl, rfl, (hexVal_iff _ _).1 hn, ha⟩
    · cases h

/-- What the scanner has read is such a text. -/
theorem body_of_scan (k : Nat) {s raw rest : Bytes} (hk : s.length ≤ k)
    (h : scanString .plain s = some (raw, rest)) : s = raw ++ 34 :: rest ∧ Body raw := by
  induction k generalizing s raw with
  | zero =>
    have : s = [] := List.length_eq_zero_iff.1 (by omega)
    subst this
    simp [scanString] at h
  | succ k ih =>
    cases s with
    | nil => simp [scanString] at h
    | cons c r =>
      rw [List.length_cons] at hk
      rw [scanString] at h
      split at h
      · next hq =>
        cases h
        exact ⟨by rw [hq]; rfl, .nil⟩
      split at h
      · next hq hb =>
        simp only [Option.map_eq_some_iff, Prod.mk.injEq] at h
        obtain ⟨⟨a, b⟩, ha, rfl, rfl⟩ := h
        cases r with
        | nil => simp [scanString] at ha
        | cons x r =>
          rw [List.length_cons] at hk
          rw [scanString] at ha
          split at ha
          · next hx =>
            simp only [Option.map_eq_some_iff, Prod.mk.injEq] at ha
            obtain ⟨⟨a1, b1⟩, ha1, rfl, rfl⟩ := ha
            obtain ⟨c0, n0, s0, r0, rfl, rfl, d0, g0⟩ := scan_hex ha1
            obtain ⟨c1, n1, s1, r1, rfl, rfl, d1, g1⟩ := scan_hex g0
            obtain ⟨c2, n2, s2, r2, rfl, rfl, d2, g2⟩ := scan_hex g1
            obtain ⟨c3, n3, s3, r3, rfl, rfl, d3, g3⟩ := scan_hex g2
            simp only [List.length_cons] at hk
            obtain ⟨rfl, hbody⟩ := ih (by omega) g3
            have hb' : c = 92 := hb
            subst hb' hx
            exact ⟨rfl, .unicode ⟨c0, c1, c2, c3, n0, n1, n2, n3, rfl, d0, d1, d2, d3, rfl⟩ hbody⟩
          · split at ha
            · next hx =>
              simp only [Option.map_eq_some_iff, Prod.mk.injEq] at ha
              obtain ⟨⟨a1, b1⟩, ha1, rfl, rfl⟩ := ha
              obtain ⟨rfl, hbody⟩ := ih (by omega) ha1
              have hb' : c = 92 := hb
              subst hb'
              exact ⟨rfl, .escape hx hbody⟩
            · cases ha
      · next hq hb =>
        split at h
        · cases h
        · next hc =>
          simp only [Option.map_eq_some_iff, Prod.mk.injEq] at h
          obtain ⟨⟨a, b⟩, ha, rfl, rfl⟩ := h
          obtain ⟨rfl, hbody⟩ := ih (by omega) ha
          exact ⟨rfl, .byte hq hb hc hbody⟩

/-! ## The meaning -/

theorem encodeChar_ascii {c : Char} {x : UInt8} {r t : Bytes} (hx : x < 0x80)
    (h : x :: r = String.utf8EncodeChar c ++ t) : String.utf8EncodeChar c = [x] ∧ c.toNat = x.toNat := by
  have hl : (String.utf8EncodeChar c).length = 1 := by
    rw [← seqLen_encodeChar c t, ← h]
    rw [seqLen_ascii hx]
  have e : String.utf8EncodeChar c = [x] := by
    generalize String.utf8EncodeChar c = u at h hl
    obtain ⟨y, rfl⟩ := List.length_eq_one_iff.1 hl
    cases h
    rfl
  refine ⟨e, ?_⟩
  have e2 := encodeRune_char c
  rw [e] at e2
  have hv : c.val.toNat < 0xd800 ∨ (0xdfff < c.val.toNat ∧ c.val.toNat < 0x110000) := c.valid
  have hlt : c.toNat < 0x80 := by
    refine Classical.byContradiction fun hn => ?_
    unfold encodeRune at e2
    rw [if_neg hn] at e2
    split at e2
    · cases e2
    · split at e2
      · cases e2
      · split at e2
        · cases e2
        · split at e2 <;> cases e2
  unfold encodeRune at e2
  rw [if_pos hlt] at e2
  injection e2 with e3 _
  rw [← e3]
  show c.toNat = (UInt8.ofNat c.toNat).toNat
  rw [utf8_ofNat_toNat (by omega)]

/-- What the decoder makes of the inside of a string is what the grammar says. -/
theorem unquoteAux_string (f : Nat) {raw : Bytes} (hf : raw.length ≤ f) (h : Body raw) :
    JsonString raw (unquoteAux f raw) := by
  induction f generalizing raw with
  | zero =>
    have : raw = [] := List.length_eq_zero_iff.1 (by omega)
    subst this
    exact .nil
  | succ f ih =>
    cases raw with
    | nil => exact .nil
    | cons c r =>
      rw [List.length_cons] at hf
      rw [unquoteAux.eq_def]
      dsimp only
      by_cases hb : c = 92
      · subst hb
        rw [if_pos rfl]
        cases hg : getu4 (92 :: r) with
        | some p =>
          obtain ⟨n, rest⟩ := p
          have hbr := h.getu4 hg
          obtain ⟨d, hd, hh⟩ := getu4_iff.1 hg
          have hlen : rest.length ≤ f := by
            have := congrArg List.length hd
            simp at this
            omega
          dsimp only
          rw [hd]
          by_cases hs : 0xD800 ≤ n ∧ n < 0xE000
          · rw [if_pos hs]
            cases hg2 : getu4 rest with
            | some p =>
              obtain ⟨m, rest'⟩ := p
              dsimp only
              obtain ⟨d', hd', hh'⟩ := getu4_iff.1 hg2
              by_cases hp : n < 0xDC00 ∧ 0xDC00 ≤ m ∧ m < 0xE000
              · rw [if_pos hp]
                obtain ⟨ch, hch⟩ := char_of_nat (n := 0x10000 + (n - 0xD800) * 0x400 + (m - 0xDC00)) (by omega)
                rw [← hch, encodeRune_char]
                have hlen' : rest'.length ≤ f := by
                  have := congrArg List.length hd'
                  simp at this
                  omega
                have := JsonString.pair ch hh hh' ⟨hs.1, hp.1⟩ hp.2 (by omega) (ih hlen' (hbr.getu4 hg2))
                rw [hd']
                simpa only [List.append_assoc] using this
              · rw [if_neg hp, replacement_eq]
                refine .lone hh hs ?_ (ih hlen hbr)
                rintro hn ⟨h2, n2, r2, e2, hh2, hr2⟩
                have := getu4_iff.2 ⟨h2, e2, hh2⟩
                rw [hg2] at this
                cases this
                exact hp ⟨hn, hr2⟩
            | none =>
              dsimp only
              rw [replacement_eq]
              refine .lone hh hs ?_ (ih hlen hbr)
              rintro hn ⟨h2, n2, r2, e2, hh2, hr2⟩
              have := getu4_iff.2 ⟨h2, e2, hh2⟩
              rw [hg2] at this
              cases this
          · rw [if_neg hs]
            obtain ⟨ch, hch⟩ := char_of_nat (n := n) (by have := IsHex4.lt hh; omega)
            rw [← hch, encodeRune_char]
            exact .unicode ch (by rw [hch]; exact hh) (ih hlen hbr)
        | none =>
          dsimp only
          cases r with
          | nil => exact absurd h body_nonempty_escape
          | cons x rest =>
            obtain ⟨hx, hbr⟩ := h.escape' hg
            obtain ⟨y, hy⟩ := Option.isSome_iff_exists.1 hx
            simp only [hy]
            rw [List.length_cons] at hf
            exact JsonString.escape (e := [92, x]) ((escapeVal_iff x y).1 hy) (ih (by omega) hbr)
      · rw [if_neg hb]
        by_cases h0 : seqLen (c :: r) = 0
        · rw [if_pos h0, replacement_eq]
          exact .invalid c (seqLen_zero_iff.1 h0) (ih (by omega) (h.high hb))
        · rw [if_neg h0]
          obtain ⟨ch, ht, he⟩ := seqLen_char h0
          have hne92 : ∀ x ∈ (c :: r).take (seqLen (c :: r)), x ≠ 92 := by
            rcases seqLen_cases c r with ⟨-, h1⟩ | ⟨-, h1, -⟩
            · rw [h1]
              intro x hx
              simp at hx
              rw [hx]; exact hb
            · intro x hx e
              have := h1 x hx
              rw [e] at this
              exact absurd this (by decide)
          have hbd : Body ((c :: r).drop (seqLen (c :: r))) := h.drop _ hne92
          have hlen : ((c :: r).drop (seqLen (c :: r))).length ≤ f := by
            rw [List.length_drop, List.length_cons]
            omega
          have hres := ih hlen hbd
          rw [ht]
          generalize hdr : (c :: r).drop (seqLen (c :: r)) = t at he hres hlen
          have hplain : 0x20 ≤ ch.toNat ∧ ch ≠ '"' ∧ ch ≠ '\\' := by
            by_cases hasc : c < 0x80
            · obtain ⟨-, hval⟩ := encodeChar_ascii hasc he
              have hcc : c ≠ 34 ∧ ¬ c < 32 := by
                generalize hs : c :: r = s at h
                cases h with
                | nil => cases hs
                | byte hq _ hc _ => cases hs; exact ⟨hq, hc⟩
                | escape _ _ => cases hs; exact absurd rfl hb
                | unicode _ _ => cases hs; exact absurd rfl hb
              refine ⟨?_, ?_, ?_⟩
              · have := hcc.2
                rw [UInt8.lt_iff_toNat_lt] at this
                rw [hval]
                have e : (32 : UInt8).toNat = 32 := rfl
                omega
              · rintro rfl
                apply hcc.1
                rw [← UInt8.toNat_inj, ← hval]
                rfl
              · rintro rfl
                apply hb
                rw [← UInt8.toNat_inj, ← hval]
                rfl
            · have hno : ∀ d : Char, d.toNat < 128 → ch ≠ d := by
                rintro d hd rfl
                have e1 := encodeRune_char ch
                unfold encodeRune at e1
                rw [if_pos hd] at e1
                rw [← e1] at he
                injection he with e2 _
                apply hasc
                rw [e2, UInt8.lt_iff_toNat_lt]
                show (UInt8.ofNat ch.toNat).toNat < 128
                rw [utf8_ofNat_toNat (by omega)]
                exact hd
              refine ⟨?_, hno _ (by decide), hno _ (by decide)⟩
              refine Classical.byContradiction fun hlt => ?_
              exact hno ch (by omega) rfl
          conv => arg 1; rw [he]
          exact .char ch hplain.1 hplain.2.1 hplain.2.2 hres

theorem Body.append_high {u r : Bytes} (hu : ∀ x ∈ u, (0x80 : UInt8) ≤ x) (h : Body r) : Body (u ++ r) := by
  induction u with
  | nil => exact h
  | cons x u ih =>
    have hx := hu x (by simp)
    refine .byte ?_ ?_ ?_ (ih fun y hy => hu y (by simp [hy]))
    · rintro rfl; exact absurd hx (by decide)
    · rintro rfl; exact absurd hx (by decide)
    · intro hlt
      rw [UInt8.lt_iff_toNat_lt] at hlt
      rw [UInt8.le_iff_toNat_le] at hx
      have e1 : (32 : UInt8).toNat = 32 := rfl
      have e2 : (0x80 : UInt8).toNat = 128 := rfl
      omega

/-- The bytes of a character that may stand in a string. -/
theorem encodeChar_body {c : Char} (hc : 0x20 ≤ c.toNat) (hq : c ≠ '"') (hb : c ≠ '\\') {r : Bytes} (h : Body r) :
    Body (String.utf8EncodeChar c ++ r) := by
  cases he : String.utf8EncodeChar c with
  | nil => exact absurd he (encodeChar_ne_nil c)
  | cons x u =>
    rcases seqLen_cases x u with ⟨hx, -⟩ | ⟨-, hx, -⟩
    · obtain ⟨e1, e2⟩ := encodeChar_ascii (c := c) (x := x) (r := u) (t := []) hx (by rw [he]; simp)
      rw [he] at e1
      cases e1
      refine .byte ?_ ?_ ?_ h
      · rintro rfl
        apply hq
        apply Char.toNat_inj.1
        rw [e2]; rfl
      · rintro rfl
        apply hb
        apply Char.toNat_inj.1
        rw [e2]; rfl
      · rw [UInt8.lt_iff_toNat_lt, ← e2]
        have : (32 : UInt8).toNat = 32 := rfl
        omega
    · have hl : seqLen (x :: u) = (x :: u).length := by
        rw [← he]
        have := seqLen_encodeChar c []
        rwa [List.append_nil] at this
      rw [hl, List.take_length] at hx
      exact Body.append_high hx h

/-- What the grammar allows in a string, the scanner takes. -/
theorem JsonString.body {raw s : Bytes} (h : JsonString raw s) : Body raw := by
  induction h with
  | nil => exact .nil
  | char c hc hq hb _ ih => exact encodeChar_body hc hq hb ih
  | escape h _ ih =>
    obtain ⟨x, rfl, hx⟩ := escape_shape h
    exact .escape (by rw [hx]; rfl) ih
  | unicode c hh _ ih => exact .unicode hh ih
  | pair c hh hh' hn hn' hc _ ih =>
    have := Body.unicode hh (Body.unicode hh' ih)
    simpa only [List.append_assoc] using this
  | lone hh hn hl _ ih => exact .unicode hh ih
  | @invalid r s x hx _ ih =>
    have hhigh : (0x80 : UInt8) ≤ x := by
      refine Classical.byContradiction fun hlt => ?_
      have hlt : x < 0x80 := by simpa using hlt
      have : seqLen (x :: r) = 0 := seqLen_zero_iff.2 hx
      rw [seqLen_ascii hlt] at this
      cases this
    exact Body.append_high (u := [x]) (by simpa using hhigh) ih

/-- The meaning of a string is unique. -/
theorem unquote_of_string {raw s : Bytes} (h : JsonString raw s) (f : Nat) (hf : raw.length ≤ f) :
    unquoteAux f raw = s := by
  induction h generalizing f with
  | nil => cases f <;> rfl
  | @char r s c hc hq hb _ ih =>
    cases he : String.utf8EncodeChar c with
    | nil => exact absurd he (encodeChar_ne_nil c)
    | cons x u =>
      rw [he] at hf
      rw [List.cons_append, List.length_cons, List.length_append] at hf
      obtain ⟨f, rfl⟩ : ∃ g, f = g + 1 := ⟨f - 1, by omega⟩
      have hx92 : x ≠ 92 := by
        rintro rfl
        obtain ⟨-, e2⟩ := encodeChar_ascii (c := c) (x := 92) (r := u) (t := []) (by decide) (by rw [he]; simp)
        apply hb
        apply Char.toNat_inj.1
        rw [e2]; rfl
      have hl : seqLen (x :: (u ++ r)) = (x :: u).length := by
        have := seqLen_encodeChar c r
        rw [he] at this
        exact this
      rw [List.cons_append, unquoteAux.eq_def]
      dsimp only
      rw [if_neg hx92, hl, if_neg (by simp)]
      rw [← List.cons_append, List.take_left' rfl, List.drop_left' rfl, ih f (by omega)]
  | @escape r s e y h _ ih =>
    obtain ⟨x, rfl, hx⟩ := escape_shape h
    simp only [List.cons_append, List.nil_append, List.length_cons] at hf ⊢
    obtain ⟨f, rfl⟩ : ∃ g, f = g + 1 := ⟨f - 1, by omega⟩
    have hu : x ≠ 117 := by rintro rfl; simp [escapeVal] at hx
    have hg : getu4 (92 :: x :: r) = none := by
      unfold getu4
      split
      · next h => cases h; exact absurd rfl hu
      · rfl
    rw [unquoteAux, if_pos rfl, hg]
    simp only [hx]
    rw [ih f (by omega)]
  | @unicode r s h c hh _ ih =>
    have hg : getu4 (b! "\\u" ++ h ++ r) = some (c.toNat, r) := getu4_iff.2 ⟨h, rfl, hh⟩
    simp only [List.cons_append, List.nil_append, List.length_cons, List.length_append] at hf hg ⊢
    obtain ⟨f, rfl⟩ : ∃ g, f = g + 1 := ⟨f - 1, by omega⟩
    rw [unquoteAux, if_pos rfl, hg]
    have hv : c.toNat < 0xd800 ∨ (0xdfff < c.toNat ∧ c.toNat < 0x110000) := c.valid
    dsimp only
    rw [if_neg (by omega), encodeRune_char, ih f (by omega)]
  | @pair r s h h' n n' c hh hh' hn hn' hc _ ih =>
    have hg : getu4 (b! "\\u" ++ h ++ (b! "\\u" ++ h' ++ r)) = some (n, b! "\\u" ++ h' ++ r) :=
      getu4_iff.2 ⟨h, rfl, hh⟩
    have hg' : getu4 (b! "\\u" ++ h' ++ r) = some (n', r) := getu4_iff.2 ⟨h', rfl, hh'⟩
    simp only [List.append_assoc, List.cons_append, List.nil_append, List.length_cons, List.length_append]
      at hf hg hg' ⊢
    obtain ⟨f, rfl⟩ : ∃ g, f = g + 1 := ⟨f - 1, by omega⟩
    rw [unquoteAux, if_pos rfl, hg]
    dsimp only
    rw [if_pos (by omega), hg']
    dsimp only
    rw [if_pos (by omega), ih f (by omega),
      show 0x10000 + (n - 0xD800) * 0x400 + (n' - 0xDC00) = c.toNat by omega, encodeRune_char]
  | @lone r s h n hh hn hl _ ih =>
    have hg : getu4 (b! "\\u" ++ h ++ r) = some (n, r) := getu4_iff.2 ⟨h, rfl, hh⟩
    simp only [List.cons_append, List.nil_append, List.length_cons, List.length_append] at hf hg ⊢
    obtain ⟨f, rfl⟩ : ∃ g, f = g + 1 := ⟨f - 1, by omega⟩
    rw [unquoteAux, if_pos rfl, hg]
    dsimp only
    rw [if_pos (by omega)]
    cases hg2 : getu4 r with
    | none =>
      dsimp only
      rw [replacement_eq, ih f (by omega)]
    | some p =>
      obtain ⟨m, r'⟩ := p
      dsimp only
      obtain ⟨h2, e2, hh2⟩ := getu4_iff.1 hg2
      have hnp : ¬ (n < 0xDC00 ∧ 0xDC00 ≤ m ∧ m < 0xE000) := fun hp => hl hp.1 ⟨h2, m, r', e2, hh2, hp.2⟩
      rw [if_neg hnp, replacement_eq, ih f (by omega)]
  | @invalid r s x hx hs ih =>
    rw [List.length_cons] at hf
    obtain ⟨f, rfl⟩ : ∃ g, f = g + 1 := ⟨f - 1, by omega⟩
    have h0 := seqLen_zero_iff.2 hx
    have hx92 : x ≠ 92 := by
      rintro rfl
      rw [seqLen_ascii (by decide)] at h0
      cases h0
    rw [unquoteAux.eq_def]
    dsimp only
    rw [if_neg hx92, if_pos h0, replacement_eq, ih f (by omega)]

/-- The scanner and the decoder read exactly the strings of the grammar. -/
theorem scan_iff {s raw rest : Bytes} :
    scanString .plain s = some (raw, rest) ↔ s = raw ++ 34 :: rest ∧ JsonString raw (unquote raw) := by
  constructor
  · intro h
    obtain ⟨h1, h2⟩ := body_of_scan s.length (Nat.le_refl _) h
    exact ⟨h1, unquoteAux_string _ (Nat.le_refl _) h2⟩
  · rintro ⟨rfl, h⟩
    exact scan_body (JsonString.body h) rest

theorem unquote_eq {raw s : Bytes} (h : JsonString raw s) : unquote raw = s :=
  unquote_of_string h _ (Nat.le_refl _)

end Verif.Json
