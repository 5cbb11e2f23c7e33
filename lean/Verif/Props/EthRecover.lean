import Verif.Props.EcdsaText
import Verif.Model.EthRecover

/-!
# C90: an ethereum signature is accepted exactly if the holder of the key can have made it
-/

namespace Verif

open WeierstrassCurve.Affine

attribute [local irreducible] PointIs

/-- `r`, `s` is a signature of `e` under the point `q`, with the point `R` of that first coordinate (plus the order, if
`big`) and parity. -/
def RecoverableSig (q : secp.Point) (e r s : Nat) (big : Bool) (parity : Nat) : Prop :=
  (0 < r ∧ r < curveN) ∧ (0 < s ∧ s < curveN) ∧
    ∃ (R : CurveKey) (h : ValidKey R), R.x = (if big then r + curveN else r) ∧ R.y % 2 = parity ∧
      s • keyPoint h = e • pointG + r • q

/-- It is a signature. -/
theorem RecoverableSig.signature {q : secp.Point} {e r s : Nat} {big : Bool} {parity : Nat}
    (h : RecoverableSig q e r s big parity) : SignatureOf q e r s := by
  obtain ⟨h1, h2, R, hR, hx, _, h3⟩ := h
  refine ⟨h1, h2, _, _, secp_nonsingular hR.curve, h3, ?_⟩
  rw [ZMod.val_cast_of_lt hR.x_lt, hx]
  cases big
  · simp [Nat.mod_eq_of_lt h1.2]
  · simp [Nat.mod_eq_of_lt h1.2]

/-- The recovered point. -/
theorem recoverFrom_iff {e r s : Nat} {R : CurveKey} (hR : ValidKey R) (hr : 0 < r ∧ r < curveN)
    {q : CurveKey} : recoverFrom e r s R = some q ↔
    ∃ h : ValidKey q, s • keyPoint hR = e • pointG + r • keyPoint h := by
  have hw : r * orderInv r % curveN = 1 := orderInv_mul (by rw [Nat.mod_eq_of_lt hr.2]; omega)
  have hone : ∀ a : secp.Point, (r * orderInv r) • a = a := by
    intro a
    rw [nsmul_congr (n := 1) (by rw [hw, Nat.mod_eq_of_lt curveN_prime.one_lt]), one_nsmul]
  have hneg : ∀ a : secp.Point, (curveN - e % curveN) • a = -(e • a) := by
    intro a
    have hlt : e % curveN < curveN := Nat.mod_lt _ curveN_prime.pos
    have : (curveN - e % curveN) • a + e • a = 0 := by
      rw [← mod_order_nsmul e, ← add_nsmul, Nat.sub_add_cancel hlt.le, order_nsmul]
    exact eq_neg_of_add_eq_zero_left this
  have hp := sum_is hR ((curveN - e % curveN) * orderInv r % curveN) (s * orderInv r % curveN)
  have hsum : ((curveN - e % curveN) * orderInv r % curveN) • pointG + (s * orderInv r % curveN) • keyPoint hR =
      orderInv r • (s • keyPoint hR - e • pointG) := by
    rw [mod_order_nsmul, mod_order_nsmul, mul_nsmul, mul_nsmul, hneg, ← nsmul_add, neg_add_eq_sub]
  rw [hsum] at hp
  have hsolve : ∀ Q : secp.Point, orderInv r • (s • keyPoint hR - e • pointG) = Q ↔
      s • keyPoint hR = e • pointG + r • Q := by
    intro Q
    constructor
    · intro h
      rw [← h, ← mul_nsmul, mul_comm, hone]
      abel
    · intro h
      rw [h, add_sub_cancel_left, ← mul_nsmul, hone]
  unfold recoverFrom
  dsimp only
  constructor
  · intro h
    rw [h] at hp
    obtain ⟨hv, e⟩ := pointIs_some hp
    exact ⟨hv, (hsolve _).1 e⟩
  · rintro ⟨hv, h⟩
    rw [(hsolve _).2 h] at hp
    exact hp.unique (keyPoint_is hv)

/-- **C90.** Exactly the keys under which the bytes are a signature, with the point the recovery id says, are
recovered. -/
theorem C90_recover_iff (e : Nat) (sig : Bytes) (q : CurveKey) : recoverKey e sig = some q ↔
    ∃ (rb sb : Bytes) (v : UInt8) (h : ValidKey q), rb.length = 32 ∧ sb.length = 32 ∧ sig = rb ++ (sb ++ [v]) ∧
      v.toNat < 4 ∧ RecoverableSig (keyPoint h) e (beNat rb) (beNat sb) (2 ≤ v.toNat) (v.toNat % 2) := by
  constructor
  · intro h
    unfold recoverKey at h
    split at h
    · simp at h
    next hl =>
    have hl : sig.length = 65 := not_not.1 hl
    obtain ⟨rb, sb, v, h1, h2, rfl⟩ : ∃ (rb sb : Bytes) (v : UInt8), rb.length = 32 ∧ sb.length = 32 ∧
        sig = rb ++ (sb ++ [v]) := by
      have hd : (sig.drop 64).length = 1 := by rw [List.length_drop]; omega
      obtain ⟨v, hv⟩ := List.length_eq_one_iff.1 hd
      refine ⟨sig.take 32, (sig.drop 32).take 32, v, by rw [List.length_take]; omega,
        by rw [List.length_take, List.length_drop]; omega, ?_⟩
      rw [← hv, show sig.drop 64 = (sig.drop 32).drop 32 by rw [List.drop_drop], List.take_append_drop,
        List.take_append_drop]
    have t1 : (rb ++ (sb ++ [v])).take 32 = rb := by rw [← h1, List.take_left' rfl]
    have t2 : ((rb ++ (sb ++ [v])).drop 32).take 32 = sb := by
      rw [← h1, List.drop_left' rfl, h1, ← h2, List.take_left' rfl]
    have t3 : (rb ++ (sb ++ [v]))[64]? = some v := by
      rw [List.getElem?_append_right (by omega), List.getElem?_append_right (by omega), h1, h2]; rfl
    rw [t1, t2, t3] at h
    dsimp only at h
    split at h
    · simp at h
    next hv =>
    split at h
    · simp at h
    next hr =>
    generalize hx : (if 2 ≤ v.toNat then beNat rb + curveN else beNat rb) = x at h
    split at h
    · simp at h
    next hxl =>
    split at h
    · simp at h
    · next y hy =>
      obtain ⟨y1, y2, y3⟩ := (decompressY_iff _ _ _).1 hy
      have hR : ValidKey ⟨x, y⟩ := ⟨Nat.not_le.1 hxl, y1, y3⟩
      obtain ⟨hq, heq⟩ := (recoverFrom_iff hR ⟨by omega, by omega⟩).1 h
      refine ⟨rb, sb, v, hq, h1, h2, rfl, by omega, ⟨by omega, by omega⟩, ⟨by omega, by omega⟩, ⟨x, y⟩, hR, ?_, y2, heq⟩
      simp only [decide_eq_true_eq]
      exact hx.symm
  · rintro ⟨rb, sb, v, hq, h1, h2, rfl, hv, hr, hs, R, hR, hx, hy, heq⟩
    have t1 : (rb ++ (sb ++ [v])).take 32 = rb := by rw [← h1, List.take_left' rfl]
    have t2 : ((rb ++ (sb ++ [v])).drop 32).take 32 = sb := by
      rw [← h1, List.drop_left' rfl, h1, ← h2, List.take_left' rfl]
    have t3 : (rb ++ (sb ++ [v]))[64]? = some v := by
      rw [List.getElem?_append_right (by omega), List.getElem?_append_right (by omega), h1, h2]; rfl
    simp only [decide_eq_true_eq] at hx
    unfold recoverKey
    rw [t1, t2, t3, if_neg (by simp; omega)]
    dsimp only
    rw [if_neg (by omega), if_neg (by omega), ← hx, if_neg (by have := hR.x_lt; omega),
      (decompressY_iff _ _ _).2 ⟨hR.y_lt, hy, hR.curve⟩]
    exact (recoverFrom_iff hR hr).2 ⟨hq, heq⟩

/-- **C90.** `VerifyEthereumSignatureETH` accepts exactly the texts of 65 bytes, the last of them 27 or 28, that are a
signature of the message under some key with the same address as the key text. -/
theorem C90_accepts_iff {P : Prims} (hP : EthPrims P) (message signature pubKey : Bytes) :
    verifyEth P message signature pubKey = .ok true ↔
    ∃ c1 c2 key kb x t rb sb v q, ∃ hq : ValidKey q, pubKey = c1 :: c2 :: key ∧ hexDecode key = some kb ∧
      signature = 48 :: x :: t ∧ (x = 120 ∨ x = 88) ∧ rb.length = 32 ∧ sb.length = 32 ∧
      hexDecode t = some (rb ++ (sb ++ [v])) ∧ (v = 27 ∨ v = 28) ∧
      RecoverableSig (keyPoint hq) (hashToInt (P.keccak (ethMessage message))) (beNat rb) (beNat sb) false
        (v.toNat - 27) ∧
      (P.keccak kb).drop 12 = (P.keccak (natBE 32 q.x ++ natBE 32 q.y)).drop 12 := by
  have hadr : ∀ q, ∃ a, keyAddress P q = .ok a := by
    intro q
    obtain ⟨r, h, _⟩ := C44_case_only P hP.hash ((P.keccak (natBE 32 q.x ++ natBE 32 q.y)).drop 12)
      (by rw [List.length_drop, hP.hash]; omega)
    exact ⟨_, h⟩
  rw [(C61_ethereum_signature P message signature pubKey).1]
  constructor
  · rintro ⟨c1, c2, key, kb, x, t, full, v, addr, h1, h2, h3, h4, h5, h6, h7, h8, h9, h10⟩
    rw [hP.recover, ethRecoverText] at h10
    split at h10
    · simp at h10
    next q hq =>
    obtain ⟨a, ha⟩ := hadr q
    rw [ha] at h10
    dsimp only at h10
    have h10 := Option.some.inj h10
    subst h10
    obtain ⟨rb, sb, w, hv, l1, l2, hset, hw, hsig⟩ := (C90_recover_iff _ _ _).1 hq
    have hlen : full.length = 65 := by
      have := congrArg List.length hset
      rw [List.length_set] at this
      simp at this; omega
    -- the bytes without the changed one
    have hfull : full = rb ++ (sb ++ [v]) := by
      have e1 : full = (full.set 64 (v - 27)).set 64 v := by
        rw [List.set_set]
        apply List.ext_getElem?
        intro i
        rw [List.getElem?_set]
        split
        · next hi =>
          subst hi
          rw [if_pos (by omega)]
          exact h8
        · rfl
      rw [e1, hset, List.set_append_right _ _ (by omega), List.set_append_right _ _ (by omega), l1, l2]
      rfl
    have hwv : w = v - 27 := by
      have : (full.set 64 (v - 27))[64]? = some (v - 27) := by
        rw [List.getElem?_set_self (by omega)]
      rw [hset, List.getElem?_append_right (by omega), List.getElem?_append_right (by omega), l1, l2] at this
      simpa using this
    refine ⟨c1, c2, key, kb, x, t, rb, sb, v, q, hv, h1, h2, h5, h6, l1, l2, by rw [h7, hfull], h9, ?_, ?_⟩
    · rw [hwv] at hsig
      rcases h9 with rfl | rfl
      · exact hsig
      · exact hsig
    · rw [← C44_injective P hP.hash _ _ (by rw [List.length_drop, hP.hash]; omega)
        (by rw [List.length_drop, hP.hash]; omega), h4]
      exact ha.symm
  · rintro ⟨c1, c2, key, kb, x, t, rb, sb, v, q, hv, h1, h2, h5, h6, l1, l2, h7, h9, hsig, hadd⟩
    obtain ⟨a, ha⟩ := hadr q
    refine ⟨c1, c2, key, kb, x, t, rb ++ (sb ++ [v]), v, a, h1, h2, by rw [hP.hash]; omega, ?_, h5, h6, h7, ?_, h9, ?_⟩
    · rw [hadd]; exact ha
    · rw [List.getElem?_append_right (by omega), List.getElem?_append_right (by omega), l1, l2]; rfl
    · have hset : (rb ++ (sb ++ [v])).set 64 (v - 27) = rb ++ (sb ++ [v - 27]) := by
        rw [List.set_append_right _ _ (by omega), List.set_append_right _ _ (by omega), l1, l2]; rfl
      have : recoverKey (hashToInt (P.keccak (ethMessage message))) (rb ++ (sb ++ [v - 27])) = some q := by
        rw [C90_recover_iff]
        refine ⟨rb, sb, v - 27, hv, l1, l2, rfl, ?_, ?_⟩
        · rcases h9 with rfl | rfl <;> decide
        · rcases h9 with rfl | rfl
          · exact hsig
          · exact hsig
      rw [hset, hP.recover, ethRecoverText, this]
      dsimp only
      rw [ha]

/-- The coordinates of a point, as numbers. -/
theorem point_key {x y : ZMod fieldP} (h : secp.Nonsingular x y) :
    ∃ hv : ValidKey ⟨x.val, y.val⟩, keyPoint hv = Point.some x y h := by
  have hx : ((x.val : Nat) : ZMod fieldP) = x := ZMod.natCast_zmod_val x
  have hy : ((y.val : Nat) : ZMod fieldP) = y := ZMod.natCast_zmod_val y
  refine ⟨⟨ZMod.val_lt x, ZMod.val_lt y, ?_⟩, ?_⟩
  · rw [← secp_equation, hx, hy]; exact h.1
  · unfold keyPoint
    simp only [hx, hy]

/-- **C90.** A signature is one for some recovery id, and then for no other. -/
theorem C90_one_id (q : secp.Point) (e r s : Nat) :
    (SignatureOf q e r s ↔ ∃ big parity, RecoverableSig q e r s big parity) ∧
    ∀ big parity big' parity', RecoverableSig q e r s big parity → RecoverableSig q e r s big' parity' →
      big = big' ∧ parity = parity' := by
  refine ⟨⟨?_, fun ⟨b, p, h⟩ => h.signature⟩, ?_⟩
  · rintro ⟨h1, h2, x, y, hn, h3, h4⟩
    obtain ⟨hv, hk⟩ := point_key hn
    have hx : x.val < fieldP := ZMod.val_lt x
    have hp2 : fieldP < curveN + curveN := by decide +kernel
    by_cases hb : curveN ≤ x.val
    · refine ⟨true, _, h1, h2, ⟨x.val, y.val⟩, hv, ?_, rfl, by rw [hk]; exact h3⟩
      rw [Nat.mod_eq_sub_mod hb, Nat.mod_eq_of_lt (by omega)] at h4
      simp only [if_true]; omega
    · refine ⟨false, _, h1, h2, ⟨x.val, y.val⟩, hv, ?_, rfl, by rw [hk]; exact h3⟩
      rw [Nat.mod_eq_of_lt (by omega)] at h4
      exact h4
  · rintro b p b' p' ⟨h1, h2, R, hR, hx, hy, h3⟩ ⟨_, _, R', hR', hx', hy', h3'⟩
    have hw : s * orderInv s % curveN = 1 := orderInv_mul (by rw [Nat.mod_eq_of_lt h2.2]; omega)
    have hone : ∀ a : secp.Point, orderInv s • (s • a) = a := by
      intro a
      rw [← mul_nsmul, nsmul_congr (n := 1) (by rw [hw, Nat.mod_eq_of_lt curveN_prime.one_lt]), one_nsmul]
    have hpt : keyPoint hR = keyPoint hR' := by
      rw [← hone (keyPoint hR), ← hone (keyPoint hR'), h3, h3']
    have hk : some R = some R' := (keyPoint_is hR).unique (by rw [hpt]; exact keyPoint_is hR')
    have hk := Option.some.inj hk
    subst hk
    refine ⟨?_, hy.symm.trans hy'⟩
    have hN := curveN_prime.pos
    have := hx.symm.trans hx'
    cases b <;> cases b' <;> simp at this ⊢ <;> omega

/-- The second coordinate is not zero. -/
theorem ValidKey.y_pos {R : CurveKey} (hR : ValidKey R) : 0 < R.y := by
  rcases Nat.eq_zero_or_pos R.y with h0 | h0
  · have h := hR.curve
    rw [h0] at h
    exact absurd (by rw [← h]; simp) (no_cube (R.x : ZMod fieldP))
  · exact h0

/-- The opposite point. -/
theorem ValidKey.opposite {R : CurveKey} (hR : ValidKey R) :
    ∃ h : ValidKey ⟨R.x, fieldP - R.y⟩, keyPoint h = -keyPoint hR := by
  have hc : ((fieldP - R.y : Nat) : ZMod fieldP) = -(R.y : ZMod fieldP) := cast_fieldP_sub hR.y_lt
  refine ⟨⟨hR.x_lt, ?_, ?_⟩, ?_⟩
  · have := hR.y_pos
    have := fieldP_prime.pos
    show fieldP - R.y < fieldP
    omega
  · show ((fieldP - R.y : Nat) : ZMod fieldP) ^ 2 = _
    rw [hc, neg_sq]; exact hR.curve
  · unfold keyPoint
    rw [Point.neg_some]
    simp only [hc]
    congr 1
    simp [negY, secp]

/-- **C90.** With the other second number, the other parity. -/
theorem C90_malleable {q : secp.Point} {e r s : Nat} {big : Bool} {parity : Nat}
    (h : RecoverableSig q e r s big parity) :
    RecoverableSig q e r (curveN - s) big (1 - parity) ∧ curveN - s ≠ s := by
  obtain ⟨h1, h2, R, hR, hx, hy, h3⟩ := h
  obtain ⟨hR', hneg⟩ := hR.opposite
  refine ⟨⟨h1, by omega, ⟨R.x, fieldP - R.y⟩, hR', hx, ?_, ?_⟩, ?_⟩
  · have := fieldP_odd
    have := hR.y_lt
    have := hR.y_pos
    show (fieldP - R.y) % 2 = _
    omega
  · rw [hneg, neg_nsmul, ← h3]
    have hz : s • keyPoint hR + (curveN - s) • keyPoint hR = 0 := by
      rw [← add_nsmul, show s + (curveN - s) = curveN by omega, order_nsmul]
    exact (eq_neg_of_add_eq_zero_left hz).symm
  · have : curveN % 2 = 1 := by decide +kernel
    omega

/-- The text of a signature with this recovery id. -/
def ethSigText (r s id : Nat) : Bytes := b! "0x" ++ hexEncode (natBE 32 r ++ (natBE 32 s ++ [27 + UInt8.ofNat id]))

/-- The text of a key. -/
def ethKeyText (q : CurveKey) : Bytes := b! "0x" ++ hexEncode (natBE 32 q.x ++ natBE 32 q.y)

theorem ethSigText_decode {r s : Nat} (hr : r < curveN) (hs : s < curveN) (p : Nat) :
    ∃ t rb sb, ethSigText r s p = 48 :: 120 :: t ∧ rb.length = 32 ∧ sb.length = 32 ∧
      hexDecode t = some (rb ++ (sb ++ [27 + UInt8.ofNat p])) ∧ beNat rb = r ∧ beNat sb = s := by
  have hN : curveN < 256 ^ 32 := by decide +kernel
  have l1 := natBE_length 32 r
  have l2 := natBE_length 32 s
  have v1 := beNat_natBE 32 r (hr.trans hN)
  have v2 := beNat_natBE 32 s (hs.trans hN)
  unfold ethSigText
  generalize natBE 32 r = rb at *
  generalize natBE 32 s = sb at *
  generalize hexEncode_def : hexEncode (rb ++ (sb ++ [27 + UInt8.ofNat p])) = t
  exact ⟨t, rb, sb, rfl, l1, l2, by rw [← hexEncode_def, hexDecode_hexEncode], v1, v2⟩

theorem ethKeyText_decode (q : CurveKey) : ∃ t, ethKeyText q = 48 :: 120 :: t ∧
    hexDecode t = some (natBE 32 q.x ++ natBE 32 q.y) := by
  unfold ethKeyText
  generalize natBE 32 q.x ++ natBE 32 q.y = b
  generalize h : hexEncode b = t
  exact ⟨t, rfl, by rw [← h, hexDecode_hexEncode]⟩

/-- **C90.** What the holder of a key can have made, with the first coordinate below the order, is accepted under
the text of the key. -/
theorem C90_accepted {P : Prims} (hP : EthPrims P) {q : CurveKey} (hq : ValidKey q) (message : Bytes) {r s p : Nat}
    (h : RecoverableSig (keyPoint hq) (hashToInt (P.keccak (ethMessage message))) r s false p) :
    verifyEth P message (ethSigText r s p) (ethKeyText q) = .ok true := by
  obtain ⟨t, rb, sb, e1, l1, l2, e2, e3, e4⟩ := ethSigText_decode h.1.2 h.2.1.2 p
  obtain ⟨kt, k1, k2⟩ := ethKeyText_decode q
  rw [C90_accepts_iff hP]
  refine ⟨48, 120, kt, _, 120, t, rb, sb, 27 + UInt8.ofNat p, q, hq, k1, k2, e1, Or.inl rfl, l1, l2,
    e2, ?_, ?_, rfl⟩
  · obtain ⟨_, _, R, _, _, hy, _⟩ := h
    have : p = 0 ∨ p = 1 := by omega
    rcases this with rfl | rfl <;> simp
  · rw [e3, e4]
    have : p = 0 ∨ p = 1 := by
      obtain ⟨_, _, R, _, _, hy, _⟩ := h
      omega
    rcases this with rfl | rfl
    · exact h
    · exact h

/-- What is accepted under the text of a key was made with a key that has the same address. -/
theorem accepted_key {P : Prims} (hP : EthPrims P) {q : CurveKey} (message : Bytes) {r s p : Nat} (hr : r < curveN)
    (hs : s < curveN) (hp : p < 2) (h : verifyEth P message (ethSigText r s p) (ethKeyText q) = .ok true) :
    ∃ q', ∃ hq' : ValidKey q',
      RecoverableSig (keyPoint hq') (hashToInt (P.keccak (ethMessage message))) r s false p ∧
      (P.keccak (natBE 32 q.x ++ natBE 32 q.y)).drop 12 = (P.keccak (natBE 32 q'.x ++ natBE 32 q'.y)).drop 12 := by
  rw [C90_accepts_iff hP] at h
  obtain ⟨c1, c2, key, kb, x, t, rb, sb, v, q', hq', f1, f2, f3, _, l1, l2, f4, f5, f6, f7⟩ := h
  obtain ⟨t', rb', sb', e1, m1, m2, e2, e3, e4⟩ := ethSigText_decode hr hs p
  have ht : t = t' := by
    rw [e1] at f3
    simp only [List.cons.injEq] at f3
    exact f3.2.2.symm
  subst ht
  rw [e2] at f4
  have f4 := Option.some.inj f4
  obtain ⟨g1, f4⟩ := List.append_inj f4 (by omega)
  obtain ⟨g2, f4⟩ := List.append_inj f4 (by omega)
  subst g1 g2
  have hvp : v = 27 + UInt8.ofNat p := by simpa using f4.symm
  have hkb : kb = natBE 32 q.x ++ natBE 32 q.y := by
    obtain ⟨kt, k1, k2⟩ := ethKeyText_decode q
    rw [k1] at f1
    have : kt = key := (List.cons.inj (List.cons.inj f1).2).2
    rw [this, f2] at k2
    exact Option.some.inj k2
  refine ⟨q', hq', ?_, by rw [← hkb]; exact f7⟩
  rw [e3, e4, hvp] at f6
  have : p = 0 ∨ p = 1 := by omega
  rcases this with rfl | rfl
  · exact f6
  · exact f6

/-- **C90.** What is signed with a private key, with a nonce whose point has a first coordinate below the order, is
accepted under the text of its public key with one of the two last bytes, and with the other only if a second key
has the same address. The other second number is accepted with the other last byte. -/
theorem C90_signed_partial {P : Prims} (hP : EthPrims P) {k d r s : Nat} (message : Bytes) (hk : k % curveN ≠ 0) (hd : d % curveN ≠ 0) (hx : (publicOf k).x < curveN)
    (h : ecdsaSign k d (hashToInt (P.keccak (ethMessage message))) = some (r, s)) :
    ∃ p < 2, verifyEth P message (ethSigText r s p) (ethKeyText (publicOf d)) = .ok true ∧
      verifyEth P message (ethSigText r (curveN - s) (1 - p)) (ethKeyText (publicOf d)) = .ok true ∧
      (verifyEth P message (ethSigText r s (1 - p)) (ethKeyText (publicOf d)) = .ok true →
        ∃ q, ValidKey q ∧ q ≠ publicOf d ∧ (P.keccak (natBE 32 (publicOf d).x ++ natBE 32 (publicOf d).y)).drop 12 =
          (P.keccak (natBE 32 q.x ++ natBE 32 q.y)).drop 12) := by
  obtain ⟨hq, hpt⟩ := (C89_public d).1 hd
  obtain ⟨hv, _⟩ := (C89_public k).1 hk
  obtain ⟨h1, h2, _, h4, y, hn, h5⟩ := signed_point hk h
  obtain ⟨hR, hkp⟩ := point_key hn
  have hval : ((publicOf k).x : ZMod fieldP).val = (publicOf k).x := ZMod.val_cast_of_lt hv.x_lt
  have hrec : RecoverableSig (keyPoint hq) (hashToInt (P.keccak (ethMessage message))) r s false (y.val % 2) := by
    refine ⟨h1, h2, _, hR, ?_, rfl, ?_⟩
    · show ((publicOf k).x : ZMod fieldP).val = _
      rw [hval, h4, Nat.mod_eq_of_lt hx]; rfl
    · rw [hkp, hpt]; exact h5
  refine ⟨y.val % 2, Nat.mod_lt _ (by omega), C90_accepted hP hq message hrec,
    C90_accepted hP hq message (C90_malleable hrec).1, ?_⟩
  intro hacc
  obtain ⟨q', hq', f6, f7⟩ := accepted_key hP message h1.2 h2.2 (by omega) hacc
  refine ⟨q', hq', ?_, f7⟩
  intro hqq
  subst hqq
  have := ((C90_one_id _ _ _ _).2 _ _ _ _ hrec f6).2
  omega

/-- A point whose first coordinate is not below the order. -/
def bigPoint : CurveKey :=
  ⟨curveN + 2, 0xc94e559d14883e68cfda34341568bf1127153254788dd974c6af9bb9cd962a5c⟩

theorem bigPoint_valid : ValidKey bigPoint :=
  ⟨by decide +kernel, by decide +kernel, (curve_mod_iff _ _).1 (by decide +kernel)⟩

/-- **C90 is false** without the condition on the nonce: with one nonce, every key and nearly every message give a
signature that its public key accepts but that neither last byte makes acceptable, unless a second key has the
same address. -/
theorem C90_nonce_counterexample : ∃ k, k % curveN ≠ 0 ∧ ∀ (P : Prims), EthPrims P → ∀ (d : Nat) (message : Bytes),
    d % curveN ≠ 0 → (d * 2 + hashToInt (P.keccak (ethMessage message))) % curveN ≠ 0 →
    ∃ s, ecdsaSign k d (hashToInt (P.keccak (ethMessage message))) = some (2, s) ∧
      ecdsaVerify (publicOf d) (hashToInt (P.keccak (ethMessage message))) 2 s = true ∧
      ∀ p < 2, verifyEth P message (ethSigText 2 s p) (ethKeyText (publicOf d)) = .ok true →
        ∃ q, ValidKey q ∧ q ≠ publicOf d ∧ (P.keccak (natBE 32 (publicOf d).x ++ natBE 32 (publicOf d).y)).drop 12 =
          (P.keccak (natBE 32 q.x ++ natBE 32 q.y)).drop 12 := by
  obtain ⟨k, ⟨_, hpub⟩, _⟩ := C89_private_exists bigPoint_valid
  have hk : k % curveN ≠ 0 := by
    intro h0
    apply ((C89_public k).2 h0).2
    rw [hpub]
    exact bigPoint_valid
  refine ⟨k, hk, ?_⟩
  intro P hP d message hd
  generalize he : hashToInt (P.keccak (ethMessage message)) = e
  intro hne
  have hr2 : (publicOf k).x % curveN = 2 := by rw [hpub]; decide +kernel
  have hs0 : (d * 2 + e) * orderInv k % curveN ≠ 0 := by
    intro h0
    have h1 : k * ((d * 2 + e) * orderInv k) % curveN = 0 := by rw [Nat.mul_mod, h0, mul_zero, Nat.zero_mod]
    rw [show k * ((d * 2 + e) * orderInv k) = (d * 2 + e) * (k * orderInv k) by ring, Nat.mul_mod, orderInv_mul hk,
      mul_one, Nat.mod_mod] at h1
    exact hne h1
  have hsl : (d * 2 + e) * orderInv k % curveN < curveN := Nat.mod_lt _ curveN_prime.pos
  obtain ⟨s, hs⟩ : ∃ s, ecdsaSign k d e = some (2, s) := by
    unfold ecdsaSign
    dsimp only
    rw [hr2, if_neg (by omega)]
    generalize (d * 2 + e) * orderInv k % curveN = s0 at hs0 hsl
    by_cases hh : curveN / 2 < s0
    · rw [if_pos hh, if_neg (by omega)]; exact ⟨_, rfl⟩
    · rw [if_neg hh, if_neg hs0]; exact ⟨_, rfl⟩
  obtain ⟨hq, hpt⟩ := (C89_public d).1 hd
  obtain ⟨h1, h2, _, h4, y, hn, h5⟩ := signed_point hk hs
  obtain ⟨hR, hkp⟩ := point_key hn
  have hxv : ((publicOf k).x : ZMod fieldP).val = curveN + 2 := by
    rw [hpub]; exact ZMod.val_cast_of_lt bigPoint_valid.x_lt
  have hrec : RecoverableSig (keyPoint hq) e 2 s true (y.val % 2) := by
    refine ⟨h1, h2, _, hR, ?_, rfl, ?_⟩
    · show ((publicOf k).x : ZMod fieldP).val = _
      rw [hxv, if_pos rfl, add_comm]
    · rw [hkp, hpt]; exact h5
  refine ⟨s, hs, (C89_verify_iff hq _ _ _).2 hrec.signature, ?_⟩
  intro p hp hacc
  obtain ⟨q', hq', f6, f7⟩ := accepted_key hP message h1.2 h2.2 hp hacc
  refine ⟨q', hq', ?_, f7⟩
  intro hqq
  subst hqq
  rw [he] at f6
  exact absurd ((C90_one_id _ _ _ _).2 _ _ _ _ hrec f6).1 (by decide)

/-- Any primitives, with the recovery of secp256k1. -/
def withEth (P : Prims) : Prims := { P with ethRecover := ethRecoverText P }

/-- There are such primitives, whatever the rest of them is. -/
theorem withEth_is (P : Prims) (h : ∀ b, (P.keccak b).length = 32) : EthPrims (withEth P) :=
  ⟨fun _ _ => rfl, h⟩

namespace EthRecoverDemo

/-- The key 1 signs the number of `EcdsaDemo` with the nonce 1; the second coordinate of the point is even. -/
example : recoverKey EcdsaDemo.e (natBE 32 curveG.x ++ (natBE 32 7 ++ [0])) = some curveG := by decide +kernel
example : recoverKey EcdsaDemo.e (natBE 32 curveG.x ++ (natBE 32 (curveN - 7) ++ [1])) = some curveG := by
  decide +kernel
/-- No first coordinate is that large. -/
example : recoverKey EcdsaDemo.e (natBE 32 curveG.x ++ (natBE 32 7 ++ [2])) = none := by decide +kernel
example : recoverKey 5 (natBE 32 2 ++ (natBE 32 7 ++ [4])) = none := by decide +kernel
example : ethMessage (b! "hello") = [25] ++ b! "Ethereum Signed Message:" ++ [10] ++ b! "5hello" := by decide

end EthRecoverDemo

end Verif
