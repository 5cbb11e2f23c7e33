import Verif.Lemmas.CurveGroup
import Verif.Lemmas.Signature
import Verif.Props.PubKey
import Verif.Props.Ledger

/-!
# C89: what is signed with a key is accepted under its public key
-/

namespace Verif

open WeierstrassCurve.Affine

attribute [local irreducible] PointIs

/-! ## Specification -/

/-- The point of a key. -/
def keyPoint {q : CurveKey} (h : ValidKey q) : secp.Point :=
  .some (q.x : ZMod fieldP) (q.y : ZMod fieldP) (secp_nonsingular h.curve)

/-- `r`, `s` is a signature of the number `e` under the point `q`: both are in range, and the point `R` with
`s · R = e · G + r · Q` has a first coordinate that is `r` modulo the order. -/
def SignatureOf (q : secp.Point) (e r s : Nat) : Prop :=
  (0 < r ∧ r < curveN) ∧ (0 < s ∧ s < curveN) ∧
    ∃ (x y : ZMod fieldP) (h : secp.Nonsingular x y),
      s • Point.some x y h = e • pointG + r • q ∧ x.val % curveN = r

/-! ## Arithmetic modulo the order -/

instance curveN_fact : Fact curveN.Prime := ⟨curveN_prime⟩

theorem mod_order_nsmul (n : Nat) (a : secp.Point) : (n % curveN) • a = n • a := by
  have h : (curveN * (n / curveN) + n % curveN) • a = (n % curveN) • a := by
    rw [add_nsmul, mul_nsmul, order_nsmul, nsmul_zero, zero_add]
  rw [← h, Nat.div_add_mod]

theorem nsmul_congr {m n : Nat} (h : m % curveN = n % curveN) (a : secp.Point) : m • a = n • a := by
  rw [← mod_order_nsmul m, ← mod_order_nsmul n, h]

theorem orderInv_mul {a : Nat} (h : a % curveN ≠ 0) : a * orderInv a % curveN = 1 := by
  have h0 : (a : ZMod curveN) ≠ 0 := by
    rw [Ne, ZMod.natCast_eq_zero_iff, Nat.dvd_iff_mod_eq_zero]; exact h
  have h1 := ZMod.pow_card_sub_one_eq_one h0
  have h2 : ((a * orderInv a : Nat) : ZMod curveN) = ((1 : Nat) : ZMod curveN) := by
    rw [orderInv, powMod_eq, Nat.cast_mul, ZMod.natCast_mod, Nat.cast_pow, ← pow_succ', Nat.cast_one]
    exact h1
  rw [ZMod.natCast_eq_natCast_iff, Nat.ModEq, Nat.mod_eq_of_lt curveN_prime.one_lt] at h2
  exact h2

theorem publicOf_point (d : Nat) : PointIs (curveMul d (some curveG)) (d • pointG) := pointG_is.mul d

theorem keyPoint_is {q : CurveKey} (h : ValidKey q) : PointIs (some q) (keyPoint h) :=
  pointIs_some_iff.2 ⟨h.x_lt, h.y_lt, _, rfl⟩

theorem sum_is {q : CurveKey} (hq : ValidKey q) (u v : Nat) :
    PointIs (curveAdd (curveMul u (some curveG)) (curveMul v (some q))) (u • pointG + v • keyPoint hq) :=
  PointIs.add (publicOf_point u) (PointIs.mul v (keyPoint_is hq))

theorem pointIs_some {q : CurveKey} {a : secp.Point} (h : PointIs (some q) a) :
    ∃ hv : ValidKey q, a = keyPoint hv := by
  obtain ⟨h1, h2, h3, rfl⟩ := pointIs_some_iff.1 h
  exact ⟨⟨h1, h2, (secp_equation _ _).1 h3.1⟩, rfl⟩

theorem pointIs_none_iff {p : Option CurveKey} {a : secp.Point} (h : PointIs p a) : p = none ↔ a = 0 := by
  constructor
  · rintro rfl; exact pointIs_none h
  · rintro rfl; exact h.unique pointIs_zero

/-- **C89.** The check of the library accepts exactly the signatures. -/
theorem C89_verify_iff {q : CurveKey} (hq : ValidKey q) (e r s : Nat) :
    ecdsaVerify q e r s = true ↔ SignatureOf (keyPoint hq) e r s := by
  unfold ecdsaVerify SignatureOf
  by_cases hr : r = 0 ∨ s = 0 ∨ curveN ≤ r ∨ curveN ≤ s
  · rw [if_pos hr]
    constructor
    · intro h; simp at h
    · rintro ⟨h1, h2, _⟩; omega
  rw [if_neg hr]
  have hs : s * orderInv s % curveN = 1 := orderInv_mul (by rw [Nat.mod_eq_of_lt (by omega)]; omega)
  have hone : ∀ a : secp.Point, (s * orderInv s) • a = a := by
    intro a
    rw [nsmul_congr (n := 1) (by rw [hs, Nat.mod_eq_of_lt curveN_prime.one_lt]), one_nsmul]
  have hp := sum_is hq (e * orderInv s % curveN) (r * orderInv s % curveN)
  have hsum : (e * orderInv s % curveN) • pointG + (r * orderInv s % curveN) • keyPoint hq =
      orderInv s • (e • pointG + r • keyPoint hq) := by
    rw [mod_order_nsmul, mod_order_nsmul, nsmul_add, mul_nsmul, mul_nsmul]
  rw [hsum] at hp
  dsimp only
  generalize curveAdd _ _ = p at hp
  have range : (0 < r ∧ r < curveN) ∧ 0 < s ∧ s < curveN := by omega
  cases p with
  | none =>
    constructor
    · intro h; simp at h
    · rintro ⟨_, _, x, y, h, h1, _⟩
      have h0 : orderInv s • (e • pointG + r • keyPoint hq) = 0 := pointIs_none hp
      rw [← h1, ← mul_nsmul, hone] at h0
      exact absurd h0 (Point.some_ne_zero h)
  | some k =>
    obtain ⟨k1, k2, k3, hk⟩ := pointIs_some_iff.1 hp
    have hxv : ((k.x : ZMod fieldP)).val = k.x := ZMod.val_cast_of_lt k1
    constructor
    · intro h
      refine ⟨range.1, range.2, _, _, k3, ?_, by rw [hxv]; simpa using h⟩
      rw [← hk, ← mul_nsmul, mul_comm, hone]
    · rintro ⟨_, _, x, y, h, h1, h2⟩
      rw [← h1, ← mul_nsmul, hone] at hk
      simp only [Point.some.injEq] at hk
      rw [hk.1, hxv] at h2
      simpa using h2

/-! ## Keys -/

theorem publicOf_mod (d : Nat) : publicOf (d % curveN) = publicOf d := by
  have a := publicOf_point (d % curveN)
  have b := publicOf_point d
  rw [mod_order_nsmul] at a
  rw [publicOf, publicOf, a.unique b]

theorem nsmul_pointG_zero (d : Nat) : d • pointG = 0 ↔ d % curveN = 0 := by
  rw [← Nat.dvd_iff_mod_eq_zero, ← pointG_order, addOrderOf_dvd_iff_nsmul_eq_zero]

/-- **C89.** The public key of a private key is the point with that number, unless the number is a multiple of
the order: then it is the pair of zeros, which is no key. -/
theorem C89_public (d : Nat) :
    (d % curveN ≠ 0 → ∃ h : ValidKey (publicOf d), keyPoint h = d • pointG) ∧
    (d % curveN = 0 → publicOf d = ⟨0, 0⟩ ∧ ¬ ValidKey (publicOf d)) := by
  have h := publicOf_point d
  constructor
  · intro hd
    unfold publicOf
    cases hc : curveMul d (some curveG) with
    | none =>
      rw [pointIs_none_iff h, nsmul_pointG_zero] at hc
      exact absurd hc hd
    | some k =>
      rw [hc] at h
      obtain ⟨hv, e⟩ := pointIs_some h
      exact ⟨hv, e.symm⟩
  · intro hd
    have hn := (pointIs_none_iff h).2 ((nsmul_pointG_zero d).2 hd)
    have e : publicOf d = ⟨0, 0⟩ := by rw [publicOf, hn]; rfl
    refine ⟨e, ?_⟩
    rw [e]
    intro hv
    have := hv.curve
    have h7 : ((7 : Nat) : ZMod fieldP) = 0 := by simpa using this.symm
    rw [ZMod.natCast_eq_zero_iff] at h7
    exact absurd (Nat.le_of_dvd (by norm_num) h7) (by decide +kernel)

/-- **C89.** Every key is the public key of a private key, of just one below the order. -/
theorem C89_private_exists {q : CurveKey} (hq : ValidKey q) : ∃! d, d < curveN ∧ publicOf d = q := by
  have hcard : Nat.card (AddSubgroup.zmultiples pointG) = Nat.card secp.Point := by
    rw [Nat.card_zmultiples, pointG_order, point_card]
  have htop : AddSubgroup.zmultiples pointG = ⊤ := AddSubgroup.eq_top_of_card_eq _ hcard
  have hm : keyPoint hq ∈ AddSubmonoid.multiples pointG := by
    rw [mem_multiples_iff_mem_zmultiples, htop]; trivial
  obtain ⟨n, hn⟩ := hm
  have hn : n • pointG = keyPoint hq := hn
  have inv : ∀ m, publicOf m = q ↔ m • pointG = keyPoint hq := by
    intro m
    constructor
    · intro h
      have hv : m % curveN ≠ 0 := by
        intro h0
        have := ((C89_public m).2 h0).2
        rw [h] at this
        exact this hq
      obtain ⟨h1, h2⟩ := (C89_public m).1 hv
      rw [← h2]
      subst h
      rfl
    · intro h
      have := publicOf_point m
      rw [h] at this
      rw [publicOf, this.unique (keyPoint_is hq)]
      rfl
  refine ⟨n % curveN, ⟨Nat.mod_lt _ curveN_prime.pos, (inv _).2 (by rw [mod_order_nsmul, hn])⟩, ?_⟩
  rintro m ⟨hm1, hm2⟩
  rw [inv, ← hn] at hm2
  have := (nsmul_eq_nsmul_iff_modEq (x := pointG)).1 hm2
  rw [pointG_order] at this
  rw [← Nat.mod_eq_of_lt hm1]
  exact this

/-- **C89.** The text of a private key's public key: read back by every reader exactly if the number is no multiple
of the order, and two private keys have the same text exactly if they are equal modulo the order. -/
theorem C89_public_text (strictX : Bool) {key b : Bytes} (hk : hexDecode key = some b) :
    publicTextOf key = some (keyText (publicOf (beNat b))) ∧
    keyPairOf key = some (beNat b, publicOf (beNat b)) ∧
    (btcKeyFromText strictX (keyText (publicOf (beNat b))) = some (publicOf (beNat b)) ↔ beNat b % curveN ≠ 0) ∧
    (beNat b % curveN = 0 → btcKeyFromText strictX (keyText (publicOf (beNat b))) = none ∧
      pubKeyFromText strictX (keyText (publicOf (beNat b))) = none) := by
  have hz : beNat b % curveN = 0 → btcKeyFromText strictX (keyText (publicOf (beNat b))) = none ∧
      pubKeyFromText strictX (keyText (publicOf (beNat b))) = none := by
    intro h
    rw [((C89_public _).2 h).1]
    cases strictX <;> exact ⟨by decide +kernel, by decide +kernel⟩
  refine ⟨by rw [publicTextOf, hk]; rfl, by rw [keyPairOf, hk], ⟨?_, ?_⟩, hz⟩
  · intro h h0
    rw [(hz h0).1] at h
    simp at h
  · intro h
    obtain ⟨hv, _⟩ := (C89_public _).1 h
    exact (C88_text_roundtrip strictX hv).2.1

/-- **C89.** Two private keys have one public text exactly if they are equal modulo the order. -/
theorem C89_same_text (d d' : Nat) : keyText (publicOf d) = keyText (publicOf d') ↔ d % curveN = d' % curveN := by
  have key : publicOf d = publicOf d' ↔ d % curveN = d' % curveN := by
    constructor
    · intro h
      by_cases h0 : d % curveN = 0
      · by_cases h1 : d' % curveN = 0
        · rw [h0, h1]
        · obtain ⟨hv, _⟩ := (C89_public d').1 h1
          rw [← h] at hv
          exact absurd hv ((C89_public d).2 h0).2
      · obtain ⟨hv, e⟩ := (C89_public d).1 h0
        by_cases h1 : d' % curveN = 0
        · rw [h] at hv
          exact absurd hv ((C89_public d').2 h1).2
        · obtain ⟨u, hu, hun⟩ := C89_private_exists hv
          have a := hun (d % curveN) ⟨Nat.mod_lt _ curveN_prime.pos, ?_⟩
          have b := hun (d' % curveN) ⟨Nat.mod_lt _ curveN_prime.pos, ?_⟩
          · rw [a, b]
          · rw [publicOf_mod, h]
          · rw [publicOf_mod]
    · intro h
      have a := publicOf_point d
      have b := publicOf_point d'
      rw [nsmul_congr h] at a
      rw [publicOf, publicOf, a.unique b]
  rw [← key]
  constructor
  · intro h
    have hc := hexEncode_inj h
    by_cases h0 : d % curveN = 0
    · by_cases h1 : d' % curveN = 0
      · rw [((C89_public d).2 h0).1, ((C89_public d').2 h1).1]
      · exfalso
        obtain ⟨hv, _⟩ := (C89_public d').1 h1
        have := (C88_bytes_roundtrip true hv).1
        rw [← hc, ((C89_public d).2 h0).1] at this
        exact absurd this (by rw [show parsePubKey true (compressedKey ⟨0, 0⟩) = none from by decide +kernel]; simp)
    · obtain ⟨hv, _⟩ := (C89_public d).1 h0
      by_cases h1 : d' % curveN = 0
      · exfalso
        have := (C88_bytes_roundtrip true hv).1
        rw [hc, ((C89_public d').2 h1).1] at this
        exact absurd this (by rw [show parsePubKey true (compressedKey ⟨0, 0⟩) = none from by decide +kernel]; simp)
      · obtain ⟨hv', _⟩ := (C89_public d').1 h1
        exact ((C88_determined hv hv').1).1 h
  · intro h; rw [h]

/-! ## Signing -/

/-- The point of a signature that was made has the first coordinate of the point of the nonce. -/
theorem signed_point {k d e r s : Nat} (hk : k % curveN ≠ 0) (h : ecdsaSign k d e = some (r, s)) :
    (0 < r ∧ r < curveN) ∧ (0 < s ∧ s < curveN) ∧ s ≤ curveN / 2 ∧ r = (publicOf k).x % curveN ∧
      ∃ (y : ZMod fieldP) (hn : secp.Nonsingular ((publicOf k).x : ZMod fieldP) y),
        s • Point.some _ y hn = e • pointG + r • (d • pointG) := by
  have hN := curveN_prime.pos
  obtain ⟨hv, hp⟩ := (C89_public k).1 hk
  simp only [ecdsaSign] at h
  split at h
  · simp at h
  next hr =>
  generalize hs0 : (d * ((publicOf k).x % curveN) + e) * orderInv k % curveN = s0 at h
  have hs0l : s0 < curveN := by rw [← hs0]; exact Nat.mod_lt _ hN
  generalize hs1 : (if curveN / 2 < s0 then curveN - s0 else s0) = s1 at h
  split at h
  · simp at h
  next hs =>
  rw [Option.some.injEq, Prod.mk.injEq] at h
  obtain ⟨rfl, rfl⟩ := h
  have hs' := hs1
  have hrl : (publicOf k).x % curveN < curveN := Nat.mod_lt _ hN
  have hpos : (0 < s1 ∧ s1 < curveN) ∧ s1 ≤ curveN / 2 := by
    split at hs' <;> omega
  refine ⟨⟨by omega, hrl⟩, hpos.1, hpos.2, rfl, ?_⟩
  have hmul : s0 • (k • pointG) = e • pointG + ((publicOf k).x % curveN) • (d • pointG) := by
    have e1 : (k * s0) % curveN = (e + d * ((publicOf k).x % curveN)) % curveN := by
      rw [← hs0, Nat.mul_mod, Nat.mod_mod, ← Nat.mul_mod,
        show k * ((d * ((publicOf k).x % curveN) + e) * orderInv k) =
          (d * ((publicOf k).x % curveN) + e) * (k * orderInv k) by ring,
        Nat.mul_mod, orderInv_mul hk, mul_one, Nat.mod_mod, add_comm]
    rw [← mul_nsmul, nsmul_congr e1, add_nsmul, mul_nsmul]
  by_cases hhalf : curveN / 2 < s0
  · rw [if_pos hhalf] at hs'
    -- the other point with the same first coordinate
    refine ⟨_, (nonsingular_neg _ _).2 (secp_nonsingular hv.curve), ?_⟩
    rw [← Point.neg_some (secp_nonsingular hv.curve)]
    have : Point.some _ _ (secp_nonsingular hv.curve) = k • pointG := hp
    rw [this, ← hs', ← hmul]
    have hz : s0 • (k • pointG) + (curveN - s0) • (k • pointG) = 0 := by
      rw [← add_nsmul, show s0 + (curveN - s0) = curveN by omega, order_nsmul]
    rw [neg_nsmul]
    exact (eq_neg_of_add_eq_zero_left hz).symm
  · rw [if_neg hhalf] at hs'
    refine ⟨_, secp_nonsingular hv.curve, ?_⟩
    have : Point.some _ _ (secp_nonsingular hv.curve) = k • pointG := hp
    rw [this, ← hs', hmul]

/-- **C89.** What is signed with a private key is a signature under its public key, with the lower of the two
possible second numbers. -/
theorem C89_signed {k d e r s : Nat} (hk : k % curveN ≠ 0) (h : ecdsaSign k d e = some (r, s)) :
    SignatureOf (d • pointG) e r s ∧ s ≤ curveN / 2 := by
  obtain ⟨hv, _⟩ := (C89_public k).1 hk
  obtain ⟨h1, h2, h3, h4, y, hn, h5⟩ := signed_point hk h
  exact ⟨⟨h1, h2, _, y, hn, h5, by rw [ZMod.val_cast_of_lt hv.x_lt, h4]⟩, h3⟩

/-- **C89.** A signature can be changed: the other second number is as good. -/
theorem C89_malleable {q : CurveKey} (hq : ValidKey q) {e r s : Nat} (h : ecdsaVerify q e r s = true) :
    ecdsaVerify q e r (curveN - s) = true ∧ curveN - s ≠ s := by
  rw [C89_verify_iff hq] at h ⊢
  obtain ⟨h1, h2, x, y, hxy, h3, h4⟩ := h
  refine ⟨⟨h1, by omega, x, _, (nonsingular_neg _ _).2 hxy, ?_, h4⟩, ?_⟩
  · rw [← Point.neg_some, neg_nsmul, ← h3]
    have hz : s • Point.some x y hxy + (curveN - s) • Point.some x y hxy = 0 := by
      rw [← add_nsmul, show s + (curveN - s) = curveN by omega, order_nsmul]
    exact (eq_neg_of_add_eq_zero_left hz).symm
  · have : curveN % 2 = 1 := by decide +kernel
    omega

end Verif
