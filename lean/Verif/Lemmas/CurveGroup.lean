import Mathlib.AlgebraicGeometry.EllipticCurve.Affine.Point
import Mathlib.GroupTheory.OrderOfElement
import Mathlib.GroupTheory.Perm.Cycle.Type
import Verif.Lemmas.KeyBytes
import Verif.Lemmas.OrderPrime
import Verif.Model.Ecdsa

/-!
# The group of secp256k1

The computed addition is the addition of Mathlib's group of points, the base point has the order `curveN`, and
every point is a multiple of it: there are at most `2p + 1` points, `curveN` divides their number, and none has
the order two.
-/

namespace Verif

open WeierstrassCurve.Affine

/-- `y² = x³ + 7` over the field of secp256k1. -/
def secp : WeierstrassCurve.Affine (ZMod fieldP) := ⟨0, 0, 0, 0, 7⟩

theorem secp_equation (x y : ZMod fieldP) : secp.Equation x y ↔ y ^ 2 = x ^ 3 + 7 := by
  rw [equation_iff]
  simp [secp]

theorem secp_disc : secp.Δ ≠ 0 := by
  have h : secp.Δ = -((21168 : Nat) : ZMod fieldP) := by
    simp only [WeierstrassCurve.Δ, WeierstrassCurve.b₂, WeierstrassCurve.b₄, WeierstrassCurve.b₆, WeierstrassCurve.b₈, secp]
    push_cast
    ring
  rw [h, neg_ne_zero, Ne, ZMod.natCast_eq_zero_iff]
  intro hd
  exact absurd (Nat.le_of_dvd (by norm_num) hd) (by decide +kernel)

theorem secp_nonsingular {x y : ZMod fieldP} (h : y ^ 2 = x ^ 3 + 7) : secp.Nonsingular x y :=
  (equation_iff_nonsingular_of_Δ_ne_zero secp_disc).1 ((secp_equation x y).2 h)

/-- Coordinates below the prime that are those of a point of the group. -/
def PointIs : Option CurveKey → secp.Point → Prop
  | none, a => a = 0
  | some k, a => k.x < fieldP ∧ k.y < fieldP ∧ ∃ h, a = .some (k.x : ZMod fieldP) (k.y : ZMod fieldP) h

theorem cast_inj_lt {a b : Nat} (ha : a < fieldP) (hb : b < fieldP) : (a : ZMod fieldP) = b ↔ a = b := by
  rw [ZMod.natCast_eq_natCast_iff, Nat.ModEq, Nat.mod_eq_of_lt ha, Nat.mod_eq_of_lt hb]

theorem cast_fieldP_sub {a : Nat} (h : a < fieldP) : ((fieldP - a : Nat) : ZMod fieldP) = -(a : ZMod fieldP) := by
  rw [Nat.cast_sub h.le, ZMod.natCast_self, zero_sub]

/-- A point is given by one pair of coordinates. -/
theorem PointIs.unique {p q : Option CurveKey} {a : secp.Point} (hp : PointIs p a) (hq : PointIs q a) : p = q := by
  cases p with
  | none =>
    cases q with
    | none => rfl
    | some l =>
      obtain ⟨_, _, _, h⟩ := hq
      simp only [PointIs] at hp
      rw [hp] at h
      exact absurd h.symm (Point.some_ne_zero _)
  | some k =>
    cases q with
    | none =>
      obtain ⟨_, _, _, h⟩ := hp
      simp only [PointIs] at hq
      rw [hq] at h
      exact absurd h.symm (Point.some_ne_zero _)
    | some l =>
      obtain ⟨k1, k2, _, h⟩ := hp
      obtain ⟨l1, l2, _, h'⟩ := hq
      rw [h] at h'
      simp only [Point.some.injEq] at h'
      rw [cast_inj_lt k1 l1, cast_inj_lt k2 l2] at h'
      cases k; cases l
      simp only at h'
      rw [h'.1, h'.2]

theorem cast_fieldInv (a : Nat) : (fieldInv a : ZMod fieldP) = (a : ZMod fieldP)⁻¹ := by
  rw [fieldInv, powMod_eq, ZMod.natCast_mod, Nat.cast_pow]
  by_cases h : (a : ZMod fieldP) = 0
  · rw [h, zero_pow (by decide +kernel), inv_zero]
  · have := ZMod.pow_card_sub_one_eq_one h
    apply eq_inv_of_mul_eq_one_left
    rw [← pow_succ]
    exact this

/-- The two roots. -/
theorem curve_roots {x y z : ZMod fieldP} (h : y ^ 2 = x ^ 3 + 7) (h' : z ^ 2 = x ^ 3 + 7) : y = z ∨ y = -z :=
  sq_eq_sq_iff_eq_or_eq_neg.1 (h.trans h'.symm)

theorem PointIs.add {p q : Option CurveKey} {a b : secp.Point} (hp : PointIs p a) (hq : PointIs q b) :
    PointIs (curveAdd p q) (a + b) := by
  cases p with
  | none =>
    simp only [PointIs] at hp
    rw [hp, zero_add]
    exact hq
  | some k =>
    cases q with
    | none =>
      simp only [PointIs] at hq
      rw [hq, add_zero]
      exact hp
    | some l =>
      obtain ⟨k1, k2, hk, rfl⟩ := hp
      obtain ⟨l1, l2, hl, rfl⟩ := hq
      have ek := (secp_equation _ _).1 hk.1
      have el := (secp_equation _ _).1 hl.1
      have hcond : (k.x = l.x ∧ (k.y + l.y) % fieldP = 0) ↔
          ((k.x : ZMod fieldP) = l.x ∧ (k.y : ZMod fieldP) = secp.negY l.x l.y) := by
        rw [cast_inj_lt k1 l1]
        have : (k.y + l.y) % fieldP = 0 ↔ (k.y : ZMod fieldP) = secp.negY l.x l.y := by
          rw [← Nat.dvd_iff_mod_eq_zero, ← ZMod.natCast_eq_zero_iff, Nat.cast_add, negY]
          simp only [secp, zero_mul, sub_zero]
          exact add_eq_zero_iff_eq_neg
        rw [this]
      simp only [curveAdd]
      by_cases hc : k.x = l.x ∧ (k.y + l.y) % fieldP = 0
      · rw [if_pos hc]
        exact Point.add_of_Y_eq (hcond.1 hc).1 (hcond.1 hc).2
      · rw [if_neg hc]
        have hc' := fun h => hc (hcond.2 h)
        rw [Point.add_some hc']
        -- the slope
        have hs : (curveSlope k l : ZMod fieldP) = secp.slope (k.x : ZMod fieldP) l.x k.y l.y := by
          unfold curveSlope
          by_cases hx : k.x = l.x
          · have hy : (k.y : ZMod fieldP) ≠ secp.negY l.x l.y := fun h => hc' ⟨by rw [hx], h⟩
            have hkl : (k.y : ZMod fieldP) = l.y := by
              rcases curve_roots ek (by rw [hx]; exact el) with h | h
              · exact h
              · exact absurd (by rw [h, negY]; simp [secp]) hy
            rw [if_pos hx, slope_of_Y_ne (by rw [hx]) hy, ZMod.natCast_mod, Nat.cast_mul, cast_fieldInv,
              ZMod.natCast_mod, negY]
            simp only [secp]
            push_cast
            rw [div_eq_mul_inv]
            ring_nf
          · rw [if_neg hx, slope_of_X_ne (fun h => hx ((cast_inj_lt k1 l1).1 h)), ZMod.natCast_mod, Nat.cast_mul,
              cast_fieldInv, ZMod.natCast_mod, Nat.cast_add, Nat.cast_add, cast_fieldP_sub k1, cast_fieldP_sub k2,
              div_eq_mul_inv]
            have e1 : (l.y : ZMod fieldP) + -k.y = -(k.y - l.y) := by ring
            have e2 : (l.x : ZMod fieldP) + -k.x = -(k.x - l.x) := by ring
            rw [e1, e2, inv_neg, neg_mul_neg]
        have hp := fieldP_prime.pos
        have hx3 : ((curveThird k l (curveSlope k l)).x : ZMod fieldP) =
            secp.addX k.x l.x (secp.slope (k.x : ZMod fieldP) l.x k.y l.y) := by
          simp only [curveThird]
          rw [ZMod.natCast_mod, Nat.cast_add, Nat.cast_add, cast_fieldP_sub k1, cast_fieldP_sub l1, Nat.cast_mul, hs, addX]
          generalize secp.slope (k.x : ZMod fieldP) l.x k.y l.y = t
          simp only [secp]
          ring
        have hx3l : (curveThird k l (curveSlope k l)).x < fieldP := Nat.mod_lt _ hp
        have hy3 : ((curveThird k l (curveSlope k l)).y : ZMod fieldP) =
            secp.addY k.x l.x k.y (secp.slope (k.x : ZMod fieldP) l.x k.y l.y) := by
          have e : (curveThird k l (curveSlope k l)).y =
            (curveSlope k l * (k.x + (fieldP - (curveThird k l (curveSlope k l)).x)) + (fieldP - k.y)) % fieldP := rfl
          rw [e, ZMod.natCast_mod, Nat.cast_add, cast_fieldP_sub k2, Nat.cast_mul, Nat.cast_add, cast_fieldP_sub hx3l,
            hs, hx3, addY, negAddY, negY]
          generalize secp.slope (k.x : ZMod fieldP) l.x k.y l.y = t
          generalize secp.addX (k.x : ZMod fieldP) l.x t = u
          simp only [secp]
          ring
        have hns := nonsingular_add hk hl hc'
        refine ⟨hx3l, Nat.mod_lt _ hp, ?_⟩
        rw [hx3, hy3]
        exact ⟨hns, rfl⟩

theorem PointIs.mulAux : ∀ (fuel n : Nat) {p : Option CurveKey} {a : secp.Point}, n < 2 ^ fuel → PointIs p a →
    PointIs (curveMulAux fuel n p) (n • a)
  | 0, n, p, a, h, _ => by
    have : n = 0 := by simpa using h
    subst this
    simp [curveMulAux, PointIs]
  | fuel + 1, n, p, a, h, hp => by
    have ih := PointIs.mulAux fuel (n / 2) (by rw [pow_succ] at h; omega) (hp.add hp)
    rw [← two_nsmul, ← mul_nsmul] at ih
    simp only [curveMulAux]
    split
    · next ho =>
      have e : n = 2 * (n / 2) + 1 := by omega
      have := hp.add ih
      rw [← succ_nsmul', ← e] at this
      exact this
    · next ho =>
      have e : 2 * (n / 2) = n := by omega
      rw [e] at ih
      exact ih

/-- The computed multiple is the multiple. -/
theorem PointIs.mul (n : Nat) {p : Option CurveKey} {a : secp.Point} (h : PointIs p a) : PointIs (curveMul n p) (n • a) :=
  PointIs.mulAux _ n Nat.lt_log2_self h

theorem pointIs_none {a : secp.Point} (h : PointIs none a) : a = 0 := h

theorem pointIs_some_iff {k : CurveKey} {a : secp.Point} : PointIs (some k) a ↔ k.x < fieldP ∧ k.y < fieldP ∧
    ∃ h, a = .some (k.x : ZMod fieldP) (k.y : ZMod fieldP) h := Iff.rfl

theorem pointIs_zero : PointIs none 0 := rfl

theorem curveG_curve : (curveG.y : ZMod fieldP) ^ 2 = (curveG.x : ZMod fieldP) ^ 3 + 7 :=
  (curve_mod_iff _ _).1 (by decide +kernel)

/-- The base point. -/
def pointG : secp.Point := .some (curveG.x : ZMod fieldP) (curveG.y : ZMod fieldP) (secp_nonsingular curveG_curve)

theorem pointG_is : PointIs (some curveG) pointG := ⟨by decide +kernel, by decide +kernel, _, rfl⟩

theorem curveG_order : curveMul curveN (some curveG) = none := by decide +kernel

theorem nsmul_eq_zero_of {n : Nat} (h : curveMul n (some curveG) = none) : n • pointG = 0 := by
  have := pointG_is.mul n
  rw [h] at this
  exact this

theorem addOrderOf_of {n : Nat} {a : secp.Point} (hn : n.Prime) (h : n • a = 0) (h0 : a ≠ 0) : addOrderOf a = n :=
  (addOrderOf_eq_prime_iff (hp := ⟨hn⟩)).2 ⟨h, h0⟩

theorem pointG_order : addOrderOf pointG = curveN :=
  addOrderOf_of curveN_prime (nsmul_eq_zero_of curveG_order) (Point.some_ne_zero _)

/-! ## Every point is a multiple of the base point -/

/-- Every point has coordinates. -/
theorem exists_coords (a : secp.Point) : ∃ p, PointIs p a := by
  cases a with
  | zero => exact ⟨none, rfl⟩
  | some x y h =>
    refine ⟨some ⟨x.val, y.val⟩, ZMod.val_lt x, ZMod.val_lt y, ?_⟩
    simp only [ZMod.natCast_val, ZMod.cast_id', id_eq]
    exact ⟨h, trivial⟩

/-- The first coordinate and the parity of the second. -/
def pointTag : secp.Point → Option (ZMod fieldP × Bool)
  | .zero => none
  | .some x y _ => some (x, y.val % 2 == 0)

theorem pointTag_inj : Function.Injective pointTag := by
  intro a b h
  cases a with
  | zero =>
    cases b with
    | zero => rfl
    | some => simp [pointTag] at h
  | some x y hxy =>
    cases b with
    | zero => simp [pointTag] at h
    | some z w hzw =>
      simp only [pointTag, Option.some.injEq, Prod.mk.injEq] at h
      obtain ⟨rfl, h2⟩ := h
      have e1 := (secp_equation _ _).1 hxy.1
      have e2 := (secp_equation _ _).1 hzw.1
      have hpar : y.val % 2 = w.val % 2 := by
        rcases Nat.mod_two_eq_zero_or_one y.val with h | h <;> rcases Nat.mod_two_eq_zero_or_one w.val with h' | h' <;>
          simp [h, h'] at h2 ⊢
      have : y.val = w.val := by
        refine same_root (x := x.val) (ZMod.val_lt y) (ZMod.val_lt w) hpar ?_ ?_
        · simpa using e1
        · simpa using e2
      have : y = w := ZMod.val_injective fieldP this
      subst this
      rfl

instance pointFinite : Finite secp.Point := Finite.of_injective pointTag pointTag_inj

theorem point_card_le : Nat.card secp.Point ≤ 2 * fieldP + 1 := by
  have h := Nat.card_le_card_of_injective pointTag pointTag_inj
  have e : Nat.card (Option (ZMod fieldP × Bool)) = 2 * fieldP + 1 := by
    rw [Nat.card_eq_fintype_card, Fintype.card_option, Fintype.card_prod, ZMod.card, Fintype.card_bool, mul_comm]
  rwa [e] at h

/-- No point has the second coordinate zero: `-7` is no cube. -/
theorem no_cube (x : ZMod fieldP) : x ^ 3 + 7 ≠ 0 := by
  intro h
  have hx : x ^ 3 = ((fieldP - 7 : Nat) : ZMod fieldP) := by
    rw [cast_fieldP_sub (by decide +kernel)]
    linear_combination h
  have h0 : x ≠ 0 := by
    rintro rfl
    have : ((7 : Nat) : ZMod fieldP) = 0 := by simpa using h
    rw [ZMod.natCast_eq_zero_iff] at this
    exact absurd (Nat.le_of_dvd (by norm_num) this) (by decide +kernel)
  have h1 : (x ^ 3) ^ ((fieldP - 1) / 3) = 1 := by
    rw [← pow_mul, show 3 * ((fieldP - 1) / 3) = fieldP - 1 from by decide +kernel]
    exact ZMod.pow_card_sub_one_eq_one h0
  rw [hx, ← Nat.cast_pow, ← Nat.cast_one (R := ZMod fieldP), ZMod.natCast_eq_natCast_iff, Nat.ModEq, ← powMod_eq] at h1
  exact absurd h1 (by decide +kernel)

theorem no_order_two (a : secp.Point) (h : addOrderOf a = 2) : False := by
  have h2 : a + a = 0 := by rw [← two_nsmul, ← h]; exact addOrderOf_nsmul_eq_zero a
  have h0 : a ≠ 0 := by rintro rfl; simp at h
  cases a with
  | zero => exact h0 rfl
  | some x y hxy =>
    have e := (secp_equation _ _).1 hxy.1
    by_cases hy : y = secp.negY x y
    · have : y = -y := by simpa [negY, secp] using hy
      have hy0 : y = 0 := by
        have h2y : ((2 : Nat) : ZMod fieldP) * y = 0 := by push_cast; linear_combination this
        rcases mul_eq_zero.1 h2y with h | h
        · rw [ZMod.natCast_eq_zero_iff] at h
          exact absurd (Nat.le_of_dvd (by norm_num) h) (by decide +kernel)
        · exact h
      rw [hy0] at e
      exact no_cube x (by rw [← e]; ring)
    · rw [Point.add_self_of_Y_ne hy] at h2
      exact Point.some_ne_zero _ h2

theorem point_card : Nat.card secp.Point = curveN := by
  have hd : curveN ∣ Nat.card secp.Point := by
    rw [← pointG_order]; exact addOrderOf_dvd_natCard pointG
  obtain ⟨c, hc⟩ := hd
  have hpos : 0 < Nat.card secp.Point := Nat.card_pos
  have hle := point_card_le
  have hN : 2 * fieldP + 1 < 3 * curveN := by decide +kernel
  have hc3 : c < 3 := by
    by_contra hge
    have : curveN * 3 ≤ curveN * c := Nat.mul_le_mul_left _ (by omega)
    omega
  have hc0 : c ≠ 0 := by rintro rfl; omega
  have hc2 : c ≠ 2 := by
    rintro rfl
    have h2 : 2 ∣ Nat.card secp.Point := ⟨curveN, by rw [hc, mul_comm]⟩
    obtain ⟨a, ha⟩ := exists_prime_addOrderOf_dvd_card' (hp := ⟨Nat.prime_two⟩) 2 h2
    exact no_order_two a ha
  have : c = 1 := by omega
  rw [hc, this, mul_one]

/-- Every point vanishes when multiplied by the order. -/
theorem order_nsmul (a : secp.Point) : curveN • a = 0 := by
  rw [← point_card]; exact card_nsmul_eq_zero'

end Verif
