import Verif.Basic.Rounding
import Verif.Model.Floats

set_option linter.unusedSectionVars false
namespace Verif
variable {K : Type _} [Field K] [LinearOrder K] [IsStrictOrderedRing K]

/-- The rounding has relative error `u` (half a unit in the last place) and absolute error `η` (underflow); sums and differences of stored
numbers do not underflow. -/
structure Rounding.Accurate (R : Rounding K) (u η : K) : Prop where
  u_nonneg : 0 ≤ u
  eta_nonneg : 0 ≤ η
  err : ∀ x, |R.fl x - x| ≤ u * |x| + η
  add : ∀ x y, R.rep x → R.rep y → |R.fl (x + y) - (x + y)| ≤ u * |x + y|

theorem float64_accurate [FloorRing K] : (float64 : Rounding K).Accurate (2 ^ (-53 : ℤ)) (2 ^ (-1075 : ℤ)) where
  u_nonneg := (two_zpow_pos _).le
  eta_nonneg := (two_zpow_pos _).le
  err x := by
    have h := roundBin_error (p := 53) (emin := -1074) x
    have e : |x| / 2 ^ 53 = 2 ^ (-53 : ℤ) * |x| := by
      rw [zpow_neg, div_eq_mul_inv, mul_comm]; norm_cast
    have e2 : ((-1074 : ℤ) - 1) = -1075 := by norm_num
    rw [e, e2] at h
    refine h.trans (max_le ?_ ?_)
    · exact le_add_of_nonneg_right (two_zpow_pos _).le
    · exact le_add_of_nonneg_left (mul_nonneg (two_zpow_pos _).le (abs_nonneg _))
  add x y hx hy := by
    have h := roundBin_add_error (p := 53) (emin := -1074) (by norm_num) (by norm_num) hx hy
    have e : |x + y| / 2 ^ 53 = 2 ^ (-53 : ℤ) * |x + y| := by
      rw [zpow_neg, div_eq_mul_inv, mul_comm]; norm_cast
    rwa [e] at h

theorem Rounding.exact_accurate : (Rounding.exact : Rounding K).Accurate 0 0 where
  u_nonneg := le_refl _
  eta_nonneg := le_refl _
  err x := by simp [Rounding.exact]
  add x y _ _ := by simp [Rounding.exact]

theorem Rounding.Accurate.sub {R : Rounding K} {u η : K} (A : R.Accurate u η) {x y : K} (hx : R.rep x) (hy : R.rep y) :
    |R.fl (x - y) - (x - y)| ≤ u * |x - y| := by
  have := A.add x (-y) hx (R.rep_neg _ hy)
  rwa [← sub_eq_add_neg] at this

namespace Lemmas
open Model

theorem pressureFl_error {R : Rounding K} {u η : K} (A : R.Accurate u η) (hu : u ≤ 1) (a b p0 ps : K) :
    |pressureFl R a b p0 ps - (a * p0 + b * ps)| ≤ 3 * u * (|a * p0| + |b * ps|) + 4 * η := by
  have h1 := A.err (a * p0)
  have h2 := A.err (b * ps)
  have h3 := A.add _ _ (R.rep_fl (a * p0)) (R.rep_fl (b * ps))
  have hu0 := A.u_nonneg
  have he0 := A.eta_nonneg
  unfold pressureFl
  set x := a * p0
  set y := b * ps
  set X := R.fl x
  set Y := R.fl y
  have t1 : |X + Y| ≤ (1 + u) * (|x| + |y|) + 2 * η := by
    have : X + Y = (X - x) + (Y - y) + x + y := by ring
    rw [this]
    have := abs_add_le ((X - x) + (Y - y) + x) y
    have := abs_add_le ((X - x) + (Y - y)) x
    have := abs_add_le (X - x) (Y - y)
    linarith
  have t2 : |R.fl (X + Y) - (x + y)| ≤ |R.fl (X + Y) - (X + Y)| + |X - x| + |Y - y| := by
    have e : R.fl (X + Y) - (x + y) = (R.fl (X + Y) - (X + Y)) + (X - x) + (Y - y) := by ring
    rw [e]
    have := abs_add_le ((R.fl (X + Y) - (X + Y)) + (X - x)) (Y - y)
    have := abs_add_le (R.fl (X + Y) - (X + Y)) (X - x)
    linarith
  have t3 : u * |X + Y| ≤ u * ((1 + u) * (|x| + |y|) + 2 * η) := mul_le_mul_of_nonneg_left t1 hu0
  have s0 : 0 ≤ |x| + |y| := add_nonneg (abs_nonneg _) (abs_nonneg _)
  have t4 : u * u * (|x| + |y|) ≤ u * (|x| + |y|) := by
    have : u * u ≤ u := by nlinarith
    exact mul_le_mul_of_nonneg_right this s0
  have t5 : u * η ≤ η := by nlinarith
  nlinarith

theorem layerFl_error {R : Rounding K} {u η : K} (A : R.Accurate u η) (hu : u ≤ 1) (a b a' b' p0 ps : K) :
    |layerFl R a b a' b' p0 ps - (|(a * p0 + b * ps) - (a' * p0 + b' * ps)|)|
      ≤ 8 * u * (|a * p0| + |b * ps| + |a' * p0| + |b' * ps|) + 16 * η := by
  have h1 := pressureFl_error A hu a b p0 ps
  have h2 := pressureFl_error A hu a' b' p0 ps
  have h3 := A.sub (R.rep_fl (R.fl (a * p0) + R.fl (b * ps))) (R.rep_fl (R.fl (a' * p0) + R.fl (b' * ps)))
  change |R.fl (pressureFl R a b p0 ps - pressureFl R a' b' p0 ps) - (pressureFl R a b p0 ps - pressureFl R a' b' p0 ps)|
    ≤ u * |pressureFl R a b p0 ps - pressureFl R a' b' p0 ps| at h3
  unfold layerFl
  have hu0 := A.u_nonneg
  have he0 := A.eta_nonneg
  set P := pressureFl R a b p0 ps
  set Q := pressureFl R a' b' p0 ps
  have hx1 : |a * p0 + b * ps| ≤ |a * p0| + |b * ps| := abs_add_le _ _
  have hx2 : |a' * p0 + b' * ps| ≤ |a' * p0| + |b' * ps| := abs_add_le _ _
  set x := a * p0 + b * ps
  set y := a' * p0 + b' * ps
  set S := |a * p0| + |b * ps|
  set S' := |a' * p0| + |b' * ps|
  have hS : 0 ≤ S := add_nonneg (abs_nonneg _) (abs_nonneg _)
  have hS' : 0 ≤ S' := add_nonneg (abs_nonneg _) (abs_nonneg _)
  have t0 := abs_abs_sub_abs_le (R.fl (P - Q)) (x - y)
  have t1 : |R.fl (P - Q) - (x - y)| ≤ |R.fl (P - Q) - (P - Q)| + |P - x| + |Q - y| := by
    have e : R.fl (P - Q) - (x - y) = (R.fl (P - Q) - (P - Q)) + (P - x) + (-(Q - y)) := by ring
    rw [e]
    have := abs_add_le ((R.fl (P - Q) - (P - Q)) + (P - x)) (-(Q - y))
    have := abs_add_le (R.fl (P - Q) - (P - Q)) (P - x)
    have := abs_neg (Q - y)
    linarith
  have t2 : |P - Q| ≤ |P - x| + |Q - y| + S + S' := by
    have e : P - Q = (P - x) + (-(Q - y)) + x + -y := by ring
    rw [e]
    have := abs_add_le ((P - x) + (-(Q - y)) + x) (-y)
    have := abs_add_le ((P - x) + (-(Q - y))) x
    have := abs_add_le (P - x) (-(Q - y))
    have := abs_neg (Q - y)
    have := abs_neg y
    linarith
  have t3 : u * |P - Q| ≤ u * (S + S') + (|P - x| + |Q - y|) := by
    have : u * |P - Q| ≤ u * (|P - x| + |Q - y| + S + S') := mul_le_mul_of_nonneg_left t2 hu0
    have : u * (|P - x| + |Q - y|) ≤ 1 * (|P - x| + |Q - y|) :=
      mul_le_mul_of_nonneg_right hu (add_nonneg (abs_nonneg _) (abs_nonneg _))
    linarith
  have : S + |a' * p0| + |b' * ps| = S + S' := by rw [add_assoc]
  rw [this]
  have hm : 0 ≤ u * (S + S') := mul_nonneg hu0 (add_nonneg hS hS')
  linarith

end Lemmas
end Verif
