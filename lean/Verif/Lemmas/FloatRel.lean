import Verif.Lemmas.FloatErr
import Mathlib.Data.Real.Basic
import Mathlib.Tactic.Linarith
import Mathlib.Tactic.NormNum
import Mathlib.Tactic.Positivity
import Mathlib.Tactic.FieldSimp

/-
Relative errors counted in units of the last place: `Rel u n x' x` says that `x'` is within `n` times the unit roundoff `u` of `x`.
-/

namespace Verif.Lemmas
open Verif

/-- a precision of at least six digits, underflow negligible: single and double precision -/
structure Precise (R : Rounding ℝ) (u η : ℝ) : Prop where
  acc : R.Accurate u η
  u_le : u ≤ 1e-6
  eta_le : η ≤ u * 1e-30

/-- relative error of at most `n` unit roundoffs -/
def Rel (u n x' x : ℝ) : Prop := |x' - x| ≤ n * u * |x|

variable {u η n m : ℝ}

theorem Rel.refl (u x : ℝ) : Rel u 0 x x := by simp [Rel]

theorem Rel.mono {x' x : ℝ} (hu : 0 ≤ u) (h : Rel u n x' x) (hnm : n ≤ m) : Rel u m x' x :=
  le_trans h (mul_le_mul_of_nonneg_right (mul_le_mul_of_nonneg_right hnm hu) (abs_nonneg _))

theorem Rel.mul {a a' b b' : ℝ} (hu : 0 ≤ u) (hu6 : u ≤ 1e-6) (hn : 0 ≤ n) (hn2 : n ≤ 100) (hm : 0 ≤ m) (hm2 : m ≤ 100)
    (ha : Rel u n a' a) (hb : Rel u m b' b) : Rel u (n + m + 0.01) (a' * b') (a * b) := by
  unfold Rel at *
  have e : a' * b' - a * b = (a' - a) * (b' - b) + (a' - a) * b + a * (b' - b) := by ring
  rw [e]
  have h1 := abs_add_le ((a' - a) * (b' - b) + (a' - a) * b) (a * (b' - b))
  have h2 := abs_add_le ((a' - a) * (b' - b)) ((a' - a) * b)
  rw [abs_mul] at h1
  rw [abs_mul, abs_mul] at h2
  rw [abs_mul]
  set A := |a|
  set B := |b|
  have hA : 0 ≤ A := abs_nonneg a
  have hB : 0 ≤ B := abs_nonneg b
  have hAB : 0 ≤ A * B := mul_nonneg hA hB
  have k1 : |a' - a| * |b' - b| ≤ (n * u * A) * (m * u * B) := mul_le_mul ha hb (abs_nonneg _) (by positivity)
  have k2 : |a' - a| * B ≤ n * u * A * B := mul_le_mul_of_nonneg_right ha hB
  have k3 : A * |b' - b| ≤ A * (m * u * B) := mul_le_mul_of_nonneg_left hb hA
  have k4 : n * m * u ≤ 0.01 := by
    have : n * m ≤ 100 * 100 := mul_le_mul hn2 hm2 hm (by norm_num)
    have : n * m * u ≤ 100 * 100 * 1e-6 := mul_le_mul this hu6 hu (by norm_num)
    norm_num at this ⊢
    linarith
  have k5 : (n * u * A) * (m * u * B) ≤ 0.01 * u * (A * B) := by
    have : (n * u * A) * (m * u * B) = (n * m * u) * (u * (A * B)) := by ring
    rw [this]
    have := mul_le_mul_of_nonneg_right k4 (mul_nonneg hu hAB)
    linarith
  have : (n + m + 0.01) * u * (A * B) = n * u * A * B + A * (m * u * B) + 0.01 * u * (A * B) := by ring
  linarith

theorem Rel.ne_zero {b b' : ℝ} (hu6 : u ≤ 1e-6) (hu : 0 ≤ u) (hm2 : m ≤ 100) (hb : Rel u m b' b) (h : b ≠ 0) : b' ≠ 0 := by
  rintro rfl
  unfold Rel at hb
  rw [zero_sub, abs_neg] at hb
  have hp : 0 < |b| := abs_pos.mpr h
  have : m * u ≤ 100 * 1e-6 := mul_le_mul hm2 hu6 hu (by norm_num)
  have := mul_le_mul_of_nonneg_right this hp.le
  norm_num at this
  linarith

theorem Rel.inv {b b' : ℝ} (hu : 0 ≤ u) (hu6 : u ≤ 1e-6) (hm : 0 ≤ m) (hm2 : m ≤ 100) (hb : Rel u m b' b) (h : b ≠ 0) :
    Rel u (m + 0.02) b'⁻¹ b⁻¹ := by
  have h' := Rel.ne_zero hu6 hu hm2 hb h
  unfold Rel at *
  have hp : 0 < |b| := abs_pos.mpr h
  have hp' : 0 < |b'| := abs_pos.mpr h'
  have e : b'⁻¹ - b⁻¹ = (b - b') / (b' * b) := by field_simp
  rw [e, abs_div, abs_mul, abs_inv, abs_sub_comm, div_le_iff₀ (mul_pos hp' hp)]
  have k1 : m * u ≤ 1e-4 := by
    have : m * u ≤ 100 * 1e-6 := mul_le_mul hm2 hu6 hu (by norm_num)
    norm_num at this ⊢
    linarith
  have k2 : |b| ≤ |b'| + m * u * |b| := by
    have := abs_sub_abs_le_abs_sub b b'
    rw [abs_sub_comm] at this
    linarith
  have k3 : (1 - m * u) * |b| ≤ |b'| := by linarith
  have e2 : (m + 0.02) * u * |b|⁻¹ * (|b'| * |b|) = (m + 0.02) * u * |b'| := by field_simp
  rw [e2]
  have k4 : (m + 0.02) * u * ((1 - m * u) * |b|) ≤ (m + 0.02) * u * |b'| := mul_le_mul_of_nonneg_left k3 (by positivity)
  have k5 : m * u * |b| ≤ (m + 0.02) * u * ((1 - m * u) * |b|) := by
    have : m ≤ (m + 0.02) * (1 - m * u) := by
      have : m * (m * u) ≤ 100 * 1e-4 := mul_le_mul hm2 k1 (by positivity) (by norm_num)
      norm_num at this k1 ⊢
      nlinarith
    have := mul_le_mul_of_nonneg_right this (mul_nonneg hu hp.le)
    nlinarith
  linarith

theorem Rel.div {a a' b b' : ℝ} (hu : 0 ≤ u) (hu6 : u ≤ 1e-6) (hn : 0 ≤ n) (hn2 : n ≤ 100) (hm : 0 ≤ m) (hm2 : m ≤ 99)
    (ha : Rel u n a' a) (hb : Rel u m b' b) (h : b ≠ 0) : Rel u (n + m + 0.03) (a' / b') (a / b) := by
  rw [div_eq_mul_inv, div_eq_mul_inv]
  have := Rel.mul hu hu6 hn hn2 (by linarith) (by linarith) ha (Rel.inv hu hu6 hm (by linarith) hb h)
  exact Rel.mono hu this (by norm_num; linarith)

/-- rounding adds a little more than one unit -/
theorem Rel.fl {R : Rounding ℝ} (P : Precise R u η) {x x' : ℝ} (hn : 0 ≤ n) (hn2 : n ≤ 100) (h : Rel u n x' x) (hx : 1e-20 ≤ |x|) :
    Rel u (n + 1.01) (R.fl x') x := by
  have hu := P.acc.u_nonneg
  have hu6 := P.u_le
  unfold Rel at *
  have h1 := P.acc.err x'
  have h2 := abs_sub_le (R.fl x') x' x
  have h3 : |x'| ≤ |x| + n * u * |x| := by
    have := abs_sub_abs_le_abs_sub x' x
    linarith
  have h4 := mul_le_mul_of_nonneg_left h3 hu
  have k1 : n * u ≤ 1e-4 := by
    have : n * u ≤ 100 * 1e-6 := mul_le_mul hn2 hu6 hu (by norm_num)
    norm_num at this ⊢
    linarith
  have hux : 0 ≤ u * |x| := mul_nonneg hu (abs_nonneg _)
  have k2 : n * u * (u * |x|) ≤ 1e-4 * (u * |x|) := mul_le_mul_of_nonneg_right k1 hux
  have k3 : η ≤ 1e-10 * (u * |x|) := by
    have := P.eta_le
    have : u * 1e-30 ≤ 1e-10 * (u * |x|) := by
      have := mul_le_mul_of_nonneg_left hx hu
      norm_num at this ⊢
      linarith
    linarith
  norm_num at k2 k3 ⊢
  nlinarith

/-- storing a constant -/
theorem Rel.const {R : Rounding ℝ} (P : Precise R u η) {x : ℝ} (hx : 1e-20 ≤ |x|) : Rel u 1.01 (R.fl x) x := by
  have := Rel.fl P (le_refl 0) (by norm_num) (Rel.refl u x) hx
  exact Rel.mono P.acc.u_nonneg this (by norm_num)

/-- a sum of numbers of the same sign has no larger error than its terms -/
theorem Rel.add {a a' b b' : ℝ} (ha0 : 0 ≤ a) (hb0 : 0 ≤ b) (ha : Rel u n a' a) (hb : Rel u n b' b) : Rel u n (a' + b') (a + b) := by
  unfold Rel at *
  have e : a' + b' - (a + b) = (a' - a) + (b' - b) := by ring
  rw [e]
  have := abs_add_le (a' - a) (b' - b)
  rw [abs_of_nonneg ha0] at ha
  rw [abs_of_nonneg hb0] at hb
  rw [abs_of_nonneg (add_nonneg ha0 hb0)]
  linarith

theorem Rel.neg {a a' : ℝ} (h : Rel u n a' a) : Rel u n (-a') (-a) := by
  unfold Rel at *
  rw [abs_neg]
  have : -a' - -a = -(a' - a) := by ring
  rw [this, abs_neg]
  exact h

/-- an absolute error, relative to a lower bound of the value -/
theorem Rel.of_abs {x x' α L : ℝ} (hL : 0 < L) (h : |x' - x| ≤ α * u) (hx : L ≤ |x|) (hα : α ≤ n * L) (hu : 0 ≤ u) (hn : 0 ≤ n) : Rel u n x' x := by
  unfold Rel
  have h1 := mul_le_mul_of_nonneg_right hα hu
  have h2 := mul_le_mul_of_nonneg_left hx (mul_nonneg hn hu)
  linarith

/-- rounding of a number known with an absolute error -/
theorem abs_fl {R : Rounding ℝ} (P : Precise R u η) {x x' α M : ℝ} (h0 : 0 ≤ α) (h1 : α ≤ 1e5) (h : |x' - x| ≤ α * u) (hM : |x| ≤ M) :
    |R.fl x' - x| ≤ (α + M + 0.2) * u := by
  have hu := P.acc.u_nonneg
  have hu6 := P.u_le
  have e1 := P.acc.err x'
  have e2 := abs_sub_le (R.fl x') x' x
  have e3 : |x'| ≤ M + α * u := by
    have := abs_sub_abs_le_abs_sub x' x
    linarith
  have e4 := mul_le_mul_of_nonneg_left e3 hu
  have k1 : α * u ≤ 0.1 := by
    have : α * u ≤ 1e5 * 1e-6 := mul_le_mul h1 hu6 hu (by norm_num)
    norm_num at this ⊢
    linarith
  have k2 := mul_le_mul_of_nonneg_left k1 hu
  have k3 := P.eta_le
  norm_num at k2 k3 ⊢
  linarith

/-- a product of numbers known with absolute errors -/
theorem abs_mul_close {a a' b b' α β M N : ℝ} (ha : |a' - a| ≤ α * u) (hb : |b' - b| ≤ β * u) (hM : |a'| ≤ M) (hN : |b| ≤ N) (hu : 0 ≤ u) (hα : 0 ≤ α) :
    |a' * b' - a * b| ≤ (M * β + α * N) * u := by
  have e : a' * b' - a * b = a' * (b' - b) + (a' - a) * b := by ring
  rw [e]
  have h1 := abs_add_le (a' * (b' - b)) ((a' - a) * b)
  rw [abs_mul, abs_mul] at h1
  have h2 : |a'| * |b' - b| ≤ M * (β * u) := mul_le_mul hM hb (abs_nonneg _) ((abs_nonneg _).trans hM)
  have h3 : |a' - a| * |b| ≤ α * u * N := mul_le_mul ha hN (abs_nonneg _) (mul_nonneg hα hu)
  linarith

end Verif.Lemmas
