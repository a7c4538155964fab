import Verif.Lemmas.Floats
import Verif.Lemmas.FloatErr

set_option linter.unusedSectionVars false
namespace Verif.Lemmas
open Model Spec
variable {K : Type _} [Field K] [LinearOrder K] [IsStrictOrderedRing K]

/-- the weight of the upper level -/
def weightFl (R : Rounding K) (xb xa x : K) : K := R.fl (R.fl (x - xb) / R.fl (xa - xb))

theorem lineFl_fin (R : Rounding K) {xb xa : K} (hb : R.rep xb) (ha : R.rep xa) (h : xb < xa) (vb va x : K) :
    lineFl R xb xa (.fin vb) (.fin va) x = .fin (R.fl (vb + R.fl (R.fl (va - vb) * weightFl R xb xa x))) := by
  have h0 : R.fl (xa - xb) ≠ 0 := (R.sub_pos _ _ hb ha h).ne'
  unfold lineFl weightFl
  change roundXF R (XF.add (.fin vb) (roundXF R (XF.mul (.fin (R.fl (va + -vb))) (roundXF R (XF.div (.fin (R.fl (x - xb))) (.fin (R.fl (xa - xb)))))))) = _
  simp only [XF.div, if_neg h0, roundXF, XF.mul, XF.add, ← sub_eq_add_neg]

theorem weightFl_range (R : Rounding K) {xb xa x : K} (hb : R.rep xb) (ha : R.rep xa) (h : xb < xa) (h1 : xb ≤ x) (h2 : x ≤ xa) :
    0 ≤ weightFl R xb xa x ∧ weightFl R xb xa x ≤ 1 := by
  have h0 : 0 < R.fl (xa - xb) := R.sub_pos _ _ hb ha h
  have n0 : 0 ≤ R.fl (x - xb) := R.fl_nonneg (by linarith)
  have n1 : R.fl (x - xb) ≤ R.fl (xa - xb) := R.mono _ _ (by linarith)
  exact ⟨R.fl_nonneg (div_nonneg n0 h0.le), R.fl_le R.rep_one (by rw [div_le_one h0]; exact n1)⟩

theorem weightFl_mono (R : Rounding K) {xb xa x x' : K} (hb : R.rep xb) (ha : R.rep xa) (h : xb < xa) (h1 : x ≤ x') :
    weightFl R xb xa x ≤ weightFl R xb xa x' := by
  have h0 : 0 < R.fl (xa - xb) := R.sub_pos _ _ hb ha h
  exact R.mono _ _ (div_le_div_of_nonneg_right (R.mono _ _ (by linarith)) h0.le)

theorem weightFl_self (R : Rounding K) {xb xa : K} (hb : R.rep xb) (ha : R.rep xa) (h : xb < xa) :
    weightFl R xb xa xa = 1 ∧ weightFl R xb xa xb = 0 := by
  have h0 : 0 < R.fl (xa - xb) := R.sub_pos _ _ hb ha h
  constructor
  · unfold weightFl; rw [div_self h0.ne', R.fl_one]
  · unfold weightFl; rw [sub_self, R.fl_zero, zero_div, R.fl_zero]

/-- the value lies between the two ends in floating-point arithmetic -/
theorem lineFl_between (R : Rounding K) {vb va t : K} (hvb : R.rep vb) (t0 : 0 ≤ t) (t1 : t ≤ 1) :
    min vb (R.fl (vb + R.fl (va - vb))) ≤ R.fl (vb + R.fl (R.fl (va - vb) * t)) ∧
    R.fl (vb + R.fl (R.fl (va - vb) * t)) ≤ max vb (R.fl (vb + R.fl (va - vb))) := by
  have hd := R.rep_fl (va - vb)
  set d := R.fl (va - vb)
  rcases le_total 0 d with h | h
  · have a1 : 0 ≤ R.fl (d * t) := R.fl_nonneg (mul_nonneg h t0)
    have a2 : R.fl (d * t) ≤ d := R.fl_le hd (mul_le_of_le_one_right h t1)
    exact ⟨(min_le_left _ _).trans (R.le_fl hvb (by linarith)), (R.mono _ _ (by linarith)).trans (le_max_right _ _)⟩
  · have a1 : R.fl (d * t) ≤ 0 := R.fl_nonpos (mul_nonpos_of_nonpos_of_nonneg h t0)
    have a2 : d ≤ R.fl (d * t) := R.le_fl hd (by nlinarith)
    exact ⟨(min_le_right _ _).trans (R.mono _ _ (by linarith)), (R.fl_le hvb (by linarith)).trans (le_max_left _ _)⟩

/-- numbers within a factor of two: the upper end is exact -/
theorem end_exact (R : Rounding K) {vb va : K} (hvb : R.rep vb) (hva : R.rep va) (h0 : 0 ≤ vb) (h1 : vb ≤ 2 * va) (h2 : va ≤ 2 * vb) :
    R.fl (vb + R.fl (va - vb)) = va := by
  rw [R.fl_of_rep _ (R.rep_sub va vb hva hvb h0 h1 h2), add_sub_cancel, R.fl_of_rep _ hva]

theorem lineFl_end_error {R : Rounding K} {u η : K} (A : R.Accurate u η) (hu : u ≤ 1 / 16) {vb va : K} (hvb : R.rep vb) (hva : R.rep va) {M : K}
    (hb : |vb| ≤ M) (ha : |va| ≤ M) : |R.fl (vb + R.fl (va - vb)) - va| ≤ 4 * u * M := by
  have h1 := A.sub hva hvb
  have h2 := A.add _ _ hvb (R.rep_fl (va - vb))
  have hu0 := A.u_nonneg
  set d := R.fl (va - vb)
  have hM : 0 ≤ M := (abs_nonneg _).trans hb
  have h3 : |va - vb| ≤ 2 * M := by
    have := abs_sub va vb
    linarith
  have h4 : |d - (va - vb)| ≤ u * (2 * M) := h1.trans (mul_le_mul_of_nonneg_left h3 hu0)
  have h5 : |vb + d| ≤ M + u * (2 * M) := by
    have : vb + d = va + (d - (va - vb)) := by ring
    rw [this]
    have := abs_add_le va (d - (va - vb))
    linarith
  have h6 : u * |vb + d| ≤ u * (M + u * (2 * M)) := mul_le_mul_of_nonneg_left h5 hu0
  have h7 : |R.fl (vb + d) - va| ≤ |R.fl (vb + d) - (vb + d)| + |d - (va - vb)| := by
    have : R.fl (vb + d) - va = (R.fl (vb + d) - (vb + d)) + (d - (va - vb)) := by ring
    rw [this]
    exact abs_add_le _ _
  have h8 : u * (u * (2 * M)) ≤ (1 / 16) * (u * (2 * M)) := mul_le_mul_of_nonneg_right hu (by positivity)
  have : 0 ≤ u * M := mul_nonneg hu0 hM
  nlinarith

theorem weightFl_error {R : Rounding K} {u η : K} (A : R.Accurate u η) (hu : u ≤ 1 / 16) {xb xa x : K} (hb : R.rep xb) (ha : R.rep xa)
    (hx : R.rep x) (h : xb < xa) (h1 : xb ≤ x) (h2 : x ≤ xa) :
    |weightFl R xb xa x - (x - xb) / (xa - xb)| ≤ 4 * u + η := by
  have e1 := A.sub hx hb
  have e2 := A.sub ha hb
  have hu0 := A.u_nonneg
  have d0 : 0 < R.fl (xa - xb) := R.sub_pos _ _ hb ha h
  have n0 : 0 ≤ R.fl (x - xb) := R.fl_nonneg (by linarith)
  have n1 : R.fl (x - xb) ≤ R.fl (xa - xb) := R.mono _ _ (by linarith)
  have D0 : 0 < xa - xb := by linarith
  have N0 : 0 ≤ x - xb := by linarith
  have N1 : x - xb ≤ xa - xb := by linarith
  have e3 := A.err (R.fl (x - xb) / R.fl (xa - xb))
  unfold weightFl
  rw [abs_of_nonneg N0] at e1
  rw [abs_of_pos D0] at e2
  have q0 : 0 ≤ R.fl (x - xb) / R.fl (xa - xb) := div_nonneg n0 d0.le
  have q1 : R.fl (x - xb) / R.fl (xa - xb) ≤ 1 := by rw [div_le_one d0]; exact n1
  rw [abs_of_nonneg q0] at e3
  have key : |R.fl (x - xb) / R.fl (xa - xb) - (x - xb) / (xa - xb)| ≤ 3 * u := by
    set n := R.fl (x - xb)
    set d := R.fl (xa - xb)
    set N := x - xb
    set D := xa - xb
    have hd : (15 / 16) * D ≤ d := by
      have := (abs_le.mp e2).1
      have : u * D ≤ (1 / 16) * D := mul_le_mul_of_nonneg_right hu D0.le
      linarith
    rw [div_sub_div _ _ d0.ne' D0.ne', abs_div, abs_of_pos (mul_pos d0 D0), div_le_iff₀ (mul_pos d0 D0)]
    have e : n * D - d * N = (n - N) * D - N * (d - D) := by ring
    rw [e]
    have a1 := abs_sub ((n - N) * D) (N * (d - D))
    rw [abs_mul, abs_mul, abs_of_pos D0, abs_of_nonneg N0] at a1
    have a2 : |n - N| * D ≤ u * N * D := mul_le_mul_of_nonneg_right e1 D0.le
    have a3 : N * |d - D| ≤ N * (u * D) := mul_le_mul_of_nonneg_left e2 N0
    have a4 : u * N * D ≤ u * D * D := mul_le_mul_of_nonneg_right (mul_le_mul_of_nonneg_left N1 hu0) D0.le
    have a5 : u * ((15 / 16) * D) * D ≤ u * d * D := mul_le_mul_of_nonneg_right (mul_le_mul_of_nonneg_left hd hu0) D0.le
    have a6 : 0 ≤ u * D * D := mul_nonneg (mul_nonneg hu0 D0.le) D0.le
    nlinarith
  have : u * (R.fl (x - xb) / R.fl (xa - xb)) ≤ u * 1 := mul_le_mul_of_nonneg_left q1 hu0
  have t := abs_sub_le (R.fl (R.fl (x - xb) / R.fl (xa - xb))) (R.fl (x - xb) / R.fl (xa - xb)) ((x - xb) / (xa - xb))
  linarith

theorem lineFl_error {R : Rounding K} {u η : K} (A : R.Accurate u η) (hu : u ≤ 1 / 16) {xb xa x vb va : K} (hb : R.rep xb) (ha : R.rep xa)
    (hx : R.rep x) (hvb : R.rep vb) (hva : R.rep va) (h : xb < xa) (h1 : xb ≤ x) (h2 : x ≤ xa) {M : K} (hMb : |vb| ≤ M) (hMa : |va| ≤ M) :
    |R.fl (vb + R.fl (R.fl (va - vb) * weightFl R xb xa x)) - (vb + (va - vb) * ((x - xb) / (xa - xb)))| ≤ 16 * u * M + 4 * η * (M + 1) := by
  have w := weightFl_error A hu hb ha hx h h1 h2
  obtain ⟨w0, w1⟩ := weightFl_range R hb ha h h1 h2
  set t := weightFl R xb xa x
  set τ := (x - xb) / (xa - xb)
  have D0 : 0 < xa - xb := by linarith
  have τ0 : 0 ≤ τ := div_nonneg (by linarith) D0.le
  have τ1 : τ ≤ 1 := by rw [div_le_one D0]; linarith
  have hu0 := A.u_nonneg
  have he0 := A.eta_nonneg
  have e1 := A.sub hva hvb
  have hM : 0 ≤ M := (abs_nonneg _).trans hMb
  have hΔ : |va - vb| ≤ 2 * M := by
    have := abs_sub va vb
    linarith
  set d := R.fl (va - vb)
  set Δ := va - vb
  have e1' : |d - Δ| ≤ 2 * (u * M) := e1.trans (by have := mul_le_mul_of_nonneg_left hΔ hu0; linarith)
  have uM : 0 ≤ u * M := mul_nonneg hu0 hM
  have eM : 0 ≤ η * M := mul_nonneg he0 hM
  have uuM : u * (u * M) ≤ (1 / 16) * (u * M) := mul_le_mul_of_nonneg_right hu uM
  have ueM : u * (η * M) ≤ (1 / 16) * (η * M) := mul_le_mul_of_nonneg_right hu eM
  have ue : u * η ≤ (1 / 16) * η := mul_le_mul_of_nonneg_right hu he0
  have hd : |d| ≤ 2 * M + 2 * (u * M) := by
    have := abs_add_le Δ (d - Δ)
    rw [add_sub_cancel] at this
    linarith
  have p1 : |d * t - Δ * τ| ≤ 10 * (u * M) + 2 * (η * M) := by
    have e : d * t - Δ * τ = (d - Δ) * t + Δ * (t - τ) := by ring
    rw [e]
    have a := abs_add_le ((d - Δ) * t) (Δ * (t - τ))
    rw [abs_mul, abs_mul, abs_of_nonneg w0] at a
    have b1 : |d - Δ| * t ≤ |d - Δ| * 1 := mul_le_mul_of_nonneg_left w1 (abs_nonneg _)
    have b2 : |Δ| * |t - τ| ≤ (2 * M) * (4 * u + η) := mul_le_mul hΔ w (abs_nonneg _) (by linarith)
    nlinarith
  have e2 := A.err (d * t)
  have p2 : |d * t| ≤ 2 * M + 2 * (u * M) := by
    rw [abs_mul, abs_of_nonneg w0]
    have : |d| * t ≤ |d| * 1 := mul_le_mul_of_nonneg_left w1 (abs_nonneg _)
    linarith
  have p3 : |R.fl (d * t) - Δ * τ| ≤ (12 + 1 / 8) * (u * M) + 2 * (η * M) + η := by
    have a := abs_sub_le (R.fl (d * t)) (d * t) (Δ * τ)
    have b : u * |d * t| ≤ u * (2 * M + 2 * (u * M)) := mul_le_mul_of_nonneg_left p2 hu0
    nlinarith
  have e3 := A.add vb _ hvb (R.rep_fl (d * t))
  set s := R.fl (d * t)
  have hex : |vb + Δ * τ| ≤ M := by
    have : vb + Δ * τ = vb * (1 - τ) + va * τ := by simp only [Δ]; ring
    rw [this]
    have a := abs_add_le (vb * (1 - τ)) (va * τ)
    rw [abs_mul, abs_mul, abs_of_nonneg τ0, abs_of_nonneg (sub_nonneg.mpr τ1)] at a
    have b1 : |vb| * (1 - τ) ≤ M * (1 - τ) := mul_le_mul_of_nonneg_right hMb (sub_nonneg.mpr τ1)
    have b2 : |va| * τ ≤ M * τ := mul_le_mul_of_nonneg_right hMa τ0
    linarith
  have p4 : |vb + s| ≤ M + ((12 + 1 / 8) * (u * M) + 2 * (η * M) + η) := by
    have e : vb + s = (vb + Δ * τ) + (s - Δ * τ) := by ring
    rw [e]
    have := abs_add_le (vb + Δ * τ) (s - Δ * τ)
    linarith
  have p5 : u * |vb + s| ≤ u * (M + ((12 + 1 / 8) * (u * M) + 2 * (η * M) + η)) := mul_le_mul_of_nonneg_left p4 hu0
  have a := abs_sub_le (R.fl (vb + s)) (vb + s) (vb + Δ * τ)
  have e : vb + s - (vb + Δ * τ) = s - Δ * τ := by ring
  rw [e] at a
  nlinarith

end Verif.Lemmas
