import Verif.Lemmas.Wgs84
import Mathlib.Analysis.Calculus.Deriv.MeanValue
import Mathlib.MeasureTheory.Integral.IntervalIntegral.FundThmCalculus

namespace Verif.Props
open Model.Gradient Lemmas.Wgs84 Lemmas.Poly

theorem d2r_close : |d2r - Real.pi / 180| ≤ 1e-22 := by
  have h1 := Real.pi_gt_d20
  have h2 := Real.pi_lt_d20
  rw [d2r, abs_le]
  constructor <;> norm_num at h1 h2 ⊢ <;> linarith

theorem rad_le {x : ℝ} (hx : |x| ≤ 90) : radLat x ≤ 6378138 := by
  have h1 := (abs_le.mp (rad_close hx)).2
  have h2 := radius_le x
  have e : Spec.Wgs84.a = 6378137 := rfl
  rw [e] at h2
  norm_num at h1
  linarith

theorem darc_close {x : ℝ} (hx : |x| ≤ 90) : |ev darcC (x ^ 2) - radLat x * (Real.pi / 180)| ≤ 1e-14 := by
  have h1 : |ev diffC (x ^ 2)| ≤ 1e-18 := by
    refine (abs_ev_le diffC (sq_nonneg x) (sq_le hx)).trans ?_
    have h := (Rat.cast_le (K := ℝ)).mpr diff_bound
    push_cast at h
    exact h
  have e : ev darcC (x ^ 2) - radLat x * (Real.pi / 180) = ev diffC (x ^ 2) + radLat x * (d2r - Real.pi / 180) := by
    rw [diffC, ev_add, ev_smul, radLat_eq, d2r]
    push_cast
    ring
  have h2 := d2r_close
  have h3 := rad_pos hx
  have h4 := rad_le hx
  rw [e]
  refine (abs_add_le _ _).trans ?_
  rw [abs_mul, abs_of_nonneg (by linarith : 0 ≤ radLat x)]
  have h5 : radLat x * |d2r - Real.pi / 180| ≤ 6378138 * 1e-22 := mul_le_mul h4 h2 (abs_nonneg _) (by norm_num)
  norm_num at *
  linarith

/-! ### C73 -/

/-- The derivative of the latitude arc length is the radius times pi/180, to within a relative error of 1e-18 (the property asks for 1e-9). -/
theorem C73_arc_derivative (x : ℝ) (hx : -90 ≤ x ∧ x ≤ 90) :
    ∃ d, HasDerivAt arcLat d x ∧ |d - radLat x * (Real.pi / 180)| ≤ 1e-18 * (radLat x * (Real.pi / 180)) := by
  have hx' : |x| ≤ 90 := abs_le.mpr hx
  refine ⟨_, hasDerivAt_arcLat x, (darc_close hx').trans ?_⟩
  have h1 := rad_pos hx'
  have h2 := Real.pi_gt_three
  have h3 : 6264000 * (3 / 180) ≤ radLat x * (Real.pi / 180) := mul_le_mul h1 (by linarith) (by norm_num) (by linarith)
  norm_num at *
  linarith

example : (-90 : ℝ) ≤ 45 ∧ (45 : ℝ) ≤ 90 := by norm_num

/-! ### C74 -/

theorem C74_arc_odd (x : ℝ) : arcLat (-x) = -arcLat x ∧ arcLat 0 = 0 := by
  constructor
  · rw [arcLat_eq, arcLat_eq]; ring
  · rw [arcLat_eq]; ring

theorem C74_radius_even_positive (x : ℝ) : radLat (-x) = radLat x ∧ ((-90 ≤ x ∧ x ≤ 90) → 6264000 ≤ radLat x ∧ radLat x ≤ 6378138) := by
  constructor
  · rw [radLat_eq, radLat_eq]; ring_nf
  · intro hx
    exact ⟨rad_pos (abs_le.mpr hx), rad_le (abs_le.mpr hx)⟩

theorem darc_pos {x : ℝ} (hx : |x| ≤ 90) : 0 < ev darcC (x ^ 2) := by
  have h0 := (abs_le.mp (darc_close hx)).1
  have h1 := rad_pos hx
  have h2 := Real.pi_gt_three
  have h3 : 6264000 * (3 / 180) ≤ radLat x * (Real.pi / 180) := mul_le_mul h1 (by linarith) (by norm_num) (by linarith)
  norm_num at h0 h3
  linarith

theorem C74_arc_strictly_increasing : StrictMonoOn arcLat (Set.Icc (-90) 90) := by
  apply strictMonoOn_of_deriv_pos (convex_Icc _ _)
  · exact fun x _ => (hasDerivAt_arcLat x).continuousAt.continuousWithinAt
  · intro x hx
    rw [interior_Icc] at hx
    rw [(hasDerivAt_arcLat x).deriv]
    exact darc_pos (abs_le.mpr ⟨hx.1.le, hx.2.le⟩)

/-- a lower bound for pi with 24 digits -/
theorem pi_gt_d24 : 3.141592653589793238462642 < Real.pi := by
  have hc : 0 < Real.cos (3.141592653589793238462642 / 2) := by
    have h := cos_taylor (3.141592653589793238462642 / 2) 22 (by
      rw [abs_of_pos (by norm_num)]; norm_num)
    rw [abs_of_pos (by norm_num : (0 : ℝ) < 3.141592653589793238462642 / 2)] at h
    have h1 := (abs_le.mp h).1
    have h2 : ((3.141592653589793238462642 / 2 : ℚ)) ^ (2 * 22) / ((2 * 22).factorial : ℚ) * 2
        < ∑ k ∈ Finset.range 22, (-1) ^ k * (3.141592653589793238462642 / 2 : ℚ) ^ (2 * k) / ((2 * k).factorial : ℚ) := by decide +kernel
    have h3 := (Rat.cast_lt (K := ℝ)).mpr h2
    push_cast at h3 h1
    linarith
  by_contra hcon
  have h1 : Real.pi / 2 ≤ 3.141592653589793238462642 / 2 := by linarith
  have h2 : (3.141592653589793238462642 : ℝ) / 2 ≤ Real.pi + Real.pi / 2 := by
    have := Real.pi_gt_three
    norm_num
    linarith
  exact absurd hc (not_lt.mpr (Real.cos_nonpos_of_pi_div_two_le_of_le h1 h2))

theorem cos_lat_pos {x : ℝ} (hx : |x| ≤ 90) : 0 < Real.cos (x * d2r) := by
  have h := abs_le.mp hx
  have hp := pi_gt_d24
  have hd : (0 : ℝ) < d2r := by rw [d2r]; norm_num
  have h9 : 90 * d2r < Real.pi / 2 := by
    rw [d2r]; norm_num at hp ⊢; linarith
  apply Real.cos_pos_of_mem_Ioo
  constructor <;> nlinarith [h.1, h.2]

/-- Longitude arc length is linear in longitude and strictly increasing at every latitude in [-90,90]; in particular away from the poles. -/
theorem C74_arc_longitude (lat : ℝ) :
    (∀ s l t m, arcLon (s * l + t * m) lat = s * arcLon l lat + t * arcLon m lat) ∧
      ((-90 ≤ lat ∧ lat ≤ 90) → StrictMono (fun lon => arcLon lon lat)) := by
  constructor
  · intro s l t m
    simp only [arcLon]; ring
  · intro h l m hlm
    have hx : |lat| ≤ 90 := abs_le.mpr h
    have h1 := rad_pos hx
    have h2 := cos_lat_pos hx
    have hd : (0 : ℝ) < d2r := by rw [d2r]; norm_num
    simp only [arcLon]
    have hr : 0 < radLat lat * Real.cos (lat * d2r) := mul_pos (by linarith) h2
    exact mul_lt_mul_of_pos_right (mul_lt_mul_of_pos_left hlm hr) hd

/-! ### C101: the polynomials are accurate -/

/-- The radius polynomial agrees with sqrt(a² cos² + b² sin²) of the WGS84 ellipsoid to a relative error of 1e-16 (below the rounding unit of double
precision) on [-90,90]. -/
theorem C101_radius_accurate (lat : ℝ) (h : -90 ≤ lat ∧ lat ≤ 90) : |radLat lat - Spec.Wgs84.radius lat| ≤ 1e-16 * Spec.Wgs84.radius lat := by
  have h1 := rad_close (abs_le.mpr h)
  have h2 := radius_ge lat
  have h3 := b_pos.1
  norm_num at *
  linarith

theorem radius_continuous : Continuous Spec.Wgs84.radius := by
  unfold Spec.Wgs84.radius
  fun_prop

theorem continuous_ev (p : List ℚ) : Continuous (ev p) :=
  continuous_iff_continuousAt.mpr (fun t => (hasDerivAt_ev p t).continuousAt)

/-- The arc length polynomial agrees with the integral of the radius from the equator to within a millionth of a millimetre on [-90,90]. -/
theorem C101_arc_accurate (lat : ℝ) (h : -90 ≤ lat ∧ lat ≤ 90) : |arcLat lat - Spec.Wgs84.arc lat| ≤ 1e-9 := by
  have c1 : Continuous (fun x : ℝ => ev darcC (x ^ 2)) := (continuous_ev darcC).comp (continuous_pow 2)
  have c2 : Continuous (fun x : ℝ => Spec.Wgs84.radius x * (Real.pi / 180)) := radius_continuous.mul continuous_const
  have e1 : arcLat lat = ∫ x in (0 : ℝ)..lat, ev darcC (x ^ 2) := by
    have := intervalIntegral.integral_eq_sub_of_hasDerivAt (a := 0) (b := lat) (f := arcLat) (f' := fun x => ev darcC (x ^ 2))
      (fun x _ => hasDerivAt_arcLat x) (c1.intervalIntegrable 0 lat)
    rw [this, (C74_arc_odd 0).2, sub_zero]
  rw [e1, Spec.Wgs84.arc, ← intervalIntegral.integral_sub (c1.intervalIntegrable 0 lat) (c2.intervalIntegrable 0 lat)]
  have hb : ∀ x ∈ Set.uIoc 0 lat, ‖ev darcC (x ^ 2) - Spec.Wgs84.radius x * (Real.pi / 180)‖ ≤ 1e-11 := by
    intro x hx
    have hx' : |x| ≤ 90 := by
      rw [Set.mem_uIoc] at hx
      rw [abs_le]
      rcases hx with hx | hx
      · constructor <;> linarith [hx.1, hx.2, h.1, h.2]
      · constructor <;> linarith [hx.1, hx.2, h.1, h.2]
    rw [Real.norm_eq_abs]
    have h1 := darc_close hx'
    have h2 := rad_close hx'
    have e : ev darcC (x ^ 2) - Spec.Wgs84.radius x * (Real.pi / 180)
        = (ev darcC (x ^ 2) - radLat x * (Real.pi / 180)) + (radLat x - Spec.Wgs84.radius x) * (Real.pi / 180) := by ring
    rw [e]
    refine (abs_add_le _ _).trans ?_
    have hp4 := Real.pi_lt_d2
    have hp0 := Real.pi_pos
    have h3 : |(radLat x - Spec.Wgs84.radius x) * (Real.pi / 180)| ≤ 1.6e-11 * (1 / 10) := by
      rw [abs_mul, abs_of_pos (by positivity : 0 < Real.pi / 180)]
      exact mul_le_mul h2 (by norm_num at hp4 ⊢; linarith) (by positivity) (by norm_num)
    norm_num at *
    linarith
  have := intervalIntegral.norm_integral_le_of_norm_le_const hb
  rw [Real.norm_eq_abs] at this
  refine this.trans ?_
  have h9 : |lat - 0| ≤ 90 := by rw [sub_zero]; exact abs_le.mpr h
  calc (1e-11 : ℝ) * |lat - 0| ≤ 1e-11 * 90 := mul_le_mul_of_nonneg_left h9 (by norm_num)
    _ ≤ 1e-9 := by norm_num

/-! ### C102: distances on the ellipsoid -/

/-- At the equator the north-south distance per degree is the equatorial radius times pi/180, which exceeds the one on the ellipsoid by more than 0.67 %. -/
theorem C102_counterexample : ∃ d, HasDerivAt arcLat d 0 ∧ 1.0067 * (Spec.Wgs84.meridianRadius 0 * (Real.pi / 180)) < d := by
  refine ⟨_, hasDerivAt_arcLat 0, ?_⟩
  have h1 := (abs_le.mp (darc_close (x := 0) (by norm_num))).1
  have h2 := (abs_le.mp (rad_close (x := 0) (by norm_num))).1
  have hr : Spec.Wgs84.radius 0 = Spec.Wgs84.a := by
    simp [Spec.Wgs84.radius, Spec.Wgs84.a, Real.sqrt_sq]
  have hm : Spec.Wgs84.meridianRadius 0 < 6335440 := by
    rw [Spec.Wgs84.meridianRadius, hr]
    simp only [Spec.Wgs84.b, Spec.Wgs84.a]
    norm_num
  rw [hr, show Spec.Wgs84.a = 6378137 from rfl] at h2
  have hp := Real.pi_gt_three
  have hp' := Real.pi_lt_d2
  have h3 : 1.0067 * Spec.Wgs84.meridianRadius 0 + 1 ≤ radLat 0 := by norm_num at *; linarith
  have h4 : (1.0067 * Spec.Wgs84.meridianRadius 0 + 1) * (Real.pi / 180) ≤ radLat 0 * (Real.pi / 180) :=
    mul_le_mul_of_nonneg_right h3 (by positivity)
  norm_num at *
  nlinarith

/-- Everywhere the north-south distance per degree is within 0.7 % of the one on the ellipsoid. -/
theorem C102_within_one_percent_partial (lat : ℝ) (h : -90 ≤ lat ∧ lat ≤ 90) :
    ∃ d, HasDerivAt arcLat d lat ∧
      |d - Spec.Wgs84.meridianRadius lat * (Real.pi / 180)| ≤ 0.007 * (Spec.Wgs84.meridianRadius lat * (Real.pi / 180)) := by
  refine ⟨_, hasDerivAt_arcLat lat, ?_⟩
  have hx : |lat| ≤ 90 := abs_le.mpr h
  have h1 := abs_le.mp (darc_close hx)
  have h2 := abs_le.mp (rad_close hx)
  have h3 := radius_ge lat
  have h4 := radius_le lat
  have hb := b_pos
  have hr0 : 0 < Spec.Wgs84.radius lat := by linarith
  have hb0 : 0 < Spec.Wgs84.b := by linarith
  have ha0 : 0 < Spec.Wgs84.a := by linarith
  have ab1 : Spec.Wgs84.a ^ 2 ≤ 1.0068 * Spec.Wgs84.b ^ 2 := by
    simp only [Spec.Wgs84.b, Spec.Wgs84.a]; norm_num
  have ab2 : 0.9932 * Spec.Wgs84.a ^ 2 ≤ Spec.Wgs84.b ^ 2 := by
    simp only [Spec.Wgs84.b, Spec.Wgs84.a]; norm_num
  have hM : Spec.Wgs84.meridianRadius lat = Spec.Wgs84.a ^ 2 * Spec.Wgs84.b ^ 2 / Spec.Wgs84.radius lat ^ 3 := rfl
  generalize Spec.Wgs84.radius lat = R at *
  generalize Spec.Wgs84.meridianRadius lat = M at *
  have u1 : R ≤ 1.0068 * M := by
    rw [hM, ← mul_div_assoc, le_div_iff₀ (by positivity)]
    have : R ^ 4 ≤ Spec.Wgs84.a ^ 4 := pow_le_pow_left₀ hr0.le h4 4
    have h5 := mul_le_mul_of_nonneg_left ab1 (sq_nonneg Spec.Wgs84.a)
    calc R * R ^ 3 = R ^ 4 := by ring
      _ ≤ Spec.Wgs84.a ^ 4 := this
      _ = Spec.Wgs84.a ^ 2 * Spec.Wgs84.a ^ 2 := by ring
      _ ≤ _ := h5
      _ = _ := by ring
  have u2 : 0.9932 * M ≤ R := by
    rw [hM, ← mul_div_assoc, div_le_iff₀ (by positivity)]
    have : Spec.Wgs84.b ^ 4 ≤ R ^ 4 := pow_le_pow_left₀ hb0.le h3 4
    have h5 := mul_le_mul_of_nonneg_left ab2 (sq_nonneg Spec.Wgs84.b)
    calc 0.9932 * (Spec.Wgs84.a ^ 2 * Spec.Wgs84.b ^ 2) = Spec.Wgs84.b ^ 2 * (0.9932 * Spec.Wgs84.a ^ 2) := by ring
      _ ≤ Spec.Wgs84.b ^ 2 * Spec.Wgs84.b ^ 2 := h5
      _ = Spec.Wgs84.b ^ 4 := by ring
      _ ≤ R ^ 4 := this
      _ = R * R ^ 3 := by ring
  have hp := Real.pi_gt_three
  have hm1 : 6000000 ≤ M := by norm_num at *; linarith
  have key : |radLat lat - M| ≤ 0.0069 * M := by
    rw [abs_le]
    constructor <;> norm_num at * <;> linarith
  have e : ev darcC (lat ^ 2) - M * (Real.pi / 180) = (ev darcC (lat ^ 2) - radLat lat * (Real.pi / 180)) + (radLat lat - M) * (Real.pi / 180) := by ring
  rw [e]
  refine (abs_add_le _ _).trans ?_
  rw [abs_mul, abs_of_pos (by positivity : 0 < Real.pi / 180)]
  have k1 := mul_le_mul_of_nonneg_right key (by positivity : 0 ≤ Real.pi / 180)
  have k2 : |ev darcC (lat ^ 2) - radLat lat * (Real.pi / 180)| ≤ 1e-14 := darc_close hx
  have k3 : 6000000 * (3 / 180) ≤ M * (Real.pi / 180) := mul_le_mul hm1 (by linarith) (by norm_num) (by linarith)
  norm_num at *
  linarith

example : Spec.Wgs84.radius 0 = 6378137 := by simp [Spec.Wgs84.radius, Spec.Wgs84.a]

end Verif.Props
