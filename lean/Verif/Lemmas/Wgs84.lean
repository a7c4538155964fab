import Verif.Lemmas.Poly
import Verif.Model.Gradient
import Verif.Spec.Wgs84
import Mathlib.Analysis.Complex.Exponential
import Mathlib.Analysis.Real.Pi.Bounds
import Mathlib.Analysis.SpecialFunctions.Trigonometric.Bounds
import Mathlib.Tactic.NormNum
import Mathlib.Tactic.FieldSimp
import Mathlib.Tactic.Positivity

namespace Verif.Lemmas.Wgs84
open Verif.Model.Gradient Verif.Lemmas.Poly

/-- coefficients of the radius, as a polynomial in the square of the latitude -/
def radC : List ℚ :=
  [6378137.0,
   -6.50322744547926518806010e0,
   6.57016735969856188450312e-04,
   -2.61499198791487361911660e-08,
   5.23053397296821359502194e-13,
   -4.67346944715944948938249e-18,
   -3.93234660296994989005722e-23,
   2.09755935705627800528960e-27,
   -3.19397401776292877914625e-32,
   -3.64729257084431972115219e-38,
   1.33970531285992980064454e-41,
   -3.14445926697498412770696e-46,
   2.18501284875664232841136e-51,
   8.20657704323096444142572e-56,
   -3.09781963775152747156702e-60,
   4.32285294849656618043972e-65,
   3.04677525449067422497153e-70,
   -2.84993185787053811467259e-74,
   6.14832871773468827219624e-79,
   -2.71379394439952534826763e-84,
   -2.27271626922827622448519e-88,
   7.49821836126201522491765e-93,
   -9.10951565776720242021392e-98,
   -1.26581811418535723456176e-102,
   8.05993093251779959604912e-107]

/-- coefficients of the arc length divided by the latitude, as a polynomial in the square of the latitude -/
def arcC : List ℚ :=
  [111319.490793273572647713,
   -3.78342436432244021373642e-02,
   2.29342105667605006614878e-06,
   -6.52003144319804471773524e-11,
   1.01433377184128234589268e-15,
   -7.41522084948104995730556e-21,
   -5.27941504241845042397655e-26,
   2.44062113577649370926265e-30,
   -3.27913899018323295027126e-35,
   -3.35038232340852202916191e-41,
   1.11344136742221455419521e-44,
   -2.38613771319829866779682e-49,
   1.52542673636737189511924e-54,
   5.30488110085042076590693e-59,
   -1.86438456247248912270599e-63,
   2.43380700099386902295507e-68,
   1.61140181088334593373753e-73,
   -1.42116269649485608032749e-77,
   2.90023188160517270041180e-82,
   -1.21447793719117046293341e-87,
   -9.67472728333544072524681e-92,
   3.04345577761664668327703e-96,
   -3.53313425533365879608994e-101,
   -4.70057315402553703681995e-106,
   2.87086392358719396475614e-110]

theorem radLat_eq (x : ℝ) : radLat x = ev radC (x ^ 2) := by
  simp only [radLat, radC, ev]
  push_cast
  ring

theorem arcLat_eq (x : ℝ) : arcLat x = x * ev arcC (x ^ 2) := by
  simp only [arcLat, arcC, ev]
  push_cast
  ring

/-- coefficients of the derivative of the arc length -/
def darcC : List ℚ := oddDeriv arcC

theorem hasDerivAt_arcLat (x : ℝ) : HasDerivAt arcLat (ev darcC (x ^ 2)) x := by
  have e : arcLat = fun x => x * ev arcC (x ^ 2) := by funext y; exact arcLat_eq y
  rw [e]
  exact hasDerivAt_odd arcC x

/-- difference of the derivative of the arc length and the radius times `d2r` -/
def diffC : List ℚ := add darcC (smul (-1.74532925199432957692369e-02) radC)

theorem diff_bound : bound diffC 8100 ≤ 1e-18 := by decide +kernel
theorem rad_bound : bound (radC.tail) 8100 ≤ 14 := by decide +kernel

/-! ### the Taylor polynomial of the cosine -/

theorem taylor_re (y : ℝ) (K : ℕ) :
    (∑ m ∈ Finset.range (2 * K), (y * Complex.I) ^ m / (m.factorial : ℂ)).re = ∑ k ∈ Finset.range K, (-1) ^ k * y ^ (2 * k) / ((2 * k).factorial : ℝ) := by
  induction K with
  | zero => simp
  | succ K ih =>
    rw [show 2 * (K + 1) = 2 * K + 1 + 1 by ring, Finset.sum_range_succ, Finset.sum_range_succ, Finset.sum_range_succ, Complex.add_re, Complex.add_re, ih]
    have e1 : ((y * Complex.I) ^ (2 * K) / ((2 * K).factorial : ℂ)) = (((-1) ^ K * y ^ (2 * K) / ((2 * K).factorial : ℝ) : ℝ) : ℂ) := by
      rw [mul_pow, pow_mul Complex.I, Complex.I_sq]; push_cast; ring
    have e2 : ((y * Complex.I) ^ (2 * K + 1) / ((2 * K + 1).factorial : ℂ))
        = (((-1) ^ K * y ^ (2 * K + 1) / ((2 * K + 1).factorial : ℝ) : ℝ) : ℂ) * Complex.I := by
      rw [mul_pow, pow_succ Complex.I, pow_mul Complex.I, Complex.I_sq]; push_cast; ring
    rw [e1, e2, Complex.ofReal_re, Complex.re_ofReal_mul, Complex.I_re, mul_zero, add_zero]

theorem cos_taylor (y : ℝ) (K : ℕ) (h : |y| / ((2 * K).succ) ≤ 1 / 2) :
    |Real.cos y - ∑ k ∈ Finset.range K, (-1) ^ k * y ^ (2 * k) / ((2 * k).factorial : ℝ)| ≤ |y| ^ (2 * K) / ((2 * K).factorial : ℝ) * 2 := by
  have hn : ‖(y * Complex.I : ℂ)‖ = |y| := by simp
  have := Complex.exp_bound' (x := y * Complex.I) (n := 2 * K) (by rw [hn]; exact h)
  rw [hn] at this
  refine le_trans ?_ this
  have e : Real.cos y - ∑ k ∈ Finset.range K, (-1) ^ k * y ^ (2 * k) / ((2 * k).factorial : ℝ)
      = (Complex.exp (y * Complex.I) - ∑ m ∈ Finset.range (2 * K), (y * Complex.I) ^ m / (m.factorial : ℂ)).re := by
    rw [Complex.sub_re, taylor_re, Complex.exp_ofReal_mul_I_re]
  rw [e]
  exact Complex.abs_re_le_norm _

/-- the digits of pi used -/
def piQ : ℚ := 3.14159265358979323846

/-- coefficients (in the square of the latitude) of the Taylor polynomial of cos(2 lat pi/180) -/
def cosC : List ℚ := (List.range 22).map (fun k => (-1) ^ k * ((piQ / 90) ^ 2) ^ k / (2 * k).factorial)

theorem cosC_ev (x : ℝ) : ev cosC (x ^ 2) = ∑ k ∈ Finset.range 22, (-1) ^ k * (x * (piQ / 90)) ^ (2 * k) / ((2 * k).factorial : ℝ) := by
  rw [cosC, ev_range]
  refine Finset.sum_congr rfl (fun k _ => ?_)
  push_cast
  rw [pow_mul (x * _), mul_pow x _ 2, mul_pow (x ^ 2)]
  ring

def aQ : ℚ := 6378137
def bQ : ℚ := aQ * (1 - 1 / 298.257223563)

/-- square of the radius polynomial minus the Taylor polynomial of a² cos² + b² sin² -/
def sqDiffC : List ℚ := add (mul radC radC) (add [-(aQ ^ 2 + bQ ^ 2) / 2] (smul (-(aQ ^ 2 - bQ ^ 2) / 2) cosC))

theorem sqDiff_bound : bound sqDiffC 8100 ≤ 1e-4 := by decide +kernel

theorem pi_close : 0 < Real.pi - (piQ : ℝ) ∧ Real.pi - (piQ : ℝ) < 1e-20 := by
  have h1 := Real.pi_gt_d20
  have h2 := Real.pi_lt_d20
  have e : (piQ : ℝ) = 3.14159265358979323846 := by simp only [piQ]; push_cast; rfl
  rw [e]
  constructor
  · linarith
  · norm_num at h2 ⊢; linarith

theorem sq_le {x : ℝ} (hx : |x| ≤ 90) : x ^ 2 ≤ ((8100 : ℚ) : ℝ) := by
  have h := abs_le.mp hx
  push_cast
  nlinarith [h.1, h.2]

theorem factor_bound : (32 / 10 : ℝ) ^ 44 / ((44).factorial : ℝ) * 2 ≤ 1e-20 := by
  have : ((32 / 10 : ℚ) ^ 44 / ((44).factorial : ℚ) * 2 ≤ 1e-20) := by decide +kernel
  have h := (Rat.cast_le (K := ℝ)).mpr this
  push_cast at h
  exact h

theorem cos_close {x : ℝ} (hx : |x| ≤ 90) : |Real.cos (2 * (x * (Real.pi / 180))) - ev cosC (x ^ 2)| ≤ 2e-20 := by
  have hpi := pi_close
  have hq3 : (piQ : ℝ) < 3.2 := by simp only [piQ]; push_cast; norm_num
  have hq0 : (0 : ℝ) < (piQ : ℝ) := by simp only [piQ]; push_cast; norm_num
  have hy : |x * ((piQ : ℝ) / 90)| ≤ 32 / 10 := by
    rw [abs_mul, abs_of_pos (by positivity : (0 : ℝ) < (piQ : ℝ) / 90)]
    calc |x| * ((piQ : ℝ) / 90) ≤ 90 * ((piQ : ℝ) / 90) := mul_le_mul_of_nonneg_right hx (by positivity)
      _ ≤ 32 / 10 := by norm_num at hq3 ⊢; linarith
  have h1 : |Real.cos (x * ((piQ : ℝ) / 90)) - ev cosC (x ^ 2)| ≤ 1e-20 := by
    rw [cosC_ev]
    refine (cos_taylor (x * ((piQ : ℝ) / 90)) 22 ?_).trans ?_
    · rw [div_le_iff₀ (by positivity)]
      refine hy.trans ?_
      norm_num
    · refine le_trans ?_ factor_bound
      have := pow_le_pow_left₀ (abs_nonneg _) hy 44
      gcongr
  have h2 : |Real.cos (2 * (x * (Real.pi / 180))) - Real.cos (x * ((piQ : ℝ) / 90))| ≤ 1e-20 := by
    have h3 := Real.abs_cos_sub_cos_le (2 * (x * (Real.pi / 180))) (x * ((piQ : ℝ) / 90))
    refine h3.trans ?_
    have e : 2 * (x * (Real.pi / 180)) - x * ((piQ : ℝ) / 90) = x * ((Real.pi - piQ) / 90) := by ring
    rw [e, abs_mul, abs_of_pos (by have := hpi.1; positivity : 0 < (Real.pi - (piQ : ℝ)) / 90)]
    calc |x| * ((Real.pi - piQ) / 90) ≤ 90 * ((Real.pi - piQ) / 90) := mul_le_mul_of_nonneg_right hx (by have := hpi.1; positivity)
      _ ≤ 1e-20 := by have := hpi.2; norm_num at this ⊢; linarith
  have := abs_sub_le (Real.cos (2 * (x * (Real.pi / 180)))) (Real.cos (x * ((piQ : ℝ) / 90))) (ev cosC (x ^ 2))
  norm_num at *
  linarith

theorem aQ_cast : (aQ : ℝ) = Spec.Wgs84.a := by simp [aQ, Spec.Wgs84.a]
theorem bQ_cast : (bQ : ℝ) = Spec.Wgs84.b := by simp [bQ, Spec.Wgs84.b, aQ, Spec.Wgs84.a]

theorem b_pos : 6356752 < Spec.Wgs84.b ∧ Spec.Wgs84.b < Spec.Wgs84.a := by
  simp only [Spec.Wgs84.b, Spec.Wgs84.a]
  norm_num

theorem radius_sq (x : ℝ) : Spec.Wgs84.radius x ^ 2
    = (Spec.Wgs84.a ^ 2 + Spec.Wgs84.b ^ 2) / 2 + (Spec.Wgs84.a ^ 2 - Spec.Wgs84.b ^ 2) / 2 * Real.cos (2 * (x * (Real.pi / 180))) := by
  rw [Spec.Wgs84.radius, Real.sq_sqrt (by positivity), Real.cos_two_mul]
  have := Real.sin_sq (x * (Real.pi / 180))
  rw [this]; ring

theorem radius_ge (x : ℝ) : Spec.Wgs84.b ≤ Spec.Wgs84.radius x := by
  have hb := b_pos
  apply Real.le_sqrt_of_sq_le
  have h := Real.sin_sq_add_cos_sq (x * (Real.pi / 180))
  have h2 : Spec.Wgs84.b ^ 2 ≤ Spec.Wgs84.a ^ 2 := by nlinarith [hb.1, hb.2]
  nlinarith [sq_nonneg (Real.cos (x * (Real.pi / 180))), sq_nonneg (Real.sin (x * (Real.pi / 180)))]

theorem radius_le (x : ℝ) : Spec.Wgs84.radius x ≤ Spec.Wgs84.a := by
  have hb := b_pos
  have ha : 0 ≤ Spec.Wgs84.a := by simp [Spec.Wgs84.a]
  apply Real.sqrt_le_iff.mpr ⟨ha, ?_⟩
  have h := Real.sin_sq_add_cos_sq (x * (Real.pi / 180))
  have h2 : Spec.Wgs84.b ^ 2 ≤ Spec.Wgs84.a ^ 2 := by nlinarith [hb.1, hb.2]
  nlinarith [sq_nonneg (Real.cos (x * (Real.pi / 180))), sq_nonneg (Real.sin (x * (Real.pi / 180)))]

theorem rad_sq_close {x : ℝ} (hx : |x| ≤ 90) : |radLat x ^ 2 - Spec.Wgs84.radius x ^ 2| ≤ 2e-4 := by
  have h1 : |ev sqDiffC (x ^ 2)| ≤ 1e-4 := by
    refine (abs_ev_le sqDiffC (sq_nonneg x) (sq_le hx)).trans ?_
    have h := (Rat.cast_le (K := ℝ)).mpr sqDiff_bound
    push_cast at h
    exact h
  have h2 := cos_close hx
  have e : radLat x ^ 2 - Spec.Wgs84.radius x ^ 2 = ev sqDiffC (x ^ 2)
      - (Spec.Wgs84.a ^ 2 - Spec.Wgs84.b ^ 2) / 2 * (Real.cos (2 * (x * (Real.pi / 180))) - ev cosC (x ^ 2)) := by
    rw [radius_sq, sqDiffC, ev_add, ev_mul, ev_add, ev_smul, radLat_eq, ← aQ_cast, ← bQ_cast]
    simp only [ev]
    push_cast
    ring
  have hb := b_pos
  have h3 : |(Spec.Wgs84.a ^ 2 - Spec.Wgs84.b ^ 2) / 2| ≤ 1e12 := by
    have : 0 ≤ Spec.Wgs84.a ^ 2 - Spec.Wgs84.b ^ 2 := by nlinarith [hb.1, hb.2]
    rw [abs_of_nonneg (by linarith)]
    have e1 : Spec.Wgs84.a = 6378137 := rfl
    rw [e1] at hb ⊢
    norm_num
    nlinarith [hb.1, hb.2]
  rw [e]
  refine (abs_sub _ _).trans ?_
  rw [abs_mul]
  have h4 := mul_le_mul h3 h2 (abs_nonneg _) (by norm_num)
  norm_num at *
  linarith

theorem rad_pos {x : ℝ} (hx : |x| ≤ 90) : 6264000 ≤ radLat x := by
  have h : radC = 6378137 :: radC.tail := by
    rw [radC, List.tail_cons]
    congr 1; norm_num
  rw [radLat_eq, h, ev]
  have hb : |ev radC.tail (x ^ 2)| ≤ 14 := by
    refine (abs_ev_le radC.tail (sq_nonneg x) (sq_le hx)).trans ?_
    exact_mod_cast rad_bound
  have h1 := (abs_le.mp hb).1
  have h2 := sq_le hx
  push_cast at h2 ⊢
  nlinarith [sq_nonneg x]

/-- the radius polynomial agrees with the formula -/
theorem rad_close {x : ℝ} (hx : |x| ≤ 90) : |radLat x - Spec.Wgs84.radius x| ≤ 1.6e-11 := by
  have h1 := rad_sq_close hx
  have h2 := rad_pos hx
  have h3 := radius_ge x
  have hb := b_pos.1
  have e : radLat x ^ 2 - Spec.Wgs84.radius x ^ 2 = (radLat x - Spec.Wgs84.radius x) * (radLat x + Spec.Wgs84.radius x) := by ring
  rw [e, abs_mul, abs_of_pos (by linarith : 0 < radLat x + Spec.Wgs84.radius x)] at h1
  have h4 : |radLat x - Spec.Wgs84.radius x| * 12600000 ≤ |radLat x - Spec.Wgs84.radius x| * (radLat x + Spec.Wgs84.radius x) :=
    mul_le_mul_of_nonneg_left (by linarith) (abs_nonneg _)
  norm_num at *
  linarith

end Verif.Lemmas.Wgs84
