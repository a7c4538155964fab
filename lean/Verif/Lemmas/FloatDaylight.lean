import Verif.Model.FloatsDaylight
import Verif.Lemmas.FloatEvap
import Verif.Lemmas.FloatRelhumIce
import Mathlib.Analysis.SpecialFunctions.Trigonometric.InverseDeriv
import Mathlib.Analysis.Calculus.MeanValue

namespace Verif.Lemmas
open Model XF
noncomputable section

/-- sine, tangent and arc cosine of stored numbers: errors of at most two units of rounding of the value, or of 1 if the value is smaller -/
structure TrigAccurate (D : Rounding ℝ) (u : ℝ) (sn tn ac : XF ℝ → XF ℝ) : Prop where
  sin : ∀ x, D.rep x → |x| ≤ 10 → ∃ y, sn (fin x) = fin y ∧ |y - Real.sin x| ≤ 2 * u
  tan : ∀ x, D.rep x → |x| ≤ 1.1521 → ∃ y, tn (fin x) = fin y ∧ |y - Real.tan x| ≤ 2 * u * (1 + |Real.tan x|)
  arccos : ∀ x, D.rep x → |x| ≤ 1 → ∃ y, ac (fin x) = fin y ∧ |y - Real.arccos x| ≤ 2 * u * (1 + Real.arccos x)

variable {D R : Rounding ℝ} {u η η' : ℝ} {sn tn ac : XF ℝ → XF ℝ}

theorem cos_ge_of_le {x m : ℝ} (hm : 0 < m) (h : |x| + m ≤ 1.57079) : m - m ^ 3 / 6 ≤ Real.cos x := by
  have hpi := Real.pi_gt_d6
  have h1 : Real.sin m ≤ Real.cos x := by
    rw [← Real.cos_abs x, ← Real.sin_pi_div_two_sub]
    apply Real.sin_le_sin_of_le_of_le_pi_div_two
    · have := Real.pi_pos; linarith
    · have := abs_nonneg x; linarith
    · norm_num at h hpi ⊢; linarith
  exact (Real.sin_gt_sub_cube hm).le.trans h1

theorem tan_close {a a' : ℝ} (h : 0 < Real.cos a) (h' : 0 < Real.cos a') {c : ℝ} (hc0 : 0 < c) (hc : c ≤ Real.cos a) (hc' : c ≤ Real.cos a') :
    |Real.tan a' - Real.tan a| ≤ |a' - a| / c ^ 2 := by
  have e : Real.tan a' - Real.tan a = Real.sin (a' - a) / (Real.cos a' * Real.cos a) := by
    rw [Real.tan_eq_sin_div_cos, Real.tan_eq_sin_div_cos, Real.sin_sub]
    field_simp
  rw [e, abs_div, abs_of_pos (mul_pos h' h)]
  have h1 : c ^ 2 ≤ Real.cos a' * Real.cos a := by rw [sq]; exact mul_le_mul hc' hc hc0.le h'.le
  have h2 : |Real.sin (a' - a)| ≤ |a' - a| := Real.abs_sin_le_abs
  exact div_le_div₀ (abs_nonneg _) h2 (by positivity) h1

theorem pi_close (P : Precise R u η) : Rel u 1.01 (R.fl Real.pi) Real.pi := by
  have := Real.pi_gt_three
  exact Rel.const P (by rw [abs_of_pos Real.pi_pos]; norm_num; linarith)

theorem rad_close (PD : Precise D u η) (PR : Precise R u η') : |radFl D R - Real.pi / 180| ≤ 0.0537 * u := by
  have hu := PD.acc.u_nonneg
  have hu6 := PD.u_le
  have hpi := Real.pi_gt_three
  have hpi2 := Real.pi_lt_d6
  have h1 := Rel.div hu hu6 (by norm_num) (by norm_num) (le_refl 0) (by norm_num) (pi_close PR) (Rel.refl u 180) (by norm_num)
  have hx : (1e-20 : ℝ) ≤ |Real.pi / 180| := by rw [abs_of_pos (by positivity)]; norm_num; linarith
  have h2 := Rel.fl PD (by norm_num) (by norm_num) (Rel.fl PR (by norm_num) (by norm_num) h1 hx) hx
  unfold Rel at h2
  rw [abs_of_pos (show 0 < Real.pi / 180 by positivity)] at h2
  have h3 : (1.01 + 0 + 0.03 + 1.01 + 1.01) * u * (Real.pi / 180) ≤ 0.0537 * u := by
    have := mul_le_mul_of_nonneg_left hpi2.le hu
    norm_num at this ⊢
    linarith
  exact h2.trans h3

theorem pi2yr_close (PD : Precise D u η) (PR : Precise R u η') : |pi2yrFl D R - 2 * Real.pi / 365| ≤ 0.0705 * u := by
  have hu := PD.acc.u_nonneg
  have hu6 := PD.u_le
  have hpi := Real.pi_gt_three
  have hpi2 := Real.pi_lt_d6
  have h0 := Rel.fl PR (by norm_num) (by norm_num) (Rel.mul hu hu6 (le_refl 0) (by norm_num) (by norm_num) (by norm_num) (Rel.refl u 2) (pi_close PR))
    (by rw [abs_of_pos (by positivity)]; norm_num; linarith)
  have h1 := Rel.div hu hu6 (by norm_num) (by norm_num) (le_refl 0) (by norm_num) h0 (Rel.refl u 365) (by norm_num)
  have hx : (1e-20 : ℝ) ≤ |2 * Real.pi / 365| := by rw [abs_of_pos (by positivity)]; norm_num; linarith
  have h2 := Rel.fl PD (by norm_num) (by norm_num) (Rel.fl PR (by norm_num) (by norm_num) h1 hx) hx
  unfold Rel at h2
  rw [abs_of_pos (show 0 < 2 * Real.pi / 365 by positivity)] at h2
  refine h2.trans ?_
  have := mul_le_mul_of_nonneg_left hpi2.le hu
  norm_num at this ⊢
  linarith

theorem con_close (PD : Precise D u η) (PR : Precise R u η') : |conFl D R - 24 / Real.pi| ≤ 24 * u ∧ |conFl D R| ≤ 7.65 := by
  have hu := PD.acc.u_nonneg
  have hu6 := PD.u_le
  have hpi := Real.pi_gt_d6
  have hpi0 := Real.pi_pos
  have hc : 24 / Real.pi ≤ 7.6395 := by rw [div_le_iff₀ hpi0]; norm_num at hpi ⊢; linarith
  have hc1 : (1 : ℝ) ≤ 24 / Real.pi := by rw [le_div_iff₀ hpi0]; have := Real.pi_lt_four; linarith
  have h1 := Rel.div hu hu6 (le_refl 0) (by norm_num) (by norm_num) (by norm_num) (Rel.refl u 24) (pi_close PR) hpi0.ne'
  have hx : (1e-20 : ℝ) ≤ |24 / Real.pi| := by rw [abs_of_pos (by positivity)]; norm_num at hc1 ⊢; linarith
  have h2 := Rel.fl PD (by norm_num) (by norm_num) (Rel.fl PR (by norm_num) (by norm_num) h1 hx) hx
  unfold Rel at h2
  rw [abs_of_pos (show 0 < 24 / Real.pi by positivity)] at h2
  have h3 : |conFl D R - 24 / Real.pi| ≤ 24 * u := by
    refine h2.trans ?_
    have := mul_le_mul_of_nonneg_left hc hu
    norm_num at this ⊢
    linarith
  refine ⟨h3, ?_⟩
  have := abs_le.mp h3
  rw [abs_le]
  norm_num at this hc hc1 hu6 ⊢
  constructor <;> linarith

/-- rounded latitude in radians -/
def latF (D R : Rounding ℝ) (l : ℝ) : ℝ := D.fl (l * radFl D R)

theorem lat_size {l : ℝ} (h : |l| ≤ 66) : |l * (Real.pi / 180)| ≤ 1.15192 := by
  have := Real.pi_lt_d6
  refine (lat_bounds h).trans ?_
  norm_num at this ⊢
  linarith

theorem latF_close (PD : Precise D u η) (PR : Precise R u η') {l : ℝ} (h : |l| ≤ 66) : |latF D R l - l * (Real.pi / 180)| ≤ 4.9 * u ∧ |latF D R l| ≤ 1.1521 := by
  have hu := PD.acc.u_nonneg
  have hu6 := PD.u_le
  have h1 : |l * radFl D R - l * (Real.pi / 180)| ≤ 3.545 * u := by
    rw [← mul_sub, abs_mul]
    have := mul_le_mul h (rad_close PD PR) (abs_nonneg _) (by norm_num)
    norm_num at this ⊢
    linarith
  have h2 := abs_fl PD (by norm_num) (by norm_num) h1 (lat_size h)
  have h3 : |latF D R l - l * (Real.pi / 180)| ≤ 4.9 * u := h2.trans (mul_le_mul_of_nonneg_right (by norm_num) hu)
  refine ⟨h3, ?_⟩
  have a := abs_le.mp h3
  have b := abs_le.mp (lat_size h)
  rw [abs_le]
  norm_num at a b hu6 ⊢
  constructor <;> linarith

theorem cos_04 {x : ℝ} (h : |x| ≤ 1.1521) : 0.4 ≤ Real.cos x := by
  have := cos_ge_of_le (x := x) (m := 0.418) (by norm_num) (by norm_num at h ⊢; linarith)
  refine le_trans ?_ this
  norm_num

/-- the computed tangent of the latitude -/
theorem tanLat_close (PD : Precise D u η) (PR : Precise R u η') (A : TrigAccurate D u sn tn ac) {l : ℝ} (h : |l| ≤ 66) :
    ∃ y, tn (fin (latF D R l)) = fin y ∧ |y - Real.tan (l * (Real.pi / 180))| ≤ 37.7 * u ∧ |y| ≤ 2.6 := by
  have hu := PD.acc.u_nonneg
  have hu6 := PD.u_le
  obtain ⟨h1, h2⟩ := latF_close PD PR h
  have h3 := lat_size h
  set a := l * (Real.pi / 180)
  set a' := latF D R l
  obtain ⟨y, y1, y2⟩ := A.tan a' (D.rep_fl _) h2
  have c := cos_04 h2
  have c' := cos_04 (x := a) (by norm_num at h3 ⊢; linarith)
  have t1 := tan_close (a := a) (a' := a') (lt_of_lt_of_le (by norm_num) c') (lt_of_lt_of_le (by norm_num) c) (c := 0.4) (by norm_num) c' c
  have t2 : |Real.tan a'| ≤ 2.5 := by
    rw [Real.tan_eq_sin_div_cos, abs_div, abs_of_pos (lt_of_lt_of_le (by norm_num) c), div_le_iff₀ (lt_of_lt_of_le (by norm_num) c)]
    have := Real.abs_sin_le_one a'
    norm_num at c ⊢
    linarith
  have t3 : |Real.tan a' - Real.tan a| ≤ 30.7 * u := by
    refine t1.trans ?_
    rw [div_le_iff₀ (by norm_num)]
    refine h1.trans ?_
    norm_num
    linarith
  have t4 : 2 * u * (1 + |Real.tan a'|) ≤ 7 * u := by
    have := mul_le_mul_of_nonneg_left t2 hu
    norm_num at this ⊢
    linarith
  have h6 := abs_sub_le y (Real.tan a') (Real.tan a)
  refine ⟨y, y1, ?_, ?_⟩
  · norm_num at t3 t4 ⊢
    linarith
  · have h7 := y2.trans t4
    have a := abs_le.mp h7
    have b := abs_le.mp t2
    rw [abs_le]
    norm_num at a b hu6 ⊢
    constructor <;> linarith

/-- rounded solar declination -/
theorem dec_close (PD : Precise D u η) (PR : Precise R u η') (A : TrigAccurate D u sn tn ac) {d : ℝ} (h : |d| ≤ 366) :
    ∃ b', solarDecFl D R sn (fin d) = fin b' ∧ D.rep b' ∧ |b' - decR d| ≤ 20 * u ∧ |b'| ≤ 0.4091 := by
  have hu := PD.acc.u_nonneg
  have hu6 := PD.u_le
  have hpi2 := Real.pi_lt_d6
  have hpi0 := Real.pi_pos
  have h1 : |pi2yrFl D R * d - 2 * Real.pi / 365 * d| ≤ 25.81 * u := by
    rw [← sub_mul, abs_mul]
    have := mul_le_mul (pi2yr_close PD PR) h (abs_nonneg _) (by positivity)
    norm_num at this ⊢
    linarith
  have hs : |2 * Real.pi / 365 * d| ≤ 6.301 := by
    rw [abs_mul, abs_of_pos (by positivity)]
    have : 2 * Real.pi / 365 ≤ 0.017215 := by rw [div_le_iff₀ (by norm_num)]; norm_num at hpi2 ⊢; linarith
    have := mul_le_mul this h (abs_nonneg _) (by norm_num)
    norm_num at this ⊢
    linarith
  have h2 := abs_fl PD (by norm_num) (by norm_num) h1 hs
  have c0 := twice_abs PD PR (c := 1.39) (by norm_num)
  have h3 : |(D.fl (pi2yrFl D R * d) - D.fl (R.fl 1.39)) - (2 * Real.pi / 365 * d - 1.39)| ≤ 35.2 * u := by
    have e : (D.fl (pi2yrFl D R * d) - D.fl (R.fl 1.39)) - (2 * Real.pi / 365 * d - 1.39) =
        (D.fl (pi2yrFl D R * d) - 2 * Real.pi / 365 * d) - (D.fl (R.fl 1.39) - 1.39) := by ring
    rw [e]
    refine (abs_sub _ _).trans ?_
    norm_num at h2 c0 ⊢
    linarith
  have hs2 : |2 * Real.pi / 365 * d - 1.39| ≤ 7.7 := by
    refine (abs_sub _ _).trans ?_
    norm_num at hs ⊢
    linarith
  have h4 := abs_fl PD (by norm_num) (by norm_num) h3 hs2
  set x := 2 * Real.pi / 365 * d - 1.39 with hx
  set x' := D.fl (D.fl (pi2yrFl D R * d) - D.fl (R.fl 1.39)) with hx'
  obtain ⟨y, y1, y2⟩ := A.sin x' (D.rep_fl _) (by
    have a := abs_le.mp h4
    have b := abs_le.mp hs2
    rw [abs_le]
    norm_num at a b hu6 ⊢
    constructor <;> linarith)
  have h5 : |Real.sin x' - Real.sin x| ≤ |x' - x| := by
    have e : Real.sin x' - Real.sin x = 2 * Real.sin ((x' - x) / 2) * Real.cos ((x' + x) / 2) := Real.sin_sub_sin x' x
    rw [e, abs_mul, abs_mul, abs_two]
    have k1 : |Real.sin ((x' - x) / 2)| ≤ |(x' - x) / 2| := Real.abs_sin_le_abs
    have k2 := Real.abs_cos_le_one ((x' + x) / 2)
    rw [abs_div, abs_two] at k1
    have k3 := mul_le_mul k1 k2 (abs_nonneg _) (by positivity)
    linarith
  have h6 : |y - Real.sin x| ≤ 45.2 * u := by
    have := abs_sub_le y (Real.sin x') (Real.sin x)
    norm_num at h4 ⊢
    linarith
  have c1 := twice_abs PD PR (c := 0.409) (by norm_num)
  have hM : |D.fl (R.fl 0.409)| ≤ 0.41 := by
    have := abs_le.mp c1
    rw [abs_le]
    norm_num at this hu6 ⊢
    constructor <;> linarith
  have h7 := abs_mul_close c1 h6 hM (Real.abs_sin_le_one x) hu (by norm_num)
  have h8 := abs_fl PD (by norm_num) (by norm_num) h7 (decR_abs d)
  have h9 : |D.fl (D.fl (R.fl 0.409) * y) - decR d| ≤ 20 * u := h8.trans (mul_le_mul_of_nonneg_right (by norm_num) hu)
  refine ⟨_, ?_, D.rep_fl _, h9, ?_⟩
  · unfold solarDecFl
    simp only [fin_mul, rxf_fin, fin_sub]
    rw [← hx', y1]
    rfl
  · have a := abs_le.mp h9
    have b := abs_le.mp (decR_abs d)
    rw [abs_le]
    norm_num at a b hu6 ⊢
    constructor <;> linarith

theorem cos_0916 {x : ℝ} (h : |x| ≤ 0.4091) : 0.916 ≤ Real.cos x := by
  have h1 := Real.one_sub_sq_div_two_le_cos (x := x)
  have h2 : x ^ 2 ≤ 0.4091 ^ 2 := by rw [← sq_abs]; exact pow_le_pow_left₀ (abs_nonneg x) h 2
  norm_num at h2 ⊢
  linarith

/-- the computed tangent of the declination -/
theorem tanDec_close (PD : Precise D u η) (PR : Precise R u η') (A : TrigAccurate D u sn tn ac) {d : ℝ} (h : |d| ≤ 366) :
    ∃ y, tn (solarDecFl D R sn (fin d)) = fin y ∧ |y - Real.tan (decR d)| ≤ 26.8 * u ∧ |Real.tan (decR d)| ≤ 0.45 := by
  have hu := PD.acc.u_nonneg
  have hu6 := PD.u_le
  obtain ⟨b', hb1, hb2, hb3, hb4⟩ := dec_close PD PR A h
  obtain ⟨y, y1, y2⟩ := A.tan b' hb2 (hb4.trans (by norm_num))
  have hb := decR_abs d
  set b := decR d
  have hb5 : |b| ≤ 0.4091 := hb.trans (by norm_num)
  have tb : ∀ x : ℝ, |x| ≤ 0.4091 → |Real.tan x| ≤ 0.45 := by
    intro x hx
    have c := cos_0916 hx
    have c0 : 0 < Real.cos x := lt_of_lt_of_le (by norm_num) c
    rw [Real.tan_eq_sin_div_cos, abs_div, abs_of_pos c0, div_le_iff₀ c0]
    have : |Real.sin x| ≤ |x| := Real.abs_sin_le_abs
    norm_num at c hx ⊢
    linarith
  have t1 := tan_close (a := b) (a' := b') (lt_of_lt_of_le (by norm_num) (cos_0916 hb5)) (lt_of_lt_of_le (by norm_num) (cos_0916 hb4)) (c := 0.916) (by norm_num)
    (cos_0916 hb5) (cos_0916 hb4)
  have t3 : |Real.tan b' - Real.tan b| ≤ 23.86 * u := by
    refine t1.trans ?_
    rw [div_le_iff₀ (by norm_num)]
    refine hb3.trans ?_
    norm_num
    linarith
  have t4 : 2 * u * (1 + |Real.tan b'|) ≤ 2.9 * u := by
    have := mul_le_mul_of_nonneg_left (tb b' hb4) hu
    norm_num at this ⊢
    linarith
  refine ⟨y, by rw [hb1]; exact y1, ?_, tb b hb5⟩
  have h6 := abs_sub_le y (Real.tan b') (Real.tan b)
  norm_num at t3 t4 ⊢
  linarith

/-- the argument of the arc cosine stays away from 1 -/
theorem hourArg_size {d l : ℝ} (h : |l| ≤ 66) : |hourArg d l| ≤ 0.9902 := by
  have ha := lat_size h
  have hb := decR_abs d
  have ca : 0 < Real.cos (l * (Real.pi / 180)) := cos_lat_pos h
  have cb : 0 < Real.cos (decR d) := cos_decR_pos d
  have e : hourArg d l = -(Real.sin (l * (Real.pi / 180)) * Real.sin (decR d)) / (Real.cos (l * (Real.pi / 180)) * Real.cos (decR d)) := by
    unfold hourArg
    rw [Real.tan_eq_sin_div_cos, Real.tan_eq_sin_div_cos]
    field_simp
  rw [e]
  set a := l * (Real.pi / 180)
  set b := decR d
  have hm : ∀ x : ℝ, |x| ≤ 1.56092 → 0.0098 ≤ Real.cos x := by
    intro x hx
    have := cos_ge_of_le (x := x) (m := 0.00987) (by norm_num) (by norm_num at hx ⊢; linarith)
    refine le_trans ?_ this
    norm_num
  have c1 := hm (a + b) ((abs_add_le a b).trans (by norm_num at ha hb ⊢; linarith))
  have c2 := hm (a - b) ((abs_sub a b).trans (by norm_num at ha hb ⊢; linarith))
  rw [Real.cos_add] at c1
  rw [Real.cos_sub] at c2
  have cc : 0 < Real.cos a * Real.cos b := by positivity
  have cc1 : Real.cos a * Real.cos b ≤ 1 := by
    have := mul_le_mul (Real.cos_le_one a) (Real.cos_le_one b) cb.le (by norm_num)
    linarith
  rw [abs_le]
  norm_num at c1 c2 ⊢
  constructor
  · rw [le_div_iff₀ cc]; linarith
  · rw [div_le_iff₀ cc]; linarith

theorem arccos_lipschitz {x x' : ℝ} (h : |x| ≤ 0.9905) (h' : |x'| ≤ 0.9905) : |Real.arccos x' - Real.arccos x| ≤ 7.3 * |x' - x| := by
  have hs : Convex ℝ (Set.Icc (-0.9905 : ℝ) 0.9905) := convex_Icc _ _
  refine hs.norm_image_sub_le_of_norm_hasDerivWithin_le (f := Real.arccos) (f' := fun x => -(1 / √(1 - x ^ 2))) (C := 7.3) ?_ ?_ (abs_le.mp h) (abs_le.mp h')
  · intro y hy
    refine (Real.hasDerivAt_arccos ?_ ?_).hasDerivWithinAt
    · intro e; rw [e] at hy; have := hy.1; norm_num at this
    · intro e; rw [e] at hy; have := hy.2; norm_num at this
  · intro y hy
    rw [Real.norm_eq_abs, abs_neg, abs_div, abs_one, abs_of_nonneg (Real.sqrt_nonneg _)]
    have h1 : y ^ 2 ≤ 0.9905 ^ 2 := by rw [← sq_abs]; exact pow_le_pow_left₀ (abs_nonneg y) (abs_le.mpr hy) 2
    have h2 : (1 / 7.3 : ℝ) ≤ √(1 - y ^ 2) := by
      apply Real.le_sqrt_of_sq_le
      norm_num at h1 ⊢
      linarith
    rw [div_le_iff₀ (lt_of_lt_of_le (by norm_num) h2)]
    norm_num at h2 ⊢
    linarith

/-- the computed hours of daylight -/
theorem daylight_close (PD : Precise D u η) (PR : Precise R u η') (A : TrigAccurate D u sn tn ac) {d l : ℝ} (hd : |d| ≤ 366) (hl : |l| ≤ 66) :
    ∃ x', daylightPointFl D R sn tn ac (fin d) (fin l) = fin x' ∧ |x' - 24 / Real.pi * Real.arccos (hourArg d l)| ≤ 5100 * u := by
  have hu := PD.acc.u_nonneg
  have hu6 := PD.u_le
  obtain ⟨T, T1, T2, T3⟩ := tanLat_close PD PR A hl
  obtain ⟨S, S1, S2, S3⟩ := tanDec_close PD PR A hd
  have hx := hourArg_size (d := d) hl
  have h1 := abs_mul_close T2 S2 T3 S3 hu (by norm_num)
  have h2 : |-T * S - hourArg d l| ≤ 86.7 * u := by
    have e : -T * S - hourArg d l = -(T * S - Real.tan (l * (Real.pi / 180)) * Real.tan (decR d)) := by unfold hourArg; ring
    rw [e, abs_neg]
    refine h1.trans (mul_le_mul_of_nonneg_right (by norm_num) hu)
  have h3 := abs_fl PD (by norm_num) (by norm_num) h2 (hx.trans (by norm_num : (0.9902 : ℝ) ≤ 1))
  set x' := D.fl (-T * S) with hx'
  set x := hourArg d l
  have h3' : |x' - x| ≤ 87.9 * u := h3.trans (mul_le_mul_of_nonneg_right (by norm_num) hu)
  have hx2 : |x'| ≤ 0.9905 := by
    have a := abs_le.mp h3'
    have b := abs_le.mp hx
    rw [abs_le]
    norm_num at a b hu6 ⊢
    constructor <;> linarith
  have h4 := arccos_lipschitz (x := x) (x' := x') (hx.trans (by norm_num)) hx2
  obtain ⟨y, y1, y2⟩ := A.arccos x' (D.rep_fl _) (hx2.trans (by norm_num))
  have hpi2 := Real.pi_lt_d6
  have h5 : 2 * u * (1 + Real.arccos x') ≤ 8.3 * u := by
    have := mul_le_mul_of_nonneg_left (Real.arccos_le_pi x') hu
    have := mul_le_mul_of_nonneg_left hpi2.le hu
    norm_num at this ⊢
    linarith
  have h6 : |y - Real.arccos x| ≤ 650 * u := by
    have := abs_sub_le y (Real.arccos x') (Real.arccos x)
    norm_num at h3' h4 h5 ⊢
    linarith
  obtain ⟨c1, c2⟩ := con_close PD PR
  have h7 := abs_mul_close c1 h6 c2 (by rw [abs_of_nonneg (Real.arccos_nonneg x)]; exact (Real.arccos_le_pi x).trans (hpi2.le.trans (by norm_num)) : |Real.arccos x| ≤ 3.1416) hu (by norm_num)
  have h8 := abs_fl PD (M := 24) (by norm_num) (by norm_num) h7 (by
    rw [abs_of_nonneg (arccos_hours_bounds x).1]; exact (arccos_hours_bounds x).2)
  refine ⟨_, ?_, h8.trans (mul_le_mul_of_nonneg_right (by norm_num) hu)⟩
  unfold daylightPointFl
  simp only [fin_mul, rxf_fin]
  change roundXF D (fin (conFl D R) * ac (roundXF D (-tn (fin (latF D R l)) * tn (solarDecFl D R sn (fin d))))) = _
  rw [T1, S1, fin_neg, fin_mul, rxf_fin, ← hx', y1]
  rfl

end
end Verif.Lemmas
