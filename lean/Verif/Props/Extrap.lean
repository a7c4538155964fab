import Verif.Model.Extrap
import Verif.Spec.Ecmwf
import Mathlib.Topology.Algebra.Order.Field

/-
Properties C18, C19, C85: extrapolation of temperature and geopotential height below ground.
-/

set_option linter.unusedSectionVars false
namespace Verif.Props
open Model Spec
noncomputable section

theorem alpha_eq : alphaLapse = Ecmwf.α := by
  unfold alphaLapse Rd gInv Ecmwf.α Ecmwf.lapse Ecmwf.R Ecmwf.g
  norm_num

theorem alpha_bounds : 0 < Ecmwf.α ∧ Ecmwf.α < 1 := by
  unfold Ecmwf.α Ecmwf.lapse Ecmwf.R Ecmwf.g
  norm_num

theorem gInv_mul (phi : ℝ) : phi * gInv = phi / Ecmwf.g := by
  unfold gInv Ecmwf.g
  ring

theorem g_pos : 0 < Ecmwf.g := by unfold Ecmwf.g; norm_num
theorem R_pos : 0 < Ecmwf.R := by unfold Ecmwf.R; norm_num

theorem surfaceT_pos (t pl ps : ℝ) (ht : 0 < t) (hl : 0 < pl) (hs : 0 < ps) : 0 < Ecmwf.surfaceT t pl ps := by
  unfold Ecmwf.surfaceT
  have := alpha_bounds
  have hr : 0 < ps / pl := div_pos hs hl
  have : 0 < 1 + Ecmwf.α * (ps / pl - 1) := by nlinarith
  positivity

theorem tStar_fin (t pl ps : ℝ) (hl : 0 < pl) : tStar (.fin t) (.fin pl) (.fin ps) = .fin (Ecmwf.surfaceT t pl ps) := by
  unfold tStar
  rw [XF.fin_div _ _ hl.ne', XF.fin_sub, XF.fin_mul, XF.fin_add, XF.fin_mul, alpha_eq]
  rfl

theorem log_ratio (p ps : ℝ) (hp : 0 < p) (hs : 0 < ps) : XF.log (.fin p / .fin ps) = .fin (Real.log (p / ps)) := by
  rw [XF.fin_div _ _ hs.ne', XF.log_fin (div_pos hp hs)]

theorem npMinimum_fin (a b : ℝ) : npMinimum (.fin a) (.fin b) = .fin (min a b) := by
  simp only [npMinimum, XF.isNaN_fin, Bool.or_false, Bool.false_eq_true, if_false, XF.lt_fin, decide_eq_true_eq]
  rcases lt_or_ge b a with h | h
  · rw [if_pos h, min_eq_right h.le]
  · rw [if_neg (not_lt.mpr h), min_eq_left h]

/-- C18, formula: for positive temperature and pressures the extrapolated temperature is the finite number given by the ECMWF
formula, whatever the surface geopotential (zero and negative included). -/
theorem C18_formula (t p pl ps phi : ℝ) (ht : 0 < t) (hp : 0 < p) (hl : 0 < pl) (hs : 0 < ps) :
    tempExtrapolate (.fin t) (.fin p) (.fin pl) (.fin ps) (.fin phi) =
      .fin (Ecmwf.temperature (Ecmwf.surfaceT t pl ps) ps phi p) := by
  have hts := surfaceT_pos t pl ps ht hl hs
  unfold tempExtrapolate
  simp only [tStar_fin t pl ps hl, XF.fin_mul, XF.fin_add, gInv_mul, npMinimum_fin, log_ratio p ps hp hs, XF.le_fin, XF.lt_fin, XF.fin_sub,
    alpha_eq]
  set ts := Ecmwf.surfaceT t pl ps with hdef
  set h := phi / Ecmwf.g with hh
  set L := Real.log (p / ps) with hL
  have hlap : (0.0065 : ℝ) = Ecmwf.lapse := rfl
  have hR : Rd = Ecmwf.R := rfl
  have fin_poly : ∀ u : ℝ, (XF.fin ts * (XF.fin 1 + XF.fin u + XF.fin 0.5 * (XF.fin u * XF.fin u) +
      XF.fin (1 / 6) * (XF.fin u * XF.fin u * XF.fin u)) : XF ℝ) = .fin (ts * (1 + u + u ^ 2 / 2 + u ^ 3 / 6)) := by
    intro u
    simp only [XF.fin_mul, XF.fin_add]
    congr 1
    ring
  rw [hlap, hR]
  by_cases c1 : h < 2000
  · have n1 : ¬ 2500 < h := by linarith
    have n2 : ¬ 2000 ≤ h := by linarith
    simp only [XF.sel, c1, n1, n2, decide_true, decide_false, Bool.false_and, Bool.false_eq_true, if_false, if_true, XF.nan_lt, XF.fin_mul]
    have : Ecmwf.temperature ts ps phi p = ts * (1 + Ecmwf.α * L + (Ecmwf.α * L) ^ 2 / 2 + (Ecmwf.α * L) ^ 3 / 6) := by
      simp only [Ecmwf.temperature, Ecmwf.alphaT, ← hh, c1, if_true, ← hL]
    rw [this, ← fin_poly]
    simp only [XF.fin_mul]
  · have hphi : 0 < phi := by
      have : 0 < h := by linarith
      rw [hh] at this
      exact (div_pos_iff_of_pos_right g_pos).mp this
    have n1 : 2000 ≤ h := by linarith
    -- the reference temperature
    have href : ∀ tp, (XF.sel (decide (2500 < h)) (XF.fin (min 298 (ts + Ecmwf.lapse * h)))
        (XF.sel (decide (2000 ≤ h) && decide (h ≤ 2500))
          (XF.fin (0.002 * ((2500 - h) * (ts + Ecmwf.lapse * h) + (h - 2000) * min 298 (ts + Ecmwf.lapse * h)))) XF.nan) : XF ℝ) = tp →
        tp = .fin (Ecmwf.plateauT ts h) := by
      intro tp htp
      subst htp
      by_cases c2 : 2500 < h
      · have n3 : ¬ h ≤ 2000 := by linarith
        have n4 : ¬ h ≤ 2500 := by linarith
        simp [XF.sel, c2, Ecmwf.plateauT, n3, n4]
      · have n4 : h ≤ 2500 := by linarith
        simp only [XF.sel, c2, n1, n4, decide_true, decide_false, Bool.and_self, Bool.false_eq_true, if_false, if_true, Ecmwf.plateauT]
        split_ifs with c3
        · have : h = 2000 := le_antisymm c3 n1
          rw [this]
          congr 1
          norm_num
          ring
        · congr 1
          ring
    generalize htp : (XF.sel (decide (2500 < h)) (XF.fin (min 298 (ts + Ecmwf.lapse * h)))
        (XF.sel (decide (2000 ≤ h) && decide (h ≤ 2500))
          (XF.fin (0.002 * ((2500 - h) * (ts + Ecmwf.lapse * h) + (h - 2000) * min 298 (ts + Ecmwf.lapse * h)))) XF.nan) : XF ℝ) = tp
    have hv := href tp htp
    rw [hv]
    simp only [XF.lt_fin, XF.fin_sub, XF.fin_mul, XF.fin_div _ _ hphi.ne', XF.sel, c1, decide_false, Bool.false_eq_true, if_false]
    have hα : Ecmwf.alphaT ts phi = max 0 (Ecmwf.R * (Ecmwf.plateauT ts h - ts) / phi) := by
      simp only [Ecmwf.alphaT, ← hh, c1, if_false]
    by_cases c4 : Ecmwf.plateauT ts h < ts
    · have hneg : Ecmwf.R * (Ecmwf.plateauT ts h - ts) / phi ≤ 0 :=
        div_nonpos_of_nonpos_of_nonneg (mul_nonpos_of_nonneg_of_nonpos R_pos.le (by linarith)) hphi.le
      have : Ecmwf.temperature ts ps phi p = ts * (1 + 0 + 0 ^ 2 / 2 + 0 ^ 3 / 6) := by
        simp only [Ecmwf.temperature, hα, max_eq_left hneg, zero_mul]
      rw [this, ← fin_poly]
      simp [c4]
    · have hpos : 0 ≤ Ecmwf.R * (Ecmwf.plateauT ts h - ts) / phi :=
        div_nonneg (mul_nonneg R_pos.le (by linarith)) hphi.le
      have : Ecmwf.temperature ts ps phi p = ts * (1 + Ecmwf.R * (Ecmwf.plateauT ts h - ts) / phi * L +
          (Ecmwf.R * (Ecmwf.plateauT ts h - ts) / phi * L) ^ 2 / 2 + (Ecmwf.R * (Ecmwf.plateauT ts h - ts) / phi * L) ^ 3 / 6) := by
        simp only [Ecmwf.temperature, hα, max_eq_right hpos, ← hL]
      rw [this, ← fin_poly]
      simp [c4]

theorem alphaT_nonneg (ts phi : ℝ) : 0 ≤ Ecmwf.alphaT ts phi := by
  unfold Ecmwf.alphaT
  split_ifs
  · exact alpha_bounds.1.le
  · exact le_max_left _ _

/-- `1 + u + u²/2 + u³/6` is strictly increasing -/
theorem cubic_mono {u w : ℝ} (h : u < w) : 1 + u + u ^ 2 / 2 + u ^ 3 / 6 < 1 + w + w ^ 2 / 2 + w ^ 3 / 6 := by
  have hb : 0 < 1 + (u + w) / 2 + (u ^ 2 + u * w + w ^ 2) / 6 := by nlinarith [sq_nonneg (u - w), sq_nonneg (1 + (u + w) / 2)]
  have : (1 + w + w ^ 2 / 2 + w ^ 3 / 6) - (1 + u + u ^ 2 / 2 + u ^ 3 / 6) = (w - u) * (1 + (u + w) / 2 + (u ^ 2 + u * w + w ^ 2) / 6) := by
    ring
  nlinarith

/-- C18, anchored and monotone: at the surface pressure the extrapolated temperature is the surface temperature T*, and it does
not decrease with pressure. -/
theorem C18_anchored_monotone (t pl ps phi : ℝ) (ht : 0 < t) (hl : 0 < pl) (hs : 0 < ps) :
    tempExtrapolate (.fin t) (.fin ps) (.fin pl) (.fin ps) (.fin phi) = .fin (t * (1 + Ecmwf.α * (ps / pl - 1))) ∧
    ∀ p p', 0 < p → p ≤ p' → ∃ v v' : ℝ, tempExtrapolate (.fin t) (.fin p) (.fin pl) (.fin ps) (.fin phi) = .fin v ∧
      tempExtrapolate (.fin t) (.fin p') (.fin pl) (.fin ps) (.fin phi) = .fin v' ∧ v ≤ v' := by
  constructor
  · rw [C18_formula t ps pl ps phi ht hs hl hs]
    simp [Ecmwf.temperature, div_self hs.ne', Ecmwf.surfaceT]
  · intro p p' hp hpp
    refine ⟨_, _, C18_formula t p pl ps phi ht hp hl hs, C18_formula t p' pl ps phi ht (hp.trans_le hpp) hl hs, ?_⟩
    have hts := surfaceT_pos t pl ps ht hl hs
    have hlog : Real.log (p / ps) ≤ Real.log (p' / ps) :=
      Real.log_le_log (div_pos hp hs) (div_le_div_of_nonneg_right hpp hs.le)
    have hu := mul_le_mul_of_nonneg_left hlog (alphaT_nonneg (Ecmwf.surfaceT t pl ps) phi)
    simp only [Ecmwf.temperature]
    refine mul_le_mul_of_nonneg_left ?_ hts.le
    rcases eq_or_lt_of_le hu with h | h
    · rw [h]
    · exact (cubic_mono h).le

theorem alphaT_continuous (ts : ℝ) : Continuous (fun phi : ℝ => Ecmwf.alphaT ts phi) := by
  have h1 : Continuous (fun h : ℝ => Ecmwf.plateauT ts h) := by
    unfold Ecmwf.plateauT
    refine Continuous.if_le ?_ (Continuous.if_le ?_ ?_ continuous_id continuous_const ?_) continuous_id continuous_const ?_
    · fun_prop
    · fun_prop
    · fun_prop
    · intro h hh
      rw [show h = 2500 from hh]
      ring
    · intro h hh
      rw [show h = 2000 from hh]
      norm_num
      try ring
  -- the two branches meet at 2000 m
  have hmeet : ∀ phi, phi / Ecmwf.g = 2000 → Ecmwf.α = max 0 (Ecmwf.R * (Ecmwf.plateauT ts (phi / Ecmwf.g) - ts) / phi) := by
    intro phi hphi
    have hphi' : phi = 2000 * Ecmwf.g := by rw [← hphi, div_mul_cancel₀ _ g_pos.ne']
    have hp : Ecmwf.plateauT ts (phi / Ecmwf.g) = ts + Ecmwf.lapse * 2000 := by
      rw [hphi]; simp [Ecmwf.plateauT]
    rw [hp, hphi', Ecmwf.α]
    have : Ecmwf.R * (ts + Ecmwf.lapse * 2000 - ts) / (2000 * Ecmwf.g) = Ecmwf.lapse * Ecmwf.R / Ecmwf.g := by
      have := g_pos.ne'
      field_simp
      ring
    rw [this, max_eq_right]
    unfold Ecmwf.lapse Ecmwf.R Ecmwf.g
    norm_num
  rw [continuous_iff_continuousAt]
  intro phi
  rcases lt_trichotomy (phi / Ecmwf.g) 2000 with hlt | heq | hgt
  · have : (fun _ : ℝ => Ecmwf.α) =ᶠ[nhds phi] fun phi => Ecmwf.alphaT ts phi := by
      have ho : ∀ᶠ y in nhds phi, y / Ecmwf.g < 2000 :=
        (continuous_id.div_const Ecmwf.g).continuousAt.eventually_lt continuousAt_const hlt
      filter_upwards [ho] with y hy
      simp [Ecmwf.alphaT, hy]
    exact continuousAt_const.congr this
  · -- at the limit both formulas agree
    have hphi0 : phi ≠ 0 := by
      rintro rfl
      norm_num at heq
    have hF : ContinuousAt (fun y : ℝ => max 0 (Ecmwf.R * (Ecmwf.plateauT ts (y / Ecmwf.g) - ts) / y)) phi := by
      refine Filter.Tendsto.max tendsto_const_nhds (ContinuousAt.div ?_ continuousAt_id hphi0)
      exact (continuous_const.mul ((h1.comp (continuous_id.div_const _)).sub continuous_const)).continuousAt
    have hval : Ecmwf.alphaT ts phi = Ecmwf.α := by
      have : ¬ phi / Ecmwf.g < 2000 := by rw [heq]; exact lt_irrefl _
      simp only [Ecmwf.alphaT, this, if_false]
      exact (hmeet phi heq).symm
    have hF : Filter.Tendsto (fun y : ℝ => max 0 (Ecmwf.R * (Ecmwf.plateauT ts (y / Ecmwf.g) - ts) / y)) (nhds phi) (nhds Ecmwf.α) := by
      rw [hmeet phi heq]; exact hF
    show Filter.Tendsto _ _ (nhds (Ecmwf.alphaT ts phi))
    rw [hval]
    rw [Metric.tendsto_nhds] at hF ⊢
    intro ε hε
    filter_upwards [hF ε hε] with y hy
    unfold Ecmwf.alphaT
    split_ifs
    · simpa using hε
    · exact hy
  · have hphi0 : phi ≠ 0 := by
      rintro rfl
      norm_num at hgt
    have : (fun y : ℝ => max 0 (Ecmwf.R * (Ecmwf.plateauT ts (y / Ecmwf.g) - ts) / y)) =ᶠ[nhds phi] fun phi => Ecmwf.alphaT ts phi := by
      have ho : ∀ᶠ y in nhds phi, 2000 < y / Ecmwf.g :=
        continuousAt_const.eventually_lt (continuous_id.div_const Ecmwf.g).continuousAt hgt
      filter_upwards [ho] with y hy
      simp [Ecmwf.alphaT, not_lt.mpr hy.le]
    refine ContinuousAt.congr ?_ this
    refine Filter.Tendsto.max tendsto_const_nhds (ContinuousAt.div ?_ continuousAt_id hphi0)
    exact (continuous_const.mul ((h1.comp (continuous_id.div_const _)).sub continuous_const)).continuousAt

/-- C18, terrain: the extrapolated temperature changes continuously with the surface geopotential, through the limits at 2000 m
and 2500 m where the formula changes. -/
theorem C18_continuous (t p pl ps : ℝ) (ht : 0 < t) (hp : 0 < p) (hl : 0 < pl) (hs : 0 < ps) :
    ∃ f : ℝ → ℝ, Continuous f ∧ ∀ phi, tempExtrapolate (.fin t) (.fin p) (.fin pl) (.fin ps) (.fin phi) = .fin (f phi) := by
  refine ⟨fun phi => Ecmwf.temperature (Ecmwf.surfaceT t pl ps) ps phi p, ?_, fun phi => C18_formula t p pl ps phi ht hp hl hs⟩
  have := alphaT_continuous (Ecmwf.surfaceT t pl ps)
  unfold Ecmwf.temperature
  fun_prop

/-- zero and negative surface geopotential, and high terrain -/
example : (∃ v, tempExtrapolate (.fin 280) (.fin 105000) (.fin 99000) (.fin 100000) (.fin 0) = .fin v) ∧
    (∃ v, tempExtrapolate (.fin 280) (.fin 105000) (.fin 99000) (.fin 100000) (.fin (-500)) = .fin v) ∧
    (∃ v, tempExtrapolate (.fin 280) (.fin 105000) (.fin 70000) (.fin 71000) (.fin 30000) = .fin v) :=
  ⟨⟨_, C18_formula 280 105000 99000 100000 0 (by norm_num) (by norm_num) (by norm_num) (by norm_num)⟩,
   ⟨_, C18_formula 280 105000 99000 100000 (-500) (by norm_num) (by norm_num) (by norm_num) (by norm_num)⟩,
   ⟨_, C18_formula 280 105000 70000 71000 30000 (by norm_num) (by norm_num) (by norm_num) (by norm_num)⟩⟩

/-! ### C19 -/

/-- C19, formula: for positive temperature and pressures the extrapolated height is the finite number given by the ECMWF formula,
whatever the surface geopotential. -/
theorem C19_formula (t p pl ps phi : ℝ) (hp : 0 < p) (hl : 0 < pl) (hs : 0 < ps) :
    geoHeightExtrapolate (.fin t) (.fin p) (.fin pl) (.fin ps) (.fin phi) =
      .fin (Ecmwf.height (Ecmwf.surfaceT t pl ps) ps phi p) := by
  unfold geoHeightExtrapolate
  simp only [tStar_fin t pl ps hl, XF.fin_mul, XF.fin_add, gInv_mul, log_ratio p ps hp hs, XF.le_fin, XF.lt_fin, XF.fin_sub, alpha_eq]
  set ts := Ecmwf.surfaceT t pl ps with hdef
  set L := Real.log (p / ps) with hL
  have hlap : (0.0065 : ℝ) = Ecmwf.lapse := rfl
  have hR : Rd = Ecmwf.R := rfl
  rw [hlap, hR]
  set t0 := ts + Ecmwf.lapse * (phi / Ecmwf.g) with ht0
  -- exponent
  have hα : (XF.sel (decide (290.5 < ts) && decide (290.5 < t0)) (XF.fin 0)
      (XF.sel (decide (ts ≤ 290.5) && decide (290.5 < t0)) (XF.fin Ecmwf.R / XF.fin phi * XF.fin (290.5 - ts)) (XF.fin Ecmwf.α)) : XF ℝ)
      = .fin (Ecmwf.alphaZ ts phi) := by
    simp only [Ecmwf.alphaZ, ← ht0]
    by_cases c1 : t0 ≤ 290.5
    · simp [XF.sel, c1, not_lt.mpr c1]
    · by_cases c2 : ts ≤ 290.5
      · have hphi : phi ≠ 0 := by
          rintro rfl
          simp at ht0
          rw [ht0] at c1
          exact c1 c2
        simp [XF.sel, c1, c2, not_lt.mpr c2, not_le.mp c1, XF.fin_div _ _ hphi]
      · simp [XF.sel, c1, c2, not_le.mp c2, not_le.mp c1]
  -- damped temperature
  have hT : ∀ t1, (XF.sel (decide (290.5 < ts) && decide (290.5 < t0)) (XF.fin (0.5 * (290.5 + ts))) (XF.fin ts) : XF ℝ) = .fin t1 →
      t1 = if 290.5 < ts ∧ 290.5 < t0 then (290.5 + ts) / 2 else ts := by
    intro t1 h
    by_cases c : 290.5 < ts ∧ 290.5 < t0
    · simp only [XF.sel, c.1, c.2, decide_true, Bool.and_self, if_true, XF.fin.injEq] at h
      rw [if_pos c, ← h]; ring
    · have : (decide (290.5 < ts) && decide (290.5 < t0)) = false := by
        rw [Bool.and_eq_false_iff, decide_eq_false_iff_not, decide_eq_false_iff_not]; tauto
      simp only [XF.sel, this, Bool.false_eq_true, if_false, XF.fin.injEq] at h
      rw [if_neg c, h]
  have hex : ∃ t1, (XF.sel (decide (290.5 < ts) && decide (290.5 < t0)) (XF.fin (0.5 * (290.5 + ts))) (XF.fin ts) : XF ℝ) = .fin t1 := by
    unfold XF.sel; split_ifs <;> exact ⟨_, rfl⟩
  obtain ⟨t1, ht1⟩ := hex
  rw [hα, ht1]
  have hd : (XF.sel (decide (t1 < 255)) (XF.fin (0.5 * (t1 + 255))) (XF.fin t1) : XF ℝ) = .fin (Ecmwf.dampedT ts phi) := by
    simp only [Ecmwf.dampedT, ← ht0, ← hT t1 ht1]
    by_cases c : t1 < 255
    · simp [XF.sel, c]; ring
    · simp [XF.sel, c]
  simp only [XF.lt_fin, XF.fin_add, XF.fin_mul, hd, XF.fin_sub]
  congr 1
  have hgi : gInv = 1 / Ecmwf.g := rfl
  simp only [Ecmwf.height, ← hL, hgi]
  ring

theorem dampedT_pos (ts phi : ℝ) (h : 0 < ts) : 0 < Ecmwf.dampedT ts phi := by
  unfold Ecmwf.dampedT
  simp only
  split_ifs <;> linarith

/-- `l (1 + al/2 + (al)²/6)` is strictly increasing in `l` -/
theorem cubic_mono' (a : ℝ) {l m : ℝ} (h : l < m) : l * (1 + a * l / 2 + (a * l) ^ 2 / 6) < m * (1 + a * m / 2 + (a * m) ^ 2 / 6) := by
  have hb : 0 < 1 + (a * l + a * m) / 2 + ((a * l) ^ 2 + a * l * (a * m) + (a * m) ^ 2) / 6 := by
    nlinarith [sq_nonneg (a * l - a * m), sq_nonneg (1 + (a * l + a * m) / 2)]
  have : m * (1 + a * m / 2 + (a * m) ^ 2 / 6) - l * (1 + a * l / 2 + (a * l) ^ 2 / 6) =
      (m - l) * (1 + (a * l + a * m) / 2 + ((a * l) ^ 2 + a * l * (a * m) + (a * m) ^ 2) / 6) := by ring
  nlinarith

/-- C19, anchored and strictly decreasing: at the surface pressure the height is `phi_sfc / g`; it strictly decreases as
pressure grows. -/
theorem C19_anchored_decreasing (t pl ps phi : ℝ) (ht : 0 < t) (hl : 0 < pl) (hs : 0 < ps) :
    geoHeightExtrapolate (.fin t) (.fin ps) (.fin pl) (.fin ps) (.fin phi) = .fin (phi / 9.80616) ∧
    ∀ p p', 0 < p → p < p' → ∃ v v' : ℝ, geoHeightExtrapolate (.fin t) (.fin p) (.fin pl) (.fin ps) (.fin phi) = .fin v ∧
      geoHeightExtrapolate (.fin t) (.fin p') (.fin pl) (.fin ps) (.fin phi) = .fin v' ∧ v' < v := by
  constructor
  · rw [C19_formula t ps pl ps phi hs hl hs]
    simp [Ecmwf.height, div_self hs.ne', Ecmwf.g]
  · intro p p' hp hpp
    refine ⟨_, _, C19_formula t p pl ps phi hp hl hs, C19_formula t p' pl ps phi (hp.trans hpp) hl hs, ?_⟩
    have hd := dampedT_pos (Ecmwf.surfaceT t pl ps) phi (surfaceT_pos t pl ps ht hl hs)
    have hlog : Real.log (p / ps) < Real.log (p' / ps) :=
      Real.log_lt_log (div_pos hp hs) (div_lt_div_of_pos_right hpp hs)
    have := cubic_mono' (Ecmwf.alphaZ (Ecmwf.surfaceT t pl ps) phi) hlog
    have hc : 0 < Ecmwf.R * Ecmwf.dampedT (Ecmwf.surfaceT t pl ps) phi / Ecmwf.g := div_pos (mul_pos R_pos hd) g_pos
    simp only [Ecmwf.height]
    nlinarith [mul_lt_mul_of_pos_left this hc]

example : ∃ v v' : ℝ, geoHeightExtrapolate (.fin 280) (.fin 100000) (.fin 99000) (.fin 100000) (.fin (-30)) = .fin v ∧
    geoHeightExtrapolate (.fin 280) (.fin 105000) (.fin 99000) (.fin 100000) (.fin (-30)) = .fin v' ∧ v' < v :=
  (C19_anchored_decreasing 280 99000 100000 (-30) (by norm_num) (by norm_num) (by norm_num)).2 100000 105000 (by norm_num) (by norm_num)

/-! ### C85 -/

theorem alphaZ_continuous (phi : ℝ) (hphi : 0 < phi) : Continuous (fun ts : ℝ => Ecmwf.alphaZ ts phi) := by
  have hg := g_pos
  have hlap : 0 < Ecmwf.lapse := by unfold Ecmwf.lapse; norm_num
  unfold Ecmwf.alphaZ
  refine Continuous.if_le continuous_const (Continuous.if_le ?_ continuous_const continuous_id continuous_const ?_) ?_ continuous_const ?_
  · fun_prop
  · intro ts h
    rw [show ts = 290.5 from h]
    ring
  · fun_prop
  · intro ts h
    have h0 : 0 < Ecmwf.lapse * (phi / Ecmwf.g) := by positivity
    have h1 : ts ≤ 290.5 := by linarith
    rw [if_pos h1, show (290.5 : ℝ) - ts = Ecmwf.lapse * (phi / Ecmwf.g) by linarith, Ecmwf.α]
    field_simp

theorem dampedT_continuous (phi : ℝ) (hphi : 0 ≤ phi) : Continuous (fun ts : ℝ => Ecmwf.dampedT ts phi) := by
  have hg := g_pos
  have hlap : 0 < Ecmwf.lapse := by unfold Ecmwf.lapse; norm_num
  have h0 : 0 ≤ Ecmwf.lapse * (phi / Ecmwf.g) := by positivity
  have heq : (fun ts : ℝ => Ecmwf.dampedT ts phi) = fun ts => if ts ≤ 290.5 then (if 255 ≤ ts then ts else (ts + 255) / 2) else (290.5 + ts) / 2 := by
    funext ts
    unfold Ecmwf.dampedT
    by_cases c : ts ≤ 290.5
    · rw [if_pos c]
      simp only [not_lt.mpr c, false_and, if_false]
      split_ifs <;> first | rfl | linarith
    · push Not at c
      rw [if_neg (not_le.mpr c)]
      have : 290.5 < ts + Ecmwf.lapse * (phi / Ecmwf.g) := by linarith
      simp only [c, this, and_self, if_true]
      rw [if_neg (by linarith)]
  rw [heq]
  refine Continuous.if_le (Continuous.if_le ?_ ?_ continuous_const continuous_id ?_) ?_ continuous_id continuous_const ?_
  · fun_prop
  · fun_prop
  · intro ts h
    rw [← show (255 : ℝ) = ts from h]
    norm_num
  · fun_prop
  · intro ts h
    rw [show ts = 290.5 from h]
    norm_num

/-- C85, part: over land above sea level the extrapolated height depends continuously on the bottom-level temperature.
Missing: surface geopotential zero (sea) or negative, where it fails (`C85_counterexample`). -/
theorem C85_continuous_partial (p pl ps phi : ℝ) (hp : 0 < p) (hl : 0 < pl) (hs : 0 < ps) (hphi : 0 < phi) :
    ∃ f : ℝ → ℝ, Continuous f ∧ ∀ t, geoHeightExtrapolate (.fin t) (.fin p) (.fin pl) (.fin ps) (.fin phi) = .fin (f t) := by
  refine ⟨fun t => Ecmwf.height (Ecmwf.surfaceT t pl ps) ps phi p, ?_, fun t => C19_formula t p pl ps phi hp hl hs⟩
  have hc : Continuous (fun t : ℝ => Ecmwf.surfaceT t pl ps) := by
    unfold Ecmwf.surfaceT
    fun_prop
  have h1 : Continuous fun t : ℝ => Ecmwf.alphaZ (Ecmwf.surfaceT t pl ps) phi := (alphaZ_continuous phi hphi).comp hc
  have h2 : Continuous fun t : ℝ => Ecmwf.dampedT (Ecmwf.surfaceT t pl ps) phi := (dampedT_continuous phi hphi.le).comp hc
  unfold Ecmwf.height
  simp only
  refine continuous_const.sub (Continuous.mul (Continuous.mul ?_ continuous_const) ?_)
  · exact (continuous_const.mul h2).div_const _
  · exact (continuous_const.add ((h1.mul continuous_const).div_const _)).add (((h1.mul continuous_const).pow 2).div_const _)

/-- C85 fails over the sea: with surface geopotential 0 the extrapolated height jumps when the surface temperature passes
290.5 K — no continuous function gives the extrapolated heights. -/
theorem C85_counterexample (ps : ℝ) (hs : 0 < ps) :
    ¬ ∃ f : ℝ → ℝ, Continuous f ∧
      ∀ t, geoHeightExtrapolate (.fin t) (.fin (ps * Real.exp 1)) (.fin ps) (.fin ps) (.fin 0) = .fin (f t) := by
  rintro ⟨f, hf, hval⟩
  have hp : 0 < ps * Real.exp 1 := mul_pos hs (Real.exp_pos 1)
  have hl : Real.log (ps * Real.exp 1 / ps) = 1 := by
    rw [mul_div_cancel_left₀ _ hs.ne', Real.log_exp]
  have hst : ∀ t, Ecmwf.surfaceT t ps ps = t := by
    intro t; unfold Ecmwf.surfaceT; rw [div_self hs.ne']; ring
  have hv : ∀ t, f t = Ecmwf.height t ps 0 (ps * Real.exp 1) := by
    intro t
    have h1 := hval t
    rw [C19_formula t _ ps ps 0 hp hs hs, hst] at h1
    injection h1 with h1
    exact h1.symm
  have hat : f 290.5 = -(Ecmwf.R * 290.5 / Ecmwf.g) * (1 + Ecmwf.α / 2 + Ecmwf.α ^ 2 / 6) := by
    rw [hv]
    simp only [Ecmwf.height, hl, Ecmwf.alphaZ, Ecmwf.dampedT]
    norm_num
  have habove : ∀ t, 290.5 < t → f t = -(Ecmwf.R * ((290.5 + t) / 2) / Ecmwf.g) := by
    intro t ht
    rw [hv]
    have h1 : ¬ t ≤ 290.5 := not_le.mpr ht
    have h2 : ¬ (290.5 + t) / 2 < 255 := by linarith
    simp only [Ecmwf.height, hl, Ecmwf.alphaZ, Ecmwf.dampedT, zero_div, mul_zero, add_zero, h1, ht, and_self, if_true, if_false, h2]
    ring
  -- the limit from above
  have hlim : Filter.Tendsto f (nhdsWithin 290.5 (Set.Ioi 290.5)) (nhds (f 290.5)) := hf.continuousAt.continuousWithinAt
  have hlim2 : Filter.Tendsto f (nhdsWithin 290.5 (Set.Ioi 290.5)) (nhds (-(Ecmwf.R * ((290.5 + 290.5) / 2) / Ecmwf.g))) := by
    have hc : Continuous fun t : ℝ => -(Ecmwf.R * ((290.5 + t) / 2) / Ecmwf.g) := by fun_prop
    refine Filter.Tendsto.congr' ?_ (hc.continuousAt.continuousWithinAt : Filter.Tendsto _ (nhdsWithin (290.5:ℝ) (Set.Ioi 290.5)) _)
    filter_upwards [self_mem_nhdsWithin] with t ht
    exact (habove t ht).symm
  have huniq := tendsto_nhds_unique hlim hlim2
  rw [hat] at huniq
  have hα := alpha_bounds.1
  have hk : 0 < Ecmwf.R * 290.5 / Ecmwf.g := div_pos (mul_pos R_pos (by norm_num)) g_pos
  have hsame : Ecmwf.R * ((290.5 + 290.5) / 2) / Ecmwf.g = Ecmwf.R * 290.5 / Ecmwf.g := by norm_num
  rw [hsame] at huniq
  nlinarith [sq_nonneg Ecmwf.α, mul_pos hk hα]

example : ∃ f : ℝ → ℝ, Continuous f ∧ ∀ t, geoHeightExtrapolate (.fin t) (.fin 105000) (.fin 99000) (.fin 100000) (.fin 980) = .fin (f t) :=
  C85_continuous_partial 105000 99000 100000 980 (by norm_num) (by norm_num) (by norm_num) (by norm_num)

end
end Verif.Props
