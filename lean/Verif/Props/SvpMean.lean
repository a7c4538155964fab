import Verif.Props.Evap
import Verif.Props.ClimConvex
import Mathlib.Analysis.Convex.Deriv

/-
Property C213: saturation vapour pressure and averages in time.
-/

set_option linter.unusedSectionVars false

namespace Verif.Spec
open Model XF

/-- cell `c` holds a temperature (Fahrenheit, above freezing) and cell `c'` the saturation vapour pressure computed from it, or both are missing -/
def HoldsSvp (c c' : ℕ) (e : Entry ℝ) : Prop :=
  (e.val c = none ∧ e.val c' = none) ∨
    ∃ t v, 32 < t ∧ t ≤ 3200 ∧ e.val c = some t ∧ svpPoint nan (fin t) = fin v ∧ e.val c' = some v

/-- an averaged temperature and an averaged saturation vapour pressure: the saturation vapour pressure of the averaged temperature is not larger -/
def SvpBelow (c c' : ℕ) (o : Entry ℝ) : Prop :=
  (o.val c = none ∧ o.val c' = none) ∨
    ∃ t v w, 32 < t ∧ t ≤ 3200 ∧ o.val c = some t ∧ svpPoint nan (fin t) = fin v ∧ o.val c' = some w ∧ v ≤ w

end Verif.Spec

namespace Verif.Props
open Model XF Lemmas Spec

namespace SvpMean

theorem slope_deriv {c : ℝ} (h : 0 < c) :
    HasDerivAt (fun x => tetensC x / (x + 237.3) ^ 2) (tetensC c * (17.27 * 237.3 - 2 * (c + 237.3)) / (c + 237.3) ^ 4) c := by
  have hne : c + 237.3 ≠ 0 := by linarith
  have h2 : HasDerivAt (fun x : ℝ => (x + 237.3) ^ 2) (2 * (c + 237.3)) c := by
    have := ((hasDerivAt_id c).add_const (237.3 : ℝ)).pow 2
    exact this.congr_deriv (by simp)
  have := (tetensC_deriv h).div h2 (pow_ne_zero 2 hne)
  refine this.congr_deriv ?_
  field_simp

theorem slope_mono : StrictMonoOn (fun x => tetensC x / (x + 237.3) ^ 2) (Set.Ioo 0 1800) := by
  refine strictMonoOn_of_deriv_pos (convex_Ioo 0 1800) (fun x hx => (slope_deriv hx.1).continuousAt.continuousWithinAt) fun x hx => ?_
  rw [interior_Ioo] at hx
  rw [(slope_deriv hx.1).deriv]
  have h0 := hx.1
  have h1 := hx.2
  have h2 := tetensC_gt h0
  have h3 : 0 < tetensC x := by linarith
  have h4 : 0 < 17.27 * 237.3 - 2 * (x + 237.3) := by norm_num; linarith
  have h5 : 0 < x + 237.3 := by linarith
  positivity

theorem tetens_convex : ConvexOn ℝ (Set.Ioo 0 1800) tetensC := by
  refine MonotoneOn.convexOn_of_deriv (convex_Ioo 0 1800) (fun x hx => (tetensC_deriv hx.1).continuousAt.continuousWithinAt) ?_ ?_
  · rw [interior_Ioo]
    exact fun x hx => (tetensC_deriv hx.1).differentiableAt.differentiableWithinAt
  · rw [interior_Ioo]
    intro x hx y hy hxy
    rw [(tetensC_deriv hx.1).deriv, (tetensC_deriv hy.1).deriv]
    exact mul_le_mul_of_nonneg_left (slope_mono.monotoneOn hx hy hxy) (by norm_num)

/-- temperatures above freezing with values not below the curve -/
def above : Set (Fin 2 → ℝ) := {x | 32 < x 0 ∧ x 0 ≤ 3200 ∧ tetensC ((x 0 - 32) * 5 / 9) ≤ x 1}

theorem above_convex : Convex ℝ above := by
  rintro x ⟨x1, x2, x3⟩ y ⟨y1, y2, y3⟩ a b ha hb hab
  have hx : (x 0 - 32) * 5 / 9 ∈ Set.Ioo (0 : ℝ) 1800 := ⟨by linarith, by linarith⟩
  have hy : (y 0 - 32) * 5 / 9 ∈ Set.Ioo (0 : ℝ) 1800 := ⟨by linarith, by linarith⟩
  have hc := tetens_convex.2 hx hy ha hb hab
  simp only [smul_eq_mul] at hc
  refine ⟨?_, ?_, ?_⟩
  · have := (convex_Ioi (32 : ℝ)) (Set.mem_Ioi.mpr x1) (Set.mem_Ioi.mpr y1) ha hb hab
    simpa using this
  · have := (convex_Iic (3200 : ℝ)) (Set.mem_Iic.mpr x2) (Set.mem_Iic.mpr y2) ha hb hab
    simpa using this
  · simp only [Pi.add_apply, Pi.smul_apply, smul_eq_mul]
    have e : (a * x 0 + b * y 0 - 32) * 5 / 9 = a * ((x 0 - 32) * 5 / 9) + b * ((y 0 - 32) * 5 / 9) := by
      obtain rfl : b = 1 - a := by linarith
      ring
    rw [e]
    nlinarith [mul_le_mul_of_nonneg_left x3 ha, mul_le_mul_of_nonneg_left y3 hb]

theorem together_of (c c' : ℕ) (e : Entry ℝ) (h : HoldsSvp c c' e) : Together ![c, c'] above e.val := by
  rcases h with ⟨h1, h2⟩ | ⟨t, v, h1, h2, h3, h4, h5⟩
  · refine Or.inl fun i => ?_
    fin_cases i
    · exact h1
    · exact h2
  · rw [svpPoint_above nan h1] at h4
    refine Or.inr ⟨![t, v], ⟨h1, h2, (XF.fin.inj h4).le⟩, fun i => ?_⟩
    fin_cases i
    · exact h3
    · exact h5

theorem below_of_mem {c c' : ℕ} {o : Entry ℝ} {x : Fin 2 → ℝ} (hx : x ∈ above) (h : ∀ i, o.val (![c, c'] i) = some (x i)) : SvpBelow c c' o :=
  Or.inr ⟨x 0, _, x 1, hx.1, hx.2.1, h 0, svpPoint_above nan hx.1, h 1, hx.2.2⟩

theorem of_together (c c' : ℕ) (o : Entry ℝ) (h : Together ![c, c'] above o.val) : SvpBelow c c' o := by
  rcases h with h | ⟨x, hx, h⟩
  · exact Or.inl ⟨h 0, h 1⟩
  · exact below_of_mem hx h

end SvpMean

open SvpMean

/-- **C213**, `calendar_average`: the saturation vapour pressure of an averaged temperature is at most the average of the saturation vapour
pressures. -/
theorem C213_calendar (cal : Cal) (infer : InferFreq) (freq : String) (s : Series ℝ) (c c' : ℕ) (hc : c < s.ncell) (hc' : c' < s.ncell)
    (h : ∀ e ∈ s.samples, HoldsSvp c c' e) (out : List (Entry ℝ)) (ho : calendarAverage cal infer freq s = .ok out) : ∀ o ∈ out, SvpBelow c c' o := by
  refine fun o hm => of_together c c' o (C133_calendar cal infer freq s ![c, c'] (fun i => ?_) above above_convex (fun e he => together_of c c' e (h e he)) out ho o hm)
  fin_cases i
  · exact hc
  · exact hc'

/-- **C213**, `climatology_average` by hour, day or month. -/
theorem C213_climatology (cal : Cal) (infer : InferFreq) (freq : String) (p : Period) (hf : GroupFreq freq p) (custom : List String) (s : Series ℝ)
    (c c' : ℕ) (h : ∀ e ∈ s.samples, HoldsSvp c c' e) (out : ClimOut ℝ) (ho : climatologyAverage cal infer freq custom s = .ok out) :
    ∃ l, out = .times l ∧ ∀ o ∈ l, SvpBelow c c' o := by
  obtain ⟨l, hl, hv⟩ := C133_climatology cal infer freq p hf custom s ![c, c'] above above_convex (fun e he => together_of c c' e (h e he)) out ho
  exact ⟨l, hl, fun o hm => of_together c c' o (hv o hm)⟩

/-- **C213**, seasonal climatologies: every season of which the record has a month without gaps. -/
theorem C213_season (cal : Cal) (infer : InferFreq) (custom : List String) (s : Series ℝ) (c c' : ℕ) (hc : c < s.ncell) (hc' : c' < s.ncell)
    (h : ∀ e ∈ s.samples, HoldsSvp c c' e) (out : ClimOut ℝ) (ho : climatologyAverage cal infer "season" custom s = .ok out) :
    ∃ l, out = .seasons l ∧ ∀ x ∈ l, ∀ months, seasonMonths x.1 = some months → (∃ k, FullMonth cal s k ∧ Cal.monthNo k ∈ months) →
      SvpBelow c c' ⟨0, x.2⟩ := by
  obtain ⟨l, hl, hv⟩ := C133_season cal infer custom s ![c, c'] (fun i => by fin_cases i; exacts [hc, hc']) above above_convex
    (fun e he => together_of c c' e (h e he)) out ho
  refine ⟨l, hl, fun x hx months hm hk => ?_⟩
  obtain ⟨v, hv, hv'⟩ := hv x hx months hm (Or.inr hk)
  exact below_of_mem hv hv'

/-- **C213**, `month_to_season`. -/
theorem C213_month_to_season (cal : Cal) (season : String) (s : Series ℝ) (c c' : ℕ) (h : ∀ e ∈ s.samples, HoldsSvp c c' e) (out : List (Entry ℝ))
    (ho : monthToSeason cal season s = .ok out) : ∀ o ∈ out, SvpBelow c c' o :=
  fun o hm => of_together c c' o (C133_month_to_season cal season s ![c, c'] above above_convex (fun e he => together_of c c' e (h e he)) out ho o hm)

/-- **C213**, `saturation_vapor_pressure_slope`: the warmer the air, the steeper the curve. -/
theorem C213_slope (tfill : XF ℝ) (t t' : ℝ) (h : 32 < t) (h' : t < t') (hm : t' ≤ 3200) :
    ∃ a b, svpSlopePoint tfill (fin t) = fin a ∧ svpSlopePoint tfill (fin t') = fin b ∧ 0 < a ∧ a < b := by
  have h1 : (t - 32) * 5 / 9 ∈ Set.Ioo (0 : ℝ) 1800 := ⟨by linarith, by linarith⟩
  have h2 : (t' - 32) * 5 / 9 ∈ Set.Ioo (0 : ℝ) 1800 := ⟨by linarith, by linarith⟩
  refine ⟨_, _, svpSlopePoint_above tfill h, svpSlopePoint_above tfill (h.trans h'), ?_,
    mul_lt_mul_of_pos_left (slope_mono h1 h2 (by linarith)) (by norm_num)⟩
  have h3 := tetensC_gt h1.1
  have h4 := h1.1
  have h5 : 0 < tetensC ((t - 32) * 5 / 9) := by linarith
  have h6 : 0 < (t - 32) * 5 / 9 + 237.3 := by linarith
  positivity

/-- **C213**, between any two temperatures: the mean of the two saturation vapour pressures is larger than the saturation vapour pressure of the mean. -/
theorem C213_two (t t' : ℝ) (h : 32 < t) (h' : t < t') (hm : t' ≤ 3200) :
    ∃ a b v, svpPoint nan (fin t) = fin a ∧ svpPoint nan (fin t') = fin b ∧ svpPoint nan (fin ((t + t') / 2)) = fin v ∧ v < (a + b) / 2 := by
  have h1 : (t - 32) * 5 / 9 ∈ Set.Ioo (0 : ℝ) 1800 := ⟨by linarith, by linarith⟩
  have h2 : (t' - 32) * 5 / 9 ∈ Set.Ioo (0 : ℝ) 1800 := ⟨by linarith, by linarith⟩
  refine ⟨_, _, _, svpPoint_above nan h, svpPoint_above nan (h.trans h'), svpPoint_above nan (by linarith), ?_⟩
  have hs : StrictConvexOn ℝ (Set.Ioo 0 1800) tetensC := by
    refine StrictMonoOn.strictConvexOn_of_deriv (convex_Ioo 0 1800) (fun x hx => (tetensC_deriv hx.1).continuousAt.continuousWithinAt) ?_
    rw [interior_Ioo]
    intro x hx y hy hxy
    rw [(tetensC_deriv hx.1).deriv, (tetensC_deriv hy.1).deriv]
    exact mul_lt_mul_of_pos_left (slope_mono hx hy hxy) (by norm_num)
  have := hs.2 h1 h2 (by intro he; linarith) (show (0 : ℝ) < 1 / 2 by norm_num) (show (0 : ℝ) < 1 / 2 by norm_num) (by norm_num)
  simp only [smul_eq_mul] at this
  have e : ((t + t') / 2 - 32) * 5 / 9 = 1 / 2 * ((t - 32) * 5 / 9) + 1 / 2 * ((t' - 32) * 5 / 9) := by ring
  rw [e]
  linarith

/-- temperatures of two days with their saturation vapour pressures -/
noncomputable def svpDays : Series ℝ :=
  ⟨2, [⟨0, fun q => if q = 0 then some 50 else some (tetensC ((50 - 32) * 5 / 9))⟩,
    ⟨86400, fun q => if q = 0 then some 90 else some (tetensC ((90 - 32) * 5 / 9))⟩], true⟩

/-- the monthly mean of two days with 50 and 90 degrees Fahrenheit -/
example (out : List (Entry ℝ)) (ho : calendarAverage Cal.days360 (fun _ => .ok true) "month" svpDays = .ok out) : ∀ o ∈ out, SvpBelow 0 1 o := by
  refine C213_calendar Cal.days360 (fun _ => .ok true) "month" svpDays 0 1 (by simp only [svpDays]; decide) (by simp only [svpDays]; decide) (fun e he => ?_) out ho
  simp only [svpDays, List.mem_cons, List.not_mem_nil, or_false] at he
  rcases he with rfl | rfl
  · exact Or.inr ⟨50, _, by norm_num, by norm_num, by simp, svpPoint_above nan (by norm_num), by simp⟩
  · exact Or.inr ⟨90, _, by norm_num, by norm_num, by simp, svpPoint_above nan (by norm_num), by simp⟩

example : ∃ a b v, svpPoint nan (fin 50) = fin a ∧ svpPoint nan (fin 90) = fin b ∧ svpPoint nan (fin ((50 + 90) / 2)) = fin v ∧ v < (a + b) / 2 :=
  C213_two 50 90 (by norm_num) (by norm_num) (by norm_num)

end Verif.Props
