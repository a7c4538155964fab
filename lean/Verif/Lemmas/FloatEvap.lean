import Verif.Model.FloatsEvap
import Verif.Lemmas.FloatRel
import Verif.Lemmas.FloatDewtemp
import Verif.Lemmas.Evap
import Mathlib.Analysis.Complex.Exponential

namespace Verif.Lemmas
open Model XF
noncomputable section

/-- an exponential function of stored numbers (of size at most 40) with an error of at most one unit in the last place -/
structure ExpAccurate (D : Rounding ℝ) (u : ℝ) (ex : XF ℝ → XF ℝ) : Prop where
  fin : ∀ x, D.rep x → |x| ≤ 40 → ∃ y, ex (XF.fin x) = XF.fin y ∧ D.rep y ∧ |y - Real.exp x| ≤ 2 * u * Real.exp x

/-- the numbers 5 and 9 can be stored, and stored numbers above 32 are not too close to 32 -/
structure FahrenheitFormat (D : Rounding ℝ) : Prop where
  five : D.rep 5
  nine : D.rep 9
  gap : ∀ t, D.rep t → 32 < t → 1e-15 ≤ t - 32

variable {D R : Rounding ℝ} {u η η' : ℝ}

theorem rxf_fin (R : Rounding ℝ) (x : ℝ) : roundXF R (.fin x) = .fin (R.fl x) := rfl

theorem rep_32 (D : Rounding ℝ) : D.rep 32 := by
  have := D.rep_double _ (D.rep_double _ (D.rep_double _ (D.rep_double _ (D.rep_double _ D.rep_one))))
  norm_num at this
  exact this

theorem rep_4096 (D : Rounding ℝ) : D.rep 4096 := by
  have := D.rep_double _ (D.rep_double _ (D.rep_double _ (D.rep_double _ (D.rep_double _ (D.rep_double _ (D.rep_double _ (rep_32 D)))))))
  norm_num at this
  exact this

/-- an exponential of a number with a small absolute error -/
theorem exp_close {x x' y α : ℝ} (hu : 0 ≤ u) (hu6 : u ≤ 1e-6) (hα : 0 ≤ α) (hα2 : α ≤ 90) (h : |x' - x| ≤ α * u)
    (hy : |y - Real.exp x'| ≤ 2 * u * Real.exp x') : Rel u (α + 2.1) y (Real.exp x) := by
  unfold Rel
  have hE := Real.exp_pos x
  rw [abs_of_pos hE]
  have e : Real.exp x' = Real.exp x * Real.exp (x' - x) := by rw [← Real.exp_add]; congr 1; ring
  set δ := x' - x
  have hd4 : α * u ≤ 1e-4 := by
    have := mul_le_mul hα2 hu6 hu (by norm_num)
    norm_num at this ⊢
    linarith
  have h1 : |δ| ≤ 1e-4 := h.trans hd4
  have h2 : |Real.exp δ - 1 - δ| ≤ δ ^ 2 := Real.abs_exp_sub_one_sub_id_le (h1.trans (by norm_num))
  have h3 : δ ^ 2 ≤ 0.01 * u := by
    rw [← sq_abs, sq]
    have := mul_le_mul h h1 (abs_nonneg _) (mul_nonneg hα hu)
    have h4 : α * u * 1e-4 ≤ 90 * u * 1e-4 := mul_le_mul_of_nonneg_right (mul_le_mul_of_nonneg_right hα2 hu) (by norm_num)
    norm_num at this h4 ⊢
    linarith
  have h5 := abs_le.mp h2
  have h6 := abs_le.mp h
  have h7 : Real.exp δ ≤ 1.001 := by norm_num at h1 h3 hu6 h5 ⊢; linarith [h5.2, (abs_le.mp h1).2]
  rw [e] at hy
  have hy' := abs_le.mp hy
  have h8 : 2 * u * (Real.exp x * Real.exp δ) ≤ 2 * u * (Real.exp x * 1.001) :=
    mul_le_mul_of_nonneg_left (mul_le_mul_of_nonneg_left h7 hE.le) (by linarith)
  have h9 : Real.exp x * (Real.exp δ - 1) ≤ Real.exp x * (α * u + 0.01 * u) := mul_le_mul_of_nonneg_left (by linarith [h5.2, h6.2]) hE.le
  have h10 : Real.exp x * (-(α * u + 0.01 * u)) ≤ Real.exp x * (Real.exp δ - 1) := mul_le_mul_of_nonneg_left (by linarith [h5.1, h6.1]) hE.le
  have h11 : 0 ≤ u * Real.exp x := mul_nonneg hu hE.le
  norm_num at h8 h9 h10 ⊢
  rw [abs_le]
  constructor <;> nlinarith

/-- rounded Celsius temperature -/
def cF (D : Rounding ℝ) (t : ℝ) : ℝ := D.fl (D.fl (D.fl (t - 32) * 5) / 9)
/-- rounded denominator -/
def denF (D R : Rounding ℝ) (c : ℝ) : ℝ := D.fl (c + D.fl (R.fl 237.3))
/-- rounded argument of the exponential -/
def argF (D R : Rounding ℝ) (c : ℝ) : ℝ := D.fl (D.fl (D.fl (R.fl 17.27) * c) / denF D R c)

theorem toCelsiusFl_fin (H : FahrenheitFormat D) (t : ℝ) : toCelsiusFl D (fin t) = fin (cF D t) := by
  unfold toCelsiusFl cF
  rw [D.fl_of_rep _ (rep_32 D), D.fl_of_rep _ H.five, D.fl_of_rep _ H.nine]
  simp only [fin_sub, fin_mul, roundXF]
  rw [fin_div _ _ (by norm_num)]

/-- below freezing the computed Celsius temperature is not positive -/
theorem cF_nonpos {t : ℝ} (h : t ≤ 32) : cF D t ≤ 0 := by
  have h1 : D.fl (t - 32) ≤ 0 := D.fl_nonpos (by linarith)
  have h2 : D.fl (D.fl (t - 32) * 5) ≤ 0 := D.fl_nonpos (by linarith)
  exact D.fl_nonpos (by linarith)

theorem cF_close (P : Precise D u η) (H : FahrenheitFormat D) {t : ℝ} (ht : D.rep t) (h : 32 < t) : Rel u 3.1 (cF D t) ((t - 32) * 5 / 9) := by
  have hu := P.acc.u_nonneg
  have hu6 := P.u_le
  have hg := H.gap t ht h
  have e1 : Rel u 1 (D.fl (t - 32)) (t - 32) := by
    unfold Rel
    rw [one_mul]
    exact P.acc.sub ht (rep_32 D)
  have e2 := Rel.mul hu hu6 (by norm_num) (by norm_num) (le_refl 0) (by norm_num) e1 (Rel.refl u 5)
  have e3 := Rel.fl P (by norm_num) (by norm_num) e2 (by rw [abs_of_pos (by linarith)]; norm_num at hg ⊢; linarith)
  have e4 := Rel.div hu hu6 (by norm_num) (by norm_num) (le_refl 0) (by norm_num) e3 (Rel.refl u 9) (by norm_num)
  have e5 := Rel.fl P (by norm_num) (by norm_num) e4 (by rw [abs_of_pos (by linarith)]; norm_num at hg ⊢; linarith)
  exact Rel.mono hu e5 (by norm_num)

theorem Rel.pos {n x' x : ℝ} (hu : 0 ≤ u) (hu6 : u ≤ 1e-6) (hn : n ≤ 100) (h : Rel u n x' x) (hx : 0 < x) : 0 < x' := by
  unfold Rel at h
  rw [abs_of_pos hx] at h
  have h1 := (abs_le.mp h).1
  have h2 : n * u ≤ 1e-4 := by
    have := mul_le_mul hn hu6 hu (by norm_num)
    norm_num at this ⊢
    linarith
  have := mul_le_mul_of_nonneg_right h2 hx.le
  norm_num at this
  linarith

theorem denF_close (PD : Precise D u η) (PR : Precise R u η') {c c' : ℝ} (hc : 0 < c) (h : Rel u 3.1 c' c) : Rel u 4.11 (denF D R c') (c + 237.3) := by
  have hu := PD.acc.u_nonneg
  have h1 := Rel.mono hu (twice PD PR (P := 237.3) (by rw [abs_of_pos] <;> norm_num)) (by norm_num : (2.02 : ℝ) ≤ 3.1)
  have h2 := Rel.add hc.le (by norm_num) h h1
  have h3 := Rel.fl PD (by norm_num) (by norm_num) h2 (by rw [abs_of_pos (by linarith)]; norm_num; linarith)
  exact Rel.mono hu h3 (by norm_num)

theorem argF_close (PD : Precise D u η) (PR : Precise R u η') {c c' : ℝ} (hc : 1e-16 ≤ c) (h : Rel u 3.1 c' c) :
    Rel u 11.3 (argF D R c') (17.27 * c / (c + 237.3)) := by
  have hu := PD.acc.u_nonneg
  have hu6 := PD.u_le
  have hc0 : 0 < c := lt_of_lt_of_le (by norm_num) hc
  have h1 := twice PD PR (P := 17.27) (by rw [abs_of_pos] <;> norm_num)
  have h2 := Rel.mul hu hu6 (by norm_num) (by norm_num) (by norm_num) (by norm_num) h1 h
  have h3 := Rel.fl PD (by norm_num) (by norm_num) h2 (by rw [abs_of_pos (by linarith)]; norm_num at hc ⊢; linarith)
  have h4 := Rel.div hu hu6 (by norm_num) (by norm_num) (by norm_num) (by norm_num) h3 (denF_close PD PR hc0 h) (by linarith)
  have h5 := Rel.fl PD (by norm_num) (by norm_num) h4 (by
    rw [abs_of_pos (by positivity), le_div_iff₀ (by linarith)]
    norm_num at hc ⊢
    linarith)
  exact Rel.mono hu h5 (by norm_num)

theorem tetensFl_fin {ex : XF ℝ → XF ℝ} {c y : ℝ} (h : denF D R c ≠ 0) (hy : ex (fin (argF D R c)) = fin y) :
    tetensFl D R ex (fin c) = fin (D.fl (D.fl (R.fl 0.6108) * y)) := by
  have h' : D.fl (c + D.fl (R.fl 237.3)) ≠ 0 := h
  unfold tetensFl svpDenFl
  simp only [fin_add, fin_mul, rxf_fin]
  rw [fin_div _ _ h', rxf_fin]
  change roundXF D (fin (D.fl (R.fl 0.6108)) * ex (fin (argF D R c))) = _
  rw [hy]
  rfl

/-- the rounded Tetens curve, given the computed Celsius temperature -/
theorem tetensFl_close (PD : Precise D u η) (PR : Precise R u η') {ex : XF ℝ → XF ℝ} (E : ExpAccurate D u ex) {c c' : ℝ} (hc : 1e-16 ≤ c) (hc2 : c ≤ 100)
    (h : Rel u 3.1 c' c) : ∃ v, tetensFl D R ex (fin c') = fin v ∧ Rel u 63 v (tetensC c) := by
  have hu := PD.acc.u_nonneg
  have hu6 := PD.u_le
  have hc0 : 0 < c := lt_of_lt_of_le (by norm_num) hc
  have ha := argF_close PD PR hc h
  have hx : 17.27 * c / (c + 237.3) ≤ 5.1202 := by rw [div_le_iff₀ (by linarith)]; norm_num; linarith
  have hx0 : 0 < 17.27 * c / (c + 237.3) := by positivity
  have hd : |argF D R c' - 17.27 * c / (c + 237.3)| ≤ 57.86 * u := by
    unfold Rel at ha
    rw [abs_of_pos hx0] at ha
    have := mul_le_mul_of_nonneg_left hx (mul_nonneg (by norm_num : (0 : ℝ) ≤ 11.3) hu)
    norm_num at this ⊢
    linarith
  have h40 : |argF D R c'| ≤ 40 := by
    have h1 := abs_le.mp hd
    rw [abs_le]
    norm_num at h1 hu6 hx ⊢
    constructor <;> linarith
  obtain ⟨y, hy1, -, hy2⟩ := E.fin (argF D R c') (D.rep_fl _) h40
  have h5 := exp_close hu hu6 (by norm_num) (by norm_num) hd hy2
  have h6 := twice PD PR (P := 0.6108) (by rw [abs_of_pos] <;> norm_num)
  have h7 := Rel.mul hu hu6 (by norm_num) (by norm_num) (by norm_num) (by norm_num) h6 h5
  have h1e : 1 ≤ Real.exp (17.27 * c / (c + 237.3)) := Real.one_le_exp hx0.le
  have h8 := Rel.fl PD (by norm_num) (by norm_num) h7 (by
    rw [abs_of_pos (by positivity)]
    refine le_trans ?_ (mul_le_mul_of_nonneg_left h1e (by norm_num))
    norm_num)
  refine ⟨_, ?_, Rel.mono hu h8 (by norm_num)⟩
  have hden := Rel.ne_zero hu6 hu (by norm_num) (denF_close PD PR hc0 h) (by linarith)
  exact tetensFl_fin hden hy1

theorem svpPointFl_below (H : FahrenheitFormat D) (ex : XF ℝ → XF ℝ) (tfill : XF ℝ) {t : ℝ} (h : t ≤ 32) :
    svpPointFl D R ex tfill (fin t) = tfill ∧ svpSlopePointFl D R ex tfill (fin t) = tfill := by
  have := cF_nonpos (D := D) h
  unfold svpPointFl svpSlopePointFl
  simp only [toCelsiusFl_fin H, lt_fin]
  simp [sel, this]

theorem svpPointFl_above (PD : Precise D u η) (PR : Precise R u η') (H : FahrenheitFormat D) {ex : XF ℝ → XF ℝ} (E : ExpAccurate D u ex) (tfill : XF ℝ)
    {t : ℝ} (ht : D.rep t) (h : 32 < t) (h2 : t ≤ 212) :
    (∃ v, svpPointFl D R ex tfill (fin t) = fin v ∧ Rel u 63 v (tetensC ((t - 32) * 5 / 9))) ∧
    ∃ v, svpSlopePointFl D R ex tfill (fin t) = fin v ∧ Rel u 75 v (4096 * (tetensC ((t - 32) * 5 / 9) / ((t - 32) * 5 / 9 + 237.3) ^ 2)) := by
  have hu := PD.acc.u_nonneg
  have hu6 := PD.u_le
  have hg := H.gap t ht h
  have hc := cF_close PD H ht h
  have hcp := Rel.pos hu hu6 (by norm_num) hc (by linarith)
  set c := (t - 32) * 5 / 9 with hcdef
  have hc1 : 1e-16 ≤ c := by rw [hcdef]; norm_num at hg ⊢; linarith
  have hc0 : 0 < c := lt_of_lt_of_le (by norm_num) hc1
  obtain ⟨v, hv1, hv2⟩ := tetensFl_close PD PR E hc1 (by linarith) hc
  have hden := denF_close PD PR hc0 hc
  have hdne := Rel.ne_zero hu6 hu (by norm_num) hden (by linarith)
  have e2 := Rel.mul hu hu6 (by norm_num) (by norm_num) (by norm_num) (by norm_num) hden hden
  have hT : 0.6108 ≤ tetensC c := by
    unfold tetensC
    have : 1 ≤ Real.exp (17.27 * c / (c + 237.3)) := Real.one_le_exp (by positivity)
    refine le_trans ?_ (mul_le_mul_of_nonneg_left this (by norm_num))
    norm_num
  have hT0 : 0 < tetensC c := lt_of_lt_of_le (by norm_num) hT
  have hsq : (c + 237.3) * (c + 237.3) ≤ 337.3 * 337.3 := by
    have hc100 : c ≤ 100 := by rw [hcdef]; linarith
    exact mul_le_mul (by linarith) (by linarith) (by linarith) (by norm_num)
  have hsq0 : (1 : ℝ) ≤ (c + 237.3) * (c + 237.3) := by norm_num; nlinarith
  have e3 := Rel.fl PD (by norm_num) (by norm_num) e2 (by rw [abs_of_pos (by positivity)]; norm_num at hsq0 ⊢; linarith)
  have hsne := Rel.ne_zero hu6 hu (by norm_num) e3 (by linarith)
  have e4 := Rel.div hu hu6 (by norm_num) (by norm_num) (by norm_num) (by norm_num) hv2 e3 (by linarith)
  have hq : (1e-8 : ℝ) ≤ tetensC c / ((c + 237.3) * (c + 237.3)) := by
    rw [le_div_iff₀ (by linarith)]
    norm_num at hsq hT ⊢
    linarith
  have e5 := Rel.fl PD (by norm_num) (by norm_num) e4 (by rw [abs_of_pos (by positivity)]; norm_num at hq ⊢; linarith)
  have e6 := Rel.mul hu hu6 (by norm_num) (by norm_num) (by norm_num) (by norm_num) (Rel.refl u 4096) e5
  have e7 := Rel.fl PD (by norm_num) (by norm_num) e6 (by rw [abs_of_pos (by positivity)]; norm_num at hq ⊢; linarith)
  refine ⟨⟨v, ?_, hv2⟩, _, ?_, Rel.mono hu (by rw [sq]; exact e7) (by norm_num)⟩
  · unfold svpPointFl
    simp only [toCelsiusFl_fin H, lt_fin, hcp, decide_true, sel, if_true, hv1]
  · unfold svpSlopePointFl
    simp only [toCelsiusFl_fin H, lt_fin, hcp, decide_true, sel, if_true, hv1]
    have hd : svpDenFl D R (fin (cF D t)) = fin (denF D R (cF D t)) := rfl
    rw [hd, fin_mul, rxf_fin, fin_div _ _ hsne, rxf_fin, fin_mul, rxf_fin, D.fl_of_rep _ (rep_4096 D)]

end
end Verif.Lemmas
