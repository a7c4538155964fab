import Verif.Model.FloatsHeat
import Verif.Lemmas.HeatIndex
import Verif.Lemmas.FloatDewtemp
import Verif.Lemmas.FloatEvap
import Verif.Lemmas.FloatRelhumIce

set_option linter.unusedSectionVars false
namespace Verif.Lemmas
open Model XF Spec
noncomputable section

/-- absolute error of at most `α` unit roundoffs -/
def Near (u α x' x : ℝ) : Prop := |x' - x| ≤ α * u

variable {D R : Rounding ℝ} {u η η' : ℝ}

theorem Near.refl (hu : 0 ≤ u) (x : ℝ) : Near u 0 x x := by simp [Near]

theorem Near.mono {α β x' x : ℝ} (hu : 0 ≤ u) (h : Near u α x' x) (hab : α ≤ β) : Near u β x' x := h.trans (mul_le_mul_of_nonneg_right hab hu)

theorem Near.size {α A x' x : ℝ} (hu6 : u ≤ 1e-6) (h0 : 0 ≤ α) (h : Near u α x' x) (hA : |x| ≤ A) : |x'| ≤ A + α * 1e-6 := by
  have h1 := abs_sub_abs_le_abs_sub x' x
  have h2 := mul_le_mul_of_nonneg_left hu6 h0
  unfold Near at h
  linarith

theorem Near.mul (P : Precise D u η) {α β γ A B a a' b b' : ℝ} (ha : Near u α a' a) (hb : Near u β b' b) (hA : |a| ≤ A) (hB : |b| ≤ B) (h0 : 0 ≤ α)
    (h1 : 0 ≤ (A + α * 1e-6) * β + α * B) (hc : (A + α * 1e-6) * β + α * B ≤ 1e5) (hγ : (A + α * 1e-6) * β + α * B + A * B + 0.2 ≤ γ) :
    Near u γ (D.fl (a' * b')) (a * b) := by
  have hu := P.acc.u_nonneg
  have k := abs_mul_close ha hb (ha.size P.u_le h0 hA) hB hu h0
  have hS : |a * b| ≤ A * B := by rw [abs_mul]; exact mul_le_mul hA hB (abs_nonneg _) ((abs_nonneg _).trans hA)
  have := abs_fl P h1 hc k hS
  exact Near.mono hu this hγ

theorem Near.add (P : Precise D u η) {α β γ A B a a' b b' : ℝ} (ha : Near u α a' a) (hb : Near u β b' b) (hA : |a| ≤ A) (hB : |b| ≤ B) (h0 : 0 ≤ α + β)
    (hc : α + β ≤ 1e5) (hγ : α + β + (A + B) + 0.2 ≤ γ) : Near u γ (D.fl (a' + b')) (a + b) := by
  have hu := P.acc.u_nonneg
  have k : |(a' + b') - (a + b)| ≤ (α + β) * u := by
    have e : (a' + b') - (a + b) = (a' - a) + (b' - b) := by ring
    rw [e]
    refine (abs_add_le _ _).trans ?_
    unfold Near at ha hb
    linarith
  exact Near.mono hu (abs_fl P h0 hc k ((abs_add_le a b).trans (add_le_add hA hB))) hγ

theorem Near.sub (P : Precise D u η) {α β γ A B a a' b b' : ℝ} (ha : Near u α a' a) (hb : Near u β b' b) (hA : |a| ≤ A) (hB : |b| ≤ B) (h0 : 0 ≤ α + β)
    (hc : α + β ≤ 1e5) (hγ : α + β + (A + B) + 0.2 ≤ γ) : Near u γ (D.fl (a' - b')) (a - b) := by
  have hb' : Near u β (-b') (-b) := by
    unfold Near at *
    rwa [show -b' - -b = -(b' - b) by ring, abs_neg]
  rw [sub_eq_add_neg, sub_eq_add_neg]
  exact Near.add P ha hb' hA (by rwa [abs_neg]) h0 hc hγ

theorem Near.scale (P : Precise D u η) {α γ A a a' c : ℝ} (hc0 : 0 < c) (ha : Near u α a' a) (hA : |a / c| ≤ A) (h0 : 0 ≤ α / c) (hc : α / c ≤ 1e5)
    (hγ : α / c + A + 0.2 ≤ γ) : Near u γ (D.fl (a' / c)) (a / c) := by
  have hu := P.acc.u_nonneg
  have k : |a' / c - a / c| ≤ (α / c) * u := by
    rw [← sub_div, abs_div, abs_of_pos hc0, div_mul_eq_mul_div]
    exact div_le_div_of_nonneg_right ha hc0.le
  exact Near.mono hu (abs_fl P h0 hc k hA) hγ

/-- sizes of the coefficients -/
def hiSize : Fin 9 → ℝ := ![42.38, 2.05, 10.15, 0.225, 0.00684, 0.05482, 0.00123, 0.000853, 0.000002]

theorem coeff_size (alt : Bool) (i : Fin 9) : |hiCoeffs alt i| ≤ hiSize i := by
  fin_cases i <;> cases alt <;> simp [hiCoeffs, hiSize] <;> norm_num [abs_le]

theorem coeff_close (PD : Precise D u η) (PR : Precise R u η') (alt : Bool) (i : Fin 9) : Near u (2.02 * hiSize i) (hiCoeffsFl D R alt i) (hiCoeffs alt i) := by
  have hu := PD.acc.u_nonneg
  unfold hiCoeffsFl
  by_cases h : hiCoeffs alt i = 0
  · rw [h, R.fl_zero, D.fl_zero]
    unfold Near
    have : 0 ≤ hiSize i := (abs_nonneg _).trans (coeff_size alt i)
    rw [sub_zero, abs_zero]
    positivity
  · have h1 : 1e-20 ≤ |hiCoeffs alt i| := by
      revert h
      fin_cases i <;> cases alt <;> simp [hiCoeffs] <;> norm_num [abs_of_pos, abs_of_neg]
    have h2 := twice PD PR h1
    unfold Rel at h2
    unfold Near
    refine h2.trans ?_
    have := mul_le_mul_of_nonneg_left (coeff_size alt i) hu
    linarith

/-- the rounded regression at a point -/
def nwsR (D : Rounding ℝ) (c : Fin 9 → ℝ) (t rh : ℝ) : ℝ :=
  let t2 := D.fl (t * t)
  let rh2 := D.fl (rh * rh)
  let s := D.fl (c 0 + D.fl (c 1 * t))
  let s := D.fl (s + D.fl (c 2 * rh))
  let s := D.fl (s + D.fl (D.fl (c 3 * t) * rh))
  let s := D.fl (s + D.fl (c 4 * t2))
  let s := D.fl (s + D.fl (c 5 * rh2))
  let s := D.fl (s + D.fl (D.fl (c 6 * t2) * rh))
  let s := D.fl (s + D.fl (D.fl (c 7 * t) * rh2))
  D.fl (s + D.fl (D.fl (c 8 * t2) * rh2))

theorem nwsEqnFl_fin (c : Fin 9 → ℝ) (t rh : ℝ) : nwsEqnFl D c (fin t) (fin rh) = fin (nwsR D c t rh) := by
  unfold nwsEqnFl nwsR
  simp only [fin_mul, fin_add, rxf_fin]

theorem nws_near (P : Precise D u η) {c c' : Fin 9 → ℝ} (hc : ∀ i, Near u (2.02 * hiSize i) (c' i) (c i)) (hs : ∀ i, |c i| ≤ hiSize i) {t rh : ℝ}
    (ht : |t| ≤ 130) (hr : |rh| ≤ 100) :
    Near u 80000 (nwsR D c' t rh) (c 0 + c 1 * t + c 2 * rh + c 3 * t * rh + c 4 * (t * t) + c 5 * (rh * rh) + c 6 * (t * t) * rh + c 7 * t * (rh * rh)
      + c 8 * (t * t) * (rh * rh)) ∧
    |c 0 + c 1 * t + c 2 * rh + c 3 * t * rh + c 4 * (t * t) + c 5 * (rh * rh) + c 6 * (t * t) * rh + c 7 * t * (rh * rh)
      + c 8 * (t * t) * (rh * rh)| ≤ 8440 := by
  have hu := P.acc.u_nonneg
  have T := Near.refl hu t
  have H := Near.refl hu rh
  have T2 := Near.mul P (γ := 16901) T T ht ht (le_refl 0) (by norm_num) (by norm_num) (by norm_num)
  have H2 := Near.mul P (γ := 10001) H H hr hr (le_refl 0) (by norm_num) (by norm_num) (by norm_num)
  have st2 : |t * t| ≤ 16900 := by rw [abs_mul]; nlinarith [abs_nonneg t]
  have sh2 : |rh * rh| ≤ 10000 := by rw [abs_mul]; nlinarith [abs_nonneg rh]
  have m : ∀ {a b A B : ℝ}, |a| ≤ A → |b| ≤ B → |a * b| ≤ A * B := by
    intro a b A B h1 h2
    rw [abs_mul]
    exact mul_le_mul h1 h2 (abs_nonneg _) ((abs_nonneg _).trans h1)
  have p : ∀ {a b A B : ℝ}, |a| ≤ A → |b| ≤ B → |a + b| ≤ A + B := fun h1 h2 => (abs_add_le _ _).trans (add_le_add h1 h2)
  have k0 := hc 0; have k1 := hc 1; have k2 := hc 2; have k3 := hc 3; have k4 := hc 4; have k5 := hc 5; have k6 := hc 6; have k7 := hc 7; have k8 := hc 8
  have s0 := hs 0; have s1 := hs 1; have s2 := hs 2; have s3 := hs 3; have s4 := hs 4; have s5 := hs 5; have s6 := hs 6; have s7 := hs 7; have s8 := hs 8
  have e0 : hiSize 0 = 42.38 := rfl
  have e1 : hiSize 1 = 2.05 := rfl
  have e2 : hiSize 2 = 10.15 := rfl
  have e3 : hiSize 3 = 0.225 := rfl
  have e4 : hiSize 4 = 0.00684 := rfl
  have e5 : hiSize 5 = 0.05482 := rfl
  have e6 : hiSize 6 = 0.00123 := rfl
  have e7 : hiSize 7 = 0.000853 := rfl
  have e8 : hiSize 8 = 0.000002 := rfl
  rw [e0] at k0 s0
  rw [e1] at k1 s1
  rw [e2] at k2 s2
  rw [e3] at k3 s3
  rw [e4] at k4 s4
  rw [e5] at k5 s5
  rw [e6] at k6 s6
  rw [e7] at k7 s7
  rw [e8] at k8 s8
  have t1 := Near.mul P (γ := 807) k1 T s1 ht (by norm_num) (by norm_num) (by norm_num) (by norm_num)
  have t2 := Near.mul P (γ := 3067) k2 H s2 hr (by norm_num) (by norm_num) (by norm_num) (by norm_num)
  have t3a := Near.mul P (γ := 88.6) k3 T s3 ht (by norm_num) (by norm_num) (by norm_num) (by norm_num)
  have t3 := Near.mul P (γ := 11786) t3a H (m s3 ht) hr (by norm_num) (by norm_num) (by norm_num) (by norm_num)
  have t4 := Near.mul P (γ := 466) k4 T2 s4 st2 (by norm_num) (by norm_num) (by norm_num) (by norm_num)
  have t5 := Near.mul P (γ := 2206) k5 H2 s5 sh2 (by norm_num) (by norm_num) (by norm_num) (by norm_num)
  have t6a := Near.mul P (γ := 83.8) k6 T2 s6 st2 (by norm_num) (by norm_num) (by norm_num) (by norm_num)
  have t6 := Near.mul P (γ := 10461) t6a H (m s6 st2) hr (by norm_num) (by norm_num) (by norm_num) (by norm_num)
  have t7a := Near.mul P (γ := 0.54) k7 T s7 ht (by norm_num) (by norm_num) (by norm_num) (by norm_num)
  have t7 := Near.mul P (γ := 7620) t7a H2 (m s7 ht) sh2 (by norm_num) (by norm_num) (by norm_num) (by norm_num)
  have t8a := Near.mul P (γ := 0.34) k8 T2 s8 st2 (by norm_num) (by norm_num) (by norm_num) (by norm_num)
  have t8 := Near.mul P (γ := 4080) t8a H2 (m s8 st2) sh2 (by norm_num) (by norm_num) (by norm_num) (by norm_num)
  have b1 := p s0 (m s1 ht)
  have b2 := p b1 (m s2 hr)
  have b3 := p b2 (m (m s3 ht) hr)
  have b4 := p b3 (m s4 st2)
  have b5 := p b4 (m s5 sh2)
  have b6 := p b5 (m (m s6 st2) hr)
  have b7 := p b6 (m (m s7 ht) sh2)
  have b8 := p b7 (m (m s8 st2) sh2)
  have a1 := Near.add P (γ := 1203) k0 t1 s0 (m s1 ht) (by norm_num) (by norm_num) (by norm_num)
  have a2 := Near.add P (γ := 5596) a1 t2 b1 (m s2 hr) (by norm_num) (by norm_num) (by norm_num)
  have a3 := Near.add P (γ := 21635) a2 t3 b2 (m (m s3 ht) hr) (by norm_num) (by norm_num) (by norm_num)
  have a4 := Near.add P (γ := 26470) a3 t4 b3 (m s4 st2) (by norm_num) (by norm_num) (by norm_num)
  have a5 := Near.add P (γ := 33600) a4 t5 b4 (m s5 sh2) (by norm_num) (by norm_num) (by norm_num)
  have a6 := Near.add P (γ := 51070) a5 t6 b5 (m (m s6 st2) hr) (by norm_num) (by norm_num) (by norm_num)
  have a7 := Near.add P (γ := 66800) a6 t7 b6 (m (m s7 ht) sh2) (by norm_num) (by norm_num) (by norm_num)
  have a8 := Near.add P (γ := 80000) a7 t8 b7 (m (m s8 st2) sh2) (by norm_num) (by norm_num) (by norm_num)
  exact ⟨a8, b8.trans (by norm_num)⟩

/-- the rounded simple formula at a point -/
def simpleR (D R : Rounding ℝ) (t rh : ℝ) : ℝ :=
  D.fl (D.fl (D.fl (D.fl (61 + D.fl (D.fl (t - 68) * D.fl (R.fl 1.2))) + D.fl (rh * D.fl (R.fl 0.094))) + t) / 2)

theorem simple_near (PD : Precise D u η) (PR : Precise R u η') {t rh : ℝ} (h0 : 40 ≤ t) (h1 : t ≤ 130) (h2 : 0 ≤ rh) (h3 : rh ≤ 100) :
    Near u 590 (simpleR D R t rh) (hiSimple t rh) ∧ |hiSimple t rh| ≤ 138 := by
  have hu := PD.acc.u_nonneg
  have T := Near.refl hu t
  have H := Near.refl hu rh
  have c1 : Near u (2.02 * 1.2) (D.fl (R.fl 1.2)) 1.2 := twice_abs PD PR (by norm_num)
  have c2 : Near u (2.02 * 0.094) (D.fl (R.fl 0.094)) 0.094 := twice_abs PD PR (by norm_num)
  have hd : |t - 68| ≤ 62 := abs_le.mpr ⟨by linarith, by linarith⟩
  have d : Near u 62.2 (D.fl (t - 68)) (t - 68) := by
    have := abs_fl PD (x := t - 68) (x' := t - 68) (α := 0) (M := 62) (le_refl _) (by norm_num) (by simp) hd
    exact Near.mono hu this (by norm_num)
  have m1 := Near.mul PD (γ := 301) d c1 hd (B := 1.2) (by rw [abs_of_pos] <;> norm_num) (by norm_num) (by norm_num) (by norm_num) (by norm_num)
  have hm1 : |(t - 68) * 1.2| ≤ 74.4 := abs_le.mpr ⟨by norm_num; linarith, by norm_num; linarith⟩
  have a1 := Near.add PD (γ := 437) (Near.refl hu 61) m1 (A := 61) (by rw [abs_of_pos]; norm_num) hm1 (by norm_num) (by norm_num) (by norm_num)
  have hr : |rh| ≤ 100 := abs_le.mpr ⟨by linarith, h3⟩
  have m2 := Near.mul PD (γ := 29) H c2 hr (B := 0.094) (by rw [abs_of_pos] <;> norm_num) (le_refl _) (by norm_num) (by norm_num) (by norm_num)
  have hm2 : |rh * 0.094| ≤ 9.4 := abs_le.mpr ⟨by norm_num; linarith, by norm_num; linarith⟩
  have hs1 : |61 + (t - 68) * 1.2| ≤ 135.4 := abs_le.mpr ⟨by norm_num; linarith, by norm_num; linarith⟩
  have a2 := Near.add PD (γ := 611) a1 m2 hs1 hm2 (by norm_num) (by norm_num) (by norm_num)
  have hs2 : |61 + (t - 68) * 1.2 + rh * 0.094| ≤ 144.8 := abs_le.mpr ⟨by norm_num; linarith, by norm_num; linarith⟩
  have ht : |t| ≤ 130 := abs_le.mpr ⟨by linarith, h1⟩
  have a3 := Near.add PD (γ := 887) a2 T hs2 ht (by norm_num) (by norm_num) (by norm_num)
  have hs3 : |hiSimple t rh| ≤ 138 := by
    unfold hiSimple
    exact abs_le.mpr ⟨by norm_num; linarith, by norm_num; linarith⟩
  exact ⟨Near.scale PD (γ := 590) (c := 2) (by norm_num) a3 hs3 (by norm_num) (by norm_num) (by norm_num), hs3⟩

/-- the rounded adjustment for dry air -/
def lowR (D : Rounding ℝ) (t rh : ℝ) : ℝ :=
  D.fl (D.fl (D.fl (13 - rh) / 4) * D.fl (Real.sqrt (D.fl (|D.fl (17 - |D.fl (t - 95)|)| / 17))))

theorem sqrt_rel {n x' x : ℝ} (h : Rel u n x' x) (hx : 0 < x) (hx' : 0 ≤ x') (hu : 0 ≤ u) (hn : 0 ≤ n) : Rel u n (Real.sqrt x') (Real.sqrt x) := by
  unfold Rel at *
  have s := Real.sqrt_pos.mpr hx
  have s' := Real.sqrt_nonneg x'
  rw [abs_of_pos hx] at h
  rw [abs_of_pos s]
  have e : x' - x = (Real.sqrt x' - Real.sqrt x) * (Real.sqrt x' + Real.sqrt x) := by
    have h1 := Real.mul_self_sqrt hx.le
    have h2 := Real.mul_self_sqrt hx'
    ring_nf
    ring_nf at h1 h2
    rw [h1, h2]
  have h3 : |Real.sqrt x' - Real.sqrt x| * Real.sqrt x ≤ n * u * Real.sqrt x * Real.sqrt x := by
    rw [mul_assoc (n * u), Real.mul_self_sqrt hx.le]
    refine le_trans ?_ h
    rw [e, abs_mul, abs_of_pos (show 0 < Real.sqrt x' + Real.sqrt x by linarith)]
    exact mul_le_mul_of_nonneg_left (by linarith) (abs_nonneg _)
  exact le_of_mul_le_mul_right h3 s

theorem low_near (P : Precise D u η) {t rh : ℝ} (hrt : D.rep t) (h95 : D.rep 95) (h17 : D.rep 17) (h0 : 80 ≤ t) (h1 : t ≤ 112) (h2 : 0 ≤ rh) (h3 : rh ≤ 13)
    (hgap : t = 112 ∨ 1e-15 ≤ 112 - t) : Near u 20.4 (lowR D t rh) ((13 - rh) / 4 * Real.sqrt ((17 - |t - 95|) / 17)) ∧
      |(13 - rh) / 4 * Real.sqrt ((17 - |t - 95|) / 17)| ≤ 3.25 := by
  have hu := P.acc.u_nonneg
  have hd : D.fl (t - 95) = t - 95 := D.fl_of_rep _ (D.rep_sub _ _ hrt h95 (by norm_num) (by linarith) (by linarith))
  have hrd : D.rep |t - 95| := by
    have := D.rep_fl (t - 95)
    rw [hd] at this
    rcases abs_choice (t - 95) with h | h <;> rw [h]
    · exact this
    · exact D.rep_neg _ this
  have hd17 : |t - 95| ≤ 17 := abs_le.mpr ⟨by linarith, by linarith⟩
  have hx : Rel u 1.01 (D.fl (17 - |t - 95|)) (17 - |t - 95|) := by
    rcases le_total 8.5 |t - 95| with h | h
    · rw [D.fl_of_rep _ (D.rep_sub _ _ h17 hrd (abs_nonneg _) (by linarith) (by norm_num at h ⊢; linarith))]
      exact Rel.mono hu (Rel.refl u _) (by norm_num)
    · exact Rel.const P (by norm_num at h; rw [abs_of_nonneg (by linarith)]; norm_num; linarith)
  have hy0 : 0 ≤ 17 - |t - 95| := by linarith
  have hy0' : 0 ≤ D.fl (17 - |t - 95|) := D.fl_nonneg hy0
  -- the square root
  have hq : Near u 3.1 (D.fl (Real.sqrt (D.fl (|D.fl (17 - |D.fl (t - 95)|)| / 17)))) (Real.sqrt ((17 - |t - 95|) / 17)) := by
    rw [hd, abs_of_nonneg hy0']
    by_cases hz : 17 - |t - 95| = 0
    · rw [hz, D.fl_zero, zero_div, D.fl_zero, Real.sqrt_zero, D.fl_zero]
      exact Near.mono hu (Near.refl hu 0) (by norm_num)
    · have hbig : 1e-15 ≤ 17 - |t - 95| := by
        rcases abs_cases (t - 95) with ⟨e, -⟩ | ⟨e, -⟩
        · rw [e] at hz ⊢
          rcases hgap with h | h
          · exact absurd (by linarith) hz
          · norm_num at h ⊢; linarith
        · rw [e]; norm_num; linarith
      have hpos : 0 < (17 - |t - 95|) / 17 := by
        have : (0:ℝ) < 17 - |t - 95| := lt_of_lt_of_le (by norm_num) hbig
        positivity
      have hquot : 1e-17 ≤ (17 - |t - 95|) / 17 := by rw [le_div_iff₀ (by norm_num)]; exact le_trans (by norm_num) hbig
      have h4 : Rel u 1.01 (D.fl (17 - |t - 95|) / 17) ((17 - |t - 95|) / 17) := by
        unfold Rel at *
        rw [← sub_div, abs_div, abs_div, ← mul_div_assoc]
        exact div_le_div_of_nonneg_right hx (abs_nonneg _)
      have h5 := Rel.fl P (by norm_num) (by norm_num) h4 (by rw [abs_of_pos hpos]; exact le_trans (by norm_num) hquot)
      have h6 := sqrt_rel h5 hpos (D.fl_nonneg (by positivity)) hu (by norm_num)
      have hs1 : Real.sqrt ((17 - |t - 95|) / 17) ≤ 1 := by
        refine Real.sqrt_le_iff.mpr ⟨by norm_num, ?_⟩
        rw [div_le_iff₀ (by norm_num)]
        linarith [abs_nonneg (t - 95)]
      have hs0 : 1e-17 ≤ Real.sqrt ((17 - |t - 95|) / 17) := by
        apply Real.le_sqrt_of_sq_le
        exact le_trans (by norm_num) hquot
      have h7 := Rel.fl P (by norm_num) (by norm_num) h6 (by rw [abs_of_nonneg (Real.sqrt_nonneg _)]; exact le_trans (by norm_num) hs0)
      unfold Rel at h7
      unfold Near
      refine h7.trans ?_
      rw [abs_of_nonneg (Real.sqrt_nonneg _)]
      have := mul_le_mul_of_nonneg_left hs1 hu
      rw [mul_assoc]
      generalize u * Real.sqrt ((17 - |t - 95|) / 17) = z at this ⊢
      norm_num
      linarith
  have hs1 : |Real.sqrt ((17 - |t - 95|) / 17)| ≤ 1 := by
    rw [abs_of_nonneg (Real.sqrt_nonneg _)]
    refine Real.sqrt_le_iff.mpr ⟨by norm_num, ?_⟩
    rw [div_le_iff₀ (by norm_num)]
    linarith [abs_nonneg (t - 95)]
  have h13 : |13 - rh| ≤ 13 := abs_le.mpr ⟨by linarith, by linarith⟩
  have d : Near u 13.2 (D.fl (13 - rh)) (13 - rh) := by
    have := abs_fl P (x := 13 - rh) (x' := 13 - rh) (α := 0) (M := 13) (le_refl _) (by norm_num) (by simp) h13
    exact Near.mono hu this (by norm_num)
  have hf : |(13 - rh) / 4| ≤ 3.25 := abs_le.mpr ⟨by norm_num; linarith, by norm_num; linarith⟩
  have e := Near.scale P (γ := 6.75) (c := 4) (by norm_num) d hf (by norm_num) (by norm_num) (by norm_num)
  refine ⟨Near.mul P (γ := 20.4) e hq hf hs1 (by norm_num) (by norm_num) (by norm_num) (by norm_num), ?_⟩
  rw [abs_mul]
  calc _ ≤ 3.25 * 1 := mul_le_mul hf hs1 (abs_nonneg _) (by norm_num)
    _ = 3.25 := by norm_num

/-- the rounded adjustment for humid air -/
def highR (D : Rounding ℝ) (t rh : ℝ) : ℝ := D.fl (D.fl (D.fl (rh - 85) / 10) * D.fl (D.fl (87 - t) / 5))

theorem high_near (P : Precise D u η) {t rh : ℝ} (h0 : 80 ≤ t) (h1 : t ≤ 87) (h2 : 85 ≤ rh) (h3 : rh ≤ 100) :
    Near u 11.5 (highR D t rh) ((rh - 85) / 10 * ((87 - t) / 5)) ∧ |(rh - 85) / 10 * ((87 - t) / 5)| ≤ 2.1 := by
  have hu := P.acc.u_nonneg
  have a1 : |rh - 85| ≤ 15 := abs_le.mpr ⟨by linarith, by linarith⟩
  have a2 : |87 - t| ≤ 7 := abs_le.mpr ⟨by linarith, by linarith⟩
  have d1 : Near u 15.2 (D.fl (rh - 85)) (rh - 85) := by
    have := abs_fl P (x := rh - 85) (x' := rh - 85) (α := 0) (M := 15) (le_refl _) (by norm_num) (by simp) a1
    exact Near.mono hu this (by norm_num)
  have d2 : Near u 7.2 (D.fl (87 - t)) (87 - t) := by
    have := abs_fl P (x := 87 - t) (x' := 87 - t) (α := 0) (M := 7) (le_refl _) (by norm_num) (by simp) a2
    exact Near.mono hu this (by norm_num)
  have b1 : |(rh - 85) / 10| ≤ 1.5 := abs_le.mpr ⟨by norm_num; linarith, by norm_num; linarith⟩
  have b2 : |(87 - t) / 5| ≤ 1.4 := abs_le.mpr ⟨by norm_num; linarith, by norm_num; linarith⟩
  have e1 := Near.scale P (γ := 3.22) (c := 10) (by norm_num) d1 b1 (by norm_num) (by norm_num) (by norm_num)
  have e2 := Near.scale P (γ := 3.04) (c := 5) (by norm_num) d2 b2 (by norm_num) (by norm_num) (by norm_num)
  refine ⟨Near.mul P (γ := 11.5) e1 e2 b1 b2 (by norm_num) (by norm_num) (by norm_num) (by norm_num), ?_⟩
  rw [abs_mul]
  calc _ ≤ 1.5 * 1.4 := mul_le_mul b1 b2 (abs_nonneg _) (by norm_num)
    _ = 2.1 := by norm_num

/-- the computed value from 40 F on -/
theorem heatIndexPointFl_fin (alt : Bool) {t rh : ℝ} (h40 : 40 ≤ t) :
    heatIndexPointFl D R alt (fin t) (fin rh) =
      let b := if hiThreshold alt ≤ simpleR D R t rh then nwsR D (hiCoeffsFl D R alt) t rh else simpleR D R t rh
      fin (if rh ≤ 13 ∧ 80 ≤ t ∧ t ≤ 112 then D.fl (b - lowR D t rh) else if 85 < rh ∧ 80 ≤ t ∧ t ≤ 87 then D.fl (b + highR D t rh) else b) := by
  have hthr : hiThreshold alt = hiCrit alt := rfl
  unfold heatIndexPointFl
  simp only [nwsEqnFl_fin, fin_mul, fin_add, fin_sub, abs_fin, lt_fin, le_fin, rxf_fin]
  rw [fin_div _ _ (by norm_num), fin_div _ _ (by norm_num), fin_div _ _ (by norm_num), fin_div _ _ (by norm_num), fin_div _ _ (by norm_num)]
  simp only [rxf_fin]
  rw [sqrt_fin (D.fl_nonneg (by positivity))]
  simp only [fin_mul, fin_add, fin_sub, rxf_fin]
  have n40 : ¬ t < 40 := not_lt.mpr h40
  have hs : D.fl (D.fl (D.fl (D.fl (61 + D.fl (D.fl (t - 68) * D.fl (R.fl 1.2))) + D.fl (rh * D.fl (R.fl 0.094))) + t) / 2) = simpleR D R t rh := rfl
  have hl : D.fl (D.fl (D.fl (13 - rh) / 4) * D.fl (Real.sqrt (D.fl (|D.fl (17 - |D.fl (t - 95)|)| / 17)))) = lowR D t rh := rfl
  have hh : D.fl (D.fl (D.fl (rh - 85) / 10) * D.fl (D.fl (87 - t) / 5)) = highR D t rh := rfl
  rw [hs, hl, hh, hthr]
  generalize lowR D t rh = lo
  generalize highR D t rh = hi
  generalize simpleR D R t rh = s
  generalize nwsR D (hiCoeffsFl D R alt) t rh = w
  simp only [sel, n40, decide_false, Bool.false_eq_true, if_false, lt_fin, le_fin, decide_eq_true_eq, Bool.and_eq_true, ← and_assoc]
  by_cases hc : hiCrit alt ≤ s
  · simp only [le_fin, hc, decide_true, if_true, fin_sub, rxf_fin]
    by_cases hA : (rh ≤ 13 ∧ 80 ≤ t) ∧ t ≤ 112
    · have hB : ¬ ((85 < rh ∧ 80 ≤ t) ∧ t ≤ 87) := by rintro ⟨⟨h, -⟩, -⟩; linarith [hA.1.1]
      simp only [if_pos hA, if_neg hB]
    · by_cases hB : (85 < rh ∧ 80 ≤ t) ∧ t ≤ 87
      · simp only [if_neg hA, if_pos hB, fin_add, rxf_fin]
      · simp only [if_neg hA, if_neg hB]
  · simp only [le_fin, hc, decide_false, if_false, fin_sub, rxf_fin, Bool.false_eq_true]
    by_cases hA : (rh ≤ 13 ∧ 80 ≤ t) ∧ t ≤ 112
    · have hB : ¬ ((85 < rh ∧ 80 ≤ t) ∧ t ≤ 87) := by rintro ⟨⟨h, -⟩, -⟩; linarith [hA.1.1]
      simp only [if_pos hA, if_neg hB]
    · by_cases hB : (85 < rh ∧ 80 ≤ t) ∧ t ≤ 87
      · simp only [if_neg hA, if_pos hB, fin_add, rxf_fin]
      · simp only [if_neg hA, if_neg hB]

theorem regression_near (PD : Precise D u η) (PR : Precise R u η') (alt : Bool) {t rh : ℝ} (h0 : 40 ≤ t) (h1 : t ≤ 130) (h2 : 0 ≤ rh) (h3 : rh ≤ 100) :
    Near u 80000 (nwsR D (hiCoeffsFl D R alt) t rh) (hiRegression alt t rh) ∧ |hiRegression alt t rh| ≤ 8440 := by
  have k := nws_near PD (coeff_close PD PR alt) (coeff_size alt) (abs_le.mpr ⟨by linarith, h1⟩ : |t| ≤ 130) (abs_le.mpr ⟨by linarith, h3⟩ : |rh| ≤ 100)
  have e := nwsEqn_fin alt t rh
  unfold nwsEqn at e
  simp only [fin_mul, fin_add] at e
  rw [XF.fin.inj e] at k
  exact k

/-- the adjustments change the error by little -/
theorem adjusted_near (P : Precise D u η) {t rh b b' α A γ : ℝ} (hrt : D.rep t) (h95 : D.rep 95) (h17 : D.rep 17) (h2 : 0 ≤ rh) (h3 : rh ≤ 100)
    (hgap : t = 112 ∨ 1e-15 ≤ |112 - t|) (hb : Near u α b' b) (hA : |b| ≤ A) (h0 : 0 ≤ α) (hα : α ≤ 90000) (hγ : α + 24 + A ≤ γ) :
    Near u γ (if rh ≤ 13 ∧ 80 ≤ t ∧ t ≤ 112 then D.fl (b' - lowR D t rh) else if 85 < rh ∧ 80 ≤ t ∧ t ≤ 87 then D.fl (b' + highR D t rh) else b')
      (b - hiAdjLow t rh + hiAdjHigh t rh) := by
  have hu := P.acc.u_nonneg
  have hA0 : 0 ≤ A := (abs_nonneg _).trans hA
  unfold hiAdjLow hiAdjHigh
  by_cases hL : rh ≤ 13 ∧ 80 ≤ t ∧ t ≤ 112
  · have hB : ¬ (85 < rh ∧ 80 ≤ t ∧ t ≤ 87) := by rintro ⟨h, -⟩; linarith [hL.1]
    rw [if_pos hL, if_pos hL, if_neg hB, add_zero]
    have hg : t = 112 ∨ 1e-15 ≤ 112 - t := by rwa [abs_of_nonneg (by linarith [hL.2.2])] at hgap
    obtain ⟨k1, k2⟩ := low_near P hrt h95 h17 hL.2.1 hL.2.2 h2 hL.1 hg
    exact Near.sub P hb k1 hA k2 (by norm_num; linarith) (by norm_num; linarith) (by norm_num; linarith)
  · rw [if_neg hL, if_neg hL, sub_zero]
    by_cases hB : 85 < rh ∧ 80 ≤ t ∧ t ≤ 87
    · rw [if_pos hB, if_pos hB]
      obtain ⟨k1, k2⟩ := high_near P hB.2.1 hB.2.2 hB.1.le h3
      exact Near.add P hb k1 hA k2 (by norm_num; linarith) (by norm_num; linarith) (by norm_num; linarith)
    · rw [if_neg hB, if_neg hB, add_zero]
      exact Near.mono hu hb (by linarith)

end
end Verif.Lemmas
