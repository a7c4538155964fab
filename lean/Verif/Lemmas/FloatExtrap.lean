import Verif.Model.FloatsExtrap
import Verif.Lemmas.FloatHeat
import Verif.Props.Extrap
import Mathlib.Analysis.Complex.ExponentialBounds

set_option linter.unusedSectionVars false
namespace Verif.Lemmas
open Model XF Spec
noncomputable section

variable {D R : Rounding ℝ} {u η η' : ℝ}

/-- accuracy of the computed third power -/
structure CubeAccurate (D : Rounding ℝ) (u : ℝ) (cube : XF ℝ → XF ℝ) : Prop where
  fin : ∀ x, D.rep x → |x| ≤ 1 → ∃ y, cube (XF.fin x) = XF.fin y ∧ |y - x ^ 3| ≤ 2 * u
  zero : cube (XF.fin 0) = XF.fin 0

/-! ### error propagation without a limit on the error -/

theorem Near.round (P : Precise D u η) {α γ A a a' : ℝ} (ha : Near u α a' a) (hA : |a| ≤ A) (h0 : 0 ≤ α) (hγ : α * 1.000001 + A + 1e-9 ≤ γ) : Near u γ (D.fl a') a := by
  have hu := P.acc.u_nonneg
  have hu6 := P.u_le
  have h1 := P.acc.err a'
  have h2 := ha.size hu6 h0 hA
  have h3 := mul_le_mul_of_nonneg_left h2 hu
  have h4 := P.eta_le
  have h5 := abs_sub_le (D.fl a') a' a
  have h6 := mul_le_mul_of_nonneg_right hγ hu
  unfold Near at *
  norm_num at *
  nlinarith

theorem Near.mulR (P : Precise D u η) {α β γ A B a a' b b' : ℝ} (ha : Near u α a' a) (hb : Near u β b' b) (hA : |a| ≤ A) (hB : |b| ≤ B) (h0 : 0 ≤ α)
    (h1 : 0 ≤ (A + α * 1e-6) * β + α * B) (hγ : ((A + α * 1e-6) * β + α * B) * 1.000001 + A * B + 1e-9 ≤ γ) : Near u γ (D.fl (a' * b')) (a * b) := by
  have hu := P.acc.u_nonneg
  have k := abs_mul_close ha hb (ha.size P.u_le h0 hA) hB hu h0
  have hS : |a * b| ≤ A * B := by rw [abs_mul]; exact mul_le_mul hA hB (abs_nonneg _) ((abs_nonneg _).trans hA)
  exact Near.round P k hS h1 hγ

theorem Near.plus {α β a a' b b' : ℝ} (ha : Near u α a' a) (hb : Near u β b' b) : Near u (α + β) (a' + b') (a + b) := by
  unfold Near at *
  rw [show (a' + b') - (a + b) = (a' - a) + (b' - b) by ring]
  refine (abs_add_le _ _).trans ?_
  linarith

theorem Near.neg {α a a' : ℝ} (ha : Near u α a' a) : Near u α (-a') (-a) := by
  unfold Near at *
  rwa [show -a' - -a = -(a' - a) by ring, abs_neg]

theorem Near.minus {α β a a' b b' : ℝ} (ha : Near u α a' a) (hb : Near u β b' b) : Near u (α + β) (a' - b') (a - b) := by
  rw [sub_eq_add_neg, sub_eq_add_neg]
  exact Near.plus ha hb.neg

theorem Near.addR (P : Precise D u η) {α β γ A a a' b b' : ℝ} (ha : Near u α a' a) (hb : Near u β b' b) (hA : |a + b| ≤ A) (h0 : 0 ≤ α + β)
    (hγ : (α + β) * 1.000001 + A + 1e-9 ≤ γ) : Near u γ (D.fl (a' + b')) (a + b) := Near.round P (ha.plus hb) hA h0 hγ

theorem Near.subR (P : Precise D u η) {α β γ A a a' b b' : ℝ} (ha : Near u α a' a) (hb : Near u β b' b) (hA : |a - b| ≤ A) (h0 : 0 ≤ α + β)
    (hγ : (α + β) * 1.000001 + A + 1e-9 ≤ γ) : Near u γ (D.fl (a' - b')) (a - b) := Near.round P (ha.minus hb) hA h0 hγ

theorem Near.divR (P : Precise D u η) {α γ A L a a' c : ℝ} (hL : 0 < L) (hc : L ≤ c) (ha : Near u α a' a) (hA : |a / c| ≤ A) (h0 : 0 ≤ α)
    (hγ : α / L * 1.000001 + A + 1e-9 ≤ γ) : Near u γ (D.fl (a' / c)) (a / c) := by
  have hu := P.acc.u_nonneg
  have hc0 : 0 < c := hL.trans_le hc
  have k : Near u (α / L) (a' / c) (a / c) := by
    unfold Near at *
    rw [← sub_div, abs_div, abs_of_pos hc0, div_mul_eq_mul_div]
    exact div_le_div₀ (mul_nonneg h0 hu) ha hL hc
  exact Near.round P k hA (by positivity) hγ

theorem Near.trans {α β γ a b c : ℝ} (h1 : Near u α a b) (h2 : Near u β b c) (hu : 0 ≤ u) (h : α + β ≤ γ) : Near u γ a c := by
  unfold Near at *
  have := abs_sub_le a b c
  have := mul_le_mul_of_nonneg_right h hu
  linarith

theorem Near.min {α a a' c : ℝ} (h : Near u α a' a) : Near u α (min c a') (min c a) := by
  unfold Near at *
  refine (abs_min_sub_min_le_max c a' c a).trans ?_
  rw [sub_self, abs_zero, max_eq_right (abs_nonneg _)]
  exact h

/-! ### constants -/

theorem gInvR_rel (PR : Precise R u η') : Lemmas.Rel u 2.05 (gInvR R) gInv := by
  have hu := PR.acc.u_nonneg
  have h1 := Rel.const PR (x := 9.80616) (by rw [abs_of_pos] <;> norm_num)
  have h2 := Rel.inv hu PR.u_le (by norm_num) (by norm_num) h1 (by norm_num)
  have h3 := Rel.fl PR (n := 1.03) (by norm_num) (by norm_num) (Rel.mono hu h2 (by norm_num)) (by rw [abs_of_pos] <;> norm_num)
  unfold gInvR gInv
  rw [one_div, one_div]
  exact Rel.mono hu h3 (by norm_num)

theorem near_of_rel {n x' x X : ℝ} (h : Lemmas.Rel u n x' x) (hX : |x| ≤ X) (hu : 0 ≤ u) (hn : 0 ≤ n) : Near u (n * X) x' x := by
  unfold Rel at h
  unfold Near
  refine h.trans ?_
  have := mul_le_mul_of_nonneg_left hX (mul_nonneg hn hu)
  linarith

theorem gInv_near (PD : Precise D u η) (PR : Precise R u η') : Near u 0.314 (gInvFl D R) gInv := by
  have hu := PD.acc.u_nonneg
  have h := Rel.fl PD (by norm_num) (by norm_num) (gInvR_rel PR) (by unfold gInv; rw [abs_of_pos] <;> norm_num)
  exact Near.mono hu (near_of_rel h (X := 0.10198) (by unfold gInv; rw [abs_of_pos] <;> norm_num) hu (by norm_num)) (by norm_num)

theorem alpha_near (PD : Precise D u η) (PR : Precise R u η') : Near u 1.4 (alphaFl D R) alphaLapse := by
  have hu := PD.acc.u_nonneg
  have hu6 := PD.u_le
  have h1 := Rel.const PR (x := 0.0065) (by rw [abs_of_pos] <;> norm_num)
  have h2 := Rel.const PR (x := 287.04) (by rw [abs_of_pos] <;> norm_num)
  have h3 := Rel.mul hu hu6 (by norm_num) (by norm_num) (by norm_num) (by norm_num) h1 h2
  have h4 := Rel.fl PR (n := 2.04) (by norm_num) (by norm_num) (Rel.mono hu h3 (by norm_num)) (by rw [abs_of_pos] <;> norm_num)
  have h5 := Rel.mul hu hu6 (by norm_num) (by norm_num) (by norm_num) (by norm_num) h4 (gInvR_rel PR)
  have h6 := Rel.fl PR (n := 5.12) (by norm_num) (by norm_num) (Rel.mono hu h5 (by norm_num)) (by unfold gInv; rw [abs_of_pos] <;> norm_num)
  have h7 := Rel.fl PD (n := 6.13) (by norm_num) (by norm_num) (Rel.mono hu h6 (by norm_num)) (by unfold gInv; rw [abs_of_pos] <;> norm_num)
  exact Near.mono hu (near_of_rel h7 (X := 0.19027) (by unfold alphaLapse Rd gInv; rw [abs_of_pos] <;> norm_num) hu (by norm_num)) (by norm_num)

theorem rd_near (PD : Precise D u η) (PR : Precise R u η') : Near u 580 (rdFl D R) Rd :=
  Near.mono PD.acc.u_nonneg (twice_abs PD PR (by norm_num)) (by norm_num)

theorem alpha_size : |alphaLapse| ≤ 0.19027 := by unfold alphaLapse Rd gInv; rw [abs_of_pos] <;> norm_num

/-! ### surface temperature, height, temperature at sea level -/

def tsR (D R : Rounding ℝ) (t pl ps : ℝ) : ℝ := D.fl (t * D.fl (1 + D.fl (alphaFl D R * D.fl (D.fl (ps / pl) - 1))))

theorem tStarFl_fin (t : ℝ) {pl : ℝ} (ps : ℝ) (hl : 0 < pl) : tStarFl D R (fin t) (fin pl) (fin ps) = fin (tsR D R t pl ps) := by
  unfold tStarFl
  rw [fin_div _ _ hl.ne']
  simp only [fin_mul, fin_add, fin_sub, rxf_fin]
  rfl

theorem ts_near (PD : Precise D u η) (PR : Precise R u η') {t pl ps : ℝ} (ht : 0 < t) (ht2 : t ≤ 340) (h1 : 0.9 ≤ ps / pl) (h2 : ps / pl ≤ 1.2) :
    Near u 920 (tsR D R t pl ps) (Ecmwf.surfaceT t pl ps) ∧ |Ecmwf.surfaceT t pl ps| ≤ 353 := by
  have hu := PD.acc.u_nonneg
  have hq : |ps / pl| ≤ 1.2 := abs_le.mpr ⟨by norm_num at h1 ⊢; linarith, h2⟩
  have hq1 : |ps / pl - 1| ≤ 0.2 := abs_le.mpr ⟨by norm_num at h1 ⊢; linarith, by norm_num at h2 ⊢; linarith⟩
  have n1 := Near.round PD (γ := 1.21) (Near.refl hu (ps / pl)) hq (le_refl _) (by norm_num)
  have n2 := Near.subR PD (γ := 1.42) n1 (Near.refl hu 1) hq1 (by norm_num) (by norm_num)
  have n3 := Near.mulR PD (γ := 0.6) (alpha_near PD PR) n2 alpha_size hq1 (by norm_num) (by norm_num) (by norm_num)
  have hm : |alphaLapse * (ps / pl - 1)| ≤ 0.0381 := by
    rw [abs_mul]
    exact (mul_le_mul alpha_size hq1 (abs_nonneg _) (by norm_num)).trans (by norm_num)
  have hm1 : |1 + alphaLapse * (ps / pl - 1)| ≤ 1.0381 := by
    refine (abs_add_le _ _).trans ?_
    rw [abs_one]
    norm_num at hm ⊢
    linarith
  have n4 := Near.addR PD (γ := 1.65) (Near.refl hu 1) n3 hm1 (by norm_num) (by norm_num)
  have ht3 : |t| ≤ 340 := abs_le.mpr ⟨by linarith, ht2⟩
  have n5 := Near.mulR PD (γ := 920) (Near.refl hu t) n4 ht3 hm1 (le_refl _) (by norm_num) (by norm_num)
  have e : t * (1 + alphaLapse * (ps / pl - 1)) = Ecmwf.surfaceT t pl ps := by rw [Props.alpha_eq]; rfl
  rw [e] at n5
  refine ⟨n5, ?_⟩
  rw [← e, abs_mul]
  exact (mul_le_mul ht3 hm1 (abs_nonneg _) (by norm_num)).trans (by norm_num)

def hR (D R : Rounding ℝ) (phi : ℝ) : ℝ := D.fl (phi * gInvFl D R)

theorem gInv_size : |gInv| ≤ 0.10198 := by unfold gInv; rw [abs_of_pos] <;> norm_num

theorem h_near (PD : Precise D u η) (PR : Precise R u η') {phi : ℝ} (h : |phi| ≤ 60000) : Near u 25000 (hR D R phi) (phi / Ecmwf.g) ∧ |phi / Ecmwf.g| ≤ 6119 := by
  have hu := PD.acc.u_nonneg
  have n := Near.mulR PD (γ := 25000) (Near.refl hu phi) (gInv_near PD PR) h gInv_size (le_refl _) (by norm_num) (by norm_num)
  rw [Props.gInv_mul] at n
  refine ⟨n, ?_⟩
  rw [← Props.gInv_mul, abs_mul]
  exact (mul_le_mul h gInv_size (abs_nonneg _) (by norm_num)).trans (by norm_num)

/-- up to 2501 m -/
theorem h_near_low (PD : Precise D u η) (PR : Precise R u η') {phi : ℝ} (h : |phi| ≤ 24530) : Near u 10210 (hR D R phi) (phi / Ecmwf.g) := by
  have hu := PD.acc.u_nonneg
  have n := Near.mulR PD (γ := 10210) (Near.refl hu phi) (gInv_near PD PR) h gInv_size (le_refl _) (by norm_num) (by norm_num)
  rwa [Props.gInv_mul] at n

def t0R (D R : Rounding ℝ) (t pl ps phi : ℝ) : ℝ := D.fl (tsR D R t pl ps + D.fl (D.fl (R.fl 0.0065) * hR D R phi))

theorem t0_near (PD : Precise D u η) (PR : Precise R u η') {t pl ps phi : ℝ} (ht : 0 < t) (ht2 : t ≤ 340) (h1 : 0.9 ≤ ps / pl) (h2 : ps / pl ≤ 1.2)
    (h : |phi| ≤ 60000) : Near u 1600 (t0R D R t pl ps phi) (Ecmwf.surfaceT t pl ps + Ecmwf.lapse * (phi / Ecmwf.g)) ∧
      |Ecmwf.surfaceT t pl ps + Ecmwf.lapse * (phi / Ecmwf.g)| ≤ 393 := by
  have hu := PD.acc.u_nonneg
  obtain ⟨a1, a2⟩ := ts_near PD PR ht ht2 h1 h2
  obtain ⟨b1, b2⟩ := h_near PD PR h
  have c : Near u (2.02 * 0.0065) (D.fl (R.fl 0.0065)) Ecmwf.lapse := twice_abs PD PR (by norm_num)
  have cs : |Ecmwf.lapse| ≤ 0.0065 := by unfold Ecmwf.lapse; rw [abs_of_pos]; norm_num
  have n := Near.mulR PD (γ := 285) c b1 cs b2 (by norm_num) (by norm_num) (by norm_num)
  have s : |Ecmwf.surfaceT t pl ps + Ecmwf.lapse * (phi / Ecmwf.g)| ≤ 393 := by
    refine (abs_add_le _ _).trans ?_
    rw [abs_mul]
    have := mul_le_mul cs b2 (abs_nonneg _) (by norm_num)
    norm_num at this ⊢
    linarith
  exact ⟨Near.addR PD a1 n s (by norm_num) (by norm_num), s⟩

/-! ### the plateau correction -/

/-- the blend between 2000 m and 2500 m, not cut off at its ends -/
def blend (h t0 tp : ℝ) : ℝ := 0.002 * ((2500 - h) * t0 + (h - 2000) * tp)

def blendR (D R : Rounding ℝ) (h t0 tp : ℝ) : ℝ := D.fl (D.fl (R.fl 0.002) * D.fl (D.fl (D.fl (2500 - h) * t0) + D.fl (D.fl (h - 2000) * tp)))

theorem blend_near (PD : Precise D u η) (PR : Precise R u η') {h h' t0 t0' tp tp' : ℝ} (kh : Near u 10210 h' h) (kt : Near u 1600 t0' t0) (kp : Near u 1600 tp' tp)
    (h1 : 1999 ≤ h) (h2 : h ≤ 2501) (s1 : |t0| ≤ 393) (s2 : |tp| ≤ 393) : Near u 24500 (blendR D R h' t0' tp') (blend h t0 tp) := by
  have hu := PD.acc.u_nonneg
  have z1 : |2500 - h| ≤ 501 := abs_le.mpr ⟨by linarith, by linarith⟩
  have z2 : |h - 2000| ≤ 501 := abs_le.mpr ⟨by linarith, by linarith⟩
  have n1 := Near.subR PD (γ := 10712) (Near.refl hu 2500) kh z1 (by norm_num) (by norm_num)
  have n2 := Near.subR PD (γ := 10712) kh (Near.refl hu 2000) z2 (by norm_num) (by norm_num)
  have n3 := Near.mulR PD (γ := 5208700) n1 kt z1 s1 (by norm_num) (by norm_num) (by norm_num)
  have n4 := Near.mulR PD (γ := 5208700) n2 kp z2 s2 (by norm_num) (by norm_num) (by norm_num)
  have z3 : |(2500 - h) * t0 + (h - 2000) * tp| ≤ 393786 := by
    refine (abs_add_le _ _).trans ?_
    rw [abs_mul, abs_mul]
    have a := mul_le_mul z1 s1 (abs_nonneg _) (by norm_num)
    have b := mul_le_mul z2 s2 (abs_nonneg _) (by norm_num)
    norm_num at a b ⊢
    linarith
  have n5 := Near.addR PD (γ := 10811300) n3 n4 z3 (by norm_num) (by norm_num)
  have c : Near u (2.02 * 0.002) (D.fl (R.fl 0.002)) 0.002 := twice_abs PD PR (by norm_num)
  exact Near.mulR PD (γ := 24500) c n5 (by rw [abs_of_pos]; norm_num) z3 (by norm_num) (by norm_num) (by norm_num)

/-- the blend is the corrected temperature between 2000 m and 2500 m and close to it nearby -/
theorem blend_plateau {ts h ε : ℝ} (hu : 0 ≤ u) (he : 0 ≤ ε) (h1 : 2000 - ε * u ≤ h) (h2 : h ≤ 2500 + ε * u) (s1 : |ts + Ecmwf.lapse * h| ≤ 393) :
    Near u (1.6 * ε) (blend h (ts + Ecmwf.lapse * h) (min 298 (ts + Ecmwf.lapse * h))) (Ecmwf.plateauT ts h) := by
  set t0 := ts + Ecmwf.lapse * h with ht0
  have s2 : |min 298 t0 - t0| ≤ 786 := by
    obtain ⟨a, b⟩ := abs_le.mp s1
    rcases min_choice 298 t0 with hm | hm <;> rw [hm]
    · exact abs_le.mpr ⟨by linarith, by have := min_le_right 298 t0; rw [hm] at this; linarith⟩
    · simp
  have eu : 0 ≤ ε * u := mul_nonneg he hu
  unfold Near Ecmwf.plateauT
  simp only [← ht0]
  by_cases c1 : h ≤ 2000
  · rw [if_pos c1]
    have e : blend h t0 (min 298 t0) - t0 = 0.002 * ((h - 2000) * (min 298 t0 - t0)) := by unfold blend; ring
    rw [e, abs_mul, abs_mul, abs_of_pos (show (0:ℝ) < 0.002 by norm_num)]
    have : |h - 2000| ≤ ε * u := by rw [abs_of_nonpos (by linarith)]; linarith
    have := mul_le_mul this s2 (abs_nonneg _) eu
    norm_num
    linarith
  · rw [if_neg c1]
    by_cases c2 : h ≤ 2500
    · rw [if_pos c2]
      have e : blend h t0 (min 298 t0) - ((2500 - h) * t0 + (h - 2000) * min 298 t0) / 500 = 0 := by unfold blend; ring
      rw [e, abs_zero]
      positivity
    · rw [if_neg c2]
      have e : blend h t0 (min 298 t0) - min 298 t0 = 0.002 * ((h - 2500) * (min 298 t0 - t0)) := by unfold blend; ring
      rw [e, abs_mul, abs_mul, abs_of_pos (show (0:ℝ) < 0.002 by norm_num)]
      have : |h - 2500| ≤ ε * u := by rw [abs_of_nonneg (by linarith)]; linarith
      have := mul_le_mul this s2 (abs_nonneg _) eu
      norm_num
      linarith

theorem plateau_size {ts h : ℝ} (s1 : |ts + Ecmwf.lapse * h| ≤ 393) : |Ecmwf.plateauT ts h| ≤ 393 := by
  unfold Ecmwf.plateauT
  simp only
  set t0 := ts + Ecmwf.lapse * h with ht0
  obtain ⟨a, b⟩ := abs_le.mp s1
  have m1 : -393 ≤ min 298 t0 := le_min (by norm_num) a
  have m2 : min 298 t0 ≤ 393 := (min_le_right _ _).trans b
  split_ifs with c1 c2
  · exact s1
  · have x1 := mul_nonneg (show 0 ≤ 2500 - h by linarith) (show 0 ≤ 393 - t0 by linarith)
    have x2 := mul_nonneg (show 0 ≤ 2500 - h by linarith) (show 0 ≤ 393 + t0 by linarith)
    have x3 := mul_nonneg (show 0 ≤ h - 2000 by linarith) (show 0 ≤ 393 - min 298 t0 by linarith)
    have x4 := mul_nonneg (show 0 ≤ h - 2000 by linarith) (show 0 ≤ 393 + min 298 t0 by linarith)
    exact abs_le.mpr ⟨by rw [le_div_iff₀ (by norm_num)]; linarith, by rw [div_le_iff₀ (by norm_num)]; linarith⟩
  · exact abs_le.mpr ⟨m1, m2⟩

/-- the exponent is one formula for all positive geopotentials -/
theorem alphaT_eq {ts phi : ℝ} (h : 0 < phi) : Ecmwf.alphaT ts phi = max 0 (Ecmwf.R * (Ecmwf.plateauT ts (phi / Ecmwf.g) - ts) / phi) := by
  unfold Ecmwf.alphaT
  split_ifs with c
  · have hg := Props.g_pos
    have e : Ecmwf.R * (Ecmwf.plateauT ts (phi / Ecmwf.g) - ts) / phi = Ecmwf.α := by
      unfold Ecmwf.plateauT
      simp only [if_pos c.le]
      unfold Ecmwf.α
      field_simp
      ring
    rw [e, max_eq_right Props.alpha_bounds.1.le]
  · rfl

theorem alphaT_le {ts phi : ℝ} : Ecmwf.alphaT ts phi ≤ Ecmwf.α := by
  unfold Ecmwf.alphaT
  split_ifs with c
  · exact le_refl _
  · have hg := Props.g_pos
    have hphi : 0 < phi := by
      have : 0 < phi / Ecmwf.g := by linarith
      rcases div_pos_iff.mp this with h | h
      · exact h.1
      · linarith [h.2]
    refine max_le Props.alpha_bounds.1.le ?_
    have hp : Ecmwf.plateauT ts (phi / Ecmwf.g) ≤ ts + Ecmwf.lapse * (phi / Ecmwf.g) := by
      unfold Ecmwf.plateauT
      simp only
      set t0 := ts + Ecmwf.lapse * (phi / Ecmwf.g)
      split_ifs with c1 c2
      · exact le_refl _
      · rw [div_le_iff₀ (by norm_num)]
        have := mul_le_mul_of_nonneg_left (min_le_right 298 t0) (show 0 ≤ phi / Ecmwf.g - 2000 by linarith)
        linarith
      · exact min_le_right _ _
    rw [div_le_iff₀ hphi]
    have := mul_le_mul_of_nonneg_left (show Ecmwf.plateauT ts (phi / Ecmwf.g) - ts ≤ Ecmwf.lapse * (phi / Ecmwf.g) by linarith) Props.R_pos.le
    refine this.trans (le_of_eq ?_)
    unfold Ecmwf.α
    field_simp

def slopeR (D R : Rounding ℝ) (t pl ps phi : ℝ) : ℝ :=
  if hR D R phi < 2000 then alphaFl D R
  else
    let tp := if 2500 < hR D R phi then min 298 (t0R D R t pl ps phi) else blendR D R (hR D R phi) (t0R D R t pl ps phi) (min 298 (t0R D R t pl ps phi))
    if tp < tsR D R t pl ps then 0 else D.fl (D.fl (rdFl D R * D.fl (tp - tsR D R t pl ps)) / phi)

/-- dividing by a geopotential above 19600 -/
theorem clamp_near {a b phi K : ℝ} (hu : 0 ≤ u) (hphi : 19600 ≤ phi) (h : Near u K a b) (hK : 0 ≤ K) :
    Near u (0.01465 * K) (max 0 (Ecmwf.R * a / phi)) (max 0 (Ecmwf.R * b / phi)) := by
  unfold Near at *
  refine (abs_max_sub_max_le_max 0 _ 0 _).trans ?_
  rw [sub_self, abs_zero, max_eq_right (abs_nonneg _)]
  have e : Ecmwf.R * a / phi - Ecmwf.R * b / phi = Ecmwf.R * (a - b) / phi := by ring
  rw [e, abs_div, abs_mul, abs_of_pos Props.R_pos, abs_of_pos (show 0 < phi by linarith), div_le_iff₀ (by linarith)]
  have h1 := mul_le_mul_of_nonneg_left h Props.R_pos.le
  refine h1.trans ?_
  have : 0 ≤ K * u := mul_nonneg hK hu
  have h2 := mul_le_mul_of_nonneg_left hphi this
  unfold Ecmwf.R
  norm_num
  linarith

theorem slope_near (PD : Precise D u η) (PR : Precise R u η') {t pl ps phi : ℝ} (ht : 0 < t) (ht2 : t ≤ 340) (h1 : 0.9 ≤ ps / pl) (h2 : ps / pl ≤ 1.2)
    (h : |phi| ≤ 60000) : Near u 700 (slopeR D R t pl ps phi) (Ecmwf.alphaT (Ecmwf.surfaceT t pl ps) phi) := by
  have hu := PD.acc.u_nonneg
  have hu6 := PD.u_le
  obtain ⟨a1, a2⟩ := ts_near PD PR ht ht2 h1 h2
  obtain ⟨b1, b2⟩ := h_near PD PR h
  obtain ⟨c1, c2⟩ := t0_near PD PR ht ht2 h1 h2 h
  have hα := alpha_near PD PR
  rw [Props.alpha_eq] at hα
  set ts := Ecmwf.surfaceT t pl ps
  have hg : Ecmwf.g = 9.80616 := rfl
  have hg0 := Props.g_pos
  -- crude bounds for the height
  have crude : |hR D R phi - phi / Ecmwf.g| ≤ 0.025 := by
    unfold Near at b1
    norm_num at hu6 ⊢
    linarith
  obtain ⟨q1, q2⟩ := abs_le.mp crude
  have hphi_eq : phi = phi / Ecmwf.g * Ecmwf.g := by field_simp
  unfold slopeR
  by_cases k1 : hR D R phi < 2000
  · rw [if_pos k1]
    by_cases k2 : phi / Ecmwf.g < 2000
    · unfold Ecmwf.alphaT
      rw [if_pos k2]
      exact Near.mono hu hα (by norm_num)
    · have k2' := not_lt.mp k2
      have hup : phi / Ecmwf.g ≤ 2001 := by norm_num at q1; linarith
      have hlo : 19600 ≤ phi := by rw [hphi_eq, hg]; rw [hg] at k2'; norm_num at k2' ⊢; linarith
      have hlow : |phi| ≤ 24530 := by
        rw [abs_of_nonneg (by linarith), hphi_eq, hg]
        rw [hg] at hup
        norm_num at hup ⊢
        linarith
      have b3 := h_near_low PD PR hlow
      have hd : phi / Ecmwf.g ≤ 2500 + 10210 * u := by
        have : 0 ≤ 10210 * u := by linarith
        linarith
      have hd2 : |phi / Ecmwf.g - 2000| ≤ 10210 * u := by
        unfold Near at b3
        have := (abs_le.mp b3).1
        rw [abs_of_nonneg (by linarith)]
        linarith
      -- the corrected temperature is near the uncorrected one
      have near0 : Near u 16060 (ts + Ecmwf.lapse * (phi / Ecmwf.g)) (Ecmwf.plateauT ts (phi / Ecmwf.g)) := by
        have p1 := blend_plateau (ts := ts) (h := phi / Ecmwf.g) (ε := 0) hu (le_refl _) (by linarith) (by linarith) c2
        have p2 : blend (phi / Ecmwf.g) (ts + Ecmwf.lapse * (phi / Ecmwf.g)) (min 298 (ts + Ecmwf.lapse * (phi / Ecmwf.g))) = Ecmwf.plateauT ts (phi / Ecmwf.g) := by
          unfold Near at p1
          rw [mul_zero, zero_mul] at p1
          exact sub_eq_zero.mp (abs_eq_zero.mp (le_antisymm p1 (abs_nonneg _)))
        rw [← p2]
        set t0 := ts + Ecmwf.lapse * (phi / Ecmwf.g)
        have s2 : |t0 - min 298 t0| ≤ 786 := by
          obtain ⟨a, b⟩ := abs_le.mp c2
          rcases min_choice 298 t0 with hm | hm <;> rw [hm]
          · exact abs_le.mpr ⟨by have := min_le_right 298 t0; rw [hm] at this; linarith, by linarith⟩
          · simp
        have e : t0 - blend (phi / Ecmwf.g) t0 (min 298 t0) = 0.002 * ((phi / Ecmwf.g - 2000) * (t0 - min 298 t0)) := by unfold blend; ring
        unfold Near
        rw [e, abs_mul, abs_mul, abs_of_pos (show (0:ℝ) < 0.002 by norm_num)]
        have := mul_le_mul hd2 s2 (abs_nonneg _) (by positivity)
        norm_num
        linarith
      rw [alphaT_eq (by linarith)]
      have eα : Ecmwf.α = max 0 (Ecmwf.R * (ts + Ecmwf.lapse * (phi / Ecmwf.g) - ts) / phi) := by
        have hp0 : phi ≠ 0 := by linarith
        have : Ecmwf.R * (ts + Ecmwf.lapse * (phi / Ecmwf.g) - ts) / phi = Ecmwf.α := by
          unfold Ecmwf.α
          field_simp
          ring
        rw [this, max_eq_right Props.alpha_bounds.1.le]
      rw [eα] at hα
      have := clamp_near hu hlo (near0.minus (Near.refl hu ts)) (by norm_num)
      exact Near.trans hα this hu (by norm_num)
  · rw [if_neg k1]
    have k1' := not_lt.mp k1
    have hlo0 : 1999.9 ≤ phi / Ecmwf.g := by norm_num at q2 ⊢; linarith
    have hlo : 19600 ≤ phi := by rw [hphi_eq, hg]; rw [hg] at hlo0; norm_num at hlo0 ⊢; linarith
    rw [alphaT_eq (by linarith)]
    simp only
    -- the computed corrected temperature
    have key : Near u 40900 (if 2500 < hR D R phi then min 298 (t0R D R t pl ps phi) else blendR D R (hR D R phi) (t0R D R t pl ps phi) (min 298 (t0R D R t pl ps phi)))
        (Ecmwf.plateauT ts (phi / Ecmwf.g)) := by
      have mn := Near.min (c := 298) c1
      have msize : |min 298 (ts + Ecmwf.lapse * (phi / Ecmwf.g))| ≤ 393 := by
        obtain ⟨a, b⟩ := abs_le.mp c2
        exact abs_le.mpr ⟨le_min (by norm_num) a, (min_le_right _ _).trans b⟩
      by_cases k3 : 2500 < hR D R phi
      · rw [if_pos k3]
        by_cases k4 : 2500 < phi / Ecmwf.g
        · have e : Ecmwf.plateauT ts (phi / Ecmwf.g) = min 298 (ts + Ecmwf.lapse * (phi / Ecmwf.g)) := by
            unfold Ecmwf.plateauT
            simp only [if_neg (show ¬ phi / Ecmwf.g ≤ 2000 by linarith), if_neg (show ¬ phi / Ecmwf.g ≤ 2500 by linarith)]
          rw [e]
          exact Near.mono hu mn (by norm_num)
        · have k4' := not_lt.mp k4
          have hlow : |phi| ≤ 24530 := by
            rw [abs_of_nonneg (by linarith), hphi_eq, hg]
            rw [hg] at k4'
            norm_num at k4' ⊢
            linarith
          have b3 := h_near_low PD PR hlow
          unfold Near at b3
          have hd2 : |phi / Ecmwf.g - 2500| ≤ 10210 * u := by
            have := (abs_le.mp b3).2
            rw [abs_of_nonpos (by linarith)]
            linarith
          have hge : 2000 ≤ phi / Ecmwf.g := by norm_num at q2; linarith
          have p1 := blend_plateau (ts := ts) (h := phi / Ecmwf.g) (ε := 0) hu (le_refl _) (by linarith) (by linarith) c2
          have p2 : blend (phi / Ecmwf.g) (ts + Ecmwf.lapse * (phi / Ecmwf.g)) (min 298 (ts + Ecmwf.lapse * (phi / Ecmwf.g))) = Ecmwf.plateauT ts (phi / Ecmwf.g) := by
            unfold Near at p1
            rw [mul_zero, zero_mul] at p1
            exact sub_eq_zero.mp (abs_eq_zero.mp (le_antisymm p1 (abs_nonneg _)))
          rw [← p2]
          refine Near.trans mn (β := 16060) ?_ hu (by norm_num)
          set t0 := ts + Ecmwf.lapse * (phi / Ecmwf.g)
          have s2 : |t0 - min 298 t0| ≤ 786 := by
            obtain ⟨a, b⟩ := abs_le.mp c2
            obtain ⟨a', b'⟩ := abs_le.mp msize
            exact abs_le.mpr ⟨by linarith, by linarith⟩
          have e : min 298 t0 - blend (phi / Ecmwf.g) t0 (min 298 t0) = 0.002 * ((phi / Ecmwf.g - 2500) * (t0 - min 298 t0)) := by unfold blend; ring
          unfold Near
          rw [e, abs_mul, abs_mul, abs_of_pos (show (0:ℝ) < 0.002 by norm_num)]
          have := mul_le_mul hd2 s2 (abs_nonneg _) (by positivity)
          norm_num
          linarith
      · rw [if_neg k3]
        have k3' := not_lt.mp k3
        have hhi : phi / Ecmwf.g ≤ 2500.1 := by norm_num at q1 ⊢; linarith
        have hlow : |phi| ≤ 24530 := by
          rw [abs_of_nonneg (by linarith), hphi_eq, hg]
          rw [hg] at hhi
          norm_num at hhi ⊢
          linarith
        have b3 := h_near_low PD PR hlow
        have n1 := blend_near PD PR b3 c1 mn (by norm_num at hlo0; linarith) (by norm_num at hhi; linarith) c2 msize
        unfold Near at b3
        obtain ⟨r1, r2⟩ := abs_le.mp b3
        have n2 := blend_plateau (ts := ts) (h := phi / Ecmwf.g) (ε := 10210) hu (by norm_num) (by linarith) (by linarith) c2
        exact Near.trans n1 n2 hu (by norm_num)
    generalize (if 2500 < hR D R phi then min 298 (t0R D R t pl ps phi) else blendR D R (hR D R phi) (t0R D R t pl ps phi) (min 298 (t0R D R t pl ps phi))) = tp' at key ⊢
    have psize := plateau_size c2
    set tp := Ecmwf.plateauT ts (phi / Ecmwf.g)
    have dsize : |tp - ts| ≤ 746 := by
      obtain ⟨a, b⟩ := abs_le.mp psize
      obtain ⟨a', b'⟩ := abs_le.mp a2
      exact abs_le.mpr ⟨by linarith, by linarith⟩
    by_cases k5 : tp' < tsR D R t pl ps
    · rw [if_pos k5]
      -- the exact difference is at most slightly positive
      have hd : tp - ts ≤ 41820 * u := by
        unfold Near at key a1
        have x1 := (abs_le.mp key).1
        have x2 := (abs_le.mp a1).2
        linarith
      have hn : Near u 41820 (max 0 (tp - ts)) 0 := by
        unfold Near
        rw [sub_zero, abs_of_nonneg (le_max_left _ _)]
        exact max_le (by positivity) hd
      have := clamp_near hu hlo hn (by norm_num)
      rw [mul_zero, zero_div, max_self] at this
      have e : max 0 (Ecmwf.R * max 0 (tp - ts) / phi) = max 0 (Ecmwf.R * (tp - ts) / phi) := by
        rcases le_total (tp - ts) 0 with hle | hle
        · rw [max_eq_left hle, mul_zero, zero_div, max_self, max_eq_left]
          exact div_nonpos_of_nonpos_of_nonneg (mul_nonpos_of_nonneg_of_nonpos Props.R_pos.le hle) (by linarith)
        · rw [max_eq_right hle]
      rw [e] at this
      unfold Near at *
      rw [abs_sub_comm] at this
      refine this.trans ?_
      norm_num
      linarith
    · rw [if_neg k5]
      have k5' := not_lt.mp k5
      have n1 := Near.subR PD (γ := 42600) key a1 dsize (by norm_num) (by norm_num)
      have hR : |Rd| ≤ 287.04 := by unfold Rd; rw [abs_of_pos]; norm_num
      have n2 := Near.mulR PD (γ := 12900000) (rd_near PD PR) n1 hR dsize (by norm_num) (by norm_num) (by norm_num)
      have qs : |Rd * (tp - ts) / phi| ≤ 11 := by
        rw [abs_div, abs_of_pos (show 0 < phi by linarith), div_le_iff₀ (by linarith), abs_mul]
        have := mul_le_mul hR dsize (abs_nonneg _) (by norm_num)
        norm_num at this ⊢
        linarith
      have n3 := Near.divR PD (γ := 700) (by norm_num) hlo n2 qs (by norm_num) (by norm_num)
      have pos : 0 ≤ D.fl (D.fl (rdFl D R * D.fl (tp' - tsR D R t pl ps)) / phi) := by
        apply D.fl_nonneg
        refine div_nonneg (D.fl_nonneg (mul_nonneg ?_ (D.fl_nonneg (by linarith)))) (by linarith)
        exact D.fl_nonneg (R.fl_nonneg (by norm_num))
      have e : Ecmwf.R = Rd := rfl
      rw [e]
      unfold Near at *
      refine le_trans ?_ n3
      rcases le_total 0 (Rd * (tp - ts) / phi) with hle | hle
      · rw [max_eq_right hle]
      · rw [max_eq_left hle, sub_zero, abs_of_nonneg pos, abs_of_nonneg (by linarith)]
        linarith

theorem slope_near_low (PD : Precise D u η) (PR : Precise R u η') {t pl ps phi : ℝ} (h : |phi| ≤ 60000) (hl : phi / Ecmwf.g ≤ 1999) :
    Near u 1.4 (slopeR D R t pl ps phi) (Ecmwf.alphaT (Ecmwf.surfaceT t pl ps) phi) := by
  have hu6 := PD.u_le
  obtain ⟨b1, b2⟩ := h_near PD PR h
  have crude : |hR D R phi - phi / Ecmwf.g| ≤ 0.025 := by
    unfold Near at b1
    norm_num at hu6 ⊢
    linarith
  have := (abs_le.mp crude).2
  unfold slopeR Ecmwf.alphaT
  rw [if_pos (by norm_num at this; linarith), if_pos (by linarith)]
  have hα := alpha_near PD PR
  rwa [Props.alpha_eq] at hα

/-! ### equation 16 -/

variable {ln cube : XF ℝ → XF ℝ}

theorem ln_near (PD : Precise D u η) (L : LogAccurate D u ln) {p ps : ℝ} (h1 : 0.5 ≤ p / ps) (h2 : p / ps ≤ 2) :
    ∃ l, ln (fin (D.fl (p / ps))) = fin l ∧ Near u 2.5 l (Real.log (p / ps)) ∧ |Real.log (p / ps)| ≤ 0.7 := by
  have hu := PD.acc.u_nonneg
  have hu6 := PD.u_le
  have hx : 0 < p / ps := lt_of_lt_of_le (by norm_num) h1
  obtain ⟨k1, k2⟩ := log_close hx hu hu6 (by norm_num) (by norm_num) (Rel.const PD (x := p / ps) (by rw [abs_of_pos hx]; exact le_trans (by norm_num) h1))
  obtain ⟨l, e1, -, e2⟩ := L.fin _ (D.rep_fl _) k1
  have hs : |Real.log (p / ps)| ≤ 0.694 := by
    have a := Real.log_le_log (by norm_num) h1
    have b := Real.log_le_log hx h2
    have c := Real.log_two_lt_d9
    rw [show (0.5 : ℝ) = 2⁻¹ by norm_num, Real.log_inv] at a
    exact abs_le.mpr ⟨by norm_num at c ⊢; linarith, by norm_num at c ⊢; linarith⟩
  refine ⟨l, e1, ?_, hs.trans (by norm_num)⟩
  unfold Near
  have h3 := abs_sub_abs_le_abs_sub (Real.log (D.fl (p / ps))) (Real.log (p / ps))
  have h4 : |Real.log (D.fl (p / ps))| ≤ 0.7 := by
    norm_num at k2 hs hu6 ⊢
    linarith
  have h5 := mul_le_mul_of_nonneg_left h4 (show 0 ≤ 2 * u by linarith)
  have h6 := abs_sub_le l (Real.log (D.fl (p / ps))) (Real.log (p / ps))
  norm_num at *
  linarith

def polyR (D R : Rounding ℝ) (ts a c3 : ℝ) : ℝ :=
  D.fl (ts * D.fl (D.fl (D.fl (1 + a) + D.fl (0.5 * D.fl (a * a))) + D.fl (D.fl (R.fl (1 / 6)) * c3)))

theorem poly_near (PD : Precise D u η) (PR : Precise R u η') (C : CubeAccurate D u cube) {ts ts' sl sl' l l' : ℝ} (kt : Near u 920 ts' ts) (st : |ts| ≤ 353)
    (ks : Near u 700 sl' sl) (ss : |sl| ≤ 0.19027) (kl : Near u 2.5 l' l) (sl7 : |l| ≤ 0.7) :
    ∃ c3, cube (fin (D.fl (sl' * l'))) = fin c3 ∧ Near u 210000 (polyR D R ts' (D.fl (sl' * l')) c3) (ts * (1 + sl * l + (sl * l) ^ 2 / 2 + (sl * l) ^ 3 / 6)) := by
  have hu := PD.acc.u_nonneg
  have hu6 := PD.u_le
  have ka := Near.mulR PD (γ := 491) ks kl ss sl7 (by norm_num) (by norm_num) (by norm_num)
  have sa : |sl * l| ≤ 0.1332 := by
    rw [abs_mul]
    exact (mul_le_mul ss sl7 (abs_nonneg _) (by norm_num)).trans (by norm_num)
  have hrep := D.rep_fl (sl' * l')
  generalize D.fl (sl' * l') = a' at ka hrep ⊢
  generalize sl * l = a at ka sa ⊢
  have sa' := ka.size hu6 (by norm_num) sa
  have sa'' : |a'| ≤ 0.1338 := sa'.trans (by norm_num)
  obtain ⟨c3, e3, k3⟩ := C.fin a' hrep (sa''.trans (by norm_num))
  refine ⟨c3, e3, ?_⟩
  have n1 := Near.mulR PD (γ := 131.2) ka ka sa sa (by norm_num) (by norm_num) (by norm_num)
  have q1 : |a * a| ≤ 0.01775 := by
    rw [abs_mul]
    exact (mul_le_mul sa sa (abs_nonneg _) (by norm_num)).trans (by norm_num)
  have n2 := Near.mulR PD (γ := 65.8) (Near.refl hu 0.5) n1 (A := 0.5) (by rw [abs_of_pos]; norm_num) q1 (le_refl _) (by norm_num) (by norm_num)
  have q2 : |a ^ 3| ≤ 0.00237 := by
    rw [abs_pow]
    exact (pow_le_pow_left₀ (abs_nonneg _) sa 3).trans (by norm_num)
  have n3 : Near u 28.6 c3 (a ^ 3) := by
    have e : c3 - a ^ 3 = (c3 - a' ^ 3) + (a' - a) * (a' * a' + a' * a + a * a) := by ring
    unfold Near at *
    rw [e]
    refine (abs_add_le _ _).trans ?_
    rw [abs_mul]
    have f : |a' * a' + a' * a + a * a| ≤ 0.0538 := by
      refine (abs_add_le _ _).trans ?_
      have g1 := abs_add_le (a' * a') (a' * a)
      rw [abs_mul, abs_mul] at g1
      have g2 := mul_le_mul sa'' sa'' (abs_nonneg _) (by norm_num)
      have g3 := mul_le_mul sa'' sa (abs_nonneg _) (by norm_num)
      norm_num at g1 g2 g3 q1 ⊢
      linarith
    have := mul_le_mul ka f (abs_nonneg _) (by positivity)
    norm_num at *
    linarith
  have c6 : Near u (2.02 * (1 / 6)) (D.fl (R.fl (1 / 6))) (1 / 6) := twice_abs PD PR (by norm_num)
  have n4 := Near.mulR PD (γ := 4.85) c6 n3 (A := 0.1667) (by rw [abs_of_pos] <;> norm_num) q2 (by norm_num) (by norm_num) (by norm_num)
  obtain ⟨x1, x2⟩ := abs_le.mp sa
  obtain ⟨y1, y2⟩ := abs_le.mp q1
  obtain ⟨z1, z2⟩ := abs_le.mp q2
  norm_num at x1 x2 y1 y2 z1 z2
  have n5 := Near.addR PD (γ := 492.3) (Near.refl hu 1) ka (A := 1.1332) (abs_le.mpr ⟨by norm_num; linarith, by norm_num; linarith⟩) (by norm_num) (by norm_num)
  have n6 := Near.addR PD (γ := 559.3) n5 n2 (A := 1.1421) (abs_le.mpr ⟨by norm_num; linarith, by norm_num; linarith⟩) (by norm_num) (by norm_num)
  have q3 : |1 + a + 0.5 * (a * a) + 1 / 6 * a ^ 3| ≤ 1.1425 := abs_le.mpr ⟨by norm_num; linarith, by norm_num; linarith⟩
  have n7 := Near.addR PD (γ := 565.4) n6 n4 q3 (by norm_num) (by norm_num)
  have n8 := Near.mulR PD (γ := 210000) kt n7 st q3 (by norm_num) (by norm_num) (by norm_num)
  have e : ts * (1 + a + a ^ 2 / 2 + a ^ 3 / 6) = ts * (1 + a + 0.5 * (a * a) + 1 / 6 * a ^ 3) := by ring
  rw [e]
  exact n8

theorem poly_near_low (PD : Precise D u η) (PR : Precise R u η') (C : CubeAccurate D u cube) {ts ts' sl sl' l l' : ℝ} (kt : Near u 920 ts' ts) (st : |ts| ≤ 353)
    (ks : Near u 1.4 sl' sl) (ss : |sl| ≤ 0.19027) (kl : Near u 2.5 l' l) (sl7 : |l| ≤ 0.7) :
    ∃ c3, cube (fin (D.fl (sl' * l'))) = fin c3 ∧ Near u 3500 (polyR D R ts' (D.fl (sl' * l')) c3) (ts * (1 + sl * l + (sl * l) ^ 2 / 2 + (sl * l) ^ 3 / 6)) := by
  have hu := PD.acc.u_nonneg
  have hu6 := PD.u_le
  have ka := Near.mulR PD (γ := 1.6) ks kl ss sl7 (by norm_num) (by norm_num) (by norm_num)
  have sa : |sl * l| ≤ 0.1332 := by
    rw [abs_mul]
    exact (mul_le_mul ss sl7 (abs_nonneg _) (by norm_num)).trans (by norm_num)
  have hrep := D.rep_fl (sl' * l')
  generalize D.fl (sl' * l') = a' at ka hrep ⊢
  generalize sl * l = a at ka sa ⊢
  have sa' := ka.size hu6 (by norm_num) sa
  have sa'' : |a'| ≤ 0.1338 := sa'.trans (by norm_num)
  obtain ⟨c3, e3, k3⟩ := C.fin a' hrep (sa''.trans (by norm_num))
  refine ⟨c3, e3, ?_⟩
  have n1 := Near.mulR PD (γ := 0.45) ka ka sa sa (by norm_num) (by norm_num) (by norm_num)
  have q1 : |a * a| ≤ 0.01775 := by
    rw [abs_mul]
    exact (mul_le_mul sa sa (abs_nonneg _) (by norm_num)).trans (by norm_num)
  have n2 := Near.mulR PD (γ := 0.24) (Near.refl hu 0.5) n1 (A := 0.5) (by rw [abs_of_pos]; norm_num) q1 (le_refl _) (by norm_num) (by norm_num)
  have q2 : |a ^ 3| ≤ 0.00237 := by
    rw [abs_pow]
    exact (pow_le_pow_left₀ (abs_nonneg _) sa 3).trans (by norm_num)
  have n3 : Near u 2.1 c3 (a ^ 3) := by
    have e : c3 - a ^ 3 = (c3 - a' ^ 3) + (a' - a) * (a' * a' + a' * a + a * a) := by ring
    unfold Near at *
    rw [e]
    refine (abs_add_le _ _).trans ?_
    rw [abs_mul]
    have f : |a' * a' + a' * a + a * a| ≤ 0.0538 := by
      refine (abs_add_le _ _).trans ?_
      have g1 := abs_add_le (a' * a') (a' * a)
      rw [abs_mul, abs_mul] at g1
      have g2 := mul_le_mul sa'' sa'' (abs_nonneg _) (by norm_num)
      have g3 := mul_le_mul sa'' sa (abs_nonneg _) (by norm_num)
      norm_num at g1 g2 g3 q1 ⊢
      linarith
    have := mul_le_mul ka f (abs_nonneg _) (by positivity)
    norm_num at *
    linarith
  have c6 : Near u (2.02 * (1 / 6)) (D.fl (R.fl (1 / 6))) (1 / 6) := twice_abs PD PR (by norm_num)
  have n4 := Near.mulR PD (γ := 0.36) c6 n3 (A := 0.1667) (by rw [abs_of_pos] <;> norm_num) q2 (by norm_num) (by norm_num) (by norm_num)
  obtain ⟨x1, x2⟩ := abs_le.mp sa
  obtain ⟨y1, y2⟩ := abs_le.mp q1
  obtain ⟨z1, z2⟩ := abs_le.mp q2
  norm_num at x1 x2 y1 y2 z1 z2
  have n5 := Near.addR PD (γ := 2.74) (Near.refl hu 1) ka (A := 1.1332) (abs_le.mpr ⟨by norm_num; linarith, by norm_num; linarith⟩) (by norm_num) (by norm_num)
  have n6 := Near.addR PD (γ := 4.13) n5 n2 (A := 1.1421) (abs_le.mpr ⟨by norm_num; linarith, by norm_num; linarith⟩) (by norm_num) (by norm_num)
  have q3 : |1 + a + 0.5 * (a * a) + 1 / 6 * a ^ 3| ≤ 1.1425 := abs_le.mpr ⟨by norm_num; linarith, by norm_num; linarith⟩
  have n7 := Near.addR PD (γ := 5.64) n6 n4 q3 (by norm_num) (by norm_num)
  have n8 := Near.mulR PD (γ := 3500) kt n7 st q3 (by norm_num) (by norm_num) (by norm_num)
  have e : ts * (1 + a + a ^ 2 / 2 + a ^ 3 / 6) = ts * (1 + a + 0.5 * (a * a) + 1 / 6 * a ^ 3) := by ring
  rw [e]
  exact n8

theorem tempExtrapolateFl_fin {t p pl ps phi l c3 : ℝ} (hl : 0 < pl) (hs : 0 < ps) (hln : ln (fin (D.fl (p / ps))) = fin l)
    (hc : cube (fin (D.fl (slopeR D R t pl ps phi * l))) = fin c3) :
    tempExtrapolateFl D R ln cube (fin t) (fin p) (fin pl) (fin ps) (fin phi) = fin (polyR D R (tsR D R t pl ps) (D.fl (slopeR D R t pl ps phi * l)) c3) := by
  unfold tempExtrapolateFl
  simp only [tStarFl_fin t ps hl, fin_mul, fin_add, fin_sub, rxf_fin]
  rw [fin_div p ps hs.ne']
  simp only [rxf_fin, hln, fin_mul]
  have e1 : D.fl (phi * gInvFl D R) = hR D R phi := rfl
  have e2 : D.fl (tsR D R t pl ps + D.fl (D.fl (R.fl 0.0065) * hR D R phi)) = t0R D R t pl ps phi := rfl
  simp only [e1, e2, Props.npMinimum_fin, fin_mul, fin_add, fin_sub, rxf_fin, le_fin, lt_fin]
  have fin_poly : ∀ a : ℝ, cube (fin a) = fin c3 → roundXF D (fin (tsR D R t pl ps) * roundXF D (roundXF D (roundXF D (fin 1 + fin a) + roundXF D (fin 0.5 * roundXF D (fin a * fin a)))
      + roundXF D (fin (D.fl (R.fl (1 / 6))) * cube (fin a)))) = fin (polyR D R (tsR D R t pl ps) a c3) := by
    intro a ha
    rw [ha]
    simp only [fin_mul, fin_add, rxf_fin]
    rfl
  unfold slopeR at hc ⊢
  by_cases k1 : hR D R phi < 2000
  · have k2 : ¬ 2500 < hR D R phi := by linarith
    have k3 : ¬ 2000 ≤ hR D R phi := by linarith
    rw [if_pos k1] at hc ⊢
    simp only [sel, k1, k2, k3, decide_true, decide_false, Bool.false_and, Bool.false_eq_true, if_false, if_true, nan_lt]
    exact fin_poly _ hc
  · have hphi : phi ≠ 0 := by
      rintro rfl
      apply k1
      unfold hR
      rw [zero_mul, D.fl_zero]
      norm_num
    have k3 : 2000 ≤ hR D R phi := not_lt.mp k1
    rw [if_neg k1] at hc ⊢
    simp only at hc ⊢
    by_cases k2 : 2500 < hR D R phi
    · rw [if_pos k2] at hc ⊢
      simp only [sel, k1, k2, decide_true, decide_false, Bool.false_eq_true, if_false, if_true, lt_fin, fin_sub, rxf_fin, fin_mul, fin_div _ _ hphi]
      by_cases k4 : min 298 (t0R D R t pl ps phi) < tsR D R t pl ps
      · rw [if_pos k4, zero_mul, D.fl_zero] at hc ⊢
        simp only [k4, decide_true, if_true]
        exact fin_poly _ hc
      · rw [if_neg k4] at hc ⊢
        simp only [k4, decide_false, Bool.false_eq_true, if_false]
        exact fin_poly _ hc
    · have k5 : hR D R phi ≤ 2500 := not_lt.mp k2
      rw [if_neg k2] at hc ⊢
      have e3 : D.fl (D.fl (R.fl 0.002) * D.fl (D.fl (D.fl (2500 - hR D R phi) * t0R D R t pl ps phi) + D.fl (D.fl (hR D R phi - 2000) * min 298 (t0R D R t pl ps phi))))
        = blendR D R (hR D R phi) (t0R D R t pl ps phi) (min 298 (t0R D R t pl ps phi)) := rfl
      simp only [sel, k1, k2, k3, k5, decide_true, decide_false, Bool.and_self, Bool.false_eq_true, if_false, if_true, lt_fin, fin_sub, rxf_fin, fin_mul, fin_div _ _ hphi, e3]
      by_cases k4 : blendR D R (hR D R phi) (t0R D R t pl ps phi) (min 298 (t0R D R t pl ps phi)) < tsR D R t pl ps
      · rw [if_pos k4, zero_mul, D.fl_zero] at hc ⊢
        simp only [k4, decide_true, if_true]
        exact fin_poly _ hc
      · rw [if_neg k4] at hc ⊢
        simp only [k4, decide_false, Bool.false_eq_true, if_false]
        exact fin_poly _ hc

end
end Verif.Lemmas
