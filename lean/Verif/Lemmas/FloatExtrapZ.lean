import Verif.Lemmas.FloatExtrap

set_option linter.unusedSectionVars false
namespace Verif.Lemmas
open Model XF Spec
noncomputable section

variable {D R : Rounding ℝ} {u η η' : ℝ} {ln : XF ℝ → XF ℝ}

theorem Near.mulS (P : Precise D u η) {α β γ A A' B a a' b b' : ℝ} (ha : Near u α a' a) (hb : Near u β b' b) (hA : |a| ≤ A) (hA' : |a'| ≤ A') (hB : |b| ≤ B) (h0 : 0 ≤ α)
    (h1 : 0 ≤ β) (hγ : (A' * β + α * B) * 1.000001 + A * B + 1e-9 ≤ γ) : Near u γ (D.fl (a' * b')) (a * b) := by
  have hu := P.acc.u_nonneg
  have k := abs_mul_close ha hb hA' hB hu h0
  have hS : |a * b| ≤ A * B := by rw [abs_mul]; exact mul_le_mul hA hB (abs_nonneg _) ((abs_nonneg _).trans hA)
  have hB0 : 0 ≤ B := (abs_nonneg _).trans hB
  have hA0 : 0 ≤ A' := (abs_nonneg _).trans hA'
  exact Near.round P k hS (by positivity) hγ

/-- equation 15 after the choice of exponent and surface temperature -/
def heightR (D R : Rounding ℝ) (h al ts l : ℝ) : ℝ :=
  D.fl (h - D.fl (D.fl (D.fl (D.fl (rdFl D R * ts) * gInvFl D R) * l) *
    D.fl (D.fl (1 + D.fl (0.5 * D.fl (al * l))) + D.fl (D.fl (R.fl (1 / 6)) * D.fl (D.fl (al * l) * D.fl (al * l))))))

theorem height_near (PD : Precise D u η) (PR : Precise R u η') {h h' al al' ts ts' l l' E : ℝ} (kh : Near u 25000 h' h) (sh : |h| ≤ 6119) (ka : Near u E al' al)
    (sa : |al| ≤ 0.19027) (hE0 : 0 ≤ E) (hE : E ≤ 7600) (kt : Near u 2600 ts' ts) (st : |ts| ≤ 353) (kl : Near u 2.5 l' l) (sl : |l| ≤ 0.7) :
    Near u (215000 + 2768 * E) (heightR D R h' al' ts' l') (h - Rd * ts * gInv * l * (1 + 0.5 * (al * l) + 1 / 6 * ((al * l) * (al * l)))) := by
  have hu := PD.acc.u_nonneg
  have hu6 := PD.u_le
  have sa' : |al'| ≤ 0.2 := by
    have := ka.size hu6 hE0 sa
    norm_num at this ⊢
    linarith
  have na := Near.mulS PD (γ := 0.65 + 0.70001 * E) ka kl sa sa' sl hE0 (by norm_num) (by norm_num; linarith)
  have s1 : |al * l| ≤ 0.1332 := by
    rw [abs_mul]
    exact (mul_le_mul sa sl (abs_nonneg _) (by norm_num)).trans (by norm_num)
  have E1 : 0 ≤ 0.65 + 0.70001 * E := by positivity
  have s1' : |D.fl (al' * l')| ≤ 0.14 := by
    have := na.size hu6 E1 s1
    norm_num at this ⊢
    linarith
  have nR : |Rd| ≤ 287.04 := by unfold Rd; rw [abs_of_pos]; norm_num
  have m1 := Near.mulR PD (γ := 1052600) (rd_near PD PR) kt nR st (by norm_num) (by norm_num) (by norm_num)
  have z1 : |Rd * ts| ≤ 101326 := by
    rw [abs_mul]
    exact (mul_le_mul nR st (abs_nonneg _) (by norm_num)).trans (by norm_num)
  have m2 := Near.mulR PD (γ := 149600) m1 (gInv_near PD PR) z1 gInv_size (by norm_num) (by norm_num) (by norm_num)
  have z2 : |Rd * ts * gInv| ≤ 10334 := by
    rw [abs_mul]
    exact (mul_le_mul z1 gInv_size (abs_nonneg _) (by norm_num)).trans (by norm_num)
  have m3 := Near.mulR PD (γ := 138500) m2 kl z2 sl (by norm_num) (by norm_num) (by norm_num)
  have z3 : |Rd * ts * gInv * l| ≤ 7234 := by
    rw [abs_mul]
    exact (mul_le_mul z2 sl (abs_nonneg _) (by norm_num)).trans (by norm_num)
  have z3' : |D.fl (D.fl (D.fl (rdFl D R * ts') * gInvFl D R) * l')| ≤ 7235 := (m3.size hu6 (by norm_num) z3).trans (by norm_num)
  unfold heightR
  generalize D.fl (al' * l') = a' at na s1' ⊢
  generalize al * l = a at na s1 ⊢
  have half : |(0.5 : ℝ)| ≤ 0.5 := by rw [abs_of_pos]; norm_num
  have n2 := Near.mulS PD (γ := 0.41 + 0.3501 * E) (Near.refl hu 0.5) na half half s1 (le_refl _) E1 (by norm_num; linarith)
  have n3 := Near.mulS PD (γ := 0.2 + 0.1915 * E) na na s1 s1' s1 E1 E1 (by norm_num; linarith)
  have q1 : |a * a| ≤ 0.01775 := by
    rw [abs_mul]
    exact (mul_le_mul s1 s1 (abs_nonneg _) (by norm_num)).trans (by norm_num)
  have c6 : Near u (2.02 * (1 / 6)) (D.fl (R.fl (1 / 6))) (1 / 6) := twice_abs PD PR (by norm_num)
  have s6 : |(1 / 6 : ℝ)| ≤ 0.1667 := by rw [abs_of_pos] <;> norm_num
  have s6' : |D.fl (R.fl (1 / 6))| ≤ 0.1668 := (c6.size hu6 (by norm_num) s6).trans (by norm_num)
  have n4 := Near.mulS PD (γ := 0.05 + 0.032 * E) c6 n3 s6 s6' q1 (by norm_num) (by positivity) (by norm_num; linarith)
  obtain ⟨x1, x2⟩ := abs_le.mp s1
  obtain ⟨y1, y2⟩ := abs_le.mp q1
  norm_num at x1 x2 y1 y2
  have n5 := Near.addR PD (γ := 1.49 + 0.3502 * E) (Near.refl hu 1) n2 (A := 1.0666) (abs_le.mpr ⟨by norm_num; linarith, by norm_num; linarith⟩) (by positivity)
    (by norm_num; linarith)
  have q2 : |1 + 0.5 * a + 1 / 6 * (a * a)| ≤ 1.0696 := abs_le.mpr ⟨by norm_num; linarith, by norm_num; linarith⟩
  have n6 := Near.addR PD (γ := 2.62 + 0.3824 * E) n5 n4 q2 (by positivity) (by norm_num; linarith)
  have n7 := Near.mulS PD (γ := 175600 + 2767.5 * E) m3 n6 z3 z3' q2 (by norm_num) (by positivity) (by norm_num; linarith)
  have z4 : |Rd * ts * gInv * l * (1 + 0.5 * a + 1 / 6 * (a * a))| ≤ 7738 := by
    rw [abs_mul]
    exact (mul_le_mul z3 q2 (abs_nonneg _) (by norm_num)).trans (by norm_num)
  have z5 : |h - Rd * ts * gInv * l * (1 + 0.5 * a + 1 / 6 * (a * a))| ≤ 13857 := by
    refine (abs_sub _ _).trans ?_
    linarith
  exact Near.subR PD kh n7 z5 (by positivity) (by norm_num; linarith)

/-! ### exponent and surface temperature -/

def alphaZR (D R : Rounding ℝ) (ts t0 phi : ℝ) : ℝ :=
  if 290.5 < t0 then (if 290.5 < ts then 0 else D.fl (D.fl (rdFl D R / phi) * D.fl (290.5 - ts))) else alphaFl D R

def damped1R (D : Rounding ℝ) (ts t0 : ℝ) : ℝ := if 290.5 < ts ∧ 290.5 < t0 then D.fl (0.5 * D.fl (290.5 + ts)) else ts

def damped2R (D : Rounding ℝ) (t1 : ℝ) : ℝ := if t1 < 255 then D.fl (0.5 * D.fl (t1 + 255)) else t1

theorem geoHeightExtrapolateFl_fin {t p pl ps phi l : ℝ} (hl : 0 < pl) (hs : 0 < ps) (hln : ln (fin (D.fl (p / ps))) = fin l)
    (hphi : phi ≠ 0 ∨ t0R D R t pl ps phi = tsR D R t pl ps) :
    geoHeightExtrapolateFl D R ln (fin t) (fin p) (fin pl) (fin ps) (fin phi) =
      fin (heightR D R (hR D R phi) (alphaZR D R (tsR D R t pl ps) (t0R D R t pl ps phi) phi) (damped2R D (damped1R D (tsR D R t pl ps) (t0R D R t pl ps phi))) l) := by
  unfold geoHeightExtrapolateFl
  simp only [tStarFl_fin t ps hl, fin_mul, fin_add, fin_sub, rxf_fin]
  rw [fin_div p ps hs.ne']
  simp only [rxf_fin, hln]
  have e1 : D.fl (phi * gInvFl D R) = hR D R phi := rfl
  have e2 : D.fl (tsR D R t pl ps + D.fl (D.fl (R.fl 0.0065) * hR D R phi)) = t0R D R t pl ps phi := rfl
  simp only [e1, e2, le_fin, lt_fin]
  have hdamp : ∀ t1 : ℝ, sel (lt (fin t1) (fin 255)) (roundXF D (fin 0.5 * roundXF D (fin t1 + fin 255))) (fin t1) = fin (damped2R D t1) := by
    intro t1
    unfold damped2R
    simp only [fin_mul, fin_add, rxf_fin, lt_fin, sel]
    by_cases h : t1 < 255
    · simp [h]
    · simp [h]
  have hd1 : sel (decide (290.5 < tsR D R t pl ps) && decide (290.5 < t0R D R t pl ps phi)) (fin (D.fl (0.5 * D.fl (290.5 + tsR D R t pl ps)))) (fin (tsR D R t pl ps))
      = fin (damped1R D (tsR D R t pl ps) (t0R D R t pl ps phi)) := by
    unfold damped1R
    by_cases h1 : 290.5 < tsR D R t pl ps <;> by_cases h2 : 290.5 < t0R D R t pl ps phi <;> simp [sel, h1, h2]
  have ha : sel (decide (290.5 < tsR D R t pl ps) && decide (290.5 < t0R D R t pl ps phi)) (fin 0)
      (sel (decide (tsR D R t pl ps ≤ 290.5) && decide (290.5 < t0R D R t pl ps phi)) (roundXF D (roundXF D (fin (rdFl D R) / fin phi) * fin (D.fl (290.5 - tsR D R t pl ps))))
        (fin (alphaFl D R))) = fin (alphaZR D R (tsR D R t pl ps) (t0R D R t pl ps phi) phi) := by
    unfold alphaZR
    by_cases h1 : 290.5 < tsR D R t pl ps
    · have h1' : ¬ tsR D R t pl ps ≤ 290.5 := not_le.mpr h1
      by_cases h2 : 290.5 < t0R D R t pl ps phi <;> simp [sel, h1, h1', h2]
    · have h1' : tsR D R t pl ps ≤ 290.5 := not_lt.mp h1
      by_cases h2 : 290.5 < t0R D R t pl ps phi
      · have hne : phi ≠ 0 := by
          rcases hphi with h | h
          · exact h
          · rw [h] at h2; exact absurd h2 h1
        simp [sel, h1, h1', h2, fin_div _ _ hne, rxf_fin, fin_mul]
      · simp [sel, h1, h1', h2]
  rw [hd1, ha, hdamp]
  simp only [fin_mul, fin_add, fin_sub, rxf_fin]
  rfl

/-- the exponent is a clamped linear function over land -/
theorem alphaZ_eq {ts phi : ℝ} (h : 0 < phi) : Ecmwf.alphaZ ts phi = min Ecmwf.α (max 0 (Ecmwf.R / phi * (290.5 - ts))) := by
  have hg := Props.g_pos
  have hr := Props.R_pos
  have hc : 0 < Ecmwf.R / phi := div_pos hr h
  have hα : Ecmwf.α = Ecmwf.R / phi * (Ecmwf.lapse * (phi / Ecmwf.g)) := by
    unfold Ecmwf.α
    field_simp
  unfold Ecmwf.alphaZ
  simp only
  split_ifs with c1 c2
  · symm
    apply min_eq_left
    refine le_max_of_le_right ?_
    rw [hα]
    exact mul_le_mul_of_nonneg_left (by linarith) hc.le
  · have h1 : 0 ≤ Ecmwf.R / phi * (290.5 - ts) := mul_nonneg hc.le (by linarith)
    rw [max_eq_right h1, min_eq_right]
    rw [hα]
    exact mul_le_mul_of_nonneg_left (by linarith) hc.le
  · have h1 : Ecmwf.R / phi * (290.5 - ts) ≤ 0 := mul_nonpos_of_nonneg_of_nonpos hc.le (by linarith)
    rw [max_eq_left h1, min_eq_right Props.alpha_bounds.1.le]

theorem clampZ (α x : ℝ) (hα : 0 ≤ α) : 0 ≤ min α (max 0 x) ∧ min α (max 0 x) ≤ α := ⟨le_min hα (le_max_left _ _), min_le_left _ _⟩

theorem alphaZ_near (PD : Precise D u η) (PR : Precise R u η') {ts ts' t0' phi : ℝ} (h1 : 98 ≤ phi) (h2 : phi ≤ 60000) (kt : Near u 920 ts' ts)
    (k0 : Near u 1600 t0' (ts + Ecmwf.lapse * (phi / Ecmwf.g))) : Near u (735200 / phi + 2) (alphaZR D R ts' t0' phi) (Ecmwf.alphaZ ts phi) := by
  have hu := PD.acc.u_nonneg
  have hu6 := PD.u_le
  have hp : 0 < phi := by linarith
  have hg := Props.g_pos
  have hr := Props.R_pos
  have hα := alpha_near PD PR
  rw [Props.alpha_eq] at hα
  obtain ⟨α0, -⟩ := Props.alpha_bounds
  have hc : 0 < Ecmwf.R / phi := div_pos hr hp
  have eα : Ecmwf.α = Ecmwf.R / phi * (Ecmwf.lapse * (phi / Ecmwf.g)) := by
    unfold Ecmwf.α
    field_simp
  have αs : Ecmwf.α ≤ 0.19027 := by rw [← Props.alpha_eq]; exact (le_abs_self _).trans alpha_size
  have hRR : Ecmwf.R = 287.04 := rfl
  rw [alphaZ_eq hp]
  set c := Ecmwf.R / phi with hcdef
  have hcp : 735200 / phi = c * (735200 / Ecmwf.R) := by
    rw [hcdef]
    field_simp
  have hc3 : 2561.2 ≤ 735200 / Ecmwf.R := by rw [hRR]; norm_num
  have hbound : c * 2561.2 ≤ 735200 / phi := by rw [hcp]; exact mul_le_mul_of_nonneg_left hc3 hc.le
  have hcu : ∀ k : ℝ, k ≤ 2561.2 → c * (k * u) ≤ 735200 / phi * u := by
    intro k hk
    calc c * (k * u) = c * k * u := by ring
      _ ≤ c * 2561.2 * u := by gcongr
      _ ≤ _ := mul_le_mul_of_nonneg_right hbound hu
  have hlap : Ecmwf.lapse * (phi / Ecmwf.g) ≤ 39.8 := by
    unfold Ecmwf.lapse Ecmwf.g
    have : phi / 9.80616 ≤ 6119 := by rw [div_le_iff₀ (by norm_num)]; norm_num; linarith
    norm_num at this ⊢
    linarith
  unfold Near at kt k0 hα
  obtain ⟨t1, t2⟩ := abs_le.mp kt
  obtain ⟨z1, z2⟩ := abs_le.mp k0
  obtain ⟨m0, m1⟩ := clampZ Ecmwf.α (c * (290.5 - ts)) α0.le
  unfold alphaZR
  by_cases b1 : 290.5 < t0'
  · rw [if_pos b1]
    -- so the linear function is at most slightly above its upper limit
    have up : c * (290.5 - ts) ≤ Ecmwf.α + c * (1600 * u) := by
      rw [eα, ← mul_add]
      exact mul_le_mul_of_nonneg_left (by linarith) hc.le
    by_cases b2 : 290.5 < ts'
    · rw [if_pos b2]
      unfold Near
      have up2 : c * (290.5 - ts) ≤ c * (920 * u) := mul_le_mul_of_nonneg_left (by linarith) hc.le
      have m2 : min Ecmwf.α (max 0 (c * (290.5 - ts))) ≤ c * (920 * u) := (min_le_right _ _).trans (max_le (by positivity) up2)
      rw [zero_sub, abs_neg, abs_of_nonneg m0]
      have := hcu 920 (by norm_num)
      linarith
    · rw [if_neg b2]
      have b2' := not_lt.mp b2
      -- computed linear function
      have rc : Rel u 3.1 (D.fl (rdFl D R / phi)) c := by
        have r1 := twice PD PR (P := 287.04) (by rw [abs_of_pos] <;> norm_num)
        have r2 : Rel u 2.02 (rdFl D R / phi) c := by
          unfold Rel at *
          rw [hcdef, ← sub_div, abs_div, abs_div, ← mul_div_assoc]
          exact div_le_div_of_nonneg_right r1 (abs_nonneg _)
        have r3 := Rel.fl PD (by norm_num) (by norm_num) r2 (by
          rw [abs_of_pos hc, hcdef, hRR, le_div_iff₀ hp]
          norm_num
          linarith)
        exact Rel.mono hu r3 (by norm_num)
      have u1600 : 1600 * u ≤ 0.0016 := by norm_num at hu6 ⊢; linarith
      have u920 : 920 * u ≤ 0.00092 := by norm_num at hu6 ⊢; linarith
      have dup : 290.5 - ts ≤ 39.81 := by norm_num at u1600 hlap ⊢; linarith
      have dlo : -0.001 ≤ 290.5 - ts := by norm_num at u920 ⊢; linarith
      have ds : |290.5 - ts| ≤ 39.81 := abs_le.mpr ⟨by norm_num at dlo ⊢; linarith, dup⟩
      have nd := Near.subR PD (γ := 960) (Near.refl hu 290.5) (show Near u 920 ts' ts from kt) ds (by norm_num) (by norm_num)
      have cs : c ≤ 2.93 := by rw [hcdef, hRR, div_le_iff₀ hp]; norm_num; linarith
      -- size of the product
      have pr : |c * (290.5 - ts)| ≤ 0.196 := by
        have : c * (1600 * u) ≤ 2.93 * 0.0016 := mul_le_mul cs u1600 (by positivity) (by norm_num)
        have lo : -(c * 0.001) ≤ c * (290.5 - ts) := by
          have := mul_le_mul_of_nonneg_left dlo hc.le
          linarith
        exact abs_le.mpr ⟨by norm_num at cs ⊢; linarith, by norm_num at this αs ⊢; linarith⟩
      unfold Rel at rc
      unfold Near at nd
      rw [abs_of_pos hc] at rc
      have prod : |D.fl (rdFl D R / phi) * D.fl (290.5 - ts') - c * (290.5 - ts)| ≤ c * (960.1 * u) + 0.61 * u := by
        set c' := D.fl (rdFl D R / phi)
        set d' := D.fl (290.5 - ts')
        have e : c' * d' - c * (290.5 - ts) = c' * (d' - (290.5 - ts)) + (c' - c) * (290.5 - ts) := by ring
        rw [e]
        refine (abs_add_le _ _).trans ?_
        rw [abs_mul, abs_mul]
        have c's : |c'| ≤ c * 1.00001 := by
          have h5 := abs_sub_abs_le_abs_sub c' c
          rw [abs_of_pos hc] at h5
          have h6 := mul_le_mul_of_nonneg_right hu6 hc.le
          norm_num at h6 ⊢
          linarith
        have f1 := mul_le_mul c's nd (abs_nonneg _) (by positivity)
        have f2 : |c' - c| * |290.5 - ts| ≤ 3.1 * u * 0.196 := by
          have h7 := mul_le_mul_of_nonneg_right rc (abs_nonneg (290.5 - ts))
          rw [abs_mul, abs_of_pos hc] at pr
          refine h7.trans ?_
          rw [mul_assoc]
          exact mul_le_mul_of_nonneg_left pr (by positivity)
        have f3 : 0 ≤ c * u := by positivity
        norm_num at f1 f2 ⊢
        linarith
      have err := PD.acc.err (D.fl (rdFl D R / phi) * D.fl (290.5 - ts'))
      set w' := D.fl (rdFl D R / phi) * D.fl (290.5 - ts')
      set w := c * (290.5 - ts)
      have w's : |w'| ≤ 0.2 := by
        have h8 := abs_sub_abs_le_abs_sub w' w
        have : c * (960.1 * u) ≤ 2.93 * (960.1 * 1e-6) := by gcongr
        norm_num at this hu6 pr ⊢
        linarith
      have h9 := mul_le_mul_of_nonneg_left w's hu
      have hη := PD.eta_le
      have fin' : |D.fl w' - w| ≤ c * (960.1 * u) + 0.9 * u := by
        have := abs_sub_le (D.fl w') w' w
        norm_num at *
        linarith
      have pos : 0 ≤ D.fl w' := by
        apply D.fl_nonneg
        exact mul_nonneg (D.fl_nonneg (div_nonneg (D.fl_nonneg (R.fl_nonneg (by norm_num))) hp.le)) (D.fl_nonneg (by linarith))
      obtain ⟨g1, g2⟩ := abs_le.mp fin'
      have hk1 := hcu 2560.1 (by norm_num)
      have hcu0 : 0 ≤ c * (1600 * u) := by positivity
      unfold Near
      rcases le_total w 0 with hw | hw
      · rw [max_eq_left hw, min_eq_right α0.le, sub_zero, abs_of_nonneg pos]
        norm_num at *
        linarith
      · rw [max_eq_right hw]
        rcases le_total Ecmwf.α w with hw2 | hw2
        · rw [min_eq_left hw2]
          refine abs_le.mpr ⟨?_, ?_⟩ <;> norm_num at * <;> linarith
        · rw [min_eq_right hw2]
          refine abs_le.mpr ⟨?_, ?_⟩ <;> norm_num at * <;> linarith
  · rw [if_neg b1]
    have b1' := not_lt.mp b1
    have lo : Ecmwf.α - c * (1600 * u) ≤ c * (290.5 - ts) := by
      rw [eα, ← mul_sub]
      exact mul_le_mul_of_nonneg_left (by linarith) hc.le
    have lo2 : Ecmwf.α - c * (1600 * u) ≤ min Ecmwf.α (max 0 (c * (290.5 - ts))) := by
      have : 0 ≤ c * (1600 * u) := by positivity
      exact le_min (by linarith) (lo.trans (le_max_right _ _))
    have hk := hcu 1600 (by norm_num)
    obtain ⟨g1, g2⟩ := abs_le.mp hα
    unfold Near
    generalize min Ecmwf.α (max 0 (c * (290.5 - ts))) = m at *
    have e : (735200 / phi + 2) * u = 735200 / phi * u + 2 * u := by ring
    rw [e]
    norm_num at g1 g2
    exact abs_le.mpr ⟨by linarith, by linarith⟩

/-- the first damping -/
def damped1 (ts t0 : ℝ) : ℝ := if 290.5 < ts ∧ 290.5 < t0 then (290.5 + ts) / 2 else ts

theorem damped1_near (PD : Precise D u η) {ts ts' t0 t0' : ℝ} (kt : Near u 920 ts' ts) (k0 : Near u 1600 t0' t0) (st : |ts| ≤ 353)
    (hc : ts ≤ t0 ∨ (t0 ≤ ts ∧ 1600 * u < |t0 - 290.5|)) : Near u 1730 (damped1R D ts' t0') (damped1 ts t0) := by
  have hu := PD.acc.u_nonneg
  have half : |(0.5 : ℝ)| ≤ 0.5 := by rw [abs_of_pos]; norm_num
  have s1 : |290.5 + ts| ≤ 644 := by
    refine (abs_add_le _ _).trans ?_
    rw [abs_of_pos (show (0:ℝ) < 290.5 by norm_num)]
    norm_num at st ⊢
    linarith
  have n1 := Near.addR PD (γ := 1565) (Near.refl hu 290.5) kt s1 (by norm_num) (by norm_num)
  have n2 := Near.mulR PD (γ := 1105) (Near.refl hu 0.5) n1 half s1 (le_refl _) (by norm_num) (by norm_num)
  have e2 : 0.5 * (290.5 + ts) = (290.5 + ts) / 2 := by ring
  rw [e2] at n2
  unfold damped1R damped1
  have hk := kt
  have hk0 := k0
  unfold Near at hk hk0
  obtain ⟨t1, t2⟩ := abs_le.mp hk
  obtain ⟨z1, z2⟩ := abs_le.mp hk0
  by_cases b : 290.5 < ts' ∧ 290.5 < t0'
  · rw [if_pos b]
    by_cases c : 290.5 < ts ∧ 290.5 < t0
    · rw [if_pos c]
      exact Near.mono hu n2 (by norm_num)
    · rw [if_neg c]
      -- then `ts` is just below 290.5
      have hts : ts ≤ 290.5 := by
        by_contra hcon
        push Not at hcon
        rcases hc with h | ⟨h, hfar⟩
        · exact c ⟨hcon, by linarith⟩
        · have : t0 ≤ 290.5 := by
            by_contra h5
            exact c ⟨hcon, by linarith⟩
          rw [abs_of_nonpos (by linarith)] at hfar
          linarith [b.2]
      refine Near.trans n2 (β := 460) ?_ hu (by norm_num)
      unfold Near
      rw [show (290.5 + ts) / 2 - ts = (290.5 - ts) / 2 by ring, abs_of_nonneg (by linarith)]
      linarith [b.1]
  · rw [if_neg b]
    by_cases c : 290.5 < ts ∧ 290.5 < t0
    · rw [if_pos c]
      have hts : ts - 290.5 ≤ 1600 * u := by
        by_contra hcon
        push Not at hcon
        apply b
        refine ⟨by linarith, ?_⟩
        rcases hc with h | ⟨h, hfar⟩
        · linarith
        · rw [abs_of_pos (by linarith [c.2])] at hfar
          linarith
      refine Near.trans kt (β := 800) ?_ hu (by norm_num)
      unfold Near
      rw [show ts - (290.5 + ts) / 2 = (ts - 290.5) / 2 by ring, abs_of_nonneg (by linarith [c.1])]
      linarith
    · rw [if_neg c]
      exact Near.mono hu kt (by norm_num)

theorem damped2_near (PD : Precise D u η) {t1 t1' : ℝ} (kt : Near u 1730 t1' t1) (st : |t1| ≤ 353) :
    Near u 2600 (damped2R D t1') (if t1 < 255 then (t1 + 255) / 2 else t1) := by
  have hu := PD.acc.u_nonneg
  have half : |(0.5 : ℝ)| ≤ 0.5 := by rw [abs_of_pos]; norm_num
  have s1 : |t1 + 255| ≤ 608 := by
    refine (abs_add_le _ _).trans ?_
    rw [abs_of_pos (show (0:ℝ) < 255 by norm_num)]
    linarith
  have n1 := Near.addR PD (γ := 2339) kt (Near.refl hu 255) s1 (by norm_num) (by norm_num)
  have n2 := Near.mulR PD (γ := 1475) (Near.refl hu 0.5) n1 half s1 (le_refl _) (by norm_num) (by norm_num)
  have e2 : 0.5 * (t1 + 255) = (t1 + 255) / 2 := by ring
  rw [e2] at n2
  have hk := kt
  unfold Near at hk
  obtain ⟨a1, a2⟩ := abs_le.mp hk
  unfold damped2R
  by_cases b : t1' < 255 <;> by_cases c : t1 < 255
  · rw [if_pos b, if_pos c]
    exact Near.mono hu n2 (by norm_num)
  · rw [if_pos b, if_neg c]
    refine Near.trans n2 (β := 865) ?_ hu (by norm_num)
    unfold Near
    rw [show (t1 + 255) / 2 - t1 = -((t1 - 255) / 2) by ring, abs_neg, abs_of_nonneg (by linarith)]
    linarith
  · rw [if_neg b, if_pos c]
    refine Near.trans kt (β := 865) ?_ hu (by norm_num)
    unfold Near
    rw [show t1 - (t1 + 255) / 2 = -((255 - t1) / 2) by ring, abs_neg, abs_of_nonneg (by linarith)]
    linarith
  · rw [if_neg b, if_neg c]
    exact Near.mono hu kt (by norm_num)

theorem damped_size {ts t0 : ℝ} (h0 : 0 < ts) (h1 : ts ≤ 353) : |damped1 ts t0| ≤ 353 ∧ |(if damped1 ts t0 < 255 then (damped1 ts t0 + 255) / 2 else damped1 ts t0)| ≤ 353 := by
  have a : 0 < damped1 ts t0 ∧ damped1 ts t0 ≤ 353 := by
    unfold damped1
    split_ifs with c
    · constructor <;> norm_num at * <;> linarith
    · exact ⟨h0, h1⟩
  refine ⟨abs_le.mpr ⟨by linarith [a.1], a.2⟩, ?_⟩
  split_ifs with c
  · exact abs_le.mpr ⟨by linarith [a.1], by linarith⟩
  · exact abs_le.mpr ⟨by linarith [a.1], a.2⟩

theorem dampedT_eq (ts phi : ℝ) : Ecmwf.dampedT ts phi =
    if damped1 ts (ts + Ecmwf.lapse * (phi / Ecmwf.g)) < 255 then (damped1 ts (ts + Ecmwf.lapse * (phi / Ecmwf.g)) + 255) / 2 else damped1 ts (ts + Ecmwf.lapse * (phi / Ecmwf.g)) := rfl

theorem height_eq (ts ps phi p : ℝ) : Ecmwf.height ts ps phi p = phi / Ecmwf.g - Rd * Ecmwf.dampedT ts phi * gInv * Real.log (p / ps) *
    (1 + 0.5 * (Ecmwf.alphaZ ts phi * Real.log (p / ps)) + 1 / 6 * (Ecmwf.alphaZ ts phi * Real.log (p / ps) * (Ecmwf.alphaZ ts phi * Real.log (p / ps)))) := by
  unfold Ecmwf.height
  simp only
  have e1 : Ecmwf.R = Rd := rfl
  have e2 : ∀ x : ℝ, x / Ecmwf.g = x * gInv := fun x => (Props.gInv_mul x).symm
  rw [e1, e2 (Rd * _)]
  ring

end
end Verif.Lemmas
