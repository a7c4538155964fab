import Verif.Lemmas.FloatCorr
import Verif.Spec.Skill

/-
Accuracy of the means, of the sums of products and of the correlation coefficient computed from them.
-/

set_option linter.unusedSectionVars false
namespace Verif
namespace Lemmas
open Model Spec

/-- weighted sum of the products of the deviations from two given numbers -/
noncomputable def mom (V : List (ℝ × ℝ × ℝ)) (f g : ℝ × ℝ × ℝ → ℝ) (m n : ℝ) : ℝ := (V.map (fun y => y.1 * (f y - m) * (g y - n))).sum

theorem mom_sq (V : List (ℝ × ℝ × ℝ)) (f : ℝ × ℝ × ℝ → ℝ) (m : ℝ) : mom V f f m m = (V.map (fun y => y.1 * (f y - m) ^ 2)).sum := by
  unfold mom
  congr 1
  refine List.map_congr_left fun y _ => ?_
  ring

theorem mom_expand (V : List (ℝ × ℝ × ℝ)) (f g : ℝ × ℝ × ℝ → ℝ) (m n : ℝ) :
    mom V f g m n = (V.map (fun y => y.1 * f y * g y)).sum - n * (V.map (fun y => y.1 * f y)).sum - m * (V.map (fun y => y.1 * g y)).sum +
      m * n * (V.map (·.1)).sum := by
  unfold mom
  induction V with
  | nil => simp
  | cons y V ih =>
    simp only [List.map_cons, List.sum_cons, ih]
    ring

theorem mom_shift (V : List (ℝ × ℝ × ℝ)) (hW : (V.map (·.1)).sum ≠ 0) (f g : ℝ × ℝ × ℝ → ℝ) (m n : ℝ) :
    mom V f g m n = mom V f g (wMean V (·.1) f) (wMean V (·.1) g) + (V.map (·.1)).sum * (m - wMean V (·.1) f) * (n - wMean V (·.1) g) := by
  rw [mom_expand, mom_expand]
  have h1 : (V.map (fun y => y.1 * f y)).sum = wMean V (·.1) f * (V.map (·.1)).sum := by
    unfold wMean
    rw [div_mul_cancel₀ _ hW]
  have h2 : (V.map (fun y => y.1 * g y)).sum = wMean V (·.1) g * (V.map (·.1)).sum := by
    unfold wMean
    rw [div_mul_cancel₀ _ hW]
  rw [h1, h2]
  ring

theorem mom_nonneg (V : List (ℝ × ℝ × ℝ)) (hw : ∀ y ∈ V, 0 ≤ y.1) (f : ℝ × ℝ × ℝ → ℝ) (m : ℝ) : 0 ≤ mom V f f m m := by
  rw [mom_sq]
  exact sum_map_nonneg V _ fun y hy => mul_nonneg (hw y hy) (sq_nonneg _)

theorem mom_abs_le (V : List (ℝ × ℝ × ℝ)) (hw : ∀ y ∈ V, 0 ≤ y.1) (f g : ℝ × ℝ × ℝ → ℝ) (m n : ℝ) :
    (V.map (fun y => |y.1 * (f y - m) * (g y - n)|)).sum ≤ Real.sqrt (mom V f f m m) * Real.sqrt (mom V g g n n) := by
  have h := cauchy_list V (·.1) (fun y => |f y - m|) (fun y => |g y - n|) hw
  simp only [sq_abs] at h
  rw [← mom_sq, ← mom_sq] at h
  rw [← Real.sqrt_mul (mom_nonneg V hw f m)]
  have e : (V.map (fun y => |y.1 * (f y - m) * (g y - n)|)).sum = (V.map (fun y => y.1 * |f y - m| * |g y - n|)).sum := by
    congr 1
    refine List.map_congr_left fun y hy => ?_
    rw [abs_mul, abs_mul, abs_of_nonneg (hw y hy)]
  rw [e]
  exact Real.le_sqrt_of_sq_le h

theorem mom_le (V : List (ℝ × ℝ × ℝ)) (hw : ∀ y ∈ V, 0 ≤ y.1) (f g : ℝ × ℝ × ℝ → ℝ) (m n : ℝ) :
    |mom V f g m n| ≤ Real.sqrt (mom V f f m m) * Real.sqrt (mom V g g n n) := by
  refine le_trans ?_ (mom_abs_le V hw f g m n)
  unfold mom
  have := abs_sum_le (V.map (fun y => y.1 * (f y - m) * (g y - n)))
  rw [List.map_map] at this
  exact this

/-- the sum of squares of numbers of bounded size -/
theorem mom_bound (V : List (ℝ × ℝ × ℝ)) (hw : ∀ y ∈ V, 0 ≤ y.1) (hW : (V.map (·.1)).sum ≠ 0) (f : ℝ × ℝ × ℝ → ℝ) (A : ℝ) (hA : ∀ y ∈ V, |f y| ≤ A) :
    mom V f f (wMean V (·.1) f) (wMean V (·.1) f) ≤ (V.map (·.1)).sum * A ^ 2 := by
  have h := mom_shift V hW f f 0 0
  have W0 := sum_map_nonneg V (·.1) hw
  have h1 : mom V f f 0 0 ≤ (V.map (fun y => A ^ 2 * y.1 + 0)).sum := by
    rw [mom_sq]
    refine sum_map_le V _ _ fun y hy => ?_
    rw [sub_zero, add_zero, mul_comm]
    refine mul_le_mul_of_nonneg_right ?_ (hw y hy)
    rw [← sq_abs]
    exact pow_le_pow_left₀ (abs_nonneg _) (hA y hy) 2
  rw [sum_map_add_const] at h1
  have h2 : 0 ≤ (V.map (·.1)).sum * (0 - wMean V (·.1) f) * (0 - wMean V (·.1) f) := by
    rw [mul_assoc]
    exact mul_nonneg W0 (mul_self_nonneg _)
  linarith

/-- the quotient of two computed sums as a mean -/
theorem mean_error {R : Rounding ℝ} {u η γ : ℝ} (P : Precise R u η) (g0 : 0 ≤ γ) (g1 : γ ≤ 1 / 10) {S S' W W' A c : ℝ} (hW : 0 < W) (hA : 0 ≤ A)
    (hW' : |W' - W| ≤ γ * W) (hS' : |S' - S| ≤ (γ + 12 / 10 * u) * (W * A) + 11 / 10 * c) (hS : |S| ≤ W * A) (hc : 3 * c ≤ u * (W * A)) (hη : η ≤ u * A) :
    |R.fl (S' / W') - S / W| ≤ 3 * (γ + 2 * u) * A := by
  have u0 := P.acc.u_nonneg
  have u1 := P.u_le
  obtain ⟨w1, w2⟩ := abs_le.mp hW'
  have WA : 0 ≤ W * A := mul_nonneg hW.le hA
  have wlo : 9 / 10 * W ≤ W' := by
    have := mul_le_mul_of_nonneg_right g1 hW.le
    linarith
  have W0 : 0 < W' := lt_of_lt_of_le (by positivity) wlo
  have hq : |S' / W' - S / W| ≤ (20 / 9 * γ + 18 / 10 * u) * A := by
    have e : S' / W' - S / W = ((S' - S) + S / W * (W - W')) / W' := by
      field_simp
      ring
    rw [e, abs_div, abs_of_pos W0, div_le_iff₀ W0]
    have h1 : |S / W| ≤ A := by
      rw [abs_div, abs_of_pos hW, div_le_iff₀ hW, mul_comm]
      exact hS
    have h2 : |(S' - S) + S / W * (W - W')| ≤ (γ + 12 / 10 * u) * (W * A) + 11 / 10 * c + A * (γ * W) := by
      refine (abs_add_le _ _).trans (add_le_add hS' ?_)
      rw [abs_mul, abs_sub_comm]
      exact mul_le_mul h1 hW' (abs_nonneg _) hA
    have h3 : (20 / 9 * γ + 18 / 10 * u) * A * (9 / 10 * W) ≤ (20 / 9 * γ + 18 / 10 * u) * A * W' := mul_le_mul_of_nonneg_left wlo (by positivity)
    have uW : 0 ≤ u * (W * A) := mul_nonneg u0 WA
    nlinarith
  have h4 : |S' / W'| ≤ 2 * A := by
    have h1 : |S / W| ≤ A := by
      rw [abs_div, abs_of_pos hW, div_le_iff₀ hW, mul_comm]
      exact hS
    have := abs_add_le (S' / W' - S / W) (S / W)
    rw [sub_add_cancel] at this
    have : (20 / 9 * γ + 18 / 10 * u) * A ≤ 1 * A := mul_le_mul_of_nonneg_right (by linarith) hA
    linarith
  have h5 := P.acc.err (S' / W')
  have h6 := abs_sub_le (R.fl (S' / W')) (S' / W') (S / W)
  have h7 := mul_le_mul_of_nonneg_left h4 u0
  have h8 : 0 ≤ γ * A := mul_nonneg g0 hA
  have h9 : 0 ≤ u * A := mul_nonneg u0 hA
  nlinarith

/-- the coefficient computed from accurate sums -/
theorem corr_assembly {R : Rounding ℝ} {u η γ : ℝ} (P : Precise R u η) (g0 : 0 ≤ γ) (g1 : γ ≤ 1 / 10) (V : List (ℝ × ℝ × ℝ)) (hw : ∀ y ∈ V, 0 ≤ y.1)
    (hW : 0 < (V.map (·.1)).sum) {m n A B s num saa sbb : ℝ} (s0 : 0 < s)
    (ha : s ^ 2 ≤ mom V (·.2.1) (·.2.1) (wMean V (·.1) (·.2.1)) (wMean V (·.1) (·.2.1)))
    (hb : s ^ 2 ≤ mom V (·.2.2) (·.2.2) (wMean V (·.1) (·.2.2)) (wMean V (·.1) (·.2.2)))
    (hm : |m - wMean V (·.1) (·.2.1)| ≤ 3 * (γ + 2 * u) * A) (hn : |n - wMean V (·.1) (·.2.2)| ≤ 3 * (γ + 2 * u) * B)
    (h1 : |saa - mom V (·.2.1) (·.2.1) m m| ≤ (γ + 6 * u) * (Real.sqrt (mom V (·.2.1) (·.2.1) m m) * Real.sqrt (mom V (·.2.1) (·.2.1) m m)))
    (h2 : |sbb - mom V (·.2.2) (·.2.2) n n| ≤ (γ + 6 * u) * (Real.sqrt (mom V (·.2.2) (·.2.2) n n) * Real.sqrt (mom V (·.2.2) (·.2.2) n n)))
    (h3 : |num - mom V (·.2.1) (·.2.2) m n| ≤ (γ + 6 * u) * (Real.sqrt (mom V (·.2.1) (·.2.1) m m) * Real.sqrt (mom V (·.2.2) (·.2.2) n n)))
    (e1 : η ≤ u * s ^ 2 / 2) (e2 : η ≤ u * s ^ 4 / 2) :
    ∃ r', quotFl R num saa sbb = .fin r' ∧
      |r' - correlation V| ≤ 5 / 2 * (γ + 10 * u) + 14 * (γ + 2 * u) ^ 2 * ((A / spread V (·.2.1)) ^ 2 + (B / spread V (·.2.2)) ^ 2) := by
  have u0 := P.acc.u_nonneg
  have u1 := P.u_le
  have sh1 := mom_shift V hW.ne' (·.2.1) (·.2.1) m m
  have sh2 := mom_shift V hW.ne' (·.2.2) (·.2.2) n n
  have sh3 := mom_shift V hW.ne' (·.2.1) (·.2.2) m n
  have hS := mom_le V hw (·.2.1) (·.2.2) (wMean V (·.1) (·.2.1)) (wMean V (·.1) (·.2.2))
  have hS1 := mom_le V hw (·.2.1) (·.2.2) m n
  have hc : correlation V = mom V (·.2.1) (·.2.2) (wMean V (·.1) (·.2.1)) (wMean V (·.1) (·.2.2)) /
      (Real.sqrt (mom V (·.2.1) (·.2.1) (wMean V (·.1) (·.2.1)) (wMean V (·.1) (·.2.1))) *
        Real.sqrt (mom V (·.2.2) (·.2.2) (wMean V (·.1) (·.2.2)) (wMean V (·.1) (·.2.2)))) := by
    rw [← Real.sqrt_mul (mom_nonneg V hw _ _), mom_sq, mom_sq]
    rfl
  have sp1 : spread V (·.2.1) ^ 2 = mom V (·.2.1) (·.2.1) (wMean V (·.1) (·.2.1)) (wMean V (·.1) (·.2.1)) / (V.map (·.1)).sum := by
    unfold spread
    rw [Real.sq_sqrt]
    · rw [mom_sq]
      rfl
    · unfold wMean
      exact div_nonneg (sum_map_nonneg V _ fun y hy => mul_nonneg (hw y hy) (sq_nonneg _)) hW.le
  have sp2 : spread V (·.2.2) ^ 2 = mom V (·.2.2) (·.2.2) (wMean V (·.1) (·.2.2)) (wMean V (·.1) (·.2.2)) / (V.map (·.1)).sum := by
    unfold spread
    rw [Real.sq_sqrt]
    · rw [mom_sq]
      rfl
    · unfold wMean
      exact div_nonneg (sum_map_nonneg V _ fun y hy => mul_nonneg (hw y hy) (sq_nonneg _)) hW.le
  rw [hc, div_pow, div_pow, sp1, sp2]
  generalize wMean V (·.1) (·.2.1) = ā at *
  generalize wMean V (·.1) (·.2.2) = b' at *
  generalize (V.map (·.1)).sum = W at *
  generalize mom V (·.2.1) (·.2.1) m m = Xa at *
  generalize mom V (·.2.2) (·.2.2) n n = Xb at *
  generalize mom V (·.2.1) (·.2.2) m n = Xc at *
  generalize mom V (·.2.1) (·.2.1) ā ā = Ya at *
  generalize mom V (·.2.2) (·.2.2) b' b' = Yb at *
  generalize mom V (·.2.1) (·.2.2) ā b' = Yc at *
  have s2 : 0 < s ^ 2 := by positivity
  have ya : 0 < Ya := s2.trans_le ha
  have yb : 0 < Yb := s2.trans_le hb
  have xa : Ya ≤ Xa := by
    have : 0 ≤ W * (m - ā) * (m - ā) := by
      rw [mul_assoc]
      exact mul_nonneg hW.le (mul_self_nonneg _)
    linarith
  have xb : Yb ≤ Xb := by
    have : 0 ≤ W * (n - b') * (n - b') := by
      rw [mul_assoc]
      exact mul_nonneg hW.le (mul_self_nonneg _)
    linarith
  have D0 : 0 < Real.sqrt Ya := Real.sqrt_pos.mpr ya
  have F0 : 0 < Real.sqrt Yb := Real.sqrt_pos.mpr yb
  have D1 : 0 < Real.sqrt Xa := Real.sqrt_pos.mpr (ya.trans_le xa)
  have F1 : 0 < Real.sqrt Xb := Real.sqrt_pos.mpr (yb.trans_le xb)
  have sD : s ≤ Real.sqrt Xa := Real.le_sqrt_of_sq_le (ha.trans xa)
  have sF : s ≤ Real.sqrt Xb := Real.le_sqrt_of_sq_le (hb.trans xb)
  have qa : Real.sqrt Xa ^ 2 = Xa := Real.sq_sqrt (ya.le.trans xa)
  have qb : Real.sqrt Xb ^ 2 = Xb := Real.sq_sqrt (yb.le.trans xb)
  have pa : Real.sqrt Ya ^ 2 = Ya := Real.sq_sqrt ya.le
  have pb : Real.sqrt Yb ^ 2 = Yb := Real.sq_sqrt yb.le
  have shift := corr_shift (S := Yc) (e := m - ā) (g := n - b') D0 F0 D1 F1 hW.le (by rw [qa, pa, sh1]; ring) (by rw [qb, pb, sh2]; ring) hS
  rw [← sh3] at shift
  have s4 : s ^ 2 ≤ Real.sqrt Xa * Real.sqrt Xb := by
    rw [sq]
    exact mul_le_mul sD sF s0.le D1.le
  have r1 : |Xc / (Real.sqrt Xa * Real.sqrt Xb)| ≤ 1 := by
    rw [abs_div, abs_of_pos (mul_pos D1 F1)]
    exact (div_le_one (mul_pos D1 F1)).mpr hS1
  have rc : |Yc / (Real.sqrt Ya * Real.sqrt Yb)| ≤ 1 := by
    rw [abs_div, abs_of_pos (mul_pos D0 F0)]
    exact (div_le_one (mul_pos D0 F0)).mpr hS
  obtain ⟨x, hx, hd⟩ := corr_quot_error P (α := γ + 6 * u) (num := num) (saa := saa) (sbb := sbb) D1 F1 r1 (by linarith) (by linarith) (by rw [sq]; rw [← sq, qa] at h1 ⊢; exact h1)
    (by rw [sq]; rw [← sq, qb] at h2 ⊢; exact h2) (by rw [div_mul_cancel₀ _ (mul_pos D1 F1).ne']; exact h3)
    (by
      have := mul_le_mul_of_nonneg_left s4 u0
      linarith)
    (by
      have := mul_le_mul_of_nonneg_left (pow_le_pow_left₀ s2.le s4 2) u0
      rw [← pow_mul] at this
      norm_num at this
      linarith)
  obtain ⟨r', hr', hrd⟩ := clip_near (x := x) rc
  refine ⟨r', by rw [hx, hr'], ?_⟩
  have bx : W * (m - ā) ^ 2 / Real.sqrt Ya ^ 2 ≤ 9 * (γ + 2 * u) ^ 2 * (A ^ 2 / (Ya / W)) := by
    rw [pa]
    have h4 : (m - ā) ^ 2 ≤ (3 * (γ + 2 * u) * A) ^ 2 := by
      rw [← sq_abs]
      exact pow_le_pow_left₀ (abs_nonneg _) hm 2
    calc W * (m - ā) ^ 2 / Ya ≤ W * (3 * (γ + 2 * u) * A) ^ 2 / Ya := div_le_div_of_nonneg_right (mul_le_mul_of_nonneg_left h4 hW.le) ya.le
      _ = _ := by field_simp; ring
  have bY : W * (n - b') ^ 2 / Real.sqrt Yb ^ 2 ≤ 9 * (γ + 2 * u) ^ 2 * (B ^ 2 / (Yb / W)) := by
    rw [pb]
    have h4 : (n - b') ^ 2 ≤ (3 * (γ + 2 * u) * B) ^ 2 := by
      rw [← sq_abs]
      exact pow_le_pow_left₀ (abs_nonneg _) hn 2
    calc W * (n - b') ^ 2 / Yb ≤ W * (3 * (γ + 2 * u) * B) ^ 2 / Yb := div_le_div_of_nonneg_right (mul_le_mul_of_nonneg_left h4 hW.le) yb.le
      _ = _ := by field_simp; ring
  have tri := abs_sub_le x (Xc / (Real.sqrt Xa * Real.sqrt Xb)) (Yc / (Real.sqrt Ya * Real.sqrt Yb))
  have z1 : 0 ≤ (γ + 2 * u) ^ 2 * (A ^ 2 / (Ya / W)) := mul_nonneg (sq_nonneg _) (div_nonneg (sq_nonneg _) (div_nonneg ya.le hW.le))
  have z2 : 0 ≤ (γ + 2 * u) ^ 2 * (B ^ 2 / (Yb / W)) := mul_nonneg (sq_nonneg _) (div_nonneg (sq_nonneg _) (div_nonneg yb.le hW.le))
  have e5 : 14 * (γ + 2 * u) ^ 2 * (A ^ 2 / (Ya / W) + B ^ 2 / (Yb / W)) = 14 * ((γ + 2 * u) ^ 2 * (A ^ 2 / (Ya / W))) + 14 * ((γ + 2 * u) ^ 2 * (B ^ 2 / (Yb / W))) := by ring
  rw [e5]
  have e6 : 9 * (γ + 2 * u) ^ 2 * (A ^ 2 / (Ya / W)) = 9 * ((γ + 2 * u) ^ 2 * (A ^ 2 / (Ya / W))) := by ring
  have e7 : 9 * (γ + 2 * u) ^ 2 * (B ^ 2 / (Yb / W)) = 9 * ((γ + 2 * u) ^ 2 * (B ^ 2 / (Yb / W))) := by ring
  rw [e6] at bx
  rw [e7] at bY
  linarith

end Lemmas
end Verif
