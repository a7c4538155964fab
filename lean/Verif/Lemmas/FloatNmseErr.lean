import Verif.Lemmas.FloatCorrCall
import Verif.Model.FloatsNmse

/-
The sums of `nmse` in floating-point arithmetic.
-/

set_option linter.unusedSectionVars false
namespace Verif
namespace Lemmas
open Model Spec

/-! ### The masked lists are the sums over the cells that have both values -/

theorem mask_weights (ws : List ℝ) (o m : List (Option ℝ)) : (maskVar ws o m).1 = (List.zip ws (List.zip o m)).map (orZero cellVal (·.1)) := by
  unfold maskVar
  simp only
  induction ws generalizing o m with
  | nil => simp
  | cons w ws ih =>
    cases o with
    | nil => simp
    | cons x o =>
      cases m with
      | nil => simp
      | cons y m =>
        simp only [List.zip_cons_cons, List.zipWith_cons_cons, List.map_cons, ih]
        congr 1
        cases x <;> cases y <;> simp [maskWeight, orZero, cellVal]

theorem mask_observed (R : Rounding ℝ) (F : ℝ → ℝ) (ws : List ℝ) (o m : List (Option ℝ)) :
    List.zipWith (fun w v => R.fl (w * v)) (maskVar ws o m).1 ((maskVar ws o m).2.1.map F) =
      (List.zip ws (List.zip o m)).map (orZero cellVal (fun y => R.fl (y.1 * F y.2.1))) := by
  unfold maskVar
  simp only
  induction ws generalizing o m with
  | nil => simp
  | cons w ws ih =>
    cases o with
    | nil => simp
    | cons x o =>
      cases m with
      | nil => simp
      | cons y m =>
        simp only [List.zip_cons_cons, List.zipWith_cons_cons, List.map_cons, ih]
        congr 1
        by_cases hw : w = 0
        · cases x <;> cases y <;> simp [maskWeight, maskValue, orZero, cellVal, hw, R.fl_zero]
        · cases x <;> cases y <;> simp [maskWeight, maskValue, orZero, cellVal, hw, R.fl_zero]

theorem mask_both (R : Rounding ℝ) (F : ℝ → ℝ → ℝ) (ws : List ℝ) (o m : List (Option ℝ)) :
    List.zipWith (fun w v => R.fl (w * v)) (maskVar ws o m).1 (List.zipWith F (maskVar ws o m).2.2 (maskVar ws o m).2.1) =
      (List.zip ws (List.zip o m)).map (orZero cellVal (fun y => R.fl (y.1 * F y.2.2 y.2.1))) := by
  unfold maskVar
  simp only
  induction ws generalizing o m with
  | nil => simp
  | cons w ws ih =>
    cases o with
    | nil => simp
    | cons x o =>
      cases m with
      | nil => simp
      | cons y m =>
        simp only [List.zip_cons_cons, List.zipWith_cons_cons, List.map_cons, ih]
        congr 1
        by_cases hw : w = 0
        · cases x <;> cases y <;> simp [maskWeight, maskValue, orZero, cellVal, hw, R.fl_zero]
        · cases x <;> cases y <;> simp [maskWeight, maskValue, orZero, cellVal, hw, R.fl_zero]

/-! ### The errors -/

/-- one weighted squared difference -/
theorem nmseTerm {R : Rounding ℝ} {u η : ℝ} (P : Precise R u η) {w a b : ℝ} (w0 : 0 ≤ w) (w1 : w ≤ 1) (ra : R.rep a) (rb : R.rep b) :
    |R.fl (w * sqDiffFl R a b) - w * (a - b) ^ 2| ≤ 41 / 10 * u * |w * (a - b) ^ 2| + 21 / 10 * η := by
  have u0 := P.acc.u_nonneg
  have e0 := P.acc.eta_nonneg
  have u1 := P.u_le
  have hd := P.acc.sub ra rb
  unfold sqDiffFl
  generalize R.fl (a - b) = d' at hd ⊢
  generalize a - b = d at hd ⊢
  have h1 := P.acc.err (d' * d')
  generalize R.fl (d' * d') = q at h1 ⊢
  have h2 := P.acc.err (w * q)
  generalize R.fl (w * q) = z at h2 ⊢
  have D0 := sq_nonneg d
  have d1 : |d'| ≤ (1 + u) * |d| := by
    have := abs_add_le (d' - d) d
    rw [sub_add_cancel] at this
    linarith
  have c1 : |d' * d' - d ^ 2| ≤ (2 * u + u ^ 2) * d ^ 2 := by
    have e : d' * d' - d ^ 2 = (d' - d) * (d' + d) := by ring
    have k : |d' + d| ≤ (2 + u) * |d| := by
      have := abs_add_le d' d
      linarith
    rw [e, abs_mul]
    refine (mul_le_mul hd k (abs_nonneg _) ((abs_nonneg _).trans hd)).trans (le_of_eq ?_)
    rw [← sq_abs d]
    ring
  have c2 : |d' * d'| ≤ (1 + u) ^ 2 * d ^ 2 := by
    rw [abs_mul, ← sq_abs d]
    refine (mul_le_mul d1 d1 (abs_nonneg _) ((abs_nonneg _).trans d1)).trans (le_of_eq ?_)
    ring
  generalize d ^ 2 = D at *
  have c3 : |q - D| ≤ 301 / 100 * u * D + η := by
    have k1 := abs_sub_le q (d' * d') D
    have k2 := mul_le_mul_of_nonneg_left c2 u0
    have k3 : (2 * u + u ^ 2) + u * (1 + u) ^ 2 ≤ 301 / 100 * u := by nlinarith
    have k4 := mul_le_mul_of_nonneg_right k3 D0
    linarith
  have c4 : |q| ≤ (1 + 301 / 100 * u) * D + η := by
    have := abs_add_le (q - D) D
    rw [sub_add_cancel, abs_of_nonneg D0] at this
    linarith
  have g1 : |w * q - w * D| ≤ w * (301 / 100 * u * D) + η := by
    rw [← mul_sub, abs_mul, abs_of_nonneg w0]
    have k1 := mul_le_mul_of_nonneg_left c3 w0
    have k2 := mul_le_mul_of_nonneg_right w1 e0
    linarith
  have g2 : |w * q| ≤ w * ((1 + 301 / 100 * u) * D) + η := by
    rw [abs_mul, abs_of_nonneg w0]
    have k1 := mul_le_mul_of_nonneg_left c4 w0
    have k2 := mul_le_mul_of_nonneg_right w1 e0
    linarith
  have g3 := abs_sub_le z (w * q) (w * D)
  have g4 := mul_le_mul_of_nonneg_left g2 u0
  have wD : 0 ≤ w * D := mul_nonneg w0 D0
  rw [abs_of_nonneg wD]
  have g5 : u * (1 + 301 / 100 * u) + 301 / 100 * u ≤ 41 / 10 * u := by nlinarith
  have g6 := mul_le_mul_of_nonneg_right g5 wD
  have g7 : u * η ≤ 1 / 10 * η := mul_le_mul_of_nonneg_right (by linarith) e0
  linarith

/-- the quotient of the two mean squares -/
theorem nmse_assembly {R : Rounding ℝ} {u η γ τ : ℝ} (P : Precise R u η) (g0 : 0 ≤ γ) (g1 : γ ≤ 1 / 10) {E E' D D' W W' : ℝ} (hW : 0 < W)
    (hW' : |W' - W| ≤ γ * W) (hE : 0 ≤ E) (hD : 0 < D) (t0 : 0 ≤ τ) (t1 : τ ≤ u) (t2 : η ≤ τ) (hE' : |E' - E| ≤ (γ + 6 * u) * E + 6 / 10 * τ * D)
    (hD' : |D' - D| ≤ (γ + 6 * u) * D + 6 / 10 * τ * D) (hη : η * W ≤ 1 / 4 * τ * D) :
    R.fl (D' / W') ≠ 0 ∧ |R.fl (R.fl (E' / W') / R.fl (D' / W')) - E / D| ≤ (9 / 4 * γ + 19 * u) * (E / D) + 3 * τ := by
  have u0 := P.acc.u_nonneg
  have e0 := P.acc.eta_nonneg
  have u1 := P.u_le
  obtain ⟨w1, w2⟩ := abs_le.mp hW'
  have gW := mul_le_mul_of_nonneg_right g1 hW.le
  have wlo : 9 / 10 * W ≤ W' := by linarith
  have whi : W' ≤ 11 / 10 * W := by linarith
  have W0 : 0 < W' := lt_of_lt_of_le (by positivity) wlo
  have ηW : η * W' ≤ 275 / 1000 * τ * D := by
    have := mul_le_mul_of_nonneg_left whi e0
    linarith
  have uD : 0 ≤ u * D := mul_nonneg u0 hD.le
  have uE : 0 ≤ u * E := mul_nonneg u0 hE
  have gE : 0 ≤ γ * E := mul_nonneg g0 hE
  have τD : 0 ≤ τ * D := mul_nonneg t0 hD.le
  have τu := mul_le_mul_of_nonneg_right t1 hD.le
  have gD := mul_le_mul_of_nonneg_right g1 hD.le
  have gE' := mul_le_mul_of_nonneg_right g1 hE
  have uE' := mul_le_mul_of_nonneg_right u1 hE
  have uD' := mul_le_mul_of_nonneg_right u1 hD.le
  -- the numerator
  have aE : |E'| ≤ 12 / 10 * E + 6 / 10 * τ * D := by
    have := abs_add_le (E' - E) E
    rw [sub_add_cancel, abs_of_nonneg hE] at this
    nlinarith
  have n1 := P.acc.err (E' / W')
  generalize R.fl (E' / W') = n at n1 ⊢
  have n2 : |n * W' - E'| ≤ u * |E'| + η * W' := by
    have e : n * W' - E' = (n - E' / W') * W' := by field_simp
    rw [e, abs_mul, abs_of_pos W0]
    refine (mul_le_mul_of_nonneg_right n1 W0.le).trans (le_of_eq ?_)
    rw [abs_div, abs_of_pos W0]
    field_simp
  have n3 : |n * W' - E| ≤ (γ + 73 / 10 * u) * E + 9 / 10 * τ * D := by
    have k1 := abs_sub_le (n * W') E' E
    have k2 := mul_le_mul_of_nonneg_left aE u0
    have k3 : u * (6 / 10 * τ * D) ≤ 1e-6 * (6 / 10 * τ * D) := mul_le_mul_of_nonneg_right u1 (by positivity)
    nlinarith
  -- the denominator
  have aD : |D'| ≤ 12 / 10 * D := by
    have := abs_add_le (D' - D) D
    rw [sub_add_cancel, abs_of_nonneg hD.le] at this
    nlinarith
  have d1 := P.acc.err (D' / W')
  generalize R.fl (D' / W') = d at d1 ⊢
  have d2 : |d * W' - D'| ≤ u * |D'| + η * W' := by
    have e : d * W' - D' = (d - D' / W') * W' := by field_simp
    rw [e, abs_mul, abs_of_pos W0]
    refine (mul_le_mul_of_nonneg_right d1 W0.le).trans (le_of_eq ?_)
    rw [abs_div, abs_of_pos W0]
    field_simp
  have d3 : |d * W' - D| ≤ (γ + 81 / 10 * u) * D := by
    have k1 := abs_sub_le (d * W') D' D
    have k2 := mul_le_mul_of_nonneg_left aD u0
    nlinarith
  have dlo : 8999 / 10000 * D ≤ d * W' := by
    have := (abs_le.mp d3).1
    nlinarith
  have dW0 : 0 < d * W' := lt_of_lt_of_le (by positivity) dlo
  have d0 : d ≠ 0 := by
    rintro rfl
    rw [zero_mul] at dW0
    exact lt_irrefl _ dW0
  refine ⟨d0, ?_⟩
  have y0 : 0 ≤ E / D := div_nonneg hE hD.le
  have yE : E / D * D = E := div_mul_cancel₀ _ hD.ne'
  generalize E / D = y at y0 yE ⊢
  have q1 : |n / d - y| ≤ (2223 / 1000 * γ + 172 / 10 * u) * y + 101 / 100 * τ := by
    have e : n / d - y = ((n * W' - E) - y * (d * W' - D)) / (d * W') := by
      rw [← yE]
      field_simp
      ring
    rw [e, abs_div, abs_of_pos dW0, div_le_iff₀ dW0]
    have k1 : |(n * W' - E) - y * (d * W' - D)| ≤ (γ + 73 / 10 * u) * E + 9 / 10 * τ * D + y * ((γ + 81 / 10 * u) * D) := by
      refine (abs_sub _ _).trans (add_le_add n3 ?_)
      rw [abs_mul, abs_of_nonneg y0]
      exact mul_le_mul_of_nonneg_left d3 y0
    have k2 : ((2223 / 1000 * γ + 172 / 10 * u) * y + 101 / 100 * τ) * (8999 / 10000 * D) ≤ ((2223 / 1000 * γ + 172 / 10 * u) * y + 101 / 100 * τ) * (d * W') :=
      mul_le_mul_of_nonneg_left dlo (by positivity)
    have k3 : y * ((γ + 81 / 10 * u) * D) = (γ + 81 / 10 * u) * E := by rw [← yE]; ring
    have k4 : ((2223 / 1000 * γ + 172 / 10 * u) * y + 101 / 100 * τ) * (8999 / 10000 * D) =
        (2223 / 1000 * γ + 172 / 10 * u) * (8999 / 10000) * E + 101 / 100 * (8999 / 10000) * (τ * D) := by rw [← yE]; ring
    rw [k3] at k1
    rw [k4] at k2
    linarith
  have q2 := P.acc.err (n / d)
  have q3 : |n / d| ≤ 13 / 10 * y + 101 / 100 * τ := by
    have := abs_add_le (n / d - y) y
    rw [sub_add_cancel, abs_of_nonneg y0] at this
    have := mul_le_mul_of_nonneg_right g1 y0
    have := mul_le_mul_of_nonneg_right u1 y0
    linarith
  have q4 := abs_sub_le (R.fl (n / d)) (n / d) y
  have q5 := mul_le_mul_of_nonneg_left q3 u0
  have q6 := mul_le_mul_of_nonneg_right u1 t0
  have q7 : 0 ≤ u * y := mul_nonneg u0 y0
  have q8 : 0 ≤ γ * y := mul_nonneg g0 y0
  linarith

theorem spread_sq_eq (V : List (ℝ × ℝ × ℝ)) (hw : ∀ x ∈ V, 0 ≤ x.1) (f : ℝ × ℝ × ℝ → ℝ) : spread V f ^ 2 = wMean V (·.1) (fun x => (f x - wMean V (·.1) f) ^ 2) := by
  refine Real.sq_sqrt (div_nonneg ?_ ?_)
  · exact sum_map_nonneg V _ fun y hy => mul_nonneg (hw y hy) (sq_nonneg _)
  · exact sum_map_nonneg V _ hw

/-- no underflow: the squared deviations add up to far more than the smallest stored number; `τ` is what underflow may add to the result -/
structure NmseRange (u η τ : ℝ) (N : ℕ) (A s : ℝ) : Prop where
  s_pos : 0 < s
  tau : τ ≤ u
  small : η ≤ τ
  values : η ≤ u * A
  terms : N * η * (4 + 4 * A) ≤ τ * s ^ 2

/-- the whole computation on the cells -/
theorem nmse_core {R : Rounding ℝ} {u η γ τ : ℝ} (P : Precise R u η) (g0 : 0 ≤ γ) (g1 : γ ≤ 1 / 10) (ws : List ℝ) (o m : List (Option ℝ))
    (ho : o.length = ws.length) (hm : m.length = ws.length) (sum : List ℝ → ℝ) (hs : SumsWithin R sum ws.length γ) (A s : ℝ)
    (hw : ∀ w ∈ ws, R.rep w ∧ 0 ≤ w ∧ w ≤ 1) (hA : ∀ x, some x ∈ o → R.rep x ∧ |x| ≤ A) (hB : ∀ x, some x ∈ m → R.rep x)
    (I : NmseRange u η τ ws.length A s) (sa : s ^ 2 ≤ scatter (validCells ws o m) (·.2.1)) :
    ∃ x, nmseSliceFl R sum (maskVar ws o m).1 (maskVar ws o m).2.1 (maskVar ws o m).2.2 = .fin x ∧
      |x - nmseOf (validCells ws o m)| ≤
        (9 / 4 * γ + 19 * u + 9 * (γ + 2 * u) ^ 2 * (A / spread (validCells ws o m) (·.2.1)) ^ 2) * nmseOf (validCells ws o m) + 3 * τ := by
  have u0 := P.acc.u_nonneg
  have e0 := P.acc.eta_nonneg
  have u1 := P.u_le
  have eo := mask_observed R id ws o m
  have ew := mask_weights ws o m
  have ed := fun c => mask_observed R (fun x => sqDiffFl R x c) ws o m
  have em := mask_both R (sqDiffFl R) ws o m
  rw [List.map_id] at eo
  have hTl : (List.zip ws (List.zip o m)).length = ws.length := by simp [ho, hm]
  rw [validCells_cellVal] at *
  rw [← hTl] at hs I
  have hmem : ∀ x ∈ List.zip ws (List.zip o m), x.1 ∈ ws ∧ x.2.1 ∈ o ∧ x.2.2 ∈ m := fun x hx =>
    ⟨(List.of_mem_zip hx).1, (List.of_mem_zip (List.of_mem_zip hx).2).1, (List.of_mem_zip (List.of_mem_zip hx).2).2⟩
  generalize List.zip ws (List.zip o m) = T at *
  have hcell : ∀ y ∈ T.filterMap cellVal, y.1 ∈ ws ∧ some y.2.1 ∈ o ∧ some y.2.2 ∈ m := by
    intro y hy
    obtain ⟨x, hx, hv⟩ := List.mem_filterMap.mp hy
    obtain ⟨m1, m2, m3⟩ := hmem x hx
    obtain ⟨w, o, m⟩ := x
    cases o with
    | none => simp [cellVal] at hv
    | some o => cases m with
      | none => simp [cellVal] at hv
      | some m =>
        simp only [cellVal, Option.some.injEq] at hv
        subst hv
        exact ⟨m1, m2, m3⟩
  have hw0 : ∀ y ∈ T.filterMap cellVal, 0 ≤ y.1 := fun y hy => (hw _ (hcell y hy).1).2.1
  have hw1 : ∀ y ∈ T.filterMap cellVal, y.1 ≤ 1 := fun y hy => (hw _ (hcell y hy).1).2.2
  have hrw : ∀ y ∈ T.filterMap cellVal, R.rep y.1 := fun y hy => (hw _ (hcell y hy).1).1
  have hA' : ∀ y ∈ T.filterMap cellVal, |y.2.1| ≤ A := fun y hy => (hA _ (hcell y hy).2.1).2
  have hro : ∀ y ∈ T.filterMap cellVal, R.rep y.2.1 := fun y hy => (hA _ (hcell y hy).2.1).1
  have hrm : ∀ y ∈ T.filterMap cellVal, R.rep y.2.2 := fun y hy => hB _ (hcell y hy).2.2
  have s2 : 0 < s ^ 2 := pow_pos I.s_pos 2
  have hne : T.filterMap cellVal ≠ [] := by
    intro h
    rw [h] at sa
    unfold scatter at sa
    rw [List.map_nil, List.sum_nil] at sa
    linarith
  obtain ⟨y0, hy0⟩ := List.exists_mem_of_ne_nil _ hne
  have A0 : 0 ≤ A := (abs_nonneg _).trans (hA' y0 hy0)
  have hlen : ((T.filterMap cellVal).length : ℝ) ≤ T.length := by exact_mod_cast List.length_filterMap_le _ _
  have t0 : 0 ≤ τ := e0.trans I.small
  have sa' : s ^ 2 ≤ mom (T.filterMap cellVal) (·.2.1) (·.2.1) (wMean (T.filterMap cellVal) (·.1) (·.2.1)) (wMean (T.filterMap cellVal) (·.1) (·.2.1)) := by
    rw [mom_sq]
    exact sa
  have hWN : ((T.filterMap cellVal).map (·.1)).sum ≤ T.length := by
    have := sum_map_le (T.filterMap cellVal) (·.1) (fun y => 0 * y.1 + 1) fun y hy => by linarith [hw1 y hy]
    rw [sum_map_add_const] at this
    linarith
  have hW : 0 < ((T.filterMap cellVal).map (·.1)).sum := by
    refine lt_of_le_of_ne (sum_map_nonneg _ _ hw0) fun h => ?_
    have hz := (sum_zero_iff (T.filterMap cellVal) (·.1) hw0).mp h.symm
    have : scatter (T.filterMap cellVal) (·.2.1) = 0 := by
      unfold scatter
      refine List.sum_eq_zero fun x hx => ?_
      obtain ⟨y, hy, rfl⟩ := List.mem_map.mp hx
      simp only [hz y hy, zero_mul]
    linarith
  have NA := mul_nonneg (mul_nonneg (Nat.cast_nonneg T.length) e0 : 0 ≤ (T.length : ℝ) * η) A0
  have Nη : 0 ≤ (T.length : ℝ) * η := mul_nonneg (Nat.cast_nonneg T.length) e0
  have N4 : 4 * (T.length * η) ≤ τ * s ^ 2 := by
    have := I.terms
    linarith
  have tA : 3 * (T.length * η) ≤ u * (((T.filterMap cellVal).map (·.1)).sum * A) := by
    have h := sa'.trans (mom_bound _ hw0 hW.ne' _ A hA')
    have hAp : 0 < A := by
      rcases A0.lt_or_eq with h0 | h0
      · exact h0
      · rw [← h0, zero_pow two_ne_zero, mul_zero] at h
        linarith
    have h4 := I.terms
    have h7 := mul_le_mul_of_nonneg_left h u0
    have h9 := mul_le_mul_of_nonneg_right I.tau s2.le
    have h8 : 3 * (T.length * η) * A ≤ u * (((T.filterMap cellVal).map (·.1)).sum * A) * A := by nlinarith
    exact le_of_mul_le_mul_right h8 hAp
  -- the mean
  have m1 := wMeanFl_error P g0 g1 cellVal T sum hs hw0 (·.2.1) hrw hA' A0 hW I.values tA
  have hmean : weightedMeanFl R sum (maskVar ws o m).1 (maskVar ws o m).2.1 = .fin (wMeanFl R sum cellVal T (·.2.1)) := by
    unfold weightedMeanFl wMeanFl
    rw [ew, if_neg m1.2, ← ew, eo, ew]
    simp only [id, mul_comm]
  have rc : R.rep (wMeanFl R sum cellVal T (·.2.1)) := R.rep_fl _
  generalize wMeanFl R sum cellVal T (·.2.1) = c at *
  -- the sums
  have hWs := hs.cells cellVal T (·.1) hrw
  rw [show ((T.filterMap cellVal).map (fun y => |y.1|)).sum = ((T.filterMap cellVal).map (·.1)).sum by
    congr 1
    exact List.map_congr_left fun y hy => abs_of_nonneg (hw0 y hy)] at hWs
  have sums : ∀ f g : ℝ × ℝ × ℝ → ℝ, (∀ y ∈ T.filterMap cellVal, R.rep (f y)) → (∀ y ∈ T.filterMap cellVal, R.rep (g y)) →
      |sum (T.map (orZero cellVal (fun y => R.fl (y.1 * sqDiffFl R (f y) (g y))))) - ((T.filterMap cellVal).map (fun y => y.1 * (f y - g y) ^ 2)).sum| ≤
        (γ + 6 * u) * ((T.filterMap cellVal).map (fun y => y.1 * (f y - g y) ^ 2)).sum + 6 / 10 * τ * s ^ 2 := by
    intro f g rf rg
    have k1 := hs.cells cellVal T (fun y => R.fl (y.1 * sqDiffFl R (f y) (g y))) fun y _ => R.rep_fl _
    have k2 := sum_chain (T.filterMap cellVal) _ (fun y => y.1 * (f y - g y) ^ 2) g0 k1 fun y hy => nmseTerm P (hw0 y hy) (hw1 y hy) (rf y hy) (rg y hy)
    rw [show ((T.filterMap cellVal).map (fun y => |y.1 * (f y - g y) ^ 2|)).sum = ((T.filterMap cellVal).map (fun y => y.1 * (f y - g y) ^ 2)).sum by
      congr 1
      exact List.map_congr_left fun y hy => abs_of_nonneg (mul_nonneg (hw0 y hy) (sq_nonneg _))] at k2
    have n0 : 0 ≤ ((T.filterMap cellVal).map (fun y => y.1 * (f y - g y) ^ 2)).sum := sum_map_nonneg _ _ fun y hy => mul_nonneg (hw0 y hy) (sq_nonneg _)
    have j1 : (1 + γ) * (1 + 41 / 10 * u) - 1 ≤ γ + 6 * u := by nlinarith
    have j2 := mul_le_mul_of_nonneg_right j1 n0
    have j3 : (1 + γ) * ((T.filterMap cellVal).length * (21 / 10 * η)) ≤ 11 / 10 * (T.length * (21 / 10 * η)) :=
      mul_le_mul (by linarith) (mul_le_mul_of_nonneg_right hlen (by positivity)) (by positivity) (by norm_num)
    linarith
  have hEs := sums (·.2.2) (·.2.1) hrm hro
  have hDs := sums (·.2.1) (fun _ => c) hro fun _ _ => rc
  set W := ((T.filterMap cellVal).map (·.1)).sum with hWdef
  have hE0 : 0 ≤ ((T.filterMap cellVal).map (fun y => y.1 * (y.2.2 - y.2.1) ^ 2)).sum := sum_map_nonneg _ _ fun y hy => mul_nonneg (hw0 y hy) (sq_nonneg _)
  have hshift := mom_shift (T.filterMap cellVal) hW.ne' (·.2.1) (·.2.1) c c
  rw [mom_sq, mom_sq] at hshift
  have hsp := spread_sq_eq (T.filterMap cellVal) hw0 (·.2.1)
  have hform : nmseOf (T.filterMap cellVal) = ((T.filterMap cellVal).map (fun y => y.1 * (y.2.2 - y.2.1) ^ 2)).sum / scatter (T.filterMap cellVal) (·.2.1) := by
    unfold nmseOf scatter
    conv_lhs => rw [wMean, wMean]
    exact div_div_div_cancel_right₀ hW.ne' _ _
  have hvar : spread (T.filterMap cellVal) (·.2.1) ^ 2 * W = scatter (T.filterMap cellVal) (·.2.1) := by
    rw [hsp]
    conv_lhs => rw [wMean]
    exact div_mul_cancel₀ _ hW.ne'
  have hscat : scatter (T.filterMap cellVal) (·.2.1) =
      ((T.filterMap cellVal).map (fun y => y.1 * (y.2.1 - wMean (T.filterMap cellVal) (·.1) (·.2.1)) ^ 2)).sum := rfl
  rw [← hscat] at hshift
  generalize scatter (T.filterMap cellVal) (·.2.1) = D at *
  generalize ((T.filterMap cellVal).map (fun y => y.1 * (y.2.2 - y.2.1) ^ 2)).sum = E at *
  generalize spread (T.filterMap cellVal) (·.2.1) = σ at *
  generalize wMean (T.filterMap cellVal) (·.1) (·.2.1) = μ at *
  have D0 : 0 < D := s2.trans_le sa
  have hDD : D ≤ ((T.filterMap cellVal).map (fun y => y.1 * (y.2.1 - c) ^ 2)).sum := by
    have := mul_nonneg hW.le (mul_self_nonneg (c - μ))
    rw [hshift]
    linarith
  have bound : 6 / 10 * τ * s ^ 2 ≤ 6 / 10 * τ * ((T.filterMap cellVal).map (fun y => y.1 * (y.2.1 - c) ^ 2)).sum :=
    mul_le_mul_of_nonneg_left (sa.trans hDD) (by positivity)
  generalize ((T.filterMap cellVal).map (fun y => y.1 * (y.2.1 - c) ^ 2)).sum = D1 at *
  have hηW : η * W ≤ 1 / 4 * τ * D1 := by
    have k1 := mul_le_mul_of_nonneg_left hWN e0
    have k2 := mul_le_mul_of_nonneg_left (sa.trans hDD) t0
    linarith
  obtain ⟨hd, hq⟩ := nmse_assembly P g0 g1 hW hWs hE0 (D0.trans_le hDD) t0 I.tau I.small (hEs.trans (by linarith)) (hDs.trans (by linarith)) hηW
  refine ⟨R.fl (R.fl (sum (T.map (orZero cellVal fun y => R.fl (y.1 * sqDiffFl R y.2.2 y.2.1))) / sum (T.map (orZero cellVal fun y => y.1))) /
      R.fl (sum (T.map (orZero cellVal fun y => R.fl (y.1 * sqDiffFl R y.2.1 c))) / sum (T.map (orZero cellVal fun y => y.1)))), ?_, ?_⟩
  · unfold nmseSliceFl
    rw [hmean]
    simp only
    unfold weightedMeanFl
    rw [ew, if_neg m1.2, if_neg m1.2, ← ew, em, ed, ew, XF.fin_div _ _ hd]
    rfl
  · have D10 : 0 < D1 := D0.trans_le hDD
    have q0 : 0 ≤ E / D := div_nonneg hE0 D0.le
    have h1 : E / D1 ≤ E / D := div_le_div_of_nonneg_left hE0 D0 hDD
    have hσ : 0 < σ ^ 2 := by
      by_contra h
      have := mul_le_mul_of_nonneg_right (not_lt.mp h) hW.le
      rw [hvar, zero_mul] at this
      linarith
    have h2 : E / D - E / D1 ≤ 9 * (γ + 2 * u) ^ 2 * (A / σ) ^ 2 * (E / D) := by
      have k1 : (c - μ) * (c - μ) ≤ 9 * (γ + 2 * u) ^ 2 * A ^ 2 := by
        rw [← abs_mul_abs_self]
        refine (mul_le_mul m1.1 m1.1 (abs_nonneg _) ((abs_nonneg _).trans m1.1)).trans (le_of_eq ?_)
        ring
      have k2 : D1 - D ≤ 9 * (γ + 2 * u) ^ 2 * (A / σ) ^ 2 * D := by
        have k3 : 9 * (γ + 2 * u) ^ 2 * (A / σ) ^ 2 * D = W * (9 * (γ + 2 * u) ^ 2 * A ^ 2) := by
          have k5 : A ^ 2 / σ ^ 2 * (σ ^ 2 * W) = A ^ 2 * W := by rw [← mul_assoc, div_mul_cancel₀ _ hσ.ne']
          rw [← hvar, div_pow, mul_assoc, k5]
          ring
        rw [k3, hshift]
        have := mul_le_mul_of_nonneg_left k1 hW.le
        linarith
      have k4 : E / D - E / D1 = E / D * ((D1 - D) / D1) := by
        field_simp
      rw [k4, mul_comm]
      refine mul_le_mul_of_nonneg_right ?_ q0
      rw [div_le_iff₀ D10]
      refine k2.trans (mul_le_mul_of_nonneg_left hDD (by positivity))
    rw [hform]
    have h3 := abs_sub_le (R.fl (R.fl (sum (T.map (orZero cellVal fun y => R.fl (y.1 * sqDiffFl R y.2.2 y.2.1))) / sum (T.map (orZero cellVal fun y => y.1))) /
      R.fl (sum (T.map (orZero cellVal fun y => R.fl (y.1 * sqDiffFl R y.2.1 c))) / sum (T.map (orZero cellVal fun y => y.1))))) (E / D1) (E / D)
    have h4 : |E / D1 - E / D| = E / D - E / D1 := by rw [abs_sub_comm, abs_of_nonneg (by linarith)]
    rw [h4] at h3
    have h5 := mul_le_mul_of_nonneg_left h1 (by positivity : 0 ≤ 9 / 4 * γ + 19 * u)
    linarith

end Lemmas
end Verif
