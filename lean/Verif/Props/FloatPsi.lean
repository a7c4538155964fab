import Verif.Lemmas.FloatPsi
import Verif.Props.Psi

/-
C156: the meridional streamfunction in floating-point arithmetic.
-/

set_option linter.unusedSectionVars false
namespace Verif.Props
open Model Spec Lemmas
variable {K : Type _} [Field K] [LinearOrder K] [IsStrictOrderedRing K]

/-- C156. With exact arithmetic the computation is the one of C57. -/
theorem C156_exact (c : K) (plev : List K) (v : List (XF K)) (ps : K) :
    psiColumnFl Rounding.exact c plev v ps = psiColumn c plev v (.fin ps) := psiColumnFl_exact c plev v ps

/-- what is needed of the levels and of the surface pressure: stored numbers, increasing from the top down, the surface below the first interface -/
structure FloatColumn (R : Rounding K) (n : ℕ) (lev : ℕ → K) (ps : K) : Prop where
  two : 2 ≤ n
  inc : Increasing n lev
  stored : ∀ i < n, R.rep (lev i)
  top : 0 ≤ lev 0
  ps_stored : R.rep ps
  surface : avgFl R (lev 0) (lev 1) < ps

theorem FloatColumn.down {R : Rounding K} {n : ℕ} {lev : ℕ → K} {ps : K} (h : FloatColumn R n lev ps) : lev 0 < lev (n - 1) :=
  h.inc 0 (n - 1) (by have := h.two; omega) (by have := h.two; omega)

/-- a column and what the code computes for it -/
theorem psiFl_column {R : Rounding K} {n : ℕ} {lev : ℕ → K} {ps : K} (h : FloatColumn R n lev ps) (c : K) :
    ∃ d : ℕ → XF K, deltaPressureFl R (column n lev) ps none = .ok (column n d) ∧
      (∀ k < n, (d k = .nan ↔ 0 < k ∧ ps ≤ avgFl R (lev (k - 1)) (lev k)) ∧ (d k = .nan ∨ ∃ b, d k = .fin b ∧ 0 ≤ b)) ∧
      ∀ v : ℕ → XF K, (∀ j < n, NotInf (v j)) → psiColumnFl R c (column n lev) (column n v) ps
        = .ok (column n (fun k => .fin (R.fl (runFl R 0 (fun j => fluxFl R (v j) (d j)) k * c)))) := by
  obtain ⟨d, h1, -, h3⟩ := C130_layers R n h.two lev h.inc h.stored ps h.ps_stored none h.top (le_refl _) h.surface
  refine ⟨d, h1, h3, fun v hv => psiColumnFl_down R c n (by have := h.two; omega) lev h.down v d hv (fun j hj => ?_) ps h1⟩
  rcases (h3 j hj).2 with e | ⟨b, e, -⟩ <;> rw [e] <;> exact ⟨by simp, by simp⟩

/-- C156. Listing the levels and winds from the surface upwards gives bit for bit the same values, in that order. -/
theorem C156_order {R : Rounding K} {n : ℕ} {lev : ℕ → K} {ps : K} (h : FloatColumn R n lev ps) (c : K) (v : ℕ → XF K) :
    psiColumnFl R c (column n lev).reverse (column n v).reverse ps = (psiColumnFl R c (column n lev) (column n v) ps).map List.reverse := by
  obtain ⟨d, h1, h2, -⟩ := C130_layers R n h.two lev h.inc h.stored ps h.ps_stored none h.top (le_refl _) h.surface
  exact psiColumnFl_reverse R c n (by have := h.two; omega) lev h.down v d ps h1 h2

/-- C156. For any winds, missing ones included, the result is a column of numbers. Across a level whose wind is missing, or whose layer lies at or
below the surface, the value does not change at all; as long as all winds so far are missing or zero, the value is exactly zero. -/
theorem C156_missing {R : Rounding K} {n : ℕ} {lev : ℕ → K} {ps : K} (h : FloatColumn R n lev ps) (c : K) (v : ℕ → XF K)
    (hv : ∀ j < n, NotInf (v j)) :
    ∃ f : ℕ → K, psiColumnFl R c (column n lev) (column n v) ps = .ok (column n (fun k => .fin (f k))) ∧ (∀ k < n, R.rep (f k)) ∧
      (∀ k, k + 1 < n → (v (k + 1) = .nan ∨ ps ≤ avgFl R (lev k) (lev (k + 1))) → f (k + 1) = f k) ∧
      (∀ k < n, (∀ j ≤ k, v j = .nan ∨ v j = .fin 0) → f k = 0) := by
  obtain ⟨d, -, h2, h3⟩ := psiFl_column h c
  refine ⟨_, h3 v hv, fun k _ => R.rep_fl _, fun k hk hm => ?_, fun k hk hm => ?_⟩
  · have hz : fluxFl R (v (k + 1)) (d (k + 1)) = 0 := by
      rcases hm with e | e
      · rw [e]; rfl
      · rw [(h2 (k + 1) hk).1.mpr ⟨by omega, by simpa using e⟩]
        cases v (k + 1) <;> rfl
    simp only [runFl_step_same R 0 (fun j => fluxFl R (v j) (d j)) k hz]
  · have hz : ∀ j ≤ k, fluxFl R (v j) (d j) = 0 := by
      intro j hj
      rcases hm j hj with e | e
      · rw [e]; rfl
      · rw [e]; cases d j <;> simp [fluxFl, R.fl_zero]
    show R.fl (runFl R 0 (fun j => fluxFl R (v j) (d j)) k * c) = 0
    rw [runFl_zero R _ k hz, zero_mul, R.fl_zero]

/-- C156. Stronger northward winds never give a smaller value (where the factor is not negative): rounding errors cannot reverse the order. -/
theorem C156_winds_monotone {R : Rounding K} {n : ℕ} {lev : ℕ → K} {ps : K} (h : FloatColumn R n lev ps) (c : K) (hc : 0 ≤ c) (v w : ℕ → XF K)
    (hvw : ∀ j < n, (v j = .nan ∧ w j = .nan) ∨ ∃ x y, v j = .fin x ∧ w j = .fin y ∧ x ≤ y) :
    ∃ f g : ℕ → K, psiColumnFl R c (column n lev) (column n v) ps = .ok (column n (fun k => .fin (f k))) ∧
      psiColumnFl R c (column n lev) (column n w) ps = .ok (column n (fun k => .fin (g k))) ∧ ∀ k < n, f k ≤ g k := by
  obtain ⟨d, -, h2, h3⟩ := psiFl_column h c
  have nv : ∀ j < n, NotInf (v j) ∧ NotInf (w j) := by
    intro j hj
    rcases hvw j hj with ⟨e1, e2⟩ | ⟨x, y, e1, e2, -⟩ <;> rw [e1, e2] <;> exact ⟨⟨by simp, by simp⟩, by simp, by simp⟩
  refine ⟨_, _, h3 v (fun j hj => (nv j hj).1), h3 w (fun j hj => (nv j hj).2), fun k hk => ?_⟩
  refine R.mono _ _ (mul_le_mul_of_nonneg_right (runFl_mono R 0 _ _ k (fun j hj => ?_)) hc)
  have hj : j < n := by omega
  rcases hvw j hj with ⟨e1, e2⟩ | ⟨x, y, e1, e2, hxy⟩
  · rw [e1, e2]
  · rcases (h2 j hj).2 with e | ⟨b, e, hb⟩
    · rw [e1, e2, e]; simp [fluxFl]
    · rw [e1, e2, e]
      exact R.mono _ _ (mul_le_mul_of_nonneg_right hxy hb)

/-- C156. Winds that are nowhere southward give a streamfunction that starts at a value not below zero and never decreases on the way down. -/
theorem C156_northward {R : Rounding K} {n : ℕ} {lev : ℕ → K} {ps : K} (h : FloatColumn R n lev ps) (c : K) (hc : 0 ≤ c) (v : ℕ → XF K)
    (hv : ∀ j < n, v j = .nan ∨ ∃ x, v j = .fin x ∧ 0 ≤ x) :
    ∃ f : ℕ → K, psiColumnFl R c (column n lev) (column n v) ps = .ok (column n (fun k => .fin (f k))) ∧
      0 ≤ f 0 ∧ ∀ i j, i ≤ j → j < n → f i ≤ f j := by
  obtain ⟨d, -, h2, h3⟩ := psiFl_column h c
  have nv : ∀ j < n, NotInf (v j) := by
    intro j hj
    rcases hv j hj with e | ⟨x, e, -⟩ <;> rw [e] <;> exact ⟨by simp, by simp⟩
  have nf : ∀ j < n, 0 ≤ fluxFl R (v j) (d j) := by
    intro j hj
    rcases hv j hj with e | ⟨x, e, hx⟩
    · rw [e]; exact le_refl 0
    · rcases (h2 j hj).2 with e2 | ⟨b, e2, hb⟩
      · rw [e, e2]; exact le_refl 0
      · rw [e, e2]; exact R.fl_nonneg (mul_nonneg hx hb)
  refine ⟨_, h3 v nv, ?_, fun i j hij hj => R.mono _ _ (mul_le_mul_of_nonneg_right ?_ hc)⟩
  · have := nf 0 (by have := h.two; omega)
    refine R.fl_nonneg (mul_nonneg (R.fl_nonneg ?_) hc)
    simpa using this
  · induction j with
    | zero => rw [Nat.le_zero.mp hij]
    | succ j ih =>
      rcases Nat.lt_or_eq_of_le hij with hlt | rfl
      · exact (ih (by omega) (by omega)).trans (runFl_step_up R 0 _ j (nf (j + 1) hj))
      · exact le_refl _

/-- C156. In float64 (or any rounding mode that treats both signs alike) opposite winds give exactly opposite values. -/
theorem C156_opposite {R : Rounding K} (hR : ∀ x, R.fl (-x) = - R.fl x) {n : ℕ} {lev : ℕ → K} {ps : K} (h : FloatColumn R n lev ps) (c : K)
    (v w : ℕ → XF K) (hvw : ∀ j < n, (v j = .nan ∧ w j = .nan) ∨ ∃ x, v j = .fin x ∧ w j = .fin (-x)) :
    ∃ f : ℕ → K, psiColumnFl R c (column n lev) (column n v) ps = .ok (column n (fun k => .fin (f k))) ∧
      psiColumnFl R c (column n lev) (column n w) ps = .ok (column n (fun k => .fin (- f k))) := by
  obtain ⟨d, -, h2, h3⟩ := psiFl_column h c
  have nv : ∀ j < n, NotInf (v j) ∧ NotInf (w j) := by
    intro j hj
    rcases hvw j hj with ⟨e1, e2⟩ | ⟨x, e1, e2⟩ <;> rw [e1, e2] <;> exact ⟨⟨by simp, by simp⟩, by simp, by simp⟩
  refine ⟨_, h3 v (fun j hj => (nv j hj).1), ?_⟩
  rw [h3 w (fun j hj => (nv j hj).2)]
  congr 1
  apply List.map_congr_left
  intro k hk
  have hk : k < n := by simpa using hk
  have e : runFl R 0 (fun j => fluxFl R (w j) (d j)) k = runFl R 0 (fun j => - fluxFl R (v j) (d j)) k := by
    refine runFl_congr R 0 _ _ k (fun j hj => ?_)
    rcases hvw j (by omega) with ⟨e1, e2⟩ | ⟨x, e1, e2⟩
    · rw [e1, e2]; simp [fluxFl]
    · rw [e1, e2]
      cases d j <;> simp [fluxFl, hR]
  rw [e, runFl_neg R hR, neg_mul, hR]

theorem float64_odd [FloorRing K] (x : K) : (float64 : Rounding K).fl (-x) = - (float64 : Rounding K).fl x := roundBin_neg _ _ x

theorem fluxFl_eq (R : Rounding K) (v d : XF K) (hv : NotInf v) (hd : NotInf d) : fluxFl R v d = R.fl (finOrZero v * finOrZero d) := by
  obtain ⟨h1, h2⟩ := hv
  obtain ⟨h3, h4⟩ := hd
  cases v <;> cases d <;> simp_all [fluxFl, finOrZero, R.fl_zero]

theorem layerFlux_eq (v d : XF K) (hv : NotInf v) (hd : NotInf d) : layerFlux v d = finOrZero v * finOrZero d := by
  obtain ⟨h1, h2⟩ := hv
  obtain ⟨h3, h4⟩ := hd
  cases v <;> cases d <;> simp_all [layerFlux, finOrZero]

/-- error of the scaled running sum of rounded products -/
theorem scaled_run_error {R : Rounding K} {u η : K} (A : R.Accurate u η) (q : ℕ → K) (c : K) (k : ℕ) :
    |R.fl (runFl R 0 (fun j => R.fl (q j)) k * c) - c * ∑ j ∈ Finset.range (k + 1), q j|
      ≤ |c| * (((1 + u) ^ (k + 2) - 1) * ∑ j ∈ Finset.range (k + 1), |q j| + (1 + u) ^ (k + 1) * ((k + 1) * η)) + η := by
  have hu0 := A.u_nonneg
  have he0 := A.eta_nonneg
  have e1 := runFl_error A (fun j => R.fl (q j)) k (fun j _ => R.rep_fl _)
  have e2 : ∀ j ∈ Finset.range (k + 1), |R.fl (q j) - q j| ≤ u * |q j| + η := fun j _ => A.err _
  have e3 := Finset.sum_le_sum e2
  rw [Finset.sum_add_distrib, ← Finset.mul_sum, Finset.sum_const, Finset.card_range, nsmul_eq_mul] at e3
  have e4 : ∀ j ∈ Finset.range (k + 1), |R.fl (q j)| ≤ |q j| + (u * |q j| + η) := by
    intro j hj
    have := e2 j hj
    have h : R.fl (q j) = q j + (R.fl (q j) - q j) := by ring
    rw [h]
    exact (abs_add_le _ _).trans (by linarith)
  have e5 := Finset.sum_le_sum e4
  rw [Finset.sum_add_distrib, Finset.sum_add_distrib, ← Finset.mul_sum, Finset.sum_const, Finset.card_range, nsmul_eq_mul] at e5
  have e6 : |∑ j ∈ Finset.range (k + 1), R.fl (q j) - ∑ j ∈ Finset.range (k + 1), q j| ≤ ∑ j ∈ Finset.range (k + 1), |R.fl (q j) - q j| := by
    rw [← Finset.sum_sub_distrib]
    exact Finset.abs_sum_le_sum_abs _ _
  have e7 := Finset.abs_sum_le_sum_abs q (Finset.range (k + 1))
  have Q0 : 0 ≤ ∑ j ∈ Finset.range (k + 1), |q j| := Finset.sum_nonneg (fun _ _ => abs_nonneg _)
  push_cast at e3 e5
  set s := runFl R 0 (fun j => R.fl (q j)) k
  set F := ∑ j ∈ Finset.range (k + 1), R.fl (q j)
  set S := ∑ j ∈ Finset.range (k + 1), q j
  set Q := ∑ j ∈ Finset.range (k + 1), |q j|
  have g1 : (1 : K) ≤ (1 + u) ^ k := one_le_pow₀ (by linarith)
  rw [pow_succ _ (k + 1), pow_succ _ k]
  set G := (1 + u) ^ k
  set N : K := (k : K) + 1
  have N0 : 0 ≤ N := by positivity
  -- the running sum
  have b1 : |s - S| ≤ (G * (1 + u) - 1) * Q + G * (N * η) := by
    have h : s - S = (s - F) + (F - S) := by ring
    rw [h]
    have t1 := abs_add_le (s - F) (F - S)
    have t2 := mul_le_mul_of_nonneg_left e5 (show 0 ≤ G - 1 by linarith)
    have t3 : (G - 1) * (Q + (u * Q + N * η)) + (u * Q + N * η) = (G * (1 + u) - 1) * Q + G * (N * η) := by ring
    linarith
  have b2 : |s| ≤ G * (1 + u) * Q + G * (N * η) := by
    have h : s = (s - S) + S := by ring
    have t1 := abs_add_le (s - S) S
    rw [← h] at t1
    linarith
  have e8 := A.err (s * c)
  have h : R.fl (s * c) - c * S = (R.fl (s * c) - s * c) + c * (s - S) := by ring
  rw [h]
  have t1 := abs_add_le (R.fl (s * c) - s * c) (c * (s - S))
  rw [abs_mul c] at t1
  rw [abs_mul] at e8
  have t2 := mul_le_mul_of_nonneg_left b1 (abs_nonneg c)
  have t3 := mul_le_mul_of_nonneg_left (mul_le_mul_of_nonneg_right b2 (abs_nonneg c)) hu0
  have t4 : u * ((G * (1 + u) * Q + G * (N * η)) * |c|) + η + |c| * ((G * (1 + u) - 1) * Q + G * (N * η))
      = |c| * ((G * (1 + u) * (1 + u) - 1) * Q + G * (1 + u) * (N * η)) + η := by ring
  linarith

theorem nanSum_column_fl (n : ℕ) (d : ℕ → XF K) : nanSum (column n d) = ∑ j ∈ Finset.range n, finOrZero (d j) := by
  induction n with
  | zero => simp [column, nanSum]
  | succ n ih =>
    have hstep : column (n + 1) d = column n d ++ [d n] := by simp [column, List.range_succ]
    rw [Finset.sum_range_succ, ← ih, hstep]
    cases hd : d n <;> simp [nanSum, XF.toFin?, finOrZero, List.filterMap_cons]

theorem thickness_notInf (n : ℕ) (lev : ℕ → K) (ps t : K) (j : ℕ) : NotInf (thickness n lev ps t j) := by
  unfold thickness
  split_ifs <;> exact ⟨by simp, by simp⟩

/-- computed and exact thickness of every layer, the missing ones counted as zero -/
theorem layer_close [FloorRing K] {n : ℕ} {lev : ℕ → K} {ps : K} (h : FloatColumn (float64 : Rounding K) n lev ps) (d : ℕ → XF K)
    (hd : deltaPressureFl float64 (column n lev) ps none = .ok (column n d))
    (h2 : ∀ k < n, (d k = .nan ↔ 0 < k ∧ ps ≤ avgFl float64 (lev (k - 1)) (lev k)) ∧ (d k = .nan ∨ ∃ b, d k = .fin b ∧ 0 ≤ b)) :
    (∀ k < n, |finOrZero (d k) - finOrZero (thickness n lev ps (lev 0) k)| ≤ 6 * (2 ^ (-53 : ℤ) * ps) + 3 * 2 ^ (-1075 : ℤ)) ∧
      ∑ j ∈ Finset.range n, |finOrZero (d j)| ≤ 2 * ps + (n + 1) * 2 ^ (-1075 : ℤ) := by
  obtain ⟨d', e1, e2, e3⟩ := C130_accuracy n h.two lev h.inc h.stored ps h.ps_stored none h.top (le_refl _)
    (h.stored 0 (by have := h.two; omega)) h.surface
  rw [hd] at e1
  injection e1 with e1
  have hdd : ∀ k < n, d k = d' k := by
    intro k hk
    have : (column n d)[k]? = (column n d')[k]? := by rw [e1]
    simpa [column_getElem? _ _ _ hk] using this
  have two := h.two
  have h0 := h.top
  have ps0 : 0 < ps := by
    have := avgFl_ge float64 (h.stored 0 (by omega)) (h.inc 0 1 (by omega) (by omega)).le
    have := h.surface
    linarith
  have A := float64_accurate (K := K)
  have hu0 := A.u_nonneg
  have he0 := A.eta_nonneg
  have hub : (2 : K) ^ (-53 : ℤ) ≤ 1 / 16 := by norm_num
  simp only [Option.getD_none] at e2 e3
  constructor
  · intro k hk
    set u : K := 2 ^ (-53 : ℤ)
    set η : K := 2 ^ (-1075 : ℤ)
    have ups : 0 ≤ u * ps := mul_nonneg hu0 ps0.le
    have hlow : lowerIface n lev ps k ≤ ps := by
      unfold lowerIface
      split_ifs
      · exact min_le_left _ _
      · exact le_refl _
    rcases (h2 k hk).2 with e | ⟨b, e, hb⟩
    · rw [e]
      unfold thickness
      split_ifs with ht
      · simp only [finOrZero, XF.toFin?, Option.getD_none, sub_zero, abs_zero]
        linarith
      · obtain ⟨k0, hk1⟩ := (h2 k hk).1.mp e
        have hup : upperIface lev (lev 0) k = (lev (k - 1) + lev k) / 2 := by unfold upperIface; rw [if_neg (by omega)]
        rw [hup] at ht ⊢
        have n1 : 0 ≤ lev (k - 1) := incr_nonneg h.inc h0 (le_refl _) (by omega)
        have n2 : 0 ≤ lev k := incr_nonneg h.inc h0 (le_refl _) (by omega)
        have ea := avgFl_error A hub (h.stored (k - 1) (by omega)) (h.stored k hk) n1 n2
        have ea := (abs_le.mp ea).2
        have hle : (lev (k - 1) + lev k) / 2 ≤ lowerIface n lev ps k := by
          unfold lowerIface
          split_ifs with hk'
          · refine le_min (not_le.mp ht).le ?_
            have := h.inc (k - 1) k (by omega) hk
            have := h.inc k (k + 1) (by omega) hk'
            linarith
          · exact (not_le.mp ht).le
        have hm : u * ((lev (k - 1) + lev k) / 2) ≤ u * ps := mul_le_mul_of_nonneg_left (not_le.mp ht).le hu0
        simp only [finOrZero, XF.toFin?, Option.getD_none, Option.getD_some, zero_sub, abs_neg]
        rw [abs_of_nonneg (by linarith)]
        linarith
    · rw [e]
      have ea := e2 k hk b (by rw [← hdd k hk, e])
      unfold thickness
      split_ifs with ht
      · simp only [finOrZero, XF.toFin?, Option.getD_none, Option.getD_some, sub_zero]
        rw [abs_of_nonneg hb]
        have := (abs_le.mp ea).2
        linarith
      · simpa only [finOrZero, XF.toFin?, Option.getD_some] using ea
  · have e4 : ∑ j ∈ Finset.range n, |finOrZero (d j)| = ∑ j ∈ Finset.range n, finOrZero (d j) := by
      refine Finset.sum_congr rfl (fun j hj => abs_of_nonneg ?_)
      rcases (h2 j (by simpa using hj)).2 with e | ⟨b, e, hb⟩
      · rw [e]; exact le_refl 0
      · rw [e]; exact hb
    rw [e4, ← nanSum_column_fl, e1]
    have e5 := (abs_le.mp e3).2
    have hm : (2 : K) ^ (-53 : ℤ) * ps ≤ 1 / 16 * ps := mul_le_mul_of_nonneg_right hub ps0.le
    generalize (2 : K) ^ (-53 : ℤ) = u at *
    generalize (2 : K) ^ (-1075 : ℤ) = η at *
    linarith

/-- C156. Accuracy in float64: for winds of at most `V` and `n` levels (fewer than 10^15) the computed value differs from the exact
`c · Σ wind · thickness` by at most `10 (n + 1) · 2^-53` of `|c| · V · ps`, up to underflow. -/
theorem C156_accuracy [FloorRing K] {n : ℕ} {lev : ℕ → K} {ps : K} (h : FloatColumn (float64 : Rounding K) n lev ps) (hn : n ≤ 10 ^ 15)
    (hps : (lev 0 + lev 1) / 2 < ps) (c V : K) (hV0 : 0 ≤ V) (v : ℕ → XF K) (hv : ∀ j < n, v j = .nan ∨ ∃ x, v j = .fin x ∧ |x| ≤ V) :
    ∃ f g : ℕ → K, psiColumnFl float64 c (column n lev) (column n v) ps = .ok (column n (fun k => .fin (f k))) ∧
      psiColumn c (column n lev) (column n v) (.fin ps) = .ok (column n (fun k => .fin (g k))) ∧
      (∀ k, g k = c * ∑ j ∈ Finset.range (k + 1), layerFlux (v j) (thickness n lev ps (lev 0) j)) ∧
      ∀ k < n, |f k - g k| ≤ 10 * (n + 1) * 2 ^ (-53 : ℤ) * (|c| * V * ps) + (5 * n * (|c| * (V + 1)) + 1) * 2 ^ (-1075 : ℤ) := by
  have hvn : ∀ j < n, NotInf (v j) := by
    intro j hj
    rcases hv j hj with e | ⟨x, e, -⟩ <;> rw [e] <;> exact ⟨by simp, by simp⟩
  obtain ⟨d, hd, h2, h3⟩ := psiFl_column h c
  obtain ⟨hl, hs⟩ := layer_close h d hd h2
  have hdn : ∀ j < n, NotInf (d j) := by
    intro j hj
    rcases (h2 j hj).2 with e | ⟨b, e, -⟩ <;> rw [e] <;> exact ⟨by simp, by simp⟩
  refine ⟨_, _, h3 v hvn, C57_integral_layers c n h.two lev h.inc h.top v hvn ps hps, fun _ => rfl, fun k hk => ?_⟩
  have two := h.two
  have A := float64_accurate (K := K)
  have hu0 := A.u_nonneg
  have he0 := A.eta_nonneg
  have hub : 2 * ((n + 1 : ℕ) : K) * 2 ^ (-53 : ℤ) ≤ 1 := by
    have h1 : ((n + 1 : ℕ) : K) ≤ 10 ^ 15 + 1 := by exact_mod_cast Nat.succ_le_succ hn
    have h2 : (0 : K) < 2 ^ (-53 : ℤ) := two_zpow_pos _
    calc 2 * ((n + 1 : ℕ) : K) * 2 ^ (-53 : ℤ) ≤ 2 * (10 ^ 15 + 1) * 2 ^ (-53 : ℤ) := by
          apply mul_le_mul_of_nonneg_right _ h2.le
          linarith
      _ ≤ 1 := by norm_num
  have ps0 : 0 < ps := by
    have := avgFl_ge float64 (h.stored 0 (by omega)) (h.inc 0 1 (by omega) (by omega)).le
    have := h.surface
    have := h.top
    linarith
  have hV : ∀ j < n, |finOrZero (v j)| ≤ V := by
    intro j hj
    rcases hv j hj with e | ⟨x, e, hx⟩
    · rw [e]; simpa [finOrZero, XF.toFin?] using hV0
    · rw [e]; exact hx
  have e1 := scaled_run_error A (fun j => finOrZero (v j) * finOrZero (d j)) c k
  have hrun : runFl (float64 : Rounding K) 0 (fun j => fluxFl float64 (v j) (d j)) k
      = runFl float64 0 (fun j => float64.fl (finOrZero (v j) * finOrZero (d j))) k :=
    runFl_congr _ 0 _ _ k (fun j hj => fluxFl_eq _ _ _ (hvn j (by omega)) (hdn j (by omega)))
  simp only [hrun]
  have hflux : ∑ j ∈ Finset.range (k + 1), layerFlux (v j) (thickness n lev ps (lev 0) j)
      = ∑ j ∈ Finset.range (k + 1), finOrZero (v j) * finOrZero (thickness n lev ps (lev 0) j) :=
    Finset.sum_congr rfl (fun j hj => layerFlux_eq _ _ (hvn j (by simp at hj; omega)) (thickness_notInf _ _ _ _ _))
  rw [hflux]
  have hsub : Finset.range (k + 1) ⊆ Finset.range n := Finset.range_subset_range.mpr (by omega)
  -- the products
  have hQ : ∑ j ∈ Finset.range (k + 1), |finOrZero (v j) * finOrZero (d j)| ≤ V * (2 * ps + (n + 1) * 2 ^ (-1075 : ℤ)) := by
    calc ∑ j ∈ Finset.range (k + 1), |finOrZero (v j) * finOrZero (d j)| ≤ ∑ j ∈ Finset.range (k + 1), V * |finOrZero (d j)| := by
          refine Finset.sum_le_sum (fun j hj => ?_)
          rw [abs_mul]
          exact mul_le_mul_of_nonneg_right (hV j (by simp at hj; omega)) (abs_nonneg _)
      _ ≤ ∑ j ∈ Finset.range n, V * |finOrZero (d j)| :=
          Finset.sum_le_sum_of_subset_of_nonneg hsub (fun j _ _ => mul_nonneg hV0 (abs_nonneg _))
      _ = V * ∑ j ∈ Finset.range n, |finOrZero (d j)| := by rw [Finset.mul_sum]
      _ ≤ _ := mul_le_mul_of_nonneg_left hs hV0
  have hQ0 : 0 ≤ ∑ j ∈ Finset.range (k + 1), |finOrZero (v j) * finOrZero (d j)| := Finset.sum_nonneg (fun _ _ => abs_nonneg _)
  -- the thicknesses
  have hT : |∑ j ∈ Finset.range (k + 1), finOrZero (v j) * finOrZero (d j)
      - ∑ j ∈ Finset.range (k + 1), finOrZero (v j) * finOrZero (thickness n lev ps (lev 0) j)|
      ≤ n * (V * (6 * (2 ^ (-53 : ℤ) * ps) + 3 * 2 ^ (-1075 : ℤ))) := by
    rw [← Finset.sum_sub_distrib]
    refine (Finset.abs_sum_le_sum_abs _ _).trans ?_
    have hB : 0 ≤ V * (6 * (2 ^ (-53 : ℤ) * ps) + 3 * 2 ^ (-1075 : ℤ)) := by positivity
    calc ∑ j ∈ Finset.range (k + 1), |finOrZero (v j) * finOrZero (d j) - finOrZero (v j) * finOrZero (thickness n lev ps (lev 0) j)|
        ≤ ∑ j ∈ Finset.range (k + 1), V * (6 * (2 ^ (-53 : ℤ) * ps) + 3 * 2 ^ (-1075 : ℤ)) := by
          refine Finset.sum_le_sum (fun j hj => ?_)
          have hj : j < n := by simp at hj; omega
          rw [← mul_sub, abs_mul]
          exact mul_le_mul (hV j hj) (hl j hj) (abs_nonneg _) hV0
      _ = (k + 1) * (V * (6 * (2 ^ (-53 : ℤ) * ps) + 3 * 2 ^ (-1075 : ℤ))) := by
          rw [Finset.sum_const, Finset.card_range, nsmul_eq_mul]; push_cast; rfl
      _ ≤ _ := by
          apply mul_le_mul_of_nonneg_right _ hB
          exact_mod_cast hk
  have hc0 := abs_nonneg c
  have hpw := pow_le_linear hu0 (n + 1) hub
  have one : (1 : K) ≤ 1 + 2 ^ (-53 : ℤ) := by linarith
  have p2 : (1 + 2 ^ (-53 : ℤ) : K) ^ (k + 2) ≤ (1 + 2 ^ (-53 : ℤ)) ^ (n + 1) := pow_le_pow_right₀ one (by omega)
  have p1 : (1 + 2 ^ (-53 : ℤ) : K) ^ (k + 1) ≤ (1 + 2 ^ (-53 : ℤ)) ^ (n + 1) := pow_le_pow_right₀ one (by omega)
  have hkn : (k : K) + 1 ≤ n := by exact_mod_cast hk
  have hn2 : (2 : K) ≤ n := by exact_mod_cast two
  push_cast at hub hpw
  generalize (2 : K) ^ (-53 : ℤ) = u at *
  generalize (2 : K) ^ (-1075 : ℤ) = η at *
  generalize ∑ j ∈ Finset.range (k + 1), |finOrZero (v j) * finOrZero (d j)| = Q at *
  generalize ∑ j ∈ Finset.range (k + 1), finOrZero (v j) * finOrZero (d j) = S at *
  generalize ∑ j ∈ Finset.range (k + 1), finOrZero (v j) * finOrZero (thickness n lev ps (lev 0) j) = T at *
  generalize (float64 : Rounding K).fl (runFl float64 0 (fun j => float64.fl (finOrZero (v j) * finOrZero (d j))) k * c) = f at *
  have t0 : |f - c * T| ≤ |f - c * S| + |c| * |S - T| := by
    have : f - c * T = (f - c * S) + c * (S - T) := by ring
    rw [this, ← abs_mul]
    exact abs_add_le _ _
  have t1 := mul_le_mul_of_nonneg_left hT hc0
  -- the rounding of the sum
  have r1 : ((1 + u) ^ (k + 2) - 1) * Q ≤ 2 * ((n : K) + 1) * u * (V * (2 * ps + (n + 1) * η)) :=
    mul_le_mul (by linarith) hQ hQ0 (by positivity)
  have r2 : (1 + u) ^ (k + 1) * ((k + 1) * η) ≤ 2 * (n * η) :=
    mul_le_mul (by linarith) (mul_le_mul_of_nonneg_right hkn he0) (by positivity) (by norm_num)
  have r3 : 2 * ((n : K) + 1) * u * ((n + 1) * (V * η)) ≤ (n + 1) * (V * η) := by
    have : 0 ≤ ((n : K) + 1) * (V * η) := by positivity
    nlinarith
  have r4 := mul_le_mul_of_nonneg_left (add_le_add r1 r2) hc0
  have r5 := mul_le_mul_of_nonneg_left r3 hc0
  have q1 : 0 ≤ |c| * (V * η) := by positivity
  have q2 : 0 ≤ |c| * η := by positivity
  have q3 : 0 ≤ |c| * (V * (u * ps)) := by positivity
  have q4 := mul_le_mul_of_nonneg_right hn2 q1
  have q5 := mul_le_mul_of_nonneg_right hn2 q2
  ring_nf at *
  linarith

/-- levels 100, 500, 900 above a surface at 650 meet the hypotheses -/
theorem floatColumn_example : FloatColumn (float64 : Rounding ℚ) 3 (fun k => 100 + 400 * (k : ℚ)) 650 where
  two := by norm_num
  inc := fun i j hij _ => by
    have : (i : ℚ) < j := by exact_mod_cast hij
    simp only
    linarith
  stored := fun i hi => ⟨100 + 400 * i, 0, by norm_num, by
    have : (100 : ℤ) + 400 * i ≤ 2 ^ 53 := by
      have : (i : ℤ) < 3 := by exact_mod_cast hi
      norm_num
      omega
    rw [abs_of_nonneg (by positivity)]
    exact this, by push_cast; simp⟩
  top := by norm_num
  ps_stored := ⟨650, 0, by norm_num, by norm_num, by norm_num⟩
  surface := by decide +kernel

/-- the winds 0.1, 0.2 and missing: the streamfunction as computed -/
example : psiColumnFl (float64 : Rounding ℚ) 3 [100, 500, 900] [.fin (float64.fl (1 / 10)), .fin (float64.fl (2 / 10)), .nan] 650
    = .ok [.fin 60, .fin 270, .fin 270] := by decide +kernel

/-- factors and winds that are not rounded alike: some last bits differ from the exact value, the last value is repeated exactly -/
example : psiColumnFl (float64 : Rounding ℚ) (float64.fl (1 / 3)) [100, 500, 900] [.fin (float64.fl (1 / 10)), .fin (float64.fl (7 / 10)), .nan] 650
    ≠ psiColumn (float64.fl (1 / 3)) [100, 500, 900] [.fin (float64.fl (1 / 10)), .fin (float64.fl (7 / 10)), .nan] (.fin 650) := by decide +kernel

example : ∃ f : ℕ → ℚ, psiColumnFl (float64 : Rounding ℚ) 3 (column 3 (fun k => 100 + 400 * (k : ℚ)))
    (column 3 (fun k => if k = 2 then .nan else .fin 7)) 650 = .ok (column 3 (fun k => .fin (f k))) ∧ 0 ≤ f 0 ∧ f 0 ≤ f 2 := by
  obtain ⟨f, h1, h2, h3⟩ := C156_northward floatColumn_example 3 (by norm_num) (fun k => if k = 2 then .nan else .fin 7)
    (fun j _ => by split_ifs; exacts [Or.inl rfl, Or.inr ⟨7, rfl, by norm_num⟩])
  exact ⟨f, h1, h2, h3 0 2 (by omega) (by omega)⟩

end Verif.Props
