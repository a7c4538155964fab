import Verif.Lemmas.FloatGradient

namespace Verif.Props
open Verif Model Model.Gradient Spec.Gradient Lemmas Lemmas.Gradient

/-! ### without rounding -/

theorem leftSum_exact (l : List ℝ) : leftSum Rounding.exact l = l.sum := by
  cases l with
  | nil => rfl
  | cons x xs =>
    have : ∀ (l : List ℝ) (a : ℝ), l.foldl (fun a y => (Rounding.exact : Rounding ℝ).fl (a + y)) a = a + l.sum := by
      intro l
      induction l with
      | nil => simp
      | cons y l ih => intro a; rw [List.foldl_cons, ih, List.sum_cons, ← add_assoc]; rfl
    exact this xs x

theorem polyFl_exact (terms : List (Bool × ℝ × ℕ)) (x : ℝ) : polyFl Rounding.exact (fun x k => x ^ k) terms x = (terms.map (termVal x)).sum := by
  rw [polyFl, leftSum_exact]
  congr 1
  apply List.map_congr_left
  rintro ⟨s, c, k⟩ -
  simp only [termVal, Rounding.exact, id]
  rcases k with _ | _ | k <;> simp

theorem roundX_id : roundX id = id := by
  funext x
  cases x <;> rfl

theorem diffBy_id {α : Type} [Sub α] (half : α → α) : diffBy id half = diffAt half := by
  funext n f i
  simp only [diffBy, diffAt, id]

theorem axisBy_id {α : Type} [Sub α] (half : α → α) (k : ℕ) (a : Tensor α) : npGradientAxisBy id half k a = npGradientAxis half k a := by
  unfold npGradientAxisBy npGradientAxis
  rw [diffBy_id]
  rfl

theorem firstTwoBy_id (data : Tensor (XF ℝ)) : npGradientFirstTwoBy id data = npGradientFirstTwo data := by
  unfold npGradientFirstTwoBy npGradientFirstTwo
  rw [roundX_id, diffBy_id]
  simp only [axisBy_id]
  rfl

/-- If nothing is rounded and power and cosine are exact, the result is that of C75. -/
theorem C162_exact (data : Data) (lon lat : Option (Tensor ℝ)) :
    gradientBy (floatGrad Rounding.exact (fun x k => x ^ k) Real.cos) data lon lat = gradient data lon lat := by
  have e : floatGrad Rounding.exact (fun x k => x ^ k) Real.cos = exactGrad := by
    simp only [floatGrad, exactGrad, GradArith.mk.injEq]
    refine ⟨?_, ?_, rfl⟩
    · funext x; rw [polyFl_exact, arc_terms]
    · funext lo la
      unfold arcLonFl arcLon
      rw [polyFl_exact, rad_terms]
      rfl
  rw [e]
  unfold gradientBy gradient
  simp only [exactGrad, roundX_id, axisBy_id, firstTwoBy_id, id]

/-! ### accuracy -/

theorem fine_float64 : FineRounding (float64 : Rounding ℝ) (2 ^ (-53 : ℤ)) (2 ^ (-1075 : ℤ)) where
  acc := float64_accurate
  u_le := by norm_num [zpow_neg]
  eta_le := by
    have : (2 : ℝ) ^ (-1075 : ℤ) = 2 ^ (-53 : ℤ) * 2 ^ (-1022 : ℤ) := by rw [← zpow_add₀ two_ne_zero]; norm_num
    rw [this]
    apply mul_le_mul_of_nonneg_left _ (two_zpow_pos _).le
    have h : (10 : ℝ) ^ 200 ≤ 2 ^ 1022 :=
      calc (10 : ℝ) ^ 200 = (10 ^ 20) ^ 10 := by rw [← pow_mul]
        _ ≤ (2 ^ 100) ^ 10 := pow_le_pow_left₀ (by positivity) (by norm_num) _
        _ = 2 ^ 1000 := by rw [← pow_mul]
        _ ≤ 2 ^ 1022 := pow_le_pow_right₀ (by norm_num) (by norm_num)
    have e : (1e-200 : ℝ) = (10 ^ 200)⁻¹ := by norm_num
    rw [zpow_neg, e]
    exact inv_anti₀ (by positivity) (by exact_mod_cast h)

/-- double precision with a library that rounds power and cosine to the nearest number -/
theorem nearest_library : LibraryAccurate (2 ^ (-53 : ℤ)) (2 ^ (-1075 : ℤ)) (fun x k => (float64 : Rounding ℝ).fl (x ^ k)) (fun x => (float64 : Rounding ℝ).fl (Real.cos x)) where
  pow x k := by
    refine (float64_accurate.err (x ^ k)).trans ?_
    have : 0 ≤ (2 : ℝ) ^ (-53 : ℤ) * |x ^ k| := mul_nonneg (two_zpow_pos _).le (abs_nonneg _)
    linarith
  cos x := by
    refine (float64_accurate.err (Real.cos x)).trans ?_
    have h1 : (2 : ℝ) ^ (-53 : ℤ) * |Real.cos x| ≤ 2 ^ (-53 : ℤ) * 1 := mul_le_mul_of_nonneg_left (Real.abs_cos_le_one x) (two_zpow_pos _).le
    have h2 := fine_float64.eta_le
    have h3 : (0 : ℝ) < 2 ^ (-53 : ℤ) := two_zpow_pos _
    generalize (2 : ℝ) ^ (-53 : ℤ) = u at *
    generalize (2 : ℝ) ^ (-1075 : ℤ) = η at *
    norm_num at h2
    linarith

/-- The arc length from the equator is computed to within 7e-8 m, the one from the Greenwich meridian to within 4e-7 m. -/
theorem C162_arc_lengths {pow : ℝ → ℕ → ℝ} {cos : ℝ → ℝ} (L : LibraryAccurate (2 ^ (-53 : ℤ)) (2 ^ (-1075 : ℤ)) pow cos) {lon lat : ℝ} (hlat : |lat| ≤ 90)
    (hlon : |lon| ≤ 360) :
    |(floatGrad float64 pow cos).arcLat lat - arcLat lat| ≤ 7e-8 ∧ |(floatGrad float64 pow cos).arcLon lon lat - arcLon lon lat| ≤ 4e-7 :=
  ⟨arcLatFl_close fine_float64 L hlat, arcLonFl_close fine_float64 L hlat hlon⟩

/-- the quotient of rounded differences along one axis -/
theorem axis_close {R : Rounding ℝ} {u η : ℝ} (F : FineRounding R u η) {n : ℕ} (hn : 2 ≤ n) (f x x' : ℕ → ℝ) {E : ℝ} (hE : E ≤ 1e-3) (hx : ∀ v < n, |x' v - x v| ≤ E)
    {i : ℕ} (hi : i < n) (hD : 1 ≤ |x (upper n i) - x (lower i)|) :
    ∃ q, roundX R.fl (diffBy (roundX R.fl) halfX n (fun v => XF.fin (f v)) i / .fin (diffBy R.fl halfR n x' i)) = .fin q ∧
      |q - quotient n f x i| ≤ (3 * E / |x (upper n i) - x (lower i)| + 8 * u) * |quotient n f x i| + 6 * η ∧
      (f (upper n i) = f (lower i) → q = 0) := by
  have hE0 : 0 ≤ E := (abs_nonneg _).trans (hx 0 (by omega))
  have hu1 : u ≤ 1 := F.u_le.trans (by norm_num)
  have e1 := diffBy_error F.acc hu1 hn (x := f) (x' := f) (E := 0) hi (by simp) (by simp)
  have e2 := diffBy_error F.acc hu1 hn (x := x) (x' := x') hi (hx _ (lower_lt hi)) (hx _ (upper_lt hi))
  obtain ⟨h1, h2⟩ := rounded_quotient F (factor_pos n i) rfl rfl hE0 hE hD (by simpa using e1) e2
  refine ⟨_, ?_, h2, ?_⟩
  · rw [diffBy_fin, XF.fin_div _ _ h1]
    rfl
  · intro hf
    have : diffBy R.fl halfR n f i = 0 := by
      have z : R.fl 0 = 0 := R.fl_of_rep _ R.rep_zero
      unfold diffBy
      by_cases c0 : i = 0
      · subst c0
        have e : upper n 0 = 1 := by simp [upper]; omega
        have e' : lower 0 = 0 := rfl
        rw [e, e'] at hf
        simp [hf, z]
      · rw [if_neg c0]
        by_cases cl : i = n - 1
        · have e : upper n i = n - 1 := by simp [upper]; omega
          have e' : lower i = n - 2 := by simp [lower]; omega
          rw [e, e'] at hf
          rw [if_pos cl, hf, sub_self, z]
        · have e : upper n i = i + 1 := by simp [upper]; omega
          have e' : lower i = i - 1 := rfl
          rw [e, e'] at hf
          rw [if_neg cl, hf, sub_self, z, halfR, zero_div, z]
    rw [this, zero_div]
    exact R.fl_of_rep _ R.rep_zero

/-- neighbours are at least `m` metres apart, along every column and every row -/
def SpacedBy (m : ℝ) (r c : ℕ) (lon lat : ℕ → ℕ → ℝ) : Prop :=
  ∀ i j, i < r → j < c → m ≤ |arcLat (lat (upper r i) j) - arcLat (lat (lower i) j)| ∧
    m ≤ |arcLon (lon i (upper c j)) (lat i (upper c j)) - arcLon (lon i (lower j)) (lat i (lower j))|

theorem float_gradient (k : DataKind) (hk : k ≠ .dataset) {r c : ℕ} (hr : 2 ≤ r) (hc : 2 ≤ c) (f lon lat : ℕ → ℕ → ℝ)
    (hlat : ∀ i j, i < r → j < c → |lat i j| ≤ 90) (hlon : ∀ i j, i < r → j < c → |lon i j| ≤ 360) (hs : SpacedBy 1 r c lon lat)
    {pow : ℝ → ℕ → ℝ} {cos : ℝ → ℝ} (L : LibraryAccurate (2 ^ (-53 : ℤ)) (2 ^ (-1075 : ℤ)) pow cos) :
    ∃ x y, Gives (gradientBy (floatGrad float64 pow cos) (field k r c f) (some (grid r c lon)) (some (grid r c lat))) r c x y ∧
      ∀ i j, i < r → j < c →
        |x i j - quotient r (fun v => f v j) (fun v => arcLat (lat v j)) i| ≤
          (3 * 7e-8 / |arcLat (lat (upper r i) j) - arcLat (lat (lower i) j)| + 8 * 2 ^ (-53 : ℤ)) * |quotient r (fun v => f v j) (fun v => arcLat (lat v j)) i|
            + 6 * 2 ^ (-1075 : ℤ) ∧
        |y i j - quotient c (fun v => f i v) (fun v => arcLon (lon i v) (lat i v)) j| ≤
          (3 * 4e-7 / |arcLon (lon i (upper c j)) (lat i (upper c j)) - arcLon (lon i (lower j)) (lat i (lower j))| + 8 * 2 ^ (-53 : ℤ))
            * |quotient c (fun v => f i v) (fun v => arcLon (lon i v) (lat i v)) j| + 6 * 2 ^ (-1075 : ℤ) ∧
        (f (upper r i) j = f (lower i) j → x i j = 0) ∧ (f i (upper c j) = f i (lower j) → y i j = 0) := by
  obtain ⟨a, b, h, ha, hb, _, _, hv⟩ := gradientBy_2d (floatGrad float64 pow cos) (field k r c f) hk hr hc rfl (grid r c lon) (grid r c lat) rfl rfl
  have kx : ∀ i j, i < r → j < c → ∃ q, a.val.get [i, j] = .fin q ∧
      |q - quotient r (fun v => f v j) (fun v => arcLat (lat v j)) i| ≤
        (3 * 7e-8 / |arcLat (lat (upper r i) j) - arcLat (lat (lower i) j)| + 8 * 2 ^ (-53 : ℤ)) * |quotient r (fun v => f v j) (fun v => arcLat (lat v j)) i|
          + 6 * 2 ^ (-1075 : ℤ) ∧ (f (upper r i) j = f (lower i) j → q = 0) := by
    intro i j hi hj
    rw [(hv i j hi hj).1]
    exact axis_close fine_float64 hr (fun v => f v j) (fun v => arcLat (lat v j)) (fun v => polyFl float64 pow arcTerms (lat v j)) (by norm_num)
      (fun v hv => arcLatFl_close fine_float64 L (hlat v j hv hj)) hi (hs i j hi hj).1
  have ky : ∀ i j, i < r → j < c → ∃ q, b.val.get [i, j] = .fin q ∧
      |q - quotient c (fun v => f i v) (fun v => arcLon (lon i v) (lat i v)) j| ≤
        (3 * 4e-7 / |arcLon (lon i (upper c j)) (lat i (upper c j)) - arcLon (lon i (lower j)) (lat i (lower j))| + 8 * 2 ^ (-53 : ℤ))
          * |quotient c (fun v => f i v) (fun v => arcLon (lon i v) (lat i v)) j| + 6 * 2 ^ (-1075 : ℤ) ∧
      (f i (upper c j) = f i (lower j) → q = 0) := by
    intro i j hi hj
    rw [(hv i j hi hj).2]
    exact axis_close fine_float64 hc (fun v => f i v) (fun v => arcLon (lon i v) (lat i v)) (fun v => arcLonFl float64 pow cos (lon i v) (lat i v)) (by norm_num)
      (fun v hv => arcLonFl_close fine_float64 L (hlat i v hi hv) (hlon i v hi hv)) hj (hs i j hi hj).2
  classical
  choose x hx using kx
  choose y hy using ky
  refine ⟨fun i j => if h : i < r ∧ j < c then x i j h.1 h.2 else 0, fun i j => if h : i < r ∧ j < c then y i j h.1 h.2 else 0, ⟨a, b, h, ha, hb, ?_⟩, ?_⟩
  · intro i j hi hj
    simp only [hi, hj, and_self, dif_pos]
    exact ⟨(hx i j hi hj).1, (hy i j hi hj).1⟩
  · intro i j hi hj
    simp only [hi, hj, and_self, dif_pos]
    exact ⟨(hx i j hi hj).2.1, (hy i j hi hj).2.1, (hx i j hi hj).2.2, (hy i j hi hj).2.2⟩

/-- In double precision, where neighbours are at least a metre apart: the relative error of the results is a few units of rounding plus 2.1e-7 m (northward) or
1.2e-6 m (eastward) divided by the distance between the neighbours. -/
theorem C162_accuracy (k : DataKind) (hk : k ≠ .dataset) {r c : ℕ} (hr : 2 ≤ r) (hc : 2 ≤ c) (f lon lat : ℕ → ℕ → ℝ)
    (hlat : ∀ i j, i < r → j < c → |lat i j| ≤ 90) (hlon : ∀ i j, i < r → j < c → |lon i j| ≤ 360) (hs : SpacedBy 1 r c lon lat)
    {pow : ℝ → ℕ → ℝ} {cos : ℝ → ℝ} (L : LibraryAccurate (2 ^ (-53 : ℤ)) (2 ^ (-1075 : ℤ)) pow cos) :
    ∃ x y x' y', Gives (gradient (field k r c f) (some (grid r c lon)) (some (grid r c lat))) r c x y ∧
      Gives (gradientBy (floatGrad float64 pow cos) (field k r c f) (some (grid r c lon)) (some (grid r c lat))) r c x' y' ∧
      ∀ i j, i < r → j < c →
        |x' i j - x i j| ≤ (2.1e-7 / |arcLat (lat (upper r i) j) - arcLat (lat (lower i) j)| + 8 * 2 ^ (-53 : ℤ)) * |x i j| + 6 * 2 ^ (-1075 : ℤ) ∧
        |y' i j - y i j| ≤
          (1.2e-6 / |arcLon (lon i (upper c j)) (lat i (upper c j)) - arcLon (lon i (lower j)) (lat i (lower j))| + 8 * 2 ^ (-53 : ℤ)) * |y i j|
            + 6 * 2 ^ (-1075 : ℤ) := by
  obtain ⟨x', y', g', h⟩ := float_gradient k hk hr hc f lon lat hlat hlon hs L
  have g := C75_difference_quotients k hk hr hc f lon lat (fun i j hi hj => by
    obtain ⟨s1, s2⟩ := hs i j hi hj
    exact ⟨fun e => by rw [e, sub_self, abs_zero] at s1; linarith, fun e => by rw [e, sub_self, abs_zero] at s2; linarith⟩)
  refine ⟨_, _, x', y', g, g', fun i j hi hj => ?_⟩
  obtain ⟨h1, h2, -, -⟩ := h i j hi hj
  rw [show (3 * 7e-8 : ℝ) = 2.1e-7 by norm_num] at h1
  rw [show (3 * 4e-7 : ℝ) = 1.2e-6 by norm_num] at h2
  exact ⟨h1, h2⟩

/-- Where neighbours are at least two kilometres apart, nine digits are right. -/
theorem C162_nine_digits (k : DataKind) (hk : k ≠ .dataset) {r c : ℕ} (hr : 2 ≤ r) (hc : 2 ≤ c) (f lon lat : ℕ → ℕ → ℝ)
    (hlat : ∀ i j, i < r → j < c → |lat i j| ≤ 90) (hlon : ∀ i j, i < r → j < c → |lon i j| ≤ 360) (hs : SpacedBy 2000 r c lon lat)
    {pow : ℝ → ℕ → ℝ} {cos : ℝ → ℝ} (L : LibraryAccurate (2 ^ (-53 : ℤ)) (2 ^ (-1075 : ℤ)) pow cos) :
    ∃ x y x' y', Gives (gradient (field k r c f) (some (grid r c lon)) (some (grid r c lat))) r c x y ∧
      Gives (gradientBy (floatGrad float64 pow cos) (field k r c f) (some (grid r c lon)) (some (grid r c lat))) r c x' y' ∧
      ∀ i j, i < r → j < c → |x' i j - x i j| ≤ 1e-9 * |x i j| + 6 * 2 ^ (-1075 : ℤ) ∧ |y' i j - y i j| ≤ 1e-9 * |y i j| + 6 * 2 ^ (-1075 : ℤ) := by
  obtain ⟨x, y, x', y', g, g', h⟩ := C162_accuracy k hk hr hc f lon lat hlat hlon
    (fun i j hi hj => ⟨le_trans (by norm_num) (hs i j hi hj).1, le_trans (by norm_num) (hs i j hi hj).2⟩) L
  refine ⟨x, y, x', y', g, g', fun i j hi hj => ?_⟩
  obtain ⟨h1, h2⟩ := h i j hi hj
  obtain ⟨s1, s2⟩ := hs i j hi hj
  have hu : (2 : ℝ) ^ (-53 : ℤ) ≤ 1.2e-16 := fine_float64.u_le
  have key : ∀ (e D : ℝ), 0 ≤ e → e ≤ 1.2e-6 → 2000 ≤ D → e / D + 8 * 2 ^ (-53 : ℤ) ≤ 1e-9 := by
    intro e D h0 h1 h2
    have : e / D ≤ 1.2e-6 / 2000 := div_le_div₀ (by norm_num) h1 (by norm_num) h2
    generalize (2 : ℝ) ^ (-53 : ℤ) = u at *
    norm_num at *
    linarith
  refine ⟨h1.trans ?_, h2.trans ?_⟩
  · exact add_le_add (mul_le_mul_of_nonneg_right (key _ _ (by norm_num) (by norm_num) s1) (abs_nonneg _)) le_rfl
  · exact add_le_add (mul_le_mul_of_nonneg_right (key _ _ (by norm_num) (by norm_num) s2) (abs_nonneg _)) le_rfl

/-- The gradient of a constant is exactly zero, also in double precision. -/
theorem C162_constant (k : DataKind) (hk : k ≠ .dataset) {r c : ℕ} (hr : 2 ≤ r) (hc : 2 ≤ c) (s : ℝ) (lon lat : ℕ → ℕ → ℝ)
    (hlat : ∀ i j, i < r → j < c → |lat i j| ≤ 90) (hlon : ∀ i j, i < r → j < c → |lon i j| ≤ 360) (hs : SpacedBy 1 r c lon lat)
    {pow : ℝ → ℕ → ℝ} {cos : ℝ → ℝ} (L : LibraryAccurate (2 ^ (-53 : ℤ)) (2 ^ (-1075 : ℤ)) pow cos) :
    Gives (gradientBy (floatGrad float64 pow cos) (field k r c (fun _ _ => s)) (some (grid r c lon)) (some (grid r c lat))) r c (fun _ _ => 0) (fun _ _ => 0) := by
  obtain ⟨x, y, ⟨a, b, h, ha, hb, hv⟩, h'⟩ := float_gradient k hk hr hc (fun _ _ => s) lon lat hlat hlon hs L
  refine ⟨a, b, h, ha, hb, fun i j hi hj => ?_⟩
  obtain ⟨-, -, h1, h2⟩ := h' i j hi hj
  rw [(hv i j hi hj).1, (hv i j hi hj).2, h1 rfl, h2 rfl]
  exact ⟨rfl, rfl⟩

/-! ### the hypotheses can be met -/

/-- a grid with a spacing of one degree -/
theorem degree_grid : SpacedBy 2000 2 2 (fun _ j => (j : ℝ)) (fun i _ => (i : ℝ)) := by
  intro i j hi hj
  have e1 : upper 2 i = 1 := by simp only [upper]; omega
  have e2 : lower i = 0 := by simp only [lower]; omega
  have e3 : upper 2 j = 1 := by simp only [upper]; omega
  have e4 : lower j = 0 := by simp only [lower]; omega
  simp only [e1, e2, e3, e4]
  constructor
  · have h : arcLat ((1 : ℕ) : ℝ) - arcLat ((0 : ℕ) : ℝ) ≥ 2000 := by
      unfold arcLat; norm_num
    exact h.trans (le_abs_self _)
  · have hi' : |(i : ℝ)| ≤ 1 := by
      rw [abs_of_nonneg (by positivity)]; exact_mod_cast (by omega : i ≤ 1)
    have h1 := Wgs84.rad_pos (x := (i : ℝ)) (hi'.trans (by norm_num))
    have h2 := Real.one_sub_sq_div_two_le_cos (x := (i : ℝ) * d2r)
    have h3 : ((i : ℝ) * d2r) ^ 2 ≤ 0.001 := by
      rw [mul_pow]
      have a1 : (i : ℝ) ^ 2 ≤ 1 := by rw [← sq_abs]; exact pow_le_one₀ (abs_nonneg _) hi'
      have a2 : d2r ^ 2 ≤ 0.001 := by unfold d2r; norm_num
      calc (i : ℝ) ^ 2 * d2r ^ 2 ≤ 1 * 0.001 := mul_le_mul a1 a2 (by positivity) (by norm_num)
        _ = _ := by norm_num
    have h4 : (0.99 : ℝ) ≤ Real.cos (i * d2r) := by norm_num at h3 ⊢; linarith
    have h5 : (0.017 : ℝ) ≤ d2r := by unfold d2r; norm_num
    have h6 : (6264000 * 0.99 : ℝ) ≤ radLat i * Real.cos (i * d2r) := mul_le_mul h1 h4 (by norm_num) (by linarith)
    have h7 : (6264000 * 0.99 * 0.017 : ℝ) ≤ radLat i * Real.cos (i * d2r) * d2r := mul_le_mul h6 h5 (by norm_num) (le_trans (by norm_num) h6)
    have e : arcLon ((1 : ℕ) : ℝ) i - arcLon ((0 : ℕ) : ℝ) i = radLat i * Real.cos (i * d2r) * d2r := by
      unfold arcLon; push_cast; ring
    rw [e]
    refine le_trans ?_ (le_abs_self _)
    norm_num at h7
    linarith

example (f : ℕ → ℕ → ℝ) :
    ∃ x y x' y', Gives (gradient (field .numpy 2 2 f) (some (grid 2 2 (fun _ j => (j : ℝ)))) (some (grid 2 2 (fun i _ => (i : ℝ))))) 2 2 x y ∧
      Gives (gradientBy (floatGrad float64 (fun x k => (float64 : Rounding ℝ).fl (x ^ k)) (fun x => (float64 : Rounding ℝ).fl (Real.cos x))) (field .numpy 2 2 f)
        (some (grid 2 2 (fun _ j => (j : ℝ)))) (some (grid 2 2 (fun i _ => (i : ℝ))))) 2 2 x' y' ∧
      ∀ i j, i < 2 → j < 2 → |x' i j - x i j| ≤ 1e-9 * |x i j| + 6 * 2 ^ (-1075 : ℤ) ∧ |y' i j - y i j| ≤ 1e-9 * |y i j| + 6 * 2 ^ (-1075 : ℤ) := by
  have b : ∀ n : ℕ, n < 2 → |(n : ℝ)| ≤ 1 := fun n hn => by
    rw [abs_of_nonneg (by positivity)]; exact_mod_cast (by omega : n ≤ 1)
  exact C162_nine_digits .numpy (by decide) le_rfl le_rfl f _ _ (fun i j hi hj => (b i hi).trans (by norm_num)) (fun i j hi hj => (b j hj).trans (by norm_num))
    degree_grid nearest_library

end Verif.Props
