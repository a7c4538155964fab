import Verif.Lemmas.FloatPearson
import Verif.Lemmas.FloatSum
import Verif.Lemmas.FloatRel

/-
Accuracy of the correlation coefficient in floating-point arithmetic.
-/

set_option linter.unusedSectionVars false
namespace Verif
namespace Lemmas
open Model Spec

/-- the function adds up `N` stored numbers with an error of at most `γ` times the sum of their sizes -/
def SumsWithin (R : Rounding ℝ) (sum : List ℝ → ℝ) (N : ℕ) (γ : ℝ) : Prop :=
  ∀ l : List ℝ, l.length = N → (∀ a ∈ l, R.rep a) → |sum l - l.sum| ≤ γ * (l.map (|·|)).sum

section
variable {α β : Type}

theorem orZero_sum (v : α → Option β) (T : List α) (F : β → ℝ) : (T.map (orZero v F)).sum = ((T.filterMap v).map F).sum := by
  induction T with
  | nil => rfl
  | cons x T ih =>
    cases h : v x with
    | none => simp [List.filterMap_cons, h, orZero, ih]
    | some y => simp [List.filterMap_cons, h, orZero, ih]

theorem orZero_abs (v : α → Option β) (T : List α) (F : β → ℝ) : (T.map (orZero v F)).map (|·|) = T.map (orZero v (fun y => |F y|)) := by
  rw [List.map_map]
  refine List.map_congr_left fun x _ => ?_
  simp only [Function.comp, orZero]
  cases v x <;> simp

/-- the computed sum over the cells that have a value -/
theorem SumsWithin.cells {R : Rounding ℝ} {sum : List ℝ → ℝ} {γ : ℝ} (v : α → Option β) (T : List α) (h : SumsWithin R sum T.length γ) (F : β → ℝ)
    (hr : ∀ y ∈ T.filterMap v, R.rep (F y)) :
    |sum (T.map (orZero v F)) - ((T.filterMap v).map F).sum| ≤ γ * ((T.filterMap v).map (fun y => |F y|)).sum := by
  have := h (T.map (orZero v F)) (by simp) (by
    intro a ha
    obtain ⟨x, hx, rfl⟩ := List.mem_map.mp ha
    unfold orZero
    cases hv : v x with
    | none => exact R.rep_zero
    | some y => exact hr y (List.mem_filterMap.mpr ⟨x, hx, hv⟩))
  rwa [orZero_sum, orZero_abs, orZero_sum] at this

end

section
variable {β : Type}

theorem sum_map_nonneg (V : List β) (f : β → ℝ) (h : ∀ x ∈ V, 0 ≤ f x) : 0 ≤ (V.map f).sum := by
  apply List.sum_nonneg
  intro a ha
  obtain ⟨x, hx, rfl⟩ := List.mem_map.mp ha
  exact h x hx

theorem sum_map_le (V : List β) (f g : β → ℝ) (h : ∀ x ∈ V, f x ≤ g x) : (V.map f).sum ≤ (V.map g).sum := by
  induction V with
  | nil => simp
  | cons x V ih =>
    simp only [List.map_cons, List.sum_cons]
    exact add_le_add (h x (by simp)) (ih fun y hy => h y (by simp [hy]))

theorem sum_map_err (V : List β) (f g e : β → ℝ) (h : ∀ x ∈ V, |f x - g x| ≤ e x) : |(V.map f).sum - (V.map g).sum| ≤ (V.map e).sum := by
  induction V with
  | nil => simp
  | cons x V ih =>
    simp only [List.map_cons, List.sum_cons]
    have h1 := h x (by simp)
    have h2 := ih fun y hy => h y (by simp [hy])
    rw [abs_le] at *
    constructor <;> linarith [h1.1, h1.2, h2.1, h2.2]

theorem sum_map_add_const (V : List β) (f : β → ℝ) (k c : ℝ) : (V.map (fun x => k * f x + c)).sum = k * (V.map f).sum + V.length * c := by
  induction V with
  | nil => simp
  | cons x V ih =>
    simp only [List.map_cons, List.sum_cons, List.length_cons, ih]
    push_cast
    ring

/-- a computed sum of computed terms -/
theorem sum_chain (V : List β) (t p : β → ℝ) {S γ k c : ℝ} (hγ : 0 ≤ γ) (hS : |S - (V.map t).sum| ≤ γ * (V.map (fun y => |t y|)).sum)
    (ht : ∀ y ∈ V, |t y - p y| ≤ k * |p y| + c) :
    |S - (V.map p).sum| ≤ ((1 + γ) * (1 + k) - 1) * (V.map (fun y => |p y|)).sum + (1 + γ) * (V.length * c) := by
  have h1 : |(V.map t).sum - (V.map p).sum| ≤ (V.map (fun y => k * |p y| + c)).sum := sum_map_err V t p _ ht
  have h2 : (V.map (fun y => |t y|)).sum ≤ (V.map (fun y => (1 + k) * |p y| + c)).sum := by
    refine sum_map_le V _ _ fun y hy => ?_
    have := ht y hy
    have h3 : |t y| ≤ |t y - p y| + |p y| := by
      have := abs_add_le (t y - p y) (p y)
      rwa [sub_add_cancel] at this
    linarith
  rw [sum_map_add_const] at h1 h2
  have h3 := mul_le_mul_of_nonneg_left h2 hγ
  have h4 : |S - (V.map p).sum| ≤ |S - (V.map t).sum| + |(V.map t).sum - (V.map p).sum| := abs_sub_le _ _ _
  linarith

end

theorem poly4 {u : ℝ} (u0 : 0 ≤ u) (u1 : u ≤ 1e-6) : u * (1 + 2 * u + u ^ 2) * (1 + u) + (2 * u + u ^ 2) * (1 + u) + u ≤ (41 / 10) * u := by
  have a2 : u * u ≤ 1e-6 * u := mul_le_mul_of_nonneg_right u1 u0
  have a3 : u * u * u ≤ 1e-6 * u := by nlinarith [mul_nonneg u0 u0]
  have a4 : u * u * u * u ≤ 1e-6 * u := by nlinarith [mul_nonneg u0 u0, mul_nonneg (mul_nonneg u0 u0) u0]
  have e : u * (1 + 2 * u + u ^ 2) * (1 + u) + (2 * u + u ^ 2) * (1 + u) + u = 4 * u + 6 * (u * u) + 4 * (u * u * u) + u * u * u * u := by ring
  rw [e]
  linarith

theorem poly3 {u : ℝ} (u0 : 0 ≤ u) (u1 : u ≤ 1e-6) : u * (1 + u) * (1 + u) + u * (1 + u) + u ≤ (41 / 10) * u := by
  have a2 : u * u ≤ 1e-6 * u := mul_le_mul_of_nonneg_right u1 u0
  have a3 : u * u * u ≤ 1e-6 * u := by nlinarith [mul_nonneg u0 u0]
  have e : u * (1 + u) * (1 + u) + u * (1 + u) + u = 3 * u + 3 * (u * u) + u * u * u := by ring
  rw [e]
  linarith

theorem poly2 {u f M : ℝ} (u0 : 0 ≤ u) (u1 : u ≤ 1e-6) (f0 : 0 ≤ f) (h : f ≤ M) : f * ((1 + u) * u + (1 + u)) + 1 ≤ (11 / 10) * M + 1 := by
  have : (1 + u) * u + (1 + u) ≤ 11 / 10 := by nlinarith
  have := mul_le_mul_of_nonneg_left this f0
  linarith

theorem eta_scale {η u Q k : ℝ} (u0 : 0 ≤ u) (Q0 : 0 ≤ Q) (h : η ≤ u * Q / 2) (hk : 1 / 2 ≤ k) : η ≤ u * (k * Q) := by
  have := mul_le_mul_of_nonneg_right hk (mul_nonneg u0 Q0)
  calc η ≤ _ := h
    _ = 1 / 2 * (u * Q) := by ring
    _ ≤ _ := this
    _ = _ := by ring

/-- the product of a weight and two computed deviations -/
theorem corrTerm {R : Rounding ℝ} {u η : ℝ} (P : Precise R u η) {w d f d' f' M : ℝ} (hw : 0 ≤ w) (hd : |d' - d| ≤ u * |d|) (hf : |f' - f| ≤ u * |f|)
    (hM : |f| ≤ M) : |R.fl (R.fl (w * d') * f') - w * d * f| ≤ (41 / 10) * u * |w * d * f| + η * ((11 / 10) * M + 1) := by
  have u0 := P.acc.u_nonneg
  have e0 := P.acc.eta_nonneg
  have u1 := P.u_le
  have h1 := P.acc.err (w * d')
  have h2 := P.acc.err (R.fl (w * d') * f')
  set t := R.fl (w * d')
  set t2 := R.fl (t * f')
  have d1 : |d'| ≤ (1 + u) * |d| := by
    have := abs_add_le (d' - d) d
    rw [sub_add_cancel] at this
    linarith
  have f1 : |f'| ≤ (1 + u) * |f| := by
    have := abs_add_le (f' - f) f
    rw [sub_add_cancel] at this
    linarith
  have hd0 := abs_nonneg d
  have hf0 := abs_nonneg f
  have a1 : |w * d'| ≤ w * ((1 + u) * |d|) := by
    rw [abs_mul, abs_of_nonneg hw]
    exact mul_le_mul_of_nonneg_left d1 hw
  have b1 : |t - w * d'| ≤ u * (w * ((1 + u) * |d|)) + η := h1.trans (by linarith [mul_le_mul_of_nonneg_left a1 u0])
  have b2 : |w * d' - w * d| ≤ w * (u * |d|) := by
    rw [← mul_sub, abs_mul, abs_of_nonneg hw]
    exact mul_le_mul_of_nonneg_left hd hw
  have b3 : |t - w * d| ≤ w * |d| * (2 * u + u ^ 2) + η := by
    have := abs_sub_le t (w * d') (w * d)
    calc _ ≤ _ := this
      _ ≤ _ := add_le_add b1 b2
      _ = _ := by ring
  have wd0 : 0 ≤ w * |d| := mul_nonneg hw hd0
  have c1 : |t| ≤ w * |d| * (1 + 2 * u + u ^ 2) + η := by
    have := abs_add_le (t - w * d) (w * d)
    rw [sub_add_cancel, abs_mul w d, abs_of_nonneg hw] at this
    calc _ ≤ _ := this
      _ ≤ _ := add_le_add b3 le_rfl
      _ = _ := by ring
  have c2 : |t * f' - w * d * f| ≤ (w * |d| * (2 * u + u ^ 2) + η) * ((1 + u) * |f|) + w * |d| * (u * |f|) := by
    have e : t * f' - w * d * f = (t - w * d) * f' + w * d * (f' - f) := by ring
    rw [e]
    refine (abs_add_le _ _).trans ?_
    rw [abs_mul (t - w * d), abs_mul (w * d), abs_mul w d, abs_of_nonneg hw]
    refine add_le_add (mul_le_mul b3 f1 (abs_nonneg _) ((abs_nonneg _).trans b3)) (mul_le_mul_of_nonneg_left hf wd0)
  have c3 : |t2 - t * f'| ≤ u * ((w * |d| * (1 + 2 * u + u ^ 2) + η) * ((1 + u) * |f|)) + η := by
    refine h2.trans ?_
    rw [abs_mul]
    have := mul_le_mul c1 f1 (abs_nonneg _) ((abs_nonneg _).trans c1)
    linarith [mul_le_mul_of_nonneg_left this u0]
  have e1 : |w * d * f| = w * |d| * |f| := by rw [abs_mul, abs_mul, abs_of_nonneg hw]
  rw [e1]
  have k1 : |t2 - w * d * f| ≤ |t2 - t * f'| + |t * f' - w * d * f| := abs_sub_le _ _ _
  have g0 : 0 ≤ w * |d| * |f| := mul_nonneg wd0 hf0
  set g := w * |d| * |f| with hg
  have k2 : |t2 - w * d * f| ≤ g * (u * (1 + 2 * u + u ^ 2) * (1 + u) + (2 * u + u ^ 2) * (1 + u) + u) + η * (|f| * ((1 + u) * u + (1 + u)) + 1) := by
    calc _ ≤ _ := k1
      _ ≤ _ := add_le_add c3 c2
      _ = _ := by rw [hg]; ring
  have k3 := poly4 u0 u1
  have k4 := poly2 u0 u1 hf0 hM
  have := mul_le_mul_of_nonneg_left k3 g0
  have := mul_le_mul_of_nonneg_left k4 e0
  linarith

/-- the product of two computed deviations -/
theorem corrTerm_one {R : Rounding ℝ} {u η : ℝ} (P : Precise R u η) {d f d' f' M : ℝ} (hd : |d' - d| ≤ u * |d|) (hf : |f' - f| ≤ u * |f|)
    (hM : |f| ≤ M) : |R.fl (d' * f') - d * f| ≤ (41 / 10) * u * |d * f| + η * ((11 / 10) * M + 1) := by
  have u0 := P.acc.u_nonneg
  have e0 := P.acc.eta_nonneg
  have u1 := P.u_le
  have h1 := P.acc.err (d' * f')
  have hd0 := abs_nonneg d
  have hf0 := abs_nonneg f
  have d1 : |d'| ≤ (1 + u) * |d| := by
    have := abs_add_le (d' - d) d
    rw [sub_add_cancel] at this
    linarith
  have f1 : |f'| ≤ (1 + u) * |f| := by
    have := abs_add_le (f' - f) f
    rw [sub_add_cancel] at this
    linarith
  have c1 : |d' * f' - d * f| ≤ u * |d| * ((1 + u) * |f|) + |d| * (u * |f|) := by
    have e : d' * f' - d * f = (d' - d) * f' + d * (f' - f) := by ring
    rw [e]
    refine (abs_add_le _ _).trans ?_
    rw [abs_mul (d' - d), abs_mul d]
    exact add_le_add (mul_le_mul hd f1 (abs_nonneg _) ((abs_nonneg _).trans hd)) (mul_le_mul_of_nonneg_left hf hd0)
  have c2 : |d' * f'| ≤ (1 + u) * |d| * ((1 + u) * |f|) := by
    rw [abs_mul]
    exact mul_le_mul d1 f1 (abs_nonneg _) ((abs_nonneg _).trans d1)
  have k1 : |R.fl (d' * f') - d * f| ≤ |R.fl (d' * f') - d' * f'| + |d' * f' - d * f| := abs_sub_le _ _ _
  rw [abs_mul d f]
  have g0 : 0 ≤ |d| * |f| := mul_nonneg hd0 hf0
  set g := |d| * |f| with hg
  have k2 : |R.fl (d' * f') - d * f| ≤ g * (u * (1 + u) * (1 + u) + u * (1 + u) + u) + η := by
    calc _ ≤ _ := k1
      _ ≤ _ := add_le_add (h1.trans (add_le_add (mul_le_mul_of_nonneg_left c2 u0) le_rfl)) c1
      _ = _ := by rw [hg]; ring
  have k3 := poly3 u0 u1
  have := mul_le_mul_of_nonneg_left k3 g0
  have : η ≤ η * ((11 / 10) * M + 1) := by
    have : 0 ≤ M := hf0.trans hM
    nlinarith
  linarith

/-- how much an error of the means changes the correlation -/
theorem corr_shift {S D F W e g D1 F1 : ℝ} (hD : 0 < D) (hF : 0 < F) (hD1 : 0 < D1) (hF1 : 0 < F1) (hW : 0 ≤ W) (h1 : D1 ^ 2 = D ^ 2 + W * e ^ 2)
    (h2 : F1 ^ 2 = F ^ 2 + W * g ^ 2) (hS : |S| ≤ D * F) :
    |(S + W * e * g) / (D1 * F1) - S / (D * F)| ≤ 3 / 2 * (W * e ^ 2 / D ^ 2 + W * g ^ 2 / F ^ 2) := by
  have x0 : 0 ≤ W * e ^ 2 := mul_nonneg hW (sq_nonneg _)
  have y0 : 0 ≤ W * g ^ 2 := mul_nonneg hW (sq_nonneg _)
  have dle : D ≤ D1 := by
    apply le_of_sq_le_sq _ hD1.le
    linarith
  have fle : F ≤ F1 := by
    apply le_of_sq_le_sq _ hF1.le
    linarith
  set p := D / D1 with hp
  set q := F / F1 with hq
  have p0 : 0 < p := div_pos hD hD1
  have q0 : 0 < q := div_pos hF hF1
  have p1 : p ≤ 1 := (div_le_one hD1).mpr dle
  have q1 : q ≤ 1 := (div_le_one hF1).mpr fle
  have ep : 1 - p ^ 2 = W * e ^ 2 / D1 ^ 2 := by
    rw [hp, div_pow, eq_div_iff (by positivity), sub_mul, div_mul_cancel₀ _ (by positivity)]
    linarith
  have eq' : 1 - q ^ 2 = W * g ^ 2 / F1 ^ 2 := by
    rw [hq, div_pow, eq_div_iff (by positivity), sub_mul, div_mul_cancel₀ _ (by positivity)]
    linarith
  have lx : W * e ^ 2 / D1 ^ 2 ≤ W * e ^ 2 / D ^ 2 := div_le_div_of_nonneg_left x0 (by positivity) (pow_le_pow_left₀ hD.le dle 2)
  have ly : W * g ^ 2 / F1 ^ 2 ≤ W * g ^ 2 / F ^ 2 := div_le_div_of_nonneg_left y0 (by positivity) (pow_le_pow_left₀ hF.le fle 2)
  set r := S / (D * F) with hr
  have r1 : |r| ≤ 1 := by
    rw [hr, abs_div, abs_of_pos (mul_pos hD hF)]
    exact (div_le_one (mul_pos hD hF)).mpr hS
  have e1 : (S + W * e * g) / (D1 * F1) - r = r * (p * q - 1) + W * e * g / (D1 * F1) := by
    rw [hr, hp, hq]
    field_simp
    ring
  rw [e1]
  have a1 : |r * (p * q - 1)| ≤ (1 - p ^ 2) + (1 - q ^ 2) := by
    rw [abs_mul]
    have : |p * q - 1| ≤ (1 - p ^ 2) + (1 - q ^ 2) := by
      rw [abs_of_nonpos (by nlinarith)]
      nlinarith
    calc _ ≤ 1 * |p * q - 1| := mul_le_mul_of_nonneg_right r1 (abs_nonneg _)
      _ ≤ _ := by rw [one_mul]; exact this
  have a2 : |W * e * g / (D1 * F1)| ≤ 1 / 2 * ((1 - p ^ 2) + (1 - q ^ 2)) := by
    rw [ep, eq', abs_div, abs_of_pos (mul_pos hD1 hF1), div_le_iff₀ (mul_pos hD1 hF1)]
    have e2 : 1 / 2 * (W * e ^ 2 / D1 ^ 2 + W * g ^ 2 / F1 ^ 2) * (D1 * F1) = 1 / 2 * W * (e ^ 2 * (F1 / D1) + g ^ 2 * (D1 / F1)) := by
      field_simp
    rw [e2, abs_mul, abs_mul, abs_of_nonneg hW]
    have e3 : F1 / D1 * (D1 / F1) = 1 := by field_simp
    have hk : 0 < F1 / D1 := div_pos hF1 hD1
    have hl : 0 < D1 / F1 := div_pos hD1 hF1
    have e4 : |e| * |g| ≤ 1 / 2 * (e ^ 2 * (F1 / D1) + g ^ 2 * (D1 / F1)) := by
      rw [← sq_abs e, ← sq_abs g]
      set k := F1 / D1
      set l := D1 / F1
      have : 0 ≤ l * (k * |e| - |g|) ^ 2 := by positivity
      have e5 : l * (k * |e| - |g|) ^ 2 = (k * l) * k * |e| ^ 2 - 2 * (k * l) * |e| * |g| + l * |g| ^ 2 := by ring
      rw [e5, e3] at this
      linarith
    calc W * |e| * |g| = W * (|e| * |g|) := by ring
      _ ≤ W * _ := mul_le_mul_of_nonneg_left e4 hW
      _ = _ := by ring
  have a3 := abs_add_le (r * (p * q - 1)) (W * e * g / (D1 * F1))
  linarith

/-- the quotient of computed sums -/
theorem corr_quot_error {R : Rounding ℝ} {u η α : ℝ} (P : Precise R u η) {num saa sbb D F r : ℝ} (hD : 0 < D) (hF : 0 < F) (hr : |r| ≤ 1) (ha0 : 0 ≤ α)
    (ha : α ≤ 12 / 100) (h1 : |saa - D ^ 2| ≤ α * D ^ 2) (h2 : |sbb - F ^ 2| ≤ α * F ^ 2) (h3 : |num - r * (D * F)| ≤ α * (D * F))
    (he1 : η ≤ u * (D * F) / 2) (he2 : η ≤ u * (D * F) ^ 2 / 2) :
    ∃ x, quotFl R num saa sbb = clipUnit (.fin x) ∧ |x - r| ≤ 23 / 10 * α + 9 * u := by
  have u0 := P.acc.u_nonneg
  have u1 := P.u_le
  have et := P.eta_le
  have hQ : 0 < D * F := mul_pos hD hF
  have D2 : 0 < D ^ 2 := by positivity
  have F2 : 0 < F ^ 2 := by positivity
  obtain ⟨a1, a2⟩ := abs_le.mp h1
  obtain ⟨b1, b2⟩ := abs_le.mp h2
  have sa0 : (1 - α) * D ^ 2 ≤ saa := by linarith
  have sa1 : saa ≤ (1 + α) * D ^ 2 := by linarith
  have sb0 : (1 - α) * F ^ 2 ≤ sbb := by linarith
  have sb1 : sbb ≤ (1 + α) * F ^ 2 := by linarith
  have k0 : 0 ≤ 1 - α := by linarith
  have lo : (1 - α) ^ 2 * (D * F) ^ 2 ≤ saa * sbb := by
    calc _ = (1 - α) * D ^ 2 * ((1 - α) * F ^ 2) := by ring
      _ ≤ _ := mul_le_mul sa0 sb0 (by positivity) ((by positivity : 0 ≤ (1 - α) * D ^ 2).trans sa0)
  have hi : saa * sbb ≤ (1 + α) ^ 2 * (D * F) ^ 2 := by
    calc _ ≤ (1 + α) * D ^ 2 * ((1 + α) * F ^ 2) := mul_le_mul sa1 sb1 ((by positivity : 0 ≤ (1 - α) * F ^ 2).trans sb0) (by positivity)
      _ = _ := by ring
  set Q := D * F with hQd
  have Q2 : 0 < Q ^ 2 := by positivity
  have Pp : 0 ≤ saa * sbb := le_trans (by positivity) lo
  have e1 := P.acc.err (saa * sbb)
  rw [abs_of_nonneg Pp] at e1
  obtain ⟨e1a, e1b⟩ := abs_le.mp e1
  set q := R.fl (saa * sbb) with hq
  have c1 : (77 / 100 : ℝ) ≤ (1 - α) ^ 2 := by clear * - ha0 ha; nlinarith
  have q0 : (1 - 2 * u) ^ 2 * ((1 - α) * Q) ^ 2 ≤ q := by
    have t1 : η ≤ u * ((1 - α) ^ 2 * Q ^ 2) := eta_scale u0 Q2.le he2 (by linarith)
    have t2 : (1 - u) * ((1 - α) ^ 2 * Q ^ 2) ≤ (1 - u) * (saa * sbb) := mul_le_mul_of_nonneg_left lo (by linarith)
    have t3 : (1 - 2 * u) ^ 2 * ((1 - α) * Q) ^ 2 ≤ (1 - 2 * u) * ((1 - α) ^ 2 * Q ^ 2) := by
      have : (1 - 2 * u) ^ 2 ≤ 1 - 2 * u := by clear * - u0 u1; nlinarith
      calc _ = (1 - 2 * u) ^ 2 * ((1 - α) ^ 2 * Q ^ 2) := by ring
        _ ≤ _ := mul_le_mul_of_nonneg_right this (by positivity)
    linarith
  have q1 : q ≤ (1 + 2 * u) ^ 2 * ((1 + α) * Q) ^ 2 := by
    have t1 : η ≤ u * ((1 + α) ^ 2 * Q ^ 2) := eta_scale u0 Q2.le he2 (by clear * - ha0 ha; nlinarith)
    have t2 : (1 + u) * (saa * sbb) ≤ (1 + u) * ((1 + α) ^ 2 * Q ^ 2) := mul_le_mul_of_nonneg_left hi (by linarith)
    have t3 : (1 + 2 * u) * ((1 + α) ^ 2 * Q ^ 2) ≤ (1 + 2 * u) ^ 2 * ((1 + α) * Q) ^ 2 := by
      have : 1 + 2 * u ≤ (1 + 2 * u) ^ 2 := by clear * - u0 u1; nlinarith
      calc _ ≤ (1 + 2 * u) ^ 2 * ((1 + α) ^ 2 * Q ^ 2) := mul_le_mul_of_nonneg_right this (by positivity)
        _ = _ := by ring
    linarith
  have s0 : (1 - 2 * u) * ((1 - α) * Q) ≤ Real.sqrt q := by
    apply Real.le_sqrt_of_sq_le
    rw [mul_pow]
    exact q0
  have s1 : Real.sqrt q ≤ (1 + 2 * u) * ((1 + α) * Q) := by
    apply Real.sqrt_le_iff.mpr
    refine ⟨by positivity, ?_⟩
    rw [mul_pow]
    exact q1
  have qn : ¬ q < 0 := not_lt.mpr (le_trans (by positivity) q0)
  have e2 := P.acc.err (Real.sqrt q)
  rw [abs_of_nonneg (Real.sqrt_nonneg q)] at e2
  obtain ⟨e2a, e2b⟩ := abs_le.mp e2
  set ρ := R.fl (Real.sqrt q) with hρ
  have Qa : 0 < (1 - α) * Q := by
    apply mul_pos _ hQ
    linarith
  have r0 : (1 - 4 * u) * ((1 - α) * Q) ≤ ρ := by
    have t1 : η ≤ u * ((1 - α) * Q) := eta_scale u0 hQ.le he1 (by linarith)
    have t2 : (1 - u) * ((1 - 2 * u) * ((1 - α) * Q)) ≤ (1 - u) * Real.sqrt q := mul_le_mul_of_nonneg_left s0 (by linarith)
    have t3 : (1 - 3 * u) * ((1 - α) * Q) ≤ (1 - u) * ((1 - 2 * u) * ((1 - α) * Q)) := by
      rw [← mul_assoc (1 - u)]
      apply mul_le_mul_of_nonneg_right _ Qa.le
      clear * - u0 u1 ha0 ha; nlinarith
    linarith
  have r1 : ρ ≤ (1 + 5 * u) * ((1 + α) * Q) := by
    have t1 : η ≤ u * ((1 + α) * Q) := eta_scale u0 hQ.le he1 (by linarith)
    have t2 : (1 + u) * Real.sqrt q ≤ (1 + u) * ((1 + 2 * u) * ((1 + α) * Q)) := mul_le_mul_of_nonneg_left s1 (by linarith)
    have t3 : (1 + u) * ((1 + 2 * u) * ((1 + α) * Q)) ≤ (1 + 4 * u) * ((1 + α) * Q) := by
      rw [← mul_assoc]
      apply mul_le_mul_of_nonneg_right _ (by positivity)
      clear * - u0 u1 ha0 ha; nlinarith
    linarith
  have ρlo : 87 / 100 * Q ≤ ρ := by
    refine le_trans ?_ r0
    rw [← mul_assoc (1 - 4 * u)]
    apply mul_le_mul_of_nonneg_right _ hQ.le
    clear * - u0 u1 ha0 ha; nlinarith
  have ρ0 : 0 < ρ := lt_of_lt_of_le (by positivity) ρlo
  have ρd : |Q - ρ| ≤ (α + 6 * u) * Q := by
    rw [abs_le]
    have t1 : (1 + 5 * u) * ((1 + α) * Q) ≤ (1 + (α + 6 * u)) * Q := by
      rw [← mul_assoc]
      apply mul_le_mul_of_nonneg_right _ hQ.le
      clear * - u0 u1 ha0 ha; nlinarith
    have t2 : (1 - (α + 6 * u)) * Q ≤ (1 - 4 * u) * ((1 - α) * Q) := by
      rw [← mul_assoc (1 - 4 * u)]
      apply mul_le_mul_of_nonneg_right _ hQ.le
      clear * - u0 u1 ha0 ha; nlinarith
    constructor <;> linarith
  have x0 : |num / ρ - r| ≤ (2 * α + 6 * u) / (87 / 100) := by
    have e : num / ρ - r = (num - r * Q + r * (Q - ρ)) / ρ := by
      field_simp
      ring
    rw [e, abs_div, abs_of_pos ρ0, div_le_div_iff₀ ρ0 (by norm_num)]
    have t1 : |num - r * Q + r * (Q - ρ)| ≤ α * Q + (α + 6 * u) * Q := by
      refine (abs_add_le _ _).trans (add_le_add h3 ?_)
      rw [abs_mul]
      calc _ ≤ 1 * |Q - ρ| := mul_le_mul_of_nonneg_right hr (abs_nonneg _)
        _ ≤ _ := by rw [one_mul]; exact ρd
    have t2 := mul_le_mul_of_nonneg_left ρlo (by linarith : 0 ≤ 2 * α + 6 * u)
    linarith
  have e3 := P.acc.err (num / ρ)
  refine ⟨R.fl (num / ρ), ?_, ?_⟩
  · unfold quotFl
    rw [← hq, xSqrt, if_neg qn, roundXF_fin, ← hρ, XF.fin_div _ _ ρ0.ne', roundXF_fin]
  · have t1 : |num / ρ| ≤ 14 / 10 := by
      have := abs_add_le (num / ρ - r) r
      rw [sub_add_cancel] at this
      have : (2 * α + 6 * u) / (87 / 100) ≤ 4 / 10 := by
        rw [div_le_iff₀ (by norm_num)]
        linarith
      linarith
    have t2 := mul_le_mul_of_nonneg_left t1 u0
    have t3 : |R.fl (num / ρ) - r| ≤ |R.fl (num / ρ) - num / ρ| + |num / ρ - r| := abs_sub_le _ _ _
    have t4 : (2 * α + 6 * u) / (87 / 100) ≤ 23 / 10 * α + 7 * u := by
      rw [div_le_iff₀ (by norm_num)]
      linarith
    linarith

theorem clip_near {x r : ℝ} (hr : |r| ≤ 1) : ∃ r', clipUnit (.fin x) = .fin r' ∧ |r' - r| ≤ |x - r| := by
  refine ⟨_, rfl, ?_⟩
  obtain ⟨h1, h2⟩ := abs_le.mp hr
  rcases le_total x 1 with h | h
  · rw [min_eq_left h]
    rcases le_total (-1) x with h' | h'
    · rw [max_eq_right h']
    · rw [max_eq_left h', abs_of_nonpos (by linarith), abs_of_nonpos (by linarith)]
      linarith
  · rw [min_eq_right h, max_eq_right (by norm_num), abs_of_nonneg (by linarith), abs_of_nonneg (by linarith)]
    linarith

end Lemmas
end Verif
