import Verif.Props.Gradient
import Mathlib.Analysis.SpecialFunctions.Trigonometric.Bounds

/-
Property C152: gradient of a sampled smooth field is the rate of change per metre of that field at a point between the neighbours.
-/

namespace Verif.Props
open Model.Gradient Spec.Gradient Lemmas.Gradient Lemmas.Wgs84 Lemmas.Poly
noncomputable section

/-- metres per degree of latitude on the WGS84 ellipsoid, as documented -/
def metresLat (lat : ℝ) : ℝ := Spec.Wgs84.radius lat * (Real.pi / 180)

/-- metres per degree of longitude on the WGS84 ellipsoid, as documented -/
def metresLon (lat : ℝ) : ℝ := Spec.Wgs84.radius lat * Real.cos (lat * (Real.pi / 180)) * (Real.pi / 180)

/-- `ξ` lies strictly between `u` and `v` -/
def Between (u v ξ : ℝ) : Prop := (u < ξ ∧ ξ < v) ∨ (v < ξ ∧ ξ < u)

theorem div_close {D d m ε : ℝ} (hm : 0 < m) (h0 : 0 ≤ ε) (hε : ε ≤ 1 / 2) (h : |d - m| ≤ ε * m) : |D / d - D / m| ≤ 2 * ε * |D / m| := by
  obtain ⟨h1, h2⟩ := abs_le.mp h
  have hd : m / 2 ≤ d := by nlinarith
  have hdpos : 0 < d := by linarith
  have e : D / d - D / m = (m - d) / d * (D / m) := by field_simp
  rw [e, abs_mul, abs_div, abs_of_pos hdpos, abs_sub_comm]
  refine mul_le_mul_of_nonneg_right ?_ (abs_nonneg _)
  rw [div_le_iff₀ hdpos]
  nlinarith

theorem radius_big (x : ℝ) : 6356000 ≤ Spec.Wgs84.radius x := by
  have h := radius_ge x
  have : (6356000 : ℝ) ≤ Spec.Wgs84.b := by unfold Spec.Wgs84.b Spec.Wgs84.a; norm_num
  linarith

theorem darc_metres {x : ℝ} (hx : |x| ≤ 90) : |ev darcC (x ^ 2) - metresLat x| ≤ 1e-16 * metresLat x := by
  have h1 := darc_close hx
  have h2 := rad_close hx
  have h3 := radius_big x
  have hp := Real.pi_gt_three
  have hp4 := Real.pi_le_four
  have e : ev darcC (x ^ 2) - metresLat x = (ev darcC (x ^ 2) - radLat x * (Real.pi / 180)) + (radLat x - Spec.Wgs84.radius x) * (Real.pi / 180) := by
    unfold metresLat; ring
  rw [e]
  refine (abs_add_le _ _).trans ?_
  rw [abs_mul, abs_of_pos (by positivity : 0 < Real.pi / 180)]
  have h4 : |radLat x - Spec.Wgs84.radius x| * (Real.pi / 180) ≤ 1.6e-11 * (Real.pi / 180) := mul_le_mul_of_nonneg_right h2 (by positivity)
  have h5 : 6356000 * (Real.pi / 180) ≤ metresLat x := mul_le_mul_of_nonneg_right h3 (by positivity)
  norm_num at *
  linarith

theorem meridian_mean {F F' : ℝ → ℝ} (hF : ∀ x, HasDerivAt F (F' x) x) {u v : ℝ} (hu : |u| ≤ 90) (hv : |v| ≤ 90) (huv : u < v) :
    ∃ ξ, u < ξ ∧ ξ < v ∧ (F v - F u) / (arcLat v - arcLat u) = F' ξ / ev darcC (ξ ^ 2) := by
  obtain ⟨ξ, ⟨h1, h2⟩, h3⟩ := exists_ratio_hasDerivAt_eq_ratio_slope F F' huv (fun x _ => (hF x).continuousAt.continuousWithinAt) (fun x _ => hF x)
    arcLat (fun x => ev darcC (x ^ 2)) (fun x _ => (hasDerivAt_arcLat x).continuousAt.continuousWithinAt) (fun x _ => hasDerivAt_arcLat x)
  refine ⟨ξ, h1, h2, ?_⟩
  have hu' := abs_le.mp hu
  have hv' := abs_le.mp hv
  have hpos := darc_pos (abs_le.mpr ⟨by linarith, by linarith⟩ : |ξ| ≤ 90)
  have hinc := C74_arc_strictly_increasing ⟨hu'.1, hu'.2⟩ ⟨hv'.1, hv'.2⟩ huv
  rw [div_eq_div_iff (sub_pos.mpr hinc).ne' hpos.ne', ← h3]
  ring

theorem meridian_between {F F' : ℝ → ℝ} (hF : ∀ x, HasDerivAt F (F' x) x) {u v : ℝ} (hu : |u| ≤ 90) (hv : |v| ≤ 90) (huv : u ≠ v) :
    ∃ ξ, Between u v ξ ∧ |(F v - F u) / (arcLat v - arcLat u) - F' ξ / metresLat ξ| ≤ 2 * 1e-16 * |F' ξ / metresLat ξ| := by
  have key : ∀ ξ, |ξ| ≤ 90 → |F' ξ / ev darcC (ξ ^ 2) - F' ξ / metresLat ξ| ≤ 2 * 1e-16 * |F' ξ / metresLat ξ| := fun ξ hξ => by
    refine div_close ?_ (by norm_num) (by norm_num) (darc_metres hξ)
    have := radius_big ξ
    have hp := Real.pi_pos
    unfold metresLat
    exact mul_pos (by linarith) (by positivity)
  have hu' := abs_le.mp hu
  have hv' := abs_le.mp hv
  rcases lt_or_gt_of_ne huv with h | h
  · obtain ⟨ξ, h1, h2, h3⟩ := meridian_mean hF hu hv h
    refine ⟨ξ, Or.inl ⟨h1, h2⟩, ?_⟩
    rw [h3]
    exact key ξ (abs_le.mpr ⟨by linarith, by linarith⟩)
  · obtain ⟨ξ, h1, h2, h3⟩ := meridian_mean hF hv hu h
    refine ⟨ξ, Or.inr ⟨h1, h2⟩, ?_⟩
    rw [show (F v - F u) / (arcLat v - arcLat u) = (F u - F v) / (arcLat u - arcLat v) by rw [← neg_sub (F u), ← neg_sub (arcLat u), neg_div_neg_eq], h3]
    exact key ξ (abs_le.mpr ⟨by linarith, by linarith⟩)

theorem lon_metres {x : ℝ} (hx : |x| ≤ 89) : 0 < metresLon x ∧ |arcLon 1 x - metresLon x| ≤ 1e-15 * metresLon x := by
  have hx90 : |x| ≤ 90 := by linarith
  have h2 := rad_close hx90
  have h3 := radius_big x
  have hrp := rad_le hx90
  have hrp0 := rad_pos hx90
  have hp := Real.pi_gt_three
  have hp4 := Real.pi_le_four
  have hd := d2r_close
  have hcos : 1 / 90 ≤ Real.cos (x * (Real.pi / 180)) := by
    rw [← Real.cos_abs, abs_mul, abs_of_pos (by positivity : 0 < Real.pi / 180)]
    have h := Real.one_sub_mul_le_cos (x := |x| * (Real.pi / 180)) (by positivity) (by nlinarith)
    have e : 2 / Real.pi * (|x| * (Real.pi / 180)) = |x| / 90 := by field_simp; ring
    rw [e] at h
    linarith
  have hcd : |Real.cos (x * d2r) - Real.cos (x * (Real.pi / 180))| ≤ 90 * 1e-22 := by
    refine (Real.abs_cos_sub_cos_le _ _).trans ?_
    rw [← mul_sub, abs_mul]
    exact mul_le_mul hx90 hd (abs_nonneg _) (by norm_num)
  have hrl := radius_le x
  have ha : Spec.Wgs84.a = 6378137 := rfl
  rw [ha] at hrl
  set A := radLat x
  set A' := Spec.Wgs84.radius x
  set B := Real.cos (x * d2r)
  set B' := Real.cos (x * (Real.pi / 180))
  set C' := Real.pi / 180 with hC'
  have hB1 : |B| ≤ 1 := Real.abs_cos_le_one _
  have hB1' : |B'| ≤ 1 := Real.abs_cos_le_one _
  have hC1 : |d2r| ≤ 0.02 := by rw [abs_le]; unfold d2r; constructor <;> norm_num
  have hC3 : 3 / 180 ≤ C' := by rw [hC']; linarith
  have hlow : 6356000 * (1 / 90) * (3 / 180) ≤ A' * B' * C' := by
    have : 6356000 * (1 / 90) ≤ A' * B' := mul_le_mul h3 hcos (by norm_num) (by linarith)
    exact mul_le_mul this hC3 (by norm_num) (by nlinarith)
  have hm : metresLon x = A' * B' * C' := rfl
  have harc : arcLon 1 x = A * B * d2r := by simp only [arcLon, mul_one]; rfl
  rw [hm, harc]
  refine ⟨by norm_num at hlow ⊢; linarith, ?_⟩
  have e : A * B * d2r - A' * B' * C' = (A - A') * B * d2r + A' * (B - B') * d2r + A' * B' * (d2r - C') := by ring
  have t1 : |(A - A') * B * d2r| ≤ 1.6e-11 * 1 * 0.02 := by
    rw [abs_mul, abs_mul]
    exact mul_le_mul (mul_le_mul h2 hB1 (abs_nonneg _) (by norm_num)) hC1 (abs_nonneg _) (by norm_num)
  have hA' : |A'| ≤ 6378137 := by rw [abs_of_pos (by linarith)]; exact hrl
  have t2 : |A' * (B - B') * d2r| ≤ 6378137 * (90 * 1e-22) * 0.02 := by
    rw [abs_mul, abs_mul]
    exact mul_le_mul (mul_le_mul hA' hcd (abs_nonneg _) (by norm_num)) hC1 (abs_nonneg _) (by norm_num)
  have t3 : |A' * B' * (d2r - C')| ≤ 6378137 * 1 * 1e-22 := by
    rw [abs_mul, abs_mul]
    exact mul_le_mul (mul_le_mul hA' hB1' (abs_nonneg _) (by norm_num)) hd (abs_nonneg _) (by norm_num)
  rw [e]
  refine (abs_add_le _ _).trans ((add_le_add ((abs_add_le _ _).trans (add_le_add t1 t2)) t3).trans ?_)
  norm_num at hlow ⊢
  linarith

theorem parallel_between {G G' : ℝ → ℝ} (hG : ∀ x, HasDerivAt G (G' x) x) {lat u v : ℝ} (hl : |lat| ≤ 89) (huv : u ≠ v) :
    ∃ η, Between u v η ∧ |(G v - G u) / (arcLon v lat - arcLon u lat) - G' η / metresLon lat| ≤ 2 * 1e-15 * |G' η / metresLon lat| := by
  obtain ⟨hm, hc⟩ := lon_metres hl
  have hlin : ∀ w, arcLon w lat = w * arcLon 1 lat := fun w => by simp only [arcLon]; ring
  have key : ∀ a b, a < b → ∃ η, a < η ∧ η < b ∧ (G b - G a) / (arcLon b lat - arcLon a lat) = G' η / arcLon 1 lat := by
    intro a b hab
    obtain ⟨η, ⟨h1, h2⟩, h3⟩ := exists_hasDerivAt_eq_slope G G' hab (fun x _ => (hG x).continuousAt.continuousWithinAt) (fun x _ => hG x)
    refine ⟨η, h1, h2, ?_⟩
    rw [h3, hlin b, hlin a, ← sub_mul, div_div]
  rcases lt_or_gt_of_ne huv with h | h
  · obtain ⟨η, h1, h2, h3⟩ := key u v h
    refine ⟨η, Or.inl ⟨h1, h2⟩, ?_⟩
    rw [h3]
    exact div_close hm (by norm_num) (by norm_num) hc
  · obtain ⟨η, h1, h2, h3⟩ := key v u h
    refine ⟨η, Or.inr ⟨h1, h2⟩, ?_⟩
    rw [show (G v - G u) / (arcLon v lat - arcLon u lat) = (G u - G v) / (arcLon u lat - arcLon v lat) by
      rw [← neg_sub (G u), ← neg_sub (arcLon u lat), neg_div_neg_eq], h3]
    exact div_close hm (by norm_num) (by norm_num) hc

/-- C152: on a grid with monotone latitudes and longitudes, for values taken from a differentiable field `F` of latitude and longitude (degrees): the first result is the
derivative of the field per metre northward at a latitude between the two neighbouring rows, the second one the derivative per metre eastward at a longitude between the
two neighbouring columns (rows within 89 degrees of the equator), with relative errors below 1e-14. -/
theorem C152_mean_value (k : DataKind) (hk : k ≠ .dataset) {r c : ℕ} (hr : 2 ≤ r) (hc : 2 ≤ c) (lon lat : ℕ → ℝ) (hl : ∀ i < r, -90 ≤ lat i ∧ lat i ≤ 90)
    (hla : (∀ i i', i < i' → i' < r → lat i < lat i') ∨ ∀ i i', i < i' → i' < r → lat i' < lat i)
    (hlo : (∀ j j', j < j' → j' < c → lon j < lon j') ∨ ∀ j j', j < j' → j' < c → lon j' < lon j)
    (F Flat Flon : ℝ → ℝ → ℝ) (h1 : ∀ φ μ, HasDerivAt (fun y => F y μ) (Flat φ μ) φ) (h2 : ∀ φ μ, HasDerivAt (fun x => F φ x) (Flon φ μ) μ) :
    ∃ x y, Gives (gradient (field k r c (fun i j => F (lat i) (lon j))) (some (grid r c (fun _ j => lon j))) (some (grid r c (fun i _ => lat i)))) r c x y ∧
      ∀ i j, i < r → j < c →
        (∃ ξ, Between (lat (i - 1)) (lat (min (i + 1) (r - 1))) ξ ∧ |x i j - Flat ξ (lon j) / metresLat ξ| ≤ 1e-14 * |Flat ξ (lon j) / metresLat ξ|) ∧
        (|lat i| ≤ 89 → ∃ η, Between (lon (j - 1)) (lon (min (j + 1) (c - 1))) η ∧
          |y i j - Flon (lat i) η / metresLon (lat i)| ≤ 1e-14 * |Flon (lat i) η / metresLon (lat i)|) := by
  have hs := spaced_of_monotone hr hc lon lat hl hla hlo
  refine ⟨_, _, C75_difference_quotients k hk hr hc _ _ _ hs, fun i j hi hj => ⟨?_, fun hi89 => ?_⟩⟩
  · have hu := upper_lt hi
    have hd := lower_lt hi
    have hne : lat (lower i) ≠ lat (upper r i) := by
      have hlt := lower_lt_upper hr hi
      rcases hla with h | h
      · exact (h _ _ hlt hu).ne
      · exact (h _ _ hlt hu).ne'
    obtain ⟨ξ, hb, he⟩ := meridian_between (F := fun y => F y (lon j)) (F' := fun y => Flat y (lon j)) (fun y => h1 y (lon j)) (abs_le.mpr (hl _ hd)) (abs_le.mpr (hl _ hu)) hne
    refine ⟨ξ, hb, he.trans (mul_le_mul_of_nonneg_right (by norm_num) (abs_nonneg _))⟩
  · have hu := upper_lt hj
    have hne : lon (lower j) ≠ lon (upper c j) := by
      have hlt := lower_lt_upper hc hj
      rcases hlo with h | h
      · exact (h _ _ hlt hu).ne
      · exact (h _ _ hlt hu).ne'
    obtain ⟨η, hb, he⟩ := parallel_between (G := fun x => F (lat i) x) (G' := fun x => Flon (lat i) x) (fun x => h2 (lat i) x) hi89 hne
    refine ⟨η, hb, he.trans (mul_le_mul_of_nonneg_right (by norm_num) (abs_nonneg _))⟩

/-- the hypotheses are met by the field `lat * lon` and three rows and columns -/
example : ∃ (lon lat : ℕ → ℝ) (F Flat Flon : ℝ → ℝ → ℝ), (∀ i < 3, -90 ≤ lat i ∧ lat i ≤ 90) ∧ (∀ i i', i < i' → i' < 3 → lat i < lat i') ∧
    (∀ j j', j < j' → j' < 3 → lon j < lon j') ∧ (∀ φ μ, HasDerivAt (fun y => F y μ) (Flat φ μ) φ) ∧ (∀ φ μ, HasDerivAt (fun x => F φ x) (Flon φ μ) μ) ∧
    Flat 10 20 = 20 := by
  refine ⟨fun j => 10 * (j : ℝ), fun i => 30 * (i : ℝ), fun y x => y * x, fun _ x => x, fun y _ => y, ?_, ?_, ?_, ?_, ?_, rfl⟩
  · intro i hi
    have : (i : ℝ) ≤ 2 := by exact_mod_cast Nat.lt_succ_iff.mp hi
    have h0 := Nat.cast_nonneg (α := ℝ) i
    constructor <;> linarith
  · intro i i' h _
    have : (i : ℝ) < i' := by exact_mod_cast h
    linarith
  · intro i i' h _
    have : (i : ℝ) < i' := by exact_mod_cast h
    linarith
  · intro φ μ
    simpa using (hasDerivAt_id φ).mul_const μ
  · intro φ μ
    simpa using (hasDerivAt_id μ).const_mul φ

end
end Verif.Props
