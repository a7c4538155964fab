import Verif.Model.FloatsGrad
import Verif.Lemmas.Gradient
import Verif.Lemmas.FloatPsi
import Verif.Props.FloatClim
import Verif.Lemmas.Wgs84

namespace Verif.Lemmas.Gradient
open Verif Model Model.Gradient Spec.Gradient Lemmas

/-- the library's power is accurate to two units of rounding, its cosine to two units of rounding of 1 -/
structure LibraryAccurate (u η : ℝ) (pow : ℝ → ℕ → ℝ) (cos : ℝ → ℝ) : Prop where
  pow : ∀ x k, |pow x k - x ^ k| ≤ 2 * u * |x ^ k| + η
  cos : ∀ x, |cos x - Real.cos x| ≤ 2 * u

/-- the exact value of a term -/
def termVal (x : ℝ) (t : Bool × ℝ × ℕ) : ℝ := if t.1 then -(t.2.1 * x ^ t.2.2) else t.2.1 * x ^ t.2.2

theorem product_error {R : Rounding ℝ} {u η : ℝ} (A : R.Accurate u η) (hu : u ≤ 1 / 10) {c p p' : ℝ} (hc : 0 < c) (hη : η ≤ u * c)
    (hp : |p' - p| ≤ 2 * u * |p| + η) : |R.fl (R.fl c * p') - c * p| ≤ 6 * u * (c * |p|) + (2 * c + 1) * η := by
  have h0 := A.u_nonneg
  have h1 := A.eta_nonneg
  have hc1 : |R.fl c - c| ≤ 2 * u * c := by
    have := A.err c
    rw [abs_of_pos hc] at this
    linarith
  have hc2 : |R.fl c| ≤ (1 + 2 * u) * c := by
    have := abs_sub_abs_le_abs_sub (R.fl c) c
    rw [abs_of_pos hc] at this
    linarith
  have e1 : R.fl c * p' - c * p = R.fl c * (p' - p) + (R.fl c - c) * p := by ring
  have hp0 := abs_nonneg p
  have b1 : |R.fl c * p' - c * p| ≤ (1 + 2 * u) * c * (2 * u * |p| + η) + 2 * u * c * |p| := by
    rw [e1]
    refine (abs_add_le _ _).trans ?_
    rw [abs_mul, abs_mul]
    exact add_le_add (mul_le_mul hc2 hp (abs_nonneg _) (by positivity)) (mul_le_mul_of_nonneg_right hc1 hp0)
  have b2 := A.err (R.fl c * p')
  have b3 : |R.fl c * p'| ≤ c * |p| + |R.fl c * p' - c * p| := by
    have := abs_sub_abs_le_abs_sub (R.fl c * p') (c * p)
    rw [abs_mul c p, abs_of_pos hc] at this
    linarith
  have b4 : |R.fl (R.fl c * p') - c * p| ≤ |R.fl (R.fl c * p') - R.fl c * p'| + |R.fl c * p' - c * p| := abs_sub_le _ _ _
  generalize |R.fl c * p' - c * p| = e at *
  generalize |R.fl c * p'| = m at *
  have hX : 0 ≤ c * |p| := by positivity
  have hcη : 0 ≤ c * η := by positivity
  have e2 : (1 + 2 * u) * c * (2 * u * |p| + η) + 2 * u * c * |p| = (4 * u + 4 * u ^ 2) * (c * |p|) + (1 + 2 * u) * (c * η) := by ring
  rw [e2] at b1
  generalize c * |p| = X at *
  have b5 : u * m ≤ u * (X + ((4 * u + 4 * u ^ 2) * X + (1 + 2 * u) * (c * η))) := mul_le_mul_of_nonneg_left (by linarith) h0
  have b6 : (8 * u ^ 2 + 4 * u ^ 3) * X ≤ u * X := mul_le_mul_of_nonneg_right (by nlinarith [mul_nonneg h0 h0]) hX
  have b7 : (1 + u) * (1 + 2 * u) * (c * η) ≤ 2 * (c * η) := mul_le_mul_of_nonneg_right (by nlinarith [mul_nonneg h0 h0]) hcη
  nlinarith

/-- the rounded value of a term -/
noncomputable def termFl (R : Rounding ℝ) (pow : ℝ → ℕ → ℝ) (x : ℝ) (t : Bool × ℝ × ℕ) : ℝ :=
  let v := if t.2.2 = 0 then R.fl t.2.1 else R.fl (R.fl t.2.1 * (if t.2.2 = 1 then x else pow x t.2.2))
  if t.1 then -v else v

theorem termFl_rep (R : Rounding ℝ) (pow : ℝ → ℕ → ℝ) (x : ℝ) (t : Bool × ℝ × ℕ) : R.rep (termFl R pow x t) := by
  unfold termFl
  have : R.rep (if t.2.2 = 0 then R.fl t.2.1 else R.fl (R.fl t.2.1 * (if t.2.2 = 1 then x else pow x t.2.2))) := by
    split <;> exact R.rep_fl _
  by_cases h : t.1 = true
  · simp only [h, if_true]; exact R.rep_neg _ this
  · simp only [h]; exact this

theorem termFl_error {R : Rounding ℝ} {u η : ℝ} (A : R.Accurate u η) (hu : u ≤ 1 / 10) {pow : ℝ → ℕ → ℝ} {cos : ℝ → ℝ} (L : LibraryAccurate u η pow cos)
    (x : ℝ) (t : Bool × ℝ × ℕ) (hc : 0 < t.2.1) (hη : η ≤ u * t.2.1) :
    |termFl R pow x t - termVal x t| ≤ 6 * u * |termVal x t| + (2 * t.2.1 + 1) * η := by
  obtain ⟨s, c, k⟩ := t
  simp only at hc hη
  have h0 := A.u_nonneg
  have h1 := A.eta_nonneg
  have key : |(if k = 0 then R.fl c else R.fl (R.fl c * (if k = 1 then x else pow x k))) - c * x ^ k| ≤ 6 * u * (c * |x ^ k|) + (2 * c + 1) * η := by
    by_cases hk : k = 0
    · subst hk
      simp only [if_true, pow_zero, mul_one, abs_one]
      have := A.err c
      rw [abs_of_pos hc] at this
      nlinarith [mul_nonneg h0 hc.le, mul_nonneg hc.le h1]
    · rw [if_neg hk]
      apply product_error A hu hc hη
      by_cases hk1 : k = 1
      · subst hk1
        simp only [if_true, pow_one, sub_self, abs_zero]
        positivity
      · rw [if_neg hk1]; exact L.pow x k
  have hab : |c * x ^ k| = c * |x ^ k| := by rw [abs_mul, abs_of_pos hc]
  cases s with
  | false => simpa [termFl, termVal, hab] using key
  | true =>
    simp only [termFl, termVal, if_true, abs_neg, hab]
    rw [← neg_sub_neg, neg_neg, neg_neg, abs_sub_comm]
    exact key

theorem polyFl_error {R : Rounding ℝ} {u η : ℝ} (A : R.Accurate u η) (hu : u ≤ 1 / 1000) {pow : ℝ → ℕ → ℝ} {cos : ℝ → ℝ} (L : LibraryAccurate u η pow cos)
    (terms : List (Bool × ℝ × ℕ)) (hn : terms.length = 25) (hc : ∀ t ∈ terms, 0 < t.2.1 ∧ t.2.1 ≤ 1e7 ∧ η ≤ u * t.2.1) {x : ℝ} (hx : |x| ≤ 90) :
    |polyFl R pow terms x - (terms.map (termVal x)).sum| ≤ 55 * u * (terms.map (fun t => t.2.1 * 90 ^ t.2.2)).sum + 1e9 * η := by
  have h0 := A.u_nonneg
  have h1 := A.eta_nonneg
  have key : ∀ l : List (Bool × ℝ × ℕ), (∀ t ∈ l, t ∈ terms) →
      |(l.map (termFl R pow x)).sum - (l.map (termVal x)).sum| ≤ 6 * u * (l.map (fun t => t.2.1 * 90 ^ t.2.2)).sum + l.length * (2.1e7 * η) ∧
      ((l.map (termFl R pow x)).map (|·|)).sum ≤ (1 + 6 * u) * (l.map (fun t => t.2.1 * 90 ^ t.2.2)).sum + l.length * (2.1e7 * η) := by
    intro l
    induction l with
    | nil => intro _; simp
    | cons t l ih =>
      intro hl
      obtain ⟨i1, i2⟩ := ih (fun t ht => hl t (List.mem_cons_of_mem _ ht))
      obtain ⟨c1, c2, c3⟩ := hc t (hl t List.mem_cons_self)
      have e := termFl_error A (by linarith) L x t c1 c3
      have hT : |termVal x t| ≤ t.2.1 * 90 ^ t.2.2 := by
        have : |termVal x t| = t.2.1 * |x| ^ t.2.2 := by
          unfold termVal; split <;> simp [abs_mul, abs_of_pos c1]
        rw [this]
        exact mul_le_mul_of_nonneg_left (pow_le_pow_left₀ (abs_nonneg _) hx _) c1.le
      have e' : |termFl R pow x t - termVal x t| ≤ 6 * u * (t.2.1 * 90 ^ t.2.2) + 2.1e7 * η := by
        have a1 : 6 * u * |termVal x t| ≤ 6 * u * (t.2.1 * 90 ^ t.2.2) := mul_le_mul_of_nonneg_left hT (by positivity)
        have a2 : (2 * t.2.1 + 1) * η ≤ 2.1e7 * η := mul_le_mul_of_nonneg_right (by linarith) h1
        linarith
      have e2 := abs_sub_abs_le_abs_sub (termFl R pow x t) (termVal x t)
      simp only [List.map_cons, List.sum_cons, List.length_cons]
      push_cast
      generalize t.2.1 * 90 ^ t.2.2 = T at *
      constructor
      · have : termFl R pow x t + (l.map (termFl R pow x)).sum - (termVal x t + (l.map (termVal x)).sum)
            = (termFl R pow x t - termVal x t) + ((l.map (termFl R pow x)).sum - (l.map (termVal x)).sum) := by ring
        rw [this]
        refine (abs_add_le _ _).trans ?_
        linarith
      · linarith
  obtain ⟨k1, k2⟩ := key terms (fun t h => h)
  have k3 := Props.addsUp_error A (Props.leftSum_addsUp R) (terms.map (termFl R pow x)) (fun a ha => by
    obtain ⟨t, -, rfl⟩ := List.mem_map.mp ha; exact termFl_rep R pow x t)
  have k4 : polyFl R pow terms x = leftSum R (terms.map (termFl R pow x)) := rfl
  rw [List.length_map, hn] at k3
  rw [hn] at k1 k2
  rw [k4]
  have k5 := pow_le_linear h0 24 (by push_cast; linarith)
  have hS : 0 ≤ (terms.map (fun t => t.2.1 * 90 ^ t.2.2)).sum := by
    apply List.sum_nonneg
    intro a ha
    obtain ⟨t, ht, rfl⟩ := List.mem_map.mp ha
    have := (hc t ht).1
    positivity
  have hS' : 0 ≤ ((terms.map (termFl R pow x)).map (|·|)).sum := by
    apply List.sum_nonneg
    intro a ha
    obtain ⟨t, ht, rfl⟩ := List.mem_map.mp ha
    exact abs_nonneg _
  have k6 := abs_sub_le (leftSum R (terms.map (termFl R pow x))) (terms.map (termFl R pow x)).sum (terms.map (termVal x)).sum
  generalize (terms.map (fun t => t.2.1 * 90 ^ t.2.2)).sum = S at *
  generalize ((terms.map (termFl R pow x)).map (|·|)).sum = S' at *
  have k7 : ((1 + u) ^ (25 - 1) - 1) * S' ≤ 48 * u * S' := mul_le_mul_of_nonneg_right (by push_cast at k5; norm_num at k5 ⊢; linarith) hS'
  have k8 : 48 * u * S' ≤ 48 * u * ((1 + 6 * u) * S + 25 * (2.1e7 * η)) := mul_le_mul_of_nonneg_left (by push_cast at k2; exact k2) (by positivity)
  have k9 : u * u * S ≤ 1 / 1000 * u * S := mul_le_mul_of_nonneg_right (by nlinarith) hS
  have k10 : u * η ≤ 1 / 1000 * η := mul_le_mul_of_nonneg_right hu h1
  have k11 : 0 ≤ u * S := mul_nonneg h0 hS
  push_cast at k1
  nlinarith

theorem arc_terms (x : ℝ) : (arcTerms.map (termVal x)).sum = arcLat x := by
  simp only [arcTerms, arcLat, List.map_cons, List.map_nil, List.sum_cons, List.sum_nil, termVal, if_true, Bool.false_eq_true, if_false, pow_one]
  ring

theorem rad_terms (x : ℝ) : (radTerms.map (termVal x)).sum = radLat x := by
  simp only [radTerms, radLat, List.map_cons, List.map_nil, List.sum_cons, List.sum_nil, termVal, if_true, Bool.false_eq_true, if_false, pow_zero]
  have e : (6378137.0 : ℝ) = 6378137 := by norm_num
  rw [e]
  ring

theorem arc_total : (arcTerms.map (fun t => t.2.1 * 90 ^ t.2.2)).sum ≤ 1.0064e7 := by
  simp only [arcTerms, List.map_cons, List.map_nil, List.sum_cons, List.sum_nil]
  norm_num

theorem rad_total : (radTerms.map (fun t => t.2.1 * 90 ^ t.2.2)).sum ≤ 6.5e6 := by
  simp only [radTerms, List.map_cons, List.map_nil, List.sum_cons, List.sum_nil]
  norm_num

theorem arc_coeff : ∀ t ∈ arcTerms, (1e-110 : ℝ) ≤ t.2.1 ∧ t.2.1 ≤ 1e7 := by
  simp only [arcTerms, List.mem_cons, List.not_mem_nil, or_false]
  rintro t (rfl | rfl | rfl | rfl | rfl | rfl | rfl | rfl | rfl | rfl | rfl | rfl | rfl | rfl | rfl | rfl | rfl | rfl | rfl | rfl | rfl | rfl | rfl | rfl | rfl) <;>
    norm_num

theorem rad_coeff : ∀ t ∈ radTerms, (1e-110 : ℝ) ≤ t.2.1 ∧ t.2.1 ≤ 1e7 := by
  simp only [radTerms, List.mem_cons, List.not_mem_nil, or_false]
  rintro t (rfl | rfl | rfl | rfl | rfl | rfl | rfl | rfl | rfl | rfl | rfl | rfl | rfl | rfl | rfl | rfl | rfl | rfl | rfl | rfl | rfl | rfl | rfl | rfl | rfl) <;>
    norm_num

theorem fl_close {R : Rounding ℝ} {u η : ℝ} (A : R.Accurate u η) {x x' α M : ℝ} (h : |x' - x| ≤ α) (hM : |x| ≤ M) :
    |R.fl x' - x| ≤ α + u * (M + α) + η := by
  have h1 := A.err x'
  have h2 := abs_sub_le (R.fl x') x' x
  have h3 : |x'| ≤ M + α := by
    have := abs_sub_abs_le_abs_sub x' x
    linarith
  have := mul_le_mul_of_nonneg_left h3 A.u_nonneg
  linarith

theorem mul_close {a a' b b' α β M N : ℝ} (ha : |a' - a| ≤ α) (hb : |b' - b| ≤ β) (hM : |a'| ≤ M) (hN : |b| ≤ N) : |a' * b' - a * b| ≤ M * β + α * N := by
  have e : a' * b' - a * b = a' * (b' - b) + (a' - a) * b := by ring
  rw [e]
  refine (abs_add_le _ _).trans ?_
  rw [abs_mul, abs_mul]
  exact add_le_add (mul_le_mul hM hb (abs_nonneg _) ((abs_nonneg _).trans hM)) (mul_le_mul ha hN (abs_nonneg _) ((abs_nonneg _).trans ha))

/-- rounding like that of double precision: unit roundoff below 1.2e-16, underflow negligible -/
structure FineRounding (R : Rounding ℝ) (u η : ℝ) : Prop where
  acc : R.Accurate u η
  u_le : u ≤ 1.2e-16
  eta_le : η ≤ u * 1e-200

theorem FineRounding.eta_small {R : Rounding ℝ} {u η : ℝ} (F : FineRounding R u η) : η ≤ 1e-210 := by
  have := mul_le_mul_of_nonneg_right F.u_le (by norm_num : (0 : ℝ) ≤ 1e-200)
  have h := F.eta_le
  norm_num at *
  linarith

theorem arcLatFl_close {R : Rounding ℝ} {u η : ℝ} (F : FineRounding R u η) {pow : ℝ → ℕ → ℝ} {cos : ℝ → ℝ} (L : LibraryAccurate u η pow cos) {x : ℝ}
    (hx : |x| ≤ 90) : |polyFl R pow arcTerms x - arcLat x| ≤ 7e-8 := by
  have h0 := F.acc.u_nonneg
  have h := polyFl_error F.acc (F.u_le.trans (by norm_num)) L arcTerms rfl (fun t ht => by
    obtain ⟨c1, c2⟩ := arc_coeff t ht
    refine ⟨lt_of_lt_of_le (by norm_num) c1, c2, F.eta_le.trans (mul_le_mul_of_nonneg_left (le_trans (by norm_num) c1) h0)⟩) hx
  rw [arc_terms] at h
  have e1 : 55 * u * (arcTerms.map (fun t => t.2.1 * 90 ^ t.2.2)).sum ≤ 55 * u * 1.0064e7 := mul_le_mul_of_nonneg_left arc_total (by positivity)
  have e2 := F.u_le
  have e3 := F.eta_small
  generalize (arcTerms.map (fun t => t.2.1 * 90 ^ t.2.2)).sum = S at *
  norm_num at *
  linarith

theorem radLatFl_close {R : Rounding ℝ} {u η : ℝ} (F : FineRounding R u η) {pow : ℝ → ℕ → ℝ} {cos : ℝ → ℝ} (L : LibraryAccurate u η pow cos) {x : ℝ}
    (hx : |x| ≤ 90) : |polyFl R pow radTerms x - radLat x| ≤ 5e-8 := by
  have h0 := F.acc.u_nonneg
  have h := polyFl_error F.acc (F.u_le.trans (by norm_num)) L radTerms rfl (fun t ht => by
    obtain ⟨c1, c2⟩ := rad_coeff t ht
    refine ⟨lt_of_lt_of_le (by norm_num) c1, c2, F.eta_le.trans (mul_le_mul_of_nonneg_left (le_trans (by norm_num) c1) h0)⟩) hx
  rw [rad_terms] at h
  have e1 : 55 * u * (radTerms.map (fun t => t.2.1 * 90 ^ t.2.2)).sum ≤ 55 * u * 6.5e6 := mul_le_mul_of_nonneg_left rad_total (by positivity)
  have e2 := F.u_le
  have e3 := F.eta_small
  generalize (radTerms.map (fun t => t.2.1 * 90 ^ t.2.2)).sum = S at *
  norm_num at *
  linarith

theorem rad_abs {x : ℝ} (hx : |x| ≤ 90) : |radLat x| ≤ 6378138 := by
  have h1 := Wgs84.rad_close hx
  have h2 := Wgs84.radius_le x
  have h3 := Wgs84.rad_pos hx
  unfold Spec.Wgs84.a at h2
  rw [abs_of_nonneg (by linarith)]
  have := (abs_le.mp h1).2
  norm_num at *
  linarith

theorem arcLonFl_close {R : Rounding ℝ} {u η : ℝ} (F : FineRounding R u η) {pow : ℝ → ℕ → ℝ} {cos : ℝ → ℝ} (L : LibraryAccurate u η pow cos) {lon lat : ℝ}
    (hlat : |lat| ≤ 90) (hlon : |lon| ≤ 360) : |arcLonFl R pow cos lon lat - arcLon lon lat| ≤ 4e-7 := by
  have h0 := F.acc.u_nonneg
  have hη := F.eta_small
  have hu := F.u_le
  have hη0 := F.acc.eta_nonneg
  have hd : |d2r| ≤ 0.0175 := by unfold d2r; norm_num [abs_of_pos]
  have widen : ∀ {x x' α M : ℝ}, |x' - x| ≤ α → |x| ≤ M → 0 ≤ M → ∀ β, α + 1.2e-16 * (M + α) + 1e-210 ≤ β → |R.fl x' - x| ≤ β := by
    intro x x' α M h hM hM0 β hβ
    have hα := (abs_nonneg _).trans h
    have := fl_close F.acc h hM
    have : u * (M + α) ≤ 1.2e-16 * (M + α) := mul_le_mul_of_nonneg_right hu (by linarith)
    linarith
  have d1 : |R.fl d2r - d2r| ≤ 2.2e-18 := widen (α := 0) (by simp) hd (by norm_num) _ (by norm_num)
  have a0 : |lat * d2r| ≤ 1.575 := by
    rw [abs_mul]
    exact (mul_le_mul hlat hd (abs_nonneg _) (by norm_num)).trans (by norm_num)
  have a1 : |lat * R.fl d2r - lat * d2r| ≤ 2e-16 :=
    (mul_close (α := 0) (by simp) d1 hlat hd).trans (by norm_num)
  have a2 : |R.fl (lat * R.fl d2r) - lat * d2r| ≤ 4e-16 := widen a1 a0 (by norm_num) _ (by norm_num)
  have c1 : |cos (R.fl (lat * R.fl d2r)) - Real.cos (lat * d2r)| ≤ 6.4e-16 := by
    have e1 := L.cos (R.fl (lat * R.fl d2r))
    have e2 := Real.abs_cos_sub_cos_le (R.fl (lat * R.fl d2r)) (lat * d2r)
    have e3 := abs_sub_le (cos (R.fl (lat * R.fl d2r))) (Real.cos (R.fl (lat * R.fl d2r))) (Real.cos (lat * d2r))
    norm_num at *
    linarith
  have r1 := radLatFl_close F L hlat
  have r2 := rad_abs hlat
  have r3 : |polyFl R pow radTerms lat| ≤ 6378139 := by
    have := abs_sub_abs_le_abs_sub (polyFl R pow radTerms lat) (radLat lat)
    norm_num at *
    linarith
  have p0 : |radLat lat * Real.cos (lat * d2r)| ≤ 6378138 := by
    rw [abs_mul]
    exact (mul_le_mul r2 (Real.abs_cos_le_one _) (abs_nonneg _) (by norm_num)).trans (by norm_num)
  have p1 := mul_close r1 c1 r3 (Real.abs_cos_le_one (lat * d2r))
  have p2 := widen (p1.trans (b := _) (c := 5.5e-8 - 8e-10) (by norm_num)) p0 (by norm_num) 5.5e-8 (by norm_num)
  have p3 : |R.fl (polyFl R pow radTerms lat * cos (R.fl (lat * R.fl d2r)))| ≤ 6378139 := by
    have := abs_sub_abs_le_abs_sub (R.fl (polyFl R pow radTerms lat * cos (R.fl (lat * R.fl d2r)))) (radLat lat * Real.cos (lat * d2r))
    norm_num at *
    linarith
  have q0 : |radLat lat * Real.cos (lat * d2r) * lon| ≤ 2.2962e9 := by
    rw [abs_mul]
    exact (mul_le_mul p0 hlon (abs_nonneg _) (by norm_num)).trans (by norm_num)
  have q1 := mul_close (b := lon) (b' := lon) (β := 0) p2 (by simp) p3 hlon
  have q2 := widen (q1.trans (b := _) (c := 1.98e-5) (by norm_num)) q0 (by norm_num) 2.01e-5 (by norm_num)
  have q3 : |R.fl (R.fl (polyFl R pow radTerms lat * cos (R.fl (lat * R.fl d2r))) * lon)| ≤ 2.2963e9 := by
    have := abs_sub_abs_le_abs_sub (R.fl (R.fl (polyFl R pow radTerms lat * cos (R.fl (lat * R.fl d2r))) * lon)) (radLat lat * Real.cos (lat * d2r) * lon)
    norm_num at *
    linarith
  have s0 : |radLat lat * Real.cos (lat * d2r) * lon * d2r| ≤ 4.1e7 := by
    rw [abs_mul]
    exact (mul_le_mul q0 hd (abs_nonneg _) (by norm_num)).trans (by norm_num)
  have s1 := mul_close q2 d1 q3 hd
  exact widen (s1.trans (b := _) (c := 3.6e-7) (by norm_num)) s0 (by norm_num) 4e-7 (by norm_num)

end Verif.Lemmas.Gradient
