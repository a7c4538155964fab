import Verif.Lemmas.FloatPearson
import Verif.Props.Pearson
import Verif.Basic.Formats
import Verif.Lemmas.FloatCast

/-
C167, C168: pearson_r in floating-point arithmetic.
-/

set_option linter.unusedSectionVars false
namespace Verif.Props
open Model Spec Lemmas

/-! ### Auxiliary facts -/

theorem orZero_congr {α β : Type} (v : α → Option β) (T : List α) (F G : β → ℝ) (h : ∀ y ∈ T.filterMap v, F y = G y) :
    T.map (orZero v F) = T.map (orZero v G) := by
  refine List.map_congr_left fun x hx => ?_
  unfold orZero
  cases hv : v x with
  | none => rfl
  | some y => exact h y (List.mem_filterMap.mpr ⟨x, hx, hv⟩)

theorem orZero_neg {α β : Type} (v : α → Option β) (T : List α) (F G : β → ℝ) (h : ∀ y ∈ T.filterMap v, F y = - G y) :
    T.map (orZero v F) = (T.map (orZero v G)).map (fun x => -x) := by
  rw [List.map_map]
  refine List.map_congr_left fun x hx => ?_
  simp only [orZero, Function.comp]
  cases hv : v x with
  | none => simp
  | some y => exact h y (List.mem_filterMap.mpr ⟨x, hx, hv⟩)

theorem mem_orZero {α β : Type} (v : α → Option β) (T : List α) (F : β → ℝ) (z : ℝ) (h : z ∈ T.map (orZero v F)) :
    z = 0 ∨ ∃ y ∈ T.filterMap v, z = F y := by
  obtain ⟨x, hx, rfl⟩ := List.mem_map.mp h
  unfold orZero
  cases hv : v x with
  | none => exact Or.inl rfl
  | some y => exact Or.inr ⟨y, List.mem_filterMap.mpr ⟨x, hx, hv⟩, rfl⟩

theorem orZero_mem {α β : Type} (v : α → Option β) (T : List α) (F : β → ℝ) (y : β) (hy : y ∈ T.filterMap v) : F y ∈ T.map (orZero v F) := by
  obtain ⟨x, hx, hv⟩ := List.mem_filterMap.mp hy
  refine List.mem_map.mpr ⟨x, hx, ?_⟩
  simp [orZero, hv]

theorem abs_fl_ge (R : Rounding ℝ) (c z : ℝ) (hc : R.rep c) (h : c ≤ |z|) : c ≤ |R.fl z| := by
  rcases le_total 0 z with hz | hz
  · rw [abs_of_nonneg hz] at h
    exact (R.le_fl hc h).trans (le_abs_self _)
  · rw [abs_of_nonpos hz] at h
    have := R.fl_le (R.rep_neg _ hc) (by linarith : z ≤ -c)
    rw [abs_of_nonpos (R.fl_nonpos hz)]
    linarith

theorem rep_two_zpow {p : ℕ} {emin : ℤ} {e : ℤ} (h : emin ≤ e) : RepBin p emin ((2 : ℝ) ^ e) :=
  ⟨1, e, h, by simpa using one_le_pow₀ (n := p) (by norm_num : (1 : ℤ) ≤ 2), by simp⟩

theorem fl_mul_ge {p : ℕ} {emin : ℤ} (hp : 1 ≤ p) (he : emin ≤ 0) {a b : ℤ} {x y : ℝ} (hx : (2 : ℝ) ^ a ≤ |x|) (hy : (2 : ℝ) ^ b ≤ |y|)
    (hab : emin ≤ a + b) : (2 : ℝ) ^ (a + b) ≤ |(binary p emin hp he : Rounding ℝ).fl (x * y)| := by
  apply abs_fl_ge
  · exact rep_two_zpow hab
  · rw [abs_mul, zpow_add₀ (by norm_num)]
    exact mul_le_mul hx hy (two_zpow_pos b).le ((two_zpow_pos a).le.trans hx)

/-- one of two different numbers is far from any given one -/
theorem far_from {k : ℤ} {x y m : ℝ} (h : (2 : ℝ) ^ k ≤ |x - y|) : (2 : ℝ) ^ (k - 1) ≤ |x - m| ∨ (2 : ℝ) ^ (k - 1) ≤ |y - m| := by
  by_contra hc
  push Not at hc
  have h1 : (2 : ℝ) ^ k = 2 ^ (k - 1) + 2 ^ (k - 1) := by
    rw [zpow_sub₀ (by norm_num)]
    norm_num
  have h2 := abs_sub_le x m y
  rw [abs_sub_comm m y] at h2
  linarith [hc.1, hc.2]

/-- the quotient for a sum of products that is `σ` times the sum of squares -/
theorem quotFl_unit {p : ℕ} {emin : ℤ} (hp : 1 ≤ p) (he : emin ≤ 0) (hN : emin + p - 1 ≤ 0) {q : ℤ} (hq : emin + p - 1 ≤ 2 * q) (s σ : ℝ)
    (hs : RepBin p emin s) (hsq : (2 : ℝ) ^ q ≤ s) (hσ : σ = 1 ∨ σ = -1) : quotFl (binary p emin hp he) (σ * s) s s = .fin σ := by
  have s0 : 0 < s := (two_zpow_pos q).trans_le hsq
  have h1 : (2 : ℝ) ^ (emin + p - 1) ≤ s := (two_zpow_mono (by omega)).trans hsq
  have h2 : (2 : ℝ) ^ (emin + p - 1) ≤ s * s := by
    refine (two_zpow_mono hq).trans ?_
    rw [two_mul, zpow_add₀ (by norm_num)]
    exact mul_le_mul hsq hsq (two_zpow_pos q).le s0.le
  have hroot := sqrt_sq_round hp hs h1 h2
  have hnn : 0 ≤ roundBin p emin (s * s) := roundBin_nonneg p emin (mul_pos s0 s0).le
  have hfl : ∀ x, (binary p emin hp he : Rounding ℝ).fl x = roundBin p emin x := fun _ => rfl
  have hrσ : (binary p emin hp he : Rounding ℝ).rep σ := by
    rcases hσ with rfl | rfl
    · exact (binary p emin hp he : Rounding ℝ).rep_one
    · exact (binary p emin hp he : Rounding ℝ).rep_neg _ (binary p emin hp he : Rounding ℝ).rep_one
  unfold quotFl
  rw [hfl, xSqrt, if_neg (not_lt.mpr hnn), roundXF_fin, hfl, hroot, XF.fin_div _ _ s0.ne', mul_div_assoc, div_self s0.ne', mul_one, roundXF_fin,
    (binary p emin hp he : Rounding ℝ).fl_of_rep σ hrσ]
  rcases hσ with rfl | rfl <;> simp [clipUnit]

/-- the square of a deviation is not negative, also with a weight -/
theorem wsq_nonneg (R : Rounding ℝ) (w d : ℝ) (hw : 0 ≤ w) : 0 ≤ R.fl (R.fl (w * d) * d) := by
  apply R.fl_nonneg
  rcases le_total 0 d with hd | hd
  · exact mul_nonneg (R.fl_nonneg (mul_nonneg hw hd)) hd
  · exact mul_nonneg_of_nonpos_of_nonpos (R.fl_nonpos (mul_nonpos_of_nonneg_of_nonpos hw hd)) hd

section
variable {α : Type} {p : ℕ} {emin : ℤ} (hp : 1 ≤ p) (he : emin ≤ 0) (sum : List ℝ → ℝ) (hs : AddsUp (binary p emin hp he) sum)
  (v : α → Option (ℝ × ℝ × ℝ)) (T : List α)
include hs

/-- the sum of squares of values two of which differ -/
theorem prodSum_big {k : ℤ} (hk : k ≤ 0) (hq : emin ≤ 2 * k - 2) (m : ℝ) (c d : ℝ × ℝ × ℝ) (hc : c ∈ T.filterMap v) (hd : d ∈ T.filterMap v)
    (hcd : (2 : ℝ) ^ k ≤ |c.2.1 - d.2.1|) :
    RepBin p emin (prodSum (binary p emin hp he) sum v T (·.2.1) (·.2.1) m m) ∧
    (2 : ℝ) ^ (2 * k - 2) ≤ prodSum (binary p emin hp he) sum v T (·.2.1) (·.2.1) m m := by
  set R : Rounding ℝ := binary p emin hp he with hR
  have hnn : ∀ a ∈ T.map (orZero v (fun y : ℝ × ℝ × ℝ => R.fl (R.fl (y.2.1 - m) * R.fl (y.2.1 - m)))), 0 ≤ a := by
    intro a ha
    rcases mem_orZero v T _ a ha with rfl | ⟨y, -, rfl⟩
    · exact le_refl _
    · exact R.fl_nonneg (mul_self_nonneg _)
  have hrep : ∀ a ∈ T.map (orZero v (fun y : ℝ × ℝ × ℝ => R.fl (R.fl (y.2.1 - m) * R.fl (y.2.1 - m)))), R.rep a := by
    intro a ha
    rcases mem_orZero v T _ a ha with rfl | ⟨y, -, rfl⟩
    · exact R.rep_zero
    · exact R.rep_fl _
  refine ⟨addsUp_rep hs hrep, ?_⟩
  have key : ∀ y ∈ T.filterMap v, (2 : ℝ) ^ (k - 1) ≤ |y.2.1 - m| →
      (2 : ℝ) ^ (2 * k - 2) ≤ prodSum R sum v T (·.2.1) (·.2.1) m m := by
    intro y hy hf
    have h1 := abs_fl_ge R _ _ (rep_two_zpow (p := p) (by omega : emin ≤ k - 1)) hf
    have h2 := fl_mul_ge hp he h1 h1 (by omega)
    rw [← hR, abs_of_nonneg (R.fl_nonneg (mul_self_nonneg _)), show k - 1 + (k - 1) = 2 * k - 2 by ring] at h2
    exact h2.trans (addsUp_ge hs hnn hrep _ (orZero_mem v T _ y hy))
  rcases far_from (m := m) hcd with h | h
  · exact key c hc h
  · exact key d hd h

/-- the weighted sum of squares of values two of which differ -/
theorem prodSumW_big {j k : ℤ} (hj : j ≤ 0) (hk : k ≤ 0) (hq : emin ≤ j + 2 * k - 2) (m : ℝ) (hw : ∀ y ∈ T.filterMap v, (2 : ℝ) ^ j ≤ y.1)
    (c d : ℝ × ℝ × ℝ) (hc : c ∈ T.filterMap v) (hd : d ∈ T.filterMap v) (hcd : (2 : ℝ) ^ k ≤ |c.2.1 - d.2.1|) :
    RepBin p emin (prodSumW (binary p emin hp he) sum v T (·.2.1) (·.2.1) m m) ∧
    (2 : ℝ) ^ (j + 2 * k - 2) ≤ prodSumW (binary p emin hp he) sum v T (·.2.1) (·.2.1) m m := by
  set R : Rounding ℝ := binary p emin hp he with hR
  have hnn : ∀ a ∈ T.map (orZero v (fun y : ℝ × ℝ × ℝ => R.fl (R.fl (y.1 * R.fl (y.2.1 - m)) * R.fl (y.2.1 - m)))), 0 ≤ a := by
    intro a ha
    rcases mem_orZero v T _ a ha with rfl | ⟨y, hy, rfl⟩
    · exact le_refl _
    · exact wsq_nonneg R _ _ ((two_zpow_pos j).le.trans (hw y hy))
  have hrep : ∀ a ∈ T.map (orZero v (fun y : ℝ × ℝ × ℝ => R.fl (R.fl (y.1 * R.fl (y.2.1 - m)) * R.fl (y.2.1 - m)))), R.rep a := by
    intro a ha
    rcases mem_orZero v T _ a ha with rfl | ⟨y, -, rfl⟩
    · exact R.rep_zero
    · exact R.rep_fl _
  refine ⟨addsUp_rep hs hrep, ?_⟩
  have key : ∀ y ∈ T.filterMap v, (2 : ℝ) ^ (k - 1) ≤ |y.2.1 - m| →
      (2 : ℝ) ^ (j + 2 * k - 2) ≤ prodSumW R sum v T (·.2.1) (·.2.1) m m := by
    intro y hy hf
    have hw' := hw y hy
    have w0 : 0 < y.1 := (two_zpow_pos j).trans_le hw'
    have h1 := abs_fl_ge R _ _ (rep_two_zpow (p := p) (by omega : emin ≤ k - 1)) hf
    have h2 := fl_mul_ge hp he (by rwa [abs_of_pos w0] : (2 : ℝ) ^ j ≤ |y.1|) h1 (by omega)
    have h3 := fl_mul_ge hp he h2 h1 (by omega)
    rw [← hR, abs_of_nonneg (wsq_nonneg R _ _ w0.le), show j + (k - 1) + (k - 1) = j + 2 * k - 2 by ring] at h3
    exact h3.trans (addsUp_ge hs hnn hrep _ (orZero_mem v T _ y hy))
  rcases far_from (m := m) hcd with h | h
  · exact key c hc h
  · exact key d hd h

end

theorem binary_neg {p : ℕ} {emin : ℤ} (hp : 1 ≤ p) (he : emin ≤ 0) (x : ℝ) :
    (binary p emin hp he : Rounding ℝ).fl (-x) = - (binary p emin hp he : Rounding ℝ).fl x := roundBin_neg p emin x

/-- the cells of a series and `σ` times the series -/
theorem core_unit {p : ℕ} {emin : ℤ} (hp : 1 ≤ p) (he : emin ≤ 0) (hN : emin + p - 1 ≤ 0) (sum : List ℝ → ℝ)
    (hs : AddsUp (binary p emin hp he) sum) (σ : ℝ) (hσ : σ = 1 ∨ (σ = -1 ∧ ∀ l : List ℝ, sum (l.map (fun x => -x)) = - sum l))
    (T : List (ℝ × Option ℝ × Option ℝ)) (hT : ∀ y ∈ T.filterMap cellVal, y.2.2 = σ * y.2.1) (skip : Bool)
    (hskip : skip = true ∨ ∀ x ∈ T, (cellVal x).isSome = true) (j k : ℤ) (hj : j ≤ 0) (hk : k ≤ 0) (hq : emin + p - 1 ≤ 2 * (j + 2 * k - 2))
    (hw : ∀ x ∈ T, (2 : ℝ) ^ j ≤ x.1) (hrep : ∀ x ∈ T, RepBin p emin x.1)
    (c d : ℝ × ℝ × ℝ) (hc : c ∈ T.filterMap cellVal) (hd : d ∈ T.filterMap cellVal) (hcd : (2 : ℝ) ^ k ≤ |c.2.1 - d.2.1|) :
    pearsonCoreFl (binary p emin hp he) sum (T.map (fun x => toX x.2.1)) (T.map (fun x => toX x.2.2)) (some (T.map (fun x => .fin x.1))) skip =
      .ok (.fin σ) ∧
    pearsonCoreFl (binary p emin hp he) sum (T.map (fun x => toX x.2.1)) (T.map (fun x => toX x.2.2)) none skip = .ok (.fin σ) := by
  have hb1 := fun x => binary_neg hp he x
  have hne : T.filterMap cellVal ≠ [] := List.ne_nil_of_mem hc
  have hσ' : σ = 1 ∨ σ = -1 := hσ.imp_right And.left
  have hemin : emin ≤ j + 2 * k - 2 := by omega
  have hwy : ∀ y ∈ T.filterMap cellVal, (2 : ℝ) ^ j ≤ y.1 ∧ RepBin p emin y.1 := by
    intro y hy
    obtain ⟨x, hx, h⟩ := List.mem_filterMap.mp hy
    have h' := val_w x y h
    injection h' with h'
    rw [← h']
    exact ⟨hw x hx, hrep x hx⟩
  have bigW := fun m => prodSumW_big hp he sum hs cellVal T hj hk hemin m (fun y hy => (hwy y hy).1) c d hc hd hcd
  have big := fun m => prodSum_big hp he sum hs cellVal T hk (by omega : emin ≤ 2 * k - 2) m c d hc hd hcd
  set R : Rounding ℝ := binary p emin hp he with hR
  constructor
  · have hW : sum (T.map (orZero cellVal (·.1))) ≠ 0 := by
      have h1 : (2 : ℝ) ^ j ≤ sum (T.map (orZero cellVal (·.1))) := by
        refine (hwy c hc).1.trans (addsUp_ge hs (fun a ha => ?_) (fun a ha => ?_) _ (orZero_mem cellVal T _ c hc))
        · rcases mem_orZero cellVal T _ a ha with rfl | ⟨y, hy, rfl⟩
          · exact le_refl _
          · exact (two_zpow_pos j).le.trans (hwy y hy).1
        · rcases mem_orZero cellVal T _ a ha with rfl | ⟨y, hy, rfl⟩
          · exact R.rep_zero
          · exact (hwy y hy).2
      exact ((two_zpow_pos j).trans_le h1).ne'
    rw [coreFl_some R sum T skip hskip, tailFl_weights R sum skip cellVal T hskip hne hW]
    congr 1
    set ma := wMeanFl R sum cellVal T (·.2.1) with hma
    obtain ⟨r1, r2⟩ := bigW ma
    set s := prodSumW R sum cellVal T (·.2.1) (·.2.1) ma ma with hsdef
    rcases hσ with rfl | ⟨rfl, hneg⟩
    · simp only [one_mul] at hT
      have e0 : wMeanFl R sum cellVal T (·.2.2) = ma := by
        rw [hma]
        unfold wMeanFl
        rw [orZero_congr cellVal T (fun y => R.fl (y.2.2 * y.1)) (fun y => R.fl (y.2.1 * y.1)) (fun y hy => by (try dsimp only); rw [hT y hy])]
      have e1 : prodSumW R sum cellVal T (·.2.1) (·.2.2) ma ma = s := by
        rw [hsdef]
        unfold prodSumW
        rw [orZero_congr cellVal T _ (fun y => R.fl (R.fl (y.1 * R.fl (y.2.1 - ma)) * R.fl (y.2.1 - ma))) (fun y hy => by (try dsimp only); rw [hT y hy])]
      have e2 : prodSumW R sum cellVal T (·.2.2) (·.2.2) ma ma = s := by
        rw [hsdef]
        unfold prodSumW
        rw [orZero_congr cellVal T _ (fun y => R.fl (R.fl (y.1 * R.fl (y.2.1 - ma)) * R.fl (y.2.1 - ma))) (fun y hy => by (try dsimp only); rw [hT y hy])]
      rw [e0, e1, e2]
      have := quotFl_unit hp he hN hq s 1 r1 r2 (Or.inl rfl)
      rwa [one_mul] at this
    · have hT' : ∀ y ∈ T.filterMap cellVal, y.2.2 = - y.2.1 := fun y hy => by rw [hT y hy]; ring
      have e0 : wMeanFl R sum cellVal T (·.2.2) = - ma := by
        rw [hma]
        unfold wMeanFl
        rw [orZero_neg cellVal T (fun y => R.fl (y.2.2 * y.1)) (fun y => R.fl (y.2.1 * y.1)) (fun y hy => by rw [hT' y hy, neg_mul, hb1]), hneg,
          neg_div, hb1]
      have e1 : prodSumW R sum cellVal T (·.2.1) (·.2.2) ma (- ma) = -1 * s := by
        rw [hsdef]
        unfold prodSumW
        rw [orZero_neg cellVal T _ (fun y => R.fl (R.fl (y.1 * R.fl (y.2.1 - ma)) * R.fl (y.2.1 - ma))) (fun y hy => by
          dsimp only
          rw [hT' y hy, show -y.2.1 - -ma = -(y.2.1 - ma) by ring, hb1, mul_neg, hb1]), hneg]
        ring
      have e2 : prodSumW R sum cellVal T (·.2.2) (·.2.2) (- ma) (- ma) = s := by
        rw [hsdef]
        unfold prodSumW
        rw [orZero_congr cellVal T _ (fun y => R.fl (R.fl (y.1 * R.fl (y.2.1 - ma)) * R.fl (y.2.1 - ma))) (fun y hy => by
          dsimp only
          rw [hT' y hy, show -y.2.1 - -ma = -(y.2.1 - ma) by ring, hb1, mul_neg y.1, hb1, neg_mul_neg])]
      rw [e0, e1, e2]
      exact quotFl_unit hp he hN hq s (-1) r1 r2 (Or.inr rfl)
  · rw [coreFl_none R sum T skip hskip, tailFl_unweighted R sum skip cellVal T hskip hne]
    congr 1
    set ma := meanCellsFl R sum cellVal T (·.2.1) with hma
    obtain ⟨r1, r2⟩ := big ma
    set s := prodSum R sum cellVal T (·.2.1) (·.2.1) ma ma with hsdef
    rcases hσ with rfl | ⟨rfl, hneg⟩
    · simp only [one_mul] at hT
      have e0 : meanCellsFl R sum cellVal T (·.2.2) = ma := by
        rw [hma]
        unfold meanCellsFl
        rw [orZero_congr cellVal T (·.2.2) (·.2.1) hT]
      have e1 : prodSum R sum cellVal T (·.2.1) (·.2.2) ma ma = s := by
        rw [hsdef]
        unfold prodSum
        rw [orZero_congr cellVal T _ (fun y => R.fl (R.fl (y.2.1 - ma) * R.fl (y.2.1 - ma))) (fun y hy => by (try dsimp only); rw [hT y hy])]
      have e2 : prodSum R sum cellVal T (·.2.2) (·.2.2) ma ma = s := by
        rw [hsdef]
        unfold prodSum
        rw [orZero_congr cellVal T _ (fun y => R.fl (R.fl (y.2.1 - ma) * R.fl (y.2.1 - ma))) (fun y hy => by (try dsimp only); rw [hT y hy])]
      rw [e0, e1, e2]
      have := quotFl_unit hp he hN (by omega : emin + p - 1 ≤ 2 * (2 * k - 2)) s 1 r1 r2 (Or.inl rfl)
      rwa [one_mul] at this
    · have hT' : ∀ y ∈ T.filterMap cellVal, y.2.2 = - y.2.1 := fun y hy => by rw [hT y hy]; ring
      have e0 : meanCellsFl R sum cellVal T (·.2.2) = - ma := by
        rw [hma]
        unfold meanCellsFl
        rw [orZero_neg cellVal T (·.2.2) (·.2.1) hT', hneg, neg_div, hb1]
      have e1 : prodSum R sum cellVal T (·.2.1) (·.2.2) ma (- ma) = -1 * s := by
        rw [hsdef]
        unfold prodSum
        rw [orZero_neg cellVal T _ (fun y => R.fl (R.fl (y.2.1 - ma) * R.fl (y.2.1 - ma))) (fun y hy => by
          dsimp only
          rw [hT' y hy, show -y.2.1 - -ma = -(y.2.1 - ma) by ring, hb1, mul_neg, hb1]), hneg]
        ring
      have e2 : prodSum R sum cellVal T (·.2.2) (·.2.2) (- ma) (- ma) = s := by
        rw [hsdef]
        unfold prodSum
        rw [orZero_congr cellVal T _ (fun y => R.fl (R.fl (y.2.1 - ma) * R.fl (y.2.1 - ma))) (fun y hy => by
          dsimp only
          rw [hT' y hy, show -y.2.1 - -ma = -(y.2.1 - ma) by ring, hb1, neg_mul_neg])]
      rw [e0, e1, e2]
      exact quotFl_unit hp he hN (by omega : emin + p - 1 ≤ 2 * (2 * k - 2)) s (-1) r1 r2 (Or.inr rfl)

/-! ### C167 -/

theorem xSumFl_exact (l : List (XF ℝ)) : xSumFl List.sum l = xSum l := by
  unfold xSumFl
  split
  · rename_i h
    unfold xSum
    induction l with
    | nil => rfl
    | cons x l ih =>
      simp only [List.all_cons, Bool.and_eq_true] at h
      rw [List.map_cons, List.sum_cons, List.foldr_cons, ← ih h.2]
      cases x with
      | fin x => rfl
      | pinf => exact absurd h.1 (by simp [xIsFin])
      | ninf => exact absurd h.1 (by simp [xIsFin])
      | nan => exact absurd h.1 (by simp [xIsFin])
  · rfl

/-- `C167`: with exact arithmetic the computation is the one of C64 -/
theorem C167_exact {X : Type} (xs : StatArg X → StatArg X → Option (List (XF ℝ)) → Bool → Except PyErr X) (a b : StatArg X) (w : Option (List (XF ℝ)))
    (skipna : Bool) : pearsonRFl Rounding.exact List.sum xs a b w skipna = pearsonR xs a b w skipna := by
  have h3 : pearsonTailFl Rounding.exact List.sum = pearsonTail := by
    funext a b w s
    have g1 : sumFuncFl List.sum s = sumFunc s := by
      funext l
      unfold sumFuncFl sumFunc
      simp only [xSumFl_exact]
    have g2 : meanFuncFl Rounding.exact List.sum s = meanFunc s := by
      funext l
      unfold meanFuncFl meanFunc sumFuncFl sumFunc
      simp only [xSumFl_exact, roundXF_exact]
    unfold pearsonTailFl pearsonTail
    simp only [roundXF_exact, g1, g2]
    rfl
  have h4 : pearsonCoreFl Rounding.exact List.sum = pearsonCore := by
    funext a b w s
    unfold pearsonCoreFl pearsonCore
    rw [h3]
  unfold pearsonRFl pearsonR
  rw [h4]

theorem clipUnit_range (x : XF ℝ) : clipUnit x = .nan ∨ ∃ r, clipUnit x = .fin r ∧ -1 ≤ r ∧ r ≤ 1 := by
  cases x with
  | fin x => exact Or.inr ⟨_, rfl, le_max_left _ _, max_le (by norm_num) (min_le_right _ _)⟩
  | pinf => exact Or.inr ⟨_, rfl, by norm_num, le_refl _⟩
  | ninf => exact Or.inr ⟨_, rfl, le_refl _, by norm_num⟩
  | nan => exact Or.inl rfl

/-- `C167`: whatever the rounding, the order of summation and the data, a number returned for arrays is NaN or lies between -1 and 1 -/
theorem C167_range {X : Type} (R : Rounding ℝ) (sum : List ℝ → ℝ) (xs : StatArg X → StatArg X → Option (List (XF ℝ)) → Bool → Except PyErr X)
    (a b : List (XF ℝ)) (w : Option (List (XF ℝ))) (skipna : Bool) (x : XF ℝ)
    (h : pearsonRFl R sum xs (.array a) (.array b) w skipna = .ok (some (.number x))) : x = .nan ∨ ∃ r, x = .fin r ∧ -1 ≤ r ∧ r ≤ 1 := by
  have tail : ∀ a b w, ∀ y, pearsonTailFl R sum a b w skipna = .ok y → ∃ z, y = clipUnit z := by
    intro a b w y hy
    unfold pearsonTailFl at hy
    simp only [bind, Except.bind, pure, Except.pure] at hy
    repeat' split at hy
    all_goals first | (injection hy with hy; exact ⟨_, hy.symm⟩) | cases hy
  have core : ∀ y, pearsonCoreFl R sum a b w skipna = .ok y → ∃ z, y = clipUnit z := by
    intro y hy
    unfold pearsonCoreFl at hy
    simp only [bind, Except.bind, pure, Except.pure] at hy
    cases skipna with
    | false => exact tail _ _ _ y hy
    | true =>
      simp only [if_true] at hy
      cases hm : matchNans a b w with
      | error e => rw [hm] at hy; cases hy
      | ok t => rw [hm] at hy; exact tail _ _ _ y hy
  simp only [pearsonRFl, StatArg.isDataArray, Bool.false_eq_true, not_false_eq_true, and_self, if_true, npRavel, bind, Except.bind] at h
  cases hc : pearsonCoreFl R sum a b w skipna with
  | error e =>
    rw [hc] at h
    simp only [Except.map, swallowValueError] at h
    cases e <;> simp at h
  | ok y =>
    rw [hc] at h
    simp only [Except.map, swallowValueError, Except.ok.injEq, Option.some.injEq, StatOut.number.injEq] at h
    obtain ⟨z, hz⟩ := core y hc
    rw [← h, hz]
    exact clipUnit_range z

theorem zip_cell {ws : List ℝ} {a b : List (Option ℝ)} (ha : a.length = ws.length) (hb : b.length = ws.length) {f : ℝ → ℝ} (hab : b = a.map (Option.map f)) {x : ℝ}
    (hx : some x ∈ a) : ∃ w ∈ ws, (w, x, f x) ∈ (List.zip ws (List.zip a b)).filterMap cellVal := by
  obtain ⟨i, hi, e⟩ := List.getElem_of_mem hx
  refine ⟨ws[i]'(by omega), List.getElem_mem _, List.mem_filterMap.mpr ⟨(ws[i]'(by omega), some x, some (f x)), ?_, rfl⟩⟩
  rw [List.mem_iff_getElem]
  refine ⟨i, by simp; omega, ?_⟩
  subst hab
  simp [e]

/-- the common part of the two theorems below -/
theorem pearsonRFl_unit {X : Type} (xs : StatArg X → StatArg X → Option (List (XF ℝ)) → Bool → Except PyErr X) {p : ℕ} {emin : ℤ} (hp : 1 ≤ p) (he : emin ≤ 0)
    (hN : emin + p - 1 ≤ 0) (sum : List ℝ → ℝ) (hs : AddsUp (binary p emin hp he) sum) (σ : ℝ)
    (hσ : σ = 1 ∨ (σ = -1 ∧ ∀ l : List ℝ, sum (l.map (fun x => -x)) = - sum l)) (ws : List ℝ) (w : Option (List (XF ℝ))) (hw : WeightsArg ws w)
    (a b : List (Option ℝ)) (hab : b = a.map (Option.map (fun x => σ * x))) (ha : a.length = ws.length) (skipna : Bool) (hskip : skipna = true ∨ none ∉ a)
    (j k : ℤ) (hj : j ≤ 0) (hk : k ≤ 0) (hq : emin + p - 1 ≤ 2 * (j + 2 * k - 2)) (hwj : ∀ x ∈ ws, (2 : ℝ) ^ j ≤ x ∧ RepBin p emin x)
    (hv : ∃ x y, some x ∈ a ∧ some y ∈ a ∧ (2 : ℝ) ^ k ≤ |x - y|) :
    pearsonRFl (binary p emin hp he) sum xs (.array (a.map toX)) (.array (b.map toX)) w skipna = .ok (some (.number (.fin σ))) := by
  have hb : b.length = ws.length := by rw [hab, List.length_map, ha]
  obtain ⟨h1, h2, h3⟩ := maps_zip ws a b ha hb
  obtain ⟨x, y, hx, hy, hxy⟩ := hv
  obtain ⟨wx, hwx, mx⟩ := zip_cell ha hb hab hx
  obtain ⟨wy, hwy, my⟩ := zip_cell ha hb hab hy
  have hcell : ∀ t ∈ List.zip ws (List.zip a b), t.2.2 = t.2.1.map (fun x => σ * x) := by
    intro t ht
    have hz := (List.of_mem_zip ht).2
    rw [hab] at hz
    obtain ⟨i, hi, e⟩ := List.getElem_of_mem hz
    rw [List.getElem_zip, List.getElem_map] at e
    rw [← e]
  have hT : ∀ t ∈ (List.zip ws (List.zip a b)).filterMap cellVal, t.2.2 = σ * t.2.1 := by
    intro t ht
    obtain ⟨c, hc, e⟩ := List.mem_filterMap.mp ht
    have := hcell c hc
    obtain ⟨w, o, m⟩ := c
    cases o with
    | none => simp [cellVal] at e
    | some o =>
      simp only [Option.map_some] at this
      subst this
      simp only [cellVal, Option.some.injEq] at e
      rw [← e]
  have hall : skipna = true ∨ ∀ t ∈ List.zip ws (List.zip a b), (cellVal t).isSome = true := by
    refine hskip.imp_right fun hn t ht => ?_
    have e := hcell t ht
    have ho := (List.of_mem_zip (List.of_mem_zip ht).2).1
    obtain ⟨w, o, m⟩ := t
    cases o with
    | none => exact absurd ho hn
    | some o =>
      simp only [Option.map_some] at e
      subst e
      rfl
  have key := core_unit hp he hN sum hs σ hσ (List.zip ws (List.zip a b)) hT skipna hall j k hj hk hq
    (fun t ht => (hwj _ (List.of_mem_zip ht).1).1) (fun t ht => (hwj _ (List.of_mem_zip ht).1).2) _ _ mx my hxy
  have hcore : pearsonCoreFl (binary p emin hp he) sum (a.map toX) (b.map toX) w skipna = .ok (.fin σ) := by
    rw [← h1, ← h2]
    cases hw with
    | given _ _ =>
      rw [← h3]
      exact key.1
    | absent n => exact key.2
  simp only [pearsonRFl, StatArg.isDataArray, Bool.false_eq_true, not_false_eq_true, and_self, if_true, npRavel, bind, Except.bind, hcore, Except.map,
    swallowValueError]

/-- `C167`: in binary floating-point arithmetic with rounding to nearest, the correlation of an array with itself is exactly 1 - whatever the order of
summation, with or without weights and missing values - if two values are at least `2 ^ k` apart and all weights at least `2 ^ j` (so that the squares
do not underflow) -/
theorem C167_identical {X : Type} (xs : StatArg X → StatArg X → Option (List (XF ℝ)) → Bool → Except PyErr X) {p : ℕ} {emin : ℤ} (hp : 1 ≤ p) (he : emin ≤ 0)
    (hN : emin + p - 1 ≤ 0) (sum : List ℝ → ℝ) (hs : AddsUp (binary p emin hp he) sum) (ws : List ℝ) (w : Option (List (XF ℝ))) (hw : WeightsArg ws w)
    (a : List (Option ℝ)) (ha : a.length = ws.length) (skipna : Bool) (hskip : skipna = true ∨ none ∉ a) (j k : ℤ) (hj : j ≤ 0) (hk : k ≤ 0)
    (hq : emin + p - 1 ≤ 2 * (j + 2 * k - 2)) (hwj : ∀ x ∈ ws, (2 : ℝ) ^ j ≤ x ∧ RepBin p emin x)
    (hv : ∃ x y, some x ∈ a ∧ some y ∈ a ∧ (2 : ℝ) ^ k ≤ |x - y|) :
    pearsonRFl (binary p emin hp he) sum xs (.array (a.map toX)) (.array (a.map toX)) w skipna = .ok (some (.number (.fin 1))) := by
  refine pearsonRFl_unit xs hp he hN sum hs 1 (Or.inl rfl) ws w hw a a ?_ ha skipna hskip j k hj hk hq hwj hv
  simp

/-- `C167`: and the correlation of an array with its negative is exactly -1, if the order of summation does not depend on the signs -/
theorem C167_opposite {X : Type} (xs : StatArg X → StatArg X → Option (List (XF ℝ)) → Bool → Except PyErr X) {p : ℕ} {emin : ℤ} (hp : 1 ≤ p) (he : emin ≤ 0)
    (hN : emin + p - 1 ≤ 0) (sum : List ℝ → ℝ) (hs : AddsUp (binary p emin hp he) sum) (hneg : ∀ l : List ℝ, sum (l.map (fun x => -x)) = - sum l)
    (ws : List ℝ) (w : Option (List (XF ℝ))) (hw : WeightsArg ws w)
    (a : List (Option ℝ)) (ha : a.length = ws.length) (skipna : Bool) (hskip : skipna = true ∨ none ∉ a) (j k : ℤ) (hj : j ≤ 0) (hk : k ≤ 0)
    (hq : emin + p - 1 ≤ 2 * (j + 2 * k - 2)) (hwj : ∀ x ∈ ws, (2 : ℝ) ^ j ≤ x ∧ RepBin p emin x)
    (hv : ∃ x y, some x ∈ a ∧ some y ∈ a ∧ (2 : ℝ) ^ k ≤ |x - y|) :
    pearsonRFl (binary p emin hp he) sum xs (.array (a.map toX)) (.array ((a.map (Option.map (fun x => -x))).map toX)) w skipna =
      .ok (some (.number (.fin (-1)))) := by
  refine pearsonRFl_unit xs hp he hN sum hs (-1) (Or.inr ⟨rfl, hneg⟩) ws w hw a _ ?_ ha skipna hskip j k hj hk hq hwj hv
  simp

theorem leftSum_neg {p : ℕ} {emin : ℤ} (hp : 1 ≤ p) (he : emin ≤ 0) (l : List ℝ) :
    leftSum (binary p emin hp he) (l.map (fun x => -x)) = - leftSum (binary p emin hp he) l := by
  cases l with
  | nil => simp [leftSum]
  | cons x l =>
    simp only [leftSum, List.map_cons]
    induction l generalizing x with
    | nil => rfl
    | cons y l ih =>
      rw [List.map_cons, List.foldl_cons, List.foldl_cons, show -x + -y = -(x + y) by ring, binary_neg]
      exact ih _

/-- `C167` for numpy's float64 and one summand after the other: data with two values at least `2 ^ -200` (about 6e-61) apart, weights at least `2 ^ -100` -/
theorem C167_double {X : Type} (xs : StatArg X → StatArg X → Option (List (XF ℝ)) → Bool → Except PyErr X) (ws : List ℝ) (w : Option (List (XF ℝ)))
    (hw : WeightsArg ws w) (hwj : ∀ x ∈ ws, (2 : ℝ) ^ (-100 : ℤ) ≤ x ∧ (float64 : Rounding ℝ).rep x)
    (a : List (Option ℝ)) (ha : a.length = ws.length) (skipna : Bool) (hskip : skipna = true ∨ none ∉ a)
    (hv : ∃ x y, some x ∈ a ∧ some y ∈ a ∧ (2 : ℝ) ^ (-200 : ℤ) ≤ |x - y|) :
    pearsonRFl float64 (leftSum float64) xs (.array (a.map toX)) (.array (a.map toX)) w skipna = .ok (some (.number (.fin 1))) ∧
    pearsonRFl float64 (leftSum float64) xs (.array (a.map toX)) (.array ((a.map (Option.map (fun x => -x))).map toX)) w skipna =
      .ok (some (.number (.fin (-1)))) :=
  ⟨C167_identical xs (by norm_num) (by norm_num) (by norm_num) _ (leftSum_addsUp _) ws w hw a ha skipna hskip (-100) (-200) (by norm_num) (by norm_num)
      (by norm_num) hwj hv,
    C167_opposite xs (by norm_num) (by norm_num) (by norm_num) _ (leftSum_addsUp _) (leftSum_neg _ _) ws w hw a ha skipna hskip (-100) (-200) (by norm_num)
      (by norm_num) (by norm_num) hwj hv⟩

example {X : Type} (xs : StatArg X → StatArg X → Option (List (XF ℝ)) → Bool → Except PyErr X) :
    pearsonRFl float64 (leftSum float64) xs (.array [.fin (1 / 2), .nan, .fin 3]) (.array [.fin (1 / 2), .nan, .fin 3]) none true =
      .ok (some (.number (.fin 1))) :=
  (C167_double xs [1, 1, 1] none (WeightsArg.absent 3) (fun x hx => by
      have : x = 1 := by simpa using hx
      rw [this]
      exact ⟨zpow_le_one_of_nonpos₀ (by norm_num) (by norm_num), float64.rep_one⟩)
    [some (1 / 2), none, some 3] rfl true (Or.inl rfl) ⟨1 / 2, 3, by simp, by simp, by
      refine (zpow_le_one_of_nonpos₀ (by norm_num) (by norm_num)).trans ?_
      norm_num⟩).1

/-! ### C168 -/

theorem xf_mul_comm (x y : XF ℝ) : x * y = y * x := by
  cases x <;> cases y <;> first | rfl | (show XF.fin _ = XF.fin _; rw [mul_comm])

theorem matchNans_swap (a b : List (XF ℝ)) (hab : a.length = b.length) :
    matchNans b a none = (matchNans a b none).map (fun t => (t.2.1, t.1, t.2.2)) := by
  have hz : List.zipWith (fun x y : XF ℝ => x.isNaN || y.isNaN) b a = List.zipWith (fun x y => x.isNaN || y.isNaN) a b := by
    rw [List.zipWith_comm]
    simp only [Bool.or_comm]
  unfold matchNans
  rw [Bool.or_comm]
  split
  · unfold bcast2
    rw [if_pos hab, if_pos hab.symm, hz]
    simp only [bind, Except.bind]
    unfold setNaN
    rw [if_pos (by simp [hab]), if_pos (by simp [hab])]
    rfl
  · rfl

/-- `C168` (partial). Without weights `pearson_r(a, b)` and `pearson_r(b, a)` are the same number, bit for bit, for every rounding, order of summation and
data, NaN and infinities included. With weights this fails (`C168_counterexample`). -/
theorem C168_symmetric_partial {X : Type} (R : Rounding ℝ) (sum : List ℝ → ℝ) (xs : StatArg X → StatArg X → Option (List (XF ℝ)) → Bool → Except PyErr X)
    (a b : List (XF ℝ)) (hab : a.length = b.length) (skipna : Bool) :
    pearsonRFl R sum xs (.array a) (.array b) none skipna = pearsonRFl R sum xs (.array b) (.array a) none skipna := by
  have tail : ∀ a b : List (XF ℝ), a.length = b.length → pearsonTailFl R sum a b none skipna = pearsonTailFl R sum b a none skipna := by
    intro a b hab
    unfold pearsonTailFl bcast2
    simp only [checkWeights, List.length_map, hab, if_true, bind, Except.bind, pure, Except.pure]
    rw [List.zipWith_comm]
    congr 5
    · simp only [xf_mul_comm]
    · rw [xf_mul_comm]
  have core : pearsonCoreFl R sum a b none skipna = pearsonCoreFl R sum b a none skipna := by
    unfold pearsonCoreFl
    cases skipna with
    | false =>
      simp only [Bool.false_eq_true, if_false, bind, Except.bind, pure, Except.pure]
      exact tail a b hab
    | true =>
      simp only [if_true, matchNans_swap a b hab]
      cases hm : matchNans a b none with
      | error e => rfl
      | ok t =>
        obtain ⟨a', b', w'⟩ := t
        simp only [bind, Except.bind, Except.map]
        have hl : a'.length = b'.length ∧ w' = none := by
          unfold matchNans bcast2 setNaN at hm
          rw [if_pos hab] at hm
          split at hm
          · simp only [bind, Except.bind] at hm
            rw [if_pos (by simp [hab])] at hm
            simp only at hm
            rw [if_pos (by simp [hab])] at hm
            simp only [pure, Except.pure, Except.ok.injEq, Prod.mk.injEq] at hm
            obtain ⟨rfl, rfl, rfl⟩ := hm
            simp [hab]
          · simp only [pure, Except.pure, Except.ok.injEq, Prod.mk.injEq] at hm
            obtain ⟨rfl, rfl, rfl⟩ := hm
            exact ⟨hab, rfl⟩
        rw [hl.2]
        exact tail a' b' hl.1
  simp only [pearsonRFl, StatArg.isDataArray, Bool.false_eq_true, not_false_eq_true, and_self, if_true, npRavel, bind, Except.bind, core]

example {X : Type} (xs : StatArg X → StatArg X → Option (List (XF ℝ)) → Bool → Except PyErr X) :
    pearsonRFl float64 (leftSum float64) xs (.array [.fin 3, .nan, .fin 7]) (.array [.fin 1, .fin 2, .pinf]) none true =
      pearsonRFl float64 (leftSum float64) xs (.array [.fin 1, .fin 2, .pinf]) (.array [.fin 3, .nan, .fin 7]) none true :=
  C168_symmetric_partial float64 (leftSum float64) xs [.fin 3, .nan, .fin 7] [.fin 1, .fin 2, .pinf] (by simp) true

/-- the computation for `[x, -x, y, -y]` and `[y, -y, x, -x]` with equal weights -/
theorem pearson_four {X : Type} (xs : StatArg X → StatArg X → Option (List (XF ℝ)) → Bool → Except PyErr X) (R : Rounding ℝ) (hn : ∀ x, R.fl (-x) = - R.fl x)
    (w x y : ℝ) (hx : R.fl x = x) (hy : R.fl y = y) (hW : leftSum R [w, w, w, w] ≠ 0) (p q g h : ℝ) (hp : R.fl (R.fl (w * x) * y) = p)
    (hq : R.fl (R.fl (w * y) * x) = q) (hg : R.fl (R.fl (w * x) * x) = g) (hh : R.fl (R.fl (w * y) * y) = h) :
    pearsonRFl R (leftSum R) xs (.array [.fin x, .fin (-x), .fin y, .fin (-y)]) (.array [.fin y, .fin (-y), .fin x, .fin (-x)])
      (some (List.replicate 4 (.fin w))) false =
      .ok (some (.number (quotFl R (leftSum R [p, p, q, q]) (leftSum R [g, g, h, h]) (leftSum R [h, h, g, g])))) := by
  let T : List (ℝ × Option ℝ × Option ℝ) := [(w, some x, some y), (w, some (-x), some (-y)), (w, some y, some x), (w, some (-y), some (-x))]
  have hall : ∀ t ∈ T, (cellVal t).isSome = true := by
    intro t ht
    simp only [T, List.mem_cons, List.not_mem_nil, or_false] at ht
    rcases ht with rfl | rfl | rfl | rfl <;> rfl
  have m1 : wMeanFl R (leftSum R) cellVal T (·.2.1) = 0 := by
    have : leftSum R (T.map (orZero cellVal (fun t => R.fl (t.2.1 * t.1)))) = 0 := by
      simp only [T, List.map_cons, List.map_nil, orZero, cellVal, Option.elim, leftSum, List.foldl_cons, List.foldl_nil, neg_mul, hn, add_neg_cancel,
        R.fl_zero, zero_add, R.fl_of_rep _ (R.rep_fl _)]
    unfold wMeanFl
    rw [this, zero_div, R.fl_zero]
  have m2 : wMeanFl R (leftSum R) cellVal T (·.2.2) = 0 := by
    have : leftSum R (T.map (orZero cellVal (fun t => R.fl (t.2.2 * t.1)))) = 0 := by
      simp only [T, List.map_cons, List.map_nil, orZero, cellVal, Option.elim, leftSum, List.foldl_cons, List.foldl_nil, neg_mul, hn, add_neg_cancel,
        R.fl_zero, zero_add, R.fl_of_rep _ (R.rep_fl _)]
    unfold wMeanFl
    rw [this, zero_div, R.fl_zero]
  have hcore : pearsonCoreFl R (leftSum R) [.fin x, .fin (-x), .fin y, .fin (-y)] [.fin y, .fin (-y), .fin x, .fin (-x)] (some (List.replicate 4 (.fin w))) false =
      .ok (quotFl R (leftSum R [p, p, q, q]) (leftSum R [g, g, h, h]) (leftSum R [h, h, g, g])) := by
    have e := coreFl_some R (leftSum R) T false (Or.inr hall)
    rw [tailFl_weights R (leftSum R) false cellVal T (Or.inr hall) (by simp [T, cellVal]) hW, m1, m2] at e
    refine e.trans ?_
    congr 2
    all_goals
      simp only [prodSumW, T, List.map_cons, List.map_nil, orZero, cellVal, Option.elim, sub_zero, hn, hx, hy, mul_neg, neg_mul, neg_neg, hp, hq, hg, hh]
  simp only [pearsonRFl, StatArg.isDataArray, Bool.false_eq_true, not_false_eq_true, and_self, if_true, npRavel, bind, Except.bind, hcore, Except.map,
    swallowValueError]

/-- `C168` is false with weights: with all weights 0.1 (the nearest float64), swapping `[3, -3, 7, -7]` and `[7, -7, 3, -3]` changes the last bit of the
result, since `(w * x) * y` is computed -/
theorem C168_counterexample {X : Type} (xs : StatArg X → StatArg X → Option (List (XF ℝ)) → Bool → Except PyErr X) :
    pearsonRFl float64 (leftSum float64) xs (.array [.fin 3, .fin (-3), .fin 7, .fin (-7)]) (.array [.fin 7, .fin (-7), .fin 3, .fin (-3)])
      (some (List.replicate 4 (.fin (3602879701896397 / 2 ^ 55)))) false = .ok (some (.number (.fin (1630613658185869 / 2 ^ 51)))) ∧
    pearsonRFl float64 (leftSum float64) xs (.array [.fin 7, .fin (-7), .fin 3, .fin (-3)]) (.array [.fin 3, .fin (-3), .fin 7, .fin (-7)])
      (some (List.replicate 4 (.fin (3602879701896397 / 2 ^ 55)))) false = .ok (some (.number (.fin (3261227316371739 / 2 ^ 52)))) ∧
    (float64 : Rounding ℝ).fl (1 / 10) = 3602879701896397 / 2 ^ 55 ∧ (1630613658185869 / 2 ^ 51 : ℝ) ≠ 3261227316371739 / 2 ^ 52 := by
  have hn : ∀ x : ℝ, (float64 : Rounding ℝ).fl (-x) = - (float64 : Rounding ℝ).fl x := fun x => binary_neg _ _ x
  have h0 : (float64 : Rounding ℝ).fl 0 = 0 := float64.fl_zero
  have t3 : (float64 : Rounding ℝ).fl 3 = 3 := float64_eq 3 3 (by norm_num) (by norm_num) (by decide +kernel)
  have t7 : (float64 : Rounding ℝ).fl 7 = 7 := float64_eq 7 7 (by norm_num) (by norm_num) (by decide +kernel)
  obtain ⟨w, hw⟩ : ∃ x : ℝ, x = 3602879701896397 / 2 ^ 55 := ⟨_, rfl⟩
  obtain ⟨w2, hw2⟩ : ∃ x : ℝ, x = 3602879701896397 / 2 ^ 54 := ⟨_, rfl⟩
  obtain ⟨w3, hw3⟩ : ∃ x : ℝ, x = 1351079888211149 / 2 ^ 52 := ⟨_, rfl⟩
  obtain ⟨w4, hw4⟩ : ∃ x : ℝ, x = 3602879701896397 / 2 ^ 53 := ⟨_, rfl⟩
  obtain ⟨a3, ha3⟩ : ∃ x : ℝ, x = 1351079888211149 / 2 ^ 52 := ⟨_, rfl⟩
  obtain ⟨a7, ha7⟩ : ∃ x : ℝ, x = 6305039478318695 / 2 ^ 53 := ⟨_, rfl⟩
  obtain ⟨e1, he1⟩ : ∃ x : ℝ, x = 2364389804369511 / 2 ^ 50 := ⟨_, rfl⟩
  obtain ⟨e2, he2⟩ : ∃ x : ℝ, x = 4728779608739021 / 2 ^ 51 := ⟨_, rfl⟩
  obtain ⟨g3, hg3⟩ : ∃ x : ℝ, x = 4053239664633447 / 2 ^ 52 := ⟨_, rfl⟩
  obtain ⟨g7, hg7⟩ : ∃ x : ℝ, x = 2758454771764429 / 2 ^ 49 := ⟨_, rfl⟩
  obtain ⟨e11, he11⟩ : ∃ x : ℝ, x = 2364389804369511 / 2 ^ 49 := ⟨_, rfl⟩
  obtain ⟨e112, he112⟩ : ∃ x : ℝ, x = 1773292353277133 / 2 ^ 48 := ⟨_, rfl⟩
  obtain ⟨n1, hn1⟩ : ∃ x : ℝ, x = 4728779608739021 / 2 ^ 49 := ⟨_, rfl⟩
  obtain ⟨e22, he22⟩ : ∃ x : ℝ, x = 4728779608739021 / 2 ^ 50 := ⟨_, rfl⟩
  obtain ⟨e221, he221⟩ : ∃ x : ℝ, x = 1773292353277133 / 2 ^ 48 := ⟨_, rfl⟩
  obtain ⟨n2, hn2⟩ : ∃ x : ℝ, x = 2364389804369511 / 2 ^ 48 := ⟨_, rfl⟩
  obtain ⟨g33, hg33⟩ : ∃ x : ℝ, x = 4053239664633447 / 2 ^ 51 := ⟨_, rfl⟩
  obtain ⟨g337, hg337⟩ : ∃ x : ℝ, x = 3771764687922791 / 2 ^ 49 := ⟨_, rfl⟩
  obtain ⟨s, hs⟩ : ∃ x : ℝ, x = 1632554864921805 / 2 ^ 47 := ⟨_, rfl⟩
  obtain ⟨g77, hg77⟩ : ∃ x : ℝ, x = 2758454771764429 / 2 ^ 48 := ⟨_, rfl⟩
  obtain ⟨g773, hg773⟩ : ∃ x : ℝ, x = 6023564501608039 / 2 ^ 49 := ⟨_, rfl⟩
  obtain ⟨r1, hr1⟩ : ∃ x : ℝ, x = 1630613658185869 / 2 ^ 51 := ⟨_, rfl⟩
  obtain ⟨r2, hr2⟩ : ∃ x : ℝ, x = 3261227316371739 / 2 ^ 52 := ⟨_, rfl⟩
  have c0 : (float64 : Rounding ℝ).fl (3 * w) = a3 := float64_eq (3 * (3602879701896397 / 2 ^ 55)) (1351079888211149 / 2 ^ 52) (by rw [hw]; norm_num) (by rw [ha3]; norm_num) (by decide +kernel)
  have c1 : (float64 : Rounding ℝ).fl (w * 3) = a3 := float64_eq ((3602879701896397 / 2 ^ 55) * 3) (1351079888211149 / 2 ^ 52) (by rw [hw]; norm_num) (by rw [ha3]; norm_num) (by decide +kernel)
  have c2 : (float64 : Rounding ℝ).fl (7 * w) = a7 := float64_eq (7 * (3602879701896397 / 2 ^ 55)) (6305039478318695 / 2 ^ 53) (by rw [hw]; norm_num) (by rw [ha7]; norm_num) (by decide +kernel)
  have c3 : (float64 : Rounding ℝ).fl (w * 7) = a7 := float64_eq ((3602879701896397 / 2 ^ 55) * 7) (6305039478318695 / 2 ^ 53) (by rw [hw]; norm_num) (by rw [ha7]; norm_num) (by decide +kernel)
  have c4 : (float64 : Rounding ℝ).fl (w + w) = w2 := float64_eq ((3602879701896397 / 2 ^ 55) + (3602879701896397 / 2 ^ 55)) (3602879701896397 / 2 ^ 54) (by rw [hw]; norm_num) (by rw [hw2]; norm_num) (by decide +kernel)
  have c5 : (float64 : Rounding ℝ).fl (w2 + w) = w3 := float64_eq ((3602879701896397 / 2 ^ 54) + (3602879701896397 / 2 ^ 55)) (1351079888211149 / 2 ^ 52) (by rw [hw2, hw]; norm_num) (by rw [hw3]; norm_num) (by decide +kernel)
  have c6 : (float64 : Rounding ℝ).fl (w3 + w) = w4 := float64_eq ((1351079888211149 / 2 ^ 52) + (3602879701896397 / 2 ^ 55)) (3602879701896397 / 2 ^ 53) (by rw [hw3, hw]; norm_num) (by rw [hw4]; norm_num) (by decide +kernel)
  have c7 : (float64 : Rounding ℝ).fl (a3 * 7) = e1 := float64_eq ((1351079888211149 / 2 ^ 52) * 7) (2364389804369511 / 2 ^ 50) (by rw [ha3]; norm_num) (by rw [he1]; norm_num) (by decide +kernel)
  have c8 : (float64 : Rounding ℝ).fl (a7 * 3) = e2 := float64_eq ((6305039478318695 / 2 ^ 53) * 3) (4728779608739021 / 2 ^ 51) (by rw [ha7]; norm_num) (by rw [he2]; norm_num) (by decide +kernel)
  have c9 : (float64 : Rounding ℝ).fl (a3 * 3) = g3 := float64_eq ((1351079888211149 / 2 ^ 52) * 3) (4053239664633447 / 2 ^ 52) (by rw [ha3]; norm_num) (by rw [hg3]; norm_num) (by decide +kernel)
  have c10 : (float64 : Rounding ℝ).fl (a7 * 7) = g7 := float64_eq ((6305039478318695 / 2 ^ 53) * 7) (2758454771764429 / 2 ^ 49) (by rw [ha7]; norm_num) (by rw [hg7]; norm_num) (by decide +kernel)
  have c11 : (float64 : Rounding ℝ).fl (e1 + e1) = e11 := float64_eq ((2364389804369511 / 2 ^ 50) + (2364389804369511 / 2 ^ 50)) (2364389804369511 / 2 ^ 49) (by rw [he1]; norm_num) (by rw [he11]; norm_num) (by decide +kernel)
  have c12 : (float64 : Rounding ℝ).fl (e11 + e2) = e112 := float64_eq ((2364389804369511 / 2 ^ 49) + (4728779608739021 / 2 ^ 51)) (1773292353277133 / 2 ^ 48) (by rw [he11, he2]; norm_num) (by rw [he112]; norm_num) (by decide +kernel)
  have c13 : (float64 : Rounding ℝ).fl (e112 + e2) = n1 := float64_eq ((1773292353277133 / 2 ^ 48) + (4728779608739021 / 2 ^ 51)) (4728779608739021 / 2 ^ 49) (by rw [he112, he2]; norm_num) (by rw [hn1]; norm_num) (by decide +kernel)
  have c14 : (float64 : Rounding ℝ).fl (e22 + e1) = e221 := float64_eq ((4728779608739021 / 2 ^ 50) + (2364389804369511 / 2 ^ 50)) (1773292353277133 / 2 ^ 48) (by rw [he22, he1]; norm_num) (by rw [he221]; norm_num) (by decide +kernel)
  have c15 : (float64 : Rounding ℝ).fl (e2 + e2) = e22 := float64_eq ((4728779608739021 / 2 ^ 51) + (4728779608739021 / 2 ^ 51)) (4728779608739021 / 2 ^ 50) (by rw [he2]; norm_num) (by rw [he22]; norm_num) (by decide +kernel)
  have c16 : (float64 : Rounding ℝ).fl (e221 + e1) = n2 := float64_eq ((1773292353277133 / 2 ^ 48) + (2364389804369511 / 2 ^ 50)) (2364389804369511 / 2 ^ 48) (by rw [he221, he1]; norm_num) (by rw [hn2]; norm_num) (by decide +kernel)
  have c17 : (float64 : Rounding ℝ).fl (g3 + g3) = g33 := float64_eq ((4053239664633447 / 2 ^ 52) + (4053239664633447 / 2 ^ 52)) (4053239664633447 / 2 ^ 51) (by rw [hg3]; norm_num) (by rw [hg33]; norm_num) (by decide +kernel)
  have c18 : (float64 : Rounding ℝ).fl (g33 + g7) = g337 := float64_eq ((4053239664633447 / 2 ^ 51) + (2758454771764429 / 2 ^ 49)) (3771764687922791 / 2 ^ 49) (by rw [hg33, hg7]; norm_num) (by rw [hg337]; norm_num) (by decide +kernel)
  have c19 : (float64 : Rounding ℝ).fl (g337 + g7) = s := float64_eq ((3771764687922791 / 2 ^ 49) + (2758454771764429 / 2 ^ 49)) (1632554864921805 / 2 ^ 47) (by rw [hg337, hg7]; norm_num) (by rw [hs]; norm_num) (by decide +kernel)
  have c20 : (float64 : Rounding ℝ).fl (g7 + g7) = g77 := float64_eq ((2758454771764429 / 2 ^ 49) + (2758454771764429 / 2 ^ 49)) (2758454771764429 / 2 ^ 48) (by rw [hg7]; norm_num) (by rw [hg77]; norm_num) (by decide +kernel)
  have c21 : (float64 : Rounding ℝ).fl (g77 + g3) = g773 := float64_eq ((2758454771764429 / 2 ^ 48) + (4053239664633447 / 2 ^ 52)) (6023564501608039 / 2 ^ 49) (by rw [hg77, hg3]; norm_num) (by rw [hg773]; norm_num) (by decide +kernel)
  have c22 : (float64 : Rounding ℝ).fl (g773 + g3) = s := float64_eq ((6023564501608039 / 2 ^ 49) + (4053239664633447 / 2 ^ 52)) (1632554864921805 / 2 ^ 47) (by rw [hg773, hg3]; norm_num) (by rw [hs]; norm_num) (by decide +kernel)
  have c23 : (float64 : Rounding ℝ).fl (n1 / s) = r1 := float64_eq ((4728779608739021 / 2 ^ 49) / (1632554864921805 / 2 ^ 47)) (1630613658185869 / 2 ^ 51) (by rw [hn1, hs]; norm_num) (by rw [hr1]; norm_num) (by decide +kernel)
  have c24 : (float64 : Rounding ℝ).fl (n2 / s) = r2 := float64_eq ((2364389804369511 / 2 ^ 48) / (1632554864921805 / 2 ^ 47)) (3261227316371739 / 2 ^ 52) (by rw [hn2, hs]; norm_num) (by rw [hr2]; norm_num) (by decide +kernel)
  have s0 : 1 ≤ s := by rw [hs]; norm_num
  have w0 : w4 ≠ 0 := by rw [hw4]; norm_num
  have rt : (float64 : Rounding ℝ).fl (√((float64 : Rounding ℝ).fl (s * s))) = s := by
    have h2 : (2 : ℝ) ^ ((-1074 : ℤ) + (53 : ℕ) - 1) ≤ 1 := zpow_le_one_of_nonpos₀ (by norm_num) (by norm_num)
    refine sqrt_sq_round (p := 53) (emin := -1074) (by norm_num) ?_ (by linarith) (by nlinarith)
    refine ⟨1632554864921805, -47, by norm_num, by norm_num, ?_⟩
    rw [hs, show (-47 : ℤ) = -((47 : ℕ) : ℤ) by norm_num, zpow_neg, zpow_natCast]
    push_cast
    ring
  have sn : ¬ (float64 : Rounding ℝ).fl (s * s) < 0 := not_lt.mpr (float64.fl_nonneg (mul_self_nonneg _))
  have q1 : clipUnit (.fin r1) = .fin r1 := by
    rw [hr1]; unfold clipUnit; norm_num
  have q2 : clipUnit (.fin r2) = .fin r2 := by
    rw [hr2]; unfold clipUnit; norm_num
  refine ⟨?_, ?_, float64_eq (1 / 10) (3602879701896397 / 2 ^ 55) (by norm_num) (by norm_num) (by decide +kernel), by norm_num⟩
  all_goals rw [← hw]
  · rw [pearson_four xs float64 hn w 3 7 t3 t7 (by simp only [leftSum, List.foldl_cons, List.foldl_nil, c4, c5, c6]; exact w0) e1 e2 g3 g7
      (by rw [c1, c7]) (by rw [c3, c8]) (by rw [c1, c9]) (by rw [c3, c10])]
    simp only [leftSum, List.foldl_cons, List.foldl_nil, c11, c12, c13, c17, c18, c19, c20, c21, c22]
    unfold quotFl
    rw [xSqrt, if_neg sn, roundXF_fin, rt, XF.fin_div _ _ (by linarith), roundXF_fin, c23, q1, hr1]
  · rw [pearson_four xs float64 hn w 7 3 t7 t3 (by simp only [leftSum, List.foldl_cons, List.foldl_nil, c4, c5, c6]; exact w0) e2 e1 g7 g3
      (by rw [c3, c8]) (by rw [c1, c7]) (by rw [c3, c10]) (by rw [c1, c9])]
    simp only [leftSum, List.foldl_cons, List.foldl_nil, c14, c15, c16, c17, c18, c19, c20, c21, c22]
    unfold quotFl
    rw [xSqrt, if_neg sn, roundXF_fin, rt, XF.fin_div _ _ (by linarith), roundXF_fin, c24, q2, hr2]

end Verif.Props
