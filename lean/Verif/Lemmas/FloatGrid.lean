import Verif.Model.FloatsGrid
import Verif.Lemmas.Multidim
import Verif.Lemmas.FloatLine

set_option linter.unusedSectionVars false
namespace Verif.Lemmas
open Model Spec
variable {K : Type _} [Field K] [LinearOrder K] [IsStrictOrderedRing K]

theorem scipyLinearFl_exact (x : List K) (y : List (XF K)) (q : K) : scipyLinearFl Rounding.exact x y q = scipyLinear x y q := by
  unfold scipyLinearFl scipyLinear
  simp only [roundXF_exact]
  rfl

theorem scipyNearestFl_exact (x : List K) (y : List (XF K)) (q : K) : scipyNearestFl Rounding.exact x y q = scipyNearest x y q := rfl

theorem interpAxisFl_exact (m : GridMethod) (fill : Option (XF K)) (x : List K) (y : List (XF K)) (q : K) :
    interpAxisFl Rounding.exact m fill x y q = interpAxis m fill x y q := by
  unfold interpAxisFl interpAxis
  simp only [scipyLinearFl_exact, scipyNearestFl_exact]
  cases m <;> rfl

theorem interpMultidimFl_exact (d : MultiIn K) (latOut lonOut : List K) (cyclic : Bool) (missing : Option (XF K)) (m : GridMethod)
    (fill : Option (XF K)) :
    interpMultidimFl Rounding.exact d latOut lonOut cyclic missing m fill = interpMultidim d latOut lonOut cyclic missing m fill := by
  unfold interpMultidimFl interpMultidim xrInterpFl xrInterp
  simp only [interpAxisFl_exact]
  rfl

/-- value on the line through two points, as scipy computes it in floating-point arithmetic -/
def segFl (R : Rounding K) (x0 x1 : K) (y0 y1 : XF K) (q : K) : XF K :=
  roundXF R (roundXF R (roundXF R (roundXF R (y1 - y0) / .fin (R.fl (x1 - x0))) * .fin (R.fl (q - x0))) + y0)

/-- the same for numbers -/
def segNum (R : Rounding K) (x0 x1 y0 y1 q : K) : K :=
  R.fl (R.fl (R.fl (R.fl (y1 - y0) / R.fl (x1 - x0)) * R.fl (q - x0)) + y0)

theorem segFl_fin (R : Rounding K) {x0 x1 : K} (h0 : R.rep x0) (h1 : R.rep x1) (h : x0 < x1) (y0 y1 q : K) :
    segFl R x0 x1 (.fin y0) (.fin y1) q = .fin (segNum R x0 x1 y0 y1 q) := by
  have hne : R.fl (x1 - x0) ≠ 0 := (R.sub_pos _ _ h0 h1 h).ne'
  unfold segFl segNum
  rw [XF.fin_sub]
  simp only [roundXF]
  rw [XF.fin_div _ _ hne]
  rfl

theorem scipyLinearFl_cell (R : Rounding K) (n : ℕ) (x : ℕ → K) (y : ℕ → XF K) (h : IncAxis n x) (q : K) (k : ℕ) (hk : k + 1 < n)
    (hl : k = 0 ∨ x k < q) (hr : k + 2 = n ∨ q ≤ x (k + 1)) :
    scipyLinearFl R (column n x) (column n y) q = segFl R (x k) (x (k + 1)) (y k) (y (k + 1)) q := by
  obtain ⟨hs1, hs2⟩ := searchLeft_column n x h q
  have hhi : min (max (searchLeft (column n x) q) 1) (n - 1) = k + 1 := by
    have a1 : k = 0 ∨ k < searchLeft (column n x) q := hl.imp id (fun hh => (hs2 k (by omega)).mp hh)
    have a2 : k + 2 = n ∨ searchLeft (column n x) q ≤ k + 1 := by
      refine hr.imp id (fun hh => ?_)
      by_contra hc
      push Not at hc
      exact absurd ((hs2 (k + 1) hk).mpr hc) (not_lt.mpr hh)
    omega
  unfold scipyLinearFl
  simp only [column_length, hhi]
  rw [if_neg (by omega), Nat.add_sub_cancel, column_getD n y _ _ hk, column_getD n y _ k (by omega), column_getD n x _ _ hk,
    column_getD n x _ k (by omega)]
  rfl

/-- one axis, inside the range, linear -/
theorem interpAxisFl_cell (R : Rounding K) (fill : Option (XF K)) (n : ℕ) (x : ℕ → K) (y : ℕ → XF K) (h : IncAxis n x) (q : K) (k : ℕ) (hk : k + 1 < n)
    (hl : x k < q ∨ k = 0 ∧ x 0 ≤ q) (hr : q ≤ x (k + 1)) :
    interpAxisFl R .linear fill (column n x) (column n y) q = segFl R (x k) (x (k + 1)) (y k) (y (k + 1)) q := by
  obtain ⟨hs1, hs2⟩ := sortPairs_inc n x y h
  unfold interpAxisFl
  simp only [hs1, hs2]
  rw [scipyLinearFl_cell R n x y h q k hk (by tauto) (Or.inr hr), column_headD n x 0 (by omega), column_getLastD n x 0 (by omega)]
  cases fill with
  | none => rfl
  | some f =>
    simp only
    rw [if_neg]
    push Not
    constructor
    · rcases hl with hl | ⟨rfl, hl⟩
      · rcases Nat.eq_zero_or_pos k with rfl | hpos
        · exact hl.le
        · exact ((h 0 k hpos (by omega)).trans hl).le
      · exact hl
    · rcases eq_or_lt_of_le (show k + 1 ≤ n - 1 by omega) with he | hlt
      · rw [← he]; exact hr
      · exact hr.trans (h _ _ hlt (by omega)).le

theorem quot_error {R : Rounding K} {u η : K} (A : R.Accurate u η) (hu : u ≤ 1 / 16) {xb xa x : K} (hb : R.rep xb) (ha : R.rep xa)
    (hx : R.rep x) (h : xb < xa) (h1 : xb ≤ x) (h2 : x ≤ xa) :
    |R.fl (x - xb) / R.fl (xa - xb) - (x - xb) / (xa - xb)| ≤ 3 * u ∧ R.fl (xa - xb) ≤ 17 / 16 * (xa - xb) := by
  have e1 := A.sub hx hb
  have e2 := A.sub ha hb
  have hu0 := A.u_nonneg
  have d0 : 0 < R.fl (xa - xb) := R.sub_pos _ _ hb ha h
  have D0 : 0 < xa - xb := by linarith
  have N0 : 0 ≤ x - xb := by linarith
  have N1 : x - xb ≤ xa - xb := by linarith
  rw [abs_of_nonneg N0] at e1
  rw [abs_of_pos D0] at e2
  set n := R.fl (x - xb)
  set d := R.fl (xa - xb)
  set N := x - xb
  set D := xa - xb
  have huD : u * D ≤ (1 / 16) * D := mul_le_mul_of_nonneg_right hu D0.le
  have hd : (15 / 16) * D ≤ d := by
    have := (abs_le.mp e2).1
    linarith
  refine ⟨?_, by have := (abs_le.mp e2).2; linarith⟩
  rw [div_sub_div _ _ d0.ne' D0.ne', abs_div, abs_of_pos (mul_pos d0 D0), div_le_iff₀ (mul_pos d0 D0)]
  have e : n * D - d * N = (n - N) * D - N * (d - D) := by ring
  rw [e]
  have a1 := abs_sub ((n - N) * D) (N * (d - D))
  rw [abs_mul, abs_mul, abs_of_pos D0, abs_of_nonneg N0] at a1
  have a2 : |n - N| * D ≤ u * N * D := mul_le_mul_of_nonneg_right e1 D0.le
  have a3 : N * |d - D| ≤ N * (u * D) := mul_le_mul_of_nonneg_left e2 N0
  have a4 : u * N * D ≤ u * D * D := mul_le_mul_of_nonneg_right (mul_le_mul_of_nonneg_left N1 hu0) D0.le
  have a5 : u * ((15 / 16) * D) * D ≤ u * d * D := mul_le_mul_of_nonneg_right (mul_le_mul_of_nonneg_left hd hu0) D0.le
  have a6 : 0 ≤ u * D * D := mul_nonneg (mul_nonneg hu0 D0.le) D0.le
  nlinarith

/-- error of scipy's line -/
theorem segNum_error {R : Rounding K} {u η : K} (A : R.Accurate u η) (hu : u ≤ 1 / 16) {x0 x1 q y0 y1 : K} (h0 : R.rep x0) (h1 : R.rep x1)
    (hq : R.rep q) (hy0 : R.rep y0) (hy1 : R.rep y1) (h : x0 < x1) (hq0 : x0 ≤ q) (hq1 : q ≤ x1) {M : K} (hM0 : |y0| ≤ M) (hM1 : |y1| ≤ M) :
    |segNum R x0 x1 y0 y1 q - ((1 - (q - x0) / (x1 - x0)) * y0 + (q - x0) / (x1 - x0) * y1)| ≤ 16 * u * M + 2 * η * (x1 - x0 + 1) := by
  obtain ⟨w, wd⟩ := quot_error A hu h0 h1 hq h hq0 hq1
  have d0 : 0 < R.fl (x1 - x0) := R.sub_pos _ _ h0 h1 h
  have n0 : 0 ≤ R.fl (q - x0) := R.fl_nonneg (by linarith)
  have n1 : R.fl (q - x0) ≤ R.fl (x1 - x0) := R.mono _ _ (by linarith)
  have D0 : 0 < x1 - x0 := by linarith
  have τ0 : 0 ≤ (q - x0) / (x1 - x0) := div_nonneg (by linarith) D0.le
  have τ1 : (q - x0) / (x1 - x0) ≤ 1 := by rw [div_le_one D0]; linarith
  have hu0 := A.u_nonneg
  have he0 := A.eta_nonneg
  have e1 := A.sub hy1 hy0
  have hM : 0 ≤ M := (abs_nonneg _).trans hM0
  have hΔ : |y1 - y0| ≤ 2 * M := by
    have := abs_sub y1 y0
    linarith
  unfold segNum
  set τ := (q - x0) / (x1 - x0)
  set n := R.fl (q - x0)
  set D := R.fl (x1 - x0)
  set d := R.fl (y1 - y0)
  set Δ := y1 - y0 with hΔd
  set L := x1 - x0
  have t0 : 0 ≤ n / D := div_nonneg n0 d0.le
  have t1 : n / D ≤ 1 := by rw [div_le_one d0]; exact n1
  have nL : n ≤ 17 / 16 * L := n1.trans wd
  have uM : 0 ≤ u * M := mul_nonneg hu0 hM
  have uuM : u * (u * M) ≤ (1 / 16) * (u * M) := mul_le_mul_of_nonneg_right hu uM
  have uuM0 : 0 ≤ u * (u * M) := mul_nonneg hu0 uM
  have uuuM : u * (u * (u * M)) ≤ (1 / 16) * (u * (u * M)) := mul_le_mul_of_nonneg_right hu (mul_nonneg hu0 uM)
  have eL : 0 ≤ η * L := mul_nonneg he0 D0.le
  have ηn : η * n ≤ 17 / 16 * (η * L) := by
    have := mul_le_mul_of_nonneg_left nL he0
    linarith
  have ηn0 : 0 ≤ η * n := mul_nonneg he0 n0
  have uηn : u * (η * n) ≤ (1 / 16) * (η * n) := mul_le_mul_of_nonneg_right hu ηn0
  have uuηn : u * (u * (η * n)) ≤ (1 / 16) * (u * (η * n)) := mul_le_mul_of_nonneg_right hu (mul_nonneg hu0 ηn0)
  have ue : u * η ≤ (1 / 16) * η := mul_le_mul_of_nonneg_right hu he0
  have e1' : |d - Δ| ≤ 2 * (u * M) := e1.trans (by have := mul_le_mul_of_nonneg_left hΔ hu0; linarith)
  have hd : |d| ≤ 2 * M + 2 * (u * M) := by
    have := abs_add_le Δ (d - Δ)
    rw [add_sub_cancel] at this
    linarith
  -- the slope
  have e2 := A.err (d / D)
  set σ := R.fl (d / D)
  have s1 : |σ - d / D| * n ≤ u * |d| + η * n := by
    have a := mul_le_mul_of_nonneg_right e2 n0
    have b : u * |d / D| * n = u * |d| * (n / D) := by
      rw [abs_div, abs_of_pos d0]; field_simp
    have c : u * |d| * (n / D) ≤ u * |d| * 1 := mul_le_mul_of_nonneg_left t1 (mul_nonneg hu0 (abs_nonneg _))
    nlinarith
  have ud : u * |d| ≤ 2 * (u * M) + 2 * (u * (u * M)) := by
    have := mul_le_mul_of_nonneg_left hd hu0
    nlinarith
  have p1 : |σ * n - Δ * τ| ≤ 10 * (u * M) + 8 * (u * (u * M)) + η * n := by
    have e : σ * n - Δ * τ = (σ - d / D) * n + d * (n / D - τ) + (d - Δ) * τ := by
      field_simp
      ring
    rw [e]
    have a := abs_add_le ((σ - d / D) * n + d * (n / D - τ)) ((d - Δ) * τ)
    have b := abs_add_le ((σ - d / D) * n) (d * (n / D - τ))
    rw [abs_mul _ τ, abs_of_nonneg τ0] at a
    rw [abs_mul _ n, abs_of_nonneg n0, abs_mul d] at b
    have b1 : |d - Δ| * τ ≤ |d - Δ| * 1 := mul_le_mul_of_nonneg_left τ1 (abs_nonneg _)
    have b2 : |d| * |n / D - τ| ≤ |d| * (3 * u) := mul_le_mul_of_nonneg_left w (abs_nonneg _)
    have b3 : |d| * (3 * u) = 3 * (u * |d|) := by ring
    linarith
  have hΔτ : |Δ * τ| ≤ 2 * M := by
    rw [abs_mul, abs_of_nonneg τ0]
    have : |Δ| * τ ≤ |Δ| * 1 := mul_le_mul_of_nonneg_left τ1 (abs_nonneg _)
    linarith
  have p2 : |σ * n| ≤ 2 * M + 10 * (u * M) + 8 * (u * (u * M)) + η * n := by
    have := abs_add_le (Δ * τ) (σ * n - Δ * τ)
    rw [add_sub_cancel] at this
    linarith
  have e3 := A.err (σ * n)
  have p3 : |R.fl (σ * n) - Δ * τ| ≤ 12 * (u * M) + 19 * (u * (u * M)) + 17 / 16 * (η * n) + η := by
    have a := abs_sub_le (R.fl (σ * n)) (σ * n) (Δ * τ)
    have b : u * |σ * n| ≤ u * (2 * M + 10 * (u * M) + 8 * (u * (u * M)) + η * n) := mul_le_mul_of_nonneg_left p2 hu0
    have c : u * (2 * M + 10 * (u * M) + 8 * (u * (u * M)) + η * n) = 2 * (u * M) + 10 * (u * (u * M)) + 8 * (u * (u * (u * M))) + u * (η * n) := by ring
    linarith
  have e4 := A.add _ _ (R.rep_fl (σ * n)) hy0
  set s := R.fl (σ * n)
  have hex : |Δ * τ + y0| ≤ M := by
    have : Δ * τ + y0 = y0 * (1 - τ) + y1 * τ := by rw [hΔd]; ring
    rw [this]
    have a := abs_add_le (y0 * (1 - τ)) (y1 * τ)
    rw [abs_mul, abs_mul, abs_of_nonneg τ0, abs_of_nonneg (sub_nonneg.mpr τ1)] at a
    have b1 : |y0| * (1 - τ) ≤ M * (1 - τ) := mul_le_mul_of_nonneg_right hM0 (sub_nonneg.mpr τ1)
    have b2 : |y1| * τ ≤ M * τ := mul_le_mul_of_nonneg_right hM1 τ0
    linarith
  have p4 : |s + y0| ≤ M + |s - Δ * τ| := by
    have e : s + y0 = (Δ * τ + y0) + (s - Δ * τ) := by ring
    rw [e]
    have := abs_add_le (Δ * τ + y0) (s - Δ * τ)
    linarith
  have p5 : u * |s + y0| ≤ u * M + (1 / 16) * |s - Δ * τ| := by
    have a := mul_le_mul_of_nonneg_left p4 hu0
    have b : u * |s - Δ * τ| ≤ (1 / 16) * |s - Δ * τ| := mul_le_mul_of_nonneg_right hu (abs_nonneg _)
    linarith
  have a := abs_sub_le (R.fl (s + y0)) (s + y0) ((1 - τ) * y0 + τ * y1)
  have e : s + y0 - ((1 - τ) * y0 + τ * y1) = s - Δ * τ := by rw [hΔd]; ring
  rw [e] at a
  linarith

end Verif.Lemmas
