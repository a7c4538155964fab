import Verif.Model.FloatsPsi
import Verif.Lemmas.FloatDelta
import Verif.Lemmas.FloatErr
import Verif.Lemmas.Psi
import Verif.Props.FloatDelta

set_option linter.unusedSectionVars false
namespace Verif.Lemmas
open Model Spec
variable {K : Type _} [Field K] [LinearOrder K] [IsStrictOrderedRing K]

theorem roundXF_exact (x : XF K) : roundXF (Rounding.exact : Rounding K) x = x := by cases x <;> rfl

theorem nanCumsumFl_exact (a : XF K) (l : List (XF K)) : nanCumsumFl Rounding.exact a l = nanCumsum a l := by
  induction l generalizing a with
  | nil => rfl
  | cons x xs ih => simp only [nanCumsumFl, nanCumsum, roundXF_exact, ih]

theorem psiColumnFl_exact (c : K) (plev : List K) (v : List (XF K)) (ps : K) :
    psiColumnFl Rounding.exact c plev v ps = psiColumn c plev v (.fin ps) := by
  unfold psiColumnFl psiColumn
  simp only [nanCumsumFl_exact, roundXF_exact, Props.C130_exact]

theorem nanCumsumFl_length (R : Rounding K) (a : XF K) (l : List (XF K)) : (nanCumsumFl R a l).length = l.length := by
  induction l generalizing a with
  | nil => rfl
  | cons x xs ih => simp [nanCumsumFl, ih]

/-- the rounded product of a wind and a thickness; missing ones contribute nothing -/
def fluxFl (R : Rounding K) (v d : XF K) : K :=
  match v, d with
  | .fin x, .fin y => R.fl (x * y)
  | _, _ => 0

/-- running sum, each addition rounded, starting from `a` -/
def runFl (R : Rounding K) (a : K) (f : ℕ → K) : ℕ → K
  | 0 => R.fl (a + f 0)
  | k + 1 => R.fl (runFl R a f k + f (k + 1))

theorem runFl_shift (R : Rounding K) (a : K) (f : ℕ → K) (k : ℕ) :
    runFl R (R.fl (a + f 0)) (fun i => f (i + 1)) k = runFl R a f (k + 1) := by
  induction k with
  | zero => rfl
  | succ k ih => rw [runFl, ih, ← runFl]

theorem runFl_congr (R : Rounding K) (a : K) (f g : ℕ → K) (k : ℕ) (h : ∀ j ≤ k, f j = g j) : runFl R a f k = runFl R a g k := by
  induction k with
  | zero => rw [runFl, runFl, h 0 (le_refl 0)]
  | succ k ih => rw [runFl, runFl, ih (fun j hj => h j (by omega)), h (k + 1) (le_refl _)]

/-- a number or missing -/
def NotInf (x : XF K) : Prop := x ≠ .pinf ∧ x ≠ .ninf

theorem nanCumsumFl_column (R : Rounding K) (n : ℕ) (f : ℕ → XF K) (hf : ∀ j < n, NotInf (f j)) (a : K) :
    nanCumsumFl R (.fin a) (column n f) = column n (fun k => .fin (runFl R a (fun j => finOrZero (f j)) k)) := by
  induction n generalizing a f with
  | zero => rfl
  | succ n ih =>
    have hc : ∀ {α : Type _} (g : ℕ → α), column (n + 1) g = g 0 :: column n (fun i => g (i + 1)) := by
      intro α g
      simp [column, List.range_succ_eq_map, List.map_map, Function.comp_def]
    have h0 := hf 0 (by omega)
    have hstep : roundXF R (XF.fin a + (if (f 0).isNaN then .fin 0 else f 0)) = .fin (R.fl (a + finOrZero (f 0))) := by
      cases hx : f 0 with
      | fin y => simp [finOrZero, XF.isNaN, roundXF]
      | pinf => exact absurd hx h0.1
      | ninf => exact absurd hx h0.2
      | nan => simp [finOrZero, roundXF]
    rw [hc, hc, nanCumsumFl, hstep]
    rw [ih (fun i => f (i + 1)) (fun j hj => hf (j + 1) (by omega))]
    congr 1
    congr 1
    funext k
    exact congrArg XF.fin (runFl_shift R a (fun j => finOrZero (f j)) k)

theorem flux_eq (R : Rounding K) (v d : XF K) (hv : NotInf v) (hd : NotInf d) :
    finOrZero (roundXF R (v * d)) = fluxFl R v d ∧ NotInf (roundXF R (v * d)) := by
  obtain ⟨h1, h2⟩ := hv
  obtain ⟨h3, h4⟩ := hd
  cases v <;> cases d <;> simp_all [finOrZero, fluxFl, NotInf, roundXF]

/-- the streamfunction of a column listed from the top, as computed -/
theorem psiColumnFl_down (R : Rounding K) (c : K) (n : ℕ) (hn : 1 ≤ n) (lev : ℕ → K) (hlev : lev 0 < lev (n - 1)) (v d : ℕ → XF K)
    (hv : ∀ j < n, NotInf (v j)) (hd : ∀ j < n, NotInf (d j)) (ps : K) (hdp : deltaPressureFl R (column n lev) ps none = .ok (column n d)) :
    psiColumnFl R c (column n lev) (column n v) ps
      = .ok (column n (fun k => .fin (R.fl (runFl R 0 (fun j => fluxFl R (v j) (d j)) k * c)))) := by
  unfold psiColumnFl
  rw [hdp]
  have hz : List.zipWith (fun a b => roundXF R (a * b)) (column n v) (column n d) = column n (fun k => roundXF R (v k * d k)) := by
    simp [column, List.zipWith_map, List.zipWith_self]
  simp only [index_first n hn, index_last n hn, bind, Except.bind, pure, Except.pure, if_pos hlev, hz]
  rw [nanCumsumFl_column R n _ (fun j hj => (flux_eq R _ _ (hv j hj) (hd j hj)).2)]
  congr 1
  simp only [column, List.map_map]
  apply List.map_congr_left
  intro k hk
  have hk : k < n := by simpa using hk
  simp only [Function.comp_apply]
  rw [runFl_congr R 0 _ (fun j => fluxFl R (v j) (d j)) k (fun j hj => (flux_eq R _ _ (hv j (by omega)) (hd j (by omega))).1)]
  simp only [XF.fin_mul, roundXF]

theorem psiColumnFl_reverse (R : Rounding K) (c : K) (n : ℕ) (hn : 1 ≤ n) (lev : ℕ → K) (hlev : lev 0 < lev (n - 1)) (v d : ℕ → XF K) (ps : K)
    (hdp : deltaPressureFl R (column n lev) ps none = .ok (column n d))
    (hdr : deltaPressureFl R (column n lev).reverse ps none = .ok (column n d).reverse) :
    psiColumnFl R c (column n lev).reverse (column n v).reverse ps = (psiColumnFl R c (column n lev) (column n v) ps).map List.reverse := by
  unfold psiColumnFl
  rw [hdp, hdr, column_reverse n lev]
  have hl' : ¬ lev (n - 1 - 0) < lev (n - 1 - (n - 1)) := by
    simp only [Nat.sub_zero, Nat.sub_self]
    exact not_lt.mpr hlev.le
  simp only [index_first n hn, index_last n hn, bind, Except.bind, pure, Except.pure, if_pos hlev, if_neg hl', Except.map]
  congr 1
  rw [zipWith_reverse' _ _ _ (by simp [column]), List.reverse_reverse, List.map_reverse]

theorem runFl_rep (R : Rounding K) (a : K) (f : ℕ → K) (k : ℕ) : R.rep (runFl R a f k) := by
  cases k <;> exact R.rep_fl _

theorem runFl_mono (R : Rounding K) (a : K) (f g : ℕ → K) (k : ℕ) (h : ∀ j ≤ k, f j ≤ g j) : runFl R a f k ≤ runFl R a g k := by
  induction k with
  | zero => exact R.mono _ _ (by have := h 0 (le_refl 0); linarith)
  | succ k ih =>
    refine R.mono _ _ ?_
    have := ih (fun j hj => h j (by omega))
    have := h (k + 1) (le_refl _)
    linarith

theorem runFl_step_up (R : Rounding K) (a : K) (f : ℕ → K) (k : ℕ) (h : 0 ≤ f (k + 1)) : runFl R a f k ≤ runFl R a f (k + 1) := by
  rw [runFl]
  exact R.le_fl (runFl_rep R a f k) (by linarith)

theorem runFl_step_same (R : Rounding K) (a : K) (f : ℕ → K) (k : ℕ) (h : f (k + 1) = 0) : runFl R a f (k + 1) = runFl R a f k := by
  rw [runFl, h, add_zero]
  exact R.fl_of_rep _ (runFl_rep R a f k)

theorem runFl_zero (R : Rounding K) (f : ℕ → K) (k : ℕ) (h : ∀ j ≤ k, f j = 0) : runFl R 0 f k = 0 := by
  induction k with
  | zero => rw [runFl, h 0 (le_refl 0), add_zero, R.fl_zero]
  | succ k ih => rw [runFl_step_same R 0 f k (h _ (le_refl _)), ih (fun j hj => h j (by omega))]

theorem runFl_neg (R : Rounding K) (hR : ∀ x, R.fl (-x) = - R.fl x) (f : ℕ → K) (k : ℕ) : runFl R 0 (fun j => - f j) k = - runFl R 0 f k := by
  induction k with
  | zero => simp only [runFl, zero_add, hR]
  | succ k ih => rw [runFl, ih, runFl, ← hR]; congr 1; ring

/-- error of a running sum of stored numbers -/
theorem runFl_error {R : Rounding K} {u η : K} (A : R.Accurate u η) (f : ℕ → K) (k : ℕ) (h : ∀ j ≤ k, R.rep (f j)) :
    |runFl R 0 f k - ∑ j ∈ Finset.range (k + 1), f j| ≤ ((1 + u) ^ k - 1) * ∑ j ∈ Finset.range (k + 1), |f j| := by
  induction k with
  | zero => simp [runFl, R.fl_of_rep _ (h 0 (le_refl 0))]
  | succ k ih =>
    have ih := ih (fun j hj => h j (by omega))
    have e := A.add _ _ (runFl_rep R 0 f k) (h (k + 1) (le_refl _))
    rw [runFl, Finset.sum_range_succ, Finset.sum_range_succ (fun j => |f j|)]
    have hs := Finset.abs_sum_le_sum_abs f (Finset.range (k + 1))
    have hS0 : 0 ≤ ∑ j ∈ Finset.range (k + 1), |f j| := Finset.sum_nonneg (fun _ _ => abs_nonneg _)
    set s := runFl R 0 f k
    set S := ∑ j ∈ Finset.range (k + 1), f j
    set T := ∑ j ∈ Finset.range (k + 1), |f j|
    set x := f (k + 1)
    have hu0 := A.u_nonneg
    have g1 : (1 : K) ≤ (1 + u) ^ k := one_le_pow₀ (by linarith)
    rw [pow_succ]
    set G := (1 + u) ^ k
    have b1 : |s + x| ≤ G * T + |x| := by
      have e : s + x = (s - S) + S + x := by ring
      rw [e]
      have := abs_add_le ((s - S) + S) x
      have := abs_add_le (s - S) S
      linarith
    have b2 := mul_le_mul_of_nonneg_left b1 hu0
    have b3 : |R.fl (s + x) - (S + x)| ≤ |R.fl (s + x) - (s + x)| + |s - S| := by
      have e : R.fl (s + x) - (S + x) = (R.fl (s + x) - (s + x)) + (s - S) := by ring
      rw [e]
      exact abs_add_le _ _
    have b4 : 0 ≤ (G - 1) * |x| := mul_nonneg (by linarith) (abs_nonneg _)
    have b5 : 0 ≤ u * ((G - 1) * |x|) := mul_nonneg hu0 b4
    nlinarith

theorem pow_le_linear {u : K} (hu0 : 0 ≤ u) (m : ℕ) (h : 2 * m * u ≤ 1) : (1 + u) ^ m ≤ 1 + 2 * m * u := by
  induction m with
  | zero => simp
  | succ m ih =>
    push_cast at h ⊢
    have hm : 2 * (m : K) * u ≤ 1 := by nlinarith
    have ih := ih hm
    rw [pow_succ]
    have h1 := mul_le_mul_of_nonneg_right ih (show 0 ≤ 1 + u by linarith)
    have h2 := mul_le_mul_of_nonneg_right hm hu0
    nlinarith

end Verif.Lemmas
