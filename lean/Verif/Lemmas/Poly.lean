import Mathlib.Data.Real.Basic
import Mathlib.Analysis.Calculus.Deriv.Mul
import Mathlib.Analysis.Calculus.Deriv.Add
import Mathlib.Analysis.Calculus.Deriv.Comp
import Mathlib.Analysis.Calculus.Deriv.Pow
import Mathlib.Algebra.BigOperators.Intervals
import Mathlib.Tactic.Ring
import Mathlib.Tactic.Linarith

/-
Polynomials as lists of rational coefficients (constant term first), their real values and a bound from the absolute values of the coefficients.
-/

namespace Verif.Lemmas.Poly

/-- value of the polynomial -/
def ev : List ℚ → ℝ → ℝ
  | [], _ => 0
  | c :: cs, t => (c : ℝ) + t * ev cs t

def add : List ℚ → List ℚ → List ℚ
  | [], q => q
  | p, [] => p
  | a :: p, b :: q => (a + b) :: add p q

def smul (a : ℚ) (p : List ℚ) : List ℚ := p.map (a * ·)

def mul : List ℚ → List ℚ → List ℚ
  | [], _ => []
  | a :: p, q => add (smul a q) (0 :: mul p q)

def deriv : List ℚ → List ℚ
  | [] => []
  | _ :: cs => add cs (0 :: deriv cs)

/-- sum of the absolute values of the terms at `T` -/
def bound : List ℚ → ℚ → ℚ
  | [], _ => 0
  | c :: cs, T => |c| + T * bound cs T

theorem ev_add (p q : List ℚ) (t : ℝ) : ev (add p q) t = ev p t + ev q t := by
  induction p generalizing q with
  | nil => simp [add, ev]
  | cons a p ih =>
    cases q with
    | nil => simp [add, ev]
    | cons b q => simp only [add, ev, ih]; push_cast; ring

theorem ev_smul (a : ℚ) (p : List ℚ) (t : ℝ) : ev (smul a p) t = a * ev p t := by
  induction p with
  | nil => simp [smul, ev]
  | cons b p ih =>
    simp only [smul, List.map_cons, ev] at ih ⊢
    rw [ih]; push_cast; ring

theorem ev_mul (p q : List ℚ) (t : ℝ) : ev (mul p q) t = ev p t * ev q t := by
  induction p with
  | nil => simp [mul, ev]
  | cons a p ih => simp only [mul, ev_add, ev_smul, ev, ih]; push_cast; ring

theorem hasDerivAt_ev (p : List ℚ) (t : ℝ) : HasDerivAt (ev p) (ev (deriv p) t) t := by
  induction p with
  | nil => exact hasDerivAt_const t 0
  | cons c cs ih =>
    have h : HasDerivAt (fun t => (c : ℝ) + t * ev cs t) (0 + (1 * ev cs t + t * ev (deriv cs) t)) t :=
      (hasDerivAt_const t (c : ℝ)).add ((hasDerivAt_id t).mul ih)
    have e : ev (deriv (c :: cs)) t = 0 + (1 * ev cs t + t * ev (deriv cs) t) := by
      simp only [deriv, ev_add, ev]; push_cast; ring
    rw [e]; exact h

/-- coefficients (in the square) of the derivative of the odd polynomial `x * p(x²)` -/
def oddDeriv (p : List ℚ) : List ℚ := add p (0 :: smul 2 (deriv p))

theorem hasDerivAt_odd (p : List ℚ) (x : ℝ) : HasDerivAt (fun x => x * ev p (x ^ 2)) (ev (oddDeriv p) (x ^ 2)) x := by
  have h1 : HasDerivAt (fun x : ℝ => x ^ 2) (2 * x) x := by
    simpa using hasDerivAt_pow 2 x
  have h2 : HasDerivAt (fun x : ℝ => ev p (x ^ 2)) (ev (deriv p) (x ^ 2) * (2 * x)) x :=
    HasDerivAt.comp x (hasDerivAt_ev p (x ^ 2)) h1
  have h3 : HasDerivAt (fun x : ℝ => x * ev p (x ^ 2)) (1 * ev p (x ^ 2) + x * (ev (deriv p) (x ^ 2) * (2 * x))) x :=
    (hasDerivAt_id x).mul h2
  refine h3.congr_deriv ?_
  simp only [oddDeriv, ev_add, ev, ev_smul]
  push_cast; ring

theorem bound_nonneg (p : List ℚ) {T : ℚ} (hT : 0 ≤ T) : 0 ≤ bound p T := by
  induction p with
  | nil => exact le_refl _
  | cons c cs ih => exact add_nonneg (abs_nonneg c) (mul_nonneg hT ih)

theorem abs_ev_le (p : List ℚ) {T : ℚ} {t : ℝ} (h0 : 0 ≤ t) (h1 : t ≤ T) : |ev p t| ≤ (bound p T : ℚ) := by
  have hT : (0 : ℚ) ≤ T := by
    have : (0 : ℝ) ≤ (T : ℝ) := h0.trans h1
    exact_mod_cast this
  induction p with
  | nil => simp [ev, bound]
  | cons c cs ih =>
    simp only [ev, bound]
    push_cast
    refine (abs_add_le _ _).trans (add_le_add (le_refl _) ?_)
    rw [abs_mul, abs_of_nonneg h0]
    have hb : (0 : ℝ) ≤ (bound cs T : ℚ) := by exact_mod_cast bound_nonneg cs hT
    exact mul_le_mul h1 ih (abs_nonneg _) (h0.trans h1)

theorem ev_append (p : List ℚ) (c : ℚ) (t : ℝ) : ev (p ++ [c]) t = ev p t + c * t ^ p.length := by
  induction p with
  | nil => simp [ev]
  | cons a p ih => simp only [List.cons_append, ev, ih, List.length_cons]; ring

theorem ev_range (g : ℕ → ℚ) (K : ℕ) (t : ℝ) : ev ((List.range K).map g) t = ∑ k ∈ Finset.range K, (g k : ℝ) * t ^ k := by
  induction K with
  | zero => simp [ev]
  | succ K ih => rw [List.range_succ, List.map_append, List.map_cons, List.map_nil, ev_append, ih, Finset.sum_range_succ]; simp

end Verif.Lemmas.Poly
