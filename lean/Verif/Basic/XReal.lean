import Verif.Basic.XF
import Mathlib.Analysis.SpecialFunctions.Trigonometric.Inverse
import Mathlib.Analysis.SpecialFunctions.Log.Basic
import Mathlib.Analysis.SpecialFunctions.Sqrt

/-
numpy's elementary functions on extended reals, with their NaN/infinity conventions made explicit (so that Lean's
total `Real.log`, `Real.sqrt`, `Real.tan`, `Real.arccos` are only used inside their domains).
-/

namespace Verif.XF
noncomputable section

/-- `np.exp` -/
def exp : XF ℝ → XF ℝ
  | fin x => fin (Real.exp x)
  | pinf => pinf
  | ninf => fin 0
  | nan => nan

/-- `np.log`: `-inf` at 0, NaN below -/
def log : XF ℝ → XF ℝ
  | fin x => if 0 < x then fin (Real.log x) else if x = 0 then ninf else nan
  | pinf => pinf
  | ninf => nan
  | nan => nan

/-- `np.sqrt`: NaN below 0 -/
def sqrt : XF ℝ → XF ℝ
  | fin x => if 0 ≤ x then fin (Real.sqrt x) else nan
  | pinf => pinf
  | ninf => nan
  | nan => nan

/-- `abs` -/
def abs : XF ℝ → XF ℝ
  | fin x => fin |x|
  | pinf => pinf
  | ninf => pinf
  | nan => nan

/-- `np.sin`: NaN at infinity -/
def sin : XF ℝ → XF ℝ
  | fin x => fin (Real.sin x)
  | _ => nan

/-- `np.cos`: NaN at infinity -/
def cos : XF ℝ → XF ℝ
  | fin x => fin (Real.cos x)
  | _ => nan

/-- `np.tan`: NaN at infinity and, as the exact value does not exist, at the poles -/
def tan : XF ℝ → XF ℝ
  | fin x => if Real.cos x = 0 then nan else fin (Real.tan x)
  | _ => nan

/-- `np.arccos`: NaN outside [-1,1] -/
def arccos : XF ℝ → XF ℝ
  | fin x => if -1 ≤ x ∧ x ≤ 1 then fin (Real.arccos x) else nan
  | _ => nan

/-- `np.where` / `xr.where` at one point -/
def sel {α : Type _} (c : Bool) (a b : α) : α := if c then a else b

@[simp] theorem exp_fin (x : ℝ) : exp (fin x) = fin (Real.exp x) := rfl
@[simp] theorem abs_fin (x : ℝ) : abs (fin x) = fin |x| := rfl
@[simp] theorem sin_fin (x : ℝ) : sin (fin x) = fin (Real.sin x) := rfl
@[simp] theorem cos_fin (x : ℝ) : cos (fin x) = fin (Real.cos x) := rfl
theorem log_fin {x : ℝ} (h : 0 < x) : log (fin x) = fin (Real.log x) := by simp [log, h]
theorem sqrt_fin {x : ℝ} (h : 0 ≤ x) : sqrt (fin x) = fin (Real.sqrt x) := by simp [sqrt, h]
theorem tan_fin {x : ℝ} (h : Real.cos x ≠ 0) : tan (fin x) = fin (Real.tan x) := by simp [tan, h]
theorem arccos_fin {x : ℝ} (h : -1 ≤ x) (h' : x ≤ 1) : arccos (fin x) = fin (Real.arccos x) := by simp [arccos, h, h']

end
end Verif.XF
