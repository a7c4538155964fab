import Mathlib.Algebra.Order.Field.Basic

/-
Extended numbers: a number of the field `K`, +inf, -inf or NaN, with IEEE-754 semantics for arithmetic and
comparison. Not modelled: rounding, signed zero (division by zero takes the sign of the numerator, i.e. zero is
`+0`) and overflow.
-/

set_option linter.unusedSectionVars false

namespace Verif

inductive XF (K : Type _)
  | fin (x : K)
  | pinf
  | ninf
  | nan
  deriving DecidableEq

namespace XF
variable {K : Type _}

/-- `np.isnan` -/
def isNaN : XF K → Bool
  | nan => true
  | _ => false

/-- the number, if it is finite -/
def toFin? : XF K → Option K
  | fin x => some x
  | _ => none

/-- finite (neither NaN nor infinite): `np.isfinite` -/
def isFin : XF K → Bool
  | fin _ => true
  | _ => false

section ops
variable [Field K] [LinearOrder K]

/-- Infinity carrying the sign of `x`; NaN if `x = 0`. -/
def signInf (x : K) : XF K := if 0 < x then pinf else if x < 0 then ninf else nan

def neg : XF K → XF K
  | fin x => fin (-x)
  | pinf => ninf
  | ninf => pinf
  | nan => nan

def add : XF K → XF K → XF K
  | nan, _ => nan
  | _, nan => nan
  | fin x, fin y => fin (x + y)
  | fin _, pinf => pinf
  | fin _, ninf => ninf
  | pinf, fin _ => pinf
  | ninf, fin _ => ninf
  | pinf, pinf => pinf
  | ninf, ninf => ninf
  | pinf, ninf => nan
  | ninf, pinf => nan

def mul : XF K → XF K → XF K
  | nan, _ => nan
  | _, nan => nan
  | fin x, fin y => fin (x * y)
  | fin x, pinf => signInf x
  | fin x, ninf => signInf (-x)
  | pinf, fin x => signInf x
  | ninf, fin x => signInf (-x)
  | pinf, pinf => pinf
  | ninf, ninf => pinf
  | pinf, ninf => ninf
  | ninf, pinf => ninf

def div : XF K → XF K → XF K
  | nan, _ => nan
  | _, nan => nan
  | fin x, fin y => if y = 0 then signInf x else fin (x / y)
  | fin _, pinf => fin 0
  | fin _, ninf => fin 0
  | pinf, fin y => if y < 0 then ninf else pinf
  | ninf, fin y => if y < 0 then pinf else ninf
  | pinf, pinf => nan
  | ninf, ninf => nan
  | pinf, ninf => nan
  | ninf, pinf => nan

/-- IEEE `<`: false as soon as one side is NaN. -/
def lt : XF K → XF K → Bool
  | nan, _ => false
  | _, nan => false
  | fin x, fin y => decide (x < y)
  | fin _, pinf => true
  | fin _, ninf => false
  | pinf, _ => false
  | ninf, fin _ => true
  | ninf, pinf => true
  | ninf, ninf => false

/-- IEEE `<=`: false as soon as one side is NaN. -/
def le : XF K → XF K → Bool
  | nan, _ => false
  | _, nan => false
  | fin x, fin y => decide (x ≤ y)
  | fin _, pinf => true
  | fin _, ninf => false
  | pinf, pinf => true
  | pinf, fin _ => false
  | pinf, ninf => false
  | ninf, fin _ => true
  | ninf, pinf => true
  | ninf, ninf => true

/-- IEEE `==`: false as soon as one side is NaN. -/
def eqb : XF K → XF K → Bool
  | fin x, fin y => decide (x = y)
  | pinf, pinf => true
  | ninf, ninf => true
  | _, _ => false

instance : Neg (XF K) := ⟨neg⟩
instance : Add (XF K) := ⟨add⟩
instance : Sub (XF K) := ⟨fun a b => add a (neg b)⟩
instance : Mul (XF K) := ⟨mul⟩
instance : Div (XF K) := ⟨div⟩

@[simp] theorem fin_add (x y : K) : (fin x + fin y : XF K) = fin (x + y) := rfl
@[simp] theorem fin_neg (x : K) : (-(fin x) : XF K) = fin (-x) := rfl
@[simp] theorem fin_sub (x y : K) : (fin x - fin y : XF K) = fin (x - y) := by
  show fin (x + -y) = _; rw [sub_eq_add_neg]
@[simp] theorem fin_mul (x y : K) : (fin x * fin y : XF K) = fin (x * y) := rfl
theorem fin_div (x y : K) (h : y ≠ 0) : (fin x / fin y : XF K) = fin (x / y) := by
  show (if y = 0 then signInf x else fin (x / y)) = _; rw [if_neg h]
theorem fin_div_zero (x : K) : (fin x / fin 0 : XF K) = signInf x := by
  show (if (0:K) = 0 then signInf x else fin (x / 0)) = _; rw [if_pos rfl]
@[simp] theorem nan_add (x : XF K) : (nan + x : XF K) = nan := rfl
@[simp] theorem add_nan (x : XF K) : (x + nan : XF K) = nan := by cases x <;> rfl
@[simp] theorem nan_sub (x : XF K) : (nan - x : XF K) = nan := rfl
@[simp] theorem sub_nan (x : XF K) : (x - nan : XF K) = nan := by cases x <;> rfl
@[simp] theorem nan_mul (x : XF K) : (nan * x : XF K) = nan := rfl
@[simp] theorem mul_nan (x : XF K) : (x * nan : XF K) = nan := by cases x <;> rfl
@[simp] theorem nan_div (x : XF K) : (nan / x : XF K) = nan := rfl
@[simp] theorem div_nan (x : XF K) : (x / nan : XF K) = nan := by cases x <;> rfl
@[simp] theorem lt_fin (x y : K) : lt (fin x) (fin y) = decide (x < y) := rfl
@[simp] theorem le_fin (x y : K) : le (fin x) (fin y) = decide (x ≤ y) := rfl
@[simp] theorem eqb_fin (x y : K) : eqb (fin x) (fin y) = decide (x = y) := rfl
@[simp] theorem lt_nan (x : XF K) : lt x nan = false := by cases x <;> rfl
@[simp] theorem nan_lt (x : XF K) : lt nan x = false := rfl
@[simp] theorem le_nan (x : XF K) : le x nan = false := by cases x <;> rfl
@[simp] theorem nan_le (x : XF K) : le nan x = false := rfl

end ops
@[simp] theorem isNaN_fin (x : K) : isNaN (fin x) = false := rfl
@[simp] theorem isNaN_nan : isNaN (nan : XF K) = true := rfl
@[simp] theorem toFin?_fin (x : K) : toFin? (fin x) = some x := rfl
@[simp] theorem toFin?_nan : toFin? (nan : XF K) = none := rfl
theorem isNaN_iff (x : XF K) : x.isNaN = true ↔ x = nan := by cases x <;> simp [isNaN]

end XF

/-- Sum of the finite entries: `np.nansum` for arrays whose entries are finite or NaN. -/
def nanSum {K : Type _} [Field K] (l : List (XF K)) : K := (l.filterMap XF.toFin?).sum

end Verif
