import Mathlib.Algebra.Order.Floor.Ring
import Mathlib.Algebra.Order.Field.Basic
import Mathlib.Data.Int.Log
import Mathlib.Algebra.Ring.Parity
import Mathlib.Tactic.Linarith
import Mathlib.Tactic.Ring
import Mathlib.Tactic.FieldSimp
import Mathlib.Tactic.Positivity

/-
Floating-point arithmetic without overflow: every operation returns the rounded exact result. `Rounding` is any monotone rounding to a set of
representable numbers (all IEEE rounding modes are of this kind); `binary p emin` is rounding to nearest, ties to even, with `p` bits and gradual
underflow at `2 ^ emin`; numpy's float64 is `binary 53 (-1074)`.
-/

set_option linter.unusedSectionVars false
namespace Verif
variable {K : Type _} [Field K] [LinearOrder K] [IsStrictOrderedRing K]

/-- a rounding of the numbers to representable ones -/
structure Rounding (K : Type _) [Field K] [LinearOrder K] where
  /-- the number can be stored exactly -/
  rep : K → Prop
  /-- the stored number nearest to the exact one (in the sense of the rounding mode) -/
  fl : K → K
  rep_fl : ∀ x, rep (fl x)
  fl_of_rep : ∀ x, rep x → fl x = x
  mono : ∀ x y, x ≤ y → fl x ≤ fl y
  rep_zero : rep 0
  rep_one : rep 1
  rep_neg : ∀ x, rep x → rep (-x)
  rep_double : ∀ x, rep x → rep (2 * x)
  /-- the difference of two different numbers is not rounded to zero (gradual underflow) -/
  sub_ne : ∀ x y, rep x → rep y → x ≠ y → fl (y - x) ≠ 0
  /-- the difference of two numbers within a factor of two of each other is exact (Sterbenz) -/
  rep_sub : ∀ x y, rep x → rep y → 0 ≤ y → y ≤ 2 * x → x ≤ 2 * y → rep (x - y)

namespace Rounding

/-- exact arithmetic -/
def exact : Rounding K where
  rep := fun _ => True
  fl := id
  rep_fl := fun _ => trivial
  fl_of_rep := fun _ _ => rfl
  mono := fun _ _ h => h
  rep_zero := trivial
  rep_one := trivial
  rep_neg := fun _ _ => trivial
  rep_double := fun _ _ => trivial
  sub_ne := fun _ _ _ _ h => sub_ne_zero.mpr h.symm
  rep_sub := fun _ _ _ _ _ _ _ => trivial

variable (R : Rounding K)

theorem fl_zero : R.fl 0 = 0 := R.fl_of_rep _ R.rep_zero
theorem fl_one : R.fl 1 = 1 := R.fl_of_rep _ R.rep_one
theorem fl_nonneg {x : K} (h : 0 ≤ x) : 0 ≤ R.fl x := R.fl_zero ▸ R.mono _ _ h
theorem fl_nonpos {x : K} (h : x ≤ 0) : R.fl x ≤ 0 := R.fl_zero ▸ R.mono _ _ h
theorem fl_le {x y : K} (hy : R.rep y) (h : x ≤ y) : R.fl x ≤ y := R.fl_of_rep _ hy ▸ R.mono _ _ h
theorem le_fl {x y : K} (hx : R.rep x) (h : x ≤ y) : x ≤ R.fl y := R.fl_of_rep _ hx ▸ R.mono _ _ h
theorem sub_pos (x y : K) (hx : R.rep x) (hy : R.rep y) (h : x < y) : 0 < R.fl (y - x) :=
  lt_of_le_of_ne (R.fl_nonneg (by linarith)) (R.sub_ne x y hx hy h.ne).symm
theorem sub_neg (x y : K) (hx : R.rep x) (hy : R.rep y) (h : x < y) : R.fl (x - y) < 0 :=
  lt_of_le_of_ne (R.fl_nonpos (by linarith)) (R.sub_ne y x hy hx h.ne')

end Rounding

/-! ### Rounding to nearest, ties to even -/

section binary
variable [FloorRing K]

/-- the integer nearest to `x`, the even one of two -/
def nearestEven (x : K) : ℤ :=
  if x - ⌊x⌋ < 1 / 2 then ⌊x⌋ else if 1 / 2 < x - ⌊x⌋ then ⌊x⌋ + 1 else if Even ⌊x⌋ then ⌊x⌋ else ⌊x⌋ + 1

theorem nearestEven_ge (x : K) : ⌊x⌋ ≤ nearestEven x := by
  unfold nearestEven; split_ifs <;> omega

theorem nearestEven_le (x : K) : nearestEven x ≤ ⌊x⌋ + 1 := by
  unfold nearestEven; split_ifs <;> omega

theorem nearestEven_mono {x y : K} (h : x ≤ y) : nearestEven x ≤ nearestEven y := by
  rcases (Int.floor_mono h).lt_or_eq with hlt | heq
  · have := nearestEven_le x
    have := nearestEven_ge y
    omega
  · unfold nearestEven
    rw [heq]
    split_ifs <;> first | omega | (exfalso; linarith)

theorem nearestEven_int (z : ℤ) : nearestEven (z : K) = z := by
  unfold nearestEven
  simp

theorem nearestEven_dist (x : K) : |(nearestEven x : K) - x| ≤ 1 / 2 := by
  have h1 := Int.floor_le x
  have h2 := Int.lt_floor_add_one x
  unfold nearestEven
  split_ifs <;> rw [abs_le] <;> push_cast <;> constructor <;> linarith

/-- the exponent of the last bit of a positive number -/
def lastExp (p : ℕ) (emin : ℤ) (x : K) : ℤ := max emin (Int.log 2 x + 1 - p)

/-- a positive number rounded to `p` bits -/
def roundPos (p : ℕ) (emin : ℤ) (x : K) : K :=
  nearestEven (x / 2 ^ lastExp p emin x) * 2 ^ lastExp p emin x

/-- a number rounded to `p` bits -/
def roundBin (p : ℕ) (emin : ℤ) (x : K) : K :=
  if x = 0 then 0 else if 0 < x then roundPos p emin x else - roundPos p emin (-x)

/-- an integer of at most `p` bits times a power of two not below `2 ^ emin` -/
def RepBin (p : ℕ) (emin : ℤ) (x : K) : Prop :=
  ∃ m e : ℤ, emin ≤ e ∧ |m| ≤ 2 ^ p ∧ x = m * 2 ^ e

theorem two_zpow_pos (e : ℤ) : (0 : K) < 2 ^ e := zpow_pos (by norm_num) e

theorem two_zpow_mono {a b : ℤ} (h : a ≤ b) : (2 : K) ^ a ≤ 2 ^ b := zpow_le_zpow_right₀ (by norm_num) h

/-- `2 ^ b` is a whole multiple of `2 ^ a` for `a ≤ b` -/
theorem two_zpow_div {a b : ℤ} (h : a ≤ b) : (2 : K) ^ b / 2 ^ a = ((2 ^ (b - a).toNat : ℤ) : K) := by
  rw [div_eq_iff (two_zpow_pos a).ne']
  push_cast
  rw [← zpow_natCast, Int.toNat_of_nonneg (by omega), ← zpow_add₀ (by norm_num)]
  congr 1
  ring

variable (p : ℕ) (emin : ℤ)

theorem lastExp_mono {x y : K} (hx : 0 < x) (h : x ≤ y) : lastExp p emin x ≤ lastExp p emin y := by
  have := Int.log_mono_right (b := 2) hx h
  unfold lastExp
  omega

theorem div_lastExp_lt {x : K} : x / 2 ^ lastExp p emin x < 2 ^ p := by
  rw [div_lt_iff₀ (two_zpow_pos _)]
  have h1 : x < 2 ^ (Int.log 2 x + 1) := by
    have := Int.lt_zpow_succ_log_self (b := 2) (by norm_num) x
    exact_mod_cast this
  have h2 : (2 : K) ^ (Int.log 2 x + 1) ≤ 2 ^ ((p : ℤ) + lastExp p emin x) := two_zpow_mono (by unfold lastExp; omega)
  rw [zpow_add₀ (by norm_num) (p : ℤ), zpow_natCast] at h2
  linarith

theorem roundPos_le {x : K} (z : ℤ) (h : x ≤ z * 2 ^ lastExp p emin x) : roundPos p emin x ≤ z * 2 ^ lastExp p emin x := by
  unfold roundPos
  apply mul_le_mul_of_nonneg_right _ (two_zpow_pos _).le
  have : nearestEven (x / 2 ^ lastExp p emin x) ≤ nearestEven (z : K) := nearestEven_mono (by rwa [div_le_iff₀ (two_zpow_pos _)])
  rw [nearestEven_int] at this
  exact_mod_cast this

theorem le_roundPos {x : K} (z : ℤ) (h : z * 2 ^ lastExp p emin x ≤ x) : z * 2 ^ lastExp p emin x ≤ roundPos p emin x := by
  unfold roundPos
  apply mul_le_mul_of_nonneg_right _ (two_zpow_pos _).le
  have : nearestEven (z : K) ≤ nearestEven (x / 2 ^ lastExp p emin x) := nearestEven_mono (by rwa [le_div_iff₀ (two_zpow_pos _)])
  rw [nearestEven_int] at this
  exact_mod_cast this

theorem roundPos_nonneg {x : K} (h : 0 ≤ x) : 0 ≤ roundPos p emin x := by
  have := le_roundPos p emin (x := x) 0 (by simpa using h)
  simpa using this

theorem repBin_roundPos {x : K} (hx : 0 < x) : RepBin p emin (roundPos p emin x) := by
  refine ⟨_, lastExp p emin x, le_max_left _ _, ?_, rfl⟩
  have h0 : 0 ≤ nearestEven (x / 2 ^ lastExp p emin x) :=
    le_trans (Int.floor_nonneg.mpr (div_pos hx (two_zpow_pos _)).le) (nearestEven_ge _)
  have h1 : nearestEven (x / 2 ^ lastExp p emin x) ≤ nearestEven (((2 ^ p : ℤ)) : K) :=
    nearestEven_mono (by push_cast; exact (div_lastExp_lt p emin).le)
  rw [nearestEven_int] at h1
  rwa [abs_of_nonneg h0]

theorem roundPos_of_int {x : K} (z : ℤ) (h : x / 2 ^ lastExp p emin x = z) : roundPos p emin x = x := by
  unfold roundPos
  rw [h, nearestEven_int, ← h, div_mul_cancel₀ _ (two_zpow_pos _).ne']

theorem repBin_neg {x : K} (h : RepBin p emin x) : RepBin p emin (-x) := by
  obtain ⟨m, e, h1, h2, rfl⟩ := h
  exact ⟨-m, e, h1, by rwa [abs_neg], by push_cast; ring⟩

theorem roundPos_of_rep (hp : 1 ≤ p) {x : K} (hx : 0 < x) (h : RepBin p emin x) : roundPos p emin x = x := by
  obtain ⟨m, e, h1, h2, rfl⟩ := h
  have hm : 0 < m := by
    by_contra hm
    have : (m : K) ≤ 0 := by exact_mod_cast not_lt.mp hm
    have := mul_nonpos_of_nonpos_of_nonneg this (two_zpow_pos (K := K) e).le
    linarith
  rw [abs_of_pos hm] at h2
  rcases h2.lt_or_eq with hlt | heq
  · have hl : Int.log 2 ((m : K) * 2 ^ e) < p + e := by
      rw [← Int.lt_zpow_iff_log_lt (by norm_num) hx]
      push_cast
      rw [zpow_add₀ (by norm_num), zpow_natCast]
      apply mul_lt_mul_of_pos_right _ (two_zpow_pos _)
      exact_mod_cast hlt
    have hle : lastExp p emin ((m : K) * 2 ^ e) ≤ e := by unfold lastExp; omega
    apply roundPos_of_int p emin (m * 2 ^ (e - lastExp p emin ((m : K) * 2 ^ e)).toNat)
    rw [mul_div_assoc, two_zpow_div hle]
    push_cast
    rfl
  · have hx2 : (m : K) * 2 ^ e = 2 ^ ((p : ℤ) + e) := by
      rw [heq, zpow_add₀ (by norm_num), zpow_natCast]
      push_cast
      rfl
    have hl : lastExp p emin ((m : K) * 2 ^ e) = e + 1 := by
      unfold lastExp
      have := Int.log_zpow (R := K) (b := 2) (by norm_num) ((p : ℤ) + e)
      push_cast at this
      rw [hx2, this]
      omega
    apply roundPos_of_int p emin (2 ^ ((p : ℤ) + e - (e + 1)).toNat)
    rw [hl, hx2, two_zpow_div (by omega)]

theorem roundPos_mono {x y : K} (hp : 1 ≤ p) (hx : 0 < x) (h : x ≤ y) : roundPos p emin x ≤ roundPos p emin y := by
  have hy : 0 < y := lt_of_lt_of_le hx h
  rcases (lastExp_mono p emin hx h).lt_or_eq with hlt | heq
  · have e1 : lastExp p emin y = Int.log 2 y + 1 - p := by unfold lastExp at *; omega
    have e2 : Int.log 2 x < Int.log 2 y := by unfold lastExp at *; omega
    have hB : x ≤ 2 ^ Int.log 2 y := by
      have := (Int.lt_zpow_iff_log_lt (b := 2) (by norm_num) hx).mpr e2
      push_cast at this
      exact this.le
    have hB' : (2 : K) ^ Int.log 2 y ≤ y := by
      have := Int.zpow_log_le_self (b := 2) (by norm_num) hy
      exact_mod_cast this
    have k1 : (2 : K) ^ Int.log 2 y = ((2 ^ (Int.log 2 y - lastExp p emin x).toNat : ℤ) : K) * 2 ^ lastExp p emin x := by
      rw [← two_zpow_div (by omega), div_mul_cancel₀ _ (two_zpow_pos _).ne']
    have k2 : (2 : K) ^ Int.log 2 y = ((2 ^ (Int.log 2 y - lastExp p emin y).toNat : ℤ) : K) * 2 ^ lastExp p emin y := by
      rw [← two_zpow_div (by omega), div_mul_cancel₀ _ (two_zpow_pos _).ne']
    calc roundPos p emin x ≤ 2 ^ Int.log 2 y := by rw [k1]; exact roundPos_le p emin _ (by rw [← k1]; exact hB)
      _ ≤ roundPos p emin y := by rw [k2]; exact le_roundPos p emin _ (by rw [← k2]; exact hB')
  · unfold roundPos
    rw [heq]
    apply mul_le_mul_of_nonneg_right _ (two_zpow_pos _).le
    exact_mod_cast nearestEven_mono (div_le_div_of_nonneg_right h (two_zpow_pos _).le)

theorem roundPos_error {x : K} (hx : 0 < x) : |roundPos p emin x - x| ≤ max (x / 2 ^ p) (2 ^ (emin - 1)) := by
  have h1 : roundPos p emin x - x = (nearestEven (x / 2 ^ lastExp p emin x) - x / 2 ^ lastExp p emin x) * 2 ^ lastExp p emin x := by
    unfold roundPos
    rw [sub_mul, div_mul_cancel₀ _ (two_zpow_pos _).ne']
  have h2 : |roundPos p emin x - x| ≤ 1 / 2 * 2 ^ lastExp p emin x := by
    rw [h1, abs_mul, abs_of_pos (two_zpow_pos (K := K) _)]
    exact mul_le_mul_of_nonneg_right (nearestEven_dist _) (two_zpow_pos _).le
  refine h2.trans ?_
  rcases le_total emin (Int.log 2 x + 1 - p) with h | h
  · refine le_trans ?_ (le_max_left _ _)
    unfold lastExp
    rw [max_eq_right h, le_div_iff₀ (by positivity)]
    have : (2 : K) ^ Int.log 2 x ≤ x := by
      have := Int.zpow_log_le_self (b := 2) (by norm_num) hx
      exact_mod_cast this
    have e : (2 : K) ^ (Int.log 2 x + 1 - p) * 2 ^ p = 2 * 2 ^ Int.log 2 x := by
      rw [← zpow_natCast, ← zpow_add₀ (by norm_num)]
      rw [show Int.log 2 x + 1 - (p : ℤ) + p = Int.log 2 x + 1 by ring, zpow_add₀ (by norm_num)]
      ring
    linarith
  · refine le_trans ?_ (le_max_right _ _)
    unfold lastExp
    rw [max_eq_left h, zpow_sub₀ (by norm_num)]
    simp [div_eq_inv_mul]

theorem roundBin_pos {x : K} (h : 0 < x) : roundBin p emin x = roundPos p emin x := by
  unfold roundBin
  rw [if_neg h.ne', if_pos h]

theorem roundBin_neg (x : K) : roundBin p emin (-x) = - roundBin p emin x := by
  unfold roundBin
  rcases lt_trichotomy x 0 with h | h | h
  · rw [if_neg (by linarith), if_pos (by linarith), if_neg h.ne, if_neg (by linarith), neg_neg]
  · simp [h]
  · rw [if_neg (by linarith), if_neg (by linarith), if_neg h.ne', if_pos h, neg_neg]

theorem roundBin_nonneg {x : K} (h : 0 ≤ x) : 0 ≤ roundBin p emin x := by
  rcases h.lt_or_eq with h | h
  · rw [roundBin_pos p emin h]; exact roundPos_nonneg p emin h.le
  · simp [roundBin, ← h]

theorem roundBin_mono (hp : 1 ≤ p) {x y : K} (h : x ≤ y) : roundBin p emin x ≤ roundBin p emin y := by
  have key : ∀ x y : K, 0 ≤ x → x ≤ y → roundBin p emin x ≤ roundBin p emin y := by
    intro x y hx h
    rcases hx.lt_or_eq with hx | hx
    · rw [roundBin_pos p emin hx, roundBin_pos p emin (hx.trans_le h)]
      exact roundPos_mono p emin hp hx h
    · have : roundBin p emin x = 0 := by simp [roundBin, ← hx]
      rw [this]
      exact roundBin_nonneg p emin (hx.le.trans h)
  rcases le_total 0 x with hx | hx
  · exact key x y hx h
  · have e : roundBin p emin x = - roundBin p emin (-x) := by rw [roundBin_neg, neg_neg]
    rcases le_total 0 y with hy | hy
    · have h1 := roundBin_nonneg p emin (x := -x) (by linarith)
      have h2 := roundBin_nonneg p emin hy
      linarith
    · have e' : roundBin p emin y = - roundBin p emin (-y) := by rw [roundBin_neg, neg_neg]
      have := key (-y) (-x) (by linarith) (by linarith)
      linarith

/-- representable numbers are multiples of `2 ^ emin`, and so are their differences -/
theorem sub_multiple {x y : K} (hx : RepBin p emin x) (hy : RepBin p emin y) : ∃ z : ℤ, x - y = z * 2 ^ emin := by
  obtain ⟨m, e, a1, -, rfl⟩ := hx
  obtain ⟨n, f, b1, -, rfl⟩ := hy
  have up : ∀ (k g : ℤ), emin ≤ g → (k : K) * 2 ^ g = ((k * 2 ^ (g - emin).toNat : ℤ) : K) * 2 ^ emin := by
    intro k g h
    have := two_zpow_div (K := K) h
    rw [div_eq_iff (two_zpow_pos emin).ne'] at this
    rw [this]
    push_cast
    ring
  refine ⟨m * 2 ^ (e - emin).toNat - n * 2 ^ (f - emin).toNat, ?_⟩
  rw [up m e a1, up n f b1, ← sub_mul]
  push_cast
  rfl

/-- Sterbenz: the difference of two numbers within a factor of two is exact -/
theorem repBin_sub_of_close {x y : K} (hx : RepBin p emin x) (hy : RepBin p emin y) (h0 : 0 ≤ y) (h1 : y ≤ 2 * x) (h2 : x ≤ 2 * y) :
    RepBin p emin (x - y) := by
  obtain ⟨m, e, a1, a2, rfl⟩ := hx
  obtain ⟨n, f, b1, b2, rfl⟩ := hy
  have hx0 : (0 : K) ≤ m * 2 ^ e := by linarith
  have up : ∀ (k g d : ℤ), d ≤ g → (k : K) * 2 ^ g = ((k * 2 ^ (g - d).toNat : ℤ) : K) * 2 ^ d := by
    intro k g d h
    push_cast
    have := two_zpow_div (K := K) h
    rw [div_eq_iff (two_zpow_pos d).ne'] at this
    rw [this]
    push_cast
    ring
  have fin' : ∀ (z d : ℤ), emin ≤ d → ((m : K) * 2 ^ e - n * 2 ^ f = z * 2 ^ d) → |(z : K) * 2 ^ d| ≤ 2 ^ p * 2 ^ d →
      RepBin p emin ((m : K) * 2 ^ e - n * 2 ^ f) := by
    intro z d hd he hz
    refine ⟨z, d, hd, ?_, he⟩
    rw [abs_mul, abs_of_pos (two_zpow_pos (K := K) d)] at hz
    have := le_of_mul_le_mul_right hz (two_zpow_pos d)
    exact_mod_cast this
  have mK : (m : K) ≤ 2 ^ p := by exact_mod_cast (le_abs_self m).trans a2
  have nK : (n : K) ≤ 2 ^ p := by exact_mod_cast (le_abs_self n).trans b2
  rcases le_total e f with hef | hef
  · have e1 := up n f e hef
    have key : (m : K) * 2 ^ e - n * 2 ^ f = ((m - n * 2 ^ (f - e).toNat : ℤ) : K) * 2 ^ e := by
      rw [e1]; push_cast; ring
    refine fin' _ e a1 key ?_
    rw [← key, abs_le]
    have := mul_le_mul_of_nonneg_right mK (two_zpow_pos (K := K) e).le
    constructor <;> linarith
  · have e1 := up m e f hef
    have key : (m : K) * 2 ^ e - n * 2 ^ f = ((m * 2 ^ (e - f).toNat - n : ℤ) : K) * 2 ^ f := by
      rw [e1]; push_cast; ring
    refine fin' _ f b1 key ?_
    rw [← key, abs_le]
    have := mul_le_mul_of_nonneg_right nK (two_zpow_pos (K := K) f).le
    constructor <;> linarith

theorem roundBin_sub_pos (hp : 1 ≤ p) {x y : K} (hx : RepBin p emin x) (hy : RepBin p emin y) (h : x < y) : 0 < roundBin p emin (y - x) := by
  obtain ⟨z, hz⟩ := sub_multiple p emin hy hx
  have h0 : (0 : K) < z * 2 ^ emin := by rw [← hz]; linarith
  have hz1 : (1 : ℤ) ≤ z := by
    have : (0 : K) < z := by
      by_contra hn
      have := mul_nonpos_of_nonpos_of_nonneg (not_lt.mp hn) (two_zpow_pos (K := K) emin).le
      linarith
    exact_mod_cast this
  have hz2 : (1 : K) ≤ z := by exact_mod_cast hz1
  have h1 : (2 : K) ^ emin ≤ y - x := by
    rw [hz]
    have := mul_le_mul_of_nonneg_right hz2 (two_zpow_pos (K := K) emin).le
    linarith
  have h2 : roundBin p emin ((2 : K) ^ emin) = 2 ^ emin := by
    rw [roundBin_pos p emin (two_zpow_pos _)]
    exact roundPos_of_rep p emin hp (two_zpow_pos _) ⟨1, emin, le_refl _, by simpa using one_le_pow₀ (n := p) (by norm_num : (1 : ℤ) ≤ 2), by simp⟩
  have h3 := roundBin_mono p emin hp h1
  rw [h2] at h3
  exact (two_zpow_pos (K := K) emin).trans_le h3

/-- rounding to nearest with `p` bits, ties to even, gradual underflow; no overflow -/
def binary (hp : 1 ≤ p) (he : emin ≤ 0) : Rounding K where
  rep := RepBin p emin
  fl := roundBin p emin
  rep_fl := by
    intro x
    unfold roundBin
    split_ifs with h1 h2
    · exact ⟨0, emin, le_refl _, by simp, by simp⟩
    · exact repBin_roundPos p emin h2
    · exact repBin_neg p emin (repBin_roundPos p emin (by
        rcases lt_trichotomy x 0 with h | h | h
        · linarith
        · exact absurd h h1
        · exact absurd h h2))
  fl_of_rep := by
    intro x h
    unfold roundBin
    split_ifs with h1 h2
    · exact h1.symm
    · exact roundPos_of_rep p emin hp h2 h
    · have : 0 < -x := by
        rcases lt_trichotomy x 0 with h | h | h
        · linarith
        · exact absurd h h1
        · exact absurd h h2
      rw [roundPos_of_rep p emin hp this (repBin_neg p emin h), neg_neg]
  mono := fun _ _ h => roundBin_mono p emin hp h
  rep_zero := ⟨0, emin, le_refl _, by simp, by simp⟩
  rep_one := ⟨1, 0, he, by simpa using one_le_pow₀ (n := p) (by norm_num : (1 : ℤ) ≤ 2), by simp⟩
  rep_neg := fun _ h => repBin_neg p emin h
  rep_double := by
    rintro x ⟨m, e, h1, h2, rfl⟩
    refine ⟨m, e + 1, by omega, h2, ?_⟩
    rw [zpow_add₀ (by norm_num)]
    ring
  sub_ne := by
    intro x y hx hy h
    rcases lt_or_gt_of_ne h with h | h
    · exact (roundBin_sub_pos p emin hp hx hy h).ne'
    · have := roundBin_sub_pos p emin hp hy hx h
      rw [← neg_sub, roundBin_neg] at this
      intro h'
      rw [h'] at this
      simp at this
  rep_sub := fun _ _ hx hy h0 h1 h2 => repBin_sub_of_close p emin hx hy h0 h1 h2

/-- numpy's float64, without overflow -/
def float64 : Rounding K := binary 53 (-1074) (by norm_num) (by norm_num)

/-- relative error of one operation, up to underflow -/
theorem roundBin_error (x : K) : |roundBin p emin x - x| ≤ max (|x| / 2 ^ p) (2 ^ (emin - 1)) := by
  unfold roundBin
  rcases lt_trichotomy x 0 with h | h | h
  · rw [if_neg h.ne, if_neg (by linarith), show - roundPos p emin (-x) - x = -(roundPos p emin (-x) - -x) by ring, abs_neg, abs_of_neg h]
    exact roundPos_error p emin (by linarith)
  · rw [if_pos h, h]
    simp [(two_zpow_pos (K := K) _).le]
  · rw [if_neg h.ne', if_pos h, abs_of_pos h]
    exact roundPos_error p emin h

/-- sums of representable numbers never underflow -/
theorem roundBin_add_error (hp : 1 ≤ p) (he : emin ≤ 0) {x y : K} (hx : RepBin p emin x) (hy : RepBin p emin y) :
    |roundBin p emin (x + y) - (x + y)| ≤ |x + y| / 2 ^ p := by
  rcases le_total ((2 : K) ^ (emin - 1)) (|x + y| / 2 ^ p) with h | h
  · have := roundBin_error p emin (x + y)
    rwa [max_eq_left h] at this
  · obtain ⟨z, hz⟩ := sub_multiple p emin hx (repBin_neg p emin hy)
    rw [sub_neg_eq_add] at hz
    have hr : RepBin p emin (x + y) := by
      refine ⟨z, emin, le_refl _, ?_, hz⟩
      rw [hz, abs_mul, abs_of_pos (two_zpow_pos (K := K) emin), div_le_iff₀ (by positivity), zpow_sub₀ (by norm_num), zpow_one] at h
      have hpos := two_zpow_pos (K := K) emin
      have h' : |(z : K)| * 2 ^ emin ≤ 2 ^ p * 2 ^ emin := by
        have : (2 : K) ^ emin / 2 * 2 ^ p ≤ 2 ^ p * 2 ^ emin := by
          have : (0 : K) ≤ 2 ^ p * 2 ^ emin := by positivity
          linarith [this, show (2 : K) ^ emin / 2 * 2 ^ p = 2 ^ p * 2 ^ emin / 2 by ring]
        linarith
      have := le_of_mul_le_mul_right h' hpos
      rw [← Int.cast_abs] at this
      exact_mod_cast this
    have : roundBin p emin (x + y) = x + y := (binary p emin hp he).fl_of_rep _ hr
    rw [this]
    simp
    positivity

end binary
end Verif
