import Verif.Basic.Rounding
import Mathlib.Analysis.Real.Sqrt

/-
The square root of a square in floating-point arithmetic: rounding to nearest gives back the number.
-/

namespace Verif.Lemmas

theorem log_eq_of_between {y : ℝ} {k : ℤ} (h1 : (2 : ℝ) ^ k ≤ y) (h2 : y < 2 ^ (k + 1)) : Int.log 2 y = k := by
  have hy : 0 < y := (two_zpow_pos k).trans_le h1
  have a : k ≤ Int.log 2 y := (Int.zpow_le_iff_le_log (b := 2) (by norm_num) hy).mp (by exact_mod_cast h1)
  have b : Int.log 2 y < k + 1 := (Int.lt_zpow_iff_log_lt (b := 2) (by norm_num) hy).mp (by exact_mod_cast h2)
  omega

/-- a number closer to the integer `m` than one half is rounded to it -/
theorem nearestEven_of_close {x : ℝ} {m : ℤ} (h : |x - m| < 1 / 2) : nearestEven x = m := by
  have h1 := nearestEven_dist x
  have h2 : |(nearestEven x : ℝ) - m| < 1 := by
    have := abs_add_le ((nearestEven x : ℝ) - x) (x - m)
    rw [show (nearestEven x : ℝ) - x + (x - m) = nearestEven x - m by ring] at this
    linarith
  have h3 : |nearestEven x - m| < 1 := by exact_mod_cast h2
  have := abs_lt.mp h3
  omega

/-- a representable normal number: `m * 2 ^ L` with `p` bits -/
theorem normal_form {p : ℕ} {emin : ℤ} (hp : 1 ≤ p) {x : ℝ} (hx : RepBin p emin x) (hn : (2 : ℝ) ^ (emin + p - 1) ≤ x) :
    ∃ m : ℤ, x = m * 2 ^ (Int.log 2 x + 1 - p) ∧ 2 ^ (p - 1) ≤ m ∧ m < 2 ^ p := by
  have h0 : 0 < x := (two_zpow_pos _).trans_le hn
  have hl : emin + p - 1 ≤ Int.log 2 x := (Int.zpow_le_iff_le_log (b := 2) (by norm_num) h0).mp (by exact_mod_cast hn)
  have hL : lastExp p emin x = Int.log 2 x + 1 - p := by unfold lastExp; omega
  have e := roundPos_of_rep p emin hp h0 hx
  unfold roundPos at e
  rw [hL] at e
  set L := Int.log 2 x + 1 - (p : ℤ) with hLdef
  refine ⟨nearestEven (x / 2 ^ L), e.symm, ?_, ?_⟩
  · have a : (2 : ℝ) ^ Int.log 2 x ≤ x := by exact_mod_cast Int.zpow_log_le_self (b := 2) (by norm_num) h0
    have b : (2 : ℝ) ^ Int.log 2 x = ((2 ^ (p - 1) : ℤ) : ℝ) * 2 ^ L := by
      push_cast
      rw [← zpow_natCast, ← zpow_add₀ (by norm_num)]
      congr 1
      omega
    rw [b, ← e] at a
    exact_mod_cast le_of_mul_le_mul_right a (two_zpow_pos (K := ℝ) L)
  · have a : x < 2 ^ (Int.log 2 x + 1) := by exact_mod_cast Int.lt_zpow_succ_log_self (b := 2) (by norm_num) x
    have b : (2 : ℝ) ^ (Int.log 2 x + 1) = ((2 ^ p : ℤ) : ℝ) * 2 ^ L := by
      push_cast
      rw [← zpow_natCast, ← zpow_add₀ (by norm_num)]
      congr 1
      omega
    rw [b, ← e] at a
    exact_mod_cast lt_of_mul_lt_mul_right a (two_zpow_pos (K := ℝ) L).le

/-- the square root of a rounded square, rounded, is the number itself -/
theorem sqrt_sq_round {p : ℕ} {emin : ℤ} (hp : 1 ≤ p) {x : ℝ} (hx : RepBin p emin x) (hn : (2 : ℝ) ^ (emin + p - 1) ≤ x)
    (hsq : (2 : ℝ) ^ (emin + p - 1) ≤ x * x) : roundBin p emin (√(roundBin p emin (x * x))) = x := by
  have h0 : 0 < x := (two_zpow_pos _).trans_le hn
  have hxx : 0 < x * x := mul_pos h0 h0
  have hl : emin + p - 1 ≤ Int.log 2 x := (Int.zpow_le_iff_le_log (b := 2) (by norm_num) h0).mp (by exact_mod_cast hn)
  obtain ⟨m, em, m1, m2⟩ := normal_form hp hx hn
  rw [roundBin_pos p emin hxx]
  rcases m1.eq_or_lt with heq | hlt
  · -- a power of two
    have e2 : x = 2 ^ Int.log 2 x := by
      conv_lhs => rw [em, ← heq]
      push_cast
      rw [← zpow_natCast, ← zpow_add₀ (by norm_num)]
      congr 1
      omega
    have hr : RepBin p emin (x * x) := by
      refine ⟨1, Int.log 2 x + Int.log 2 x, ?_, ?_, ?_⟩
      · have e3 : x * x = 2 ^ (Int.log 2 x + Int.log 2 x) := by
          rw [zpow_add₀ (by norm_num), ← e2]
        rw [e3, zpow_le_zpow_iff_right₀ (by norm_num)] at hsq
        omega
      · simpa using one_le_pow₀ (n := p) (by norm_num : (1 : ℤ) ≤ 2)
      · rw [zpow_add₀ (by norm_num), ← e2]
        simp
    rw [roundPos_of_rep p emin hp hxx hr, Real.sqrt_mul_self h0.le, roundBin_pos p emin h0, roundPos_of_rep p emin hp h0 hx]
  · set L := Int.log 2 x + 1 - (p : ℤ) with hL
    set q := roundPos p emin (x * x) with hq
    set t : ℝ := 2 ^ L with ht
    have t0 : 0 < t := two_zpow_pos L
    have P0 : (0 : ℝ) < 2 ^ p := by positivity
    have herr : |q - x * x| ≤ x * x / 2 ^ p := by
      refine (roundPos_error p emin hxx).trans (max_le (le_refl _) ?_)
      rw [le_div_iff₀ P0, ← zpow_natCast, ← zpow_add₀ (by norm_num)]
      rwa [show emin - 1 + (p : ℤ) = emin + p - 1 by ring]
    have hqpos : 0 ≤ q := roundPos_nonneg p emin hxx.le
    set y := √q with hy
    have y0 : 0 ≤ y := Real.sqrt_nonneg _
    have yy : y * y = q := Real.mul_self_sqrt hqpos
    have mK1 : (2 : ℝ) ^ (p - 1) + 1 ≤ m := by exact_mod_cast hlt
    have mK2 : (m : ℝ) + 1 ≤ 2 ^ p := by exact_mod_cast m2
    have hxt : x / 2 ^ p ≤ t - t / 2 ^ p := by
      rw [em, div_le_iff₀ P0, sub_mul, div_mul_cancel₀ _ P0.ne']
      nlinarith
    have hP2 : (2 : ℝ) ^ p = 2 * 2 ^ (p - 1) := by
      rw [← pow_succ']
      congr 1
      omega
    have P1 : (1 : ℝ) ≤ 2 ^ (p - 1) := one_le_pow₀ (by norm_num)
    -- the distance of the root
    have hclose : |y - x| < t / 2 := by
      have e : (y - x) * (y + x) = q - x * x := by rw [← yy]; ring
      have e' : |y - x| * (y + x) ≤ x * (t - t / 2 ^ p) := by
        rw [← abs_of_nonneg (by linarith : 0 ≤ y + x), ← abs_mul, e]
        refine herr.trans ?_
        rw [mul_div_assoc]
        exact mul_le_mul_of_nonneg_left hxt h0.le
      have tp : 0 < t / 2 ^ p := div_pos t0 P0
      rcases le_total x y with hxy | hxy
      · by_contra hc
        have a := mul_le_mul_of_nonneg_right (not_lt.mp hc) (by linarith : 0 ≤ y + x)
        have b : x * (t / 2 ^ p) > 0 := mul_pos h0 tp
        nlinarith
      · -- y >= x (1 - u)
        have hylow : x - x / 2 ^ p ≤ y := by
          by_contra hc
          have hc := not_le.mp hc
          have : y * y < (x - x / 2 ^ p) * (x - x / 2 ^ p) := mul_self_lt_mul_self y0 hc
          rw [yy] at this
          have h3 := (abs_le.mp herr).1
          have h4 : 0 ≤ x / 2 ^ p := by positivity
          have h5 : x / 2 ^ p ≤ x := by
            rw [div_le_iff₀ P0]
            nlinarith
          rw [mul_div_assoc] at h3
          nlinarith
        by_contra hc
        have a := mul_le_mul_of_nonneg_right (not_lt.mp hc) (by linarith : 0 ≤ y + x)
        have h6 : x * (t / 2 ^ p) = x / 2 ^ p * t := by ring
        have h7 : 0 < x / 2 ^ p * t := by positivity
        nlinarith
    have ht2 := abs_lt.mp hclose
    have em' : x = m * t := em
    have low : (2 : ℝ) ^ (p - 1) * t + t ≤ x := by rw [em']; nlinarith
    have high : x + t ≤ 2 ^ p * t := by rw [em']; nlinarith
    have b1 : (2 : ℝ) ^ Int.log 2 x = 2 ^ (p - 1) * t := by
      rw [ht, ← zpow_natCast, ← zpow_add₀ (by norm_num)]
      congr 1
      omega
    have b2 : (2 : ℝ) ^ (Int.log 2 x + 1) = 2 ^ p * t := by
      rw [ht, ← zpow_natCast, ← zpow_add₀ (by norm_num)]
      congr 1
      omega
    have hlog : Int.log 2 y = Int.log 2 x := log_eq_of_between (by rw [b1]; linarith) (by rw [b2]; linarith)
    have ypos : 0 < y := by nlinarith
    rw [roundBin_pos p emin ypos]
    have hlast : lastExp p emin y = L := by unfold lastExp; rw [hlog]; omega
    unfold roundPos
    rw [hlast]
    have : nearestEven (y / 2 ^ L) = m := by
      apply nearestEven_of_close
      rw [← ht, show y / t - m = (y - x) / t by rw [em']; field_simp, abs_div, abs_of_pos t0, div_lt_iff₀ t0]
      linarith
    rw [this]
    exact em'.symm

end Verif.Lemmas
