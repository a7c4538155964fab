import Verif.Lemmas.FourierMask
import Mathlib.NumberTheory.LegendreSymbol.AddCharacter
import Mathlib.Tactic.FieldSimp
import Mathlib.Tactic.LinearCombination

namespace Verif.Lemmas
open Verif.Model Verif.Spec Complex

variable {n : ℕ} [NeZero n]

theorem dft_char (m k : ZMod n) :
    npFft (fun t : ZMod n => (ZMod.stdAddChar (m * t) : ℂ)) k = if k = m then (n : ℂ) else 0 := by
  rw [npFft_eq_dft, ZMod.dft_apply]
  have : ∀ j : ZMod n, (ZMod.stdAddChar (-(j * k)) : ℂ) • (ZMod.stdAddChar (m * j) : ℂ)
      = ZMod.stdAddChar (j * (m - k)) := by
    intro j
    rw [smul_eq_mul, ← AddChar.map_add_eq_mul]
    congr 1; ring
  simp_rw [this]
  rw [AddChar.sum_mulShift _ (ZMod.isPrimitive_stdAddChar n), ZMod.card]
  by_cases h : k = m
  · simp [h]
  · rw [if_neg (sub_ne_zero.2 (Ne.symm h)), if_neg h]; simp

theorem stdAddChar_nat (m : ℕ) (t : ZMod n) :
    (ZMod.stdAddChar ((m : ZMod n) * t) : ℂ) = exp ((2 * Real.pi * m * t.val / n : ℝ) * I) := by
  have : (m : ZMod n) * t = (((m * t.val : ℕ) : ℤ) : ZMod n) := by
    push_cast; rw [ZMod.natCast_zmod_val]
  rw [this, ZMod.stdAddChar_coe]
  congr 1
  push_cast
  ring

theorem stdAddChar_neg_nat (m : ℕ) (t : ZMod n) :
    (ZMod.stdAddChar (-(m : ZMod n) * t) : ℂ) = exp (-((2 * Real.pi * m * t.val / n : ℝ) * I)) := by
  have : -(m : ZMod n) * t = ((-((m * t.val : ℕ) : ℤ) : ℤ) : ZMod n) := by
    push_cast; rw [ZMod.natCast_zmod_val]; ring
  rw [this, ZMod.stdAddChar_coe]
  congr 1
  push_cast
  ring

theorem sinusoid_char (m : ℕ) (A B : ℝ) (t : ZMod n) :
    ((sinusoid n m A B t : ℝ) : ℂ)
      = ((A : ℂ) - B * I) / 2 * ZMod.stdAddChar ((m : ZMod n) * t)
        + ((A : ℂ) + B * I) / 2 * ZMod.stdAddChar (-(m : ZMod n) * t) := by
  rw [stdAddChar_nat, stdAddChar_neg_nat]
  unfold sinusoid
  push_cast
  set θ : ℂ := 2 * Real.pi * m * t.val / n with hθ
  rw [Complex.cos, Complex.sin]
  rw [show -θ * I = -(θ * I) by ring]
  linear_combination (-(B : ℂ) * (exp (-(θ * I)) - exp (θ * I)) / 2 * 0)

/-- The spectrum of a sinusoid with `m` cycles vanishes outside harmonic `m`. -/
theorem fft_sinusoid_zero (m : ℕ) (hm : 2 * m ≤ n) (A B : ℝ) (k : ZMod n) (hk : harmonic n k.val ≠ m) :
    npFft (fun t => ((sinusoid n m A B t : ℝ) : ℂ)) k = 0 := by
  have h1 : (fun t : ZMod n => ((sinusoid n m A B t : ℝ) : ℂ))
      = fun t => ((A : ℂ) - B * I) / 2 * ZMod.stdAddChar ((m : ZMod n) * t)
        + ((A : ℂ) + B * I) / 2 * ZMod.stdAddChar (-(m : ZMod n) * t) := by
    funext t; exact sinusoid_char m A B t
  rw [h1, npFft_add, npFft_smul, npFft_smul]
  simp only [dft_char]
  have hmn : m < n := by
    have := Nat.pos_of_ne_zero (NeZero.ne n); omega
  have hval : ((m : ZMod n)).val = m := ZMod.val_cast_of_lt hmn
  have hkm : k ≠ (m : ZMod n) := by
    intro h; apply hk; rw [h, hval]; unfold harmonic; omega
  have hkm' : k ≠ -(m : ZMod n) := by
    intro h; apply hk; rw [h, harmonic_neg, hval]; unfold harmonic; omega
  simp [hkm, hkm']

end Verif.Lemmas
