import Verif.Lemmas.Relhum
import Mathlib.Analysis.Complex.Exponential
import Mathlib.Analysis.SpecialFunctions.Exp
import Mathlib.Analysis.Convex.SpecificFunctions.Basic

/-
The saturation pressure table of relhum against the exponential formulas: certified rational bounds of exp at the nodes, and the error of
linear interpolation between nodes.
-/

set_option linter.unusedSectionVars false
namespace Verif.Lemmas
open Verif.Model

/-! ### rational bounds of exp -/

def sq6 (x : ℚ) : ℚ :=
  let a := x * x; let b := a * a; let c := b * b; let d := c * c; let e := d * d; e * e

theorem sq6_eq (x : ℚ) : sq6 x = x ^ 64 := by unfold sq6; ring

def expSum (x : ℚ) : ℚ := 1 + x * (1 + x / 2 * (1 + x / 3 * (1 + x / 4)))

/-- a lower bound of exp on nonnegative numbers -/
def expLo (x : ℚ) : ℚ := sq6 (expSum (x / 64))

/-- an upper bound of exp on [0, 64] -/
def expHi (x : ℚ) : ℚ := let y := x / 64; sq6 (expSum y + y * y * y * y * y / 100)

theorem expSum_cast (x : ℚ) : ((expSum x : ℚ) : ℝ) = ∑ m ∈ Finset.range 5, (x : ℝ) ^ m / m.factorial := by
  simp [Finset.sum_range_succ, expSum, Nat.factorial]
  ring

theorem expLo_le {x : ℚ} (h : 0 ≤ x) : ((expLo x : ℚ) : ℝ) ≤ Real.exp x := by
  have hx : (0 : ℝ) ≤ x := by exact_mod_cast h
  have h1 : ((expSum (x / 64) : ℚ) : ℝ) ≤ Real.exp ((x : ℝ) / 64) := by
    rw [expSum_cast]
    have := Real.sum_le_exp_of_nonneg (x := (x : ℝ) / 64) (by positivity) 5
    push_cast
    exact this
  have h0 : (0 : ℝ) ≤ ((expSum (x / 64) : ℚ) : ℝ) := by
    rw [expSum_cast]
    push_cast
    positivity
  unfold expLo
  rw [sq6_eq]
  push_cast
  calc ((expSum (x / 64) : ℚ) : ℝ) ^ 64 ≤ Real.exp ((x : ℝ) / 64) ^ 64 := pow_le_pow_left₀ h0 h1 64
    _ = Real.exp x := by rw [← Real.exp_nat_mul]; congr 1; push_cast; ring

theorem expLo_pos {x : ℚ} (h : 0 ≤ x) : 0 < expLo x := by
  unfold expLo
  rw [sq6_eq]
  unfold expSum
  positivity

theorem le_expHi {x : ℚ} (h : 0 ≤ x) (h64 : x ≤ 64) : Real.exp x ≤ ((expHi x : ℚ) : ℝ) := by
  have hx : (0 : ℝ) ≤ x := by exact_mod_cast h
  have hx64 : (x : ℝ) ≤ 64 := by exact_mod_cast h64
  have h1 : Real.exp ((x : ℝ) / 64) ≤ ((expSum (x / 64) + (x / 64) * (x / 64) * (x / 64) * (x / 64) * (x / 64) / 100 : ℚ) : ℝ) := by
    have := Real.exp_bound' (x := (x : ℝ) / 64) (by positivity) (by linarith) (n := 5) (by norm_num)
    refine this.trans (le_of_eq ?_)
    rw [Rat.cast_add, expSum_cast]
    push_cast
    congr 1
    norm_num [Nat.factorial]
    ring
  unfold expHi
  simp only
  rw [sq6_eq]
  push_cast at h1 ⊢
  calc Real.exp x = Real.exp ((x : ℝ) / 64) ^ 64 := by rw [← Real.exp_nat_mul]; congr 1; push_cast; ring
    _ ≤ _ := pow_le_pow_left₀ (Real.exp_nonneg _) h1 64

def expLoZ (q : ℚ) : ℚ := if 0 ≤ q then expLo q else 1 / expHi (-q)

def expHiZ (q : ℚ) : ℚ := if 0 ≤ q then expHi q else 1 / expLo (-q)

theorem expZ_bounds {q : ℚ} (h1 : -64 ≤ q) (h2 : q ≤ 64) : ((expLoZ q : ℚ) : ℝ) ≤ Real.exp q ∧ Real.exp q ≤ ((expHiZ q : ℚ) : ℝ) := by
  unfold expLoZ expHiZ
  by_cases h : 0 ≤ q
  · rw [if_pos h, if_pos h]
    exact ⟨expLo_le h, le_expHi h h2⟩
  · rw [if_neg h, if_neg h]
    have hq : 0 ≤ -q := by linarith
    have a := expLo_le hq
    have b := le_expHi hq (by linarith)
    have c : (0 : ℝ) < expLo (-q) := by exact_mod_cast expLo_pos hq
    push_cast at a b ⊢
    rw [Real.exp_neg] at a b
    have e := Real.exp_pos (q : ℝ)
    constructor
    · rw [one_div]
      exact inv_le_of_inv_le₀ e b
    · rw [one_div]
      exact le_inv_of_le_inv₀ c a

/-! ### the curves -/

/-- saturation pressure in Pa: `611.28 exp(a (T - 273.15) / (T - c))` -/
noncomputable def curve (a c T : ℝ) : ℝ := 611.28 * Real.exp (a * (T - 273.15) / (T - c))

theorem curve_pos (a c T : ℝ) : 0 < curve a c T := by unfold curve; positivity

/-- the exponent at node `k` -/
def nodeQ (a c : ℚ) (k : ℕ) : ℚ := a * (173.16 + k - 273.15) / (173.16 + k - c)

/-- at node `k` the table is between `lo` and `hi` times the curve -/
def nodeOk (a c lo hi : ℚ) (k : ℕ) : Bool :=
  let q := nodeQ a c k
  decide (-64 ≤ q) && decide (q ≤ 64) && decide (lo * 611.28 * expHiZ q ≤ 0.1 * relhumTable.getD k 0) &&
    decide (0.1 * relhumTable.getD k 0 ≤ hi * 611.28 * expLoZ q)

theorem nodeOk_spec {a c lo hi : ℚ} (h0 : 0 ≤ lo) (h1 : 0 ≤ hi) {k : ℕ} (h : nodeOk a c lo hi k = true) :
    lo * curve a c (173.16 + k) ≤ 0.1 * tab k ∧ 0.1 * tab k ≤ hi * curve a c (173.16 + k) := by
  unfold nodeOk at h
  simp only [Bool.and_eq_true, decide_eq_true_eq] at h
  obtain ⟨⟨⟨b1, b2⟩, b3⟩, b4⟩ := h
  obtain ⟨e1, e2⟩ := expZ_bounds b1 b2
  have hq : ((nodeQ a c k : ℚ) : ℝ) = a * (173.16 + k - 273.15) / (173.16 + k - c) := by
    unfold nodeQ
    push_cast
    norm_num
  rw [hq] at e1 e2
  have b3' : ((lo * 611.28 * expHiZ (nodeQ a c k) : ℚ) : ℝ) ≤ ((0.1 * relhumTable.getD k 0 : ℚ) : ℝ) := by exact_mod_cast b3
  have b4' : ((0.1 * relhumTable.getD k 0 : ℚ) : ℝ) ≤ ((hi * 611.28 * expLoZ (nodeQ a c k) : ℚ) : ℝ) := by exact_mod_cast b4
  have hl : (0 : ℝ) ≤ lo := by exact_mod_cast h0
  have hh : (0 : ℝ) ≤ hi := by exact_mod_cast h1
  push_cast at b3' b4'
  unfold curve
  have ht : tab k = ((relhumTable.getD k 0 : ℚ) : ℝ) := rfl
  rw [ht]
  constructor
  · refine le_trans ?_ (le_trans b3' (le_of_eq (by norm_num)))
    rw [← mul_assoc]
    refine le_trans (mul_le_mul_of_nonneg_left e2 (by positivity)) (le_of_eq (by norm_num))
  · refine le_trans (le_of_eq (by norm_num)) (le_trans b4' ?_)
    rw [← mul_assoc]
    refine le_trans (le_of_eq (by norm_num)) (mul_le_mul_of_nonneg_left e1 (by positivity))

/-! ### between two nodes -/

theorem exp_neg_le {y : ℝ} (h : 0 ≤ y) : Real.exp (-y) ≤ 1 - y + y ^ 2 / 2 := by
  have h1 := Real.quadratic_le_exp_of_nonneg h
  rw [Real.exp_neg]
  apply inv_le_of_inv_le₀ (by nlinarith)
  refine le_trans ?_ h1
  rw [inv_le_iff_one_le_mul₀ (by nlinarith)]
  nlinarith [sq_nonneg (y ^ 2)]

/-- arithmetic against geometric mean of `1` and `exp v` -/
theorem am_gm {s v : ℝ} (hs : 0 ≤ s) (hs1 : s ≤ 1) (hv : 0 ≤ v) (hv1 : v ≤ 0.21) : 1 - s + s * Real.exp v ≤ (1 + v ^ 2 / 7) * Real.exp (s * v) := by
  have h1 := exp_neg_le (y := s * v) (by positivity)
  have h2 := Real.exp_bound' (x := (1 - s) * v) (mul_nonneg (by linarith) hv) (by nlinarith) (n := 3) (by norm_num)
  simp [Finset.sum_range_succ, Nat.factorial] at h2
  have h3 : Real.exp v = Real.exp ((1 - s) * v) * Real.exp (s * v) := by rw [← Real.exp_add]; congr 1; ring
  have h4 : (1 : ℝ) = Real.exp (-(s * v)) * Real.exp (s * v) := by rw [← Real.exp_add]; simp
  have key : (1 - s) * Real.exp (-(s * v)) + s * Real.exp ((1 - s) * v) ≤ 1 + v ^ 2 / 7 := by
    have e1 : (1 - s) * Real.exp (-(s * v)) ≤ (1 - s) * (1 - s * v + (s * v) ^ 2 / 2) := mul_le_mul_of_nonneg_left h1 (by linarith)
    have e2 := mul_le_mul_of_nonneg_left h2 hs
    have hss : s * (1 - s) ≤ 1 / 4 := by nlinarith [sq_nonneg (s - 1 / 2)]
    have hss0 : 0 ≤ s * (1 - s) := mul_nonneg hs (by linarith)
    have h5 : s * ((1 - s) * v) ^ 3 * (3 + 1) / (6 * 3) ≤ 1 / 4 * (v ^ 2 * 0.21) * (4 / 18) := by
      have : s * ((1 - s) * v) ^ 3 = (s * (1 - s)) * ((1 - s) ^ 2 * (v ^ 2 * v)) := by ring
      rw [this]
      have a1 : (1 - s) ^ 2 ≤ 1 := by nlinarith
      have a2 : v ^ 2 * v ≤ v ^ 2 * 0.21 := mul_le_mul_of_nonneg_left hv1 (by positivity)
      have a3 : (1 - s) ^ 2 * (v ^ 2 * v) ≤ v ^ 2 * 0.21 := by
        calc (1 - s) ^ 2 * (v ^ 2 * v) ≤ 1 * (v ^ 2 * v) := mul_le_mul_of_nonneg_right a1 (by positivity)
          _ ≤ _ := by linarith
      have a4 : (s * (1 - s)) * ((1 - s) ^ 2 * (v ^ 2 * v)) ≤ 1 / 4 * (v ^ 2 * 0.21) :=
        mul_le_mul hss a3 (by positivity) (by norm_num)
      linarith
    nlinarith [mul_nonneg hss0 (sq_nonneg v), sq_nonneg v]
  calc 1 - s + s * Real.exp v = ((1 - s) * Real.exp (-(s * v)) + s * Real.exp ((1 - s) * v)) * Real.exp (s * v) := by
        rw [add_mul, mul_assoc, mul_assoc, ← h4, ← h3]; ring
    _ ≤ _ := mul_le_mul_of_nonneg_right key (Real.exp_nonneg _)

/-- the interpolated table against the curve between two nodes -/
theorem between_nodes {a c lo hi : ℝ} {k : ℕ} (ha : 0 < a) (hc : c < 173) (hlo : 0 ≤ lo)
    (h0 : lo * curve a c (173.16 + k) ≤ 0.1 * tab k ∧ 0.1 * tab k ≤ hi * curve a c (173.16 + k))
    (h1 : lo * curve a c (173.16 + (k + 1)) ≤ 0.1 * tab (k + 1) ∧ 0.1 * tab (k + 1) ≤ hi * curve a c (173.16 + (k + 1)))
    {v0 : ℝ} (hv0 : v0 ≤ 0.21) (hv : a * (273.15 - c) / ((173.16 + k - c) * (173.16 + k + 1 - c)) ≤ v0) {s : ℝ} (hs : 0 ≤ s) (hs1 : s ≤ 1) :
    lo * (1 - v0 / (4 * (173.16 + k - c))) * curve a c (173.16 + k + s) ≤ 0.1 * ((1 - s) * tab k + s * tab (k + 1)) ∧
    0.1 * ((1 - s) * tab k + s * tab (k + 1)) ≤ hi * (1 + v0 ^ 2 / 7) * curve a c (173.16 + k + s) := by
  have hk : (0 : ℝ) ≤ k := Nat.cast_nonneg k
  set H : ℝ := 173.16 + k - c with hH
  have hHpos : 0 < H := by rw [hH]; linarith
  set v : ℝ := a * (273.15 - c) / (H * (H + 1)) with hvdef
  have hvv : v ≤ v0 := by
    refine le_trans (le_of_eq ?_) hv
    rw [hvdef, hH]
    congr 2
    ring
  have hv00 : 0 ≤ v := by
    rw [hvdef]
    apply div_nonneg (mul_nonneg ha.le (by linarith)) (by positivity)
  set f := curve a c (173.16 + k) with hf
  have hfpos : 0 < f := curve_pos _ _ _
  set u : ℝ := a * (273.15 - c) * s / (H * (H + s)) with hu
  have ef : curve a c (173.16 + k + s) = f * Real.exp u := by
    rw [hf, curve, curve, mul_assoc, ← Real.exp_add]
    congr 2
    rw [hu]
    have e1 : (173.16 : ℝ) + k - c = H := hH.symm
    have e2 : (173.16 : ℝ) + k + s - c = H + s := by rw [hH]; ring
    rw [e1, e2]
    have e3 : (173.16 : ℝ) + k = H + c := by rw [hH]; ring
    rw [e3]
    have : H + s ≠ 0 := by linarith
    field_simp
    ring
  have ef1 : curve a c (173.16 + (k + 1)) = f * Real.exp v := by
    rw [hf, curve, curve, mul_assoc, ← Real.exp_add]
    congr 2
    rw [hvdef]
    have e1 : (173.16 : ℝ) + k - c = H := hH.symm
    have e2 : (173.16 : ℝ) + (k + 1) - c = H + 1 := by rw [hH]; ring
    rw [e1, e2]
    have e3 : (173.16 : ℝ) + (k + 1) = H + 1 + c := by rw [hH]; ring
    have e4 : (173.16 : ℝ) + k = H + c := by rw [hH]; ring
    rw [e3, e4]
    have : H + 1 ≠ 0 := by linarith
    field_simp
    ring
  have hsv : s * v ≤ u := by
    rw [hu, hvdef, mul_div_assoc', div_le_div_iff₀ (by positivity) (by positivity)]
    have : 0 ≤ a * (273.15 - c) * s := mul_nonneg (mul_nonneg ha.le (by linarith)) hs
    nlinarith [mul_nonneg this hHpos.le, mul_nonneg (mul_nonneg this hHpos.le) (by linarith : (0:ℝ) ≤ 1 - s)]
  have husv : u ≤ s * v + v / (4 * H) := by
    have e : u = s * v + v * (s * (1 - s)) / (H + s) := by
      rw [hu, hvdef]
      have : H + s ≠ 0 := by linarith
      have : H + 1 ≠ 0 := by linarith
      field_simp
      ring
    rw [e]
    have h1' : v * (s * (1 - s)) / (H + s) ≤ v * (1 / 4) / H := by
      have hq : s * (1 - s) ≤ 1 / 4 := by nlinarith [sq_nonneg (s - 1 / 2)]
      apply div_le_div₀ (by positivity) (mul_le_mul_of_nonneg_left hq hv00) hHpos (by linarith)
    have h2' : v * (1 / 4) / H = v / (4 * H) := by field_simp
    linarith
  rw [ef1] at h1
  rw [ef]
  have hchord : 1 - s + s * Real.exp v ≤ (1 + v ^ 2 / 7) * Real.exp (s * v) := am_gm hs hs1 hv00 (hvv.trans hv0)
  have hconv : Real.exp (s * v) ≤ 1 - s + s * Real.exp v := by
    have := convexOn_exp.2 (Set.mem_univ 0) (Set.mem_univ v) (by linarith : (0:ℝ) ≤ 1 - s) hs (by ring)
    simpa using this
  constructor
  · have g1 : lo * (f * (1 - s + s * Real.exp v)) ≤ 0.1 * ((1 - s) * tab k + s * tab (k + 1)) := by
      nlinarith [mul_le_mul_of_nonneg_left h0.1 (by linarith : (0:ℝ) ≤ 1 - s), mul_le_mul_of_nonneg_left h1.1 hs]
    refine le_trans ?_ g1
    have g2 : (1 - v0 / (4 * H)) * Real.exp u ≤ 1 - s + s * Real.exp v := by
      by_cases hneg : 1 - v0 / (4 * H) ≤ 0
      · have : (1 - v0 / (4 * H)) * Real.exp u ≤ 0 := mul_nonpos_of_nonpos_of_nonneg hneg (Real.exp_nonneg _)
        have := Real.exp_pos (s * v)
        linarith
      · push Not at hneg
        have e1 : Real.exp u ≤ Real.exp (s * v) * Real.exp (v / (4 * H)) := by
          rw [← Real.exp_add]
          exact Real.exp_le_exp.mpr husv
        have e2 : (1 - v0 / (4 * H)) ≤ Real.exp (-(v / (4 * H))) := by
          have := Real.one_sub_le_exp_neg (v / (4 * H))
          have : v / (4 * H) ≤ v0 / (4 * H) := div_le_div_of_nonneg_right hvv (by positivity)
          linarith
        calc (1 - v0 / (4 * H)) * Real.exp u ≤ Real.exp (-(v / (4 * H))) * (Real.exp (s * v) * Real.exp (v / (4 * H))) :=
              mul_le_mul e2 e1 (Real.exp_nonneg _) (Real.exp_nonneg _)
          _ = Real.exp (s * v) := by rw [← Real.exp_add, ← Real.exp_add]; congr 1; ring
          _ ≤ _ := hconv
    calc lo * (1 - v0 / (4 * H)) * (f * Real.exp u) = lo * f * ((1 - v0 / (4 * H)) * Real.exp u) := by ring
      _ ≤ lo * f * (1 - s + s * Real.exp v) := mul_le_mul_of_nonneg_left g2 (by positivity)
      _ = _ := by ring
  · have hhi : 0 ≤ hi := by
      have : 0 ≤ hi * f := le_trans (le_trans (by positivity : 0 ≤ lo * f) h0.1) h0.2
      exact nonneg_of_mul_nonneg_left this hfpos
    have g1 : 0.1 * ((1 - s) * tab k + s * tab (k + 1)) ≤ hi * (f * (1 - s + s * Real.exp v)) := by
      nlinarith [mul_le_mul_of_nonneg_left h0.2 (by linarith : (0:ℝ) ≤ 1 - s), mul_le_mul_of_nonneg_left h1.2 hs]
    refine le_trans g1 ?_
    have g2 : 1 - s + s * Real.exp v ≤ (1 + v0 ^ 2 / 7) * Real.exp u := by
      refine le_trans hchord (mul_le_mul ?_ (Real.exp_le_exp.mpr hsv) (Real.exp_nonneg _) (by positivity))
      have : v ^ 2 ≤ v0 ^ 2 := pow_le_pow_left₀ hv00 hvv 2
      linarith
    calc hi * (f * (1 - s + s * Real.exp v)) = hi * f * (1 - s + s * Real.exp v) := by ring
      _ ≤ hi * f * ((1 + v0 ^ 2 / 7) * Real.exp u) := mul_le_mul_of_nonneg_left g2 (by positivity)
      _ = _ := by ring

end Verif.Lemmas
