import Verif.Lemmas.FloatLine
import Verif.Lemmas.FloatSum
import Mathlib.Data.Rat.Floor
import Mathlib.Tactic.NormNum

/-
C128, C129, C131: hybrid pressures, vertical interpolation and averages in floating-point arithmetic (every operation rounded, no overflow).
-/

set_option linter.unusedSectionVars false
namespace Verif.Props
open Model Spec Lemmas
variable {K : Type _} [Field K] [LinearOrder K] [IsStrictOrderedRing K]

/-! ### C128: hybrid pressures -/

/-- with exact arithmetic the formulas are the ones of the exact model -/
theorem C128_exact (a b a' b' p0 ps : K) :
    pressureFl Rounding.exact a b p0 ps = a * p0 + b * ps ∧
    layerFl Rounding.exact a b a' b' p0 ps = |(a * p0 + b * ps) - (a' * p0 + b' * ps)| := ⟨rfl, rfl⟩

/-- **C128** The level with `hya = 0`, `hyb = 1` is the surface, bit for bit. -/
theorem C128_surface (R : Rounding K) (p0 ps : K) (hps : R.rep ps) : pressureFl R 0 1 p0 ps = ps := by
  unfold pressureFl
  rw [zero_mul, one_mul, R.fl_zero, zero_add, R.fl_of_rep _ hps, R.fl_of_rep _ hps]

/-- **C128** A level with `hyb = 0` has the same pressure above every surface. -/
theorem C128_pure_pressure (R : Rounding K) (a p0 ps ps' : K) :
    pressureFl R a 0 p0 ps = pressureFl R a 0 p0 ps' ∧ pressureFl R a 0 p0 ps = R.fl (a * p0) := by
  constructor
  · unfold pressureFl; rw [zero_mul, zero_mul]
  · unfold pressureFl; rw [zero_mul, R.fl_zero, add_zero, R.fl_of_rep _ (R.rep_fl _)]

/-- **C128** Monotone: a higher surface pressure (`hyb ≥ 0`) or larger coefficients (`p0, ps ≥ 0`) never give a smaller rounded pressure. -/
theorem C128_monotone (R : Rounding K) (a b a' b' p0 ps ps' : K) (hp0 : 0 ≤ p0) (hps : 0 ≤ ps) (hle : ps ≤ ps') (ha : a ≤ a') (hb0 : 0 ≤ b)
    (hb : b ≤ b') : pressureFl R a b p0 ps ≤ pressureFl R a' b' p0 ps' := by
  refine R.mono _ _ (add_le_add (R.mono _ _ (mul_le_mul_of_nonneg_right ha hp0)) (R.mono _ _ ?_))
  exact (mul_le_mul_of_nonneg_right hb hps).trans (mul_le_mul_of_nonneg_left hle (hb0.trans hb))

/-- **C128** A layer thickness is never negative, and it is zero exactly if the two rounded pressures are equal. -/
theorem C128_layer (R : Rounding K) (a b a' b' p0 ps : K) :
    0 ≤ layerFl R a b a' b' p0 ps ∧ (layerFl R a b a' b' p0 ps = 0 ↔ pressureFl R a b p0 ps = pressureFl R a' b' p0 ps) := by
  refine ⟨abs_nonneg _, ?_⟩
  unfold layerFl
  rw [abs_eq_zero]
  have r1 : R.rep (pressureFl R a b p0 ps) := R.rep_fl _
  have r2 : R.rep (pressureFl R a' b' p0 ps) := R.rep_fl _
  constructor
  · intro h
    rcases lt_trichotomy (pressureFl R a b p0 ps) (pressureFl R a' b' p0 ps) with hlt | heq | hgt
    · exact absurd h (R.sub_neg _ _ r1 r2 hlt).ne
    · exact heq
    · exact absurd h (R.sub_pos _ _ r2 r1 hgt).ne'
  · intro h
    rw [h, sub_self, R.fl_zero]

/-- **C128** Accuracy in float64: relative error `3·2^-53` of the sum of the two terms, up to underflow. -/
theorem C128_accuracy [FloorRing K] (a b p0 ps : K) :
    |pressureFl float64 a b p0 ps - (a * p0 + b * ps)| ≤ 3 * 2 ^ (-53 : ℤ) * (|a * p0| + |b * ps|) + 4 * 2 ^ (-1075 : ℤ) :=
  pressureFl_error float64_accurate (by norm_num) a b p0 ps

/-- **C128** Accuracy of a layer thickness in float64. -/
theorem C128_layer_accuracy [FloorRing K] (a b a' b' p0 ps : K) :
    |layerFl float64 a b a' b' p0 ps - (|(a * p0 + b * ps) - (a' * p0 + b' * ps)|)|
      ≤ 8 * 2 ^ (-53 : ℤ) * (|a * p0| + |b * ps| + |a' * p0| + |b' * ps|) + 16 * 2 ^ (-1075 : ℤ) :=
  layerFl_error float64_accurate (by norm_num) a b a' b' p0 ps

-- 0.1 * 100000 + 0.5 * 90000.3 as python computes it: 55000.15 to the nearest representable number
example : pressureFl (float64 : Rounding ℚ) (float64.fl (1 / 10)) (1 / 2) 100000 (float64.fl (900003 / 10)) = float64.fl (5500015 / 100) := by
  decide +kernel

example : layerFl (float64 : Rounding ℚ) (float64.fl (1 / 10)) (1 / 2) 0 1 100000 (float64.fl (900003 / 10)) ≠ 0 := by decide +kernel

example : (float64 : Rounding ℚ).rep 101325 := ⟨101325, 0, by norm_num, by norm_num, by norm_num⟩

/-! ### C129: vertical interpolation -/

/-- with exact arithmetic the interpolation is the one of the exact model -/
theorem C129_exact (x xp : List K) (v : List (XF K)) : interpolate1dFl Rounding.exact x xp v = interpolate1d x xp v :=
  interpolate1dFl_exact x xp v

/-- **C129** Interpolating a column of finite float values (levels pairwise different, in any order) to sorted levels succeeds. Outside the
column the result is missing. Inside it lies between the value of the lower neighbour and the value of the upper neighbour as recomputed in
floating-point arithmetic, `fl (v i + fl (v j - v i))`. -/
theorem C129_between (R : Rounding K) (n : ℕ) (hn : 2 ≤ n) (p w : ℕ → K) (hd : Distinct n p) (hp : ∀ i < n, R.rep (p i))
    (hw : ∀ i < n, R.rep (w i)) (x : List K) (hx : x ≠ []) (hs : Sorted x) :
    ∃ y, interpolate1dFl R x (column n p) (column n (fun i => .fin (w i))) = .ok y ∧
      List.Forall₂ (fun a r => (Outside n p a ∧ r = .nan) ∨ (¬ Outside n p a ∧ ∃ i j b, Bracket n p a i j ∧ r = .fin b ∧
        min (w i) (R.fl (w i + R.fl (w j - w i))) ≤ b ∧ b ≤ max (w i) (R.fl (w i + R.fl (w j - w i))))) x y := by
  obtain ⟨y, hy, hf⟩ := interpolate1dFl_spec R n hn p (fun i => .fin (w i)) hd x hx hs
  refine ⟨y, hy, hf.imp ?_⟩
  rintro a r (h | ⟨h, i, j, hb, rfl, -⟩)
  · exact Or.inl h
  · refine Or.inr ⟨h, i, j, _, hb, lineFl_fin R (hp i hb.1) (hp j hb.2.1) hb.2.2.1 _ _ _, ?_⟩
    obtain ⟨t0, t1⟩ := weightFl_range R (hp i hb.1) (hp j hb.2.1) hb.2.2.1 hb.2.2.2.1 hb.2.2.2.2.1
    exact lineFl_between R (hw i hb.1) t0 t1

/-- **C129, what holds** The values that an exact interpolation never leaves: if neighbouring values are positive and within a factor of two of
each other (temperatures in kelvin, pressures, geopotential far from zero) the rounded interpolation stays between its two neighbours. Missing:
other data (`C129_counterexample`; within `4u` of the largest value by `C129_accuracy`). -/
theorem C129_within_neighbours_partial (R : Rounding K) (n : ℕ) (hn : 2 ≤ n) (p w : ℕ → K) (hd : Distinct n p) (hp : ∀ i < n, R.rep (p i))
    (hw : ∀ i < n, R.rep (w i)) (h0 : ∀ i < n, 0 ≤ w i) (h2 : ∀ i < n, ∀ j < n, w j ≤ 2 * w i) (x : List K) (hx : x ≠ []) (hs : Sorted x) :
    ∃ y, interpolate1dFl R x (column n p) (column n (fun i => .fin (w i))) = .ok y ∧
      List.Forall₂ (fun a r => (Outside n p a ∧ r = .nan) ∨ (¬ Outside n p a ∧ ∃ i j b, Bracket n p a i j ∧ r = .fin b ∧
        min (w i) (w j) ≤ b ∧ b ≤ max (w i) (w j))) x y := by
  obtain ⟨y, hy, hf⟩ := C129_between R n hn p w hd hp hw x hx hs
  refine ⟨y, hy, hf.imp ?_⟩
  rintro a r (h | ⟨h, i, j, b, hb, hr, h1⟩)
  · exact Or.inl h
  · rw [end_exact R (hw i hb.1) (hw j hb.2.1) (h0 i hb.1) (h2 j hb.2.1 i hb.1) (h2 i hb.1 j hb.2.1)] at h1
    exact Or.inr ⟨h, i, j, b, hb, hr, h1⟩

/-- **C129, what fails** In float64 a column is not reproduced at its own levels, and the result leaves the range of the data: values 1 and
2^-60 at levels 1 and 2; interpolation to level 2 gives 0. -/
theorem C129_counterexample :
    interpolate1dFl (float64 : Rounding ℚ) [1, 2] [1, 2] [.fin 1, .fin (1 / 2 ^ 60)] = .ok [.fin 1, .fin 0] ∧
    interpolate1d [1, 2] [1, 2] [XF.fin (1 : ℚ), .fin (1 / 2 ^ 60)] = .ok [.fin 1, .fin (1 / 2 ^ 60)] := by
  decide +kernel

/-- **C129** Accuracy in float64: the result differs from the exact interpolation by at most `2^-49` times the larger of the two neighbouring
values in absolute value, up to underflow. -/
theorem C129_accuracy [FloorRing K] (n : ℕ) (hn : 2 ≤ n) (p w : ℕ → K) (hd : Distinct n p) (hp : ∀ i < n, (float64 : Rounding K).rep (p i))
    (hw : ∀ i < n, (float64 : Rounding K).rep (w i)) (x : List K) (hx : x ≠ []) (hs : Sorted x) (hxr : ∀ a ∈ x, (float64 : Rounding K).rep a) :
    ∃ y, interpolate1dFl float64 x (column n p) (column n (fun i => .fin (w i))) = .ok y ∧
      List.Forall₂ (fun a r => (Outside n p a ∧ r = .nan) ∨ (¬ Outside n p a ∧ ∃ i j b, Bracket n p a i j ∧ r = .fin b ∧
        |b - (w i + (w j - w i) * ((a - p i) / (p j - p i)))|
          ≤ 2 ^ (-49 : ℤ) * max |w i| |w j| + 2 ^ (-1073 : ℤ) * (max |w i| |w j| + 1))) x y := by
  obtain ⟨y, hy, hf⟩ := interpolate1dFl_spec float64 n hn p (fun i => .fin (w i)) hd x hx hs
  have hf' : List.Forall₂ (fun a r => a ∈ x ∧ InterpBy (lineFl float64) n p (fun i => .fin (w i)) a r) x y := by
    rw [List.forall₂_iff_get] at hf ⊢
    exact ⟨hf.1, fun i h h' => ⟨List.getElem_mem h, hf.2 i h h'⟩⟩
  refine ⟨y, hy, hf'.imp ?_⟩
  rintro a r ⟨hax, h | ⟨h, i, j, hb, rfl, -⟩⟩
  · exact Or.inl h
  · refine Or.inr ⟨h, i, j, _, hb, lineFl_fin float64 (hp i hb.1) (hp j hb.2.1) hb.2.2.1 _ _ _, ?_⟩
    have := lineFl_error float64_accurate (by norm_num) (hp i hb.1) (hp j hb.2.1) (hxr a hax) (hw i hb.1) (hw j hb.2.1)
      hb.2.2.1 hb.2.2.2.1 hb.2.2.2.2.1 (le_max_left |w i| |w j|) (le_max_right |w i| |w j|)
    have e1 : (16 : K) * 2 ^ (-53 : ℤ) = 2 ^ (-49 : ℤ) := by norm_num
    have e2 : (4 : K) * 2 ^ (-1075 : ℤ) = 2 ^ (-1073 : ℤ) := by
      rw [show (-1073 : ℤ) = 2 + -1075 by norm_num, zpow_add₀ (by norm_num)]; norm_num
    rwa [e1, e2] at this

/-- **C129** Between two neighbouring levels the rounded result moves monotonically from the lower to the upper value. -/
theorem C129_monotone (R : Rounding K) (n : ℕ) (hn : 2 ≤ n) (p w : ℕ → K) (hd : Distinct n p) (hp : ∀ i < n, R.rep (p i))
    (i j : ℕ) (x x' : K) (hb : Bracket n p x i j) (hb' : Bracket n p x' i j) (hlow : p i < x) (hle : x ≤ x') :
    ∃ b b', interpolate1dFl R [x, x'] (column n p) (column n (fun i => .fin (w i))) = .ok [.fin b, .fin b'] ∧
      (w i ≤ w j → b ≤ b') ∧ (w j ≤ w i → b' ≤ b) := by
  obtain ⟨y, hy, hf⟩ := interpolate1dFl_spec R n hn p (fun i => .fin (w i)) hd [x, x'] (by simp) (Or.inl (by simpa using hle))
  have uniq : ∀ a, p i < a → a ≤ p j → ∀ r, InterpBy (lineFl R) n p (fun i => .fin (w i)) a r →
      r = .fin (R.fl (w i + R.fl (R.fl (w j - w i) * weightFl R (p i) (p j) a))) := by
    rintro a ha1 ha2 r (⟨ho | ho, -⟩ | ⟨-, i', j', hb'', rfl, hl⟩)
    · exact absurd (ho i hb.1) (not_lt.mpr ha1.le)
    · exact absurd (ho j hb.2.1) (not_lt.mpr ha2)
    · obtain ⟨hi', hj', hij', h1, h2, h3⟩ := hb''
      have hl' : p i' < a := by
        rcases hl with h | h
        · exact h
        · exact absurd (h i hb.1) (not_le.mpr ha1)
      have ei : i' = i := by
        apply hd i' hi' i hb.1
        rcases lt_trichotomy (p i') (p i) with h | h | h
        · exact absurd ⟨h, ha1.trans_le h2⟩ (h3 i hb.1)
        · exact h
        · exact absurd ⟨h, hl'.trans_le ha2⟩ (hb.2.2.2.2.2 i' hi')
      have ej : j' = j := by
        apply hd j' hj' j hb.2.1
        rcases lt_trichotomy (p j') (p j) with h | h | h
        · exact absurd ⟨ha1.trans_le h2, h⟩ (hb.2.2.2.2.2 j' hj')
        · exact h
        · exact absurd ⟨ei ▸ hb.2.2.1, h⟩ (h3 j hb.2.1)
      subst ei ej
      exact lineFl_fin R (hp _ hi') (hp _ hj') hij' _ _ _
  rw [hy]
  cases hf with
  | cons r1 hf =>
    cases hf with
    | cons r2 hf =>
      cases hf
      rw [uniq _ hlow hb.2.2.2.2.1 _ r1, uniq _ (hlow.trans_le hle) hb'.2.2.2.2.1 _ r2]
      have wm := weightFl_mono R (hp i hb.1) (hp j hb.2.1) hb.2.2.1 hle
      refine ⟨_, _, rfl, fun h => ?_, fun h => ?_⟩
      · refine R.mono _ _ (add_le_add_right (R.mono _ _ ?_) _)
        exact mul_le_mul_of_nonneg_left wm (R.fl_nonneg (by linarith))
      · refine R.mono _ _ (add_le_add_right (R.mono _ _ ?_) _)
        exact mul_le_mul_of_nonpos_left wm (R.fl_nonpos (by linarith))

-- levels 300, 200, 100 hPa with temperatures 250, 240, 230 K; the result at 250 hPa, in floats
example : interpolate1dFl (float64 : Rounding ℚ) [150, 250, 400] [300, 200, 100] [.fin 250, .fin 240, .fin 230] = .ok [.fin 235, .fin 245, .nan] := by
  decide +kernel

example : Distinct 3 (fun i => (300 - 100 * i : ℚ)) ∧ (∀ i : ℕ, i < 3 → ∀ j : ℕ, j < 3 → (250 - 10 * j : ℚ) ≤ 2 * (250 - 10 * i)) ∧
    Sorted [(150 : ℚ), 250, 400] := by
  refine ⟨?_, ?_, Or.inl (by norm_num)⟩
  · intro i hi j hj h
    have : (i : ℚ) = j := by linarith
    exact_mod_cast this
  · intro i hi j hj
    have h1 : (i : ℚ) ≤ 2 := by exact_mod_cast (by omega : i ≤ 2)
    have h2 : (0 : ℚ) ≤ j := by positivity
    linarith

/-! ### C131: averages -/

/-- **C131** In any order of summation the float64 mean of float64 numbers differs from the exact mean by at most `(1 + 2^-53)^n - 1` times the
mean of the absolute values, up to underflow. -/
theorem C131_mean_accuracy [FloorRing K] (t : SumTree K) (h : ∀ a ∈ t.list, (float64 : Rounding K).rep a) :
    |t.meanFl float64 - t.list.sum / t.list.length|
      ≤ ((1 + 2 ^ (-53 : ℤ)) ^ t.list.length - 1) * ((t.list.map (|·|)).sum / t.list.length) + 2 ^ (-1075 : ℤ) :=
  meanFl_error float64_accurate t h

/-- **C131** Two orders of summation of the same numbers (another library, other chunks, reversed data) give means that differ by at most twice
the bound. -/
theorem C131_order [FloorRing K] (t t' : SumTree K) (hperm : t.list.Perm t'.list) (h : ∀ a ∈ t.list, (float64 : Rounding K).rep a) :
    |t.meanFl float64 - t'.meanFl float64|
      ≤ 2 * (((1 + 2 ^ (-53 : ℤ)) ^ t.list.length - 1) * ((t.list.map (|·|)).sum / t.list.length) + 2 ^ (-1075 : ℤ)) := by
  have h1 := C131_mean_accuracy t h
  have h2 := C131_mean_accuracy t' (fun a ha => h a (hperm.mem_iff.mpr ha))
  rw [← hperm.length_eq, ← hperm.sum_eq, ← (hperm.map (|·|)).sum_eq, abs_sub_comm] at h2
  have := abs_sub_le (t.meanFl float64) (t.list.sum / t.list.length) (t'.meanFl float64)
  linarith

/-- **C131** The mean is monotone: larger values, added up in the same order, never give a smaller mean. In particular a record that is nowhere
negative has no negative mean. -/
theorem C131_monotone (R : Rounding K) {α : Type _} (f g : α → K) (t : SumTree α) (h : ∀ a ∈ t.list, f a ≤ g a) :
    (t.map f).meanFl R ≤ (t.map g).meanFl R := by
  unfold SumTree.meanFl
  rw [map_list, map_list, List.length_map, List.length_map]
  exact R.mono _ _ (div_le_div_of_nonneg_right (sumFl_mono R f g t h) (Nat.cast_nonneg _))

/-- **C131, what holds of exactness** Integers (or multiples of any power of two `2^e`) whose absolute values add up to at most `2^53` (times
`2^e`) are averaged to the correctly rounded mean in every order; a constant record of this kind has exactly its value as mean. Missing: other
data (`C131_counterexample`). -/
theorem C131_exact_partial [FloorRing K] (e : ℤ) (he : -1074 ≤ e) (t : SumTree K) (h : ∀ a ∈ t.list, ∃ m : ℤ, a = m * 2 ^ e)
    (hc : (t.list.map (|·|)).sum ≤ 2 ^ 53 * 2 ^ e) :
    t.meanFl float64 = (float64 : Rounding K).fl (t.list.sum / t.list.length) ∧
    (∀ c, (∀ a ∈ t.list, a = c) → t.meanFl float64 = c) := by
  have hP : ∀ x : K, (∃ m : ℤ, x = m * 2 ^ e) → |x| ≤ 2 ^ 53 * 2 ^ e → (float64 : Rounding K).rep x := by
    rintro x ⟨m, rfl⟩ hm
    refine ⟨m, e, he, ?_, rfl⟩
    have pos := two_zpow_pos (K := K) e
    rw [abs_mul, abs_of_pos pos] at hm
    have := le_of_mul_le_mul_right hm pos
    rw [← Int.cast_abs] at this
    exact_mod_cast this
  have hs := (sumFl_exact (K := K) float64 (fun x : K => ∃ m : ℤ, x = m * 2 ^ e) (2 ^ 53 * 2 ^ e) hP (by
    rintro x y ⟨m, rfl⟩ ⟨k, rfl⟩
    exact ⟨m + k, by push_cast; ring⟩) t h hc).1
  have h1 : t.meanFl float64 = (float64 : Rounding K).fl (t.list.sum / t.list.length) := by
    unfold SumTree.meanFl; rw [hs]
  refine ⟨h1, fun c hc' => ?_⟩
  have hrep : t.list = List.replicate t.list.length c := List.eq_replicate_iff.mpr ⟨rfl, hc'⟩
  have hn := list_ne_nil t
  have hN : (0 : K) < t.list.length := by exact_mod_cast hn
  have hsum : t.list.sum = t.list.length * c := by
    conv_lhs => rw [hrep]
    rw [List.sum_replicate, nsmul_eq_mul]
  rw [h1, hsum, mul_div_cancel_left₀ _ hN.ne']
  obtain ⟨a, ha⟩ : ∃ a, a ∈ t.list := List.exists_mem_of_length_pos hn
  have hac := hc' a ha
  subst hac
  refine float64.fl_of_rep _ (hP _ (h a ha) (le_trans ?_ hc))
  exact List.single_le_sum (by simp) _ (List.mem_map_of_mem ha)

/-- **C131, what fails** In float64 the mean of a constant record is not always its value: three times `2^53 - 2` has the mean `2^53 - 3`. -/
theorem C131_counterexample :
    (SumTree.node (.node (.leaf (2 ^ 53 - 2)) (.leaf (2 ^ 53 - 2))) (.leaf (2 ^ 53 - 2))).meanFl (float64 : Rounding ℚ) = 2 ^ 53 - 3 ∧
    (float64 : Rounding ℚ).fl (2 ^ 53 - 2) = 2 ^ 53 - 2 := by
  decide +kernel

-- 0.1, 0.2, 0.3 in two orders: the sums are 0.6000000000000001 and 0.6
example : (SumTree.node (.node (.leaf (float64.fl (1 / 10))) (.leaf (float64.fl (2 / 10)))) (.leaf (float64.fl (3 / 10)))).sumFl (float64 : Rounding ℚ)
    ≠ (SumTree.node (.leaf (float64.fl (1 / 10))) (.node (.leaf (float64.fl (2 / 10))) (.leaf (float64.fl (3 / 10))))).sumFl (float64 : Rounding ℚ) := by
  decide +kernel

example : (SumTree.node (.node (.leaf 1) (.leaf 2)) (.leaf 4)).meanFl (float64 : Rounding ℚ) = float64.fl (7 / 3) := by decide +kernel

end Verif.Props
