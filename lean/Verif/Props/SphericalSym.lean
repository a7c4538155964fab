import Verif.Props.Spherical
import Mathlib.Analysis.SpecialFunctions.Complex.Circle

/-
Property theorems: symmetries of the spherical harmonic analysis and the power of a field.
-/

set_option linter.unusedSectionVars false

namespace Verif.Spec.Spherical

/-- what is needed of the harmonics: they depend on the longitude through the factor exp(i m longitude), and a harmonic is even or odd about the equator
as `n + m` is even or odd -/
structure Symmetric (Y : ℕ → ℕ → ℝ → ℝ → ℂ) : Prop where
  turn : ∀ n m colat lon a, Y n m colat (lon + a) = Complex.exp (Complex.I * (m * a : ℝ)) * Y n m colat lon
  mirror : ∀ n m colat lon, Y n m (Real.pi - colat) lon = (-1) ^ (n + m) * Y n m colat lon

/-- `np.roll(data, k, axis=1)` -/
def rolled {r c : ℕ} [NeZero c] (k : Fin c) (data : Fin r → Fin c → ℝ) : Fin r → Fin c → ℝ := fun i j => data i (j - k)

/-- the whole circle in `c` equal steps of longitude, starting anywhere in each row -/
def Equispaced {r c : ℕ} (theta : Fin r → Fin c → ℝ) : Prop := ∀ i, ∃ t0, ∀ j : Fin c, theta i j = t0 + 2 * Real.pi * j / c

end Verif.Spec.Spherical

namespace Verif.Props
open Model Model.Spherical Spec.Spherical Lemmas Lemmas.Spherical
open scoped BigOperators

variable {r c : ℕ}

/-- C144: with the longitudes counted from another meridian (all of them larger by `a`) the coefficient of (n, m) is multiplied by exp(i m a). -/
theorem C144_turn_decomposition (lib : SciPy) (old : Bool) (hY : Symmetric (sphHarmY lib old)) (ty : Container) (data scale theta phi : Fin r → Fin c → ℝ)
    (N : ℕ) (a : ℝ) (n m : ℕ) (hm : m ≤ n) (hn : n ≤ N) (x : ℂ) (hx : (decomposition lib old ty data scale theta phi N).2[n * (n + 1) / 2 + m]? = some x) :
    (decomposition lib old ty data scale (fun i j => theta i j + a) phi N).2[n * (n + 1) / 2 + m]? = some (Complex.exp (Complex.I * (m * a : ℝ)) * x) := by
  rw [(C68_decomposition_order lib old ty data scale theta phi N).2 n m hm hn] at hx
  rw [(C68_decomposition_order lib old ty data scale _ phi N).2 n m hm hn]
  rw [← Option.some.inj hx]
  congr 1
  unfold analysis
  have : ∑ i, ∑ j, (data i j : ℂ) * scale i j * sphHarmY lib old n m (phi i j) (theta i j + a)
      = Complex.exp (Complex.I * (m * a : ℝ)) * ∑ i, ∑ j, (data i j : ℂ) * scale i j * sphHarmY lib old n m (phi i j) (theta i j) := by
    rw [Finset.mul_sum]
    refine Finset.sum_congr rfl fun i _ => ?_
    rw [Finset.mul_sum]
    refine Finset.sum_congr rfl fun j _ => ?_
    rw [hY.turn]
    ring
  rw [this]
  ring

theorem norm_phase (x : ℝ) : ‖Complex.exp (Complex.I * (x : ℝ))‖ = 1 := by
  rw [mul_comm]; exact Complex.norm_exp_ofReal_mul_I x

/-- C144: so the magnitude of every coefficient, and with it the power spectrum, does not depend on where the longitudes start. -/
theorem C144_turn_power (lib : SciPy) (old : Bool) (hY : Symmetric (sphHarmY lib old)) (ty : Container) (data scale theta phi : Fin r → Fin c → ℝ)
    (N : ℕ) (a : ℝ) :
    (decomposition lib old ty data scale (fun i j => theta i j + a) phi N).2.map norm = (decomposition lib old ty data scale theta phi N).2.map norm := by
  rw [decomp_eq, decomp_eq, List.map_map, List.map_map]
  refine List.map_congr_left fun p hp => ?_
  obtain ⟨n, m⟩ := p
  rw [mem_pairs] at hp
  have h1 := C144_turn_decomposition lib old hY ty data scale theta phi N a n m hp.1 hp.2 _ ((C68_decomposition_order lib old ty data scale theta phi N).2 n m hp.1 hp.2)
  rw [(C68_decomposition_order lib old ty data scale _ phi N).2 n m hp.1 hp.2] at h1
  simp only [Function.comp_apply, coefficient_analysis]
  rw [Option.some.inj h1, norm_mul, norm_phase, one_mul]

/-- C144: coefficients multiplied by exp(i m a) and longitudes larger by `a` give the same field. -/
theorem C144_turn_recomposition (lib : SciPy) (old : Bool) (hY : Symmetric (sphHarmY lib old)) (ty : Container) (coef coef' : List ℂ)
    (theta phi : Fin r → Fin c → ℝ) (N : ℕ) (a : ℝ) (hl : coef.length = (N + 1) * (N + 2) / 2) (hl' : coef'.length = (N + 1) * (N + 2) / 2)
    (h : ∀ n m, m ≤ n → n ≤ N → ∀ x, coef[n * (n + 1) / 2 + m]? = some x → coef'[n * (n + 1) / 2 + m]? = some (Complex.exp (Complex.I * (m * a : ℝ)) * x)) :
    recomposition lib old ty coef' (fun i j => theta i j + a) phi N = recomposition lib old ty coef theta phi N := by
  rw [C68_recomposition_order lib old ty coef' _ phi N hl', C68_recomposition_order lib old ty coef theta phi N hl]
  congr 2
  funext i j
  unfold synthesis
  refine Finset.sum_congr rfl fun n hn => Finset.sum_congr rfl fun m hm => ?_
  rw [Finset.mem_range] at hn hm
  have hidx : n * (n + 1) / 2 + m < coef.length := by
    have := List.getElem?_eq_some_iff.mp (pairs_get (N := N) (n := n) (m := m) (by omega) (by omega))
    obtain ⟨h1, -⟩ := this
    rw [pairs_length] at h1
    rw [hl]; exact h1
  have hx : coef[n * (n + 1) / 2 + m]? = some (coef[n * (n + 1) / 2 + m]) := List.getElem?_eq_getElem hidx
  have hx' := h n m (by omega) (by omega) _ hx
  have e1 : coef.getD (Spec.Spherical.index n m) 0 = coef[n * (n + 1) / 2 + m] := by
    rw [List.getD_eq_getElem?_getD]
    show (coef[n * (n + 1) / 2 + m]?).getD 0 = _
    rw [hx]; rfl
  have e2 : coef'.getD (Spec.Spherical.index n m) 0 = Complex.exp (Complex.I * (m * a : ℝ)) * coef[n * (n + 1) / 2 + m] := by
    rw [List.getD_eq_getElem?_getD]
    show (coef'[n * (n + 1) / 2 + m]?).getD 0 = _
    rw [hx']; rfl
  rw [e1, e2]
  generalize coef[n * (n + 1) / 2 + m] = z
  unfold gridRe gridIm
  rw [hY.turn]
  generalize sphHarmY lib old n m (phi i j) (theta i j) = y
  have hu : (Complex.exp (Complex.I * (m * a : ℝ))).re ^ 2 + (Complex.exp (Complex.I * (m * a : ℝ))).im ^ 2 = 1 := by
    have := norm_phase (m * a)
    rw [Complex.norm_def] at this
    have h2 : Complex.normSq (Complex.exp (Complex.I * (m * a : ℝ))) = 1 := by
      rw [Real.sqrt_eq_one] at this
      exact this
    rw [Complex.normSq_apply] at h2
    nlinarith
  generalize Complex.exp (Complex.I * (m * a : ℝ)) = u at hu
  simp only [Complex.mul_re, Complex.mul_im]
  linear_combination (z.re * y.re + z.im * y.im) * hu

theorem phase_turns (m : ℕ) (q : ℤ) : Complex.exp (Complex.I * (m * (2 * Real.pi * q) : ℝ)) = 1 := by
  rw [Complex.exp_eq_one_iff]
  exact ⟨m * q, by push_cast; ring⟩

/-- longitudes of the columns `k` places further east -/
theorem harmonic_shift [NeZero c] (Y : ℕ → ℕ → ℝ → ℝ → ℂ) (hY : Symmetric Y) (n m : ℕ) (colat t0 : ℝ) (j k : Fin c) :
    Y n m colat (t0 + 2 * Real.pi * ((j + k : Fin c) : ℕ) / c) =
      Complex.exp (Complex.I * (m * (2 * Real.pi * k / c) : ℝ)) * Y n m colat (t0 + 2 * Real.pi * j / c) := by
  have hc : (c : ℝ) ≠ 0 := by exact_mod_cast NeZero.ne c
  have hv : ((j + k : Fin c) : ℕ) = (j : ℕ) + k ∨ ((j + k : Fin c) : ℕ) + c = (j : ℕ) + k := by
    have hj := j.isLt
    have hk := k.isLt
    rw [Fin.val_add]
    rcases Nat.lt_or_ge (j.val + k.val) c with h | h
    · left; exact Nat.mod_eq_of_lt h
    · right; rw [Nat.mod_eq_sub_mod h, Nat.mod_eq_of_lt (by omega)]; omega
  rcases hv with hv | hv
  · rw [hv, ← hY.turn]
    congr 1
    push_cast
    ring
  · have : t0 + 2 * Real.pi * ((j + k : Fin c) : ℕ) / c = (t0 + 2 * Real.pi * j / c + 2 * Real.pi * k / c) + 2 * Real.pi * ((-1 : ℤ) : ℝ) := by
      have h2 : (((j + k : Fin c) : ℕ) : ℝ) = j + k - c := by
        have : ((((j + k : Fin c) : ℕ) + c : ℕ) : ℝ) = ((j.val + k.val : ℕ) : ℝ) := by rw [hv]
        push_cast at this
        linarith
      rw [h2]
      push_cast
      field_simp
      ring
    rw [this, hY.turn, phase_turns, one_mul, hY.turn]

/-- C144: on a grid with equally spaced longitudes, rolling the data by `k` columns multiplies the coefficient of (n, m) by exp(2πi m k / nlon). -/
theorem C144_roll [NeZero c] (lib : SciPy) (old : Bool) (hY : Symmetric (sphHarmY lib old)) (ty : Container) (data theta : Fin r → Fin c → ℝ)
    (w colat : Fin r → ℝ) (ht : Equispaced theta) (N : ℕ) (k : Fin c) (n m : ℕ) (hm : m ≤ n) (hn : n ≤ N) (x : ℂ)
    (hx : (decomposition lib old ty data (fun i _ => w i) theta (fun i _ => colat i) N).2[n * (n + 1) / 2 + m]? = some x) :
    (decomposition lib old ty (rolled k data) (fun i _ => w i) theta (fun i _ => colat i) N).2[n * (n + 1) / 2 + m]? =
      some (Complex.exp (Complex.I * (m * (2 * Real.pi * k / c) : ℝ)) * x) := by
  rw [(C68_decomposition_order lib old ty data _ theta _ N).2 n m hm hn] at hx
  rw [(C68_decomposition_order lib old ty _ _ theta _ N).2 n m hm hn, ← Option.some.inj hx]
  congr 1
  unfold analysis
  have : ∑ i, ∑ j, (rolled k data i j : ℂ) * w i * sphHarmY lib old n m (colat i) (theta i j)
      = Complex.exp (Complex.I * (m * (2 * Real.pi * k / c) : ℝ)) * ∑ i, ∑ j, (data i j : ℂ) * w i * sphHarmY lib old n m (colat i) (theta i j) := by
    rw [Finset.mul_sum]
    refine Finset.sum_congr rfl fun i _ => ?_
    rw [Finset.mul_sum, ← Equiv.sum_comp (Equiv.addRight k)]
    refine Finset.sum_congr rfl fun j _ => ?_
    obtain ⟨t0, ht0⟩ := ht i
    simp only [Equiv.coe_addRight, rolled, add_sub_cancel_right]
    rw [ht0, ht0, harmonic_shift _ hY]
    ring
  rw [this]
  ring

/-- C144: data that do not depend on longitude have no harmonics of order `m` unless `m` is a multiple of the number of longitudes (in particular, none
with 0 < m < nlon). -/
theorem C144_zonal [NeZero c] (lib : SciPy) (old : Bool) (hY : Symmetric (sphHarmY lib old)) (ty : Container) (data w colat : Fin r → ℝ)
    (theta : Fin r → Fin c → ℝ) (ht : Equispaced theta) (N : ℕ) (n m : ℕ) (hm : m ≤ n) (hn : n ≤ N) (hd : ¬ c ∣ m) :
    (decomposition lib old ty (fun i _ => data i) (fun i _ => w i) theta (fun i _ => colat i) N).2[n * (n + 1) / 2 + m]? = some 0 := by
  have hc : (c : ℝ) ≠ 0 := by exact_mod_cast NeZero.ne c
  have h0 := (C68_decomposition_order lib old ty (fun i _ => data i) (fun i _ => w i) theta (fun i _ => colat i) N).2 n m hm hn
  have hc1 : 1 < c := by
    rcases Nat.lt_or_ge 1 c with h | h
    · exact h
    · have : c = 1 := by have := NeZero.ne c; omega
      exact absurd (this ▸ one_dvd m) hd
  have h1 := C144_roll lib old hY ty (fun i _ => data i) theta w colat ht N ⟨1, hc1⟩ n m hm hn _ h0
  have hr : rolled (⟨1, hc1⟩ : Fin c) (fun (i : Fin r) (_ : Fin c) => data i) = fun i _ => data i := rfl
  rw [hr, h0] at h1
  have h1 := Option.some.inj h1
  rw [h0]
  congr 1
  generalize analysis (sphHarmY lib old) (fun (i : Fin r) (_ : Fin c) => data i) (fun i _ => w i) theta (fun i _ => colat i) n m = z at h1
  by_contra hz
  have : Complex.exp (Complex.I * (m * (2 * Real.pi * ((1 : ℕ) : ℝ) / c) : ℝ)) = 1 := by
    have h2 : (Complex.exp (Complex.I * (m * (2 * Real.pi * ((1 : ℕ) : ℝ) / c) : ℝ)) - 1) * z = 0 := by
      rw [sub_mul, one_mul, ← h1, sub_self]
    rcases mul_eq_zero.mp h2 with h3 | h3
    · exact sub_eq_zero.mp h3
    · exact absurd h3 hz
  rw [Complex.exp_eq_one_iff] at this
  obtain ⟨q, hq⟩ := this
  have hq' : (m : ℝ) / c = q := by
    have h4 : Complex.I * ((2 * Real.pi * ((m : ℝ) / c) : ℝ) : ℂ) = Complex.I * ((2 * Real.pi * (q : ℝ) : ℝ) : ℂ) := by
      rw [show (2 * Real.pi * ((m : ℝ) / c) : ℝ) = (m * (2 * Real.pi * ((1 : ℕ) : ℝ) / c) : ℝ) by push_cast; ring, hq]
      push_cast; ring
    have h5 := Complex.ofReal_injective (mul_left_cancel₀ Complex.I_ne_zero h4)
    exact mul_left_cancel₀ (by positivity : (2 * Real.pi : ℝ) ≠ 0) h5
  have hqm : (m : ℤ) = q * c := by
    have : (m : ℝ) = q * c := by rw [← hq']; field_simp
    exact_mod_cast this
  exact hd (Int.natCast_dvd_natCast.mp ⟨q, by rw [hqm]; ring⟩)

/-- C144: on a grid that is symmetric about the equator, data that are even (σ = 1) or odd (σ = -1) about it have no harmonics of the other kind. -/
theorem C144_mirror (lib : SciPy) (old : Bool) (hY : Symmetric (sphHarmY lib old)) (ty : Container) (data scale theta phi : Fin r → Fin c → ℝ) (σ : ℝ)
    (hd : ∀ i j, data i.rev j = σ * data i j) (hs : ∀ i j, scale i.rev j = scale i j) (ht : ∀ i j, theta i.rev j = theta i j)
    (hp : ∀ i j, phi i.rev j = Real.pi - phi i j) (N : ℕ) (n m : ℕ) (hm : m ≤ n) (hn : n ≤ N) (hσ : σ ≠ (-1) ^ (n + m)) (hσ' : σ = 1 ∨ σ = -1) :
    (decomposition lib old ty data scale theta phi N).2[n * (n + 1) / 2 + m]? = some 0 := by
  rw [(C68_decomposition_order lib old ty data scale theta phi N).2 n m hm hn]
  congr 1
  unfold analysis
  have h1 : ∑ i, ∑ j, (data i j : ℂ) * scale i j * sphHarmY lib old n m (phi i j) (theta i j) =
      (σ * (-1) ^ (n + m) : ℝ) * ∑ i, ∑ j, (data i j : ℂ) * scale i j * sphHarmY lib old n m (phi i j) (theta i j) := by
    conv_lhs => rw [← Equiv.sum_comp Fin.revPerm]
    rw [Finset.mul_sum]
    refine Finset.sum_congr rfl fun i _ => ?_
    rw [Finset.mul_sum]
    refine Finset.sum_congr rfl fun j _ => ?_
    simp only [Fin.revPerm_apply, hd, hs, ht, hp, hY.mirror]
    push_cast
    ring
  have h2 : σ * (-1) ^ (n + m) = (-1 : ℝ) := by
    rcases neg_one_pow_eq_or ℝ (n + m) with h | h <;> rw [h] at hσ ⊢ <;> rcases hσ' with rfl | rfl <;> first | exact absurd rfl hσ | norm_num
  rw [h2] at h1
  have h3 : ∑ i, ∑ j, (data i j : ℂ) * scale i j * sphHarmY lib old n m (phi i j) (theta i j) = 0 := by
    generalize ∑ i, ∑ j, (data i j : ℂ) * scale i j * sphHarmY lib old n m (phi i j) (theta i j) = z at h1
    have : (2 : ℂ) * z = 0 := by push_cast at h1; linear_combination h1
    rcases mul_eq_zero.mp this with h | h
    · norm_num at h
    · exact h
  rw [h3]
  simp

/-- C144: on a grid whose weights are exact for the harmonics up to degree `N`, the weighted sum of squares of a field is, up to the factor total weight
/ 4π, the sum of the squared magnitudes of its coefficients, those with m > 0 counting half. -/
theorem C144_power (lib : SciPy) (old : Bool) (ty : Container) (scale theta phi : Fin r → Fin c → ℝ) (N : ℕ) (hY : Harmonics (sphHarmY lib old))
    (hq : QuadratureExact (sphHarmY lib old) N scale theta phi) (coef : List ℂ) (hc : Admissible N coef) :
    ∃ f, recomposition lib old ty coef theta phi N = .ok (ty, f) ∧
      pairing scale f f = total scale / (4 * Real.pi) *
        ∑ n ∈ Finset.range (N + 1), ∑ m ∈ Finset.range (n + 1), (if m = 0 then 1 else 1 / 2) * ‖coef.getD (Spec.Spherical.index n m) 0‖ ^ 2 := by
  obtain ⟨f, hf, hd⟩ := C69_decomposition_of_recomposition lib old ty scale theta phi N hY hq coef hc
  refine ⟨f, hf, ?_⟩
  rw [C68_recomposition_order lib old ty coef theta phi N hc.1] at hf
  have hfs : f = synthesis (sphHarmY lib old) N coef theta phi := by
    injection hf with hf
    exact (congrArg Prod.snd hf).symm
  -- the sums of the field times a harmonic
  have key : ∀ n m, m ≤ n → n ≤ N →
      (∑ i, ∑ j, scale i j * f i j * gridRe (sphHarmY lib old) theta phi n m i j) =
        total scale / (4 * Real.pi) * ((if m = 0 then 1 else 1 / 2) * (coef.getD (Spec.Spherical.index n m) 0).re) ∧
      (∑ i, ∑ j, scale i j * f i j * gridIm (sphHarmY lib old) theta phi n m i j) =
        total scale / (4 * Real.pi) * ((if m = 0 then 1 else 1 / 2) * (coef.getD (Spec.Spherical.index n m) 0).im) := by
    intro n m hm hn
    have h1 := (C68_decomposition_order lib old ty f scale theta phi N).2 n m hm hn
    rw [hd] at h1
    have h2 : coef.getD (Spec.Spherical.index n m) 0 = analysis (sphHarmY lib old) f scale theta phi n m := by
      rw [List.getD_eq_getElem?_getD]
      show (coef[n * (n + 1) / 2 + m]?).getD 0 = _
      rw [show coef[n * (n + 1) / 2 + m]? = _ from h1]
      rfl
    have hw : ((total scale : ℝ) : ℂ) ≠ 0 := by exact_mod_cast hq.nonzero
    have hpi : ((Real.pi : ℝ) : ℂ) ≠ 0 := by exact_mod_cast Real.pi_ne_zero
    have h3 : ∑ i, ∑ j, (f i j : ℂ) * scale i j * sphHarmY lib old n m (phi i j) (theta i j) =
        ((total scale / (4 * Real.pi) * (if m = 0 then 1 else 1 / 2) : ℝ) : ℂ) * coef.getD (Spec.Spherical.index n m) 0 := by
      rw [h2]
      unfold analysis
      rw [hY.constant]
      by_cases h0 : m = 0
      · simp only [h0, if_true]
        push_cast
        field_simp
      · simp only [h0, if_false]
        push_cast
        field_simp
    constructor
    · have := congrArg Complex.re h3
      rw [Complex.re_ofReal_mul, Complex.re_sum] at this
      rw [← mul_assoc, ← this]
      refine Finset.sum_congr rfl fun i _ => ?_
      rw [Complex.re_sum]
      refine Finset.sum_congr rfl fun j _ => ?_
      rw [← Complex.ofReal_mul, Complex.re_ofReal_mul]
      unfold gridRe
      ring
    · have := congrArg Complex.im h3
      rw [Complex.im_ofReal_mul, Complex.im_sum] at this
      rw [← mul_assoc, ← this]
      refine Finset.sum_congr rfl fun i _ => ?_
      rw [Complex.im_sum]
      refine Finset.sum_congr rfl fun j _ => ?_
      rw [← Complex.ofReal_mul, Complex.im_ofReal_mul]
      unfold gridIm
      ring
  have hexp : pairing scale f f = ∑ n ∈ Finset.range (N + 1), ∑ m ∈ Finset.range (n + 1),
      ((coef.getD (Spec.Spherical.index n m) 0).re * (∑ i, ∑ j, scale i j * f i j * gridRe (sphHarmY lib old) theta phi n m i j) +
       (coef.getD (Spec.Spherical.index n m) 0).im * (∑ i, ∑ j, scale i j * f i j * gridIm (sphHarmY lib old) theta phi n m i j)) := by
    have h1 : ∀ i j, scale i j * f i j * f i j = ∑ n ∈ Finset.range (N + 1), ∑ m ∈ Finset.range (n + 1),
        ((coef.getD (Spec.Spherical.index n m) 0).re * (scale i j * f i j * gridRe (sphHarmY lib old) theta phi n m i j) +
         (coef.getD (Spec.Spherical.index n m) 0).im * (scale i j * f i j * gridIm (sphHarmY lib old) theta phi n m i j)) := by
      intro i j
      conv_lhs => rw [show scale i j * f i j * f i j = scale i j * f i j * synthesis (sphHarmY lib old) N coef theta phi i j by rw [← hfs]]
      unfold synthesis
      rw [Finset.mul_sum]
      refine Finset.sum_congr rfl fun n _ => ?_
      rw [Finset.mul_sum]
      refine Finset.sum_congr rfl fun m _ => ?_
      ring
    unfold pairing
    simp only [h1]
    have swap : ∀ g : ℕ → ℕ → Fin r → Fin c → ℝ, ∑ i, ∑ j, ∑ n ∈ Finset.range (N + 1), ∑ m ∈ Finset.range (n + 1), g n m i j =
        ∑ n ∈ Finset.range (N + 1), ∑ m ∈ Finset.range (n + 1), ∑ i, ∑ j, g n m i j := by
      intro g
      have a1 : ∀ i, ∑ j, ∑ n ∈ Finset.range (N + 1), ∑ m ∈ Finset.range (n + 1), g n m i j =
          ∑ n ∈ Finset.range (N + 1), ∑ m ∈ Finset.range (n + 1), ∑ j, g n m i j := fun i => by
        rw [Finset.sum_comm]
        exact Finset.sum_congr rfl fun n _ => Finset.sum_comm
      rw [Finset.sum_congr rfl fun i _ => a1 i, Finset.sum_comm]
      exact Finset.sum_congr rfl fun n _ => Finset.sum_comm
    rw [swap]
    refine Finset.sum_congr rfl fun n _ => Finset.sum_congr rfl fun m _ => ?_
    simp only [Finset.sum_add_distrib, Finset.mul_sum]
  rw [hexp, Finset.mul_sum]
  refine Finset.sum_congr rfl fun n hn => ?_
  rw [Finset.mul_sum]
  refine Finset.sum_congr rfl fun m hm => ?_
  rw [Finset.mem_range] at hn hm
  obtain ⟨k1, k2⟩ := key n m (by omega) (by omega)
  rw [k1, k2, Complex.sq_norm, Complex.normSq_apply]
  ring

/-- the harmonics up to degree 1 have the symmetries -/
theorem lowY_symmetric : Symmetric lowY where
  turn := by
    intro n m colat lon a
    match n, m with
    | 0, 0 => simp [lowY]
    | 1, 0 => simp [lowY]
    | 1, 1 =>
      have h : ∀ x : ℝ, lowY 1 1 colat x = ((-(Real.sqrt (3 / (8 * Real.pi)) * Real.sin colat) : ℝ) : ℂ) * Complex.exp (Complex.I * (x : ℝ)) := by
        intro x
        have hx : Complex.exp (Complex.I * (x : ℝ)) = ⟨Real.cos x, Real.sin x⟩ := by
          rw [mul_comm Complex.I, Complex.exp_mul_I, ← Complex.ofReal_cos, ← Complex.ofReal_sin]
          apply Complex.ext <;> simp only [Complex.add_re, Complex.add_im, Complex.mul_re, Complex.mul_im, Complex.ofReal_re, Complex.ofReal_im, Complex.I_re, Complex.I_im] <;> ring
        rw [hx]
        apply Complex.ext
        · rw [Complex.re_ofReal_mul]
          show -(_ * (_ * _)) = _
          ring
        · rw [Complex.im_ofReal_mul]
          show -(_ * (_ * _)) = _
          ring
      rw [h, h]
      rw [show Complex.exp (Complex.I * (((1 : ℕ) : ℝ) * a : ℝ)) * (((-(Real.sqrt (3 / (8 * Real.pi)) * Real.sin colat) : ℝ) : ℂ) * Complex.exp (Complex.I * (lon : ℝ))) =
        ((-(Real.sqrt (3 / (8 * Real.pi)) * Real.sin colat) : ℝ) : ℂ) * (Complex.exp (Complex.I * (lon : ℝ)) * Complex.exp (Complex.I * (((1 : ℕ) : ℝ) * a : ℝ))) by ring,
        ← Complex.exp_add]
      congr 2
      push_cast
      ring
    | 0, m + 1 => simp [lowY]
    | 1, m + 2 => simp [lowY]
    | n + 2, m => simp [lowY]
  mirror := by
    intro n m colat lon
    match n, m with
    | 0, 0 => simp [lowY]
    | 1, 0 =>
      apply Complex.ext <;> simp [lowY, Real.cos_pi_sub]
    | 1, 1 => simp [lowY, Real.sin_pi_sub]
    | 0, m + 1 => simp [lowY]
    | 1, m + 2 => simp [lowY]
    | n + 2, m => simp [lowY]

/-- equally spaced longitudes; symmetric colatitudes -/
example : Equispaced (fun (_ : Fin 2) (j : Fin 3) => 1 + 2 * Real.pi * j / (3 : ℕ)) := fun _ => ⟨1, fun _ => rfl⟩
example : ∀ i j, (fun (i : Fin 2) (_ : Fin 3) => if i = 0 then 1 else Real.pi - 1) i.rev j = Real.pi - (fun (i : Fin 2) (_ : Fin 3) => if i = 0 then 1 else Real.pi - 1) i j := by
  intro i j
  fin_cases i <;> simp

end Verif.Props
