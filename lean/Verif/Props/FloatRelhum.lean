import Verif.Basic.Formats
import Verif.Lemmas.FloatRelhumRh
import Verif.Props.PointApi
import Verif.Props.FloatGrad

namespace Verif.Props
open Verif Model XF Lemmas Lemmas.Gradient Spec Tensor

/-! ### precisions -/

theorem binary_accurate (p : ℕ) (emin : ℤ) (hp : 1 ≤ p) (he : emin ≤ 0) : (binary p emin hp he : Rounding ℝ).Accurate (2 ^ (-(p : ℤ))) (2 ^ (emin - 1)) where
  u_nonneg := (two_zpow_pos _).le
  eta_nonneg := (two_zpow_pos _).le
  err x := by
    have h := roundBin_error (p := p) (emin := emin) x
    have e : |x| / 2 ^ p = 2 ^ (-(p : ℤ)) * |x| := by
      rw [zpow_neg, div_eq_mul_inv, mul_comm, zpow_natCast]
    rw [e] at h
    refine h.trans (max_le ?_ ?_)
    · exact le_add_of_nonneg_right (two_zpow_pos _).le
    · exact le_add_of_nonneg_left (mul_nonneg (two_zpow_pos _).le (abs_nonneg _))
  add x y hx hy := by
    have h := roundBin_add_error (p := p) (emin := emin) hp he hx hy
    have e : |x + y| / 2 ^ p = 2 ^ (-(p : ℤ)) * |x + y| := by
      rw [zpow_neg, div_eq_mul_inv, mul_comm, zpow_natCast]
    rwa [e] at h

theorem usable_float64 : Usable (float64 : Rounding ℝ) (2 ^ (-53 : ℤ)) (2 ^ (-1075 : ℤ)) :=
  ⟨float64_accurate, by norm_num [zpow_neg], zpow_le_zpow_right₀ (by norm_num) (by norm_num)⟩

theorem usable_float32 : Usable float32 (2 ^ (-24 : ℤ)) (2 ^ (-150 : ℤ)) :=
  ⟨binary_accurate 24 (-149) _ _, by norm_num [zpow_neg], zpow_le_zpow_right₀ (by norm_num) (by norm_num)⟩

theorem usable_float16 : Usable float16 (2 ^ (-11 : ℤ)) (2 ^ (-25 : ℤ)) :=
  ⟨binary_accurate 11 (-24) _ _, by norm_num [zpow_neg], zpow_le_zpow_right₀ (by norm_num) (by norm_num)⟩

/-! ### without rounding -/

theorem roundXF_exact : roundXF (Rounding.exact : Rounding ℝ) = id := by
  funext x
  cases x <;> rfl

/-- If nothing is rounded, the result is that of C46 and C47. -/
theorem C163_exact (t w p : Arg (XF ℝ)) : relhumFl Rounding.exact Rounding.exact t w p = relhum t w p := by
  have e1 : relhumEsFl Rounding.exact Rounding.exact = relhumEs := by
    funext x
    unfold relhumEsFl relhumEs
    have : clipTempFl Rounding.exact x = clipTemp x := by cases x <;> rfl
    rw [this, roundXF_exact]
    rfl
  have e2 : relhumOfEsFl Rounding.exact = relhumOfEs := by
    funext e w p
    unfold relhumOfEsFl relhumOfEs
    rw [roundXF_exact]
    have : clipMinFl Rounding.exact = clipMin := by funext x; cases x <;> rfl
    rw [this]
    rfl
  unfold relhumFl
  rw [e1, e2]
  rfl

/-! ### the table -/

theorem values_mapM_fl {D : Rounding ℝ} {u η : ℝ} (U : Usable D u η) (R : Rounding ℝ) (a : Tensor (XF ℝ)) (h : ∀ i, InBounds a.shape i → a.get i ≠ nan) :
    ∃ es, a.values.mapM (relhumEsFl D R) = .ok es := by
  have : ∀ l : List (XF ℝ), (∀ x ∈ l, x ≠ nan) → ∃ es, l.mapM (relhumEsFl D R) = .ok es := by
    intro l
    induction l with
    | nil => exact fun _ => ⟨[], rfl⟩
    | cons x l ih =>
      intro hl
      obtain ⟨es, hes⟩ := ih (fun y hy => hl y (List.mem_cons_of_mem _ hy))
      obtain ⟨e, he⟩ := relhumEsFl_ok U R (hl x (List.mem_cons_self ..))
      rw [List.mapM_cons, he, hes]
      exact ⟨fin e :: es, rfl⟩
  apply this
  intro x hx
  obtain ⟨i, hi, rfl⟩ := mem_values.mp hx
  exact h i hi

/-- In every precision from half precision upwards `relhum` never leaves its table, whatever the temperatures (infinite ones included, NaN excluded); at every
index the result is the one-point result. -/
theorem C163_never_out_of_table {D : Rounding ℝ} {u η : ℝ} (U : Usable D u η) (R : Rounding ℝ) (t w p : Arg (XF ℝ)) (hw : t.val.shape = w.val.shape)
    (hp : t.val.shape = p.val.shape) (h : ∀ i, InBounds t.val.shape i → t.val.get i ≠ nan) :
    ∃ r, relhumFl D R t w p = .ok r ∧ r.val.shape = t.val.shape ∧
      ∀ i, InBounds t.val.shape i → relhumPointFl D R (t.val.get i) (w.val.get i) (p.val.get i) = .ok (r.val.get i) := by
  obtain ⟨es, hes⟩ := values_mapM_fl U R t.val h
  unfold relhumFl relhumBy
  simp only [hes]
  rw [if_neg (by simp only [listTimesScalar, hw]; simp)]
  generalize he : Tensor.map _ t.val = e
  have hs : e.shape = t.val.shape := by rw [← he]; rfl
  obtain ⟨r, h1, h2, h3⟩ := zip3_same (relhumOfEsFl R) e w.val p.val (hs.trans hw) (hs.trans hp)
  rw [h1]
  refine ⟨_, rfl, h2.trans hs, ?_⟩
  intro i hi
  show _ = Except.ok (r.get i)
  rw [h3 i (hs.symm ▸ hi), ← he]
  obtain ⟨y, hy⟩ := relhumEsFl_ok U R (h i hi)
  simp only [Tensor.map, relhumPointFl, hy]
  rfl

/-- No number below the stored 0.0001 is returned. -/
theorem C163_lower_bound (D R : Rounding ℝ) (t w p : XF ℝ) (r : ℝ) (h : relhumPointFl D R t w p = .ok (fin r)) : R.fl 0.0001 ≤ r := by
  unfold relhumPointFl at h
  rcases he : relhumEsFl D R t with e | es
  · rw [he] at h; cases h
  · rw [he] at h
    have h' : relhumOfEsFl R es w p = fin r := by injection h
    unfold relhumOfEsFl at h'
    generalize roundXF R _ = x at h'
    cases x with
    | fin x => injection h' with h'; rw [← h']; exact le_max_right _ _
    | pinf => cases h'
    | ninf => injection h' with h'; exact le_of_eq h'
    | nan => cases h'

/-! ### accuracy -/

theorem esR_ge (x : ℝ) : (0.001 : ℝ) ≤ esR x := by
  have hf := shiftR_floor x
  have := (tab_ge (k := ⌊shiftR x⌋₊) (by omega)).trans (lerp_between tab (shiftR_nonneg x) (tab_mono _ _ (by omega) (by omega))).1
  unfold esR
  norm_num at *
  linarith

/-- the looked-up saturation pressure: relative error 1600 units of rounding of the temperatures plus 1e-12 -/
theorem C163_saturation_pressure {D R : Rounding ℝ} {u η v ζ : ℝ} (U : Usable D u η) (F : FineRounding R v ζ) (t : ℝ) :
    ∃ e e', relhumEs (fin t) = .ok (fin e) ∧ relhumEsFl D R (fin t) = .ok (fin e') ∧ |e' - e| ≤ (1600 * u + 1e-12) * e :=
  ⟨_, _, relhumEs_fin t, relhumEsFl_fin U R t, esFl_close U F t⟩

/-- Temperatures in any precision with `u ≤ 2^-18`, everything else in double precision: the error is at most a small multiple of
`100 w (p + 0.378 e) / (0.622 e)`, which is close to the result itself unless the vapour pressure `e` is comparable to the pressure. -/
theorem C163_accuracy {D R : Rounding ℝ} {u η v ζ : ℝ} (U : Usable D u η) (F : FineRounding R v ζ) (hu : 1600 * u + 1e-12 ≤ 1 / 100) (t w p : ℝ) (hw : 0 ≤ w) (hp : 0 ≤ p) :
    ∃ e r r', relhumEs (fin t) = .ok (fin e) ∧ relhumPoint (fin t) (fin w) (fin p) = .ok (fin r) ∧ relhumPointFl D R (fin t) (fin w) (fin p) = .ok (fin r') ∧
      |r' - r| ≤ (2.2 * (1600 * u + 1e-12) + 2e-14) * (w * (p + 0.378 * e) / (0.622 * e) * 100) + 1e-19 := by
  have h0 := U.acc.u_nonneg
  obtain ⟨h1, h2⟩ := rh_close F (esR_ge t) (by positivity) hu (esFl_close U F t) hw hp
  refine ⟨_, _, _, relhumEs_fin t, relhumPoint_fin t w p, ?_, h2⟩
  unfold relhumPointFl
  rw [relhumEsFl_fin U R t]
  show Except.ok _ = _
  rw [relhumOfEsFl_fin R h1]

/-- double precision throughout, for whole arrays -/
theorem C163_double_precision (t w p : Arg (XF ℝ)) (hw : t.val.shape = w.val.shape) (hp : t.val.shape = p.val.shape) (T W P : List ℕ → ℝ)
    (ht : HasReals t.val T) (hwv : HasReals w.val W) (hpv : HasReals p.val P) (h0 : ∀ i, InBounds t.val.shape i → 0 ≤ W i ∧ 0 ≤ P i) :
    ∃ r r' v v', relhum t w p = .ok r ∧ relhumFl float64 float64 t w p = .ok r' ∧ r'.val.shape = r.val.shape ∧ HasReals r.val v ∧ HasReals r'.val v' ∧
      ∀ i, InBounds t.val.shape i → ∃ e, relhumEs (fin (T i)) = .ok (fin e) ∧
        |v' i - v i| ≤ 3e-12 * (W i * (P i + 0.378 * e) / (0.622 * e) * 100) + 1e-19 := by
  obtain ⟨r, h1, h2, h3⟩ := C46_never_out_of_table t w p hw hp (fun i hi => by rw [ht i hi]; simp)
  obtain ⟨r', g1, g2, g3⟩ := C163_never_out_of_table usable_float64 float64 t w p hw hp (fun i hi => by rw [ht i hi]; simp)
  have hu : (2 : ℝ) ^ (-53 : ℤ) ≤ 1.2e-16 := fine_float64.u_le
  have key : ∀ i, InBounds t.val.shape i → ∃ e v v', relhumEs (fin (T i)) = .ok (fin e) ∧ r.val.get i = fin v ∧ r'.val.get i = fin v' ∧
      |v' - v| ≤ 3e-12 * (W i * (P i + 0.378 * e) / (0.622 * e) * 100) + 1e-19 := by
    intro i hi
    obtain ⟨e, v, v', a1, a2, a3, a4⟩ := C163_accuracy usable_float64 fine_float64 (by linarith) (T i) (W i) (P i) (h0 i hi).1 (h0 i hi).2
    have b2 := h3 i hi
    have b3 := g3 i hi
    rw [ht i hi, hwv i (hw ▸ hi), hpv i (hp ▸ hi)] at b2 b3
    rw [b2] at a2
    rw [b3] at a3
    refine ⟨e, v, v', a1, by injection a2, by injection a3, a4.trans ?_⟩
    have he : 0 < e := by
      rw [relhumEs_fin] at a1
      injection a1 with a1
      injection a1 with a1
      rw [← a1]; exact esR_pos _
    have hQ : 0 ≤ W i * (P i + 0.378 * e) / (0.622 * e) * 100 := by
      have := (h0 i hi).1
      have := (h0 i hi).2
      positivity
    have : (2.2 * (1600 * (2 : ℝ) ^ (-53 : ℤ) + 1e-12) + 2e-14) * (W i * (P i + 0.378 * e) / (0.622 * e) * 100)
        ≤ 3e-12 * (W i * (P i + 0.378 * e) / (0.622 * e) * 100) := mul_le_mul_of_nonneg_right (by generalize (2 : ℝ) ^ (-53 : ℤ) = u at *; linarith) hQ
    linarith
  classical
  choose! e v v' k using key
  refine ⟨r, r', v, v', h1, g1, by rw [g2, h2], ?_, ?_, ?_⟩
  · intro i hi; rw [h2] at hi; exact (k i hi).2.1
  · intro i hi; rw [g2] at hi; exact (k i hi).2.2.1
  · intro i hi; exact ⟨e i, (k i hi).1, (k i hi).2.2.2⟩

example : ∃ e e', relhumEs (fin 300) = .ok (fin e) ∧ relhumEsFl float16 float64 (fin 300) = .ok (fin e') ∧ |e' - e| ≤ (1600 * 2 ^ (-11 : ℤ) + 1e-12) * e :=
  C163_saturation_pressure usable_float16 fine_float64 300

example : ∃ e r r', relhumEs (fin 300) = .ok (fin e) ∧ relhumPoint (fin 300) (fin 0.02) (fin 101325) = .ok (fin r) ∧
    relhumPointFl float32 float64 (fin 300) (fin 0.02) (fin 101325) = .ok (fin r') ∧
    |r' - r| ≤ (2.2 * (1600 * 2 ^ (-24 : ℤ) + 1e-12) + 2e-14) * (0.02 * (101325 + 0.378 * e) / (0.622 * e) * 100) + 1e-19 :=
  C163_accuracy usable_float32 fine_float64 (by norm_num [zpow_neg]) 300 0.02 101325 (by norm_num) (by norm_num)

example : ∃ r, relhumPointFl float64 float64 (fin 300) (fin 0.02) (fin 101325) = .ok (fin r) ∧ (float64 : Rounding ℝ).fl 0.0001 ≤ r := by
  obtain ⟨_, _, r', _, _, h, _⟩ := C163_accuracy usable_float64 fine_float64 (by norm_num [zpow_neg]) 300 0.02 101325 (by norm_num) (by norm_num)
  exact ⟨r', h, C163_lower_bound _ _ _ _ _ _ h⟩

example : ∃ r, relhumFl float32 float64 ⟨.ndarray, ⟨[2], fun i => if i = [0] then pinf else fin 250⟩⟩ ⟨.ndarray, ⟨[2], fun _ => fin 0.01⟩⟩ ⟨.ndarray, ⟨[2], fun _ => fin 100000⟩⟩ = .ok r := by
  obtain ⟨r, h, _⟩ := C163_never_out_of_table usable_float32 float64 ⟨.ndarray, ⟨[2], fun i => if i = [0] then pinf else fin 250⟩⟩ ⟨.ndarray, ⟨[2], fun _ => fin 0.01⟩⟩
    ⟨.ndarray, ⟨[2], fun _ => fin 100000⟩⟩ rfl rfl (fun i _ => by dsimp only; split <;> simp)
  exact ⟨r, h⟩

end Verif.Props
