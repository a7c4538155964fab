import Verif.Props.Hybrid

/-
Property C10 for DataArrays: totals and reversal.
-/

set_option linter.unusedSectionVars false
namespace Verif.Props
open Model Lemmas
variable {K : Type _} [Field K] [LinearOrder K] [IsStrictOrderedRing K]

/-- C10, total (xarray): if the interface pressures increase down a column (or decrease), the layers of that column add up to the
difference between its ends, for surface pressure of any rank. -/
theorem C10_total_xarray (psfc : LArr K) (d e : String) (n : ℕ) (hn : 1 ≤ n) (a b : ℕ → K) (p0 : K) (hd : d ∉ psfc.dims) (hw : psfc.WF) :
    ∃ r p, deltaHybridXr psfc (vec d n a) (vec e n b) p0 = .ok r ∧ pressureXr psfc (vec d n a) (vec e n b) p0 = .ok p ∧
      ∀ i : String → ℕ,
        (∀ k, k + 1 < n → p.get (Function.update i d k) ≤ p.get (Function.update i d (k + 1))) ∨
        (∀ k, k + 1 < n → p.get (Function.update i d (k + 1)) ≤ p.get (Function.update i d k)) →
        (∑ k ∈ Finset.range (n - 1), r.get (Function.update i d k)) =
          |p.get (Function.update i d (n - 1)) - p.get (Function.update i d 0)| := by
  obtain ⟨r, p, h1, h2, -, -, h4⟩ := C10_layers_xarray psfc d e n a b p0 hd hw
  refine ⟨r, p, h1, h2, fun i => ?_⟩
  have e' : (∑ k ∈ Finset.range (n - 1), r.get (Function.update i d k)) =
      ∑ k ∈ Finset.range (n - 1), |p.get (Function.update i d k) - p.get (Function.update i d (k + 1))| := by
    refine Finset.sum_congr rfl (fun k _ => ?_)
    rw [(h4 _).1, abs_sub_comm]
    simp
  rw [e']
  rintro (h | h)
  · obtain ⟨s1, s2⟩ := sum_abs_mono (fun k => p.get (Function.update i d k)) (n - 1) (fun k hk => h k (by omega))
    rw [s1, abs_of_nonneg (by linarith)]
  · obtain ⟨s1, s2⟩ := sum_abs_mono (fun k => - p.get (Function.update i d k)) (n - 1) (fun k hk => by simpa using h k (by omega))
    rw [abs_of_nonpos (by linarith)]
    rw [show -(p.get (Function.update i d (n - 1)) - p.get (Function.update i d 0))
      = -p.get (Function.update i d (n - 1)) - -p.get (Function.update i d 0) by ring, ← s1]
    refine Finset.sum_congr rfl (fun k _ => ?_)
    rw [← abs_neg]
    congr 1
    ring

/-- C10, reversal (xarray): coefficients listed in the opposite order give the layers in the opposite order. -/
theorem C10_reverse_xarray (psfc : LArr K) (d e : String) (n : ℕ) (a b a' b' : ℕ → K) (p0 : K) (hd : d ∉ psfc.dims) (hw : psfc.WF)
    (ha : ∀ k < n, a' k = a (n - 1 - k)) (hb : ∀ k < n, b' k = b (n - 1 - k)) :
    ∃ r r', deltaHybridXr psfc (vec d n a) (vec e n b) p0 = .ok r ∧ deltaHybridXr psfc (vec d n a') (vec e n b') p0 = .ok r' ∧
      ∀ (i : String → ℕ) k, k < n - 1 → r'.get (Function.update i d k) = r.get (Function.update i d (n - 2 - k)) := by
  obtain ⟨r, p, h1, h2, -, -, h4⟩ := C10_layers_xarray psfc d e n a b p0 hd hw
  obtain ⟨r', p', h1', h2', -, -, h4'⟩ := C10_layers_xarray psfc d e n a' b' p0 hd hw
  obtain ⟨q, q1, -, -, -, q5⟩ := C08_xarray psfc d e n a b p0 hd hw
  obtain ⟨q', q1', -, -, -, q5'⟩ := C08_xarray psfc d e n a' b' p0 hd hw
  obtain rfl : q = p := by rw [h2] at q1; injection q1 with q1; exact q1.symm
  obtain rfl : q' = p' := by rw [h2'] at q1'; injection q1' with q1'; exact q1'.symm
  refine ⟨r, r', h1, h1', fun i k hk => ?_⟩
  have hps : ∀ k, psfc.get (Function.update i d k) = psfc.get i := by
    intro k
    apply hw
    intro f hf
    rw [Function.update_of_ne]
    exact fun he => hd (he ▸ hf)
  rw [(h4 _).1, (h4' _).1]
  simp only [q5, q5', Function.update_self, Function.update_idem, hps]
  rw [ha k (by omega), hb k (by omega), ha (k + 1) (by omega), hb (k + 1) (by omega)]
  have e1 : n - 1 - k = n - 2 - k + 1 := by omega
  have e2 : n - 1 - (k + 1) = n - 2 - k := by omega
  rw [e1, e2, abs_sub_comm]

/-- surface pressure on time and latitude, three interfaces: the layers of every column add up to the difference between its ends -/
example : ∃ r p, deltaHybridXr (⟨["time", "lat"], fun _ => 2, fun i => 90000 + 1000 * (i "lat" : ℚ) + i "time"⟩ : LArr ℚ)
      (vec "ilev" 3 (fun k => ((k : ℚ)) / 10)) (vec "ilev" 3 (fun k => (k : ℚ) / 4)) 100000 = .ok r ∧
    pressureXr (⟨["time", "lat"], fun _ => 2, fun i => 90000 + 1000 * (i "lat" : ℚ) + i "time"⟩ : LArr ℚ)
      (vec "ilev" 3 (fun k => ((k : ℚ)) / 10)) (vec "ilev" 3 (fun k => (k : ℚ) / 4)) 100000 = .ok p ∧
    (∑ k ∈ Finset.range 2, r.get (fun d => if d = "ilev" then k else 1)) =
      |p.get (fun d => if d = "ilev" then 2 else 1) - p.get (fun d => if d = "ilev" then 0 else 1)| := by
  have hw : (⟨["time", "lat"], fun _ => 2, fun i => 90000 + 1000 * (i "lat" : ℚ) + i "time"⟩ : LArr ℚ).WF := by
    intro i j h
    simp only
    rw [h "time" (by simp), h "lat" (by simp)]
  obtain ⟨r, p, h1, h2, h3⟩ := C10_total_xarray (⟨["time", "lat"], fun _ => 2, fun i => 90000 + 1000 * (i "lat" : ℚ) + i "time"⟩ : LArr ℚ)
    "ilev" "ilev" 3 (by norm_num) (fun k => ((k : ℚ)) / 10) (fun k => (k : ℚ) / 4) 100000 (by decide) hw
  obtain ⟨q, q1, -, -, -, q5⟩ := C08_xarray (⟨["time", "lat"], fun _ => 2, fun i => 90000 + 1000 * (i "lat" : ℚ) + i "time"⟩ : LArr ℚ)
    "ilev" "ilev" 3 (fun k => ((k : ℚ)) / 10) (fun k => (k : ℚ) / 4) 100000 (by decide) hw
  obtain rfl : q = p := by rw [h2] at q1; injection q1 with q1; exact q1.symm
  have hu : ∀ k, (Function.update (fun _ => 1) "ilev" k : String → ℕ) = fun d => if d = "ilev" then k else 1 := by
    intro k; funext d; by_cases hd : d = "ilev" <;> simp [hd, Function.update]
  have := h3 (fun _ => 1) (Or.inl fun k _ => by
    rw [q5, q5]
    simp [hu]
    have : (0 : ℚ) ≤ k := Nat.cast_nonneg k
    nlinarith)
  refine ⟨r, q, h1, h2, ?_⟩
  simpa only [hu] using this

end Verif.Props
