import Verif.Model.RecompAlign
import Verif.Props.SphericalAlign
import Verif.Props.Spherical

/-
Property C193: spherical harmonic recomposition of DataArrays with labels.
-/

set_option linter.unusedSectionVars false
namespace Verif.Props
open Verif Model Spec Lemmas Model.Spherical

/-- the field with the coefficients `coef` at longitude `lon` and colatitude `colat` -/
noncomputable def harmField (Y : ℕ → ℕ → ℝ → ℝ → ℂ) (N : ℕ) (coef : List ℂ) (lon colat : ℝ) : ℝ :=
  ∑ n ∈ Finset.range (N + 1), ∑ m ∈ Finset.range (n + 1),
    ((coef.getD (n * (n + 1) / 2 + m) 0).re * (Y n m colat lon).re + (coef.getD (n * (n + 1) / 2 + m) 0).im * (Y n m colat lon).im)

/-- a 1-D DataArray of coefficients, with any labels -/
def coefArr (h : String) (coef : List ℂ) (idx : String → Option (List ℝ)) : IArr ℝ ℂ := ⟨⟨[h], fun _ => coef.length, fun i => coef.getD (i h) 0⟩, idx⟩

theorem coefArr_list (h : String) (coef : List ℂ) (idx : String → Option (List ℝ)) :
    (List.range ((coefArr h coef idx).arr.size h)).map (fun k => (coefArr h coef idx).arr.get (fun _ => k)) = coef := by
  apply List.ext_getElem
  · simp [coefArr]
  · intro k h1 h2
    simp [coefArr, h2]

/-- **C193, what the code does**: the values at position `i`, `j` of `theta` and at position `i`, `j` of `phi` are taken to belong to one point, whatever the
labels and the names of the dimensions of `phi`. The result has the dimensions of `theta` and never any labels. -/
theorem C193_by_position (lib : SciPy) (old : Bool) (h d0 d1 e0 e1 : String) (hne : d0 ≠ d1) (coef : List ℂ) (idx : String → Option (List ℝ))
    (theta phi : IArr ℝ ℝ) (ht : theta.arr.dims = [d0, d1]) (hp : phi.arr.dims = [e0, e1])
    (hs : phi.arr.size e0 = theta.arr.size d0 ∧ phi.arr.size e1 = theta.arr.size d1) (hh : "harmonic" ∉ [d0, d1, e0, e1]) (N : ℕ)
    (hc : coef.length = (N + 1) * (N + 2) / 2) :
    ∃ out, recompositionIdx lib old (coefArr h coef idx) theta phi N = .ok out ∧ out.arr.dims = [d0, d1] ∧ out.arr.size d0 = theta.arr.size d0 ∧
      out.arr.size d1 = theta.arr.size d1 ∧ (∀ d, out.index d = none) ∧
      ∀ i j, i < theta.arr.size d0 → j < theta.arr.size d1 → out.arr.get (pos2 d0 d1 i j) =
        harmField (sphHarmY lib old) N coef (theta.arr.get (pos2 d0 d1 i j)) (phi.arr.get (pos2 e0 e1 i j)) := by
  have h1 : ¬ ("harmonic" ∈ [d0, d1] ∨ (old = false ∧ "harmonic" ∈ [e0, e1])) := by
    simp only [List.mem_cons, List.not_mem_nil, or_false, not_or] at hh ⊢
    tauto
  have h2 : ¬ (phi.arr.size e0 ≠ theta.arr.size d0 ∨ phi.arr.size e1 ≠ theta.arr.size d1) := by
    push Not
    exact hs
  refine ⟨⟨⟨[d0, d1], theta.arr.size, fun i => if b : i d0 < theta.arr.size d0 ∧ i d1 < theta.arr.size d1 then
      Spec.Spherical.synthesis (r := theta.arr.size d0) (c := theta.arr.size d1) (sphHarmY lib old) N coef
        (fun i j => theta.arr.get (pos2 d0 d1 i j)) (fun i j => phi.arr.get (pos2 e0 e1 i j)) ⟨i d0, b.1⟩ ⟨i d1, b.2⟩ else 0⟩, fun _ => none⟩,
    ?_, rfl, rfl, rfl, fun _ => rfl, ?_⟩
  · unfold recompositionIdx
    have hd : (coefArr h coef idx).arr.dims = [h] := rfl
    simp only [hd, ht, hp]
    rw [if_neg h1, if_neg h2]
    simp only [bind, Except.bind, pure, Except.pure, coefArr_list]
    rw [Lemmas.Spherical.recomp_eq lib old .xarray coef _ _ N hc]
  · intro i j hi hj
    have q0 : pos2 d0 d1 i j d0 = i := by simp [pos2]
    have q1 : pos2 d0 d1 i j d1 = j := by simp [pos2, hne.symm]
    simp only [q0, q1]
    rw [dif_pos ⟨hi, hj⟩]
    rfl

/-- **C193, partial.** If `theta` and `phi` list the labels in the same order, the value at the position of the labels `a`, `b` (in `theta`) is the field at
the longitude and colatitude of the point with these labels. Missing from the full property: the result carries no labels, and other orders of the labels
(see the counterexamples). -/
theorem C193_partial (lib : SciPy) (old : Bool) (h d0 d1 : String) (hne : d0 ≠ d1) (la lb : List ℝ) (coef : List ℂ) (idx : String → Option (List ℝ))
    (theta phi : IArr ℝ ℝ) (T P : ℝ → ℝ → ℝ) (ht : Grid2 d0 d1 la lb theta T) (hp : Grid2 d0 d1 la lb phi P) (htd : theta.arr.dims = [d0, d1])
    (hpd : phi.arr.dims = [d0, d1]) (hpi : ∀ d ∈ [d0, d1], phi.index d = theta.index d) (hh : "harmonic" ∉ [d0, d1]) (N : ℕ)
    (hc : coef.length = (N + 1) * (N + 2) / 2) :
    ∃ out l m, recompositionIdx lib old (coefArr h coef idx) theta phi N = .ok out ∧ theta.index d0 = some l ∧ theta.index d1 = some m ∧
      out.arr.dims = [d0, d1] ∧ out.arr.size d0 = l.length ∧ out.arr.size d1 = m.length ∧
      ∀ (i j : ℕ) a b, l[i]? = some a → m[j]? = some b → out.arr.get (pos2 d0 d1 i j) = harmField (sphHarmY lib old) N coef (T a b) (P a b) := by
  obtain ⟨l, el, -⟩ := ht.rows
  obtain ⟨m, em, -⟩ := ht.cols
  have sz : ∀ (x : IArr ℝ ℝ), Labelled x → x.arr.dims = [d0, d1] → x.index d0 = some l → x.index d1 = some m →
      x.arr.size d0 = l.length ∧ x.arr.size d1 = m.length := by
    intro x hl hd i0 i1
    obtain ⟨m0, f0, -, s0⟩ := hl.labels d0 (by rw [hd]; simp)
    obtain ⟨m1, f1, -, s1⟩ := hl.labels d1 (by rw [hd]; simp)
    rw [i0] at f0
    rw [i1] at f1
    cases f0
    cases f1
    exact ⟨s0.symm, s1.symm⟩
  have pl : phi.index d0 = some l := by rw [hpi d0 (by simp), el]
  have pm : phi.index d1 = some m := by rw [hpi d1 (by simp), em]
  obtain ⟨t0, t1⟩ := sz theta ht.lab htd el em
  obtain ⟨p0, p1⟩ := sz phi hp.lab hpd pl pm
  obtain ⟨out, o1, o2, o3, o4, -, o5⟩ := C193_by_position lib old h d0 d1 d0 d1 hne coef idx theta phi htd hpd ⟨by rw [p0, t0], by rw [p1, t1]⟩
    (by simp only [List.mem_cons, List.not_mem_nil, or_false, not_or] at hh ⊢; tauto) N hc
  refine ⟨out, l, m, o1, el, em, o2, by rw [o3, t0], by rw [o4, t1], fun i j a b ha hb => ?_⟩
  obtain ⟨hi, ha⟩ := List.getElem?_eq_some_iff.mp ha
  obtain ⟨hj, hb⟩ := List.getElem?_eq_some_iff.mp hb
  rw [o5 i j (by rw [t0]; exact hi) (by rw [t1]; exact hj), (get_pos2 d0 d1 hne la lb theta T ht l m el em i j hi hj).1,
    (get_pos2 d0 d1 hne la lb phi P hp l m pl pm i j hi hj).1, ha, hb]

/-! ### cases -/

/-- C193 fails: `theta` is labelled, the result is not. -/
theorem C193_unlabelled_counterexample (lib : SciPy) (c : ℂ) : ∃ out,
    recompositionIdx lib false (coefArr "harmonic" [c] (fun _ => none)) (sphArr 0 1 0 0) (sphArr 0 1 0 Real.pi) 0 = .ok out ∧
      (sphArr 0 1 0 0).index "lat" = some [0, 1] ∧ out.arr.dims = ["lat", "lon"] ∧ out.index "lat" = none := by
  obtain ⟨out, h1, h2, -, -, h3, -⟩ := C193_by_position lib false "harmonic" "lat" "lon" "lat" "lon" (by decide) [c] (fun _ => none) (sphArr 0 1 0 0)
    (sphArr 0 1 0 Real.pi) rfl rfl ⟨rfl, rfl⟩ (by decide) 0 rfl
  exact ⟨out, h1, by simp [sphArr], h2, h3 _⟩

/-- C193 fails: `phi` lists the same two latitudes in the other order. The call succeeds; what is stored at the position of latitude 0, which is the pole of
colatitude 0, is the value at the other pole. (The hypothesis on scipy says that Y₁⁰ ∝ cos is not the same at the two poles.) -/
theorem C193_counterexample (lib : SciPy) (h1 : (sphHarmY lib false 1 0 0 0).re ≠ (sphHarmY lib false 1 0 Real.pi 0).re) :
    Grid2 "lat" "lon" [0, 1] [5] (sphArr 1 0 Real.pi 0) (byLat 0 Real.pi) ∧
    ∃ out, recompositionIdx lib false (coefArr "harmonic" [0, 1, 0] (fun _ => none)) (sphArr 0 1 0 0) (sphArr 1 0 Real.pi 0) 1 = .ok out ∧
      out.arr.get (pos2 "lat" "lon" 0 0) ≠ harmField (sphHarmY lib false) 1 [0, 1, 0] (byLat 0 0 0 5) (byLat 0 Real.pi 0 5) := by
  refine ⟨sphArr_grid 1 0 Real.pi 0 (by norm_num) _ (List.Perm.swap _ _ _) _ (by simp [byLat]), ?_⟩
  obtain ⟨out, o1, -, -, -, -, o2⟩ := C193_by_position lib false "harmonic" "lat" "lon" "lat" "lon" (by decide) [0, 1, 0] (fun _ => none) (sphArr 0 1 0 0)
    (sphArr 1 0 Real.pi 0) rfl rfl ⟨rfl, rfl⟩ (by decide) 1 rfl
  refine ⟨out, o1, ?_⟩
  rw [o2 0 0 (by simp [sphArr]) (by simp [sphArr])]
  simp [harmField, sphArr, pos2, byLat, Finset.sum_range_succ]
  exact fun h => h1 h.symm

/-- non-vacuity: two latitudes in the same order -/
example (lib : SciPy) (c : ℂ) : ∃ out l m, recompositionIdx lib false (coefArr "harmonic" [c] (fun _ => none)) (sphArr 0 1 0 0) (sphArr 0 1 0 Real.pi) 0 = .ok out ∧
    (sphArr 0 1 0 0).index "lat" = some l ∧ (sphArr 0 1 0 0).index "lon" = some m ∧ out.arr.dims = ["lat", "lon"] ∧ out.arr.size "lat" = l.length ∧
    out.arr.size "lon" = m.length ∧ ∀ (i j : ℕ) a b, l[i]? = some a → m[j]? = some b →
      out.arr.get (pos2 "lat" "lon" i j) = harmField (sphHarmY lib false) 0 [c] (byLat 0 0 a b) (byLat 0 Real.pi a b) :=
  C193_partial lib false "harmonic" "lat" "lon" (by decide) [0, 1] [5] [c] (fun _ => none) _ _ _ _
    (sphArr_grid 0 1 0 0 (by norm_num) _ (List.Perm.refl _) _ (by simp [byLat])) (sphArr_grid 0 1 0 Real.pi (by norm_num) _ (List.Perm.refl _) _ (by simp [byLat]))
    rfl rfl (by intro d _; simp [sphArr]) (by decide) 0 rfl

end Verif.Props
