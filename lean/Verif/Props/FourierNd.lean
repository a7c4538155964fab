import Verif.Model.FourierNd
import Verif.Props.Fourier

/-
Properties C108, C109: Fourier filters on N-D arrays and on DataArrays.
-/

namespace Verif.Lemmas
open Verif.Model

theorem swap0_length (k : ℕ) (l : List ℕ) : (swap0 k l).length = l.length := by simp [swap0]

theorem swap0_get? (k : ℕ) (l : List ℕ) (hk : k < l.length) (m : ℕ) :
    (swap0 k l)[m]? = if m = k then l[0]? else if m = 0 then l[k]? else l[m]? := by
  have h0 : 0 < l.length := by omega
  unfold swap0
  rw [List.getElem?_set]
  by_cases hmk : m = k
  · subst hmk
    simp [hk, List.getElem?_eq_getElem h0]
  · rw [if_neg (Ne.symm hmk), if_neg hmk, List.getElem?_set]
    by_cases hm0 : m = 0
    · subst hm0
      simp [h0, List.getElem?_eq_getElem hk]
    · rw [if_neg (Ne.symm hm0), if_neg hm0]

theorem swap0_swap0 (k : ℕ) (l : List ℕ) (hk : k < l.length) : swap0 k (swap0 k l) = l := by
  apply List.ext_getElem?
  intro m
  have hk' : k < (swap0 k l).length := by rw [swap0_length]; exact hk
  rw [swap0_get? k _ hk', swap0_get? k l hk, swap0_get? k l hk, swap0_get? k l hk]
  split_ifs <;> simp_all

theorem swap0_set (k : ℕ) (l : List ℕ) (hk : k < l.length) (t : ℕ) :
    swap0 k ((swap0 k l).set 0 t) = l.set k t := by
  apply List.ext_getElem?
  intro m
  have h0 : 0 < l.length := by omega
  have hk' : k < ((swap0 k l).set 0 t).length := by rw [List.length_set, swap0_length]; exact hk
  rw [swap0_get? k _ hk']
  simp only [List.getElem?_set, swap0_length, swap0_get? k l hk]
  by_cases hmk : m = k
  · subst hmk; simp [hk, h0]
  · have : ¬ k = m := fun h => hmk h.symm
    by_cases hm0 : m = 0
    · subst hm0; simp only [this, hmk, if_false, if_true]
    · have : ¬ 0 = m := fun h => hm0 h.symm
      simp [*]

theorem swap0_getD0 (k : ℕ) (l : List ℕ) (hk : k < l.length) : (swap0 k l).getD 0 0 = l.getD k 0 := by
  rw [List.getD_eq_getElem?_getD, swap0_get? k l hk, List.getD_eq_getElem?_getD]
  by_cases h : 0 = k
  · rw [if_pos h, ← h]
  · rw [if_neg h, if_pos rfl]

theorem normAxis_ok {ndim : ℕ} {axis : ℤ} {k : ℕ} :
    normAxis ndim axis = .ok k ↔ k < ndim ∧ (axis = k ∨ axis = (k : ℤ) - ndim) := by
  unfold normAxis
  by_cases h1 : axis < 0
  · simp only [if_pos h1]
    by_cases h2 : 0 ≤ axis + ndim ∧ axis + ndim < ndim
    · rw [if_pos h2]; simp only [Except.ok.injEq]; omega
    · rw [if_neg h2]; simp only [reduceCtorEq, false_iff]; omega
  · simp only [if_neg h1]
    by_cases h2 : 0 ≤ axis ∧ axis < ndim
    · rw [if_pos h2]; simp only [Except.ok.injEq]; omega
    · rw [if_neg h2]; simp only [reduceCtorEq, false_iff]; omega

theorem normAxis_error {ndim : ℕ} {axis : ℤ} (h : ∀ k, normAxis ndim axis ≠ .ok k) :
    normAxis ndim axis = .error .axisError := by
  unfold normAxis at *
  simp only at *
  split_ifs at * <;> simp_all

/-- what the call does for a valid axis -/
theorem fourierFilterNd_eq (fl : Flags) (f cl ch : ℝ) (ax : ℤ) (x : Tensor ℝ) (k : ℕ)
    (hk : normAxis x.shape.length ax = .ok k) (hf : f ≠ 0) (h0 : x.shape.getD 0 0 ≠ 0) (hn : x.shape.getD k 0 ≠ 0) :
    fourierFilterNd fl f cl ch ax x = (filterAxis0 fl (f / (x.shape.getD 0 0 : ℕ)) cl ch (swapAxes0 k x)).map (swapAxes0 k) := by
  have hkl := (normAxis_ok.mp hk).1
  have hne : x.shape ≠ [] := by intro h; rw [h] at hkl; simp at hkl
  have hs : (swapAxes0 k x).shape.getD 0 0 = x.shape.getD k 0 := swap0_getD0 k x.shape hkl
  have hr : f / (x.shape.getD 0 0 : ℕ) ≠ (0 : ℝ) := div_ne_zero hf (by exact_mod_cast h0)
  unfold fourierFilterNd
  simp only [hk, if_neg hne, if_neg h0, bind, Except.bind, pure, Except.pure, hs, if_neg hn, if_neg hr]
  cases filterAxis0 fl (f / (x.shape.getD 0 0 : ℕ)) cl ch (swapAxes0 k x) <;> rfl

end Verif.Lemmas

namespace Verif.Props
open Verif.Model Verif.Spec Verif.Lemmas

/-- The frequency that makes `filterRes`'s resolution that of a line of `n` samples. -/
theorem filterRes_eq_fourierFilter {n : ℕ} [NeZero n] (fl : Flags) (r cl ch : ℝ) (x : ZMod n → ℝ) :
    filterRes fl r cl ch x = fourierFilter fl (r * n) cl ch x := by
  unfold fourierFilter
  rw [mul_div_assoc, div_self (by exact_mod_cast NeZero.ne n), mul_one]

theorem filterAxis0_ok {n : ℕ} [NeZero n] (fl : Flags) (r cl ch : ℝ) (s : Tensor ℝ) (h : s.shape.getD 0 0 = n) :
    filterAxis0 fl r cl ch s = .ok ⟨s.shape, fun i =>
      fourierFilter fl (r * n) cl ch (fun t : ZMod n => s.get (i.set 0 t.val)) (i.getD 0 0 : ℕ)⟩ := by
  subst h
  unfold filterAxis0
  rw [dif_neg (NeZero.ne _)]
  simp only [filterRes_eq_fourierFilter]

/-- **C108.** For every array of any number of dimensions, non-zero frequency and axis `k` (given as `k` or `k - ndim`) with samples
along it: the call succeeds, keeps the shape, and the value at each position is the one-dimensional filter applied to the series
through that position along axis `k`. The series are independent of each other. The sample frequency in effect is the given one
times `len(axis k) / len(axis 0)`. -/
theorem C108_lines (fl : Flags) (f cl ch : ℝ) (ax : ℤ) (x : Tensor ℝ) (k n : ℕ) [NeZero n]
    (hk : k < x.shape.length) (hax : ax = k ∨ ax = (k : ℤ) - x.shape.length) (hf : f ≠ 0)
    (h0 : x.shape.getD 0 0 ≠ 0) (hn : x.shape.getD k 0 = n) :
    ∃ r, fourierFilterNd fl f cl ch ax x = .ok r ∧ r.shape = x.shape ∧
      ∀ i, Tensor.InBounds x.shape i →
        r.get i = fourierFilter fl (f * n / (x.shape.getD 0 0 : ℕ)) cl ch
          (fun t : ZMod n => x.get (i.set k t.val)) (i.getD k 0 : ℕ) := by
  have hnk : x.shape.getD k 0 ≠ 0 := by rw [hn]; exact NeZero.ne n
  have hs : (swapAxes0 k x).shape.getD 0 0 = n := by rw [← hn]; exact swap0_getD0 k x.shape hk
  rw [fourierFilterNd_eq fl f cl ch ax x k (normAxis_ok.mpr ⟨hk, hax⟩) hf h0 hnk]
  rw [filterAxis0_ok fl _ cl ch _ hs]
  refine ⟨_, rfl, swap0_swap0 k x.shape hk, ?_⟩
  intro i hi
  have hil : k < i.length := by rw [hi.length_eq]; exact hk
  simp only [swapAxes0, swap0_set k i hil, swap0_getD0 k i hil]
  rw [div_mul_eq_mul_div]

/-- **C108, errors.** An axis outside `-ndim .. ndim-1` raises AxisError. -/
theorem C108_bad_axis (fl : Flags) (f cl ch : ℝ) (ax : ℤ) (x : Tensor ℝ) (hne : x.shape ≠ []) (h0 : x.shape.getD 0 0 ≠ 0)
    (hax : ax < -(x.shape.length : ℤ) ∨ (x.shape.length : ℤ) ≤ ax) :
    fourierFilterNd fl f cl ch ax x = .error .axisError := by
  have : normAxis x.shape.length ax = .error .axisError := by
    apply normAxis_error
    intro k hk
    have := normAxis_ok.mp hk
    omega
  unfold fourierFilterNd
  simp only [this, if_neg hne, if_neg h0, bind, Except.bind, pure, Except.pure]

/-- **C108, documented frequency.** Along axis 0, and along any axis as long as axis 0, the sample frequency is the given one. -/
theorem C108_true_frequency (fl : Flags) (f cl ch : ℝ) (ax : ℤ) (x : Tensor ℝ) (k n : ℕ) [NeZero n]
    (hk : k < x.shape.length) (hax : ax = k ∨ ax = (k : ℤ) - x.shape.length) (hf : f ≠ 0)
    (h0 : x.shape.getD 0 0 = n) (hn : x.shape.getD k 0 = n) :
    ∃ r, fourierFilterNd fl f cl ch ax x = .ok r ∧ r.shape = x.shape ∧
      ∀ i, Tensor.InBounds x.shape i →
        r.get i = fourierFilter fl f cl ch (fun t : ZMod n => x.get (i.set k t.val)) (i.getD k 0 : ℕ) := by
  have hn0 : (n : ℝ) ≠ 0 := by exact_mod_cast NeZero.ne n
  obtain ⟨r, h1, h2, h3⟩ := C108_lines fl f cl ch ax x k n hk hax hf (by rw [h0]; exact NeZero.ne n) hn
  refine ⟨r, h1, h2, fun i hi => ?_⟩
  rw [h3 i hi, h0, mul_div_assoc, div_self hn0, mul_one]

/-- a 4×3×4 array filtered along its last axis -/
example : ∃ r, fourierFilterNd { lowPass := true } 12 3 0 (-1) ⟨[4, 3, 4], fun i => (i.sum : ℝ)⟩ = .ok r ∧ r.shape = [4, 3, 4] ∧
    r.get [1, 2, 3] = fourierFilter { lowPass := true } 12 3 0 (fun t : ZMod 4 => ((1 + (2 + t.val) : ℕ) : ℝ)) (3 : ℕ) := by
  obtain ⟨r, h1, h2, h3⟩ := C108_true_frequency { lowPass := true } 12 3 0 (-1) ⟨[4, 3, 4], fun i => (i.sum : ℝ)⟩ 2 4
    (by simp) (Or.inr (by simp)) (by norm_num) (by simp) (by simp)
  refine ⟨r, h1, h2, ?_⟩
  have := h3 [1, 2, 3] (by simp [Tensor.InBounds])
  simpa using this

/-! ### C109 -/

/-- **C109** (partial). If the time axis is as long as axis 0, a DataArray gives a DataArray with the same dimensions, coordinates and
name, whose data are those of the numpy call; the attributes are dropped. Missing: other time axes, for which the call fails
(`C109_counterexample`), and the attributes (`C109_attrs_dropped`). -/
theorem C109_container_partial {κ : Type} (fl : Flags) (f cl ch : ℝ) (ax : ℤ) (x : SignalDA κ) (k : ℕ)
    (hk : k < x.data.shape.length) (hax : ax = k ∨ ax = (k : ℤ) - x.data.shape.length) (hf : f ≠ 0)
    (h0 : x.data.shape.getD 0 0 ≠ 0) (hsq : x.data.shape.getD k 0 = x.data.shape.getD 0 0) :
    ∃ r d, fourierFilterDA fl f cl ch ax x = .ok r ∧ fourierFilterNd fl f cl ch ax x.data = .ok d ∧ r.data = d ∧
      r.dims = x.dims ∧ r.coords = x.coords ∧ r.name = x.name ∧ d.shape = x.data.shape := by
  haveI : NeZero (x.data.shape.getD 0 0) := ⟨h0⟩
  obtain ⟨d, h1, h2, -⟩ := C108_true_frequency fl f cl ch ax x.data k _ hk hax hf rfl hsq
  have hsw : swap0 k x.data.shape = x.data.shape := by
    apply List.ext_getElem?
    intro m
    have h0' : 0 < x.data.shape.length := by omega
    have he : x.data.shape[k]? = x.data.shape[0]? := by
      rw [List.getD_eq_getElem?_getD, List.getD_eq_getElem?_getD, List.getElem?_eq_getElem hk,
        List.getElem?_eq_getElem h0'] at hsq
      rw [List.getElem?_eq_getElem hk, List.getElem?_eq_getElem h0']
      simpa using hsq
    rw [swap0_get? k _ hk]
    split_ifs with ha hb
    · rw [ha, he]
    · rw [hb, he]
    · rfl
  refine ⟨{ x with data := d, attrs := fun _ => none }, d, ?_, h1, rfl, rfl, rfl, rfl, h2⟩
  unfold fourierFilterDA
  simp only [h1, normAxis_ok.mpr ⟨hk, hax⟩, bind, Except.bind, pure, Except.pure, swapAxes0, hsw, h2]
  simp

/-- **C109, exact condition.** With a time axis of another length than axis 0 the call raises ValueError. -/
theorem C109_value_error {κ : Type} (fl : Flags) (f cl ch : ℝ) (ax : ℤ) (x : SignalDA κ) (k : ℕ)
    (hk : k < x.data.shape.length) (hax : ax = k ∨ ax = (k : ℤ) - x.data.shape.length) (hf : f ≠ 0)
    (h0 : x.data.shape.getD 0 0 ≠ 0) (hn : x.data.shape.getD k 0 ≠ 0)
    (hsq : x.data.shape.getD k 0 ≠ x.data.shape.getD 0 0) :
    fourierFilterDA fl f cl ch ax x = .error .valueError := by
  haveI : NeZero (x.data.shape.getD k 0) := ⟨hn⟩
  obtain ⟨d, h1, h2, -⟩ := C108_lines fl f cl ch ax x.data k _ hk hax hf h0 rfl
  have hsw : x.data.shape ≠ swap0 k x.data.shape := by
    intro h
    apply hsq
    rw [← swap0_getD0 k x.data.shape hk, ← h]
  unfold fourierFilterDA
  simp only [h1, normAxis_ok.mpr ⟨hk, hax⟩, bind, Except.bind, pure, Except.pure, swapAxes0, h2]
  rw [if_pos hsw]
  rfl

/-- **C109 counterexample.** A 2×3 DataArray cannot be filtered along its second dimension, although the numpy call works. -/
theorem C109_counterexample :
    ∃ (x : SignalDA Unit) (d : Tensor ℝ), fourierFilterNd { lowPass := true } 1 1 0 1 x.data = .ok d ∧
      fourierFilterDA { lowPass := true } 1 1 0 1 x = .error .valueError := by
  haveI : NeZero 3 := ⟨by norm_num⟩
  obtain ⟨d, h1, -, -⟩ := C108_lines { lowPass := true } 1 1 0 1 ⟨[2, 3], fun i => (i.sum : ℝ)⟩ 1 3
    (by simp) (Or.inl (by simp)) (by norm_num) (by simp) (by simp)
  exact ⟨⟨⟨[2, 3], fun i => (i.sum : ℝ)⟩, ["lat", "time"], (), none, fun _ => none⟩, d, h1,
    C109_value_error _ _ _ _ _ _ 1 (by simp) (Or.inl (by simp)) (by norm_num) (by simp) (by simp) (by simp)⟩

/-- **C109, attributes.** Whatever the input's attributes, the result has none, even for a one-dimensional signal. -/
theorem C109_attrs_dropped {κ : Type} (fl : Flags) (f cl ch : ℝ) (ax : ℤ) (x r : SignalDA κ)
    (h : fourierFilterDA fl f cl ch ax x = .ok r) : ∀ key, r.attrs key = none := by
  unfold fourierFilterDA at h
  cases h1 : fourierFilterNd fl f cl ch ax x.data with
  | error e => rw [h1] at h; cases h
  | ok d =>
    cases h2 : normAxis x.data.shape.length ax with
    | error e => simp only [h1, h2, bind, Except.bind] at h; cases h
    | ok k =>
      simp only [h1, h2, bind, Except.bind, pure, Except.pure] at h
      split_ifs at h
      · injection h with h
        subst h
        intro key; rfl

/-- a one-dimensional DataArray with units loses them -/
example : ∃ r, fourierFilterDA { lowPass := true } 4 1 0 0
      (⟨⟨[4], fun i => (i.sum : ℝ)⟩, ["time"], (), some "u", fun k => if k = "units" then some "m/s" else none⟩ : SignalDA Unit)
      = .ok r ∧ r.dims = ["time"] ∧ r.name = some "u" ∧ r.attrs "units" = none := by
  obtain ⟨r, d, h1, -, -, h2, -, h3, -⟩ := C109_container_partial { lowPass := true } 4 1 0 0
    (⟨⟨[4], fun i => (i.sum : ℝ)⟩, ["time"], (), some "u", fun k => if k = "units" then some "m/s" else none⟩ : SignalDA Unit) 0
    (by simp) (Or.inl (by simp)) (by norm_num) (by simp) (by simp)
  exact ⟨r, h1, h2, h3, C109_attrs_dropped _ _ _ _ _ _ _ h1 _⟩

end Verif.Props
