import Verif.Props.FourierNd
import Verif.Props.Fourier
import Verif.Props.MultidimLinear

/-
Property C204: filtering in time and interpolation in space can be done in either order.
-/

set_option linter.unusedSectionVars false
namespace Verif.Props
open Model Spec Lemmas

namespace FilterField

/-- real data on a latitude-longitude grid, with the dimensions before them in front -/
noncomputable def onGrid (lead nlat nlon : ℕ) (y x : ℕ → ℝ) (data : Tensor ℝ) : GeoGrid ℝ where
  lead := lead
  nlat := nlat
  nlon := nlon
  lat := column nlat y
  lon := column nlon x
  get := fun t i j => .fin (data.get (t ++ [i, j]))

/-- the values of a field over the leading shape `ls` are the numbers of an array -/
def Holds (ls : List ℕ) (nlat nlon : ℕ) (g : GeoGrid ℝ) (z : Tensor ℝ) : Prop :=
  z.shape = ls ++ [nlat, nlon] ∧ ∀ t i j, Tensor.InBounds ls t → i < nlat → j < nlon → g.get t i j = .fin (z.get (t ++ [i, j]))

/-- the filter as a weighted sum of the samples -/
theorem kernel {n : ℕ} [NeZero n] (fl : Flags) (f cl ch : ℝ) (hf : 0 < f) (h1 : 0 ≤ cl) (h2 : 0 ≤ ch) (t : ZMod n) :
    ∃ H : ZMod n → ℝ, ∀ x : ZMod n → ℝ, fourierFilter fl f cl ch x t = ∑ s, H s * x s := by
  let F : (ZMod n → ℝ) →ₗ[ℝ] ℝ :=
    { toFun := fun x => fourierFilter fl f cl ch x t
      map_add' := fun x y => by
        have h := congrFun (C30_linear fl f cl ch hf h1 h2 1 1 x y) t
        simp only [one_mul] at h
        exact h
      map_smul' := fun a x => by
        have h := congrFun (C30_linear fl f cl ch hf h1 h2 a 0 x x) t
        simp only [zero_mul, add_zero] at h
        exact h }
  refine ⟨fun s => F (fun j => if s = j then 1 else 0), fun x => ?_⟩
  have h := LinearMap.pi_apply_eq_sum_univ F x
  simp only [smul_eq_mul] at h
  refine (show _ = F x from rfl).trans (h.trans (Finset.sum_congr rfl fun s _ => mul_comm _ _))

/-- the value of an interpolation at one point as a function of the field -/
noncomputable def valueAt (m : GridMethod) (fill : Option (XF ℝ)) (nlat : ℕ) (y : ℕ → ℝ) (N : ℕ) (X : ℕ → ℝ) (col : ℕ → ℕ) (p q : ℝ) (u : ℕ → ℕ → ℝ) : XF ℝ :=
  interpAxis m fill (column nlat y) (column nlat (rowAt m fill N X (fun r c => .fin (u r (col c))) q)) p

section
variable (m : GridMethod) (fill : Option (XF ℝ)) (hfill : fill = none ∨ fill = some .nan) (nlat : ℕ) (y : ℕ → ℝ) (N : ℕ) (X : ℕ → ℝ) (col : ℕ → ℕ)
  (hnl : 2 ≤ nlat) (hy : IncAxis nlat y) (hN : 2 ≤ N) (hX : IncAxis N X) (nlon : ℕ) (hcol : ∀ c < N, col c < nlon) (p q : ℝ)
include hfill hnl hy hN hX hcol

theorem valueAt_linear (a b : ℝ) (u v w : ℕ → ℕ → ℝ) (h : ∀ r < nlat, ∀ c < nlon, w r c = a * u r c + b * v r c) :
    valueAt m fill nlat y N X col p q w = .fin a * valueAt m fill nlat y N X col p q u + .fin b * valueAt m fill nlat y N X col p q v := by
  refine (axis_combined a b m fill hfill nlat hnl y hy p _ _ _ fun r hr => ?_).2.2
  refine axis_combined a b m fill hfill N hN X hX q _ _ _ fun c hc => ⟨Or.inr ⟨_, rfl⟩, Or.inr ⟨_, rfl⟩, ?_⟩
  show XF.fin (w r (col c)) = .fin a * .fin (u r (col c)) + .fin b * .fin (v r (col c))
  rw [h r hr _ (hcol c hc)]
  rfl

theorem valueAt_sum {ι : Type} [DecidableEq ι] (S : Finset ι) (H : ι → ℝ) (u : ι → ℕ → ℕ → ℝ) (z : ι → ℝ) (s0 : ι)
    (hz : ∀ s, valueAt m fill nlat y N X col p q (u s) = .fin (z s)) (w : ℕ → ℕ → ℝ)
    (hw : ∀ r < nlat, ∀ c < nlon, w r c = ∑ s ∈ S, H s * u s r c) :
    valueAt m fill nlat y N X col p q w = .fin (∑ s ∈ S, H s * z s) := by
  induction S using Finset.induction_on generalizing w with
  | empty =>
    rw [valueAt_linear m fill hfill nlat y N X col hnl hy hN hX nlon hcol p q 0 0 (u s0) (u s0) w fun r hr c hc => by
      rw [hw r hr c hc]; simp, hz]
    simp
  | insert a T ha ih =>
    have hT := ih (fun r c => ∑ s ∈ T, H s * u s r c) fun r _ c _ => rfl
    rw [valueAt_linear m fill hfill nlat y N X col hnl hy hN hX nlon hcol p q (H a) 1 (u a) (fun r c => ∑ s ∈ T, H s * u s r c) w fun r hr c hc => by
      rw [hw r hr c hc, Finset.sum_insert ha, one_mul], hz, hT, Finset.sum_insert ha]
    simp

end

theorem inBounds_append {ls t : List ℕ} (h : Tensor.InBounds ls t) (a b i j : ℕ) (hi : i < a) (hj : j < b) :
    Tensor.InBounds (ls ++ [a, b]) (t ++ [i, j]) :=
  List.rel_append h (.cons hi (.cons hj .nil))

theorem inBounds_set {ls t : List ℕ} (h : Tensor.InBounds ls t) (k s : ℕ) (hs : s < ls.getD k 0) : Tensor.InBounds ls (t.set k s) := by
  unfold Tensor.InBounds at *
  induction h generalizing k with
  | nil => simp at hs
  | cons h1 _ ih =>
    cases k with
    | zero => exact .cons (by simpa using hs) (by assumption)
    | succ k => exact .cons h1 (ih k (by simpa using hs))

theorem getD_append {l : List ℕ} (l' : List ℕ) {k : ℕ} (h : k < l.length) : (l ++ l').getD k 0 = l.getD k 0 := by
  rw [List.getD_eq_getElem?_getD, List.getD_eq_getElem?_getD, List.getElem?_append_left h]

/-- the filter on an array of this kind -/
theorem filter_lines (fl : Flags) (f cl ch : ℝ) (hf : 0 < f) (ls : List ℕ) (k : ℕ) (hk : k < ls.length) (n : ℕ) [NeZero n] (hkn : ls.getD k 0 = n)
    (h00 : ls.getD 0 0 ≠ 0) (ax : ℤ) (hax : ax = k ∨ ax = (k : ℤ) - (ls.length + 2)) (a b : ℕ) (w : Tensor ℝ) (hw : w.shape = ls ++ [a, b]) :
    ∃ r, fourierFilterNd fl f cl ch ax w = .ok r ∧ r.shape = w.shape ∧
      ∀ t i j, Tensor.InBounds ls t → i < a → j < b → r.get (t ++ [i, j]) =
        fourierFilter fl (f * n / (ls.getD 0 0 : ℕ)) cl ch (fun s : ZMod n => w.get (t.set k s.val ++ [i, j])) (t.getD k 0 : ℕ) := by
  have e0 : w.shape.getD 0 0 = ls.getD 0 0 := by
    rw [hw]; exact getD_append _ (by omega)
  have ek : w.shape.getD k 0 = n := by
    rw [hw, ← hkn]; exact getD_append _ hk
  obtain ⟨r, r1, r2, r3⟩ := C108_lines fl f cl ch ax w k n (by rw [hw]; simp; omega)
    (by rw [hw]; simpa using hax) hf.ne' (by rw [e0]; exact h00) ek
  refine ⟨r, r1, r2, fun t i j ht hi hj => ?_⟩
  have hlen : k < t.length := by rw [List.Forall₂.length_eq ht]; exact hk
  have := r3 (t ++ [i, j]) (by rw [hw]; exact inBounds_append ht a b i j hi hj)
  rw [e0, getD_append _ hlen] at this
  rw [this]
  congr 1
  funext s
  rw [List.set_append_left _ _ hlen]

/-- within the axis, or with extrapolation, numbers are interpolated to numbers -/
theorem interpAxis_number (m : GridMethod) (fill : Option (XF ℝ)) (n : ℕ) (hn : 2 ≤ n) (x : ℕ → ℝ) (h : IncAxis n x) (q : ℝ)
    (hq : fill = none ∨ x 0 ≤ q ∧ q ≤ x (n - 1)) (u : ℕ → XF ℝ) (hu : ∀ k < n, ∃ a, u k = .fin a) :
    ∃ a, interpAxis m fill (column n x) (column n u) q = .fin a := by
  have e : interpAxis m fill (column n x) (column n u) q = interpAxis m none (column n x) (column n u) q := by
    rcases hq with rfl | hq
    · rfl
    · obtain ⟨e1, e2⟩ := sortPairs_inc n x u h
      unfold interpAxis
      simp only [e1, e2]
      cases fill with
      | none => rfl
      | some f =>
        simp only
        rw [column_headD n x 0 (by omega), column_getLastD n x 0 (by omega), if_neg (by rintro (hc | hc) <;> linarith [hq.1, hq.2])]
  rw [e]
  rcases interpAxis_form m none n hn x h q with ⟨f, hf, -⟩ | ⟨k, hk, hv⟩ | ⟨k, hk, -, hv⟩
  · cases hf
  · rw [hv]; exact hu k hk
  · rw [hv]
    obtain ⟨a, ha⟩ := hu k (by omega)
    obtain ⟨b, hb⟩ := hu (k + 1) hk
    rw [ha, hb, seg_fin _ _ _ _ _ (h k (k + 1) (by omega) hk)]
    exact ⟨_, rfl⟩

end FilterField

open FilterField

/-- **C204.** Filtering data on a latitude-longitude grid along one of their other dimensions and interpolating them can be
done in either order: `coarse` is the interpolated field, `both` the field filtered first and interpolated then. Where the
interpolation gives numbers `z`, filtering these gives `both`. For every filter, leading shape, axis, method, and with
extrapolation or the default fill value. -/
theorem C204_either_order (fl : Flags) (f cl ch : ℝ) (hf : 0 < f) (h1 : 0 ≤ cl) (h2 : 0 ≤ ch) (ls : List ℕ) (k : ℕ) (hk : k < ls.length)
    (hk0 : ls.getD k 0 ≠ 0) (h00 : ls.getD 0 0 ≠ 0) (nlat nlon : ℕ) (hnl : 2 ≤ nlat) (hnn : 2 ≤ nlon) (y x : ℕ → ℝ) (hy : IncAxis nlat y)
    (hx : IncAxis nlon x) (ax : ℤ) (hax : ax = k ∨ ax = (k : ℤ) - (ls.length + 2)) (data : Tensor ℝ) (hd : data.shape = ls ++ [nlat, nlon])
    (latOut lonOut : List ℝ) (m : GridMethod) (fill : Option (XF ℝ)) (hfill : fill = none ∨ fill = some .nan) :
    ∃ filtered coarse both, fourierFilterNd fl f cl ch ax data = .ok filtered ∧ filtered.shape = data.shape ∧
      interpMultidim (.xr (onGrid ls.length nlat nlon y x data)) latOut lonOut false none m fill = .ok (.dataArray, coarse) ∧
      interpMultidim (.xr (onGrid ls.length nlat nlon y x filtered)) latOut lonOut false none m fill = .ok (.dataArray, both) ∧
      ∀ z, Holds ls latOut.length lonOut.length coarse z →
        ∃ r, fourierFilterNd fl f cl ch ax z = .ok r ∧ Holds ls latOut.length lonOut.length both r := by
  obtain ⟨n, hkn⟩ : ∃ n, ls.getD k 0 = n := ⟨_, rfl⟩
  have : NeZero n := ⟨hkn ▸ hk0⟩
  obtain ⟨filtered, s1, s2, s3⟩ := filter_lines fl f cl ch hf ls k hk n hkn h00 ax hax nlat nlon data hd
  have hA : ∀ w : Tensor ℝ, OnAxes (onGrid ls.length nlat nlon y x w) y x := fun w => ⟨rfl, rfl, hy, hx, hnl, by show 1 ≤ nlon; omega⟩
  obtain ⟨N, X, col, hN, hX, hcol, hall⟩ := result_form false (onGrid ls.length nlat nlon y x data) y x (hA data) (by simpa [LonFits, onGrid] using hnn) latOut lonOut m fill
  obtain ⟨coarse, c1, c2⟩ := hall (onGrid ls.length nlat nlon y x data) rfl rfl rfl (hA data)
  obtain ⟨both, b1, b2⟩ := hall (onGrid ls.length nlat nlon y x filtered) rfl rfl rfl (hA filtered)
  refine ⟨filtered, coarse, both, s1, s2, c1, b1, fun z ⟨hz, hzv⟩ => ?_⟩
  obtain ⟨r, r1, r2, r3⟩ := filter_lines fl f cl ch hf ls k hk n hkn h00 ax hax _ _ z hz
  refine ⟨r, r1, r2.trans hz, fun t i j ht hi hj => ?_⟩
  have hp := List.getElem?_eq_getElem hi
  have hq := List.getElem?_eq_getElem hj
  rw [b2 t i j _ _ hp hq, r3 t i j ht hi hj]
  obtain ⟨H, hH⟩ := kernel (n := n) fl (f * n / (ls.getD 0 0 : ℕ)) cl ch
    (div_pos (mul_pos hf (by exact_mod_cast Nat.pos_of_ne_zero (NeZero.ne n))) (by exact_mod_cast Nat.pos_of_ne_zero h00)) h1 h2 (t.getD k 0 : ℕ)
  rw [hH]
  show valueAt m fill nlat y N X col latOut[i] lonOut[j] (fun r c => filtered.get (t ++ [r, c])) = _
  refine valueAt_sum m fill hfill nlat y N X col hnl hy hN hX nlon hcol _ _ Finset.univ H
    (fun s r c => data.get (t.set k s.val ++ [r, c])) (fun s => z.get (t.set k s.val ++ [i, j])) 0 (fun s => ?_) _ fun r hr c hc => ?_
  · have hb := inBounds_set ht k s.val (by rw [hkn]; exact ZMod.val_lt s)
    rw [← hzv _ i j hb hi hj, c2 _ i j _ _ hp hq]
    rfl
  · rw [s3 t r c ht hr hc, hH]

/-- **C204.** At points within the grid, or anywhere with extrapolation, the interpolated field consists of numbers, so that
`C204_either_order` applies to it. -/
theorem C204_numbers (ls : List ℕ) (nlat nlon : ℕ) (hnl : 2 ≤ nlat) (hnn : 2 ≤ nlon) (y x : ℕ → ℝ) (hy : IncAxis nlat y) (hx : IncAxis nlon x)
    (data : Tensor ℝ) (latOut lonOut : List ℝ) (m : GridMethod) (fill : Option (XF ℝ))
    (hw : fill = none ∨ (∀ p ∈ latOut, y 0 ≤ p ∧ p ≤ y (nlat - 1)) ∧ ∀ q ∈ lonOut, x 0 ≤ q ∧ q ≤ x (nlon - 1)) :
    ∃ coarse z, interpMultidim (.xr (onGrid ls.length nlat nlon y x data)) latOut lonOut false none m fill = .ok (.dataArray, coarse) ∧
      Holds ls latOut.length lonOut.length coarse z := by
  obtain ⟨coarse, c1, -, -, -, -, -, c2⟩ := plain_eq (onGrid ls.length nlat nlon y x data) y x ⟨rfl, rfl, hy, hx, hnl, by show 1 ≤ nlon; omega⟩ latOut lonOut none m fill
  have num : ∀ t i j, i < latOut.length → j < lonOut.length → ∃ a, coarse.get t i j = .fin a := by
    intro t i j hi hj
    rw [c2 t i j _ _ (List.getElem?_eq_getElem hi) (List.getElem?_eq_getElem hj)]
    refine interpAxis_number m fill nlat hnl y hy _ (hw.imp id fun h => h.1 _ (List.getElem_mem hi)) _ fun r _ => ?_
    exact interpAxis_number m fill nlon hnn x hx _ (hw.imp id fun h => h.2 _ (List.getElem_mem hj)) _ fun c _ => ⟨_, rfl⟩
  let num' : List ℕ → ℝ := fun idx => match coarse.get (idx.take ls.length) (idx.getD ls.length 0) (idx.getD (ls.length + 1) 0) with
    | .fin a => a
    | _ => 0
  refine ⟨coarse, ⟨ls ++ [latOut.length, lonOut.length], num'⟩, c1, rfl, fun t i j ht hi hj => ?_⟩
  obtain ⟨a, ha⟩ := num t i j hi hj
  have hl : t.length = ls.length := List.Forall₂.length_eq ht
  have e : num' (t ++ [i, j]) = a := by
    simp only [num']
    rw [← hl]
    have e1 : (t ++ [i, j]).take t.length = t := by simp
    have e2 : (t ++ [i, j]).getD t.length 0 = i := by simp [List.getD_eq_getElem?_getD]
    have e3 : (t ++ [i, j]).getD (t.length + 1) 0 = j := by simp [List.getD_eq_getElem?_getD]
    rw [e1, e2, e3, ha]
  rw [ha]
  exact congrArg XF.fin e.symm

/-- eight times on a grid of 2 by 3 points; low-pass filtered and interpolated between them -/
example : ∃ filtered coarse both z r,
    fourierFilterNd { lowPass := true } 8 2 0 0 ⟨[8] ++ [2, 3], fun i => (i.getD 0 0 : ℝ) ^ 2 + i.getD 2 0⟩ = .ok filtered ∧
    interpMultidim (.xr (onGrid 1 2 3 (fun i => i) (fun j => j) ⟨[8] ++ [2, 3], fun i => (i.getD 0 0 : ℝ) ^ 2 + i.getD 2 0⟩)) [1 / 2] [1 / 3, 3 / 2] false none .linear (some .nan)
      = .ok (.dataArray, coarse) ∧
    interpMultidim (.xr (onGrid 1 2 3 (fun i => i) (fun j => j) filtered)) [1 / 2] [1 / 3, 3 / 2] false none .linear (some .nan) = .ok (.dataArray, both) ∧
    Holds [8] 1 2 coarse z ∧ fourierFilterNd { lowPass := true } 8 2 0 0 z = .ok r ∧ Holds [8] 1 2 both r := by
  have inc : ∀ n, IncAxis n (fun i : ℕ => (i : ℝ)) := fun n i j hij _ => Nat.cast_lt.mpr hij
  obtain ⟨filtered, coarse, both, h1, -, h2, h3, h4⟩ := C204_either_order { lowPass := true } 8 2 0 (by norm_num) (by norm_num) le_rfl [8] 0 (by simp) (by simp) (by simp)
    2 3 le_rfl (by norm_num) (fun i => i) (fun j => j) (inc 2) (inc 3) 0 (Or.inl rfl) ⟨[8] ++ [2, 3], fun i => (i.getD 0 0 : ℝ) ^ 2 + i.getD 2 0⟩ rfl
    [1 / 2] [1 / 3, 3 / 2] .linear (some .nan) (Or.inr rfl)
  obtain ⟨coarse', z, g1, g2⟩ := C204_numbers [8] 2 3 le_rfl (by norm_num) (fun i => i) (fun j => j) (inc 2) (inc 3) ⟨[8] ++ [2, 3], fun i => (i.getD 0 0 : ℝ) ^ 2 + i.getD 2 0⟩
    [1 / 2] [1 / 3, 3 / 2] .linear (some .nan) (Or.inr (by norm_num))
  have e : coarse' = coarse := by
    have := g1.symm.trans h2
    injection this with this
    injection this
  subst e
  obtain ⟨r, h5, h6⟩ := h4 z g2
  exact ⟨filtered, coarse', both, z, r, h1, h2, h3, g2, h5, h6⟩

end Verif.Props
