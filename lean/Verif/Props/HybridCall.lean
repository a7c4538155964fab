import Verif.Model.HybridCall
import Verif.Props.Hybrid
import Mathlib.Data.List.Nodup
import Mathlib.Tactic.Ring
import Mathlib.Algebra.Order.Field.Rat

/-
C08, C10 for whole calls; C120: the layers of `delta_pressure_hybrid` whatever the containers and the coordinates of the coefficients.
-/

set_option linter.unusedSectionVars false
namespace Verif.Props
open Model Lemmas
variable {K : Type _} [Field K] [LinearOrder K] [IsStrictOrderedRing K]

/-! ### C08 -/

/-- `C08`, arguments of the whole call: anything but three numpy arrays or three DataArrays is a TypeError -/
theorem C08_call_types (psfc hya hyb : HArg K) (p0 : K)
    (h : ¬ ((∃ p a b, psfc = .np p ∧ hya = .np a ∧ hyb = .np b) ∨ (∃ p a b, psfc = .da p ∧ hya = .da a ∧ hyb = .da b))) :
    pressureAtHybridLevels psfc hya hyb p0 = .error .typeError := by
  unfold pressureAtHybridLevels
  have key : hybridTypeCheck psfc.ty hya.ty hyb.ty = .error .typeError ∨ hybridTypeCheck psfc.ty hya.ty hyb.ty = .ok () := by
    generalize psfc.ty = x
    generalize hya.ty = y
    generalize hyb.ty = z
    revert x y z
    intro x y z
    cases x <;> cases y <;> cases z <;> decide
  rcases key with hk | hk
  · rw [hk]; rfl
  · rw [hk]
    simp only [bind, Except.bind]
    split
    · exact absurd (.inl ⟨_, _, _, rfl, rfl, rfl⟩) h
    · exact absurd (.inr ⟨_, _, _, rfl, rfl, rfl⟩) h
    · rfl

/-- `C08`, numpy, whole call: ValueError exactly for coefficients of different shapes or of more than one dimension, otherwise the formula -/
theorem C08_call_numpy (psfc hya hyb : Tensor K) (p0 : K) (ny nx : ℕ) (hp : psfc.shape = [ny, nx]) (ha : hya.shape ≠ []) :
    ((hya.shape ≠ hyb.shape ∨ 1 < hya.shape.length) → pressureAtHybridLevels (.np psfc) (.np hya) (.np hyb) p0 = .error .valueError) ∧
    (¬ (hya.shape ≠ hyb.shape ∨ 1 < hya.shape.length) → ∃ n r, hya.shape = [n] ∧
      pressureAtHybridLevels (.np psfc) (.np hya) (.np hyb) p0 = .ok (.np r) ∧ r.shape = [n, ny, nx] ∧
      ∀ k y x, k < n → y < ny → x < nx → r.get [k, y, x] = hya.get [k] * p0 + hyb.get [k] * psfc.get [y, x]) := by
  obtain ⟨h1, h2, h3⟩ := C08_numpy psfc hya hyb p0 ny nx hp ha
  have hrun : pressureAtHybridLevels (.np psfc) (.np hya) (.np hyb) p0 = (pressureNp psfc hya hyb p0).map .np := by
    unfold pressureAtHybridLevels
    have : hybridTypeCheck (HArg.np psfc).ty (HArg.np hya).ty (HArg.np hyb).ty = .ok () := rfl
    rw [this]
    simp only [bind, Except.bind]
    cases pressureNp psfc hya hyb p0 <;> rfl
  constructor
  · intro h
    rw [hrun, h1 h]; rfl
  · intro h
    obtain ⟨n, ha', hb'⟩ := h3 h
    obtain ⟨r, hr, hs, hv⟩ := h2 n ha' hb'
    exact ⟨n, r, ha', by rw [hrun, hr]; rfl, hs, hv⟩

/-- `C08`, xarray, whole call -/
theorem C08_call_xarray (psfc : LArr K) (d e : String) (n : ℕ) (a b : ℕ → K) (p0 : K) (hd : d ∉ psfc.dims) (hw : psfc.WF) :
    ∃ r, pressureAtHybridLevels (.da psfc) (.da (vec d n a)) (.da (vec e n b)) p0 = .ok (.da r) ∧ r.dims = d :: psfc.dims ∧
      r.size d = n ∧ (∀ f ∈ psfc.dims, r.size f = psfc.size f) ∧ ∀ i, r.get i = a (i d) * p0 + b (i d) * psfc.get i := by
  obtain ⟨r, h1, h2⟩ := C08_xarray psfc d e n a b p0 hd hw
  refine ⟨r, ?_, h2⟩
  unfold pressureAtHybridLevels
  have : hybridTypeCheck (HArg.da psfc).ty (HArg.da (vec d n a)).ty (HArg.da (vec e n b)).ty = .ok () := rfl
  rw [this]
  simp only [bind, Except.bind, h1]
  rfl

/-- `C08`, xarray, whole call: coefficients of different shapes are a ValueError -/
theorem C08_call_shapes (psfc hya hyb : LArr K) (p0 : K) (h : hya.shape ≠ hyb.shape) :
    pressureAtHybridLevels (.da psfc) (.da hya) (.da hyb) p0 = .error .valueError := by
  have h1 : pressureXr psfc hya hyb p0 = .error .valueError := by
    unfold pressureXr
    rw [if_pos h]
    rfl
  unfold pressureAtHybridLevels
  have : hybridTypeCheck (HArg.da psfc).ty (HArg.da hya).ty (HArg.da hyb).ty = .ok () := rfl
  rw [this]
  simp only [bind, Except.bind, h1]

/-- two and three levels -/
example : (vec "lev" 2 (fun _ => (1 : ℚ))).shape ≠ (vec "ilev" 3 (fun _ => (1 : ℚ))).shape := by decide

/-- a DataArray surface pressure with numpy coefficients is rejected -/
example : pressureAtHybridLevels (.da ⟨["lat"], fun _ => 2, fun _ => 1⟩) (.np ⟨[3], fun _ => (1 : ℚ)⟩) (.np ⟨[3], fun _ => 1⟩) 1 = .error .typeError :=
  C08_call_types _ _ _ _ (by
    rintro (⟨p, a, b, h, -⟩ | ⟨p, a, b, -, h, -⟩)
    · cases h
    · cases h)

/-! ### C10 -/

/-- `C10`, arguments of the whole call: TypeError exactly as in `C10_types` -/
theorem C10_call_types (ps hya hyb : HArg K) (tp0 : PyType) (p0 : K)
    (h : ¬ ((ps.ty = .dataArray ∨ ps.ty = .ndarray) ∧ (hya.ty = .dataArray ∨ hya.ty = .ndarray) ∧ hya.ty = hyb.ty ∧ (tp0 = .float ∨ tp0 = .int))) :
    deltaPressureHybrid ps hya hyb tp0 p0 = .error .typeError := by
  have h2 := (C10_types ps.ty hya.ty hyb.ty tp0).2 h
  unfold deltaHybridType at h2
  unfold deltaPressureHybrid
  cases hc : deltaHybridTypeCheck ps.ty hya.ty hyb.ty tp0 with
  | ok u => rw [hc] at h2; cases h2
  | error e =>
    rw [hc] at h2
    injection h2 with h2
    subst h2
    rfl

theorem deltaCheck_ok (ps hya hyb : HArg K) (tp0 : PyType) (h1 : ps.ty = .dataArray ∨ ps.ty = .ndarray)
    (h2 : hya.ty = .dataArray ∨ hya.ty = .ndarray) (h3 : hya.ty = hyb.ty) (h4 : tp0 = .float ∨ tp0 = .int) :
    deltaHybridTypeCheck ps.ty hya.ty hyb.ty tp0 = .ok () := by
  have h := (C10_types ps.ty hya.ty hyb.ty tp0).1 ⟨h1, h2, h3, h4⟩
  unfold deltaHybridType at h
  cases hc : deltaHybridTypeCheck ps.ty hya.ty hyb.ty tp0 with
  | ok u => rfl
  | error e => rw [hc] at h; cases h

/-- `x.shape` of an array argument -/
def harray : HArg K → Option (List ℕ)
  | .np t => some t.shape
  | .da a => some a.shape
  | .other _ => none

/-- `C10`: coefficients of different shapes, or of more than one dimension, are a ValueError, whatever the containers -/
theorem C10_call_shapes (ps hya hyb : HArg K) (tp0 : PyType) (p0 : K) (sa sb : List ℕ) (h1 : ps.ty = .dataArray ∨ ps.ty = .ndarray)
    (h2 : harray hya = some sa) (h3 : harray hyb = some sb) (h4 : hya.ty = hyb.ty) (h5 : tp0 = .float ∨ tp0 = .int)
    (h : sa ≠ sb ∨ 1 < sa.length) : deltaPressureHybrid ps hya hyb tp0 p0 = .error .valueError := by
  have hty : hya.ty = .dataArray ∨ hya.ty = .ndarray := by
    cases hya with
    | np t => exact .inr rfl
    | da a => exact .inl rfl
    | other t => cases h2
  unfold deltaPressureHybrid
  rw [deltaCheck_ok ps hya hyb tp0 h1 hty h4 h5]
  simp only [bind, Except.bind]
  have hnp : ∀ p a b : Tensor K, (a.shape ≠ b.shape ∨ 1 < a.shape.length) → deltaHybridNp p a b p0 = .error .valueError := by
    intro p a b hab
    unfold deltaHybridNp
    by_cases hs : a.shape ≠ b.shape
    · rw [if_pos hs]; rfl
    · rw [if_neg hs, if_pos (hab.resolve_left hs)]; rfl
  have hxr : ∀ p a b : LArr K, (a.shape ≠ b.shape ∨ 1 < a.shape.length) → deltaHybridXr p a b p0 = .error .valueError := by
    intro p a b hab
    unfold deltaHybridXr
    by_cases hs : a.shape ≠ b.shape
    · rw [if_pos hs]; rfl
    · rw [if_neg hs, if_pos (by simpa [LArr.shape] using hab.resolve_left hs)]; rfl
  cases ps with
  | other t => cases t <;> rcases h1 with h1 | h1 <;> cases h1
  | np p =>
    cases hya with
    | other t => cases h2
    | np a =>
      cases hyb with
      | other t => cases h3
      | da b => cases h4
      | np b =>
        injection h2 with h2; injection h3 with h3
        subst h2; subst h3
        simp only [hnp p a b h]
    | da a =>
      cases hyb with
      | other t => cases h3
      | np b => cases h4
      | da b =>
        injection h2 with h2; injection h3 with h3
        subst h2; subst h3
        simp only [hnp p (valuesOf a) (valuesOf b) h]
  | da p =>
    cases hya with
    | other t => cases h2
    | np a =>
      cases hyb with
      | other t => cases h3
      | da b => cases h4
      | np b =>
        injection h2 with h2; injection h3 with h3
        subst h2; subst h3
        by_cases hs : a.shape ≠ b.shape
        · simp only [if_pos hs]; rfl
        · simp only [if_neg hs, if_pos (h.resolve_left hs)]; rfl
    | da a =>
      cases hyb with
      | other t => cases h3
      | np b => cases h4
      | da b =>
        injection h2 with h2; injection h3 with h3
        subst h2; subst h3
        simp only [hxr p a b h]

example : deltaPressureHybrid (.np ⟨[2, 2], fun _ => 1⟩) (.np ⟨[3], fun _ => (1 : ℚ)⟩) (.np ⟨[4], fun _ => 1⟩) .float 1 = .error .valueError :=
  C10_call_shapes _ _ _ _ _ [3] [4] (.inr rfl) rfl rfl rfl (.inl rfl) (.inl (by decide))

/-! ### C120 -/

/-- pressure of level `k` under surface pressure `ps` -/
def levelPressure (p0 : K) (a b : ℕ → K) (ps : K) (k : ℕ) : K := a k * p0 + b k * ps

/-- `C120`, DataArray surface pressure and coefficients: `n - 1` layers over the grid -/
theorem C120_xarray (ps : LArr K) (d e : String) (n : ℕ) (a b : ℕ → K) (tp0 : PyType) (p0 : K) (ht : tp0 = .float ∨ tp0 = .int)
    (hd : d ∉ ps.dims) (hw : ps.WF) :
    ∃ r, deltaPressureHybrid (.da ps) (.da (vec d n a)) (.da (vec e n b)) tp0 p0 = .ok (.da r) ∧ r.dims = d :: ps.dims ∧ r.size d = n - 1 ∧
      ∀ i, r.get i = |levelPressure p0 a b (ps.get i) (i d + 1) - levelPressure p0 a b (ps.get i) (i d)| := by
  obtain ⟨r, p, h1, h2, h3, h4, h5⟩ := C10_layers_xarray ps d e n a b p0 hd hw
  obtain ⟨p', g1, g2, g3, g4, g5⟩ := C08_xarray ps d e n a b p0 hd hw
  rw [h2] at g1
  injection g1 with g1
  subst g1
  refine ⟨r, ?_, h3, h4, fun i => ?_⟩
  · unfold deltaPressureHybrid
    rw [deltaCheck_ok (.da ps) (.da (vec d n a)) (.da (vec e n b)) tp0 (.inl rfl) (.inl rfl) rfl ht]
    simp only [bind, Except.bind, h1]
    rfl
  · rw [(h5 i).1, g5, g5]
    have : ps.get (Function.update i d (i d + 1)) = ps.get i := by
      apply hw
      intro f hf
      rw [Function.update_of_ne]
      exact fun h => hd (h ▸ hf)
    rw [this, Function.update_self]
    rfl

/-- `C120`, part: numpy coefficients with a DataArray surface pressure give the same layers, along a dimension called `dim_0`, unless the
surface pressure has a dimension of that name itself -/
theorem C120_numpy_coefficients_partial (ps : LArr K) (n : ℕ) (hya hyb : Tensor K) (tp0 : PyType) (p0 : K) (ht : tp0 = .float ∨ tp0 = .int)
    (ha : hya.shape = [n]) (hb : hyb.shape = [n]) (hd : "dim_0" ∉ ps.dims) (hw : ps.WF) :
    ∃ r, deltaPressureHybrid (.da ps) (.np hya) (.np hyb) tp0 p0 = .ok (.da r) ∧ r.dims = "dim_0" :: ps.dims ∧ r.size "dim_0" = n - 1 ∧
      ∀ i, r.get i = |levelPressure p0 (fun k => hya.get [k]) (fun k => hyb.get [k]) (ps.get i) (i "dim_0" + 1) -
        levelPressure p0 (fun k => hya.get [k]) (fun k => hyb.get [k]) (ps.get i) (i "dim_0")| := by
  obtain ⟨r, h1, h2⟩ := C120_xarray ps "dim_0" "dim_0" n (fun k => hya.get [k]) (fun k => hyb.get [k]) tp0 p0 ht hd hw
  refine ⟨r, ?_, h2⟩
  rw [← h1]
  unfold deltaPressureHybrid
  rw [deltaCheck_ok (.da ps) (.np hya) (.np hyb) tp0 (.inl rfl) (.inr rfl) rfl ht, deltaCheck_ok (.da ps) (.da (vec "dim_0" n (fun k => hya.get [k]))) (.da (vec "dim_0" n (fun k => hyb.get [k]))) tp0 (.inl rfl) (.inl rfl) rfl ht]
  simp only [bind, Except.bind, ha, hb, ne_eq, not_true_eq_false, if_false, List.length_singleton, lt_irrefl, pure, Except.pure]
  rfl

/-- `C120`: DataArray coefficients with a numpy surface pressure are those of their values -/
theorem C120_xarray_coefficients (ps : Tensor K) (n ny nx : ℕ) (hp : ps.shape = [ny, nx]) (d e : String) (a b : ℕ → K) (tp0 : PyType) (p0 : K)
    (ht : tp0 = .float ∨ tp0 = .int) :
    ∃ r, deltaPressureHybrid (.np ps) (.da (vec d n a)) (.da (vec e n b)) tp0 p0 = .ok (.np r) ∧ r.shape = [n - 1, ny, nx] ∧
      ∀ k y x, k < n - 1 → y < ny → x < nx →
        r.get [k, y, x] = |levelPressure p0 a b (ps.get [y, x]) (k + 1) - levelPressure p0 a b (ps.get [y, x]) k| := by
  have e1 : (valuesOf (vec d n a)).shape = [n] := rfl
  have e2 : (valuesOf (vec e n b)).shape = [n] := rfl
  have v1 : ∀ k, (valuesOf (vec d n a)).get [k] = a k := fun k => by simp [valuesOf, vec]
  have v2 : ∀ k, (valuesOf (vec e n b)).get [k] = b k := fun k => by simp [valuesOf, vec]
  obtain ⟨r, r1, r2, r3⟩ := deltaHybridNp_grid ps _ _ p0 n ny nx hp e1 e2
  refine ⟨r, ?_, r2, fun k y x hk hy hx => ?_⟩
  · unfold deltaPressureHybrid
    rw [deltaCheck_ok (.np ps) (.da (vec d n a)) (.da (vec e n b)) tp0 (.inr rfl) (.inl rfl) rfl ht]
    simp only [bind, Except.bind, r1]
    rfl
  · rw [r3 k y x hk hy hx, v1, v1, v2, v2, abs_sub_comm]
    rfl

/-- `C120`: three numpy arrays -/
theorem C120_numpy (ps : Tensor K) (n ny nx : ℕ) (hp : ps.shape = [ny, nx]) (hya hyb : Tensor K) (ha : hya.shape = [n]) (hb : hyb.shape = [n])
    (tp0 : PyType) (p0 : K) (ht : tp0 = .float ∨ tp0 = .int) :
    ∃ r, deltaPressureHybrid (.np ps) (.np hya) (.np hyb) tp0 p0 = .ok (.np r) ∧ r.shape = [n - 1, ny, nx] ∧
      ∀ k y x, k < n - 1 → y < ny → x < nx →
        r.get [k, y, x] = |levelPressure p0 (fun k => hya.get [k]) (fun k => hyb.get [k]) (ps.get [y, x]) (k + 1) -
          levelPressure p0 (fun k => hya.get [k]) (fun k => hyb.get [k]) (ps.get [y, x]) k| := by
  obtain ⟨r, r1, r2, r3⟩ := deltaHybridNp_grid ps _ _ p0 n ny nx hp ha hb
  refine ⟨r, ?_, r2, fun k y x hk hy hx => ?_⟩
  · unfold deltaPressureHybrid
    rw [deltaCheck_ok (.np ps) (.np hya) (.np hyb) tp0 (.inr rfl) (.inr rfl) rfl ht]
    simp only [bind, Except.bind, r1]
    rfl
  · rw [r3 k y x hk hy hx, abs_sub_comm]
    rfl

/-- `C120` is false for numpy coefficients and a surface pressure with the default dimension names: three levels over a grid of two rows. The
result has no level dimension; row `k` is paired with layer `k`. With any other number of rows the call fails. -/
theorem C120_names_counterexample :
    (∃ r, deltaPressureHybrid (.da ⟨["dim_0", "dim_1"], fun _ => 2, fun _ => (100 : ℚ)⟩) (.np ⟨[3], fun _ => 0⟩)
      (.np ⟨[3], fun i => (i.headD 0 : ℚ)⟩) .float 1 = .ok (.da r) ∧ r.dims = ["dim_0", "dim_1"]) ∧
    deltaPressureHybrid (.da ⟨["dim_0", "dim_1"], fun _ => 5, fun _ => (100 : ℚ)⟩) (.np ⟨[3], fun _ => 0⟩)
      (.np ⟨[3], fun i => (i.headD 0 : ℚ)⟩) .float 1 = .error .valueError := by
  refine ⟨⟨_, rfl, rfl⟩, rfl⟩

/-- identity pairing -/
theorem joinLabels_none (n : ℕ) (y : Option (List K)) : joinLabels n n none y = .ok ((List.range n).map (fun i => (i, i)), y) := by
  unfold joinLabels
  cases y <;> simp

theorem joinLabels_right (n : ℕ) (x : Option (List K)) : joinLabels n n x none = .ok ((List.range n).map (fun i => (i, i)), x) := by
  unfold joinLabels
  cases x <;> simp

theorem joinLabels_same (n : ℕ) (x : Option (List K)) : joinLabels n n x x = .ok ((List.range n).map (fun i => (i, i)), x) := by
  unfold joinLabels
  cases x <;> simp

/-- `C120`, part: coefficients without coordinates, or whose coordinate of the level dimension comes first: one layer between each two
neighbouring levels, and no labels -/
theorem C120_coords_partial (p0 : K) (a b : Coef K) (h : a.n = b.n) (ha : a.dim ∉ a.coords.tail) (hb : b.dim ∉ b.coords.tail) :
    deltaHybridCoords p0 a b = .ok ((List.range (a.n - 1)).map (fun k => fun ps =>
      |levelPressure p0 a.val b.val ps (k + 1) - levelPressure p0 a.val b.val ps k|), none) := by
  unfold deltaHybridCoords
  have e1 : a.keptLabels = none := if_neg ha
  have e2 : b.keptLabels = none := if_neg hb
  rw [e1, e2, if_neg (not_not.mpr h)]
  simp only [cutLabels, Option.map_none, joinLabels_none, bind, Except.bind, pure, Except.pure, List.length_map, List.length_range, List.map_map]
  congr 2
  refine List.map_congr_left fun k hk => ?_
  rw [List.mem_range] at hk
  funext ps
  simp only [Function.comp_apply, List.getD_eq_getElem?_getD, List.getElem?_map, List.getElem?_range hk, Option.map_some, Option.getD_some]
  rw [abs_sub_comm]
  unfold levelPressure
  ring_nf

/-- the positions combined when the labels of `h :: t` without the last are matched with those without the first -/
theorem join_shift (h : K) (t : List K) (hnd : (h :: t).Nodup) :
    ∃ i l, joinLabels t.length t.length (some ((h :: t).take t.length)) (some t) = .ok (i, l) ∧ i.length = t.length - 1 ∧
      ∀ q ∈ i, q.1 = q.2 + 1 ∧ q.1 < t.length := by
  unfold joinLabels
  cases t with
  | nil => exact ⟨[], some [], by simp, rfl, by simp⟩
  | cons g u =>
    have hne : ¬ (h :: g :: u).take (g :: u).length = g :: u := by
      intro he
      rw [List.length_cons, List.take_succ_cons] at he
      injection he with he _
      rw [List.nodup_cons] at hnd
      exact hnd.1 (by rw [he]; simp)
    have hx : ((h :: g :: u).take (g :: u).length).Nodup := hnd.sublist (List.take_sublist _ _)
    have hy : (g :: u).Nodup := (List.nodup_cons.mp hnd).2
    refine ⟨(((h :: g :: u).take (g :: u).length).filter (fun l => decide (l ∈ g :: u))).map (fun l =>
        (((h :: g :: u).take (g :: u).length).idxOf l, (g :: u).idxOf l)), some (((h :: g :: u).take (g :: u).length).filter (fun l => decide (l ∈ g :: u))), ?_, ?_, ?_⟩
    · dsimp only
      rw [if_neg hne, if_neg (not_not.mpr ⟨hx, hy⟩)]
    · rw [List.length_map, List.length_cons, List.take_succ_cons, List.filter_cons_of_neg]
      · rw [List.filter_eq_self.mpr]
        · simp
        · intro l hl
          rw [decide_eq_true_iff]
          exact List.mem_of_mem_take hl
      · rw [decide_eq_true_iff]
        exact (List.nodup_cons.mp hnd).1
    · intro q hq
      obtain ⟨l, hl, rfl⟩ := List.mem_map.mp hq
      obtain ⟨hl1, hl2⟩ := List.mem_filter.mp hl
      rw [decide_eq_true_iff] at hl2
      have hne2 : l ≠ h := by
        rintro rfl
        exact (List.nodup_cons.mp hnd).1 hl2
      have hlen := List.idxOf_lt_length_of_mem hl1
      simp only [List.length_take, List.length_cons] at hlen
      dsimp only
      constructor
      · rw [List.length_cons, List.take_succ_cons] at hl1 ⊢
        rw [List.idxOf_cons_ne _ (Ne.symm hne2)]
        have hm : l ∈ (g :: u).take u.length := by
          rcases List.mem_cons.mp hl1 with h' | h'
          · exact absurd h' hne2
          · exact h'
        have : List.idxOf l (g :: u) = List.idxOf l ((g :: u).take u.length) := by
          conv_lhs => rw [← List.take_append_drop u.length (g :: u)]
          rw [List.idxOf_append_of_mem hm]
        rw [this]
      · rw [List.length_cons]
        omega

/-- `C120`, exactly otherwise: if an index along the levels is left after the first coordinate has been dropped - of the first coefficients, of
the second, or of both with the same labels - with distinct labels, there is one layer less and every layer is 0 -/
theorem C120_kept_index (p0 : K) (a b : Coef K) (h : a.n = b.n) (hk : a.dim ∈ a.coords.tail ∨ b.dim ∈ b.coords.tail)
    (hnd : ∀ i < a.n, ∀ j < a.n, a.labels i = a.labels j → i = j) (hl : ∀ i < a.n, b.labels i = a.labels i) :
    ∃ layers l, deltaHybridCoords p0 a b = .ok (layers, l) ∧ layers.length = a.n - 2 ∧ ∀ f ∈ layers, ∀ ps, f ps = 0 := by
  have hL : (List.range b.n).map b.labels = (List.range a.n).map a.labels := by
    rw [← h]
    refine List.map_congr_left fun i hi => hl i (List.mem_range.mp hi)
  have hnodup : ((List.range a.n).map a.labels).Nodup := by
    rw [List.nodup_map_iff_inj_on List.nodup_range]
    intro i hi j hj hij
    exact hnd i (List.mem_range.mp hi) j (List.mem_range.mp hj) hij
  have hlen : ((List.range a.n).map a.labels).length = a.n := by simp
  have hjoin : ∀ lo, joinLabels (a.n - 1) (a.n - 1) (cutLabels lo (a.n - 1) a.keptLabels) (cutLabels lo (a.n - 1) b.keptLabels) =
      .ok ((List.range (a.n - 1)).map (fun i => (i, i)), some ((((List.range a.n).map a.labels).drop lo).take (a.n - 1))) := by
    intro lo
    unfold Coef.keptLabels
    rw [hL]
    by_cases h1 : a.dim ∈ a.coords.tail <;> by_cases h2 : b.dim ∈ b.coords.tail
    · rw [if_pos h1, if_pos h2, joinLabels_same]; rfl
    · rw [if_pos h1, if_neg h2]
      exact joinLabels_right _ _
    · rw [if_neg h1, if_pos h2]
      exact joinLabels_none _ _
    · exact absurd hk (by tauto)
  unfold deltaHybridCoords
  rw [if_neg (not_not.mpr h)]
  simp only [hjoin, bind, Except.bind, pure, Except.pure, List.length_map, List.length_range, List.drop_zero]
  generalize hLL : (List.range a.n).map a.labels = L at hnodup hlen
  cases L with
  | nil =>
    have hn : a.n = 0 := by simpa using hlen.symm
    refine ⟨[], some [], ?_, by simp [hn], by simp⟩
    simp [hn, joinLabels]
  | cons g t =>
    have hn : a.n - 1 = t.length := by rw [← hlen]; simp
    rw [hn, List.drop_one, List.tail_cons, List.take_length]
    obtain ⟨i, l, hi, hil, hiq⟩ := join_shift g t hnodup
    rw [hi]
    refine ⟨_, l, rfl, by rw [List.length_map, hil]; omega, ?_⟩
    intro f hf ps
    obtain ⟨q, hq, rfl⟩ := List.mem_map.mp hf
    obtain ⟨q1, q2⟩ := hiq q hq
    have q3 : q.2 < t.length := by omega
    dsimp only
    simp only [List.map_map, List.getD_eq_getElem?_getD, List.getElem?_map, List.getElem?_range q2, List.getElem?_range q3, Option.map_some,
      Option.getD_some, Function.comp_apply]
    rw [q1, sub_self, abs_zero]

/-- `C120`: with a kept index that names some levels alike (two of the first `n - 1` or two of the last `n - 1`), but not all, the shifted arrays cannot
be aligned: ValueError -/
theorem C120_duplicate_labels (p0 : K) (a b : Coef K) (h : a.n = b.n) (hk : a.dim ∈ a.coords.tail ∨ b.dim ∈ b.coords.tail) (hl : ∀ i < a.n, b.labels i = a.labels i)
    (i j : ℕ) (hij : i < j) (hj : j < a.n) (hends : ¬ (i = 0 ∧ j = a.n - 1)) (hdup : a.labels i = a.labels j) (k : ℕ) (hkn : k + 1 < a.n)
    (hdiff : a.labels k ≠ a.labels (k + 1)) : deltaHybridCoords p0 a b = .error .valueError := by
  have hL : (List.range b.n).map b.labels = (List.range a.n).map a.labels := by
    rw [← h]
    refine List.map_congr_left fun i hi => hl i (List.mem_range.mp hi)
  have hjoin : ∀ lo, joinLabels (a.n - 1) (a.n - 1) (cutLabels lo (a.n - 1) a.keptLabels) (cutLabels lo (a.n - 1) b.keptLabels) =
      .ok ((List.range (a.n - 1)).map (fun i => (i, i)), some ((((List.range a.n).map a.labels).drop lo).take (a.n - 1))) := by
    intro lo
    unfold Coef.keptLabels
    rw [hL]
    by_cases h1 : a.dim ∈ a.coords.tail <;> by_cases h2 : b.dim ∈ b.coords.tail
    · rw [if_pos h1, if_pos h2, joinLabels_same]; rfl
    · rw [if_pos h1, if_neg h2]
      exact joinLabels_right _ _
    · rw [if_neg h1, if_pos h2]
      exact joinLabels_none _ _
    · exact absurd hk (by tauto)
  have g0 : ∀ q < a.n - 1, (((List.range a.n).map a.labels).take (a.n - 1))[q]? = some (a.labels q) := by
    intro q hq
    rw [List.getElem?_take_of_lt hq, List.getElem?_map, List.getElem?_range (by omega)]
    rfl
  have g1 : ∀ q < a.n - 1, ((((List.range a.n).map a.labels).drop 1).take (a.n - 1))[q]? = some (a.labels (q + 1)) := by
    intro q hq
    rw [List.getElem?_take_of_lt hq, List.getElem?_drop, List.getElem?_map, List.getElem?_range (by omega), add_comm]
    rfl
  have nodup_inj : ∀ (l : List K) (p q : ℕ) (x : K), l.Nodup → l[p]? = some x → l[q]? = some x → p = q := by
    intro l p q x hn hp hq
    obtain ⟨p1, p2⟩ := List.getElem?_eq_some_iff.mp hp
    obtain ⟨q1, q2⟩ := List.getElem?_eq_some_iff.mp hq
    exact (List.Nodup.getElem_inj_iff hn).mp (p2.trans q2.symm)
  unfold deltaHybridCoords
  rw [if_neg (not_not.mpr h)]
  simp only [hjoin, bind, Except.bind, pure, Except.pure, List.length_map, List.length_range, List.drop_zero]
  unfold joinLabels
  dsimp only
  rw [if_neg, if_pos]
  · rintro ⟨n0, n1⟩
    by_cases hend : j = a.n - 1
    · have hi0 : i ≠ 0 := fun e => hends ⟨e, hend⟩
      have a1 := g1 (i - 1) (by omega)
      have a2 := g1 (j - 1) (by omega)
      rw [Nat.sub_add_cancel (by omega)] at a1 a2
      rw [hdup] at a1
      have := nodup_inj _ _ _ _ n1 a1 a2
      omega
    · have a1 := g0 i (by omega)
      have a2 := g0 j (by omega)
      rw [hdup] at a1
      have := nodup_inj _ _ _ _ n0 a1 a2
      omega
  · intro he
    have a1 := g0 k (by omega)
    rw [he, g1 k (by omega)] at a1
    injection a1 with a1
    exact hdiff a1.symm

example : deltaHybridCoords 100000 ⟨"ilev", 4, fun _ => 0, ["time", "ilev"], fun k => if k = 1 then 7 else if k = 2 then 7 else (k : ℚ)⟩
    ⟨"ilev", 4, fun k => (k : ℚ) / 4, ["time", "ilev"], fun k => if k = 1 then 7 else if k = 2 then 7 else (k : ℚ)⟩ = .error .valueError :=
  C120_duplicate_labels _ _ _ rfl (.inl (by decide)) (fun _ _ => rfl) 1 2 (by norm_num) (by norm_num) (by norm_num) (by norm_num) 0 (by norm_num) (by norm_num)

/-- `C120` is false: coefficients with a further coordinate in front of the level coordinate, such as a scalar time. Three levels, one layer
instead of two, and its thickness is 0. -/
theorem C120_counterexample :
    ∃ a b : Coef ℚ, a.n = 3 ∧ b.n = 3 ∧ a.coords = ["time", "ilev"] ∧ b.coords = ["time", "ilev"] ∧
      (∀ k < 2, levelPressure 100000 a.val b.val 100000 (k + 1) - levelPressure 100000 a.val b.val 100000 k = 50000) ∧
      ∃ layers l, deltaHybridCoords 100000 a b = .ok (layers, l) ∧ layers.length = 1 ∧ ∀ f ∈ layers, ∀ ps, f ps = 0 := by
  refine ⟨⟨"ilev", 3, fun _ => 0, ["time", "ilev"], fun k => (k : ℚ)⟩, ⟨"ilev", 3, fun k => (k : ℚ) / 2, ["time", "ilev"], fun k => (k : ℚ)⟩,
    rfl, rfl, rfl, rfl, ?_, ?_⟩
  · intro k _
    simp only [levelPressure]
    push_cast
    ring
  · exact C120_kept_index _ _ _ rfl (.inl (by decide)) (fun i _ j _ h => Nat.cast_injective (R := ℚ) h) (fun _ _ => rfl)

/-- coefficients with the level coordinate first, or alone -/
example : "ilev" ∉ (["ilev", "time"] : List String).tail ∧ "ilev" ∉ (["ilev"] : List String).tail := by decide

end Verif.Props
