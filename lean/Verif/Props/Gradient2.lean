import Verif.Props.Gradient

namespace Verif.Props
open Model.Gradient Spec.Gradient Lemmas.Gradient

/-! ### C76: coordinate handling -/

/-- With both coordinates given, the coordinates of the data are not used. -/
theorem C76_given_coordinates_used (k : DataKind) (la lo la' lo' : Option (Tensor ℝ)) (v : Tensor (XF ℝ)) (lon lat : Tensor ℝ) :
    gradient ⟨k, la, lo, v⟩ (some lon) (some lat) = gradient ⟨k, la', lo', v⟩ (some lon) (some lat) := rfl

/-- Without arguments, an xarray object with coordinates `lat` and `lon` is treated as if these had been given. -/
theorem C76_own_coordinates (k : DataKind) (hk : k = .dataArray ∨ k = .dataset) (la lo : Tensor ℝ) (v : Tensor (XF ℝ)) :
    gradient ⟨k, some la, some lo, v⟩ none none = gradient ⟨k, some la, some lo, v⟩ (some lo) (some la) := by
  rcases hk with rfl | rfl <;> rfl

/-- 1-D coordinates behave like the 2-D mesh with `lat` constant along the rows and `lon` constant down the columns. -/
theorem C76_one_dimensional_is_mesh (data : Data) (nlon nlat : ℕ) (lon lat : List ℕ → ℝ) :
    gradient data (some ⟨[nlon], lon⟩) (some ⟨[nlat], lat⟩)
      = gradient data (some (grid nlat nlon (fun _ j => lon [j]))) (some (grid nlat nlon (fun i _ => lat [i]))) := rfl

/-- Coordinates of different rank, or of a rank other than 1 and 2, are rejected. -/
theorem C76_rank_mismatch_rejected (data : Data) (lon lat : Tensor ℝ)
    (h : lon.shape.length ≠ lat.shape.length ∨ lon.shape.length ≠ 1 ∧ lon.shape.length ≠ 2) :
    gradient data (some lon) (some lat) = .error .valueError := by
  have e : to2d (some lon) (some lat) = .error .valueError := by
    simp only [to2d]
    by_cases h1 : lon.shape.length = 1
    · rw [if_pos h1, if_neg (by omega)]
    · rw [if_neg h1]
      by_cases h2 : lon.shape.length = 2
      · rw [if_pos h2, if_neg (by omega)]
      · rw [if_neg h2]
  simp only [gradient, chooseCoords, Option.isNone_some, Bool.or_self, Bool.false_eq_true, if_false, bind, Except.bind, e]

example : ((⟨[3], fun _ => 0⟩ : Tensor ℝ).shape.length ≠ (⟨[3, 3], fun _ => 0⟩ : Tensor ℝ).shape.length) := by simp

/-- Plain arrays, and data of unknown type, without both coordinates are rejected with an explanation. -/
theorem C76_numpy_without_coordinates (data : Data) (hk : data.kind = .numpy ∨ data.kind = .other) (lon lat : Option (Tensor ℝ))
    (h : lon = none ∨ lat = none) : gradient data lon lat = .error .exception := by
  have hn : (lat.isNone || lon.isNone) = true := by
    rcases h with rfl | rfl <;> simp
  simp only [gradient, chooseCoords, hn, if_true, bind, Except.bind]
  rcases hk with hk | hk <;> rw [hk]

/-- The parts above that hold, together: given coordinates win over the data's own when both are given; own coordinates are used when none is given. -/
theorem C76_coordinates_partial (k : DataKind) (la lo : Tensor ℝ) (v : Tensor (XF ℝ)) (lon lat : Tensor ℝ) :
    gradient ⟨k, some la, some lo, v⟩ (some lon) (some lat) = gradient ⟨k, none, none, v⟩ (some lon) (some lat) ∧
      (k = .dataArray → gradient ⟨k, some la, some lo, v⟩ none none = gradient ⟨k, none, none, v⟩ (some lo) (some la)) := by
  refine ⟨rfl, ?_⟩
  rintro rfl; rfl

/-- A latitude given without a longitude is replaced by the one of the data, whatever it is; the result can differ from the one for the given latitude. -/
theorem C76_latitude_ignored_counterexample :
    (∀ (la lo : Tensor ℝ) (v : Tensor (XF ℝ)) (lat : Tensor ℝ),
      gradient ⟨.dataArray, some la, some lo, v⟩ none (some lat) = gradient ⟨.dataArray, some la, some lo, v⟩ none none) ∧
    ∃ (la lo : Tensor ℝ) (v : Tensor (XF ℝ)) (lat : Tensor ℝ),
      gradient ⟨.dataArray, some la, some lo, v⟩ none (some lat) ≠ gradient ⟨.dataArray, some la, some lo, v⟩ (some lo) (some lat) := by
  refine ⟨fun _ _ _ _ => rfl, ?_⟩
  refine ⟨⟨[2], fun i => (i.getD 0 0 : ℝ)⟩, ⟨[2], fun i => (i.getD 0 0 : ℝ)⟩, grid 2 2 (fun i _ => .fin (arcLat (i : ℝ))),
    ⟨[2], fun i => 2 * (i.getD 0 0 : ℝ)⟩, ?_⟩
  intro h
  have s1 : Spaced 2 2 (fun _ j => (j : ℝ)) (fun i _ => (i : ℝ)) := by
    apply spaced_of_monotone (by norm_num) (by norm_num) (fun j => (j : ℝ)) (fun i => (i : ℝ))
    · intro i hi
      have : (i : ℝ) ≤ 1 := by exact_mod_cast Nat.lt_succ_iff.mp hi
      constructor <;> linarith [Nat.cast_nonneg (α := ℝ) i]
    · left; intro i i' h _; exact_mod_cast h
    · left; intro i i' h _; exact_mod_cast h
  have s2 : Spaced 2 2 (fun _ j => (j : ℝ)) (fun i _ => 2 * (i : ℝ)) := by
    apply spaced_of_monotone (by norm_num) (by norm_num) (fun j => (j : ℝ)) (fun i => 2 * (i : ℝ))
    · intro i hi
      have : (i : ℝ) ≤ 1 := by exact_mod_cast Nat.lt_succ_iff.mp hi
      constructor <;> linarith [Nat.cast_nonneg (α := ℝ) i]
    · left; intro i i' h _
      have : (i : ℝ) < i' := by exact_mod_cast h
      linarith
    · left; intro i i' h _; exact_mod_cast h
  obtain ⟨a, b, h1, _, _, h2⟩ := C75_difference_quotients .dataArray (by simp) (le_refl 2) (le_refl 2) (fun i _ => arcLat (i : ℝ)) _ _ s1
  obtain ⟨a', b', h1', _, _, h2'⟩ := C75_difference_quotients .dataArray (by simp) (le_refl 2) (le_refl 2) (fun i _ => arcLat (i : ℝ)) _ _ s2
  have g1 : gradient (field .dataArray 2 2 (fun i _ => arcLat (i : ℝ))) (some (grid 2 2 (fun _ j => (j : ℝ)))) (some (grid 2 2 (fun i _ => (i : ℝ))))
      = gradient (field .dataArray 2 2 (fun i _ => arcLat (i : ℝ))) (some (grid 2 2 (fun _ j => (j : ℝ)))) (some (grid 2 2 (fun i _ => 2 * (i : ℝ)))) := h
  rw [h1, h1'] at g1
  simp only [Except.ok.injEq, List.cons.injEq, and_true] at g1
  have v1 := (h2 0 0 (by norm_num) (by norm_num)).1
  have v2 := (h2' 0 0 (by norm_num) (by norm_num)).1
  rw [g1.1, v2] at v1
  have lt1 : arcLat 0 < arcLat 1 := C74_arc_strictly_increasing (by norm_num) (by norm_num) (by norm_num)
  have lt2 : arcLat 1 < arcLat 2 := C74_arc_strictly_increasing (by norm_num) (by norm_num) (by norm_num)
  have v3 := XF.fin.inj v1
  simp only [quotient, upper, lower, Nat.zero_add, Nat.cast_zero, Nat.cast_one, Nat.min_self, Nat.add_one_sub_one, mul_zero, mul_one, Nat.zero_sub] at v3
  have d1 : arcLat 1 - arcLat 0 ≠ 0 := by linarith
  have d2 : arcLat 2 - arcLat 0 ≠ 0 := by linarith
  rw [div_eq_div_iff d2 d1] at v3
  have := mul_left_cancel₀ d1 v3
  linarith

/-- An xarray object without coordinates `lat` and `lon` and without arguments fails with an `AttributeError` (of `None.shape`), not with an explanation. -/
theorem C76_no_coordinates_counterexample (v : Tensor (XF ℝ)) : gradient ⟨.dataArray, none, none, v⟩ none none = .error .attributeError := rfl

/-! ### C103: documented order of the results -/

/-- The returned list is [latitudinal gradient, longitudinal gradient]. -/
theorem C103_order_partial (k : DataKind) (hk : k ≠ .dataset) {r c : ℕ} (hr : 2 ≤ r) (hc : 2 ≤ c) (f lon lat : ℕ → ℕ → ℝ) (hs : Spaced r c lon lat) :
    ∃ a b, gradient (field k r c f) (some (grid r c lon)) (some (grid r c lat)) = .ok [a, b] ∧ ∀ i j, i < r → j < c →
      a.val.get [i, j] = .fin (quotient r (fun v => f v j) (fun v => arcLat (lat v j)) i) ∧
      b.val.get [i, j] = .fin (quotient c (fun v => f i v) (fun v => arcLon (lon i v) (lat i v)) j) := by
  obtain ⟨a, b, h, _, _, hv⟩ := C75_difference_quotients k hk hr hc f lon lat hs
  exact ⟨a, b, h, hv⟩

/-- The documentation promises the longitudinal gradient first; but for data that do not depend on longitude the first array is 1 and the second 0. -/
theorem C103_counterexample : ∃ (f lon lat : ℕ → ℕ → ℝ), (∀ i j j', f i j = f i j') ∧
    Gives (gradient (field .numpy 2 2 f) (some (grid 2 2 lon)) (some (grid 2 2 lat))) 2 2 (fun _ _ => 1) (fun _ _ => 0) := by
  have s1 : Spaced 2 2 (fun _ j => (j : ℝ)) (fun i _ => (i : ℝ)) := by
    apply spaced_of_monotone (by norm_num) (by norm_num) (fun j => (j : ℝ)) (fun i => (i : ℝ))
    · intro i hi
      have : (i : ℝ) ≤ 1 := by exact_mod_cast Nat.lt_succ_iff.mp hi
      constructor <;> linarith [Nat.cast_nonneg (α := ℝ) i]
    · left; intro i i' h _; exact_mod_cast h
    · left; intro i i' h _; exact_mod_cast h
  refine ⟨fun i _ => arcLat (i : ℝ), fun _ j => (j : ℝ), fun i _ => (i : ℝ), fun _ _ _ => rfl, ?_⟩
  obtain ⟨y, ⟨a, b, h1, h2, h3, h4⟩, hy⟩ := C75_arc_latitude .numpy (by simp) (le_refl 2) (le_refl 2) _ _ s1
  refine ⟨a, b, h1, h2, h3, fun i j hi hj => ⟨(h4 i j hi hj).1, ?_⟩⟩
  rw [(h4 i j hi hj).2, hy (fun _ _ _ => rfl)]

/-! ### C104: data with more than two dimensions -/

/-- 2-D data of at least 2 by 2 points always work, with spaced coordinates or not. -/
theorem C104_two_dimensional_partial (data : Data) (hk : data.kind ≠ .dataset) {r c : ℕ} (hr : 2 ≤ r) (hc : 2 ≤ c) (hs : data.val.shape = [r, c])
    (lon lat : Tensor ℝ) (hlo : lon.shape = [r, c]) (hla : lat.shape = [r, c]) : ∃ a b, gradient data (some lon) (some lat) = .ok [a, b] := by
  obtain ⟨a, b, h, _⟩ := gradient_2d data hk hr hc hs lon lat hlo hla
  exact ⟨a, b, h⟩

/-- Data with a leading time axis that vary with time only have a latitudinal "gradient": the change with time divided by a distance. -/
theorem C104_counterexample : ∃ (data : Data) (lon lat : Tensor ℝ), data.val.shape = [2, 2, 2] ∧
    (∀ t i j i' j', data.val.get [t, i, j] = data.val.get [t, i', j']) ∧
    ∃ a b, gradient data (some lon) (some lat) = .ok [a, b] ∧ a.val.get [0, 0, 0] ≠ .fin 0 := by
  refine ⟨⟨.numpy, none, none, ⟨[2, 2, 2], fun i => .fin (i.getD 0 0 : ℝ)⟩⟩, grid 2 2 (fun _ j => (j : ℝ)), grid 2 2 (fun i _ => (i : ℝ)), rfl,
    fun _ _ _ _ _ => rfl, _, _, rfl, ?_⟩
  have lt1 : arcLat 0 < arcLat 1 := C74_arc_strictly_increasing (by norm_num) (by norm_num) (by norm_num)
  have d1 : arcLat 1 - arcLat 0 ≠ 0 := by linarith
  show diffAt halfX 2 (fun v => XF.fin ((v : ℕ) : ℝ)) 0 / XF.fin (diffAt halfR 2 (fun v => arcLat ((v : ℕ) : ℝ)) 0) ≠ XF.fin 0
  rw [diffAt_fin, diffAt, diffAt, if_pos rfl, if_pos rfl]
  simp only [Nat.cast_one, Nat.cast_zero, sub_zero]
  rw [XF.fin_div _ _ d1]
  intro h
  have := XF.fin.inj h
  exact (one_div_ne_zero d1) this

/-! ### C105: Datasets -/

/-- No Dataset is accepted. -/
theorem C105_counterexample (data : Data) (hk : data.kind = .dataset) (lon lat : Option (Tensor ℝ)) (res : List Result) : gradient data lon lat ≠ .ok res := by
  intro h
  simp only [gradient, bind, Except.bind] at h
  cases h1 : chooseCoords data lon lat with
  | error e => simp [h1] at h
  | ok cc =>
    simp only [h1] at h
    cases h2 : to2d cc.1 cc.2 with
    | error e => simp [h2] at h
    | ok ll =>
      simp only [h2] at h
      cases h3 : Tensor.zip arcLon ll.1 ll.2 with
      | error e => simp [h3] at h
      | ok loc =>
        simp only [h3] at h
        cases h4 : npGradientAxis halfR 0 (ll.2.map arcLat) with
        | error e => simp [h4] at h
        | ok d0 =>
          simp only [h4] at h
          cases h5 : npGradientAxis halfR 1 loc with
          | error e => simp [h5] at h
          | ok d1 => simp [h5, hk, throw, throwThe, MonadExceptOf.throw] at h

/-- A Dataset with coordinates that are not too small is a TypeError. -/
theorem C105_dataset_type (data : Data) (hk : data.kind = .dataset) {r c : ℕ} (hr : 2 ≤ r) (hc : 2 ≤ c)
    (lon lat : Tensor ℝ) (hlo : lon.shape = [r, c]) (hla : lat.shape = [r, c]) : gradient data (some lon) (some lat) = .error .typeError := by
  have n1 : ¬ r < 2 := by omega
  have n2 : ¬ c < 2 := by omega
  obtain ⟨ls, lg⟩ := lon
  obtain ⟨as, ag⟩ := lat
  simp only at hlo hla
  subst hlo hla
  simp [gradient, chooseCoords, to2d, Tensor.zip, Tensor.map, npGradientAxis, bind, Except.bind, pure, Except.pure, Tensor.bshape_self,
    n1, n2, hk, throw, throwThe, MonadExceptOf.throw]

/-- numpy arrays and DataArrays are accepted; DataArrays give DataArrays with the 2-D coordinates, numpy arrays give numpy arrays. -/
theorem C105_arrays_partial (data : Data) (hk : data.kind = .numpy ∨ data.kind = .dataArray) {r c : ℕ} (hr : 2 ≤ r) (hc : 2 ≤ c)
    (hs : data.val.shape = [r, c]) (lon lat : Tensor ℝ) (hlo : lon.shape = [r, c]) (hla : lat.shape = [r, c]) :
    ∃ a b, gradient data (some lon) (some lat) = .ok [a, b] ∧
      (data.kind = .dataArray → (∃ v, a = .dataArray v lon lat) ∧ ∃ v, b = .dataArray v lon lat) ∧
      (data.kind = .numpy → (∃ v, a = .numpy v) ∧ ∃ v, b = .numpy v) := by
  obtain ⟨a, b, h, _, _, h1, h2, _⟩ := gradient_2d data (by rcases hk with h | h <;> rw [h] <;> simp) hr hc hs lon lat hlo hla
  exact ⟨a, b, h, h1, fun hn => h2 (by rw [hn]; simp)⟩

/-! ### C106: order of the dimensions -/

/-- The transposed data (longitude first) with the same 1-D coordinates are rejected, if there are not as many latitudes as longitudes. -/
theorem C106_transposed_rejected_counterexample (k : DataKind) (hk : k ≠ .dataset) {nlat nlon : ℕ} (h1 : 2 ≤ nlat) (h2 : 2 ≤ nlon) (hne : nlat ≠ nlon)
    (f : ℕ → ℕ → ℝ) (lon lat : List ℕ → ℝ) :
    gradient (field k nlon nlat (fun j i => f i j)) (some ⟨[nlon], lon⟩) (some ⟨[nlat], lat⟩) = .error .valueError := by
  have n1 : ¬ nlat < 2 := by omega
  have n2 : ¬ nlon < 2 := by omega
  have b1 : Tensor.bshape [nlon, nlat] [nlat, nlon] = none := by
    have e1 : nlat ≠ 1 := by omega
    have e2 : nlon ≠ 1 := by omega
    simp [Tensor.bshape, Tensor.bshapeRev, Tensor.bdim, hne, e1, e2]
  simp only [gradient, field, grid, chooseCoords, to2d, meshLon, meshLat, Tensor.zip, Tensor.map, npGradientAxis, npGradientFirstTwo, Option.isNone_some,
    Bool.or_self, Bool.false_eq_true, if_false, bind, Except.bind, pure, Except.pure, List.length_cons, List.length_nil, Tensor.bshape_self,
    List.getElem?_cons_zero, List.getElem?_cons_succ, n1, n2, hk, List.any_cons, List.any_nil, decide_false, Bool.or_false]
  simp [n1, n2, hk, b1]

/-- With as many latitudes as longitudes the transposed data are accepted, and the results are not the transposed ones: here data depending on latitude only
get the latitudinal gradient 0. -/
theorem C106_transposed_square_counterexample : ∃ (f : ℕ → ℕ → ℝ) (lon lat : List ℕ → ℝ) (x y : ℕ → ℕ → ℝ),
    Gives (gradient (field .dataArray 2 2 f) (some ⟨[2], lon⟩) (some ⟨[2], lat⟩)) 2 2 (fun _ _ => 1) (fun _ _ => 0) ∧
    Gives (gradient (field .dataArray 2 2 (fun j i => f i j)) (some ⟨[2], lon⟩) (some ⟨[2], lat⟩)) 2 2 x y ∧ x 0 0 = 0 := by
  have s1 : Spaced 2 2 (fun _ j => (j : ℝ)) (fun i _ => (i : ℝ)) := by
    apply spaced_of_monotone (by norm_num) (by norm_num) (fun j => (j : ℝ)) (fun i => (i : ℝ))
    · intro i hi
      have : (i : ℝ) ≤ 1 := by exact_mod_cast Nat.lt_succ_iff.mp hi
      constructor <;> linarith [Nat.cast_nonneg (α := ℝ) i]
    · left; intro i i' h _; exact_mod_cast h
    · left; intro i i' h _; exact_mod_cast h
  obtain ⟨x, y, hxy, hx0⟩ : ∃ x y, Gives (gradient (field .dataArray 2 2 (fun j i => arcLat (i : ℝ))) (some (grid 2 2 (fun _ j => (j : ℝ))))
      (some (grid 2 2 (fun i _ => (i : ℝ))))) 2 2 x y ∧ x 0 0 = 0 :=
    ⟨_, _, C75_difference_quotients .dataArray (by simp) (le_refl 2) (le_refl 2) (fun j i => arcLat (i : ℝ)) _ _ s1, by simp [quotient]⟩
  refine ⟨fun i _ => arcLat (i : ℝ), fun i => (i.getD 0 0 : ℝ), fun i => (i.getD 0 0 : ℝ), x, y, ?_, ?_, hx0⟩
  · rw [C76_one_dimensional_is_mesh]
    simp only [List.getD_cons_zero]
    obtain ⟨y, ⟨a, b, h1, h2, h3, h4⟩, hy⟩ := C75_arc_latitude .dataArray (by simp) (le_refl 2) (le_refl 2) _ _ s1
    refine ⟨a, b, h1, h2, h3, fun i j hi hj => ⟨(h4 i j hi hj).1, ?_⟩⟩
    rw [(h4 i j hi hj).2, hy (fun _ _ _ => rfl)]
  · rw [C76_one_dimensional_is_mesh]
    simp only [List.getD_cons_zero]
    exact hxy

/-- With latitude as the first dimension the results are the ones for the mesh. -/
theorem C106_latitude_first_partial (k : DataKind) (hk : k ≠ .dataset) {nlat nlon : ℕ} (h1 : 2 ≤ nlat) (h2 : 2 ≤ nlon) (f : ℕ → ℕ → ℝ) (lon lat : List ℕ → ℝ)
    (hs : Spaced nlat nlon (fun _ j => lon [j]) (fun i _ => lat [i])) :
    Gives (gradient (field k nlat nlon f) (some ⟨[nlon], lon⟩) (some ⟨[nlat], lat⟩)) nlat nlon
      (fun i j => quotient nlat (fun v => f v j) (fun v => arcLat (lat [v])) i)
      (fun i j => quotient nlon (fun v => f i v) (fun v => arcLon (lon [v]) (lat [i])) j) := by
  rw [C76_one_dimensional_is_mesh]
  exact C75_difference_quotients k hk h1 h2 f (fun _ j => lon [j]) (fun i _ => lat [i]) hs

/-! ### C107: a value only matters to its neighbours -/

/-- The results at a point depend on the data at its two neighbours in the column and its two neighbours in the row only; in particular a missing value
makes only those results missing that use it. -/
theorem C107_local (data data' : Data) (hk : data.kind ≠ .dataset) (hk' : data'.kind = data.kind) {r c : ℕ} (hr : 2 ≤ r) (hc : 2 ≤ c)
    (hs : data.val.shape = [r, c]) (hs' : data'.val.shape = [r, c]) (lon lat : Tensor ℝ) (hlo : lon.shape = [r, c]) (hla : lat.shape = [r, c]) :
    ∃ a b a' b', gradient data (some lon) (some lat) = .ok [a, b] ∧ gradient data' (some lon) (some lat) = .ok [a', b'] ∧
      ∀ i j, i < r → j < c →
        ((data.val.get [lower i, j] = data'.val.get [lower i, j] ∧ data.val.get [upper r i, j] = data'.val.get [upper r i, j]) →
          a.val.get [i, j] = a'.val.get [i, j]) ∧
        ((data.val.get [i, lower j] = data'.val.get [i, lower j] ∧ data.val.get [i, upper c j] = data'.val.get [i, upper c j]) →
          b.val.get [i, j] = b'.val.get [i, j]) := by
  obtain ⟨a, b, h, _, _, _, _, hv⟩ := gradient_2d data hk hr hc hs lon lat hlo hla
  obtain ⟨a', b', h', _, _, _, _, hv'⟩ := gradient_2d data' (by rw [hk']; exact hk) hr hc hs' lon lat hlo hla
  refine ⟨a, b, a', b', h, h', fun i j hi hj => ⟨?_, ?_⟩⟩
  · rintro ⟨e1, e2⟩
    rw [(hv i j hi hj).1, (hv' i j hi hj).1, diffAt_congr halfX hr hi (f := fun v => data.val.get [v, j]) (g := fun v => data'.val.get [v, j]) e1 e2]
  · rintro ⟨e1, e2⟩
    rw [(hv i j hi hj).2, (hv' i j hi hj).2, diffAt_congr halfX hc hj (f := fun v => data.val.get [i, v]) (g := fun v => data'.val.get [i, v]) e1 e2]

/-- A missing value at a neighbour makes the result missing. -/
theorem C107_missing (data : Data) (hk : data.kind ≠ .dataset) {r c : ℕ} (hr : 2 ≤ r) (hc : 2 ≤ c)
    (hs : data.val.shape = [r, c]) (lon lat : Tensor ℝ) (hlo : lon.shape = [r, c]) (hla : lat.shape = [r, c]) :
    ∃ a b, gradient data (some lon) (some lat) = .ok [a, b] ∧
      ∀ i j, i < r → j < c →
        ((data.val.get [lower i, j] = .nan ∨ data.val.get [upper r i, j] = .nan) → a.val.get [i, j] = .nan) ∧
        ((data.val.get [i, lower j] = .nan ∨ data.val.get [i, upper c j] = .nan) → b.val.get [i, j] = .nan) := by
  obtain ⟨a, b, h, _, _, _, _, hv⟩ := gradient_2d data hk hr hc hs lon lat hlo hla
  have key : ∀ (n : ℕ) (f : ℕ → XF ℝ) (i : ℕ) (d : ℝ), 2 ≤ n → i < n → (f (lower i) = .nan ∨ f (upper n i) = .nan) →
      diffAt halfX n f i / .fin d = .nan := by
    intro n f i d hn hi hnan
    have hd : diffAt halfX n f i = .nan := by
      unfold diffAt halfX
      by_cases h0 : i = 0
      · subst h0
        have e : upper n 0 = 1 := by simp [upper]; omega
        have e' : lower 0 = 0 := rfl
        rw [e, e'] at hnan
        rcases hnan with hx | hx <;> simp [hx]
      · rw [if_neg h0]
        by_cases hl : i = n - 1
        · have e : upper n i = n - 1 := by simp [upper]; omega
          have e' : lower i = n - 2 := by simp [lower]; omega
          rw [e, e'] at hnan
          rw [if_pos hl]
          rcases hnan with hx | hx <;> simp [hx]
        · have e : upper n i = i + 1 := by simp [upper]; omega
          have e' : lower i = i - 1 := rfl
          rw [e, e'] at hnan
          rw [if_neg hl]
          rcases hnan with hx | hx <;> simp [hx] <;> rfl
    rw [hd]; rfl
  refine ⟨a, b, h, fun i j hi hj => ⟨fun hn => ?_, fun hn => ?_⟩⟩
  · rw [(hv i j hi hj).1]; exact key r _ i _ hr hi hn
  · rw [(hv i j hi hj).2]; exact key c _ j _ hc hj hn

end Verif.Props
