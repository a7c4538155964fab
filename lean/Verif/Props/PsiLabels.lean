import Verif.Props.Psi3
import Verif.Model.PsiLabels

namespace Verif.Props
open Model Spec Lemmas
set_option linter.unusedSectionVars false

/-! ### C119: the labels of `zonal_meridional_psi` -/

/-- position of level number `k` (counted from the top) in a list of `n` levels that starts at the top or at the surface -/
def levelPos (fromTop : Bool) (n k : ℕ) : ℕ := if fromTop then k else n - 1 - k

/-- the levels listed from the top or from the surface -/
def levelList (fromTop : Bool) (n : ℕ) (lev : ℕ → ℝ) : List ℝ := if fromTop then column n lev else (column n lev).reverse

/-- zonal mean surface pressures `p t l` with the dimensions `t0` and latitudes -/
def psArr (t0 : String) (T L : ℕ) (p : ℕ → ℕ → ℝ) : LArr (XF ℝ) :=
  ⟨[t0, "latitudes"], fun d => if d = t0 then T else L, fun i => .fin (p (i t0) (i "latitudes"))⟩

theorem cumsum_value (n : ℕ) (w d : ℕ → XF ℝ) (hw : ∀ j < n, NoInf (w j)) (hd : ∀ j < n, NoInf (d j)) {k : ℕ} (hk : k < n) :
    (nanCumsum (.fin 0) (column n (fun j => w j * d j))).getD k .nan = .fin (∑ j ∈ Finset.range (k + 1), layerFlux (w j) (d j)) := by
  rw [List.getD, nanCumsum_getElem? _ _ _ _ (by simpa [column] using hk)]
  · simp only [Option.getD_some, zero_add]
    congr 1
    have : (column n (fun k => w k * d k)).take (k + 1) = column (k + 1) (fun k => w k * d k) := by
      simp only [column, ← List.map_take, List.take_range]
      congr 2
      omega
    rw [this]
    simp only [column, List.map_map]
    rw [sum_range_list]
    refine Finset.sum_congr rfl (fun i hi => ?_)
    have : i < n := by simp at hi; omega
    exact (finOrZero_mul (w i) (d i) (hw i this) (hd i this)).1
  · intro x hx
    simp only [column, List.mem_map, List.mem_range] at hx
    obtain ⟨j, hj, rfl⟩ := hx
    exact (finOrZero_mul _ _ (hw j hj) (hd j hj)).2

theorem thickness_noInf (n : ℕ) (lev : ℕ → ℝ) (ps top : ℝ) (j : ℕ) : NoInf (thickness n lev ps top j) := by
  unfold thickness NoInf
  split <;> simp

/-- the thickness at position `k` -/
theorem levelList_thickness (fromTop : Bool) (n : ℕ) (hn : 2 ≤ n) (lev : ℕ → ℝ) (hinc : Increasing n lev) (h0 : 0 ≤ lev 0) (ps : ℝ)
    (hps : (lev 0 + lev 1) / 2 < ps) :
    deltaPressure (levelList fromTop n lev) (.fin ps) none
      = .ok (column n (fun k => thickness n lev ps (lev 0) (levelPos fromTop n k))) := by
  have h := deltaPressure_incr n hn lev hinc ps none h0 (le_refl _) hps
  cases fromTop with
  | true => exact h
  | false =>
    simp only [levelList, levelPos, Bool.false_eq_true, if_false]
    rw [deltaPressure_reverse n hn lev hinc, h]
    simp only [Except.map]
    rw [column_reverse]
    rfl

theorem indices_two {p : ℕ → ℕ → ℝ} (T L : ℕ) (t0 : String) (ht0 : t0 ≠ "latitudes") (i : String → ℕ)
    (hi : i ∈ LArr.indicesOf (psArr t0 T L p).size (psArr t0 T L p).dims) : i t0 < T ∧ i "latitudes" < L := by
  have ht := ht0.symm
  simp only [psArr, LArr.indicesOf, List.mem_flatMap, List.mem_range, List.mem_map, List.mem_singleton] at hi
  obtain ⟨a, ha, j, ⟨b, hb, k, rfl, rfl⟩, rfl⟩ := hi
  simp only [if_true] at ha
  rw [if_neg ht] at hb
  refine ⟨by simpa using ha, ?_⟩
  rw [Function.update_of_ne ht]
  simpa using hb

theorem mapM_exists_ok {α β : Type _} (f : α → Except PyErr β) (l : List α) (h : ∀ x ∈ l, ∃ y, f x = .ok y) : ∃ r, l.mapM f = .ok r := by
  induction l with
  | nil => exact ⟨[], rfl⟩
  | cons x xs ih =>
    obtain ⟨y, hy⟩ := h x (by simp)
    obtain ⟨ys, hys⟩ := ih (fun z hz => h z (by simp [hz]))
    exact ⟨y :: ys, by rw [List.mapM_cons, hy, hys]; rfl⟩

theorem levelList_length (fromTop : Bool) (n : ℕ) (lev : ℕ → ℝ) : (levelList fromTop n lev).length = n := by
  cases fromTop <;> simp [levelList, column]

theorem column_ends (n : ℕ) (hn : 2 ≤ n) (f : ℕ → ℝ) : Py.index (column n f) 0 = .ok (f 0) ∧ Py.index (column n f) (-1) = .ok (f (n - 1)) := by
  constructor
  · have := Py.index_nat (column n f) 0 (by simp; omega)
    simpa using this
  · have := Py.index_neg_one (column n f) (by simp; omega)
    simpa using this

theorem levelList_ends (fromTop : Bool) (n : ℕ) (hn : 2 ≤ n) (lev : ℕ → ℝ) :
    Py.index (levelList fromTop n lev) 0 = .ok (lev (levelPos fromTop n 0)) ∧
      Py.index (levelList fromTop n lev) (-1) = .ok (lev (levelPos fromTop n (n - 1))) := by
  cases fromTop with
  | true => exact column_ends n hn lev
  | false =>
    simp only [levelList, levelPos, Bool.false_eq_true, if_false]
    rw [column_reverse]
    exact column_ends n hn _

theorem line_eq {α : Type _} (a : LArr α) (d : String) (i : String → ℕ) : a.line d i = column (a.size d) (fun k => a.get (Function.update i d k)) := rfl

/-- the running sum from the top, read at position `k` of either listing -/
theorem oriented_cumsum (fromTop : Bool) (n : ℕ) (hn : 2 ≤ n) (a : LArr (XF ℝ)) (hs : a.size "plev" = n) (i : String → ℕ) (hi : i "plev" < n)
    (w d : ℕ → XF ℝ) (hw : ∀ j < n, NoInf (w j)) (hd : ∀ j < n, NoInf (d j))
    (ha : ∀ j < n, a.get (Function.update i "plev" (levelPos fromTop n j)) = w j * d j) :
    (if fromTop then cumsumDim "plev" a else reverseDim "plev" (cumsumDim "plev" (reverseDim "plev" a))).get i
      = .fin (∑ j ∈ Finset.range (levelPos fromTop n (i "plev") + 1), layerFlux (w j) (d j)) := by
  cases fromTop with
  | true =>
    simp only [if_true, levelPos] at ha ⊢
    simp only [cumsumDim]
    rw [line_eq, hs]
    have : column n (fun k => a.get (Function.update i "plev" k)) = column n (fun j => w j * d j) := by
      apply List.map_congr_left
      intro k hk
      exact ha k (List.mem_range.mp hk)
    rw [this]
    exact cumsum_value n w d hw hd hi
  | false =>
    simp only [if_false, levelPos, Bool.false_eq_true] at ha ⊢
    simp only [cumsumDim, reverseDim]
    rw [line_eq]
    simp only [hs, Function.update_self, Function.update_idem]
    have : column n (fun k => a.get (Function.update i "plev" (n - 1 - k))) = column n (fun j => w j * d j) := by
      apply List.map_congr_left
      intro k hk
      exact ha k (List.mem_range.mp hk)
    rw [this]
    exact cumsum_value n w d hw hd (by omega)

/-- **C119, what is returned.** For a zonal mean wind with dimensions `plev`, `latitudes` and others (each named once), and surface pressures over `T`
times and `L` latitudes whose time dimension is called `t0`, levels listed from the top or from the surface: the result has the dimensions of the wind,
followed by a dimension `time` if the wind has none of that name, and holds at each index the factor of the latitude times the sum over the
levels above of the wind (at the index along the wind's own dimensions) times the thickness for the surface pressure at the index along `time`. -/
theorem C119_exact (rawPs : List (XF ℝ)) (hraw : ∀ p ∈ rawPs, p = .nan ∨ ∃ x : ℝ, 0 < x ∧ p = .fin x) (fromTop : Bool) (T L n : ℕ) (hn : 2 ≤ n)
    (lev lat : ℕ → ℝ) (hinc : Increasing n lev) (h0 : 0 ≤ lev 0) (t0 : String) (ht0 : t0 ≠ "latitudes") (p : ℕ → ℕ → ℝ)
    (hps : ∀ t < T, ∀ l < L, (lev 0 + lev 1) / 2 < p t l) (v : LArr (XF ℝ)) (h1 : "plev" ∈ v.dims) (h2 : "latitudes" ∈ v.dims) (hs1 : v.size "plev" = n)
    (hs2 : v.size "latitudes" = L) (hs3 : "time" ∈ v.dims → v.size "time" = T) (hv : ∀ i, NoInf (v.get i)) :
    ∃ r, zonalPsiDA rawPs "plev" (levelList fromTop n lev) (column L lat) v (psArr t0 T L p) = .ok r ∧
      r.dims = v.dims ++ (if "time" ∈ v.dims then [] else ["time"]) ∧ (∀ d ∈ v.dims, r.size d = v.size d) ∧ r.size "time" = T ∧
      ∀ i : String → ℕ, i "time" < T → i "latitudes" < L → i "plev" < n →
        r.get i = .fin (2 * Real.pi * 6378137 * Real.cos (lat (i "latitudes")) / 9.80665 *
          ∑ j ∈ Finset.range (levelPos fromTop n (i "plev") + 1),
            layerFlux (v.get (Function.update i "plev" (levelPos fromTop n j))) (thickness n lev (p (i "time") (i "latitudes")) (lev 0) j)) := by
  have hdp : ∀ t < T, ∀ l < L, deltaPressure (levelList fromTop n lev) (.fin (p t l)) none
      = .ok (column n (fun k => thickness n lev (p t l) (lev 0) (levelPos fromTop n k))) :=
    fun t ht l hl => levelList_thickness fromTop n hn lev hinc h0 _ (hps t ht l hl)
  have a1 : ¬ ((LArr.indicesOf (psArr t0 T L p).size (psArr t0 T L p).dims).any (fun i => ((psArr t0 T L p).get i).isNaN) = true) := by
    simp [psArr, XF.isNaN]
  have a2 : ¬ (rawPs.any (fun p => XF.le p (.fin 0)) = true) := by
    intro h
    rw [List.any_eq_true] at h
    obtain ⟨q, hq, h⟩ := h
    rcases hraw q hq with rfl | ⟨x, hx, rfl⟩
    · simp at h
    · simp at h; linarith
  obtain ⟨ds, a3⟩ := mapM_exists_ok (fun i => deltaPressure (levelList fromTop n lev) ((psArr t0 T L p).get i) none)
    (LArr.indicesOf (psArr t0 T L p).size (psArr t0 T L p).dims) (fun i hi => by
      obtain ⟨b1, b2⟩ := indices_two T L t0 ht0 i hi
      exact ⟨_, hdp _ b1 _ b2⟩)
  obtain ⟨e1, e2⟩ := levelList_ends fromTop n hn lev
  have ho : (lev (levelPos fromTop n 0) < lev (levelPos fromTop n (n - 1))) ↔ fromTop = true := by
    have hlt := hinc 0 (n - 1) (by omega) (by omega)
    cases fromTop with
    | true => simpa [levelPos] using hlt
    | false => simpa [levelPos] using hlt.le
  unfold zonalPsiDA
  rw [if_neg a1, if_neg a2]
  have hth : psiThickness "plev" (levelList fromTop n lev) (column L lat) (psArr t0 T L p) = .ok
     ⟨["time", "latitudes", "plev"], fun d => if d = "time" then T else if d = "latitudes" then L else if d = "plev" then n else 0,
      fun i => match deltaPressure (levelList fromTop n lev) (.fin (p (i "time") (i "latitudes"))) none with
        | .ok t => t.getD (i "plev") .nan
        | .error _ => .nan⟩ := by
    unfold psiThickness
    simp only [a3, bind, Except.bind]
    simp [psArr, column, ht0.symm, levelList_length, pure, Except.pure]
    funext i
    cases deltaPressure (levelList fromTop n lev) (XF.fin (p (i "time") (i "latitudes"))) none <;> rfl
  simp only [bind, Except.bind, hth, e1, e2, pure]
  generalize hD : (⟨["time", "latitudes", "plev"], fun d => if d = "time" then T else if d = "latitudes" then L else if d = "plev" then n else 0,
      fun i => match deltaPressure (levelList fromTop n lev) (.fin (p (i "time") (i "latitudes"))) none with
        | .ok t => t.getD (i "plev") .nan
        | .error _ => .nan⟩ : LArr (XF ℝ)) = D
  have d1 : D.dims = ["time", "latitudes", "plev"] := by rw [← hD]
  have d2 : D.size = fun d => if d = "time" then T else if d = "latitudes" then L else if d = "plev" then n else 0 := by rw [← hD]
  have d3 : ∀ i : String → ℕ, i "time" < T → i "latitudes" < L → i "plev" < n →
      D.get i = thickness n lev (p (i "time") (i "latitudes")) (lev 0) (levelPos fromTop n (i "plev")) := by
    intro i b1 b2 b3
    rw [← hD]
    simp only [hdp _ b1 _ b2]
    rw [List.getD, column_getElem? _ _ _ b3]
    rfl
  have c1 : v.dims.all (fun d => !D.dims.contains d || v.size d == D.size d) = true := by
    rw [List.all_eq_true]
    intro d hd
    rw [d1, d2]
    by_cases x1 : d = "time"
    · subst x1; simp [hs3 hd]
    by_cases x2 : d = "latitudes"
    · subst x2; simp [hs2]
    by_cases x3 : d = "plev"
    · subst x3; simp [hs1]
    simp [x1, x2, x3]
  have c2 : D.dims.filter (fun d => !v.dims.contains d) = if "time" ∈ v.dims then [] else ["time"] := by
    rw [d1]
    by_cases ht : "time" ∈ v.dims <;> simp [ht, h1, h2]
  have hsz : ∀ d, (if v.dims.contains d = true then v.size d else D.size d) = if d ∈ v.dims then v.size d else D.size d := by
    intro d; simp
  have z1 : LArr.zip (· * ·) v D = .ok ⟨v.dims ++ (if "time" ∈ v.dims then [] else ["time"]), fun d => if d ∈ v.dims then v.size d else D.size d,
      fun i => v.get i * D.get i⟩ := by
    unfold LArr.zip
    rw [if_pos c1, c2]
    simp only [hsz]
  rw [z1]
  simp only [ho]
  generalize hA : (⟨v.dims ++ (if "time" ∈ v.dims then [] else ["time"]), fun d => if d ∈ v.dims then v.size d else D.size d,
      fun i => v.get i * D.get i⟩ : LArr (XF ℝ)) = A
  have A1 : A.dims = v.dims ++ (if "time" ∈ v.dims then [] else ["time"]) := by rw [← hA]
  have A2 : A.size = fun d => if d ∈ v.dims then v.size d else D.size d := by rw [← hA]
  have A3 : A.get = fun i => v.get i * D.get i := by rw [← hA]
  generalize hM : (if fromTop = true then cumsumDim "plev" A else reverseDim "plev" (cumsumDim "plev" (reverseDim "plev" A))) = M
  have M1 : M.dims = A.dims := by rw [← hM]; cases fromTop <;> rfl
  have M2 : M.size = A.size := by rw [← hM]; cases fromTop <;> rfl
  have z2 : ∀ F : LArr (XF ℝ), F.dims = ["latitudes"] → F.size "latitudes" = L →
      LArr.zip (· * ·) M F = .ok ⟨A.dims, fun d => if d ∈ A.dims then A.size d else F.size d, fun i => M.get i * F.get i⟩ := by
    intro F f1 f2
    have hm : "latitudes" ∈ A.dims := by rw [A1]; simp [h2]
    unfold LArr.zip
    rw [M1, M2, f1, if_pos]
    · have : ["latitudes"].filter (fun d => !A.dims.contains d) = [] := by simp [hm]
      rw [this, List.append_nil]
      simp
    · rw [List.all_eq_true]
      intro d _
      by_cases x : d = "latitudes"
      · subst x
        rw [A2]
        simp [h2, hs2, f2]
      · simp [x]
  rw [z2 _ rfl (by simp [column])]
  refine ⟨_, rfl, A1, ?_, ?_, ?_⟩
  · intro d hd
    have : d ∈ A.dims := by rw [A1]; simp [hd]
    simp only [if_pos this, A2, if_pos hd]
  · have : "time" ∈ A.dims := by
      rw [A1]
      by_cases ht : "time" ∈ v.dims <;> simp [ht]
    simp only [if_pos this, A2]
    by_cases ht : "time" ∈ v.dims
    · rw [if_pos ht, hs3 ht]
    · rw [if_neg ht, d2]; simp
  · intro i b1 b2 b3
    simp only
    have hval := oriented_cumsum fromTop n hn A (by rw [A2]; simp [h1, hs1]) i b3 (fun j => v.get (Function.update i "plev" (levelPos fromTop n j)))
      (thickness n lev (p (i "time") (i "latitudes")) (lev 0)) (fun j _ => hv _) (fun j _ => thickness_noInf _ _ _ _ _) (by
        intro j hj
        rw [A3]
        simp only
        rw [d3 _ (by simpa using b1) (by simpa using b2) (by simp [levelPos]; split <;> omega)]
        congr 2
        simp [levelPos]
        split <;> omega)
    rw [hM] at hval
    rw [hval, XF.fin_mul, mul_comm]
    rw [List.getD, column_getElem? _ _ _ b2]
    rfl

/-- **C119, the part that holds.** If the time dimension is called `time`, the result has exactly the dimensions of the zonal mean wind, in its order,
and combines each wind with the surface pressure of its own time and latitude. -/
theorem C119_time_partial (rawPs : List (XF ℝ)) (hraw : ∀ p ∈ rawPs, p = .nan ∨ ∃ x : ℝ, 0 < x ∧ p = .fin x) (fromTop : Bool) (T L n : ℕ) (hn : 2 ≤ n)
    (lev lat : ℕ → ℝ) (hinc : Increasing n lev) (h0 : 0 ≤ lev 0) (p : ℕ → ℕ → ℝ)
    (hps : ∀ t < T, ∀ l < L, (lev 0 + lev 1) / 2 < p t l) (v : LArr (XF ℝ)) (hd : v.dims.Perm ["time", "latitudes", "plev"]) (hs1 : v.size "plev" = n)
    (hs2 : v.size "latitudes" = L) (hs3 : v.size "time" = T) (hv : ∀ i, NoInf (v.get i)) :
    ∃ r, zonalPsiDA rawPs "plev" (levelList fromTop n lev) (column L lat) v (psArr "time" T L p) = .ok r ∧ r.dims = v.dims ∧ r.shape = v.shape ∧
      ∀ i : String → ℕ, v.InBounds i →
        r.get i = .fin (2 * Real.pi * 6378137 * Real.cos (lat (i "latitudes")) / 9.80665 *
          ∑ j ∈ Finset.range (levelPos fromTop n (i "plev") + 1),
            layerFlux (v.get (Function.update i "plev" (levelPos fromTop n j))) (thickness n lev (p (i "time") (i "latitudes")) (lev 0) j)) := by
  have m : ∀ d ∈ ["time", "latitudes", "plev"], d ∈ v.dims := fun d h => hd.mem_iff.mpr h
  have mt := m "time" (by simp)
  have ml := m "latitudes" (by simp)
  have mp := m "plev" (by simp)
  obtain ⟨r, r1, r2, r3, r4, r5⟩ := C119_exact rawPs hraw fromTop T L n hn lev lat hinc h0 "time" (by decide) p hps v mp ml hs1 hs2 (fun _ => hs3) hv
  rw [if_pos mt, List.append_nil] at r2
  refine ⟨r, r1, r2, ?_, ?_⟩
  · unfold LArr.shape
    rw [r2]
    exact List.map_congr_left r3
  · intro i hi
    exact r5 i (hs3 ▸ hi _ mt) (hs2 ▸ hi _ ml) (hs1 ▸ hi _ mp)

/-- **C119 counterexample, order.** The documentation promises the dimensions time, latitudes, plev. The zonal mean of a wind over time, level and cell
has the dimensions time, plev, latitudes, and so has every result. -/
theorem C119_order_counterexample (rawPs : List (XF ℝ)) (hraw : ∀ p ∈ rawPs, p = .nan ∨ ∃ x : ℝ, 0 < x ∧ p = .fin x) (fromTop : Bool) (T L n : ℕ)
    (hn : 2 ≤ n) (lev lat : ℕ → ℝ) (hinc : Increasing n lev) (h0 : 0 ≤ lev 0) (p : ℕ → ℕ → ℝ)
    (hps : ∀ t < T, ∀ l < L, (lev 0 + lev 1) / 2 < p t l) (v : LArr (XF ℝ)) (hd : v.dims = ["time", "plev", "latitudes"]) (hs1 : v.size "plev" = n)
    (hs2 : v.size "latitudes" = L) (hs3 : v.size "time" = T) (hv : ∀ i, NoInf (v.get i)) :
    ∃ r, zonalPsiDA rawPs "plev" (levelList fromTop n lev) (column L lat) v (psArr "time" T L p) = .ok r ∧ r.dims = ["time", "plev", "latitudes"] := by
  obtain ⟨r, r1, r2, -⟩ := C119_time_partial rawPs hraw fromTop T L n hn lev lat hinc h0 p hps v (by rw [hd]; decide) hs1 hs2 hs3 hv
  exact ⟨r, r1, by rw [r2, hd]⟩

/-- **C119 counterexample, name.** If the time dimension has another name, the call returns an array with one dimension more, `T` times as large: the
wind of every time is combined with the surface pressure of every time. -/
theorem C119_name_counterexample (rawPs : List (XF ℝ)) (hraw : ∀ p ∈ rawPs, p = .nan ∨ ∃ x : ℝ, 0 < x ∧ p = .fin x) (fromTop : Bool) (T L n : ℕ)
    (hn : 2 ≤ n) (lev lat : ℕ → ℝ) (hinc : Increasing n lev) (h0 : 0 ≤ lev 0) (t0 : String)
    (ht : t0 ≠ "time" ∧ t0 ≠ "latitudes" ∧ t0 ≠ "plev") (p : ℕ → ℕ → ℝ)
    (hps : ∀ t < T, ∀ l < L, (lev 0 + lev 1) / 2 < p t l) (v : LArr (XF ℝ)) (hd : v.dims = [t0, "plev", "latitudes"]) (hs1 : v.size "plev" = n)
    (hs2 : v.size "latitudes" = L) (hs3 : v.size t0 = T) (hv : ∀ i, NoInf (v.get i)) :
    ∃ r, zonalPsiDA rawPs "plev" (levelList fromTop n lev) (column L lat) v (psArr t0 T L p) = .ok r ∧
      r.dims = [t0, "plev", "latitudes", "time"] ∧ r.shape = [T, n, L, T] := by
  obtain ⟨r, r1, r2, r3, r4, -⟩ := C119_exact rawPs hraw fromTop T L n hn lev lat hinc h0 t0 ht.2.1 p hps v (by simp [hd]) (by simp [hd]) hs1 hs2
    (by simp [hd, ht.1.symm]) hv
  rw [hd, if_neg (by simp [ht.1.symm])] at r2
  refine ⟨r, r1, r2, ?_⟩
  unfold LArr.shape
  rw [r2]
  simp [r4, r3 t0 (by simp [hd]), r3 "plev" (by simp [hd]), r3 "latitudes" (by simp [hd]), hs1, hs2, hs3]

/-- **C119 counterexample, no time.** Surface pressures without a time dimension (or with more dimensions) never give a result. -/
theorem C119_rank_counterexample (rawPs : List (XF ℝ)) (plevName : String) (plev lats : List ℝ) (v ps : LArr (XF ℝ)) (hr : ps.dims.length ≠ 2)
    (r : LArr (XF ℝ)) : zonalPsiDA rawPs plevName plev lats v ps ≠ .ok r := by
  have hth : ∀ x, psiThickness plevName plev lats ps ≠ .ok x := by
    intro x h
    unfold psiThickness at h
    cases hm : (LArr.indicesOf ps.size ps.dims).mapM (fun i => deltaPressure plev (ps.get i) none) with
    | error e => simp [hm, bind, Except.bind] at h
    | ok q =>
      simp only [hm, bind, Except.bind] at h
      match hd : ps.dims, hr with
      | [], _ => simp [hd, throw, throwThe, MonadExceptOf.throw] at h
      | [_], _ => simp [hd, throw, throwThe, MonadExceptOf.throw] at h
      | [_, _], hr => simp at hr
      | _ :: _ :: _ :: _, _ => simp [hd, throw, throwThe, MonadExceptOf.throw] at h
  intro h
  unfold zonalPsiDA at h
  simp only [bind, Except.bind, throw, throwThe, MonadExceptOf.throw, pure, Except.pure] at h
  split_ifs at h
  cases hx : psiThickness plevName plev lats ps with
  | error e => rw [hx] at h; simp at h
  | ok x => exact hth x hx

/-- one time, one latitude and three levels from 100 to 900 hPa: the hypotheses are met, with the levels in either order -/
example (fromTop : Bool) (t0 : String) (ht : t0 ≠ "latitudes") : ∃ r, zonalPsiDA [.fin 95000, .nan] "plev" (levelList fromTop 3 (fun k => 10000 + 40000 * (k : ℝ)))
    (column 1 (fun _ => 30)) ⟨[t0, "plev", "latitudes"], fun d => if d = "plev" then 3 else 1, fun _ => .fin 1⟩ (psArr t0 1 1 (fun _ _ => 95000)) = .ok r := by
  obtain ⟨r, h, -⟩ := C119_exact [.fin 95000, .nan] (by
      intro p hp
      simp only [List.mem_cons, List.not_mem_nil, or_false] at hp
      rcases hp with rfl | rfl
      · exact Or.inr ⟨95000, by norm_num, rfl⟩
      · exact Or.inl rfl) fromTop 1 1 3 (by norm_num) (fun k => 10000 + 40000 * (k : ℝ)) (fun _ => 30) (by
      intro i j hij _
      have : (i : ℝ) < j := by exact_mod_cast hij
      simp only
      linarith) (by norm_num) t0 ht (fun _ _ => 95000) (by norm_num) ⟨[t0, "plev", "latitudes"], fun d => if d = "plev" then 3 else 1, fun _ => .fin 1⟩
      (by simp) (by simp) (by simp) (by simp) (by simp) (by simp [NoInf])
  exact ⟨r, h⟩

end Verif.Props
