import Verif.Lemmas.DeltaPressure2
import Mathlib.Algebra.Order.Ring.Rat
import Mathlib.Tactic.NormNum

/-
Properties C01-C07: `delta_pressure` (pressure layer thickness).

Notation: a top-down column has `n` levels `lev 0 < lev 1 < ... < lev (n-1)` (`Spec.Increasing`); the array
handed to the function is `Spec.column n lev` or its reverse. `ptop : Option K` is the optional argument
`pressure_top`, whose default is the smallest level, so the column top is `ptop.getD (lev 0)`.
-/

set_option linter.unusedSectionVars false

namespace Verif.Props
open Verif.Model Verif.Spec Verif.Lemmas
variable {K : Type _} [Field K] [LinearOrder K] [IsStrictOrderedRing K]

/-- The example column used for non-vacuity checks: 100, 200, 300, 400 hPa. -/
def exLev (k : ℕ) : ℚ := 100 * (k + 1)

theorem exLev_incr (n : ℕ) : Increasing n exLev := by
  intro i j hij _
  unfold exLev
  have : (i : ℚ) < j := by exact_mod_cast hij
  linarith

/-! ### C01 -/

/-- **C01** (partial). Layers of a strictly monotone column, in either order, sum to `ps - ptop`.
Full property: for every `ps ≥ ptop` for which a result is returned. Missing: surface pressures at or above
(numerically `≤`) the midpoint of the two top levels, for which the property is false, see
`C01_counterexample`. -/
theorem C01_sum_of_layers_partial (n : ℕ) (hn : 2 ≤ n) (lev : ℕ → K) (hinc : Increasing n lev)
    (ps : K) (ptop : Option K) (h0 : 0 ≤ ptop.getD (lev 0)) (ht : ptop.getD (lev 0) ≤ lev 0)
    (hps : (lev 0 + lev 1) / 2 < ps) (p : List K) (hp : p = column n lev ∨ p = (column n lev).reverse) :
    ∃ d, deltaPressure p (.fin ps) ptop = .ok d ∧ nanSum d = ps - ptop.getD (lev 0) := by
  have h01 : lev 0 < lev 1 := hinc 0 1 (by omega) (by omega)
  have hsum := nanSum_all n (by omega) lev hinc ps (ptop.getD (lev 0)) ht (by linarith)
  rcases hp with rfl | rfl
  · exact ⟨_, deltaPressure_incr n hn lev hinc ps ptop h0 ht hps, hsum⟩
  · rw [deltaPressure_reverse n hn lev hinc, deltaPressure_incr n hn lev hinc ps ptop h0 ht hps]
    exact ⟨_, rfl, by rw [nanSum_reverse]; exact hsum⟩

example : ∃ d, deltaPressure (column 4 exLev).reverse (.fin (320 : ℚ)) (some 50) = .ok d ∧ nanSum d = 320 - 50 :=
  C01_sum_of_layers_partial 4 (by norm_num) exLev (exLev_incr 4) 320 (some 50) (by norm_num)
    (by norm_num [exLev]) (by norm_num [exLev]) _ (Or.inr rfl)

/-- **C01 counterexample.** Levels 100, 200, 300 hPa, top 50 hPa, surface pressure 95 hPa (all checks pass):
the result is `[-105, nan, nan]`, whose sum is not `95 - 50`. The index `end_level - 1` wraps to `-1`. -/
theorem C01_counterexample :
    ∃ d, deltaPressure [100, 200, 300] (.fin (95 : ℚ)) (some 50) = .ok d ∧ nanSum d ≠ 95 - 50 :=
  ⟨[.fin (-105), .nan, .nan], by decide +kernel, by decide +kernel⟩

/-! ### C02 -/

/-- **C02** (partial). Layer `k` (top-down numbering) is missing exactly when its upper half level is at or below
the surface, and is otherwise a positive number. Missing: same exclusion as C01, see `C02_counterexample`. -/
theorem C02_missing_iff_underground_partial (n : ℕ) (hn : 2 ≤ n) (lev : ℕ → K) (hinc : Increasing n lev)
    (ps : K) (ptop : Option K) (h0 : 0 ≤ ptop.getD (lev 0)) (ht : ptop.getD (lev 0) ≤ lev 0)
    (hps : (lev 0 + lev 1) / 2 < ps) :
    ∃ d, deltaPressure (column n lev) (.fin ps) ptop = .ok d ∧
      deltaPressure (column n lev).reverse (.fin ps) ptop = .ok d.reverse ∧ d.length = n ∧
      ∀ k, k < n →
        (d[k]? = some .nan ↔ ps ≤ upperIface lev (ptop.getD (lev 0)) k) ∧
        (d[k]? ≠ some .nan → ∃ x, d[k]? = some (.fin x) ∧ 0 < x) := by
  have hd := deltaPressure_incr n hn lev hinc ps ptop h0 ht hps
  refine ⟨_, hd, ?_, by simp, ?_⟩
  · rw [deltaPressure_reverse n hn lev hinc, hd]; rfl
  · intro k hk
    rw [column_getElem? _ _ _ hk]
    generalize ptop.getD (lev 0) = t at *
    unfold thickness
    by_cases h : ps ≤ upperIface lev t k
    · simp [h]
    · simp only [h, if_false, Option.some.injEq, reduceCtorEq, not_false_eq_true, ne_eq, XF.fin.injEq,
        exists_eq_left', true_and, forall_const, iff_self]
      have h := not_le.1 h
      have hup : k + 1 < n → upperIface lev t k < (lev k + lev (k + 1)) / 2 := by
        intro hk1
        have h1 := hinc k (k + 1) (by omega) hk1
        unfold upperIface; split
        · rename_i hk0; subst hk0; linarith
        · have := hinc (k - 1) k (by omega) hk; linarith
      unfold lowerIface; split
      · rename_i hk1
        have := lt_min h (hup hk1); linarith
      · linarith

example : ∃ d, deltaPressure (column 4 exLev) (.fin (220 : ℚ)) none = .ok d ∧
    d[3]? = some .nan ∧ d[0]? = some (.fin 50) := ⟨[.fin 50, .fin 70, .nan, .nan], by decide +kernel, rfl, rfl⟩

/-- **C02 counterexample.** The top layer, which is above ground, gets a negative thickness. -/
theorem C02_counterexample :
    ∃ d, deltaPressure [100, 200, 300] (.fin (95 : ℚ)) (some 50) = .ok d ∧ d[0]? = some (.fin (-105)) :=
  ⟨[.fin (-105), .nan, .nan], by decide +kernel, rfl⟩

/-! ### C03 -/

/-- **C03** (partial). Every layer equals the specified difference of half-level pressures
(`Spec.thickness`: lower half level, cut at the surface, minus upper half level). Missing: as C01. -/
theorem C03_layer_formula_partial (n : ℕ) (hn : 2 ≤ n) (lev : ℕ → K) (hinc : Increasing n lev)
    (ps : K) (ptop : Option K) (h0 : 0 ≤ ptop.getD (lev 0)) (ht : ptop.getD (lev 0) ≤ lev 0)
    (hps : (lev 0 + lev 1) / 2 < ps) :
    deltaPressure (column n lev) (.fin ps) ptop = .ok (column n (thickness n lev ps (ptop.getD (lev 0)))) :=
  deltaPressure_incr n hn lev hinc ps ptop h0 ht hps

example : deltaPressure (column 4 exLev) (.fin (1000 : ℚ)) (some 0) =
    .ok (column 4 (thickness 4 exLev 1000 0)) ∧
    column 4 (thickness 4 exLev 1000 0) = [.fin 150, .fin 100, .fin 100, .fin 650] :=
  ⟨C03_layer_formula_partial 4 (by norm_num) exLev (exLev_incr 4) 1000 (some 0) (by norm_num)
    (by norm_num [exLev]) (by norm_num [exLev]), by decide +kernel⟩

/-- **C03, excluded region.** What the code returns when the surface lies at or above the first midpoint:
the top layer is `ps - (lev 0 + lev (n-1)) / 2` instead of `ps - ptop`, all other layers are missing. -/
theorem C03_top_layer_wraps (n : ℕ) (hn : 2 ≤ n) (lev : ℕ → K) (hinc : Increasing n lev)
    (ps : K) (ptop : Option K) (h0 : 0 ≤ ptop.getD (lev 0)) (ht : ptop.getD (lev 0) ≤ lev 0)
    (htps : ptop.getD (lev 0) ≤ ps) (hps0 : 0 < ps) (hps : ps ≤ (lev 0 + lev 1) / 2) :
    deltaPressure (column n lev) (.fin ps) ptop =
      .ok (column n (fun k => if k = 0 then .fin (ps - (lev 0 + lev (n - 1)) / 2) else .nan)) := by
  have h01 : lev 0 < lev 1 := hinc 0 1 (by omega) (by omega)
  unfold deltaPressure
  rw [resolveTop_incr n (by omega) lev hinc ptop ht]
  simp only [bind, Except.bind]
  rw [deltaPressure1D_column n hn, if_neg, if_neg (not_lt.2 (le_of_lt h01))]
  · obtain ⟨e, hen, hm, hmax, heq⟩ := deltaSorted_pos n hn lev (.fin ps) (ptop.getD (lev 0)) (by simpa using hps0)
    have he : e = 0 := by
      by_contra hne
      have hlev : ∀ i j, i ≤ j → j < n → lev i ≤ lev j := by
        intro i j hij hj
        rcases Nat.lt_or_eq_of_le hij with h | h
        · exact le_of_lt (hinc i j h hj)
        · rw [h]
      have h1 := hlev 1 e (by omega) hen
      have h2 := hlev 0 (e - 1) (by omega) (by omega)
      simp [mid, hne] at hm
      linarith
    rw [heq, he]
    congr 1; apply column_congr; intro k hk
    unfold coreEntry
    by_cases hk0 : k = 0 <;> simp [hk0]
  · rintro (h | h)
    · exact absurd h (not_lt.2 h0)
    · simp at h; exact absurd h (not_lt.2 htps)

example : deltaPressure (column 3 exLev) (.fin (150 : ℚ)) none =
    .ok (column 3 (fun k => if k = 0 then .fin (150 - (exLev 0 + exLev (3 - 1)) / 2) else .nan)) :=
  C03_top_layer_wraps 3 (by norm_num) exLev (exLev_incr 3) 150 none (by norm_num [exLev])
    (by norm_num) (by norm_num [exLev]) (by norm_num) (by norm_num [exLev])

/-! ### C04 -/

/-- **C04.** Reversing the level array reverses the result; errors are the same. For every surface pressure
(NaN and infinities included) and every `pressure_top`. -/
theorem C04_order_independent (n : ℕ) (hn : 2 ≤ n) (lev : ℕ → K) (hinc : Increasing n lev) (ps : XF K)
    (ptop : Option K) (p : List K) (hp : p = column n lev ∨ p = (column n lev).reverse) :
    deltaPressure p.reverse ps ptop = (deltaPressure p ps ptop).map List.reverse := by
  rcases hp with rfl | rfl
  · exact deltaPressure_reverse n hn lev hinc ps ptop
  · rw [List.reverse_reverse, deltaPressure_reverse n hn lev hinc ps ptop]
    cases deltaPressure (column n lev) ps ptop with
    | error e => rfl
    | ok d => simp [Except.map]

example : deltaPressure [300, 200, 100] (.fin (260 : ℚ)) none = .ok [.fin 10, .fin 100, .fin 50] ∧
    deltaPressure [100, 200, 300] (.fin (260 : ℚ)) none = .ok [.fin 50, .fin 100, .fin 10] := by
  decide +kernel

/-! ### C05 -/

/-- **C05.** For surface pressure of any shape, the N-D result has shape `shape ++ [nlev]`, holds exactly that many
values, and its entry at `idx ++ [k]` is entry `k` of the scalar call for the surface pressure at `idx`. -/
theorem C05_nd_pointwise (p : List K) (hp : 2 ≤ p.length) (ps : NDArr (XF K)) (ptop : Option K)
    (hwf : ps.data.length = ps.shape.prod) (r : NDArr (XF K)) (hr : deltaPressureND p ps ptop = .ok r) :
    r.shape = ps.shape ++ [p.length] ∧ r.data.length = r.shape.prod ∧
    ∀ idx, ValidIndex ps.shape idx → ∃ e d, ps.data[offset ps.shape idx]? = some e ∧
      deltaPressure p e ptop = .ok d ∧ d.length = p.length ∧
      ∀ k, k < p.length → r.data[offset r.shape (idx ++ [k])]? = d[k]? := by
  unfold deltaPressureND at hr
  cases ht : resolveTop p ptop with
  | error e => simp [ht, bind, Except.bind] at hr
  | ok t =>
    simp only [ht, bind, Except.bind] at hr
    cases hm : ps.data.mapM (fun e => deltaPressure1D p e t) with
    | error e => simp [hm] at hr
    | ok rows =>
      simp only [hm, pure, Except.pure] at hr
      cases hr
      have hall := (mapM_ok_iff _ _ _).1 hm
      have hrows : ∀ d ∈ rows, d.length = p.length := by
        intro d hd
        obtain ⟨i, hi, rfl⟩ := List.mem_iff_getElem.1 hd
        have hlen := hall.length_eq
        have := List.forall₂_iff_get.1 hall
        have hok := this.2 i (by omega) hi
        have hl : ∀ x ∈ p, 0 ≤ x := fun x hx =>
          le_trans (deltaPressure1D_ok_top p _ t _ hok) (resolveTop_le p ptop t ht x hx)
        exact deltaPressure1D_length p hp hl _ t _ hok
      refine ⟨rfl, ?_, ?_⟩
      · simp only [List.prod_append, List.prod_cons, List.prod_nil, mul_one]
        rw [flatten_uniform_length rows p.length hrows, ← hall.length_eq, hwf]
      · intro idx hidx
        have hlt : offset ps.shape idx < ps.data.length := by rw [hwf]; exact offset_lt _ _ hidx
        have hlt' : offset ps.shape idx < rows.length := by rw [← hall.length_eq]; exact hlt
        have h2 := (List.forall₂_iff_get.1 hall).2 _ hlt hlt'
        refine ⟨ps.data[offset ps.shape idx], rows[offset ps.shape idx], by simp [hlt], ?_, ?_, ?_⟩
        · unfold deltaPressure; rw [ht]; exact h2
        · exact hrows _ (List.getElem_mem _)
        · intro k hk
          simp only
          rw [offset_snoc _ _ _ _ hidx, flatten_uniform_getElem? rows p.length hrows _ _ hk]
          simp [hlt']

/-- **C05, errors.** The N-D call fails exactly when the scalar call fails for some element. -/
theorem C05_nd_error (p : List K) (ps : NDArr (XF K)) (ptop : Option K) (hne : ps.data ≠ []) :
    (∃ err, deltaPressureND p ps ptop = .error err) ↔ ∃ e ∈ ps.data, ∃ err, deltaPressure p e ptop = .error err := by
  unfold deltaPressureND deltaPressure
  cases ht : resolveTop p ptop with
  | error err =>
    obtain ⟨a, l, hl⟩ := List.exists_cons_of_ne_nil hne
    exact ⟨fun _ => ⟨a, by simp [hl], err, rfl⟩, fun _ => ⟨err, rfl⟩⟩
  | ok t =>
    simp only [bind, Except.bind]
    rw [← mapM_error_iff]
    cases ps.data.mapM (fun e => deltaPressure1D p e t) with
    | error e => simp
    | ok r => simp [pure, Except.pure]

example : (deltaPressureND [100, 200, 300] ⟨[2, 2], [.fin 260, .fin 300, .fin 240, .fin (350:ℚ)]⟩ none).map NDArr.data
    = .ok [.fin 50, .fin 100, .fin 10, .fin 50, .fin 100, .fin 50, .fin 50, .fin 90, .nan, .fin 50, .fin 100, .fin 100] := by
  decide +kernel

/-! ### C06 -/

/-- `t` is the top used by the call: the argument if given, else the smallest level. -/
def IsTop (p : List K) (ptop : Option K) (t : K) : Prop :=
  match ptop with
  | some s => t = s
  | none => t ∈ p ∧ ∀ x ∈ p, t ≤ x

/-- **C06.** Exact error contract of the scalar call for at least two levels. -/
theorem C06_error_contract (p : List K) (hp : 2 ≤ p.length) (ps : XF K) (ptop : Option K) (t : K)
    (ht : IsTop p ptop t) :
    ((∃ x ∈ p, x < t) ∨ t < 0 ∨ XF.lt ps (.fin t) = true ∨ XF.le ps (.fin 0) = true ∨ ps = .nan →
      deltaPressure p ps ptop = .error .valueError) ∧
    (¬ ((∃ x ∈ p, x < t) ∨ t < 0 ∨ XF.lt ps (.fin t) = true ∨ XF.le ps (.fin 0) = true ∨ ps = .nan) →
      ∃ d, deltaPressure p ps ptop = .ok d ∧ d.length = p.length) := by
  have hne : p ≠ [] := by intro h; simp [h] at hp
  obtain ⟨m, hm1, hm2, hm3⟩ := npMin_spec p hne
  have hz : XF.lt (.fin 0) ps = false ↔ (XF.le ps (.fin 0) = true ∨ ps = .nan) := by
    cases ps <;> simp [XF.lt, XF.le]
  have hres : resolveTop p ptop = if ∃ x ∈ p, x < t then .error .valueError else .ok t := by
    cases ptop with
    | none =>
      obtain ⟨h1, h2⟩ := ht
      have : m = t := le_antisymm (hm3 t h1) (h2 m hm2)
      rw [resolveTop_none _ _ hm1, if_neg, this]
      rintro ⟨x, hx, hlt⟩
      exact absurd (h2 x hx) (not_le.2 hlt)
    | some s =>
      have : t = s := ht
      subst this
      rw [resolveTop_some _ _ _ hm1]
      by_cases hc : t > m
      · rw [if_pos hc, if_pos ⟨m, hm2, hc⟩]
      · rw [if_neg hc, if_neg]
        rintro ⟨x, hx, hlt⟩
        exact hc (lt_of_le_of_lt (hm3 x hx) hlt)
  obtain ⟨lev, hlev⟩ := @list_eq_column K ⟨0⟩ p
  unfold deltaPressure
  rw [hres]
  by_cases hlow : ∃ x ∈ p, x < t
  · simp only [hlow, if_true, bind, Except.bind, true_or, not_true_eq_false, false_implies, and_true, implies_true]
  · simp only [hlow, if_false, bind, Except.bind, false_or]
    by_cases ht0 : t < 0
    · have : deltaPressure1D p ps t = .error .valueError := by
        conv_lhs => rw [hlev]
        rw [deltaPressure1D_column _ hp, if_pos (Or.inl ht0)]
      simp [ht0, this]
    · have hl : ∀ i, i < p.length → 0 ≤ lev i := by
        intro i hi
        by_contra hc
        apply hlow
        refine ⟨lev i, ?_, lt_of_lt_of_le (not_le.1 hc) (not_lt.1 ht0)⟩
        rw [hlev]; simp only [column, List.mem_map, List.mem_range]; exact ⟨i, hi, rfl⟩
      have := deltaPressure1D_outcome p.length hp lev hl ps t
      rw [← hlev, hz] at this
      exact this

/-- **C06, short arrays.** With one level the call raises `IndexError` (or a check's `ValueError`); with none, `ValueError`. -/
theorem C06_short_arrays (ps : XF K) (ptop : Option K) (x : K) :
    deltaPressure ([] : List K) ps ptop = .error .valueError ∧
    (deltaPressure [x] ps ptop = .error .valueError ∨ deltaPressure [x] ps ptop = .error .indexError) := by
  constructor
  · simp [deltaPressure, resolveTop, npMin, bind, Except.bind]
  · unfold deltaPressure
    cases ht : resolveTop [x] ptop with
    | error e =>
      left
      cases ptop with
      | none => simp [resolveTop, npMin, bind, Except.bind, pure, Except.pure] at ht
      | some t =>
        rw [resolveTop_some [x] x t rfl] at ht
        split at ht <;> cases ht
        rfl
    | ok t =>
      have e1 : Py.index [x] 1 = .error .indexError := Py.index_oob [x] 1 (by simp)
      simp only [bind, Except.bind, deltaPressure1D, e1]
      by_cases h1 : t < 0
      · simp [h1, throw, throwThe, MonadExceptOf.throw]
      · by_cases h2 : XF.lt ps (.fin t) = true
        · simp [h1, h2, throw, throwThe, MonadExceptOf.throw]
        · simp [h1, h2]

example : deltaPressure [100, 200] (.nan : XF ℚ) none = .error .valueError ∧
    deltaPressure [100, 200] (.fin (180 : ℚ)) (some 100) = .ok [.fin 50, .fin 30] ∧
    deltaPressure [100, 200] (.fin (90 : ℚ)) none = .error .valueError := by decide +kernel

/-! ### C07 -/

/-- **C07.** Changing units by a positive factor changes the result by the same factor; errors are unchanged.
For every level array (any length, any order), every surface pressure and top. -/
theorem C07_unit_independent (c : K) (hc : 0 < c) (p : List K) (ps : XF K) (ptop : Option K) :
    deltaPressure (p.map (c * ·)) (scale c ps) (ptop.map (c * ·))
      = (deltaPressure p ps ptop).map (List.map (scale c)) := by
  unfold deltaPressure
  rw [resolveTop_scale c hc]
  cases ht : resolveTop p ptop with
  | error e => rfl
  | ok t =>
    simp only [Except.map, bind, Except.bind]
    exact deltaPressure1D_scale c hc p ps t (resolveTop_le p ptop t ht)

example : deltaPressure [10000, 20000, 30000] (.fin (26000 : ℚ)) none
    = (deltaPressure [100, 200, 300] (.fin (260 : ℚ)) none).map (List.map (scale 100)) := by
  have := C07_unit_independent (100 : ℚ) (by norm_num) [100, 200, 300] (.fin 260) none
  norm_num [scale] at this
  exact this

/-- `dpres_plev` is `delta_pressure`. -/
theorem dpres_plev_eq (p : List K) (ps : XF K) (ptop : Option K) : dpresPlev p ps ptop = deltaPressure p ps ptop := rfl

end Verif.Props
