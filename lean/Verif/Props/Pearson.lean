import Verif.Lemmas.Pearson

/-
C64, C65, C96, C97: pearson_r.
-/

set_option linter.unusedSectionVars false

namespace Verif.Props
open Model Spec Lemmas

/-- two cells differ in `f` -/
def Varies (V : List (ℝ × ℝ × ℝ)) (f : ℝ × ℝ × ℝ → ℝ) : Prop := ∃ x ∈ V, ∃ y ∈ V, f x ≠ f y

/-- the result expected for cells (weight, a, b): the weighted correlation coefficient if both series vary, NaN otherwise -/
def IsPearson (V : List (ℝ × ℝ × ℝ)) (r : XF ℝ) : Prop :=
  (Varies V (·.2.1) ∧ Varies V (·.2.2) → r = .fin (correlation V)) ∧ (¬ (Varies V (·.2.1) ∧ Varies V (·.2.2)) → r = .nan)

theorem spread_zero (V : List (ℝ × ℝ × ℝ)) (hw : ∀ x ∈ V, 0 < x.1) (f : ℝ × ℝ × ℝ → ℝ) :
    (V.map (fun x => x.1 * (f x - wMean V (·.1) f) ^ 2)).sum = 0 ↔ ¬ Varies V f := by
  rw [sum_zero_iff V _ (fun x hx => mul_nonneg (hw x hx).le (sq_nonneg _))]
  unfold Varies
  push Not
  constructor
  · intro h x hx y hy
    have e : ∀ z ∈ V, f z = wMean V (·.1) f := by
      intro z hz
      have := h z hz
      rcases mul_eq_zero.mp this with h0 | h0
      · exact absurd h0 (hw z hz).ne'
      · have := pow_eq_zero_iff (two_ne_zero) |>.mp h0
        linarith
    rw [e x hx, e y hy]
  · intro h x hx
    have hW : (V.map (·.1)).sum ≠ 0 := by
      rw [Ne, sum_zero_iff V _ (fun x hx => (hw x hx).le)]
      intro h0
      exact (hw x hx).ne' (h0 x hx)
    have : wMean V (·.1) f = f x := by
      rw [wMean_congr V (·.1) f (fun y => 0 * f y + f x) (fun y hy _ => by rw [h y hy x hx]; ring), wMean_affine V (·.1) f hW]
      ring
    rw [this]
    ring

theorem corrX_isPearson (V : List (ℝ × ℝ × ℝ)) (hw : ∀ x ∈ V, 0 < x.1) : IsPearson V (corrX V) := by
  have h1 := spread_zero V hw (·.2.1)
  have h2 := spread_zero V hw (·.2.2)
  constructor
  · rintro ⟨ha, hb⟩
    refine (corrX_eq V (fun x hx => (hw x hx).le) (mul_ne_zero ?_ ?_)).1
    · rw [Ne, h1]; exact not_not.mpr ha
    · rw [Ne, h2]; exact not_not.mpr hb
  · intro h
    refine corrX_nan V (fun x hx => (hw x hx).le) ?_
    rw [mul_eq_zero, h1, h2]
    tauto

theorem IsPearson.unique {V : List (ℝ × ℝ × ℝ)} {r s : XF ℝ} (hr : IsPearson V r) (hs : IsPearson V s) : r = s := by
  by_cases h : Varies V (·.2.1) ∧ Varies V (·.2.2)
  · rw [hr.1 h, hs.1 h]
  · rw [hr.2 h, hs.2 h]

/-- weights given to the function, and the weights that count -/
inductive WeightsArg : List ℝ → Option (List (XF ℝ)) → Prop
  | given (ws : List ℝ) (h : ∀ w ∈ ws, 0 < w) : WeightsArg ws (some (ws.map .fin))
  | absent (n : ℕ) : WeightsArg (List.replicate n 1) none

theorem WeightsArg.pos {ws : List ℝ} {w : Option (List (XF ℝ))} (h : WeightsArg ws w) : ∀ x ∈ ws, 0 < x := by
  cases h with
  | given _ h => exact h
  | absent n =>
    intro x hx
    rw [(List.mem_replicate.mp hx).2]
    exact one_pos

theorem maps_zip (ws : List ℝ) (a b : List (Option ℝ)) (ha : a.length = ws.length) (hb : b.length = ws.length) :
    (List.zip ws (List.zip a b)).map (fun x => toX x.2.1) = a.map toX ∧ (List.zip ws (List.zip a b)).map (fun x => toX x.2.2) = b.map toX ∧
    (List.zip ws (List.zip a b)).map (fun x => (XF.fin x.1 : XF ℝ)) = ws.map .fin := by
  have hz : (List.zip a b).length = ws.length := by simp [ha, hb]
  have h2 : (List.zip ws (List.zip a b)).map Prod.snd = List.zip a b := List.map_snd_zip (by omega)
  have h1 : (List.zip ws (List.zip a b)).map Prod.fst = ws := List.map_fst_zip (by omega)
  have h3 : (List.zip a b).map Prod.fst = a := List.map_fst_zip (by omega)
  have h4 : (List.zip a b).map Prod.snd = b := List.map_snd_zip (by omega)
  refine ⟨?_, ?_, ?_⟩
  · conv_rhs => rw [← h3, ← h2, List.map_map, List.map_map]
    rfl
  · conv_rhs => rw [← h4, ← h2, List.map_map, List.map_map]
    rfl
  · conv_rhs => rw [← h1, List.map_map]
    rfl

/-- `C64`: for series of the same length (missing values allowed with `skipna`) and positive weights, the function returns the weighted
correlation coefficient of the pairs in which both have a value, or NaN if either is constant there -/
theorem C64_value {X : Type} (xs : StatArg X → StatArg X → Option (List (XF ℝ)) → Bool → Except PyErr X) (ws : List ℝ) (w : Option (List (XF ℝ)))
    (hw : WeightsArg ws w) (a b : List (Option ℝ)) (ha : a.length = ws.length) (hb : b.length = ws.length) (hne : ws ≠ []) (skipna : Bool)
    (hs : skipna = true ∨ (none ∉ a ∧ none ∉ b)) :
    ∃ r, pearsonR xs (.array (a.map toX)) (.array (b.map toX)) w skipna = .ok (some (.number r)) ∧ IsPearson (validCells ws a b) r := by
  obtain ⟨h1, h2, h3⟩ := maps_zip ws a b ha hb
  set T := List.zip ws (List.zip a b) with hT
  have hTne : T ≠ [] := by
    intro h
    have : T.length = ws.length := by simp [hT, ha, hb]
    rw [h] at this
    exact hne (List.length_eq_zero_iff.mp this.symm)
  have hall : skipna = true ∨ ∀ x ∈ T, (cellVal x).isSome = true := by
    refine hs.imp_right fun ⟨hna, hnb⟩ x hx => ?_
    obtain ⟨w, o, m⟩ := x
    have hz := (List.of_mem_zip hx).2
    have ho := (List.of_mem_zip hz).1
    have hm := (List.of_mem_zip hz).2
    cases o with
    | none => exact absurd ho hna
    | some o => cases m with
      | none => exact absurd hm hnb
      | some m => rfl
  have hpos : ∀ x ∈ T, 0 < x.1 := by
    intro x hx
    exact hw.pos _ (List.of_mem_zip hx).1
  have hcore : pearsonCore (a.map toX) (b.map toX) w skipna = .ok (corrX (validCells ws a b)) := by
    rw [validCells_cellVal, ← hT, ← h1, ← h2]
    cases hw with
    | given _ _ =>
      rw [← h3]
      exact core_some T hpos hTne skipna hall
    | absent n =>
      refine core_none T (fun x hx => ?_) hTne skipna hall
      exact (List.mem_replicate.mp (List.of_mem_zip hx).1).2
  refine ⟨corrX (validCells ws a b), ?_, ?_⟩
  · simp only [pearsonR, StatArg.isDataArray, Bool.false_eq_true, not_false_eq_true, and_self, if_true, npRavel, bind, Except.bind, hcore, Except.map,
      swallowValueError]
  · apply corrX_isPearson
    rw [validCells_cellVal]
    exact mem_cellVal_pos T hpos

/-- `C64`: the coefficient lies between -1 and 1 -/
theorem C64_range (V : List (ℝ × ℝ × ℝ)) (hw : ∀ x ∈ V, 0 < x.1) (ha : Varies V (·.2.1)) (hb : Varies V (·.2.2)) : -1 ≤ correlation V ∧ correlation V ≤ 1 := by
  rw [← abs_le]
  refine (corrX_eq V (fun x hx => (hw x hx).le) (mul_ne_zero ?_ ?_)).2
  · rw [Ne, spread_zero V hw (·.2.1)]; exact not_not.mpr ha
  · rw [Ne, spread_zero V hw (·.2.2)]; exact not_not.mpr hb

theorem wMean_map {α β : Type} (l : List α) (g : α → β) (w f : β → ℝ) : wMean (l.map g) w f = wMean l (fun x => w (g x)) (fun x => f (g x)) := by
  unfold wMean
  simp only [List.map_map, Function.comp_def]

theorem correlation_swap (V : List (ℝ × ℝ × ℝ)) : correlation (V.map (fun x => (x.1, x.2.2, x.2.1))) = correlation V := by
  unfold correlation
  simp only [List.map_map, Function.comp_def, wMean_map]
  rw [mul_comm (List.sum (List.map (fun x => x.1 * (x.2.2 - wMean V (·.1) (·.2.2)) ^ 2) V))]
  congr 2
  refine List.map_congr_left fun x _ => by ring

theorem validCells_swap (ws : List ℝ) (a b : List (Option ℝ)) : validCells ws b a = (validCells ws a b).map (fun x => (x.1, x.2.2, x.2.1)) := by
  unfold validCells
  induction ws generalizing a b with
  | nil => rfl
  | cons w ws ih =>
    cases a with
    | nil => cases b <;> rfl
    | cons x a => cases b with
      | nil => rfl
      | cons y b =>
        simp only [List.zip_cons_cons, List.filterMap_cons, ih a b]
        cases x <;> cases y <;> rfl

theorem Varies.map {V : List (ℝ × ℝ × ℝ)} (g : ℝ × ℝ × ℝ → ℝ × ℝ × ℝ) (f : ℝ × ℝ × ℝ → ℝ) :
    Varies (V.map g) f ↔ Varies V (fun x => f (g x)) := by
  unfold Varies
  simp only [List.mem_map]
  constructor
  · rintro ⟨x, ⟨x', hx, rfl⟩, y, ⟨y', hy, rfl⟩, h⟩
    exact ⟨x', hx, y', hy, h⟩
  · rintro ⟨x, hx, y, hy, h⟩
    exact ⟨_, ⟨x, hx, rfl⟩, _, ⟨y, hy, rfl⟩, h⟩

/-- `C64`: symmetric in the two series -/
theorem C64_symmetric {X : Type} (xs : StatArg X → StatArg X → Option (List (XF ℝ)) → Bool → Except PyErr X) (ws : List ℝ) (w : Option (List (XF ℝ)))
    (hw : WeightsArg ws w) (a b : List (Option ℝ)) (ha : a.length = ws.length) (hb : b.length = ws.length) (hne : ws ≠ []) (skipna : Bool)
    (hs : skipna = true ∨ (none ∉ a ∧ none ∉ b)) :
    pearsonR xs (.array (a.map toX)) (.array (b.map toX)) w skipna = pearsonR xs (.array (b.map toX)) (.array (a.map toX)) w skipna := by
  obtain ⟨r, hr, hp⟩ := C64_value xs ws w hw a b ha hb hne skipna hs
  obtain ⟨s, hs', hq⟩ := C64_value xs ws w hw b a hb ha hne skipna (hs.imp_right And.symm)
  rw [hr, hs']
  have : IsPearson (validCells ws a b) s := by
    rw [validCells_swap ws a b] at hq
    unfold IsPearson at hq ⊢
    rw [Varies.map, Varies.map, correlation_swap] at hq
    rwa [and_comm (a := Varies _ _)]
  rw [hp.unique this]

theorem correlation_affine (V : List (ℝ × ℝ × ℝ)) (hW : (V.map (·.1)).sum ≠ 0) (k c : ℝ) (hk : k ≠ 0) :
    correlation (V.map (fun x => (x.1, k * x.2.1 + c, x.2.2))) = (k / |k|) * correlation V := by
  have hm : wMean V (·.1) (fun x => k * x.2.1 + c) = k * wMean V (·.1) (·.2.1) + c := wMean_affine V (·.1) (·.2.1) hW k c
  unfold correlation
  simp only [List.map_map, Function.comp_def, wMean_map, hm]
  set ma := wMean V (·.1) (·.2.1)
  set mb := wMean V (·.1) (·.2.2)
  have e1 : (V.map (fun x => x.1 * (k * x.2.1 + c - (k * ma + c)) * (x.2.2 - mb))).sum = k * (V.map (fun x => x.1 * (x.2.1 - ma) * (x.2.2 - mb))).sum := by
    rw [← List.sum_map_mul_left]
    congr 1
    refine List.map_congr_left fun x _ => by ring
  have e2 : (V.map (fun x => x.1 * (k * x.2.1 + c - (k * ma + c)) ^ 2)).sum = k ^ 2 * (V.map (fun x => x.1 * (x.2.1 - ma) ^ 2)).sum := by
    rw [← List.sum_map_mul_left]
    congr 1
    refine List.map_congr_left fun x _ => by ring
  rw [e1, e2, mul_assoc (k ^ 2), Real.sqrt_mul (sq_nonneg k), Real.sqrt_sq_eq_abs, mul_div_mul_comm]

theorem sum_pos_ne (V : List (ℝ × ℝ × ℝ)) (hw : ∀ x ∈ V, 0 < x.1) (f : ℝ × ℝ × ℝ → ℝ) (h : Varies V f) : (V.map (·.1)).sum ≠ 0 := by
  obtain ⟨x, hx, -⟩ := h
  rw [Ne, sum_zero_iff V _ (fun x hx => (hw x hx).le)]
  intro h0
  exact (hw x hx).ne' (h0 x hx)

theorem validCells_pos (ws : List ℝ) (hw : ∀ x ∈ ws, 0 < x) (a b : List (Option ℝ)) : ∀ x ∈ validCells ws a b, 0 < x.1 := by
  rw [validCells_cellVal]
  exact mem_cellVal_pos _ (fun x hx => hw _ (List.of_mem_zip hx).1)

theorem validCells_map_left (ws : List ℝ) (a b : List (Option ℝ)) (f : ℝ → ℝ) :
    validCells ws (a.map (Option.map f)) b = (validCells ws a b).map (fun x => (x.1, f x.2.1, x.2.2)) := by
  unfold validCells
  induction ws generalizing a b with
  | nil => rfl
  | cons w ws ih =>
    cases a with
    | nil => rfl
    | cons x a => cases b with
      | nil => rfl
      | cons y b =>
        simp only [List.map_cons, List.zip_cons_cons, List.filterMap_cons, ih a b]
        cases x <;> cases y <;> rfl

theorem none_map (a : List (Option ℝ)) (f : ℝ → ℝ) : none ∉ a.map (Option.map f) ↔ none ∉ a := by
  simp

/-- `C64`: an affine change of one series with positive factor changes nothing; with `C64_symmetric`, this holds for either series -/
theorem C64_affine {X : Type} (xs : StatArg X → StatArg X → Option (List (XF ℝ)) → Bool → Except PyErr X) (ws : List ℝ) (w : Option (List (XF ℝ)))
    (hw : WeightsArg ws w) (a b : List (Option ℝ)) (ha : a.length = ws.length) (hb : b.length = ws.length) (hne : ws ≠ []) (skipna : Bool)
    (hs : skipna = true ∨ (none ∉ a ∧ none ∉ b)) (k c : ℝ) (hk : 0 < k) :
    pearsonR xs (.array ((a.map (Option.map (fun x => k * x + c))).map toX)) (.array (b.map toX)) w skipna =
      pearsonR xs (.array (a.map toX)) (.array (b.map toX)) w skipna := by
  obtain ⟨r, hr, hp⟩ := C64_value xs ws w hw a b ha hb hne skipna hs
  obtain ⟨s, hs', hq⟩ := C64_value xs ws w hw (a.map (Option.map (fun x => k * x + c))) b (by simpa using ha) hb hne skipna
    (by rw [none_map]; exact hs)
  rw [hr, hs']
  have hpos := validCells_pos ws hw.pos a b
  have : IsPearson (validCells ws a b) s := by
    rw [validCells_map_left] at hq
    unfold IsPearson at hq ⊢
    rw [Varies.map, Varies.map] at hq
    have hv : Varies (validCells ws a b) (fun x => k * x.2.1 + c) ↔ Varies (validCells ws a b) (·.2.1) := by
      unfold Varies
      refine exists_congr fun x => and_congr_right fun _ => exists_congr fun y => and_congr_right fun _ => not_congr ?_
      rw [add_left_inj, mul_right_inj' hk.ne']
    simp only [hv] at hq
    refine ⟨fun h => ?_, hq.2⟩
    rw [hq.1 h, correlation_affine _ (sum_pos_ne _ hpos _ h.1) k c hk.ne', abs_of_pos hk, div_self hk.ne', one_mul]
  rw [hp.unique this]

theorem correlation_weights (V : List (ℝ × ℝ × ℝ)) (k : ℝ) (hk : 0 < k) : correlation (V.map (fun x => (k * x.1, x.2))) = correlation V := by
  have hm : ∀ f : ℝ × ℝ → ℝ, wMean V (fun x => k * x.1) (fun x => f x.2) = wMean V (·.1) (fun x => f x.2) := fun f => wMean_weights V (·.1) _ k hk.ne'
  have h1 := hm (·.1)
  have h2 := hm (·.2)
  unfold correlation
  simp only [List.map_map, Function.comp_def, wMean_map, h1, h2]
  set ma := wMean V (·.1) (·.2.1)
  set mb := wMean V (·.1) (·.2.2)
  have e : ∀ f : ℝ × ℝ × ℝ → ℝ, (V.map (fun x => k * x.1 * f x)).sum = k * (V.map (fun x => x.1 * f x)).sum := by
    intro f
    rw [← List.sum_map_mul_left]
    congr 1
    refine List.map_congr_left fun x _ => by ring
  have e0 : (V.map (fun x => k * x.1 * (x.2.1 - ma) * (x.2.2 - mb))).sum = k * (V.map (fun x => x.1 * (x.2.1 - ma) * (x.2.2 - mb))).sum := by
    rw [← List.sum_map_mul_left]
    congr 1
    refine List.map_congr_left fun x _ => by ring
  rw [e0, e (fun x => (x.2.1 - ma) ^ 2), e (fun x => (x.2.2 - mb) ^ 2),
    show ∀ p q : ℝ, k * p * (k * q) = k ^ 2 * (p * q) from fun p q => by ring, Real.sqrt_mul (sq_nonneg k), Real.sqrt_sq hk.le, mul_div_mul_left _ _ hk.ne']

theorem validCells_weights (ws : List ℝ) (a b : List (Option ℝ)) (k : ℝ) :
    validCells (ws.map (fun x => k * x)) a b = (validCells ws a b).map (fun x => (k * x.1, x.2)) := by
  unfold validCells
  induction ws generalizing a b with
  | nil => rfl
  | cons w ws ih =>
    cases a with
    | nil => rfl
    | cons x a => cases b with
      | nil => rfl
      | cons y b =>
        simp only [List.map_cons, List.zip_cons_cons, List.filterMap_cons, ih a b]
        cases x <;> cases y <;> rfl

/-- `C64`: a common positive factor in the weights changes nothing; equal weights give the unweighted result -/
theorem C64_weights {X : Type} (xs : StatArg X → StatArg X → Option (List (XF ℝ)) → Bool → Except PyErr X) (ws : List ℝ) (w : Option (List (XF ℝ)))
    (hw : WeightsArg ws w) (a b : List (Option ℝ)) (ha : a.length = ws.length) (hb : b.length = ws.length) (hne : ws ≠ []) (skipna : Bool)
    (hs : skipna = true ∨ (none ∉ a ∧ none ∉ b)) (k : ℝ) (hk : 0 < k) :
    pearsonR xs (.array (a.map toX)) (.array (b.map toX)) (some ((ws.map (fun x => k * x)).map .fin)) skipna =
      pearsonR xs (.array (a.map toX)) (.array (b.map toX)) w skipna := by
  obtain ⟨r, hr, hp⟩ := C64_value xs ws w hw a b ha hb hne skipna hs
  obtain ⟨s, hs', hq⟩ := C64_value xs (ws.map (fun x => k * x)) _ (.given _ (by
    intro x hx
    obtain ⟨y, hy, rfl⟩ := List.mem_map.mp hx
    exact mul_pos hk (hw.pos y hy))) a b (by simpa using ha) (by simpa using hb) (by simpa using hne) skipna hs
  rw [hr, hs']
  have : IsPearson (validCells ws a b) s := by
    rw [validCells_weights] at hq
    unfold IsPearson at hq ⊢
    rw [Varies.map, Varies.map, correlation_weights _ k hk] at hq
    exact hq
  rw [hp.unique this]

theorem correlation_self (V : List (ℝ × ℝ × ℝ)) (hw : ∀ x ∈ V, 0 < x.1) (hv : Varies V (·.2.1)) : correlation (V.map (fun x => (x.1, x.2.1, x.2.1))) = 1 := by
  unfold correlation
  simp only [List.map_map, Function.comp_def, wMean_map]
  set ma := wMean V (·.1) (·.2.1)
  have hne : (V.map (fun x => x.1 * (x.2.1 - ma) ^ 2)).sum ≠ 0 := by
    rw [Ne, spread_zero V hw (·.2.1)]
    exact not_not.mpr hv
  have hnn : 0 ≤ (V.map (fun x => x.1 * (x.2.1 - ma) ^ 2)).sum := by
    apply List.sum_nonneg
    intro y hy
    obtain ⟨x, hx, rfl⟩ := List.mem_map.mp hy
    exact mul_nonneg (hw x hx).le (sq_nonneg _)
  have e : (V.map (fun x => x.1 * (x.2.1 - ma) * (x.2.1 - ma))).sum = (V.map (fun x => x.1 * (x.2.1 - ma) ^ 2)).sum := by
    congr 1
    refine List.map_congr_left fun x _ => by ring
  rw [e, Real.sqrt_mul_self hnn, div_self hne]

theorem validCells_diag (ws : List ℝ) (a : List (Option ℝ)) (f : ℝ → ℝ) :
    validCells ws (a.map (Option.map f)) a = (validCells ws a a).map (fun x => (x.1, f x.2.1, x.2.1)) := by
  unfold validCells
  induction ws generalizing a with
  | nil => rfl
  | cons w ws ih =>
    cases a with
    | nil => rfl
    | cons x a =>
      simp only [List.map_cons, List.zip_cons_cons, List.filterMap_cons, ih a]
      cases x <;> rfl

/-- `C64`: a series and an affine image of it have coefficient 1 or -1, according to the sign of the factor -/
theorem C64_perfect {X : Type} (xs : StatArg X → StatArg X → Option (List (XF ℝ)) → Bool → Except PyErr X) (ws : List ℝ) (w : Option (List (XF ℝ)))
    (hw : WeightsArg ws w) (a : List (Option ℝ)) (ha : a.length = ws.length) (hne : ws ≠ []) (skipna : Bool)
    (hs : skipna = true ∨ none ∉ a) (hv : ∃ x y, some x ∈ a ∧ some y ∈ a ∧ x ≠ y) (k c : ℝ) (hk : k ≠ 0) :
    pearsonR xs (.array ((a.map (Option.map (fun x => k * x + c))).map toX)) (.array (a.map toX)) w skipna =
      .ok (some (.number (.fin (if 0 < k then 1 else -1)))) := by
  obtain ⟨r, hr, hp⟩ := C64_value xs ws w hw (a.map (Option.map (fun x => k * x + c))) a (by simpa using ha) ha hne skipna
    (by rw [none_map]; tauto)
  rw [hr]
  have hpos := validCells_pos ws hw.pos a a
  set V := validCells ws a a with hV
  have hmem : ∀ x, some x ∈ a → ∃ v ∈ V, v.2.1 = x := by
    intro x hx
    obtain ⟨i, hi⟩ := List.mem_iff_getElem?.mp hx
    have hlt : i < ws.length := by
      rw [← ha]
      exact (List.getElem?_eq_some_iff.mp hi).1
    refine ⟨(ws[i], x, x), ?_, rfl⟩
    rw [hV, validCells_cellVal, List.mem_filterMap]
    refine ⟨(ws[i], some x, some x), List.mem_iff_getElem?.mpr ⟨i, ?_⟩, rfl⟩
    rw [List.getElem?_zip_eq_some, List.getElem?_zip_eq_some]
    exact ⟨List.getElem?_eq_getElem hlt, hi, hi⟩
  have hvar : Varies V (·.2.1) := by
    obtain ⟨x, y, hx, hy, hxy⟩ := hv
    obtain ⟨u, hu, rfl⟩ := hmem x hx
    obtain ⟨v, hv, rfl⟩ := hmem y hy
    exact ⟨u, hu, v, hv, hxy⟩
  rw [validCells_diag, ← hV] at hp
  have hvk : Varies V (fun x => k * x.2.1 + c) := by
    obtain ⟨x, hx, y, hy, h⟩ := hvar
    refine ⟨x, hx, y, hy, ?_⟩
    rw [Ne, add_left_inj, mul_right_inj' hk]
    exact h
  rw [hp.1 (by rw [Varies.map, Varies.map]; exact ⟨hvk, hvar⟩)]
  have e : V.map (fun x => (x.1, k * x.2.1 + c, x.2.1)) = (V.map (fun x => (x.1, x.2.1, x.2.1))).map (fun x => (x.1, k * x.2.1 + c, x.2.2)) := by
    rw [List.map_map]
    rfl
  rw [e, correlation_affine _ (by rw [List.map_map]; exact sum_pos_ne V hpos _ hvar) k c hk, correlation_self V hpos hvar, mul_one]
  congr 4
  split_ifs with h
  · rw [abs_of_pos h, div_self hk]
  · rw [abs_of_neg (lt_of_le_of_ne (not_lt.mp h) hk), div_neg, div_self hk]

/-- `C64`: without `skipna`, a missing value in either series makes the result NaN -/
theorem C64_nan {X : Type} (xs : StatArg X → StatArg X → Option (List (XF ℝ)) → Bool → Except PyErr X) (a b : List (XF ℝ)) (hab : a.length = b.length)
    (ha : XF.nan ∈ a) : pearsonR xs (.array a) (.array b) none false = .ok (some (.number .nan)) := by
  have hx : ∀ l : List (XF ℝ), XF.nan ∈ l → xSum l = .nan := by
    intro l hl
    unfold xSum
    induction l with
    | nil => cases hl
    | cons x l ih =>
      rcases List.mem_cons.mp hl with rfl | h
      · rfl
      · rw [List.foldr_cons, ih h, XF.add_nan]
  have hne : a ≠ [] := List.ne_nil_of_mem ha
  have hcore : pearsonCore a b none false = .ok .nan := by
    unfold pearsonCore pearsonTail
    simp only [Bool.false_eq_true, if_false, bind, Except.bind, pure, Except.pure, checkWeights, meanFunc, hx a ha, XF.nan_div, XF.sub_nan]
    have hbc : ∀ u v : List (XF ℝ), u.length = v.length → bcast2 (fun x y => x * y) u v = .ok (List.zipWith (fun x y => x * y) u v) := by
      intro u v h
      unfold bcast2
      rw [if_pos h]
    rw [hbc _ _ (by simpa using hab), hbc _ _ rfl, hbc _ _ rfl]
    simp only [sumFunc, Bool.false_eq_true, if_false]
    rw [hx (List.zipWith _ _ _)]
    · rfl
    · obtain ⟨y, l, rfl⟩ := List.exists_cons_of_ne_nil hne
      obtain ⟨z, m, rfl⟩ := List.exists_cons_of_ne_nil (l := b) (by intro h; rw [h] at hab; simp at hab)
      simp
  simp only [pearsonR, StatArg.isDataArray, Bool.false_eq_true, not_false_eq_true, and_self, if_true, npRavel, bind, Except.bind, hcore, Except.map,
      swallowValueError]

/-! ### C65: weights that do not fit -/

/-- `C65` fails: three weights for two values give no exception but None -/
theorem C65_counterexample {X : Type} (xs : StatArg X → StatArg X → Option (List (XF ℝ)) → Bool → Except PyErr X) :
    pearsonR xs (.array [.fin 1, .fin 2]) (.array [.fin 1, .fin 3]) (some [.fin 1, .fin 1, .fin 1]) false = .ok none := by
  simp [pearsonR, StatArg.isDataArray, npRavel, pearsonCore, pearsonTail, checkWeights, bcast2, swallowValueError, bind, Except.bind, pure, Except.pure,
    Except.map]

/-- `C65`, what holds: no number is returned when the number of weights differs (none of the lengths being 1) -/
theorem C65_no_number_partial {X : Type} (xs : StatArg X → StatArg X → Option (List (XF ℝ)) → Bool → Except PyErr X) (a b w : List (XF ℝ))
    (hw : ∃ x ∈ w, x.isNaN = false) (hl : a.length ≠ w.length ∨ b.length ≠ w.length) (ha : a.length ≠ 1) (hb : b.length ≠ 1) (hw1 : w.length ≠ 1) :
    pearsonR xs (.array a) (.array b) (some w) false = .ok none := by
  have hbc : ∀ (f : XF ℝ → XF ℝ → XF ℝ) (u : List (XF ℝ)), u.length ≠ 1 → u.length ≠ w.length → bcast2 f u w = .error .valueError := by
    intro f u h1 h2
    unfold bcast2
    rw [if_neg h2]
    cases u with
    | nil =>
      cases w with
      | nil => rfl
      | cons y w => cases w with
        | nil => simp at hw1
        | cons _ _ => rfl
    | cons x u =>
      cases u with
      | nil => simp at h1
      | cons x' u =>
        cases w with
        | nil => rfl
        | cons y w => cases w with
          | nil => simp at hw1
          | cons _ _ => rfl
  have hcw : checkWeights (some w) = some w := by
    simp only [checkWeights]
    rw [if_neg]
    rw [List.all_eq_true]
    intro h
    obtain ⟨x, hx, hx'⟩ := hw
    rw [h x hx] at hx'
    cases hx'
  have hcore : pearsonCore a b (some w) false = .error .valueError := by
    unfold pearsonCore pearsonTail
    simp only [Bool.false_eq_true, if_false, bind, Except.bind, pure, Except.pure, hcw]
    by_cases h : a.length = w.length
    · have h' : b.length ≠ w.length := by tauto
      have : bcast2 (fun x y => x * y) a w = .ok (List.zipWith (fun x y => x * y) a w) := by
        unfold bcast2
        rw [if_pos h]
      rw [this, hbc _ b hb h']
    · rw [hbc _ a ha h]
  simp only [pearsonR, StatArg.isDataArray, Bool.false_eq_true, not_false_eq_true, and_self, if_true, npRavel, bind, Except.bind, hcore, Except.map,
      swallowValueError]

/-- `C65` fails in another way: a single weight is accepted for any number of values, but then the mean is wrong: the "mean" of `a` is its sum.
For a = b = (1, 2, 6) with weight 1 the result is still 1, but for a = (0, 0, 1), b = (0, 1, 0) it is 1/2 with the unweighted value -1/2. -/
theorem C65_counterexample_single {X : Type} (xs : StatArg X → StatArg X → Option (List (XF ℝ)) → Bool → Except PyErr X) :
    pearsonR xs (.array [.fin 0, .fin 0, .fin 1]) (.array [.fin 0, .fin 1, .fin 0]) (some [.fin 1]) false = .ok (some (.number (.fin (1 / 2)))) ∧
    pearsonR xs (.array [.fin 0, .fin 0, .fin 1]) (.array [.fin 0, .fin 1, .fin 0]) none false = .ok (some (.number (.fin (-1 / 2)))) := by
  have hs4 : Real.sqrt 4 = 2 := by
    rw [show (4 : ℝ) = 2 ^ 2 by norm_num]
    exact Real.sqrt_sq (by norm_num)
  have hs9 : Real.sqrt 9 = 3 := by
    rw [show (9 : ℝ) = 3 ^ 2 by norm_num]
    exact Real.sqrt_sq (by norm_num)
  constructor
  · simp [pearsonR, StatArg.isDataArray, npRavel, pearsonCore, pearsonTail, checkWeights, bcast2, swallowValueError, bind, Except.bind, pure, Except.pure,
      Except.map, sumFunc, xSum, XF.fin_div, xSqrt]
    norm_num
    rw [XF.fin_div _ _ (by norm_num)]
    norm_num [clipUnit]
  · simp [pearsonR, StatArg.isDataArray, npRavel, pearsonCore, pearsonTail, checkWeights, bcast2, swallowValueError, bind, Except.bind, pure, Except.pure,
      Except.map, sumFunc, meanFunc, xSum, XF.fin_div, xSqrt]
    norm_num
    rw [hs4, hs9, XF.fin_div _ _ (by norm_num)]
    norm_num [clipUnit]

/-! ### C96: Datasets -/

/-- `C96` fails: two Datasets, documented as inputs, raise TypeError: they are not DataArrays, so they are treated as arrays -/
theorem C96_counterexample {X : Type} (xs : StatArg X → StatArg X → Option (List (XF ℝ)) → Bool → Except PyErr X) (a b : X)
    (w : Option (List (XF ℝ))) (skipna : Bool) : pearsonR xs (.dataset a) (.dataset b) w skipna = .error .typeError := rfl

/-- `C96`, what holds: DataArrays (both, or one of the two) are passed on to xskillscore unchanged, and its result is returned -/
theorem C96_dataarray_partial {X : Type} (xs : StatArg X → StatArg X → Option (List (XF ℝ)) → Bool → Except PyErr X) (a b : StatArg X)
    (h : a.isDataArray = true ∨ b.isDataArray = true) (w : Option (List (XF ℝ))) (skipna : Bool) (x : X) (hx : xs a b w skipna = .ok x) :
    pearsonR xs a b w skipna = .ok (some (.xarray x)) := by
  unfold pearsonR
  rw [if_neg (by rcases h with h | h <;> simp [h]), hx]
  rfl

/-! ### cases which meet the hypotheses -/

example : WeightsArg [1, 2, 3] (some [.fin 1, .fin 2, .fin 3]) := .given [1, 2, 3] (by simp)

example : none ∉ [some (1 : ℝ), some 5, some 2] ∧ ∃ x y, some x ∈ [some (1 : ℝ), some 5, some 2] ∧ some y ∈ [some (1 : ℝ), some 5, some 2] ∧ x ≠ y :=
  ⟨by simp, 1, 5, by simp, by simp, by norm_num⟩

example : Varies (validCells [1, 2, 3] [some 1, none, some 2] [some 4, some 5, some 6]) (·.2.1) :=
  ⟨(1, 1, 4), by simp [validCells], (3, 2, 6), by simp [validCells], by norm_num⟩

end Verif.Props
