import Verif.Props.Nmse
import Verif.Props.Pearson
import Verif.Spec.Skill

/-
Property C182: nmse and pearson_r with the same weights describe the same error.
-/

set_option linter.unusedSectionVars false
namespace Verif.Props
open Model Spec Lemmas

theorem wMean_add {α : Type} (l : List α) (w f g : α → ℝ) : wMean l w (fun x => f x + g x) = wMean l w f + wMean l w g := by
  unfold wMean
  rw [← add_div, ← List.sum_map_add]
  simp only [mul_add]

/-- the mean squared error: variances, covariance and difference of the means -/
theorem wMean_error (V : List (ℝ × ℝ × ℝ)) (hW : (V.map (·.1)).sum ≠ 0) :
    wMean V (·.1) (fun x => (x.2.2 - x.2.1) ^ 2) =
      wMean V (·.1) (fun x => (x.2.2 - wMean V (·.1) (·.2.2)) ^ 2) + wMean V (·.1) (fun x => (x.2.1 - wMean V (·.1) (·.2.1)) ^ 2)
        - 2 * wMean V (·.1) (fun x => (x.2.1 - wMean V (·.1) (·.2.1)) * (x.2.2 - wMean V (·.1) (·.2.2)))
        + (wMean V (·.1) (·.2.2) - wMean V (·.1) (·.2.1)) ^ 2 := by
  set a := wMean V (·.1) (·.2.1) with ha
  set b := wMean V (·.1) (·.2.2) with hb
  have e : (fun x : ℝ × ℝ × ℝ => (x.2.2 - x.2.1) ^ 2) = fun x => ((x.2.2 - b) ^ 2 + (x.2.1 - a) ^ 2) + ((-2) * ((x.2.1 - a) * (x.2.2 - b)) +
      ((2 * (b - a)) * x.2.2 + ((2 * (a - b)) * x.2.1 + (a - b) * (a - b + 2 * b - 2 * a + 0)))) := by
    funext x
    ring
  have h1 : wMean V (·.1) (fun x => (2 * (a - b)) * x.2.1 + (a - b) * (a - b + 2 * b - 2 * a + 0)) = (2 * (a - b)) * a + (a - b) * (a - b + 2 * b - 2 * a + 0) :=
    wMean_affine V (·.1) (·.2.1) hW _ _
  rw [e, wMean_add, wMean_add, wMean_add, wMean_add, wMean_mul, wMean_mul, h1, ← hb]
  ring

theorem sum_eq_mean {α : Type} (l : List α) (w f : α → ℝ) (hW : (l.map w).sum ≠ 0) : (l.map (fun x => w x * f x)).sum = (l.map w).sum * wMean l w f := by
  unfold wMean
  field_simp

theorem correlation_eq (V : List (ℝ × ℝ × ℝ)) (hw : ∀ x ∈ V, 0 ≤ x.1) (hW : (V.map (·.1)).sum ≠ 0) :
    correlation V = wMean V (·.1) (fun x => (x.2.1 - wMean V (·.1) (·.2.1)) * (x.2.2 - wMean V (·.1) (·.2.2))) / (spread V (·.2.1) * spread V (·.2.2)) := by
  have hpos : 0 < (V.map (·.1)).sum := lt_of_le_of_ne (List.sum_nonneg (by
    intro y hy
    obtain ⟨x, hx, rfl⟩ := List.mem_map.mp hy
    exact hw x hx)) (Ne.symm hW)
  unfold correlation spread
  simp only [mul_assoc]
  rw [sum_eq_mean V (·.1) _ hW, sum_eq_mean V (·.1) _ hW, sum_eq_mean V (·.1) _ hW]
  have h1 := wMean_sq_nonneg V (·.1) (fun x => x.2.1 - wMean V (·.1) (·.2.1)) hw
  set S := (V.map (·.1)).sum
  set A := wMean V (·.1) (fun x => (x.2.1 - wMean V (·.1) (·.2.1)) ^ 2)
  set B := wMean V (·.1) (fun x => (x.2.2 - wMean V (·.1) (·.2.2)) ^ 2)
  rw [show S * A * (S * B) = S ^ 2 * (A * B) by ring, Real.sqrt_mul (by positivity), Real.sqrt_sq hpos.le, Real.sqrt_mul h1, mul_div_mul_left _ _ hW]

theorem spread_sq (V : List (ℝ × ℝ × ℝ)) (hw : ∀ x ∈ V, 0 ≤ x.1) (f : ℝ × ℝ × ℝ → ℝ) : spread V f ^ 2 = wMean V (·.1) (fun x => (f x - wMean V (·.1) f) ^ 2) :=
  Real.sq_sqrt (wMean_sq_nonneg V (·.1) (fun x => f x - wMean V (·.1) f) hw)

/-- the decomposition of the normalised mean squared error, on the cells -/
theorem nmseOf_split (V : List (ℝ × ℝ × ℝ)) (hw : ∀ x ∈ V, 0 ≤ x.1) (hW : (V.map (·.1)).sum ≠ 0) (so : 0 < spread V (·.2.1)) (sm : 0 < spread V (·.2.2)) :
    nmseOf V = (1 - correlation V ^ 2) + (correlation V - spreadRatio V) ^ 2 + relBias V ^ 2 := by
  have hc := correlation_eq V hw hW
  unfold nmseOf spreadRatio relBias
  rw [wMean_error V hW, ← spread_sq V hw (·.2.1), ← spread_sq V hw (·.2.2), hc]
  field_simp
  ring

/-- the same for a modeled field without spread -/
theorem nmseOf_flat (V : List (ℝ × ℝ × ℝ)) (hw : ∀ x ∈ V, 0 ≤ x.1) (hW : (V.map (·.1)).sum ≠ 0) (so : 0 < spread V (·.2.1)) (hm : spread V (·.2.2) = 0) :
    nmseOf V = 1 + relBias V ^ 2 := by
  have z1 : wMean V (·.1) (fun x => (x.2.2 - wMean V (·.1) (·.2.2)) ^ 2) = 0 := by
    rw [← spread_sq V hw (·.2.2), hm]
    norm_num
  have e := (wMean_sq_zero V (·.1) (fun x => x.2.2 - wMean V (·.1) (·.2.2)) hw hW).mp z1
  have z2 : wMean V (·.1) (fun x => (x.2.1 - wMean V (·.1) (·.2.1)) * (x.2.2 - wMean V (·.1) (·.2.2))) = 0 := by
    rw [wMean_congr V (·.1) _ (fun x => 0 * x.2.1) (fun x hx hx' => by rw [e x hx hx']; ring), wMean_mul, zero_mul]
  unfold nmseOf relBias
  rw [wMean_error V hW, z1, z2, ← spread_sq V hw (·.2.1)]
  field_simp
  ring

theorem nmse_observed_varies (lats : List ℝ) (hlat : ∀ φ ∈ lats, |φ| ≤ 90) (o m : List (Option ℝ)) (ho : o.length = lats.length) (hm : m.length = lats.length) (x : ℝ)
    (h : nmseSlice (maskVar (lats.map cosDeg) o m).1 (maskVar (lats.map cosDeg) o m).2.1 (maskVar (lats.map cosDeg) o m).2.2 = .fin x) :
    (∀ x ∈ validCells (lats.map cosDeg) o m, 0 ≤ x.1) ∧ ((validCells (lats.map cosDeg) o m).map (·.1)).sum ≠ 0 ∧ 0 < spread (validCells (lats.map cosDeg) o m) (·.2.1) ∧
      x = nmseOf (validCells (lats.map cosDeg) o m) := by
  obtain ⟨h1, h2, h3⟩ := nmse_cases lats o m ho hm x h
  have hw := weights_nonneg lats hlat o m
  refine ⟨hw, h1, ?_, h3⟩
  generalize validCells (lats.map cosDeg) o m = V at *
  unfold spread
  have h5 := wMean_sq_nonneg V (·.1) (fun x => x.2.1 - wMean V (·.1) (·.2.1)) hw
  exact Real.sqrt_pos.mpr (lt_of_le_of_ne h5 (Ne.symm h2))

variable {X : Type} (xs : StatArg X → StatArg X → Option (List (XF ℝ)) → Bool → Except PyErr X)

/-- `pearson_r` of the two fields with the weights of `nmse` -/
noncomputable def fieldR (lats : List ℝ) (o m : List (Option ℝ)) : Except PyErr (Option (StatOut X)) :=
  pearsonR xs (.array (o.map toX)) (.array (m.map toX)) (some ((lats.map cosDeg).map .fin)) true

theorem fieldR_value (lats : List ℝ) (hlat : ∀ φ ∈ lats, |φ| ≤ 90) (o m : List (Option ℝ)) (ho : o.length = lats.length) (hm : m.length = lats.length)
    (hW : ((validCells (lats.map cosDeg) o m).map (·.1)).sum ≠ 0) (so : 0 < spread (validCells (lats.map cosDeg) o m) (·.2.1)) :
    (0 < spread (validCells (lats.map cosDeg) o m) (·.2.2) ∧ fieldR xs lats o m = .ok (some (.number (.fin (correlation (validCells (lats.map cosDeg) o m)))))) ∨
    (spread (validCells (lats.map cosDeg) o m) (·.2.2) = 0 ∧ fieldR xs lats o m = .ok (some (.number .nan))) := by
  have hw := weights_nonneg lats hlat o m
  obtain ⟨h1, h2, h3⟩ := maps_zip (lats.map cosDeg) o m (by simpa using ho) (by simpa using hm)
  have hcore : pearsonCore (o.map toX) (m.map toX) (some ((lats.map cosDeg).map .fin)) true = .ok (corrX (validCells (lats.map cosDeg) o m)) := by
    rw [validCells_cellVal] at hW ⊢
    rw [← h1, ← h2, ← h3]
    unfold pearsonCore
    simp only [if_true, matchNans_some, bind, Except.bind]
    exact tail_weights true cellVal _ (Or.inl rfl) hW
  have hrun : fieldR xs lats o m = .ok (some (.number (corrX (validCells (lats.map cosDeg) o m)))) := by
    unfold fieldR
    simp only [pearsonR, StatArg.isDataArray, Bool.false_eq_true, not_false_eq_true, and_self, if_true, npRavel, bind, Except.bind, hcore, Except.map,
      swallowValueError]
  rw [hrun]
  set V := validCells (lats.map cosDeg) o m
  have h0 : 0 ≤ spread V (·.2.2) := Real.sqrt_nonneg _
  rcases h0.lt_or_eq with h | h
  · left
    refine ⟨h, ?_⟩
    rw [(corrX_eq V hw ?_).1]
    rw [sum_eq_mean V (·.1) _ hW, sum_eq_mean V (·.1) _ hW, ← spread_sq V hw (·.2.1), ← spread_sq V hw (·.2.2)]
    positivity
  · right
    refine ⟨h.symm, ?_⟩
    rw [corrX_nan V hw ?_]
    rw [sum_eq_mean V (·.1) _ hW, sum_eq_mean V (·.1) _ hW, ← spread_sq V hw (·.2.1), ← spread_sq V hw (·.2.2), ← h]
    ring

theorem lengths_of_grid {obs mod : GeoInput ℝ} {lats : List ℝ} {no nm : String} {o m : List (Option ℝ)} (hg : GridOk obs mod lats) (ho : obs.vars = [(no, o)])
    (hm : mod.vars = [(nm, m)]) : o.length = lats.length ∧ m.length = lats.length := by
  have := hg.lengths
  rw [ho, hm] at this
  constructor
  · exact this (no, o) (by simp)
  · exact this (nm, m) (by simp)

/-- **C182**: whenever `nmse` gives a number, `pearson_r` of the same fields with weights cos(latitude) gives either a number `r`, and then
`nmse = (1 - r²) + (r - σm/σo)² + (bias/σo)²`, or NaN because the modeled field has no spread, and then `nmse = 1 + (bias/σo)²`. -/
theorem C182_split (obs mod : GeoInput ℝ) (no nm : String) (o m : List (Option ℝ)) (lats : List ℝ) (ho : obs.vars = [(no, o)]) (hm : mod.vars = [(nm, m)])
    (hl : cellLats obs.lat obs.lon = some lats) (hlat : ∀ φ ∈ lats, |φ| ≤ 90) (x : ℝ) (h : nmse obs mod = .ok (.one (.fin x))) :
    (∃ r, fieldR xs lats o m = .ok (some (.number (.fin r))) ∧
      x = (1 - r ^ 2) + (r - spreadRatio (validCells (lats.map cosDeg) o m)) ^ 2 + relBias (validCells (lats.map cosDeg) o m) ^ 2) ∨
    (fieldR xs lats o m = .ok (some (.number .nan)) ∧ spread (validCells (lats.map cosDeg) o m) (·.2.2) = 0 ∧
      x = 1 + relBias (validCells (lats.map cosDeg) o m) ^ 2) := by
  obtain ⟨lats', no', nm', o', m', hg, -, ho', hm', hr⟩ := (nmse_one_iff cosDeg obs mod _).mp h
  have e := hg.cells
  rw [hl] at e
  cases e
  rw [ho] at ho'
  rw [hm] at hm'
  cases ho'
  cases hm'
  obtain ⟨l1, l2⟩ := lengths_of_grid hg ho hm
  obtain ⟨hw, hW, so, hx⟩ := nmse_observed_varies lats hlat o m l1 l2 x hr.symm
  rcases fieldR_value xs lats hlat o m l1 l2 hW so with ⟨h1, h2⟩ | ⟨h1, h2⟩
  · exact Or.inl ⟨_, h2, by rw [hx, nmseOf_split _ hw hW so h1]⟩
  · exact Or.inr ⟨h2, h1, by rw [hx, nmseOf_flat _ hw hW so h1]⟩

/-- A small error implies a high correlation: `1 - r² ≤ nmse`, and an nmse below 1 implies `r ≥ √(1 - nmse) > 0`. A field without spread has nmse at least 1. -/
theorem C182_bound (obs mod : GeoInput ℝ) (no nm : String) (o m : List (Option ℝ)) (lats : List ℝ) (ho : obs.vars = [(no, o)]) (hm : mod.vars = [(nm, m)])
    (hl : cellLats obs.lat obs.lon = some lats) (hlat : ∀ φ ∈ lats, |φ| ≤ 90) (x : ℝ) (h : nmse obs mod = .ok (.one (.fin x))) :
    (∀ r, fieldR xs lats o m = .ok (some (.number (.fin r))) → 1 - r ^ 2 ≤ x) ∧
    (x < 1 → ∃ r, fieldR xs lats o m = .ok (some (.number (.fin r))) ∧ 0 < r ∧ Real.sqrt (1 - x) ≤ r) := by
  rcases C182_split xs obs mod no nm o m lats ho hm hl hlat x h with ⟨r, h1, h2⟩ | ⟨h1, -, h2⟩
  · have hle : 1 - r ^ 2 ≤ x := by
      rw [h2]
      linarith [sq_nonneg (r - spreadRatio (validCells (lats.map cosDeg) o m)), sq_nonneg (relBias (validCells (lats.map cosDeg) o m))]
    refine ⟨fun r' h' => ?_, fun hx => ⟨r, h1, ?_⟩⟩
    · rw [h1] at h'
      cases h'
      exact hle
    · have hr : 0 < r := by
        by_contra hneg
        have hρ : 0 ≤ spreadRatio (validCells (lats.map cosDeg) o m) := div_nonneg (Real.sqrt_nonneg _) (Real.sqrt_nonneg _)
        nlinarith [sq_nonneg (relBias (validCells (lats.map cosDeg) o m)), mul_nonneg hρ (neg_nonneg.mpr (not_lt.mp hneg))]
      exact ⟨hr, Real.sqrt_le_iff.mpr ⟨hr.le, by linarith⟩⟩
  · refine ⟨fun r' h' => ?_, fun hx => ?_⟩
    · rw [h1] at h'
      cases h'
    · have := sq_nonneg (relBias (validCells (lats.map cosDeg) o m))
      linarith

/-- the modeled field after the linear correction `k * value + c` -/
def corrected (mod : GeoInput ℝ) (k c : ℝ) : GeoInput ℝ := { mod with vars := mod.vars.map (fun v => (v.1, v.2.map (Option.map (fun y => k * y + c)))) }

theorem validCells_map_right (ws : List ℝ) (a b : List (Option ℝ)) (f : ℝ → ℝ) :
    validCells ws a (b.map (Option.map f)) = (validCells ws a b).map (fun x => (x.1, x.2.1, f x.2.2)) := by
  rw [validCells_swap ws (b.map (Option.map f)) a, validCells_map_left, validCells_swap ws a b, List.map_map, List.map_map]
  rfl

/-- the normalised error of a linear correction -/
theorem nmseOf_corrected (V : List (ℝ × ℝ × ℝ)) (hw : ∀ x ∈ V, 0 ≤ x.1) (hW : (V.map (·.1)).sum ≠ 0) (so : 0 < spread V (·.2.1)) (k c : ℝ) :
    nmseOf (V.map (fun x => (x.1, x.2.1, k * x.2.2 + c))) * spread V (·.2.1) ^ 2 =
      k ^ 2 * spread V (·.2.2) ^ 2 + spread V (·.2.1) ^ 2 - 2 * (k * wMean V (·.1) (fun x => (x.2.1 - wMean V (·.1) (·.2.1)) * (x.2.2 - wMean V (·.1) (·.2.2))))
        + (k * wMean V (·.1) (·.2.2) + c - wMean V (·.1) (·.2.1)) ^ 2 := by
  have hm : wMean V (·.1) (fun x => k * x.2.2 + c) = k * wMean V (·.1) (·.2.2) + c := wMean_affine V (·.1) (·.2.2) hW k c
  have hW' : ((V.map (fun x => (x.1, x.2.1, k * x.2.2 + c))).map (·.1)).sum ≠ 0 := by
    rw [List.map_map]
    exact hW
  unfold nmseOf
  rw [wMean_error _ hW']
  simp only [wMean_map, hm]
  have e1 : (fun x : ℝ × ℝ × ℝ => (k * x.2.2 + c - (k * wMean V (·.1) (·.2.2) + c)) ^ 2) = fun x => k ^ 2 * (x.2.2 - wMean V (·.1) (·.2.2)) ^ 2 := by
    funext x
    ring
  have e2 : (fun x : ℝ × ℝ × ℝ => (x.2.1 - wMean V (·.1) (·.2.1)) * (k * x.2.2 + c - (k * wMean V (·.1) (·.2.2) + c))) =
      fun x => k * ((x.2.1 - wMean V (·.1) (·.2.1)) * (x.2.2 - wMean V (·.1) (·.2.2))) := by
    funext x
    ring
  rw [e1, e2, wMean_mul, wMean_mul, ← spread_sq V hw (·.2.1), ← spread_sq V hw (·.2.2)]
  field_simp

/-- **C182**: no linear correction of the modeled field can bring `nmse` below `1 - r²`, and the regression line reaches it. -/
theorem C182_correction (obs mod : GeoInput ℝ) (no nm : String) (o m : List (Option ℝ)) (lats : List ℝ) (ho : obs.vars = [(no, o)]) (hm : mod.vars = [(nm, m)])
    (hl : cellLats obs.lat obs.lon = some lats) (hlat : ∀ φ ∈ lats, |φ| ≤ 90) (x r : ℝ) (h : nmse obs mod = .ok (.one (.fin x)))
    (hr : fieldR xs lats o m = .ok (some (.number (.fin r)))) :
    (∀ k c, ∃ y, nmse obs (corrected mod k c) = .ok (.one (.fin y)) ∧ 1 - r ^ 2 ≤ y) ∧
    ∃ k c, nmse obs (corrected mod k c) = .ok (.one (.fin (1 - r ^ 2))) := by
  obtain ⟨lats', no', nm', o', m', hg, hk, ho', hm', hx⟩ := (nmse_one_iff cosDeg obs mod _).mp h
  have e := hg.cells
  rw [hl] at e
  cases e
  rw [ho] at ho'
  rw [hm] at hm'
  cases ho'
  cases hm'
  obtain ⟨l1, l2⟩ := lengths_of_grid hg ho hm
  obtain ⟨hw, hW, so, -⟩ := nmse_observed_varies lats hlat o m l1 l2 x hx.symm
  have sm : 0 < spread (validCells (lats.map cosDeg) o m) (·.2.2) ∧ correlation (validCells (lats.map cosDeg) o m) = r := by
    rcases fieldR_value xs lats hlat o m l1 l2 hW so with ⟨h1, h2⟩ | ⟨-, h2⟩
    · rw [h2] at hr
      injection hr with hr
      injection hr with hr
      injection hr with hr
      injection hr with hr
      exact ⟨h1, hr⟩
    · rw [h2] at hr
      cases hr
  obtain ⟨sm, hr⟩ := sm
  have hcor := correlation_eq _ hw hW
  rw [hr] at hcor
  -- the corrected field on the same grid
  have run : ∀ k c, nmse obs (corrected mod k c) = .ok (.one (.fin (nmseOf ((validCells (lats.map cosDeg) o m).map (fun x => (x.1, x.2.1, k * x.2.2 + c)))))) := by
    intro k c
    have hl2 : (m.map (Option.map (fun y => k * y + c))).length = lats.length := by simpa using l2
    have hg' : GridOk obs (corrected mod k c) lats := by
      refine ⟨hg.kind, hg.coords, hg.found, hg.evenLat, hg.evenLon, hg.single, hg.labels, hg.cells, ?_⟩
      intro v hvm
      rw [List.mem_append] at hvm
      rcases hvm with hvm | hvm
      · exact hg.lengths v (List.mem_append_left _ hvm)
      · simp only [corrected, List.mem_map] at hvm
        obtain ⟨v', hv', rfl⟩ := hvm
        simpa using hg.lengths v' (List.mem_append_right _ hv')
    have hvars : (corrected mod k c).vars = [(nm, m.map (Option.map (fun y => k * y + c)))] := by simp [corrected, hm]
    have hcells := validCells_map_right (lats.map cosDeg) o m (fun y => k * y + c)
    refine (nmse_one_iff cosDeg obs (corrected mod k c) _).mpr ⟨lats, no, nm, o, _, hg', hk, ho, hvars, ?_⟩
    rw [nmseSlice_valid _ _ _ (by simpa using l1) (by simpa using l2), hcells]
    have a1 : ((((validCells (lats.map cosDeg) o m).map (fun x => (x.1, x.2.1, k * x.2.2 + c))).map (·.1)).sum) ≠ 0 := by
      rw [List.map_map]
      exact hW
    rw [if_neg a1]
    have a2 : wMean ((validCells (lats.map cosDeg) o m).map (fun x => (x.1, x.2.1, k * x.2.2 + c))) (·.1)
        (fun x => (x.2.1 - wMean ((validCells (lats.map cosDeg) o m).map (fun x => (x.1, x.2.1, k * x.2.2 + c))) (·.1) (·.2.1)) ^ 2) ≠ 0 := by
      simp only [wMean_map]
      rw [← spread_sq _ hw (·.2.1)]
      positivity
    rw [XF.fin_div _ _ a2]
    rfl
  set V := validCells (lats.map cosDeg) o m with hV
  set so' := spread V (·.2.1)
  set sm' := spread V (·.2.2)
  set cv := wMean V (·.1) (fun x => (x.2.1 - wMean V (·.1) (·.2.1)) * (x.2.2 - wMean V (·.1) (·.2.2))) with hcv
  have hcv2 : cv = r * (so' * sm') := by
    rw [hcor]
    field_simp
  have key : ∀ k c, nmseOf (V.map (fun x => (x.1, x.2.1, k * x.2.2 + c))) * so' ^ 2 =
      (1 - r ^ 2) * so' ^ 2 + (k * sm' - r * so') ^ 2 + (k * wMean V (·.1) (·.2.2) + c - wMean V (·.1) (·.2.1)) ^ 2 := by
    intro k c
    rw [nmseOf_corrected V hw hW so, ← hcv, hcv2]
    ring
  have so2 : 0 < so' ^ 2 := by positivity
  constructor
  · intro k c
    refine ⟨_, run k c, ?_⟩
    have := key k c
    by_contra hcon
    push Not at hcon
    have h5 := mul_lt_mul_of_pos_right hcon so2
    nlinarith [sq_nonneg (k * sm' - r * so'), sq_nonneg (k * wMean V (·.1) (·.2.2) + c - wMean V (·.1) (·.2.1))]
  · refine ⟨r * so' / sm', wMean V (·.1) (·.2.1) - r * so' / sm' * wMean V (·.1) (·.2.2), ?_⟩
    rw [run]
    have := key (r * so' / sm') (wMean V (·.1) (·.2.1) - r * so' / sm' * wMean V (·.1) (·.2.2))
    have z1 : r * so' / sm' * sm' - r * so' = 0 := by field_simp; ring
    have z2 : r * so' / sm' * wMean V (·.1) (·.2.2) + (wMean V (·.1) (·.2.1) - r * so' / sm' * wMean V (·.1) (·.2.2)) - wMean V (·.1) (·.2.1) = 0 := by ring
    rw [z1, z2] at this
    have h6 : nmseOf (V.map (fun x => (x.1, x.2.1, r * so' / sm' * x.2.2 + (wMean V (·.1) (·.2.1) - r * so' / sm' * wMean V (·.1) (·.2.2))))) = 1 - r ^ 2 := by
      apply mul_right_cancel₀ so2.ne'
      rw [this]
      ring
    rw [h6]

/-! ### a case that meets the hypotheses -/

theorem ex_lats : ∀ φ ∈ [(0 : ℝ), 0, 60, 60], |φ| ≤ 90 := by
  intro φ h
  simp at h
  rcases h with rfl | rfl <;> norm_num [abs_le]

/-- observed 1, 2, missing, 5 and modeled 1, 3, 4, 5: both functions give a number and the identity holds -/
example : ∃ x r, nmse (exField [some 1, some 2, none, some 5]) (exField [some 1, some 3, some 4, some 5]) = .ok (.one (.fin x)) ∧
    fieldR xs [0, 0, 60, 60] [some 1, some 2, none, some 5] [some 1, some 3, some 4, some 5] = .ok (some (.number (.fin r))) ∧ 1 - r ^ 2 ≤ x := by
  obtain ⟨y, hy⟩ := exField_ok [some 1, some 2, none, some 5] [some 1, some 3, some 4, some 5] rfl rfl
  obtain ⟨x, rfl⟩ := (C61_finite _ _ "t" "t" _ _ [0, 0, 60, 60] rfl rfl rfl ex_lats y hy).mpr
    ⟨0, 1, 0, 0, 1, 1, 2, 3, ⟨rfl, rfl, rfl⟩, ⟨rfl, rfl, rfl⟩, by norm_num, by norm_num, by norm_num⟩
  obtain ⟨r, h1, h2⟩ := C64_value xs ([(0 : ℝ), 0, 60, 60].map cosDeg) _ (.given _ (by
    intro w hw
    simp only [List.map_cons, List.map_nil, List.mem_cons, List.not_mem_nil, or_false] at hw
    have c0 : 0 < cosDeg 0 := by simp [cosDeg]
    have c60 : 0 < cosDeg 60 := lt_of_le_of_ne (cosDeg_nonneg 60 (by norm_num [abs_le])) (Ne.symm ((cosDeg_ne 60 (by norm_num [abs_le])).mpr (by norm_num [abs_lt])))
    rcases hw with rfl | rfl | rfl | rfl <;> assumption)) [some 1, some 2, none, some 5] [some 1, some 3, some 4, some 5] rfl rfl (by simp) true (Or.inl rfl)
  have hv := h2.1 ⟨⟨(cosDeg 0, 1, 1), by simp [validCells], (cosDeg 0, 2, 3), by simp [validCells], by norm_num⟩,
    ⟨(cosDeg 0, 1, 1), by simp [validCells], (cosDeg 0, 2, 3), by simp [validCells], by norm_num⟩⟩
  subst hv
  exact ⟨x, _, hy, h1, (C182_bound xs _ _ "t" "t" _ _ [0, 0, 60, 60] rfl rfl rfl ex_lats x hy).1 _ h1⟩

end Verif.Props
