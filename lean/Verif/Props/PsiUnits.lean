import Verif.Props.VertUnits
import Verif.Props.DeltaPressure
import Verif.Props.Psi2

/-
Property C203: the meridional streamfunction in other units of pressure and of wind, and with the opposite wind.
-/

set_option linter.unusedSectionVars false
namespace Verif.Props
open Model Spec Lemmas

namespace PsiUnits
section
variable {K : Type _} [Field K] [LinearOrder K] [IsStrictOrderedRing K]

theorem signInf_pos {c : K} (hc : 0 < c) (x : K) : XF.signInf (c * x) = XF.signInf x := by
  unfold XF.signInf
  have h : c * x < 0 ↔ x < 0 := by
    constructor
    · intro h; by_contra h'; exact absurd (mul_nonneg hc.le (not_lt.mp h')) (not_le.mpr h)
    · exact fun h => mul_neg_of_pos_of_neg hc h
  simp only [mul_pos_iff_of_pos_left hc, h]

theorem signInf_neg {c : K} (hc : c < 0) (x : K) : XF.signInf (c * x) = XF.signInf (-x) := by
  have h := signInf_pos (neg_pos.mpr hc) (-x)
  rwa [neg_mul_neg] at h

/-- multiplication by a nonzero number -/
def times (c : K) (x : XF K) : XF K := .fin c * x

theorem times_pos {c : K} (hc : 0 < c) (x : XF K) : times c x = scale c x := by
  cases x with
  | fin x => rfl
  | nan => rfl
  | pinf => show XF.signInf c = _; unfold XF.signInf; rw [if_pos hc]; rfl
  | ninf =>
    show XF.signInf (-c) = _
    unfold XF.signInf
    rw [if_neg (by linarith), if_pos (by linarith)]; rfl

/-- the opposite of an extended number -/
theorem times_neg {c : K} (hc : c < 0) (x : XF K) : times c x = -(scale (-c) x) := by
  cases x with
  | fin x => show XF.fin (c * x) = XF.fin (-(-c * x)); ring_nf
  | nan => rfl
  | pinf =>
    show XF.signInf c = _
    unfold XF.signInf
    rw [if_neg (by linarith), if_pos hc]; rfl
  | ninf =>
    show XF.signInf (-c) = _
    unfold XF.signInf
    rw [if_pos (by linarith)]; rfl

theorem neg_signInf (x : K) : -(XF.signInf x) = XF.signInf (-x) := by
  unfold XF.signInf
  rcases lt_trichotomy x 0 with h | h | h
  · rw [if_neg (by linarith), if_pos h, if_pos (by linarith)]; rfl
  · subst h; simp; rfl
  · rw [if_pos h, if_neg (by linarith), if_pos (by linarith)]; rfl

theorem scale_signInf (c x : K) : scale c (XF.signInf x) = XF.signInf x := by
  unfold XF.signInf
  split
  · rfl
  · split <;> rfl

theorem scale_add (c : K) (x y : XF K) : scale c (x + y) = scale c x + scale c y := by
  cases x <;> cases y <;> first | rfl | (show XF.fin _ = XF.fin _; rw [mul_add])

theorem neg_add' (x y : XF K) : -(x + y) = -x + -y := by
  cases x <;> cases y <;> first | rfl | (show XF.fin _ = XF.fin _; rw [neg_add])

theorem scale_mul_left {c : K} (hc : 0 < c) (x y : XF K) : scale c (x * y) = scale c x * y := by
  cases x <;> cases y <;> first
    | rfl
    | (show XF.fin _ = XF.fin _; rw [mul_assoc])
    | (show scale c (XF.signInf _) = XF.signInf _; rw [scale_signInf]; done)
    | (show scale c (XF.signInf _) = XF.signInf _; rw [scale_signInf, signInf_pos hc]; done)
    | (show scale c (XF.signInf _) = XF.signInf _; rw [scale_signInf, ← mul_neg, signInf_pos hc]; done)

theorem scale_mul_right {c : K} (hc : 0 < c) (x y : XF K) : scale c (x * y) = x * scale c y := by
  cases x <;> cases y <;> first
    | rfl
    | (show XF.fin _ = XF.fin _; rw [mul_left_comm])
    | (show scale c (XF.signInf _) = XF.signInf _; rw [scale_signInf]; done)
    | (show scale c (XF.signInf _) = XF.signInf _; rw [scale_signInf, signInf_pos hc]; done)
    | (show scale c (XF.signInf _) = XF.signInf _; rw [scale_signInf, ← mul_neg, signInf_pos hc]; done)

theorem neg_mul_left (x y : XF K) : -(x * y) = -x * y := by
  cases x <;> cases y <;> first
    | rfl
    | (show XF.fin _ = XF.fin _; rw [neg_mul])
    | (show -(XF.signInf _) = XF.signInf _; rw [neg_signInf]; done)
    | (show -(XF.signInf _) = XF.signInf _; rw [neg_signInf, neg_neg]; done)

theorem isNaN_scale' (c : K) (x : XF K) : (scale c x).isNaN = x.isNaN := by cases x <;> rfl
theorem isNaN_neg (x : XF K) : (-x : XF K).isNaN = x.isNaN := by cases x <;> rfl

theorem times_add {c : K} (hc : c ≠ 0) (x y : XF K) : times c (x + y) = times c x + times c y := by
  rcases lt_or_gt_of_ne hc with h | h
  · rw [times_neg h, times_neg h, times_neg h, scale_add, neg_add']
  · rw [times_pos h, times_pos h, times_pos h, scale_add]

theorem times_mul {c : K} (hc : c ≠ 0) (x y : XF K) : times c (x * y) = times c x * y := by
  rcases lt_or_gt_of_ne hc with h | h
  · rw [times_neg h, times_neg h, scale_mul_left (neg_pos.mpr h), neg_mul_left]
  · rw [times_pos h, times_pos h, scale_mul_left h]

theorem isNaN_times {c : K} (hc : c ≠ 0) (x : XF K) : (times c x).isNaN = x.isNaN := by
  rcases lt_or_gt_of_ne hc with h | h
  · rw [times_neg h, isNaN_neg, isNaN_scale']
  · rw [times_pos h, isNaN_scale']

theorem times_zero (c : K) : times c (.fin 0) = .fin 0 := by
  show XF.fin (c * 0) = _; rw [mul_zero]

theorem cumsum_times {c : K} (hc : c ≠ 0) (l : List (XF K)) (acc : XF K) :
    nanCumsum (times c acc) (l.map (times c)) = (nanCumsum acc l).map (times c) := by
  induction l generalizing acc with
  | nil => rfl
  | cons x xs ih =>
    have hx : times c acc + (if (times c x).isNaN then .fin 0 else times c x)
        = times c (acc + (if x.isNaN then .fin 0 else x)) := by
      rw [isNaN_times hc, times_add hc]
      by_cases h : x.isNaN = true
      · rw [if_pos h, if_pos h, times_zero]
      · rw [if_neg h, if_neg h]
    show (times c acc + (if (times c x).isNaN then .fin 0 else times c x))
        :: nanCumsum (times c acc + (if (times c x).isNaN then .fin 0 else times c x)) (xs.map (times c)) = _
    rw [hx, ih]; rfl

/-- a column with its integrand multiplied by a number -/
theorem finish {c : K} (hc : c ≠ 0) (f : K) (b : Bool) (l : List (XF K)) :
    ((if b then nanCumsum (.fin 0) (l.map (times c)) else (nanCumsum (.fin 0) (l.map (times c)).reverse).reverse).map (· * .fin f))
      = ((if b then nanCumsum (.fin 0) l else (nanCumsum (.fin 0) l.reverse).reverse).map (· * .fin f)).map (times c) := by
  have h0 : ∀ m : List (XF K), nanCumsum (.fin 0) (m.map (times c)) = (nanCumsum (.fin 0) m).map (times c) := fun m => by
    have := cumsum_times hc m (.fin 0)
    rwa [times_zero] at this
  rw [← List.map_reverse, h0, h0, ← List.map_reverse]
  have hm : ∀ m : List (XF K), (m.map (times c)).map (· * .fin f) = (m.map (· * .fin f)).map (times c) := fun m => by
    rw [List.map_map, List.map_map]
    exact List.map_congr_left fun x _ => (times_mul hc x (.fin f)).symm
  cases b
  · exact hm _
  · exact hm _

/-- one column in another unit of pressure -/
theorem column_pressure {c : K} (hc : 0 < c) (f : K) (plev : List K) (v : List (XF K)) (ps : XF K) :
    psiColumn f (plev.map (c * ·)) v (scale c ps) = (psiColumn f plev v ps).map (List.map (scale c)) := by
  have h := C07_unit_independent c hc plev ps none
  simp only [Option.map_none] at h
  have hs : (scale c : XF K → XF K) = times c := funext fun x => (times_pos hc x).symm
  unfold psiColumn
  rw [h]
  cases hd : deltaPressure plev ps none with
  | error e => rfl
  | ok d =>
    simp only [Except.map, bind, Except.bind, index_map]
    cases h0 : Py.index plev 0 with
    | error e => rfl
    | ok a =>
      cases h1 : Py.index plev (-1) with
      | error e => rfl
      | ok b =>
        simp only [Except.map, pure, Except.pure]
        have hz : List.zipWith (· * ·) v (d.map (scale c)) = (List.zipWith (· * ·) v d).map (times c) := by
          rw [← hs, List.zipWith_map_right, List.map_zipWith]
          congr 1
          funext x y
          exact (scale_mul_right hc x y).symm
        have hl : (c * a < c * b) ↔ a < b := mul_lt_mul_iff_right₀ hc
        rw [hz, hs]
        have := finish (ne_of_gt hc) f (decide (a < b)) (List.zipWith (· * ·) v d)
        simp only [decide_eq_true_eq] at this
        simp only [hl]
        exact congrArg Except.ok this

/-- one column with its wind multiplied by a number -/
theorem column_wind {c : K} (hc : c ≠ 0) (f : K) (plev : List K) (v : List (XF K)) (ps : XF K) :
    psiColumn f plev (v.map (times c)) ps = (psiColumn f plev v ps).map (List.map (times c)) := by
  unfold psiColumn
  cases hd : deltaPressure plev ps none with
  | error e => rfl
  | ok d =>
    simp only [Except.map, bind, Except.bind]
    cases h0 : Py.index plev 0 with
    | error e => rfl
    | ok a =>
      cases h1 : Py.index plev (-1) with
      | error e => rfl
      | ok b =>
        simp only [pure, Except.pure]
        have hz : List.zipWith (· * ·) (v.map (times c)) d = (List.zipWith (· * ·) v d).map (times c) := by
          rw [List.zipWith_map_left, List.map_zipWith]
          congr 1
          funext x y
          exact (times_mul hc x y).symm
        rw [hz]
        have := finish hc f (decide (a < b)) (List.zipWith (· * ·) v d)
        simp only [decide_eq_true_eq] at this
        exact congrArg Except.ok this

end

theorem mapM_conv {α β γ δ : Type _} (g : α → β) (h : γ → δ) (F : β → Except PyErr δ) (E : α → Except PyErr γ)
    (hF : ∀ a, F (g a) = (E a).map h) (l : List α) : (l.map g).mapM F = (l.mapM E).map (List.map h) := by
  induction l with
  | nil => rfl
  | cons a as ih =>
    rw [List.map_cons, List.mapM_cons, List.mapM_cons, hF, ih]
    cases E a with
    | error e => rfl
    | ok x =>
      cases as.mapM E with
      | error e => rfl
      | ok xs => rfl

end PsiUnits

open PsiUnits

/-- **C203.** The streamfunction in another unit of pressure: if the levels and the surface pressures are all multiplied
by the same positive number, so is every value of the result; the call fails on the one input exactly when it fails on
the other, with the same error. For all inputs. -/
theorem C203_pressure_unit (c : ℝ) (hc : 0 < c) (rawPs : List (XF ℝ)) (plev lats : List ℝ) (cols : List (List (XF ℝ × List (XF ℝ)))) :
    zonalPsi (rawPs.map (scale c)) (plev.map (c * ·)) lats (cols.map (List.map fun x => (scale c x.1, x.2)))
      = (zonalPsi rawPs plev lats cols).map (List.map (List.map (List.map (scale c)))) := by
  unfold zonalPsi
  have h1 : ((cols.map (List.map fun x : XF ℝ × List (XF ℝ) => (scale c x.1, x.2))).any fun row => row.any fun x => x.1.isNaN)
      = cols.any fun row => row.any fun x => x.1.isNaN := by
    simp only [List.any_map, Function.comp_def, isNaN_scale']
  have h2 : ((rawPs.map (scale c)).any fun p => XF.le p (.fin 0)) = rawPs.any fun p => XF.le p (.fin 0) := by
    simp only [List.any_map, Function.comp_def]
    congr 1
    funext p
    cases p with
    | fin x =>
      have h : c * x ≤ 0 ↔ x ≤ 0 := by
        rw [← not_lt, ← not_lt, mul_pos_iff_of_pos_left hc]
      simp [scale, XF.le, h]
    | _ => rfl
  rw [h1, h2]
  split
  · rfl
  · split
    · rfl
    · refine mapM_conv _ _ _ _ (fun row => ?_) cols
      have hz : (row.map fun x : XF ℝ × List (XF ℝ) => (scale c x.1, x.2)).zip lats
          = (row.zip lats).map fun e => ((scale c e.1.1, e.1.2), e.2) := by
        rw [List.zip_map_left]; rfl
      rw [hz]
      exact mapM_conv _ _ _ _ (fun e => column_pressure hc (psiFactor e.2) plev e.1.2 e.1.1) _

/-- **C203.** If the wind is multiplied by a number other than zero (another unit, or the opposite direction), so is every
value of the result; the errors are the same. For all inputs, with missing and infinite values. -/
theorem C203_wind_unit (c : ℝ) (hc : c ≠ 0) (rawPs : List (XF ℝ)) (plev lats : List ℝ) (cols : List (List (XF ℝ × List (XF ℝ)))) :
    zonalPsi rawPs plev lats (cols.map (List.map fun x => (x.1, x.2.map (.fin c * ·))))
      = (zonalPsi rawPs plev lats cols).map (List.map (List.map (List.map (.fin c * ·)))) := by
  unfold zonalPsi
  have h1 : ((cols.map (List.map fun x : XF ℝ × List (XF ℝ) => (x.1, x.2.map (.fin c * ·)))).any fun row => row.any fun x => x.1.isNaN)
      = cols.any fun row => row.any fun x => x.1.isNaN := by
    simp only [List.any_map, Function.comp_def]
  rw [h1]
  split
  · rfl
  · split
    · rfl
    · refine mapM_conv _ _ _ _ (fun row => ?_) cols
      have hz : (row.map fun x : XF ℝ × List (XF ℝ) => (x.1, x.2.map (.fin c * ·))).zip lats
          = (row.zip lats).map fun e => ((e.1.1, e.1.2.map (.fin c * ·)), e.2) := by
        rw [List.zip_map_left]; rfl
      rw [hz]
      exact mapM_conv _ _ _ _ (fun e => column_wind hc (psiFactor e.2) plev e.1.2 e.1.1) _

/-- **C203.** The hemispheres are mirror images: with the opposite latitudes the values are the same. -/
theorem C203_mirror (rawPs : List (XF ℝ)) (plev lats : List ℝ) (cols : List (List (XF ℝ × List (XF ℝ)))) :
    zonalPsi rawPs plev (lats.map (-·)) cols = zonalPsi rawPs plev lats cols := by
  unfold zonalPsi
  have h : (fun row : List (XF ℝ × List (XF ℝ)) => (row.zip (lats.map (-·))).mapM fun e => psiColumn (psiFactor e.2) plev e.1.2 e.1.1)
      = fun row => (row.zip lats).mapM fun e => psiColumn (psiFactor e.2) plev e.1.2 e.1.1 := by
    funext row
    rw [List.zip_map_right]
    have := mapM_conv (Prod.map id (-·)) (id : List (XF ℝ) → List (XF ℝ))
      (fun e : (XF ℝ × List (XF ℝ)) × ℝ => psiColumn (psiFactor e.2) plev e.1.2 e.1.1)
      (fun e => psiColumn (psiFactor e.2) plev e.1.2 e.1.1) (fun e => by
        show psiColumn (psiFactor (-e.2)) plev e.1.2 e.1.1 = _
        unfold psiFactor
        rw [Real.cos_neg]
        cases psiColumn (2 * Real.pi * 6378137 * Real.cos e.2 / 9.80665) plev e.1.2 e.1.1 <;> rfl) (row.zip lats)
    refine this.trans ?_
    cases (row.zip lats).mapM fun e => psiColumn (psiFactor e.2) plev e.1.2 e.1.1 with
    | error e => rfl
    | ok l => simp [Except.map]
  rw [h]

/-- one column in hPa and in Pa: `[100, 300, 500]`, surface 600, a missing wind in the middle -/
example : psiColumn 1 [100, 300, 500] [.fin 1, .nan, .fin 2] (.fin (600 : ℚ)) = .ok [.fin 100, .fin 100, .fin 500]
    ∧ psiColumn 1 [10000, 30000, 50000] [.fin 1, .nan, .fin 2] (.fin (60000 : ℚ)) = .ok [.fin 10000, .fin 10000, .fin 50000]
    ∧ psiColumn 1 [100, 300, 500] [.fin (-1), .nan, .fin (-2)] (.fin (600 : ℚ)) = .ok [.fin (-100), .fin (-100), .fin (-500)] := by
  decide +kernel

/-- a call that returns, so that `C203_pressure_unit` and `C203_wind_unit` compare values and not only errors -/
example : ∃ r, zonalPsi [.fin 90000, .nan] (column 3 (fun k => 10000 + 40000 * (k : ℝ))) (column 1 (fun _ => 30))
    (gridOf 2 1 (fun t _ => (.fin (90000 - 10000 * (t : ℝ)), column 3 (fun _ => .fin 1)))) = .ok r ∧ r.length = 2 := by
  refine ⟨_, C110_accepts_partial _ 2 1 3 (by norm_num) _ _ ?_ (by norm_num) (fun t _ => 90000 - 10000 * (t : ℝ)) (fun _ _ _ => .fin 1) ?_ ?_ ?_, ?_⟩
  · intro i j hij _
    have : (i : ℝ) < j := by exact_mod_cast hij
    simp only
    linarith
  · intro p hp
    simp only [List.mem_cons, List.not_mem_nil, or_false] at hp
    rcases hp with rfl | rfl
    · exact Or.inr ⟨90000, by norm_num, rfl⟩
    · exact Or.inl rfl
  · intro t l j; simp [NoInf]
  · intro t ht l _
    have : (t : ℝ) ≤ 1 := by exact_mod_cast Nat.lt_succ_iff.mp ht
    simp only [Nat.cast_zero, Nat.cast_one]
    linarith
  · simp [gridOf, column]

end Verif.Props
