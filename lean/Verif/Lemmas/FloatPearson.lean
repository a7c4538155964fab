import Verif.Model.FloatsPearson
import Verif.Lemmas.Pearson
import Verif.Lemmas.FloatSum
import Verif.Lemmas.FloatSqrt
import Verif.Props.FloatNmse

/-
Lemmas for pearson_r in floating-point arithmetic: the sums over cells with and without a value.
-/

namespace Verif.Lemmas
open Model Spec Props

theorem roundXF_fin (R : Rounding ℝ) (x : ℝ) : roundXF R (.fin x) = .fin (R.fl x) := rfl

section
variable {α β : Type}

/-- the value of a cell, 0 if there is none -/
def orZero (v : α → Option β) (h : β → ℝ) (x : α) : ℝ := (v x).elim 0 h

theorem round_lift_mul (R : Rounding ℝ) (v : α → Option β) (h g : β → ℝ) (x : α) :
    roundXF R (lift v h x * lift v g x) = lift v (fun y => R.fl (h y * g y)) x := by
  unfold lift
  cases v x <;> rfl

theorem round_lift_sub (R : Rounding ℝ) (v : α → Option β) (h : β → ℝ) (c : ℝ) (x : α) :
    roundXF R (lift v h x - .fin c) = lift v (fun y => R.fl (h y - c)) x := by
  unfold lift
  cases v x with
  | none => rfl
  | some y => simp [roundXF]

theorem xSumFl_lift (sum : List ℝ → ℝ) (v : α → Option β) (T : List α) (hs : ∀ x ∈ T, (v x).isSome = true) (h : β → ℝ) :
    xSumFl sum (T.map (lift v h)) = .fin (sum (T.map (orZero v h))) := by
  unfold xSumFl
  rw [if_pos, List.map_map]
  · congr 2
    refine List.map_congr_left fun x hx => ?_
    obtain ⟨y, hy⟩ := Option.isSome_iff_exists.mp (hs x hx)
    simp [lift, orZero, hy, xVal0]
  · rw [List.all_map, List.all_eq_true]
    intro x hx
    obtain ⟨y, hy⟩ := Option.isSome_iff_exists.mp (hs x hx)
    simp [lift, hy, xIsFin]

theorem sumFuncFl_lift (sum : List ℝ → ℝ) (skip : Bool) (v : α → Option β) (T : List α) (hs : skip = true ∨ ∀ x ∈ T, (v x).isSome = true)
    (h : β → ℝ) : sumFuncFl sum skip (T.map (lift v h)) = .fin (sum (T.map (orZero v h))) := by
  unfold sumFuncFl
  cases skip with
  | true =>
    rw [if_pos rfl, List.map_map]
    unfold xSumFl
    rw [if_pos, List.map_map]
    · congr 2
      refine List.map_congr_left fun x hx => ?_
      cases hv : v x <;> simp [lift, orZero, hv, xVal0]
    · rw [List.all_map, List.all_eq_true]
      intro x hx
      cases hv : v x <;> simp [lift, hv, xIsFin]
  | false =>
    rw [if_neg (by simp)]
    exact xSumFl_lift sum v T (by simpa using hs) h

theorem meanFuncFl_lift (R : Rounding ℝ) (sum : List ℝ → ℝ) (skip : Bool) (v : α → Option β) (T : List α)
    (hs : skip = true ∨ ∀ x ∈ T, (v x).isSome = true) (hne : T.filterMap v ≠ []) (h : β → ℝ) :
    meanFuncFl R sum skip (T.map (lift v h)) = .fin (R.fl (sum (T.map (orZero v h)) / ((T.filterMap v).length : ℝ))) := by
  have hlen : ((T.filterMap v).length : ℝ) ≠ 0 := by
    rw [Nat.cast_ne_zero]
    exact fun h => hne (List.length_eq_zero_iff.mp h)
  unfold meanFuncFl
  cases skip with
  | true =>
    rw [if_pos rfl, sumFuncFl_lift sum true v T hs, count_lift, XF.fin_div _ _ hlen]
    rfl
  | false =>
    have hs' : ∀ x ∈ T, (v x).isSome = true := by simpa using hs
    rw [if_neg (by simp), xSumFl_lift sum v T hs', List.length_map, ← filterMap_all_length v T hs', XF.fin_div _ _ hlen]
    rfl

/-- what is computed from the sum of products and the two sums of squares -/
noncomputable def quotFl (R : Rounding ℝ) (num saa sbb : ℝ) : XF ℝ :=
  clipUnit (roundXF R (.fin num / roundXF R (xSqrt (.fin (R.fl (saa * sbb))))))

/-- the weighted mean of the cells -/
noncomputable def wMeanFl (R : Rounding ℝ) (sum : List ℝ → ℝ) (v : α → Option (ℝ × ℝ × ℝ)) (T : List α) (f : ℝ × ℝ × ℝ → ℝ) : ℝ :=
  R.fl (sum (T.map (orZero v (fun y => R.fl (f y * y.1)))) / sum (T.map (orZero v (·.1))))

/-- the mean of the cells -/
noncomputable def meanCellsFl (R : Rounding ℝ) (sum : List ℝ → ℝ) (v : α → Option (ℝ × ℝ × ℝ)) (T : List α) (f : ℝ × ℝ × ℝ → ℝ) : ℝ :=
  R.fl (sum (T.map (orZero v f)) / ((T.filterMap v).length : ℝ))

/-- the sum of the weighted products of the deviations -/
noncomputable def prodSumW (R : Rounding ℝ) (sum : List ℝ → ℝ) (v : α → Option (ℝ × ℝ × ℝ)) (T : List α) (f g : ℝ × ℝ × ℝ → ℝ) (m n : ℝ) : ℝ :=
  sum (T.map (orZero v (fun y => R.fl (R.fl (y.1 * R.fl (f y - m)) * R.fl (g y - n)))))

/-- the sum of the products of the deviations -/
noncomputable def prodSum (R : Rounding ℝ) (sum : List ℝ → ℝ) (v : α → Option (ℝ × ℝ × ℝ)) (T : List α) (f g : ℝ × ℝ × ℝ → ℝ) (m n : ℝ) : ℝ :=
  sum (T.map (orZero v (fun y => R.fl (R.fl (f y - m) * R.fl (g y - n)))))

theorem tailFl_weights (R : Rounding ℝ) (sum : List ℝ → ℝ) (skip : Bool) (v : α → Option (ℝ × ℝ × ℝ)) (T : List α)
    (hs : skip = true ∨ ∀ x ∈ T, (v x).isSome = true) (hne : T.filterMap v ≠ []) (hW : sum (T.map (orZero v (·.1))) ≠ 0) :
    pearsonTailFl R sum (T.map (lift v (·.2.1))) (T.map (lift v (·.2.2))) (some (T.map (lift v (·.1)))) skip =
      .ok (quotFl R (prodSumW R sum v T (·.2.1) (·.2.2) (wMeanFl R sum v T (·.2.1)) (wMeanFl R sum v T (·.2.2)))
        (prodSumW R sum v T (·.2.1) (·.2.1) (wMeanFl R sum v T (·.2.1)) (wMeanFl R sum v T (·.2.1)))
        (prodSumW R sum v T (·.2.2) (·.2.2) (wMeanFl R sum v T (·.2.2)) (wMeanFl R sum v T (·.2.2)))) := by
  have hn : ¬ (T.map (lift v (·.1))).all XF.isNaN = true := by rw [all_nan_lift]; exact hne
  unfold pearsonTailFl
  simp only [checkWeights, if_neg hn, bcast2_maps, round_lift_mul, sumFuncFl_lift sum skip v T hs, XF.fin_div _ _ hW, List.map_map, Function.comp_def,
    roundXF_fin, round_lift_sub, bind, Except.bind, pure, Except.pure]
  rfl

theorem tailFl_unweighted (R : Rounding ℝ) (sum : List ℝ → ℝ) (skip : Bool) (v : α → Option (ℝ × ℝ × ℝ)) (T : List α)
    (hs : skip = true ∨ ∀ x ∈ T, (v x).isSome = true) (hne : T.filterMap v ≠ []) :
    pearsonTailFl R sum (T.map (lift v (·.2.1))) (T.map (lift v (·.2.2))) none skip =
      .ok (quotFl R (prodSum R sum v T (·.2.1) (·.2.2) (meanCellsFl R sum v T (·.2.1)) (meanCellsFl R sum v T (·.2.2)))
        (prodSum R sum v T (·.2.1) (·.2.1) (meanCellsFl R sum v T (·.2.1)) (meanCellsFl R sum v T (·.2.1)))
        (prodSum R sum v T (·.2.2) (·.2.2) (meanCellsFl R sum v T (·.2.2)) (meanCellsFl R sum v T (·.2.2)))) := by
  unfold pearsonTailFl
  simp only [checkWeights, meanFuncFl_lift R sum skip v T hs hne, bcast2_maps, round_lift_mul, sumFuncFl_lift sum skip v T hs, List.map_map,
    Function.comp_def, round_lift_sub, bind, Except.bind, pure, Except.pure]
  rfl

end

theorem coreFl_some (R : Rounding ℝ) (sum : List ℝ → ℝ) (T : List (ℝ × Option ℝ × Option ℝ)) (skip : Bool)
    (hs : skip = true ∨ ∀ x ∈ T, (cellVal x).isSome = true) :
    pearsonCoreFl R sum (T.map (fun x => toX x.2.1)) (T.map (fun x => toX x.2.2)) (some (T.map (fun x => .fin x.1))) skip =
      pearsonTailFl R sum (T.map (lift cellVal (·.2.1))) (T.map (lift cellVal (·.2.2))) (some (T.map (lift cellVal (·.1)))) skip := by
  unfold pearsonCoreFl
  cases skip with
  | true => simp only [if_true, matchNans_some, bind, Except.bind]
  | false =>
    have hall : ∀ x ∈ T, (cellVal x).isSome = true := by simpa using hs
    simp only [Bool.false_eq_true, if_false, bind, Except.bind, pure, Except.pure]
    rw [pickNaN_all T _ (·.2.1) (fun x _ y h => val_a x y h) hall, pickNaN_all T _ (·.2.2) (fun x _ y h => val_b x y h) hall,
      pickNaN_all T _ (·.1) (fun x _ y h => val_w x y h) hall]

theorem coreFl_none (R : Rounding ℝ) (sum : List ℝ → ℝ) (T : List (ℝ × Option ℝ × Option ℝ)) (skip : Bool)
    (hs : skip = true ∨ ∀ x ∈ T, (cellVal x).isSome = true) :
    pearsonCoreFl R sum (T.map (fun x => toX x.2.1)) (T.map (fun x => toX x.2.2)) none skip =
      pearsonTailFl R sum (T.map (lift cellVal (·.2.1))) (T.map (lift cellVal (·.2.2))) none skip := by
  unfold pearsonCoreFl
  cases skip with
  | true => simp only [if_true, matchNans_none, bind, Except.bind]
  | false =>
    have hall : ∀ x ∈ T, (cellVal x).isSome = true := by simpa using hs
    simp only [Bool.false_eq_true, if_false, bind, Except.bind, pure, Except.pure]
    rw [pickNaN_all T _ (·.2.1) (fun x _ y h => val_a x y h) hall, pickNaN_all T _ (·.2.2) (fun x _ y h => val_b x y h) hall]

/-! ### Sums of numbers that are not negative -/

theorem sumFl_ge (R : Rounding ℝ) (t : SumTree ℝ) (h : ∀ a ∈ t.list, 0 ≤ a) (hr : ∀ a ∈ t.list, R.rep a) : ∀ a ∈ t.list, a ≤ t.sumFl R := by
  induction t with
  | leaf x =>
    intro a ha
    rw [SumTree.list, List.mem_singleton] at ha
    rw [ha]
    exact le_refl _
  | node l r ihl ihr =>
    have hl : ∀ a ∈ l.list, a ∈ (SumTree.node l r).list := fun a ha => by simp [SumTree.list, ha]
    have hr' : ∀ a ∈ r.list, a ∈ (SumTree.node l r).list := fun a ha => by simp [SumTree.list, ha]
    have l0 := sumFl_nonneg R l (fun a ha => h a (hl a ha))
    have r0 := sumFl_nonneg R r (fun a ha => h a (hr' a ha))
    have lr := sumFl_rep R l (fun a ha => hr a (hl a ha))
    have rr := sumFl_rep R r (fun a ha => hr a (hr' a ha))
    intro a ha
    rw [SumTree.list, List.mem_append] at ha
    rcases ha with ha | ha
    · exact (ihl (fun a ha => h a (hl a ha)) (fun a ha => hr a (hl a ha)) a ha).trans (R.le_fl lr (by linarith))
    · exact (ihr (fun a ha => h a (hr' a ha)) (fun a ha => hr a (hr' a ha)) a ha).trans (R.le_fl rr (by linarith))

theorem addsUp_ge {R : Rounding ℝ} {sum : List ℝ → ℝ} (hs : AddsUp R sum) {l : List ℝ} (h : ∀ a ∈ l, 0 ≤ a) (hr : ∀ a ∈ l, R.rep a) (a : ℝ)
    (ha : a ∈ l) : a ≤ sum l := by
  obtain ⟨t, hp, e⟩ := hs.2 l (List.ne_nil_of_mem ha)
  rw [e]
  exact sumFl_ge R t (fun a ha => h a (hp.mem_iff.mp ha)) (fun a ha => hr a (hp.mem_iff.mp ha)) a (hp.mem_iff.mpr ha)

theorem addsUp_rep {R : Rounding ℝ} {sum : List ℝ → ℝ} (hs : AddsUp R sum) {l : List ℝ} (hr : ∀ a ∈ l, R.rep a) : R.rep (sum l) := by
  by_cases hl : l = []
  · rw [hl, hs.1]; exact R.rep_zero
  · obtain ⟨t, hp, e⟩ := hs.2 l hl
    rw [e]
    exact sumFl_rep R t (fun a ha => hr a (hp.mem_iff.mp ha))

end Verif.Lemmas
