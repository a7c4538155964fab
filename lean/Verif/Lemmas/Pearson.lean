import Verif.Model.Pearson
import Verif.Lemmas.Nmse
import Mathlib.Algebra.Order.BigOperators.Ring.Finset
import Mathlib.Tactic.Linarith
import Mathlib.Tactic.FieldSimp
import Mathlib.Tactic.Ring

/-
Lemmas for pearson_r: cells with or without a value, sums over the cells with a value, Cauchy-Schwarz.
-/

namespace Verif.Lemmas
open Model Spec

section
variable {α β : Type}

/-- an array entry that is a number where the cell has a value, NaN elsewhere -/
def lift (v : α → Option β) (h : β → ℝ) (x : α) : XF ℝ :=
  match v x with
  | some y => .fin (h y)
  | none => .nan

theorem lift_mul (v : α → Option β) (h g : β → ℝ) (x : α) : lift v h x * lift v g x = lift v (fun y => h y * g y) x := by
  unfold lift
  cases v x <;> rfl

theorem lift_sub (v : α → Option β) (h : β → ℝ) (c : ℝ) (x : α) : lift v h x - .fin c = lift v (fun y => h y - c) x := by
  unfold lift
  cases v x with
  | none => rfl
  | some y => simp

theorem bcast2_maps (f : XF ℝ → XF ℝ → XF ℝ) (g h : α → XF ℝ) (T : List α) :
    bcast2 f (T.map g) (T.map h) = .ok (T.map (fun x => f (g x) (h x))) := by
  unfold bcast2
  rw [if_pos (by simp), zipWith_maps]

theorem sumFunc_lift (skip : Bool) (v : α → Option β) (T : List α) (hs : skip = true ∨ ∀ x ∈ T, (v x).isSome = true) (h : β → ℝ) :
    sumFunc skip (T.map (lift v h)) = .fin (((T.filterMap v).map h).sum) := by
  induction T with
  | nil => cases skip <;> rfl
  | cons x T ih =>
    have ih' := ih (hs.imp_right (fun h y hy => h y (List.mem_cons_of_mem _ hy)))
    cases skip with
    | true =>
      simp only [sumFunc, if_true] at ih' ⊢
      unfold xSum at ih' ⊢
      simp only [List.map_cons, List.foldr_cons, ih']
      cases hx : v x with
      | none => simp [lift, hx]
      | some y => simp [lift, hx]
    | false =>
      have hx : (v x).isSome = true := by
        rcases hs with hs | hs
        · cases hs
        · exact hs x (by simp)
      obtain ⟨y, hy⟩ := Option.isSome_iff_exists.mp hx
      simp only [sumFunc, Bool.false_eq_true, if_false] at ih' ⊢
      unfold xSum at ih' ⊢
      simp only [List.map_cons, List.foldr_cons, ih', lift, hy, XF.fin_add, List.filterMap_cons_some hy, List.sum_cons]

theorem count_lift (v : α → Option β) (T : List α) (h : β → ℝ) :
    ((T.map (lift v h)).filter (fun x => !x.isNaN)).length = (T.filterMap v).length := by
  induction T with
  | nil => rfl
  | cons x T ih =>
    cases hx : v x with
    | none =>
      rw [List.filterMap_cons_none hx, ← ih, List.map_cons, List.filter_cons_of_neg (by simp [lift, hx])]
    | some y =>
      rw [List.filterMap_cons_some hx, List.map_cons, List.filter_cons_of_pos (by simp [lift, hx]), List.length_cons, List.length_cons, ih]

theorem filterMap_all_length (v : α → Option β) (T : List α) (h : ∀ x ∈ T, (v x).isSome = true) : (T.filterMap v).length = T.length := by
  induction T with
  | nil => rfl
  | cons x T ih =>
    obtain ⟨y, hy⟩ := Option.isSome_iff_exists.mp (h x (by simp))
    rw [List.filterMap_cons_some hy, List.length_cons, List.length_cons, ih (fun z hz => h z (List.mem_cons_of_mem _ hz))]

theorem meanFunc_lift (skip : Bool) (v : α → Option β) (T : List α) (hs : skip = true ∨ ∀ x ∈ T, (v x).isSome = true) (h : β → ℝ) :
    meanFunc skip (T.map (lift v h)) = .fin (((T.filterMap v).map h).sum) / .fin ((T.filterMap v).length : ℝ) := by
  unfold meanFunc
  cases skip with
  | true =>
    simp only [if_true, count_lift]
    rw [sumFunc_lift true v T (Or.inl rfl)]
  | false =>
    have hs' : ∀ x ∈ T, (v x).isSome = true := by
      rcases hs with hs | hs
      · cases hs
      · exact hs
    simp only [Bool.false_eq_true, if_false]
    have := sumFunc_lift false v T (Or.inr hs') h
    simp only [sumFunc, Bool.false_eq_true, if_false] at this
    rw [this, List.length_map, filterMap_all_length v T hs']

/-- some cell has a value -/
theorem all_nan_lift (v : α → Option β) (T : List α) (h : β → ℝ) : (T.map (lift v h)).all XF.isNaN = true ↔ T.filterMap v = [] := by
  rw [List.all_map, List.all_eq_true, List.filterMap_eq_nil_iff]
  refine forall_congr' fun x => forall_congr' fun hx => ?_
  simp only [Function.comp]
  unfold lift
  cases v x <;> simp

end

section tail
variable {α : Type}

/-- what is computed from the cells (weight, a, b) -/
noncomputable def corrX (V : List (ℝ × ℝ × ℝ)) : XF ℝ :=
  clipUnit (.fin ((V.map (fun x => x.1 * (x.2.1 - wMean V (·.1) (·.2.1)) * (x.2.2 - wMean V (·.1) (·.2.2)))).sum) /
    xSqrt (.fin ((V.map (fun x => x.1 * (x.2.1 - wMean V (·.1) (·.2.1)) ^ 2)).sum * (V.map (fun x => x.1 * (x.2.2 - wMean V (·.1) (·.2.2)) ^ 2)).sum)))

theorem tail_weights (skip : Bool) (v : α → Option (ℝ × ℝ × ℝ)) (T : List α) (hs : skip = true ∨ ∀ x ∈ T, (v x).isSome = true)
    (hW : ((T.filterMap v).map (·.1)).sum ≠ 0) :
    pearsonTail (T.map (lift v (·.2.1))) (T.map (lift v (·.2.2))) (some (T.map (lift v (·.1)))) skip = .ok (corrX (T.filterMap v)) := by
  have hne : ¬ (T.map (lift v (·.1))).all XF.isNaN = true := by
    rw [all_nan_lift]
    intro h
    rw [h] at hW
    simp at hW
  unfold pearsonTail
  simp only [checkWeights, if_neg hne, bcast2_maps, lift_mul, sumFunc_lift skip v T hs, XF.fin_div _ _ hW, List.map_map, Function.comp_def, lift_sub,
    bind, Except.bind, pure, Except.pure]
  have hc : ∀ f : ℝ × ℝ × ℝ → ℝ, (T.filterMap v).map (fun x => f x * x.1) = (T.filterMap v).map (fun x => x.1 * f x) := by
    intro f
    refine List.map_congr_left fun x _ => mul_comm _ _
  unfold corrX wMean
  rw [hc, hc]
  simp only [XF.fin_mul, pow_two, mul_assoc]

theorem tail_unweighted (skip : Bool) (v : α → Option (ℝ × ℝ × ℝ)) (T : List α) (hs : skip = true ∨ ∀ x ∈ T, (v x).isSome = true)
    (h1 : ∀ y ∈ T.filterMap v, y.1 = 1) (hne : T.filterMap v ≠ []) :
    pearsonTail (T.map (lift v (·.2.1))) (T.map (lift v (·.2.2))) none skip = .ok (corrX (T.filterMap v)) := by
  have hlen : ((T.filterMap v).length : ℝ) ≠ 0 := by
    rw [Nat.cast_ne_zero]
    intro h
    exact hne (List.length_eq_zero_iff.mp h)
  have hmul : ∀ f : ℝ × ℝ × ℝ → ℝ, ((T.filterMap v).map (fun x => x.1 * f x)).sum = ((T.filterMap v).map f).sum := by
    intro f
    congr 1
    refine List.map_congr_left fun x hx => ?_
    rw [h1 x hx, one_mul]
  have hW : ((T.filterMap v).map (·.1)).sum = ((T.filterMap v).length : ℝ) := by
    generalize T.filterMap v = V at h1
    induction V with
    | nil => simp
    | cons x V ih =>
      rw [List.map_cons, List.sum_cons, ih (fun y hy => h1 y (List.mem_cons_of_mem _ hy)), h1 x (by simp), List.length_cons]
      push_cast
      ring
  unfold pearsonTail
  simp only [checkWeights, meanFunc_lift skip v T hs, XF.fin_div _ _ hlen, List.map_map, Function.comp_def, lift_sub, bcast2_maps, lift_mul,
    sumFunc_lift skip v T hs, bind, Except.bind, pure, Except.pure]
  unfold corrX wMean
  simp only [XF.fin_mul, mul_assoc, hmul, hW, pow_two]

theorem tail_empty (v : α → Option (ℝ × ℝ × ℝ)) (T : List α) (he : T.filterMap v = []) (w : Option (List (XF ℝ)))
    (hw : w = none ∨ w = some (T.map (lift v (·.1)))) :
    pearsonTail (T.map (lift v (·.2.1))) (T.map (lift v (·.2.2))) w true = .ok .nan := by
  have hcw : checkWeights w = none := by
    rcases hw with rfl | rfl
    · rfl
    · simp only [checkWeights]
      rw [if_pos ((all_nan_lift v T _).mpr he)]
  have hnan : (XF.fin (0 : ℝ)) / .fin 0 = .nan := by rw [XF.fin_div_zero]; simp [XF.signInf]
  have hl : ∀ (h : ℝ × ℝ × ℝ → ℝ), ∀ x ∈ T, lift v h x = .nan := by
    intro h x hx
    unfold lift
    rw [List.filterMap_eq_nil_iff.mp he x hx]
  have hsum : ∀ g : α → XF ℝ, (∀ x ∈ T, g x = .nan) → sumFunc true (T.map g) = .fin 0 := by
    intro g hg
    rw [List.map_congr_left (f := g) (g := lift v (fun _ => 0)) (fun x hx => by rw [hg x hx, hl _ x hx]), sumFunc_lift true v T (Or.inl rfl), he]
    rfl
  unfold pearsonTail
  simp only [hcw, meanFunc_lift true v T (Or.inl rfl), he, List.map_nil, List.sum_nil, List.length_nil, Nat.cast_zero, hnan, XF.sub_nan, List.map_map,
    Function.comp_def, bcast2_maps, bind, Except.bind, pure, Except.pure, XF.nan_mul]
  rw [hsum _ (fun _ _ => rfl)]
  simp [xSqrt, XF.fin_div_zero, XF.signInf, clipUnit]

end tail

/-! ### Cauchy-Schwarz for weighted sums -/

theorem cauchy_list {α : Type} (l : List α) (w f g : α → ℝ) (hw : ∀ x ∈ l, 0 ≤ w x) :
    (l.map (fun x => w x * f x * g x)).sum ^ 2 ≤ (l.map (fun x => w x * f x ^ 2)).sum * (l.map (fun x => w x * g x ^ 2)).sum := by
  -- for every t: sum w (f t - g)^2 >= 0
  set A := (l.map (fun x => w x * f x ^ 2)).sum
  set B := (l.map (fun x => w x * f x * g x)).sum
  set C := (l.map (fun x => w x * g x ^ 2)).sum
  have hq : ∀ s t : ℝ, 0 ≤ A * s ^ 2 - 2 * B * s * t + C * t ^ 2 := by
    intro s t
    have h1 : (l.map (fun x => w x * (f x * s - g x * t) ^ 2)).sum = A * s ^ 2 - 2 * B * s * t + C * t ^ 2 := by
      have : ∀ m : List α, (m.map (fun x => w x * (f x * s - g x * t) ^ 2)).sum =
          (m.map (fun x => w x * f x ^ 2)).sum * s ^ 2 - 2 * (m.map (fun x => w x * f x * g x)).sum * s * t + (m.map (fun x => w x * g x ^ 2)).sum * t ^ 2 := by
        intro m
        induction m with
        | nil => simp
        | cons a m ih =>
          simp only [List.map_cons, List.sum_cons, ih]
          ring
      exact this l
    rw [← h1]
    apply List.sum_nonneg
    intro y hy
    obtain ⟨x, hx, rfl⟩ := List.mem_map.mp hy
    exact mul_nonneg (hw x hx) (sq_nonneg _)
  have hA : 0 ≤ A := by simpa using hq 1 0
  have hC : 0 ≤ C := by simpa using hq 0 1
  have h := hq B A
  -- A B^2 - 2 B^2 A + C A^2 = A (A C - B^2)
  rcases hA.eq_or_lt with hA0 | hA0
  · have h2 := hq (B * (C + 1)) (B ^ 2)
    have h3 := hq (C + 1) B
    rw [← hA0] at h3 ⊢
    nlinarith [sq_nonneg B, mul_nonneg hC (sq_nonneg B)]
  · have : 0 ≤ A * (A * C - B ^ 2) := by nlinarith
    have := nonneg_of_mul_nonneg_right this hA0
    linarith

theorem corrX_eq (V : List (ℝ × ℝ × ℝ)) (hw : ∀ x ∈ V, 0 ≤ x.1)
    (h : (V.map (fun x => x.1 * (x.2.1 - wMean V (·.1) (·.2.1)) ^ 2)).sum * (V.map (fun x => x.1 * (x.2.2 - wMean V (·.1) (·.2.2)) ^ 2)).sum ≠ 0) :
    corrX V = .fin (correlation V) ∧ |correlation V| ≤ 1 := by
  have hcs := cauchy_list V (·.1) (fun x => x.2.1 - wMean V (·.1) (·.2.1)) (fun x => x.2.2 - wMean V (·.1) (·.2.2)) hw
  set P := (V.map (fun x => x.1 * (x.2.1 - wMean V (·.1) (·.2.1)) ^ 2)).sum * (V.map (fun x => x.1 * (x.2.2 - wMean V (·.1) (·.2.2)) ^ 2)).sum with hP
  set B := (V.map (fun x => x.1 * (x.2.1 - wMean V (·.1) (·.2.1)) * (x.2.2 - wMean V (·.1) (·.2.2)))).sum with hB
  have hP0 : 0 < P := lt_of_le_of_ne (le_trans (sq_nonneg B) hcs) (Ne.symm h)
  have hs : 0 < Real.sqrt P := Real.sqrt_pos.mpr hP0
  have hcor : correlation V = B / Real.sqrt P := rfl
  have habs : |correlation V| ≤ 1 := by
    rw [hcor, abs_div, abs_of_pos hs, div_le_one hs]
    exact Real.abs_le_sqrt hcs
  refine ⟨?_, habs⟩
  have hx : corrX V = clipUnit (.fin B / xSqrt (.fin P)) := rfl
  rw [hx]
  simp only [xSqrt, if_neg (not_lt.mpr hP0.le), XF.fin_div _ _ hs.ne', clipUnit]
  rw [← hcor]
  rw [abs_le] at habs
  rw [min_eq_left habs.2, max_eq_right habs.1]

theorem corrX_nan (V : List (ℝ × ℝ × ℝ)) (hw : ∀ x ∈ V, 0 ≤ x.1)
    (h : (V.map (fun x => x.1 * (x.2.1 - wMean V (·.1) (·.2.1)) ^ 2)).sum * (V.map (fun x => x.1 * (x.2.2 - wMean V (·.1) (·.2.2)) ^ 2)).sum = 0) :
    corrX V = .nan := by
  have hcs := cauchy_list V (·.1) (fun x => x.2.1 - wMean V (·.1) (·.2.1)) (fun x => x.2.2 - wMean V (·.1) (·.2.2)) hw
  rw [h] at hcs
  have hB := pow_eq_zero_iff (two_ne_zero) |>.mp (le_antisymm hcs (sq_nonneg _))
  unfold corrX
  rw [h, hB]
  simp [xSqrt, XF.fin_div_zero, XF.signInf, clipUnit]

end Verif.Lemmas

namespace Verif.Lemmas
open Model Spec

/-- an entry that may be missing, as a float -/
def toX : Option ℝ → XF ℝ
  | some x => .fin x
  | none => .nan

/-- cells in which both values are present -/
def cellVal (x : ℝ × Option ℝ × Option ℝ) : Option (ℝ × ℝ × ℝ) :=
  match x.2.1, x.2.2 with | some o, some m => some (x.1, o, m) | _, _ => none

theorem validCells_cellVal (ws : List ℝ) (o m : List (Option ℝ)) : validCells ws o m = (List.zip ws (List.zip o m)).filterMap cellVal := by
  unfold validCells
  congr 1
  funext x
  obtain ⟨w, a, b⟩ := x
  cases a <;> cases b <;> rfl

theorem setNaN_maps {α : Type} (g : α → XF ℝ) (i : α → Bool) (T : List α) :
    setNaN (T.map g) (T.map i) = .ok (T.map (fun x => if i x then .nan else g x)) := by
  unfold setNaN
  rw [if_pos (by simp), zipWith_maps]

theorem toX_isNaN (x : Option ℝ) : (toX x).isNaN = !x.isSome := by cases x <;> rfl

theorem bcast2_bool {α : Type} (f : XF ℝ → XF ℝ → Bool) (g h : α → XF ℝ) (T : List α) :
    bcast2 f (T.map g) (T.map h) = .ok (T.map (fun x => f (g x) (h x))) := by
  unfold bcast2
  rw [if_pos (by simp), zipWith_maps]

theorem pickNaN (T : List (ℝ × Option ℝ × Option ℝ)) (g : ℝ × Option ℝ × Option ℝ → XF ℝ) (h : ℝ × ℝ × ℝ → ℝ)
    (hg : ∀ x ∈ T, ∀ y, cellVal x = some y → g x = .fin (h y)) :
    T.map (fun x => if ((toX x.2.1).isNaN || (toX x.2.2).isNaN) = true then XF.nan else g x) = T.map (lift cellVal h) := by
  refine List.map_congr_left fun x hx => ?_
  have := hg x hx
  obtain ⟨w, a, b⟩ := x
  cases a with
  | none => rfl
  | some a =>
    cases b with
    | none => rfl
    | some b =>
      have h2 := this (w, a, b) rfl
      simp only [toX, XF.isNaN_fin, Bool.or_self, Bool.false_eq_true, if_false, h2]
      rfl

theorem pickNaN_all (T : List (ℝ × Option ℝ × Option ℝ)) (g : ℝ × Option ℝ × Option ℝ → XF ℝ) (h : ℝ × ℝ × ℝ → ℝ)
    (hg : ∀ x ∈ T, ∀ y, cellVal x = some y → g x = .fin (h y)) (hall : ∀ x ∈ T, (cellVal x).isSome = true) :
    T.map g = T.map (lift cellVal h) := by
  refine List.map_congr_left fun x hx => ?_
  obtain ⟨y, hy⟩ := Option.isSome_iff_exists.mp (hall x hx)
  rw [hg x hx y hy]
  simp [lift, hy]

theorem val_a (x : ℝ × Option ℝ × Option ℝ) (y : ℝ × ℝ × ℝ) (h : cellVal x = some y) : toX x.2.1 = .fin y.2.1 := by
  obtain ⟨w, a, b⟩ := x
  cases a <;> cases b <;> simp_all [cellVal]
  obtain ⟨-, rfl⟩ := h
  rfl

theorem val_b (x : ℝ × Option ℝ × Option ℝ) (y : ℝ × ℝ × ℝ) (h : cellVal x = some y) : toX x.2.2 = .fin y.2.2 := by
  obtain ⟨w, a, b⟩ := x
  cases a <;> cases b <;> simp_all [cellVal]
  obtain ⟨-, rfl⟩ := h
  rfl

theorem val_w (x : ℝ × Option ℝ × Option ℝ) (y : ℝ × ℝ × ℝ) (h : cellVal x = some y) : (XF.fin x.1 : XF ℝ) = .fin y.1 := by
  obtain ⟨w, a, b⟩ := x
  cases a <;> cases b <;> simp_all [cellVal]
  obtain ⟨-, rfl⟩ := h
  rfl

theorem valid_iff (x : ℝ × Option ℝ × Option ℝ) : (cellVal x).isSome = !((toX x.2.1).isNaN || (toX x.2.2).isNaN) := by
  obtain ⟨w, a, b⟩ := x
  cases a <;> cases b <;> rfl

theorem matchNans_some (T : List (ℝ × Option ℝ × Option ℝ)) :
    matchNans (T.map (fun x => toX x.2.1)) (T.map (fun x => toX x.2.2)) (some (T.map (fun x => .fin x.1))) =
      .ok (T.map (lift cellVal (·.2.1)), T.map (lift cellVal (·.2.2)), some (T.map (lift cellVal (·.1)))) := by
  unfold matchNans
  split
  · simp only [bcast2_bool, setNaN_maps, bind, Except.bind, pure, Except.pure]
    rw [pickNaN T _ (·.2.1) (fun x _ y h => val_a x y h), pickNaN T _ (·.2.2) (fun x _ y h => val_b x y h), pickNaN T _ (·.1) (fun x _ y h => val_w x y h)]
  · rename_i h
    have hall : ∀ x ∈ T, (cellVal x).isSome = true := by
      intro x hx
      rw [valid_iff]
      simp only [List.any_map, Bool.or_eq_true, List.any_eq_true, not_or, not_exists, not_and] at h
      have h1 := h.1 x hx
      have h2 := h.2 x hx
      simp only [Function.comp] at h1 h2
      simp [h1, h2]
    simp only [pure, Except.pure]
    rw [pickNaN_all T _ (·.2.1) (fun x _ y h => val_a x y h) hall, pickNaN_all T _ (·.2.2) (fun x _ y h => val_b x y h) hall,
      pickNaN_all T _ (·.1) (fun x _ y h => val_w x y h) hall]

theorem matchNans_none (T : List (ℝ × Option ℝ × Option ℝ)) :
    matchNans (T.map (fun x => toX x.2.1)) (T.map (fun x => toX x.2.2)) none =
      .ok (T.map (lift cellVal (·.2.1)), T.map (lift cellVal (·.2.2)), none) := by
  unfold matchNans
  split
  · simp only [bcast2_bool, setNaN_maps, bind, Except.bind, pure, Except.pure]
    rw [pickNaN T _ (·.2.1) (fun x _ y h => val_a x y h), pickNaN T _ (·.2.2) (fun x _ y h => val_b x y h)]
  · rename_i h
    have hall : ∀ x ∈ T, (cellVal x).isSome = true := by
      intro x hx
      rw [valid_iff]
      simp only [List.any_map, Bool.or_eq_true, List.any_eq_true, not_or, not_exists, not_and] at h
      have h1 := h.1 x hx
      have h2 := h.2 x hx
      simp only [Function.comp] at h1 h2
      simp [h1, h2]
    simp only [pure, Except.pure]
    rw [pickNaN_all T _ (·.2.1) (fun x _ y h => val_a x y h) hall, pickNaN_all T _ (·.2.2) (fun x _ y h => val_b x y h) hall]

theorem corrX_nil : corrX [] = .nan := by
  unfold corrX
  simp [xSqrt, XF.fin_div_zero, XF.signInf, clipUnit]

theorem mem_cellVal_pos (T : List (ℝ × Option ℝ × Option ℝ)) (hw : ∀ x ∈ T, 0 < x.1) : ∀ y ∈ T.filterMap cellVal, 0 < y.1 := by
  intro y hy
  obtain ⟨x, hx, h⟩ := List.mem_filterMap.mp hy
  have := hw x hx
  have h' := val_w x y h
  injection h' with h'
  rwa [← h']

theorem core_some (T : List (ℝ × Option ℝ × Option ℝ)) (hw : ∀ x ∈ T, 0 < x.1) (hT : T ≠ []) (skip : Bool)
    (hs : skip = true ∨ ∀ x ∈ T, (cellVal x).isSome = true) :
    pearsonCore (T.map (fun x => toX x.2.1)) (T.map (fun x => toX x.2.2)) (some (T.map (fun x => .fin x.1))) skip =
      .ok (corrX (T.filterMap cellVal)) := by
  have hsum : T.filterMap cellVal ≠ [] → ((T.filterMap cellVal).map (·.1)).sum ≠ 0 := by
    intro hne
    rw [Ne, sum_zero_iff _ _ (fun y hy => (mem_cellVal_pos T hw y hy).le)]
    intro h
    obtain ⟨y, hy⟩ := List.exists_mem_of_ne_nil _ hne
    exact (mem_cellVal_pos T hw y hy).ne' (h y hy)
  cases skip with
  | true =>
    unfold pearsonCore
    simp only [if_true, matchNans_some, bind, Except.bind]
    by_cases he : T.filterMap cellVal = []
    · rw [tail_empty cellVal T he _ (Or.inr rfl), he, corrX_nil]
    · rw [tail_weights true cellVal T (Or.inl rfl) (hsum he)]
  | false =>
    have hall : ∀ x ∈ T, (cellVal x).isSome = true := by
      rcases hs with h | h
      · cases h
      · exact h
    unfold pearsonCore
    simp only [Bool.false_eq_true, if_false, bind, Except.bind, pure, Except.pure]
    rw [pickNaN_all T _ (·.2.1) (fun x _ y h => val_a x y h) hall, pickNaN_all T _ (·.2.2) (fun x _ y h => val_b x y h) hall,
      pickNaN_all T _ (·.1) (fun x _ y h => val_w x y h) hall, tail_weights false cellVal T (Or.inr hall)]
    apply hsum
    intro he
    have := filterMap_all_length cellVal T hall
    rw [he] at this
    exact hT (List.length_eq_zero_iff.mp this.symm)

theorem core_none (T : List (ℝ × Option ℝ × Option ℝ)) (hw : ∀ x ∈ T, x.1 = 1) (hT : T ≠ []) (skip : Bool)
    (hs : skip = true ∨ ∀ x ∈ T, (cellVal x).isSome = true) :
    pearsonCore (T.map (fun x => toX x.2.1)) (T.map (fun x => toX x.2.2)) none skip = .ok (corrX (T.filterMap cellVal)) := by
  have h1 : ∀ y ∈ T.filterMap cellVal, y.1 = 1 := by
    intro y hy
    obtain ⟨x, hx, h⟩ := List.mem_filterMap.mp hy
    have h' := val_w x y h
    injection h' with h'
    rw [← h', hw x hx]
  cases skip with
  | true =>
    unfold pearsonCore
    simp only [if_true, matchNans_none, bind, Except.bind]
    by_cases he : T.filterMap cellVal = []
    · rw [tail_empty cellVal T he _ (Or.inl rfl), he, corrX_nil]
    · rw [tail_unweighted true cellVal T (Or.inl rfl) h1 he]
  | false =>
    have hall : ∀ x ∈ T, (cellVal x).isSome = true := by
      rcases hs with h | h
      · cases h
      · exact h
    unfold pearsonCore
    simp only [Bool.false_eq_true, if_false, bind, Except.bind, pure, Except.pure]
    rw [pickNaN_all T _ (·.2.1) (fun x _ y h => val_a x y h) hall, pickNaN_all T _ (·.2.2) (fun x _ y h => val_b x y h) hall,
      tail_unweighted false cellVal T (Or.inr hall) h1]
    intro he
    have := filterMap_all_length cellVal T hall
    rw [he] at this
    exact hT (List.length_eq_zero_iff.mp this.symm)

end Verif.Lemmas
