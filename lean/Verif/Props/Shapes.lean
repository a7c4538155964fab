import Verif.Props.HeatIndex
import Verif.Spec.Points

/-
C55 for relhum: which combinations of shapes are accepted.
-/

set_option linter.unusedSectionVars false
namespace Verif.Props
open Model XF Spec Lemmas Tensor

theorem bshape_nil_left (a : List ℕ) : bshape [] a = some a := by simp [bshape, bshapeRev]

theorem bshape_nil_right (a : List ℕ) : bshape a [] = some a := by
  unfold bshape
  cases h : a.reverse with
  | nil => simp [bshapeRev, List.reverse_eq_nil_iff.mp h]
  | cons x l =>
    have : a = (x :: l).reverse := by rw [← h, List.reverse_reverse]
    simp [bshapeRev, this]

/-- a list of mixing ratios at one temperature and one pressure given as numbers -/
def ListAtScalars (t w p : Arg (XF ℝ)) : Prop :=
  w.ty = .list ∧ w.val.shape ≠ [] ∧ t.val.shape = [] ∧ p.val.shape = [] ∧ t.ty ≠ .dataArray ∧ p.ty ≠ .dataArray

/-- C55, what does hold for relhum: shapes that numpy cannot broadcast together are rejected, and only those, except that a list of mixing
ratios at a single temperature and pressure is a TypeError (temperatures without NaN). -/
theorem C55_relhum_broadcast_partial (t w p : Arg (XF ℝ)) (T : List ℕ → ℝ) (ht : HasReals t.val T) :
    (relhum t w p = .error .valueError ↔
      ∀ s, bshape t.val.shape w.val.shape = some s → bshape s p.val.shape = none) ∧
    (relhum t w p = .error .typeError ↔ ListAtScalars t w p) ∧
    ∀ r, relhum t w p = .ok r → ∃ s, bshape t.val.shape w.val.shape = some s ∧ bshape s p.val.shape = some r.val.shape := by
  obtain ⟨es, hes⟩ := values_mapM_ok t.val (fun i hi => by rw [ht i hi]; simp)
  have hl : listTimesScalar t w p = true ↔ ListAtScalars t w p := by
    unfold listTimesScalar ListAtScalars
    simp [and_assoc]
  by_cases hb : listTimesScalar t w p = true
  · have hr : relhum t w p = .error .typeError := by
      unfold relhum
      rw [hes]
      simp only [hb, if_true]
    obtain ⟨h1, h2, h3, h4, h5, h6⟩ := hl.mp hb
    rw [hr, h3, h4]
    refine ⟨⟨fun h => (by cases h), fun h => ?_⟩, ⟨fun _ => ⟨h1, h2, h3, h4, h5, h6⟩, fun _ => rfl⟩, fun r h => (by cases h)⟩
    have hs : bshape ([] : List ℕ) w.val.shape = some w.val.shape := bshape_nil_left _
    have := h _ hs
    rw [bshape_nil_right] at this
    cases this
  · rw [← hl]
    unfold relhum zip3
    rw [hes]
    simp only [Tensor.map, hb, Bool.false_eq_true, if_false]
    cases h : bshape t.val.shape w.val.shape with
    | none => simp [Except.map]
    | some s =>
      cases h' : bshape s p.val.shape with
      | none => simp [Except.map, h']
      | some s' =>
        simp only [Except.map, Option.some.injEq, forall_eq', h', reduceCtorEq, iff_self, true_and]
        intro r hr
        injection hr with hr
        subst hr
        exact ⟨s, rfl, h'⟩

/-- numbers for temperature and pressure with a list of mixing ratios -/
example : relhum (constArg .float [] 300) (constArg .list [3] 0.01) (constArg .float [] 100000) = .error .typeError :=
  (C55_relhum_broadcast_partial (constArg .float [] 300) (constArg .list [3] 0.01) (constArg .float [] 100000) (fun _ => 300)
    (fun _ _ => rfl)).2.1.mpr (by simp [ListAtScalars, constArg])

example : relhum (constArg .ndarray [2] 300) (constArg .ndarray [3] 0.01) (constArg .ndarray [2] 100000) = .error .valueError :=
  (C55_relhum_broadcast_partial (constArg .ndarray [2] 300) (constArg .ndarray [3] 0.01) (constArg .ndarray [2] 100000) (fun _ => 300)
    (fun _ _ => rfl)).1.mpr (by simp [constArg, bshape, bshapeRev, bdim])

end Verif.Props
