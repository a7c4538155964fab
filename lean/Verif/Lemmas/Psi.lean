import Verif.Model.Psi
import Verif.Lemmas.DeltaPressure
import Verif.Lemmas.DeltaPressure2
import Mathlib.Algebra.BigOperators.Group.Finset.Basic
import Mathlib.Algebra.BigOperators.Ring.Finset

set_option linter.unusedSectionVars false
namespace Verif.Lemmas
open Model Spec
variable {K : Type _} [Field K] [LinearOrder K]

/-- value of a product that is finite or NaN, NaN counted as zero -/
def finOrZero (x : XF K) : K := x.toFin?.getD 0

theorem nanCumsum_length (a : XF K) (l : List (XF K)) : (nanCumsum a l).length = l.length := by
  induction l generalizing a with
  | nil => rfl
  | cons x xs ih => simp [nanCumsum, ih]

theorem nanCumsum_getElem? (l : List (XF K)) (hl : ∀ x ∈ l, x ≠ .pinf ∧ x ≠ .ninf) (a : K) (k : ℕ) (hk : k < l.length) :
    (nanCumsum (.fin a) l)[k]? = some (.fin (a + ((l.take (k + 1)).map finOrZero).sum)) := by
  induction l generalizing a k with
  | nil => simp at hk
  | cons x xs ih =>
    have hx := hl x List.mem_cons_self
    have hstep : (XF.fin a + (if x.isNaN then .fin 0 else x)) = .fin (a + finOrZero x) := by
      cases x with
      | fin y => simp [finOrZero, XF.isNaN]
      | pinf => simp at hx
      | ninf => simp at hx
      | nan => simp [finOrZero]
    simp only [nanCumsum, hstep]
    cases k with
    | zero => simp
    | succ k =>
      rw [List.getElem?_cons_succ, ih (fun y hy => hl y (List.mem_cons_of_mem _ hy)) _ _ (by simpa using hk)]
      simp [add_assoc]

theorem sum_range_list {M : Type _} [AddCommMonoid M] (m : ℕ) (f : ℕ → M) :
    ((List.range m).map f).sum = ∑ j ∈ Finset.range m, f j := rfl

theorem index_first {α : Type _} (n : ℕ) (hn : 1 ≤ n) (f : ℕ → α) : Py.index (column n f) 0 = .ok (f 0) := by
  have := Py.index_nat (column n f) 0 (by simp [column]; omega)
  simpa using this

theorem index_last {α : Type _} (n : ℕ) (hn : 1 ≤ n) (f : ℕ → α) : Py.index (column n f) (-1) = .ok (f (n - 1)) := by
  unfold Py.index
  have h1 : (column n f).length = n := by simp [column]
  have h2 : Int.toNat (-1 + (n : Int)) = n - 1 := by omega
  simp only [h1]
  have h3 : (column n f)[n - 1]? = some (f (n - 1)) := column_getElem? _ _ _ (by omega)
  split_ifs <;> simp_all <;> omega

/-- `zonal_meridional_psi` on a column whose first level is above its last -/
theorem psiColumn_down (c : K) (n : ℕ) (hn : 1 ≤ n) (lev : ℕ → K) (hlev : lev 0 < lev (n - 1)) (v : List (XF K)) (ps : XF K) :
    psiColumn c (column n lev) v ps =
      (deltaPressure (column n lev) ps none).map (fun d => (nanCumsum (.fin 0) (List.zipWith (· * ·) v d)).map (· * .fin c)) := by
  unfold psiColumn
  cases deltaPressure (column n lev) ps none with
  | error e => rfl
  | ok d => simp [index_first n hn, index_last n hn, hlev, bind, Except.bind, pure, Except.pure, Except.map]

theorem psiColumn_up (c : K) (n : ℕ) (hn : 1 ≤ n) (lev : ℕ → K) (hlev : ¬ lev 0 < lev (n - 1)) (v : List (XF K)) (ps : XF K) :
    psiColumn c (column n lev) v ps =
      (deltaPressure (column n lev) ps none).map
        (fun d => ((nanCumsum (.fin 0) (List.zipWith (· * ·) v d).reverse).reverse).map (· * .fin c)) := by
  unfold psiColumn
  cases deltaPressure (column n lev) ps none with
  | error e => rfl
  | ok d => simp [index_first n hn, index_last n hn, hlev, bind, Except.bind, pure, Except.pure, Except.map]

theorem zipWith_reverse' {α β γ : Type _} (f : α → β → γ) (a : List α) (b : List β) (h : a.length = b.length) :
    List.zipWith f a.reverse b.reverse = (List.zipWith f a b).reverse := (List.reverse_zipWith h).symm

end Verif.Lemmas
