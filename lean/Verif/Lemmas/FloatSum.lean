import Verif.Lemmas.FloatErr

set_option linter.unusedSectionVars false
namespace Verif.Lemmas
open Model
variable {K : Type _} [Field K] [LinearOrder K] [IsStrictOrderedRing K]

theorem abs_sum_le (L : List K) : |L.sum| ≤ (L.map (|·|)).sum := by
  induction L with
  | nil => simp
  | cons a L ih =>
    simp only [List.sum_cons, List.map_cons]
    exact (abs_add_le _ _).trans (by linarith)

theorem sumFl_rep (R : Rounding K) (t : SumTree K) (h : ∀ a ∈ t.list, R.rep a) : R.rep (t.sumFl R) := by
  cases t with
  | leaf x => exact h x (by simp [SumTree.list])
  | node l r => exact R.rep_fl _

theorem list_ne_nil (t : SumTree K) : 1 ≤ t.list.length := by
  induction t with
  | leaf x => simp [SumTree.list]
  | node l r ihl ihr => simp [SumTree.list]; omega

theorem sumFl_error {R : Rounding K} {u η : K} (A : R.Accurate u η) (t : SumTree K) (h : ∀ a ∈ t.list, R.rep a) :
    |t.sumFl R - t.list.sum| ≤ ((1 + u) ^ (t.list.length - 1) - 1) * (t.list.map (|·|)).sum := by
  induction t with
  | leaf x => simp [SumTree.list, SumTree.sumFl]
  | node l r ihl ihr =>
    have hl : ∀ a ∈ l.list, R.rep a := fun a ha => h a (by simp [SumTree.list, ha])
    have hr : ∀ a ∈ r.list, R.rep a := fun a ha => h a (by simp [SumTree.list, ha])
    have ihl := ihl hl
    have ihr := ihr hr
    have e := A.add _ _ (sumFl_rep R l hl) (sumFl_rep R r hr)
    have nl := list_ne_nil l
    have nr := list_ne_nil r
    have hu0 := A.u_nonneg
    simp only [SumTree.sumFl, SumTree.list, List.sum_append, List.map_append, List.length_append]
    have absl := abs_sum_le (K := K)
    have absn : ∀ L : List K, 0 ≤ (L.map (|·|)).sum := fun L => (abs_nonneg _).trans (absl L)
    have al := absl l.list
    have ar := absl r.list
    have al0 := absn l.list
    have ar0 := absn r.list
    set sl := l.sumFl R
    set sr := r.sumFl R
    set Sl := l.list.sum
    set Sr := r.list.sum
    set Al := (l.list.map (|·|)).sum
    set Ar := (r.list.map (|·|)).sum
    have one : (1 : K) ≤ 1 + u := by linarith
    have gl : (1 + u) * (1 + u) ^ (l.list.length - 1) ≤ (1 + u) ^ (l.list.length + r.list.length - 1) := by
      rw [← pow_succ']
      exact pow_le_pow_right₀ one (by omega)
    have gr : (1 + u) * (1 + u) ^ (r.list.length - 1) ≤ (1 + u) ^ (l.list.length + r.list.length - 1) := by
      rw [← pow_succ']
      exact pow_le_pow_right₀ one (by omega)
    have gl := mul_le_mul_of_nonneg_right gl al0
    have gr := mul_le_mul_of_nonneg_right gr ar0
    set Gl := (1 + u) ^ (l.list.length - 1)
    set Gr := (1 + u) ^ (r.list.length - 1)
    set G := (1 + u) ^ (l.list.length + r.list.length - 1)
    have b1 : |sl + sr| ≤ Gl * Al + Gr * Ar := by
      have e : sl + sr = (sl - Sl) + (sr - Sr) + (Sl + Sr) := by ring
      rw [e]
      have := abs_add_le ((sl - Sl) + (sr - Sr)) (Sl + Sr)
      have := abs_add_le (sl - Sl) (sr - Sr)
      have := abs_add_le Sl Sr
      linarith
    have b2 : u * |sl + sr| ≤ u * (Gl * Al + Gr * Ar) := mul_le_mul_of_nonneg_left b1 hu0
    have b3 : |R.fl (sl + sr) - (Sl + Sr)| ≤ |R.fl (sl + sr) - (sl + sr)| + |sl - Sl| + |sr - Sr| := by
      have e : R.fl (sl + sr) - (Sl + Sr) = (R.fl (sl + sr) - (sl + sr)) + (sl - Sl) + (sr - Sr) := by ring
      rw [e]
      have := abs_add_le ((R.fl (sl + sr) - (sl + sr)) + (sl - Sl)) (sr - Sr)
      have := abs_add_le (R.fl (sl + sr) - (sl + sr)) (sl - Sl)
      linarith
    linarith

theorem meanFl_error {R : Rounding K} {u η : K} (A : R.Accurate u η) (t : SumTree K) (h : ∀ a ∈ t.list, R.rep a) :
    |t.meanFl R - t.list.sum / t.list.length| ≤ ((1 + u) ^ t.list.length - 1) * ((t.list.map (|·|)).sum / t.list.length) + η := by
  have e := sumFl_error A t h
  have hn := list_ne_nil t
  have ha := abs_sum_le t.list
  have hu0 := A.u_nonneg
  have hN : (0 : K) < t.list.length := by exact_mod_cast hn
  unfold SumTree.meanFl
  have e2 := A.err (t.sumFl R / t.list.length)
  have hp : (1 + u) ^ t.list.length = (1 + u) * (1 + u) ^ (t.list.length - 1) := by
    rw [← pow_succ']; congr 1; omega
  rw [hp]
  set s := t.sumFl R
  set S := t.list.sum
  set B := (t.list.map (|·|)).sum
  set N := (t.list.length : K)
  set G := (1 + u) ^ (t.list.length - 1)
  have hs : |s| ≤ G * B := by
    have := abs_add_le (s - S) S
    rw [sub_add_cancel] at this
    linarith
  have d1 : |s / N - S / N| ≤ (G - 1) * (B / N) := by
    rw [← sub_div, abs_div, abs_of_pos hN, ← mul_div_assoc]
    exact div_le_div_of_nonneg_right e hN.le
  have d2 : |s / N| ≤ G * (B / N) := by
    rw [abs_div, abs_of_pos hN, ← mul_div_assoc]
    exact div_le_div_of_nonneg_right hs hN.le
  have d3 := mul_le_mul_of_nonneg_left d2 hu0
  have t1 := abs_sub_le (R.fl (s / N)) (s / N) (S / N)
  linarith

/-- if every partial sum is stored exactly, so is the sum -/
theorem sumFl_exact (R : Rounding K) (P : K → Prop) (c : K) (hP : ∀ x, P x → |x| ≤ c → R.rep x) (hadd : ∀ x y, P x → P y → P (x + y)) (t : SumTree K)
    (h : ∀ a ∈ t.list, P a) (hc : (t.list.map (|·|)).sum ≤ c) : t.sumFl R = t.list.sum ∧ P t.list.sum := by
  induction t with
  | leaf x => simpa [SumTree.list, SumTree.sumFl] using h
  | node l r ihl ihr =>
    simp only [SumTree.list, List.map_append, List.sum_append, SumTree.sumFl] at hc ⊢
    have al := (abs_nonneg _).trans (abs_sum_le l.list)
    have ar := (abs_nonneg _).trans (abs_sum_le r.list)
    obtain ⟨e1, p1⟩ := ihl (fun a ha => h a (by simp [SumTree.list, ha])) (by linarith)
    obtain ⟨e2, p2⟩ := ihr (fun a ha => h a (by simp [SumTree.list, ha])) (by linarith)
    rw [e1, e2]
    refine ⟨R.fl_of_rep _ (hP _ (hadd _ _ p1 p2) ?_), hadd _ _ p1 p2⟩
    have := abs_add_le l.list.sum r.list.sum
    have := abs_sum_le l.list
    have := abs_sum_le r.list
    linarith

theorem map_list {α β : Type _} (f : α → β) (t : SumTree α) : (t.map f).list = t.list.map f := by
  induction t with
  | leaf x => rfl
  | node l r ihl ihr => simp [SumTree.map, SumTree.list, ihl, ihr]

theorem sumFl_mono (R : Rounding K) {α : Type _} (f g : α → K) (t : SumTree α) (h : ∀ a ∈ t.list, f a ≤ g a) :
    (t.map f).sumFl R ≤ (t.map g).sumFl R := by
  induction t with
  | leaf x => exact h x (by simp [SumTree.list])
  | node l r ihl ihr =>
    exact R.mono _ _ (add_le_add (ihl (fun a ha => h a (by simp [SumTree.list, ha]))) (ihr (fun a ha => h a (by simp [SumTree.list, ha]))))

end Verif.Lemmas
