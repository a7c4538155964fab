import Verif.Props.Skill
import Mathlib.Algebra.BigOperators.Field
import Mathlib.Tactic.IntervalCases

/-
Property C216: nmse of the mean of several model fields.
-/

set_option linter.unusedSectionVars false

namespace Verif.Spec

/-- `mean` is the average with weights `al` of the fields `mem i`, which are missing in the same cells -/
def EnsembleMean {ι : Type} [Fintype ι] (al : ι → ℝ) (mem : ι → List (Option ℝ)) (mean : List (Option ℝ)) : Prop :=
  ∀ k < mean.length, ((∀ i, (mem i)[k]? = some none) ∧ mean[k]? = some none) ∨
    ∃ y : ι → ℝ, (∀ i, (mem i)[k]? = some (some (y i))) ∧ mean[k]? = some (some (∑ i, al i * y i))

end Verif.Spec

namespace Verif.Props
open Model Spec Lemmas

namespace NmseEnsemble

variable {ι : Type} [Fintype ι]

/-- the common cells of all members -/
theorem cells (al : ι → ℝ) (ws : List ℝ) : ∀ (o : List (Option ℝ)) (mem : ι → List (Option ℝ)) (mean : List (Option ℝ)), o.length = ws.length →
    mean.length = ws.length → (∀ i, (mem i).length = ws.length) → EnsembleMean al mem mean →
    ∃ L : List (ℝ × ℝ × (ι → ℝ)), (∀ i, validCells ws o (mem i) = L.map (fun z => (z.1, z.2.1, z.2.2 i))) ∧
      validCells ws o mean = L.map (fun z => (z.1, z.2.1, ∑ i, al i * z.2.2 i)) := by
  induction ws with
  | nil =>
    intro o mem mean ho hm hmem _
    exact ⟨[], fun i => by simp [validCells], by simp [validCells]⟩
  | cons w ws ih =>
    intro o mem mean ho hm hmem he
    obtain ⟨a, o', rfl⟩ : ∃ a o', o = a :: o' := List.exists_cons_of_length_eq_add_one ho
    obtain ⟨b, mean', rfl⟩ : ∃ a o', mean = a :: o' := List.exists_cons_of_length_eq_add_one hm
    have hc : ∀ i, ∃ c l, mem i = c :: l := fun i => List.exists_cons_of_length_eq_add_one (hmem i)
    choose c mem' hmem' using hc
    obtain ⟨L, h1, h2⟩ := ih o' mem' mean' (by simpa using ho) (by simpa using hm) (fun i => by have := hmem i; rw [hmem' i] at this; simpa using this)
      (fun k hk => by
        have := he (k + 1) (by simpa using hk)
        simpa only [hmem', List.getElem?_cons_succ] using this)
    have h0 := he 0 (by simp)
    simp only [hmem', List.getElem?_cons_zero, Option.some.injEq] at h0
    have hcons : ∀ (x y : Option ℝ) (p q : List (Option ℝ)), validCells (w :: ws) (x :: p) (y :: q) =
        (match x, y with | some o, some m => [(w, o, m)] | _, _ => []) ++ validCells ws p q := by
      intro x y p q
      cases x <;> cases y <;> simp [validCells]
    rcases h0 with ⟨h3, rfl⟩ | ⟨y, h3, rfl⟩
    · refine ⟨L, fun i => ?_, ?_⟩
      · rw [hmem' i, h3 i, hcons, h1 i]
        cases a <;> rfl
      · rw [hcons, h2]
        cases a <;> rfl
    · cases a with
      | none =>
        refine ⟨L, fun i => ?_, ?_⟩
        · rw [hmem' i, hcons, h1 i]
          rfl
        · rw [hcons, h2]
          rfl
      | some a =>
        refine ⟨(w, a, y) :: L, fun i => ?_, ?_⟩
        · rw [hmem' i, h3 i, hcons, h1 i]
          rfl
        · rw [hcons, h2]
          rfl

theorem square_mean (al : ι → ℝ) (h0 : ∀ i, 0 ≤ al i) (h1 : ∑ i, al i = 1) (y : ι → ℝ) (a : ℝ) :
    (∑ i, al i * y i - a) ^ 2 ≤ ∑ i, al i * (y i - a) ^ 2 := by
  have h : 0 ≤ ∑ i, al i * (y i - ∑ j, al j * y j) ^ 2 := Finset.sum_nonneg fun i _ => mul_nonneg (h0 i) (sq_nonneg _)
  set m := ∑ j, al j * y j with hm
  have e : ∑ i, al i * (y i - m) ^ 2 = ∑ i, al i * (y i - a) ^ 2 - (m - a) ^ 2 := by
    have e1 : ∀ i, al i * (y i - m) ^ 2 = al i * (y i - a) ^ 2 - 2 * (m - a) * (al i * y i) + (m ^ 2 - a ^ 2) * al i := fun i => by ring
    rw [Finset.sum_congr rfl fun i _ => e1 i, Finset.sum_add_distrib, Finset.sum_sub_distrib, ← Finset.mul_sum, ← Finset.mul_sum, h1, ← hm]
    ring
  linarith

theorem list_sum_finset (al : ι → ℝ) {α : Type} (L : List α) (f : α → ι → ℝ) :
    ∑ i, al i * (L.map (fun z => f z i)).sum = (L.map (fun z => ∑ i, al i * f z i)).sum := by
  induction L with
  | nil => simp
  | cons z L ih =>
    simp only [List.map_cons, List.sum_cons, mul_add, Finset.sum_add_distrib, ih]

end NmseEnsemble

open NmseEnsemble

/-- **C216**. If nmse gives a number for each of several model fields with the same missing cells, it gives a number for their (weighted) mean,
and that is at most the (weighted) mean of the numbers. -/
theorem C216_ensemble {ι : Type} [Fintype ι] [Nonempty ι] (al : ι → ℝ) (h0 : ∀ i, 0 ≤ al i) (h1 : ∑ i, al i = 1) (obs : GeoInput ℝ) (mod : ι → GeoInput ℝ)
    (mean : GeoInput ℝ) (no : String) (nm : ι → String) (nmean : String) (o : List (Option ℝ)) (m : ι → List (Option ℝ)) (mm : List (Option ℝ)) (lats : List ℝ)
    (ho : obs.vars = [(no, o)]) (hm : ∀ i, (mod i).vars = [(nm i, m i)]) (hmm : mean.vars = [(nmean, mm)]) (hl : cellLats obs.lat obs.lon = some lats)
    (hlat : ∀ φ ∈ lats, |φ| ≤ 90) (hens : EnsembleMean al m mm) (x : ι → ℝ) (hx : ∀ i, nmse obs (mod i) = .ok (.one (.fin (x i)))) (r : XF ℝ)
    (hr : nmse obs mean = .ok (.one r)) : ∃ y, r = .fin y ∧ y ≤ ∑ i, al i * x i := by
  have i0 := Classical.arbitrary ι
  have hlen : ∀ (md : GeoInput ℝ) (n : String) (l : List (Option ℝ)) (s : XF ℝ), md.vars = [(n, l)] → nmse obs md = .ok (.one s) →
      o.length = lats.length ∧ l.length = lats.length := by
    intro md n l s hv hs
    obtain ⟨lats', no', nm', o', m', hg, -, -, -, -⟩ := (nmse_one_iff cosDeg obs md _).mp hs
    have e := hg.cells
    rw [hl] at e
    cases e
    exact lengths_of_grid hg ho hv
  have hlo := (hlen mean nmean mm r hmm hr).1
  have hlm := (hlen mean nmean mm r hmm hr).2
  have hli : ∀ i, (m i).length = lats.length := fun i => (hlen (mod i) (nm i) (m i) _ (hm i) (hx i)).2
  -- the mean has values where the members have
  have hcell : ∀ k φ a b, CellAt lats o (m i0) k φ a b → ∃ b', CellAt lats o mm k φ a b' := by
    rintro k φ a b ⟨c1, c2, c3⟩
    have hk : k < mm.length := by
      rw [hlm, ← hli i0]
      exact (List.getElem?_eq_some_iff.mp c3).1
    rcases hens k hk with ⟨h, -⟩ | ⟨y, -, h⟩
    · rw [h i0] at c3
      cases c3
    · exact ⟨_, c1, c2, h⟩
  obtain ⟨y, rfl⟩ : ∃ y, r = .fin y := by
    rw [C61_finite obs mean no nmean o mm lats ho hmm hl hlat r hr]
    obtain ⟨i, j, φ, ψ, a, b, a', b', c1, c2, c3, c4, c5⟩ := (C61_finite obs (mod i0) no (nm i0) o (m i0) lats ho (hm i0) hl hlat _ (hx i0)).mp ⟨_, rfl⟩
    obtain ⟨d, hd⟩ := hcell _ _ _ _ c1
    obtain ⟨d', hd'⟩ := hcell _ _ _ _ c2
    exact ⟨i, j, φ, ψ, a, d, a', d', hd, hd', c3, c4, c5⟩
  refine ⟨y, rfl, ?_⟩
  rw [C61_value obs mean no nmean o mm lats ho hmm hl y hr, Finset.sum_congr rfl fun i _ => by
    rw [C61_value obs (mod i) no (nm i) o (m i) lats ho (hm i) hl (x i) (hx i)]]
  have hw := weights_nonneg lats hlat o mm
  obtain ⟨L, e1, e2⟩ := cells al (lats.map cosDeg) o m mm (by simpa using hlo) (by simpa using hlm) (fun i => by simpa using hli i) hens
  have hden := wMean_sq_nonneg (validCells (lats.map cosDeg) o mm) (·.1) (fun x => x.2.1 - wMean (validCells (lats.map cosDeg) o mm) (·.1) (·.2.1)) hw
  rw [e2] at hw hden ⊢
  simp only [e1]
  have hw' : ∀ z ∈ L, 0 ≤ z.1 := fun z hz => hw _ (List.mem_map.mpr ⟨z, hz, rfl⟩)
  simp only [nmseOf, wMean, List.map_map, Function.comp_def] at hden ⊢
  rw [Finset.sum_congr rfl fun i _ => (mul_div_assoc (al i) _ _).symm, ← Finset.sum_div,
    Finset.sum_congr rfl fun i _ => (mul_div_assoc (al i) _ _).symm, ← Finset.sum_div, list_sum_finset al L (fun z i => z.1 * (z.2.2 i - z.2.1) ^ 2)]
  refine div_le_div_of_nonneg_right (div_le_div_of_nonneg_right (List.sum_le_sum fun z hz => ?_) (List.sum_nonneg ?_)) hden
  · have := mul_le_mul_of_nonneg_left (square_mean al h0 h1 z.2.2 z.2.1) (hw' z hz)
    rw [Finset.mul_sum] at this
    refine this.trans (le_of_eq (Finset.sum_congr rfl fun i _ => by ring))
  · intro w hwm
    obtain ⟨z, hz, rfl⟩ := List.mem_map.mp hwm
    exact hw' z hz

/-- two members and their mean -/
example : ∃ x x' y, nmse (exField [some 1, some 2, none, some 5]) (exField [some 1, some 3, some 4, none]) = .ok (.one (.fin x)) ∧
    nmse (exField [some 1, some 2, none, some 5]) (exField [some 3, some 1, some 2, none]) = .ok (.one (.fin x')) ∧
    nmse (exField [some 1, some 2, none, some 5]) (exField [some 2, some 2, some 3, none]) = .ok (.one (.fin y)) ∧ y ≤ (x + x') / 2 := by
  have hf : ∀ a b c : ℝ, ∃ x, nmse (exField [some 1, some 2, none, some 5]) (exField [some a, some b, some c, none]) = .ok (.one (.fin x)) := by
    intro a b c
    obtain ⟨r, hr⟩ := exField_ok [some 1, some 2, none, some 5] [some a, some b, some c, none] rfl rfl
    obtain ⟨x, rfl⟩ := (C61_finite _ _ "t" "t" _ _ [0, 0, 60, 60] rfl rfl rfl ex_lats r hr).mpr
      ⟨0, 1, 0, 0, 1, a, 2, b, ⟨rfl, rfl, rfl⟩, ⟨rfl, rfl, rfl⟩, by norm_num, by norm_num, by norm_num⟩
    exact ⟨x, hr⟩
  obtain ⟨x, hx⟩ := hf 1 3 4
  obtain ⟨x', hx'⟩ := hf 3 1 2
  obtain ⟨y, hy⟩ := hf 2 2 3
  refine ⟨x, x', y, hx, hx', hy, ?_⟩
  obtain ⟨z, hz, hle⟩ := C216_ensemble (ι := Fin 2) (fun _ => 1 / 2) (fun _ => by norm_num) (by norm_num [Fin.sum_univ_two]) (exField [some 1, some 2, none, some 5])
    ![exField [some 1, some 3, some 4, none], exField [some 3, some 1, some 2, none]] (exField [some 2, some 2, some 3, none]) "t" (fun _ => "t") "t"
    [some 1, some 2, none, some 5] ![[some 1, some 3, some 4, none], [some 3, some 1, some 2, none]] [some 2, some 2, some 3, none] [0, 0, 60, 60] rfl
    (fun i => by fin_cases i <;> rfl) rfl rfl ex_lats
    (fun k hk => by
      have hk' : k < 4 := hk
      interval_cases k
      · exact Or.inr ⟨![1, 3], fun i => by fin_cases i <;> rfl, by simp [Fin.sum_univ_two]; norm_num⟩
      · exact Or.inr ⟨![3, 1], fun i => by fin_cases i <;> rfl, by simp [Fin.sum_univ_two]; norm_num⟩
      · exact Or.inr ⟨![4, 2], fun i => by fin_cases i <;> rfl, by simp [Fin.sum_univ_two]; norm_num⟩
      · exact Or.inl ⟨fun i => by fin_cases i <;> rfl, rfl⟩)
    ![x, x'] (fun i => by fin_cases i; exacts [hx, hx']) _ hy
  injection hz with hz
  subst hz
  simp [Fin.sum_univ_two] at hle
  linarith

end Verif.Props
