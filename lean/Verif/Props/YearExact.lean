import Verif.Props.Climatology7
import Mathlib.Algebra.BigOperators.Intervals
import Mathlib.Algebra.BigOperators.Group.Finset.Piecewise
import Mathlib.Order.Interval.Finset.Basic
import Mathlib.Data.Int.Interval

/-
Property theorem: what yearly anomalies are, for every record.
-/

set_option linter.unusedSectionVars false

namespace Verif.Spec
variable {K : Type _} [Field K] [LinearOrder K]

/-- the day-weighted average of the full months of year `y` (0 if there are none) -/
def yearAverage (cal : Cal) (s : Series K) (y : ℤ) (c : ℕ) : K :=
  if (yearOfMonths y).filter (fun k => decide (FullMonth cal s k)) = [] then 0
  else dayWeighted cal ((yearOfMonths y).filter (fun k => decide (FullMonth cal s k))) (fun k => (monthMean cal s.samples k c).getD 0)

/-- the first and the last year of a record that have a full month -/
def YearBounds (cal : Cal) (s : Series K) (y0 y1 : ℤ) : Prop :=
  (∃ k ∈ yearOfMonths y0, FullMonth cal s k) ∧ (∃ k ∈ yearOfMonths y1, FullMonth cal s k) ∧
  ∀ y, (∃ k ∈ yearOfMonths y, FullMonth cal s k) → y0 ≤ y ∧ y ≤ y1

/-- the years of the record with the last two digits of `y` -/
def sameDigits (y0 y1 y : ℤ) : Finset ℤ := (Finset.Icc y0 y1).filter (fun y' => y' % 100 = y % 100)

end Verif.Spec

namespace Verif.Props
open Model Spec Lemmas
variable {K : Type _} [Field K] [LinearOrder K] [IsStrictOrderedRing K]

theorem sum_filterMap {α : Type _} (l : List α) (p : α → Bool) (g : α → Option K) :
    ((l.filter p).filterMap g).sum = (l.map (fun x => if p x then (g x).getD 0 else 0)).sum := by
  induction l with
  | nil => rfl
  | cons a l ih =>
    simp only [List.filter_cons, List.map_cons, List.sum_cons]
    by_cases hp : p a
    · rw [if_pos hp, if_pos hp, ← ih]
      cases hg : g a with
      | none => rw [List.filterMap_cons_none hg]; simp
      | some x => rw [List.filterMap_cons_some hg]; simp
    · rw [if_neg hp, if_neg hp, ih, zero_add]

theorem sum_getElem {α : Type _} (l : List α) (f : α → K) (g : ℕ → K) (h : ∀ i x, l[i]? = some x → f x = g i) :
    (l.map f).sum = ∑ i ∈ Finset.range l.length, g i := by
  induction l generalizing g with
  | nil => rfl
  | cons a l ih =>
    rw [List.map_cons, List.sum_cons, List.length_cons, Finset.sum_range_succ', ih (fun i => g (i + 1)) (fun i x hx => h (i + 1) x (by simpa using hx)),
      h 0 a rfl, add_comm]

/-- C42, what the code does with every record: from each sample it subtracts the sum of the averages of all years of the record with the same last two
digits, years without a full month counting 0; the result is missing if the record has no such year between its first and its last full month. -/
theorem C42_exact (cal : Cal) (infer : InferFreq) (s : Series K) (hn : 0 < s.ncell) (out : List (Entry K))
    (h : climateAnomaly cal infer "year" s = .ok out) :
    ∃ y0 y1, YearBounds cal s y0 y1 ∧ out.length = s.samples.length ∧
      ∀ (i : ℕ) (e o : Entry K), s.samples[i]? = some e → out[i]? = some o → o.key = e.key ∧ ∀ c < s.ncell,
        o.val c = if (sameDigits y0 y1 (cal.year e.key)).Nonempty then
          (e.val c).map (fun v => v - ∑ y ∈ sameDigits y0 y1 (cal.year e.key), yearAverage cal s y c) else none := by
  obtain ⟨clim, hclim, hout⟩ := anomaly_year cal infer s out h
  obtain ⟨b0, k0, k1, hk0, hk1, hb, hk0', hk1', hval⟩ := C37_year cal infer s hn clim hclim
  have hb0 := (mem_yearOfMonths _ _).mp hk0'
  have hb1 := (mem_yearOfMonths _ _).mp hk1'
  have h01 := hb k0 hk0
  refine ⟨b0, b0 + clim.length - 1, ⟨⟨k0, hk0', hk0⟩, ⟨k1, hk1', hk1⟩, ?_⟩, by rw [hout, minusGroup, List.length_map], ?_⟩
  · rintro y ⟨k, hk, hf⟩
    rw [mem_yearOfMonths] at hk
    have := hb k hf
    omega
  intro i e o he ho
  rw [hout, minusGroup, List.getElem?_map, he] at ho
  simp only [Option.map_some, Option.some.injEq] at ho
  subst ho
  refine ⟨rfl, fun c hc => ?_⟩
  have hyear : ∀ (j : ℕ) (x : Entry K), clim[j]? = some x → cal.year x.key = b0 + j := by
    intro j x hx
    rw [(hval j x hx).1, year_within]
    have := monthStart_mono cal (show 12 * (b0 + (j : ℤ)) < 12 * (b0 + j) + 12 by omega)
    omega
  have hne : clim.filter (fun x => decide (cal.year x.key % 100 = cal.year e.key % 100)) = [] ↔
      ¬ (sameDigits b0 (b0 + clim.length - 1) (cal.year e.key)).Nonempty := by
    rw [List.filter_eq_nil_iff, Finset.not_nonempty_iff_eq_empty, Finset.eq_empty_iff_forall_notMem]
    constructor
    · intro h0 y hy
      unfold sameDigits at hy
      rw [Finset.mem_filter, Finset.mem_Icc] at hy
      obtain ⟨x, hx⟩ : ∃ x, clim[(y - b0).toNat]? = some x := ⟨_, List.getElem?_eq_getElem (by omega)⟩
      have := hyear _ x hx
      rw [Int.toNat_of_nonneg (by omega)] at this
      exact h0 x (List.mem_of_getElem? hx) (decide_eq_true (by rw [this, ← hy.2]; congr 1; omega))
    · intro h0 x hx hd
      obtain ⟨j, hj⟩ := List.mem_iff_getElem?.mp hx
      have hlt := (List.getElem?_eq_some_iff.mp hj).1
      have hy := hyear j x hj
      refine h0 (b0 + j) ?_
      unfold sameDigits
      rw [Finset.mem_filter, Finset.mem_Icc]
      exact ⟨by omega, by rw [← hy]; exact of_decide_eq_true hd⟩
  have hsum : nanSum c (clim.filter (fun x => decide (cal.year x.key % 100 = cal.year e.key % 100))) =
      ∑ y ∈ sameDigits b0 (b0 + clim.length - 1) (cal.year e.key), yearAverage cal s y c := by
    unfold nanSum
    rw [sum_filterMap, sum_getElem clim _ (fun j => if (b0 + (j : ℤ)) % 100 = cal.year e.key % 100 then yearAverage cal s (b0 + j) c else 0)]
    · unfold sameDigits
      rw [Finset.sum_filter]
      refine Finset.sum_bij' (fun (j : ℕ) _ => b0 + (j : ℤ)) (fun y _ => (y - b0).toNat) ?_ ?_ ?_ ?_ ?_
      · intro j hj
        rw [Finset.mem_range] at hj
        rw [Finset.mem_Icc]; omega
      · intro y hy
        rw [Finset.mem_Icc] at hy
        rw [Finset.mem_range]; omega
      · intro j _; simp
      · intro y hy
        rw [Finset.mem_Icc] at hy
        show b0 + ((y - b0).toNat : ℤ) = y
        omega
      · intro j _; rfl
    · intro j x hx
      simp only [decide_eq_true_eq, hyear j x hx]
      congr 1
      obtain ⟨h1, h2⟩ := (hval j x hx).2 c hc _ rfl
      unfold yearAverage
      split
      · rename_i h0
        rw [h1 h0]; rfl
      · rename_i h0
        obtain ⟨v, hv, hvw, -⟩ := h2 h0
        rw [hv, hvw]; rfl
  simp only [groupSum]
  by_cases h0 : (sameDigits b0 (b0 + clim.length - 1) (cal.year e.key)).Nonempty
  · rw [if_pos h0, if_neg (by rw [hne]; exact not_not.mpr h0), hsum]
    cases e.val c <;> rfl
  · rw [if_neg h0, if_pos (hne.mpr h0)]
    cases e.val c <;> rfl

/-- both findings of `C42_counterexample` come out of the exact description -/
example : sameDigits 2000 2100 2000 = {2000, 2100} := by decide +kernel

/-- a year without a full month at the end of the record has no anomalies, although the first cell has data there -/
example : (climateAnomaly (K := ℚ) Cal.days360 (fun _ => .ok true) "year" ⟨2, (List.range 3).map (fun i : ℕ =>
      ⟨Cal.days360.monthStart (24000 + 12 * i), fun c => if i = 2 ∧ c = 1 then none else some (i + 1)⟩), true⟩).toOption.map (fun l => l.map (fun e => e.val 0)) =
    some [some 0, some 0, none] := by decide +kernel

end Verif.Props
