import Verif.Props.MonthToSeason

/-
C36, the exact result of month_to_season for every record and every season.
-/

set_option linter.unusedSectionVars false

namespace Verif.Props
open Model Spec Lemmas
variable {K : Type _} [Field K] [LinearOrder K] [IsStrictOrderedRing K]

/-- the samples the code averages: those in the months of the season, without the last one of them for DJF and without the first for NDJ -/
def keptSamples (cal : Cal) (season : String) (months : List ℤ) (l : List (Entry K)) : List (Entry K) :=
  let f := l.filter (fun e => decide (cal.month e.key ∈ months))
  if season = "DJF" then f.dropLast else if season = "NDJ" then f.tail else f

theorem keptSamples_sublist (cal : Cal) (season : String) (months : List ℤ) (l : List (Entry K)) :
    (keptSamples cal season months l).Sublist (l.filter (fun e => decide (cal.month e.key ∈ months))) := by
  unfold keptSamples
  split
  · exact List.dropLast_sublist _
  · split
    · exact List.tail_sublist _
    · exact List.Sublist.refl _

/-- `C36`, exactly: whatever the record (any start month, any number of samples a month) and whatever the season, if some sample is kept the
call succeeds. The result has an entry for every middle month `M` of the season from that of the first kept sample to that of the last
one, in increasing order and labelled with the start of `M`; its value is the mean of the kept samples in `M - 1`, `M` and `M + 1`. -/
theorem C36_exact (cal : Cal) (s : Series K) (season : String) (months : List ℤ) (a : ℤ)
    (hs : seasonQuarter season = some (months, a)) (ht : s.isTime = true) (h12 : s.samples.length % 12 = 0)
    (hsort : s.samples.Pairwise (fun x y => x.key ≤ y.key)) (hne : keptSamples cal season months s.samples ≠ []) :
    ∃ Ms : List ℤ, Ms.Pairwise (· < ·) ∧
      (∀ M, M ∈ Ms ↔ Cal.monthNo M = months.getD 1 0 ∧
        (∃ e ∈ keptSamples cal season months s.samples, cal.monthOf e.key ≤ M + 1) ∧
        (∃ e ∈ keptSamples cal season months s.samples, M - 1 ≤ cal.monthOf e.key)) ∧
      monthToSeason cal season s = .ok (Ms.map (fun M => ⟨cal.monthStart M,
        fun c => mean (valuesIn (keptSamples cal season months s.samples) (fun t => cal.monthOf t ∈ [M - 1, M, M + 1]) c)⟩)) := by
  have hmon := seasonQuarter_months season months a hs
  have hrun : monthToSeason cal season s = (resample (fun t => quarterOf a (cal.monthOf t)) (keptSamples cal season months s.samples)).map (fun g =>
        (((meanEach g).map (fun e => (⟨quarterMonth a e.key + 1, e.val⟩ : Entry K))).filter (fun e => decide (Cal.monthNo e.key = months.getD 1 0))).map
          (fun e => (⟨cal.monthStart e.key, e.val⟩ : Entry K))) := by
    unfold monthToSeason keptSamples
    simp only [ht, hs, h12, ne_eq, not_true_eq_false, if_false, pure_bind]
    generalize resample _ _ = x
    cases x <;> rfl
  rw [hrun]
  have hsub := keptSamples_sublist cal season months s.samples
  generalize keptSamples cal season months s.samples = f at hne hsub
  have hfsort : f.Pairwise (fun x y => x.key ≤ y.key) := (hsort.filter _).sublist hsub
  have hfmem : ∀ e ∈ f, (cal.monthOf e.key - (a - 1)) % 12 ≤ 2 := by
    intro e he
    have := (List.mem_filter.mp (hsub.subset he)).2
    rw [decide_eq_true_iff] at this
    unfold Cal.month at this
    rwa [(hmon _).1] at this
  obtain ⟨h, hh⟩ : ∃ h, f.head? = some h := by
    cases hh : f.head? with
    | none => exact absurd (List.head?_eq_none_iff.mp hh) hne
    | some h => exact ⟨h, rfl⟩
  obtain ⟨z, hz⟩ : ∃ z, f.getLast? = some z := by
    cases hh : f.getLast? with
    | none => exact absurd (List.getLast?_eq_none_iff.mp hh) hne
    | some z => exact ⟨z, rfl⟩
  have hbound := head_last_bounds (fun e : Entry K => e.key) f hfsort h z hh hz
  have hhm := List.mem_of_mem_head? hh
  have hzm := List.mem_of_getLast? hz
  have hh2 := hfmem h hhm
  have hz2 := hfmem z hzm
  have hmono := monthOf_mono cal (hbound z hzm).1
  refine ⟨((periodRange (quarterOf a (cal.monthOf h.key)) (quarterOf a (cal.monthOf z.key))).filter
      (fun q => decide (Cal.monthNo (quarterMonth a q + 1) = months.getD 1 0))).map (fun q => quarterMonth a q + 1), ?_, ?_, ?_⟩
  · rw [List.pairwise_map]
    exact ((periodRange_sorted _ _).filter _).imp (fun h => by unfold quarterMonth; omega)
  · intro M
    rw [List.mem_map]
    constructor
    · rintro ⟨q, hq, rfl⟩
      rw [List.mem_filter, mem_periodRange, decide_eq_true_iff] at hq
      refine ⟨hq.2, ⟨h, hhm, ?_⟩, ⟨z, hzm, ?_⟩⟩ <;>
      · unfold quarterOf quarterMonth at *
        omega
    · rintro ⟨hM, ⟨e1, he1, h1⟩, ⟨e2, he2, h2⟩⟩
      have hM' := (hmon M).2.1.mp hM
      have b1 := monthOf_mono cal (hbound e1 he1).1
      have b2 := monthOf_mono cal (hbound e2 he2).2
      refine ⟨quarterOf a M, ?_, ?_⟩
      · rw [List.mem_filter, mem_periodRange, decide_eq_true_iff, (hmon _).2.1]
        unfold quarterOf quarterMonth
        omega
      · unfold quarterOf quarterMonth
        omega
  · unfold resample
    have hc : ¬ (f = [] ∨ ¬ f.Pairwise (fun a b => a.key ≤ b.key)) := by tauto
    rw [if_neg hc]
    simp only [pure, Except.pure, Except.map]
    congr 1
    unfold bins meanEach
    simp only [hh, hz, List.map_map, List.filter_map]
    have hcomp : (fun q => decide (Cal.monthNo (quarterMonth a q + 1) = months.getD 1 0)) =
      ((fun e : Entry K => decide (Cal.monthNo e.key = months.getD 1 0)) ∘
      ((fun e => (⟨quarterMonth a e.key + 1, e.val⟩ : Entry K)) ∘ ((fun g : ℤ × List (Entry K) => (⟨g.1, fun c => nanMean c g.2⟩ : Entry K)) ∘
        fun b => (b, f.filter (fun e => decide (quarterOf a (cal.monthOf e.key) = b)))))) := rfl
    rw [← hcomp]
    refine List.map_congr_left fun q hq => ?_
    rw [List.mem_filter, decide_eq_true_iff, (hmon _).2.1] at hq
    simp only [Function.comp_apply]
    congr 1
    funext c
    have hfil : f.filter (fun e => decide (quarterOf a (cal.monthOf e.key) = q)) =
        f.filter (fun e => decide (cal.monthOf e.key ∈ [quarterMonth a q + 1 - 1, quarterMonth a q + 1, quarterMonth a q + 1 + 1])) := by
      refine List.filter_congr fun e he => ?_
      have := hfmem e he
      rw [Bool.eq_iff_iff, decide_eq_true_iff, decide_eq_true_iff]
      simp only [quarterOf, quarterMonth, List.mem_cons, List.not_mem_nil, or_false] at *
      omega
    rw [hfil]
    rfl

/-- a year from March 2000 on: the hypotheses hold, and February, the last month of the only DJF season, is dropped -/
example : (monthlyFrom 24002 1).samples.length % 12 = 0 ∧ (monthlyFrom 24002 1).samples.Pairwise (fun x y => x.key ≤ y.key) ∧
    (keptSamples Cal.days360 "DJF" [12, 1, 2] (monthlyFrom 24002 1).samples).map (fun e => e.val 0) = [some 9, some 10] := by
  refine ⟨by decide +kernel, by decide +kernel, by decide +kernel⟩

/-- a record with no sample to average is an error -/
theorem C36_nothing_kept (cal : Cal) (s : Series K) (season : String) (months : List ℤ) (a : ℤ)
    (hs : seasonQuarter season = some (months, a)) (hk : keptSamples cal season months s.samples = []) :
    monthToSeason cal season s = .error .valueError := by
  unfold monthToSeason
  by_cases ht : ¬ (s.isTime = true)
  · simp only [if_pos ht]; rfl
  simp only [if_neg ht]
  by_cases hl : s.samples.length % 12 ≠ 0
  · simp only [if_pos hl]; rfl
  · unfold keptSamples at hk
    simp only [if_neg hl, hs, pure_bind, hk]
    rfl

/-- twelve samples, all of them in July -/
example : keptSamples Cal.days360 "DJF" [12, 1, 2]
    ((List.range 12).map (fun i : ℕ => (⟨Cal.days360.monthStart 24006 + 86400 * i, fun _ => some i⟩ : Entry ℚ))) = [] := by
  have : (keptSamples Cal.days360 "DJF" [12, 1, 2]
    ((List.range 12).map (fun i : ℕ => (⟨Cal.days360.monthStart 24006 + 86400 * i, fun _ => some i⟩ : Entry ℚ)))).length = 0 := by decide +kernel
  exact List.length_eq_zero_iff.mp this

end Verif.Props
