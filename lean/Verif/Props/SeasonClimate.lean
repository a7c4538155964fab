import Verif.Props.Climatology8
import Verif.Props.Climatology2
import Verif.Props.ClimSteps

/-
C146: seasonal climatologies and the seasonal averages of the individual years.
-/

set_option linter.unusedSectionVars false

namespace Verif.Spec
variable {K : Type _} [Field K] [LinearOrder K]

/-- the name of season number `b` -/
def seasonName (b : ℤ) : String := ["DJF", "MAM", "JJA", "SON"].getD (b % 4).toNat ""

/-- the midpoint of season number `b`: its time label -/
def seasonCenter (cal : Cal) (b : ℤ) : ℤ := (cal.monthStart (3 * b - 1) + cal.monthStart (3 * b + 2)) / 2

/-- the number of days of season number `b` in months with data -/
def daysWithData (cal : Cal) (s : Series K) (b : ℤ) : ℤ :=
  (((seasonOfMonths b).filter (fun k => decide (FullMonth cal s k))).map cal.len).sum

end Verif.Spec

namespace Verif.Props
open Model Spec Lemmas
variable {K : Type _} [Field K] [LinearOrder K] [IsStrictOrderedRing K]

theorem name_months (name : String) (hname : name ∈ ["DJF", "MAM", "JJA", "SON"]) (months : List ℤ) (hm : seasonMonths name = some months) (b k : ℤ)
    (hk : k ∈ seasonOfMonths b) : Cal.monthNo k ∈ months ↔ seasonName b = name := by
  simp only [seasonOfMonths, List.mem_cons, List.not_mem_nil, or_false] at hk
  have hb : b % 4 = 0 ∨ b % 4 = 1 ∨ b % 4 = 2 ∨ b % 4 = 3 := by omega
  simp only [List.mem_cons, List.not_mem_nil, or_false] at hname
  have hmn : Cal.monthNo k = k % 12 + 1 := rfl
  rcases hname with rfl | rfl | rfl | rfl <;> injection hm with hm <;> subst hm <;>
    rcases hb with hb | hb | hb | hb <;> simp only [seasonName, hb, hmn, List.mem_cons, List.not_mem_nil, or_false] <;>
    simp <;> omega

theorem sum_flatMap {α β : Type _} (l : List α) (f : α → List β) (g : β → K) : ((l.flatMap f).map g).sum = (l.map (fun a => ((f a).map g).sum)).sum := by
  induction l with
  | nil => rfl
  | cons a l ih => simp [List.flatMap_cons, ih]

theorem cast_sum (l : List ℤ) (f : ℤ → ℤ) : (((l.map f).sum : ℤ) : K) = (l.map (fun k => (f k : K))).sum := by
  induction l with
  | nil => simp
  | cons a l ih => simp [ih]

/-- the value of cell `c` of entry `i` of a result (0 if missing) -/
def valueAt (l : List (Entry K)) (i c : ℕ) : K := ((l[i]?).bind (·.val c)).getD 0

/-- C146: the climatology of a meteorological season is the mean of the averages of that season over the years (calendar_average), each weighted with the
number of days of the season in months with data. -/
theorem C146_weighted (cal : Cal) (infer : InferFreq) (custom : List String) (s : Series K) (hn : 0 < s.ncell) (out : ClimOut K) (out' : List (Entry K))
    (h : climatologyAverage cal infer "season" custom s = .ok out) (h' : calendarAverage cal infer "season" s = .ok out') :
    ∃ (vals : List (String × (ℕ → Option K))) (b0 : ℤ), out = .seasons vals ∧
      (∀ (i : ℕ) (e : Entry K), out'[i]? = some e → e.key = seasonCenter cal (b0 + i)) ∧
      ∀ x ∈ vals, x.1 ∈ ["DJF", "MAM", "JJA", "SON"] → ∀ c < s.ncell,
        x.2 c = some (
          (((List.range out'.length).filter (fun i : ℕ => decide (seasonName (b0 + i) = x.1))).map
            (fun i : ℕ => (daysWithData cal s (b0 + i) : K) * valueAt out' i c)).sum /
          (((List.range out'.length).filter (fun i : ℕ => decide (seasonName (b0 + i) = x.1))).map
            (fun i : ℕ => (daysWithData cal s (b0 + i) : K))).sum) := by
  obtain ⟨vals, hv, -, hx⟩ := C91_weighted cal infer custom s hn out h
  obtain ⟨b0, j0, j1, f0, f1, fb, hj0, hj1, hseas⟩ := C37_season cal infer s hn out' h'
  refine ⟨vals, b0, hv, fun i e he => (hseas i e he).1, ?_⟩
  intro x hxm hname c hc
  obtain ⟨months, hm, ks, hsort, hmem, hval⟩ := hx x hxm
  rw [hval c hc]
  have hks : ks = ((List.range out'.length).filter (fun i : ℕ => decide (seasonName (b0 + i) = x.1))).flatMap
      (fun i : ℕ => (seasonOfMonths (b0 + i)).filter (fun k => decide (FullMonth cal s k))) := by
    refine sorted_ext hsort ?_ ?_
    · rw [List.pairwise_flatMap]
      constructor
      · intro i _
        refine List.Pairwise.filter _ ?_
        simp [seasonOfMonths]
        omega
      · refine List.Pairwise.filter _ (List.pairwise_lt_range.imp ?_)
        intro i j hij u hu w hw
        have hu := (List.mem_filter.mp hu).1
        have hw := (List.mem_filter.mp hw).1
        simp only [seasonOfMonths, List.mem_cons, List.not_mem_nil, or_false] at hu hw
        omega
    · intro k
      rw [hmem, List.mem_flatMap]
      constructor
      · rintro ⟨hf, hmn⟩
        have hb := fb k hf
        simp only [seasonOfMonths, List.mem_cons, List.not_mem_nil, or_false] at hj0 hj1
        have hkm : k ∈ seasonOfMonths (b0 + (((k + 1) / 3 - b0).toNat : ℕ)) := by
          simp only [seasonOfMonths, List.mem_cons, List.not_mem_nil, or_false]
          omega
        refine ⟨((k + 1) / 3 - b0).toNat, ?_, ?_⟩
        · rw [List.mem_filter, List.mem_range, decide_eq_true_iff]
          exact ⟨by omega, (name_months x.1 hname months hm _ k hkm).mp hmn⟩
        · rw [List.mem_filter, decide_eq_true_iff]
          exact ⟨hkm, hf⟩
      · rintro ⟨i, hi, hk⟩
        rw [List.mem_filter, decide_eq_true_iff] at hi hk
        exact ⟨hk.2, (name_months x.1 hname months hm _ k hk.1).mpr hi.2⟩
  unfold dayWeighted
  rw [hks, sum_flatMap, sum_flatMap]
  congr 3
  · refine List.map_congr_left fun i hi => ?_
    have hil := List.mem_range.mp (List.mem_filter.mp hi).1
    obtain ⟨-, hy⟩ := hseas i out'[i] (List.getElem?_eq_getElem hil)
    obtain ⟨e1, e2⟩ := hy c hc _ rfl
    have hva : valueAt out' i c = (out'[i].val c).getD 0 := by
      unfold valueAt
      rw [List.getElem?_eq_getElem hil]
      rfl
    rw [hva]
    unfold daysWithData
    generalize (seasonOfMonths (b0 + i)).filter (fun k => decide (FullMonth cal s k)) = L at e1 e2
    by_cases hL : L = []
    · rw [hL]; simp
    · obtain ⟨y, hy1, hy2, -⟩ := e2 hL
      rw [hy1, Option.getD_some, hy2]
      unfold dayWeighted
      have hpos : (0 : K) < (L.map (fun k => (cal.len k : K))).sum := by
        refine List.sum_pos _ ?_ (by simpa using hL)
        intro z hz
        obtain ⟨k, -, rfl⟩ := List.mem_map.mp hz
        exact_mod_cast len_pos cal k
      have hcast : (((L.map cal.len).sum : ℤ) : K) = (L.map (fun k => (cal.len k : K))).sum := cast_sum L cal.len
      rw [hcast, mul_div_cancel₀ _ hpos.ne']
  · refine List.map_congr_left fun i _ => ?_
    unfold daysWithData
    rw [cast_sum]

/-- C146: if every instance of the season has the same number of days in months with data (whole seasons, no leap years), the climatology is the plain mean of
the seasonal averages. -/
theorem C146_partial (cal : Cal) (infer : InferFreq) (custom : List String) (s : Series K) (hn : 0 < s.ncell) (out : ClimOut K) (out' : List (Entry K))
    (h : climatologyAverage cal infer "season" custom s = .ok out) (h' : calendarAverage cal infer "season" s = .ok out') :
    ∃ (vals : List (String × (ℕ → Option K))) (b0 : ℤ), out = .seasons vals ∧
      (∀ (i : ℕ) (e : Entry K), out'[i]? = some e → e.key = seasonCenter cal (b0 + i)) ∧
      ∀ x ∈ vals, x.1 ∈ ["DJF", "MAM", "JJA", "SON"] →
        ∀ d : ℤ, d ≠ 0 → (∀ i < out'.length, seasonName (b0 + i) = x.1 → daysWithData cal s (b0 + i) = d) → ∀ c < s.ncell,
        x.2 c = some (
          (((List.range out'.length).filter (fun i : ℕ => decide (seasonName (b0 + i) = x.1))).map (fun i : ℕ => valueAt out' i c)).sum /
            ((List.range out'.length).filter (fun i : ℕ => decide (seasonName (b0 + i) = x.1))).length) := by
  obtain ⟨vals, b0, h1, h2, h3⟩ := C146_weighted cal infer custom s hn out out' h h'
  refine ⟨vals, b0, h1, h2, fun x hx hname d hd hdays c hc => ?_⟩
  rw [h3 x hx hname c hc]
  have hd' : (d : K) ≠ 0 := by exact_mod_cast hd
  have e : ∀ i ∈ (List.range out'.length).filter (fun i : ℕ => decide (seasonName (b0 + i) = x.1)), daysWithData cal s (b0 + i) = d := by
    intro i hi
    rw [List.mem_filter, List.mem_range, decide_eq_true_iff] at hi
    exact hdays i hi.1 hi.2
  generalize (List.range out'.length).filter (fun i : ℕ => decide (seasonName (b0 + i) = x.1)) = I at e
  rw [List.map_congr_left (g := fun i : ℕ => (d : K) * valueAt out' i c) (fun i hi => by rw [e i hi]),
    List.map_congr_left (l := I) (f := fun i : ℕ => (daysWithData cal s (b0 + i) : K)) (g := fun _ => (d : K)) (fun i hi => by rw [e i hi]),
    List.sum_map_mul_left, List.map_const', List.sum_replicate, nsmul_eq_mul, mul_comm (I.length : K), mul_div_mul_left _ _ hd']

/-- 24 months from January on -/
def monthsTwoYears : Series ℚ := ⟨1, (List.range 24).map (fun i : ℕ => ⟨Cal.noleap.monthStart (24000 + i), fun _ => some i⟩), true⟩

/-- C146 without restriction is false: of two calendar years there are three December to February averages, of two, three and one months; their plain mean is not
the climatology. For the other seasons it is (1105/92 is the mean of 553/92 and 1657/92). -/
theorem C146_counterexample :
    (climatologyAverage Cal.noleap (fun _ => .ok true) "season" [] monthsTwoYears).toOption.map (fun o =>
      match o with
      | .seasons l => l.map (fun x => (x.1, x.2 0))
      | .times _ => []) = some [("DJF", some (101 / 10)), ("JJA", some (1105 / 92)), ("MAM", some 9), ("SON", some 15)] ∧
    (calendarAverage Cal.noleap (fun _ => .ok true) "season" monthsTwoYears).toOption.map (fun l => (rows 1 l).map (fun r => r.2)) =
      some [[some (28 / 59)], [some 3], [some (553 / 92)], [some 9], [some (359 / 30)], [some 15], [some (1657 / 92)], [some 21], [some 23]] := by
  constructor <;> decide +kernel

/-- both March to May seasons of this record have 92 days with data -/
example : daysWithData Cal.noleap monthsTwoYears 8001 = 92 ∧ daysWithData Cal.noleap monthsTwoYears 8005 = 92 ∧ seasonName 8001 = "MAM" := by decide +kernel

end Verif.Props
