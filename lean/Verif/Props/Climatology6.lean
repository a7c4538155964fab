import Verif.Props.Climatology5

/-
C43: daily climatologies of whole years.
-/

set_option linter.unusedSectionVars false

namespace Verif.Props
open Model Spec Lemmas
variable {K : Type _} [Field K] [LinearOrder K] [IsStrictOrderedRing K]

/-- a record of the whole years `y0` to `y1`: at least one sample on every day -/
structure WholeYears (cal : Cal) (s : Series K) (y0 y1 : ℤ) : Prop where
  order : y0 ≤ y1
  within : ∀ e ∈ s.samples, y0 ≤ cal.year e.key ∧ cal.year e.key ≤ y1
  daily : ∀ t, y0 ≤ cal.year t → cal.year t ≤ y1 → ∃ e ∈ s.samples, e.key / 86400 = t / 86400

theorem monthStart_le (cal : Cal) {i j : ℤ} (h : i ≤ j) : cal.monthStart i ≤ cal.monthStart j := by
  rcases eq_or_lt_of_le h with e | e
  · rw [e]
  · exact (monthStart_mono cal e).le

theorem sameDay (cal : Cal) (t t' : ℤ) (h : t / 86400 = t' / 86400) : cal.monthOf t = cal.monthOf t' ∧ cal.day t = cal.day t' := by
  obtain ⟨i0, i1⟩ := cal.inMonth t'
  obtain ⟨x, hx⟩ := cal.wholeDays (cal.monthOf t')
  obtain ⟨z, hz⟩ := cal.wholeDays (cal.monthOf t' + 1)
  have hm : cal.monthOf t = cal.monthOf t' := monthOf_unique cal (by omega) (by omega)
  refine ⟨hm, ?_⟩
  unfold Cal.day
  rw [hm]
  omega

/-- the day `d` of month `m` in year `y` -/
theorem dayAt (cal : Cal) (y m d : ℤ) (hm : 0 ≤ m ∧ m < 12) (hd : 1 ≤ d ∧ d ≤ cal.len (12 * y + m)) :
    ∃ t, cal.year t = y ∧ cal.month t = m + 1 ∧ cal.day t = d ∧ 86400 ∣ t := by
  obtain ⟨x, hx⟩ := cal.wholeDays (12 * y + m)
  obtain ⟨z, hz⟩ := cal.wholeDays (12 * y + m + 1)
  unfold Cal.len at hd
  have ht : cal.monthOf (86400 * (x + d - 1)) = 12 * y + m := monthOf_unique cal (by omega) (by omega)
  refine ⟨86400 * (x + d - 1), ?_, ?_, ?_, ⟨_, rfl⟩⟩
  · unfold Cal.year; rw [ht]; omega
  · unfold Cal.month Cal.monthNo; rw [ht]; omega
  · unfold Cal.day; rw [ht]; omega

theorem year_within (cal : Cal) (t y : ℤ) : cal.year t = y ↔ cal.monthStart (12 * y) ≤ t ∧ t < cal.monthStart (12 * y + 12) := by
  obtain ⟨i0, i1⟩ := cal.inMonth t
  constructor
  · intro h
    have hk := year_month cal t
    have hr := month_range cal t
    have h1 := monthStart_le cal (show 12 * y ≤ cal.monthOf t by omega)
    have h2 := monthStart_le cal (show cal.monthOf t + 1 ≤ 12 * y + 12 by omega)
    omega
  · rintro ⟨h0, h1⟩
    have g0 : 12 * y ≤ cal.monthOf t := by
      by_contra hc
      have := monthStart_le cal (show cal.monthOf t + 1 ≤ 12 * y by omega)
      omega
    have g1 : cal.monthOf t < 12 * y + 12 := by
      by_contra hc
      have := monthStart_le cal (show 12 * y + 12 ≤ cal.monthOf t by omega)
      omega
    unfold Cal.year
    omega

theorem whole_ne (cal : Cal) (s : Series K) (y0 y1 : ℤ) (hw : WholeYears cal s y0 y1) : s.samples ≠ [] := by
  have hy : cal.year (cal.monthStart (12 * y0)) = y0 := (year_within cal _ _).mpr ⟨le_rfl, monthStart_mono cal (by omega)⟩
  obtain ⟨e, he, -⟩ := hw.daily (cal.monthStart (12 * y0)) (by rw [hy]) (by rw [hy]; exact hw.order)
  exact List.ne_nil_of_mem he

/-- C43: the exact condition. `climatology_average(freq="day")` of a record of whole years returns exactly if no month of the record
is longer than the same month of the median year; it then has one entry per day of the median year. Otherwise it raises. -/
theorem C43_exact (cal : Cal) (infer : InferFreq) (custom : List String) (s : Series K) (hi : s.isTime = true)
    (hr : Regular cal infer s) (y0 y1 : ℤ) (hw : WholeYears cal s y0 y1) (h1000 : 1000 ≤ y0) (h99999 : y1 ≤ 99999) :
    ((∃ out, climatologyAverage cal infer "day" custom s = .ok out) ↔
      ∀ y, y0 ≤ y → y ≤ y1 → ∀ m, 0 ≤ m → m < 12 → cal.len (12 * y + m) ≤ cal.len (12 * medianYear cal s.samples + m)) ∧
    ∀ out, climatologyAverage cal infer "day" custom s = .ok out → ∃ l, out = .times l ∧
      86400 * (l.length : ℤ) = cal.monthStart (12 * medianYear cal s.samples + 12) - cal.monthStart (12 * medianYear cal s.samples) := by
  have hu := (uniform_iff cal infer s).mpr hr
  have hf : GroupFreq "day" .day := Or.inr (Or.inl ⟨rfl, rfl⟩)
  have hp := hf.simple
  have hne := whole_ne cal s y0 y1 hw
  have hM := medianYear_bounds cal s.samples hne y0 y1 hw.within
  obtain ⟨D0, hD0⟩ := cal.wholeDays (12 * medianYear cal s.samples)
  obtain ⟨D1, hD1⟩ := cal.wholeDays (12 * medianYear cal s.samples + 12)
  have hD : D0 < D1 := by
    have := monthStart_mono cal (show 12 * medianYear cal s.samples < 12 * medianYear cal s.samples + 12 by omega)
    omega
  -- all days of the median year are labels of the data
  let F : List ℤ := (periodRange D0 (D1 - 1)).map (fun d => stampKey cal .day (86400 * d))
  have hFyear : ∀ d, D0 ≤ d → d ≤ D1 - 1 → cal.year (86400 * d) = medianYear cal s.samples := fun d h0 h1 =>
    (year_within cal _ _).mpr ⟨by omega, by omega⟩
  have hFsort : F.Pairwise (· < ·) := by
    simp only [F]
    rw [List.pairwise_map]
    refine (periodRange_sorted _ _).imp_of_mem ?_
    intro a b ha hb hab
    rw [mem_periodRange] at ha hb
    rw [stampKey_mono cal .day hp _ _ (by rw [hFyear a ha.1 ha.2, hFyear b hb.1 hb.2])]
    simp only [periodOf]
    omega
  have hFlen : (F.length : ℤ) = D1 - D0 := by
    simp only [F]
    rw [List.length_map, periodRange_length]
    omega
  have hmem := mem_sortedKeys (stampKey cal .day) s.samples
  have hFsub : ∀ x ∈ F, x ∈ sortedKeys (stampKey cal .day) s.samples := by
    intro x hx
    simp only [F, List.mem_map] at hx
    obtain ⟨d, hd, rfl⟩ := hx
    rw [mem_periodRange] at hd
    have hyd := hFyear d hd.1 hd.2
    obtain ⟨e, he, hed⟩ := hw.daily (86400 * d) (by rw [hyd]; exact hM.1) (by rw [hyd]; exact hM.2)
    refine (hmem _).mpr ⟨e, he, ?_⟩
    obtain ⟨h1, h2⟩ := sameDay cal _ _ hed
    simp only [stampKey]
    unfold Cal.month
    rw [h1, h2]
  -- a returned result has at most as many entries as the median year has days
  have upper : ∀ l, groupClimate cal .day s = .ok l → (l.length : ℤ) ≤ D1 - D0 ∧ l.length = (sortedKeys (stampKey cal .day) s.samples).length := by
    intro l hg
    obtain ⟨a, z, b0, b1, ha, hz, -, h0, h1, hlen, hl⟩ := groupClimate_ok cal .day s l hg
    obtain ⟨ea, hea, heak⟩ := (hmem a).mp (List.mem_of_mem_head? ha)
    obtain ⟨ez, hez, hezk⟩ := (hmem z).mp (List.mem_of_getLast? hz)
    rw [← heak] at h0
    rw [← hezk] at h1
    obtain ⟨a1, -, -⟩ := keyPeriod_back cal .day hp ea.key _ b0 h0
    obtain ⟨z1, -, -⟩ := keyPeriod_back cal .day hp ez.key _ b1 h1
    obtain ⟨a2, a3⟩ := (year_within cal _ _).mp a1
    obtain ⟨z2, z3⟩ := (year_within cal _ _).mp z1
    simp only [periodStart] at a2 a3 z2 z3
    have hll : l.length = (sortedKeys (stampKey cal .day) s.samples).length := by rw [hl, List.length_zipWith, hlen, Nat.min_self]
    refine ⟨?_, hll⟩
    rw [hll, ← hlen, periodRange_length]
    omega
  refine ⟨⟨?_, ?_⟩, ?_⟩
  · rintro ⟨out, hout⟩ y hy0 hy1 m hm0 hm1
    by_contra hc
    obtain ⟨-, -, l, -, hg⟩ := climatology_group_ok cal infer "day" .day hf custom s out hout
    obtain ⟨hup, hll⟩ := upper l hg
    have hl := len_pos cal (12 * medianYear cal s.samples + m)
    obtain ⟨t, t1, t2, t3, -⟩ := dayAt cal y m (cal.len (12 * y + m)) ⟨hm0, hm1⟩ ⟨by omega, le_rfl⟩
    obtain ⟨e, he, hed⟩ := hw.daily t (by omega) (by omega)
    obtain ⟨h1, h2⟩ := sameDay cal _ _ hed
    have hkey : stampKey cal .day e.key = (m + 1) * 100 + cal.len (12 * y + m) := by
      simp only [stampKey]
      rw [h2, t3, ← t2]
      unfold Cal.month
      rw [h1]
    have hnot : stampKey cal .day e.key ∉ F := by
      intro hin
      simp only [F, List.mem_map] at hin
      obtain ⟨d, hd, hdk⟩ := hin
      rw [mem_periodRange] at hd
      have hyd := hFyear d hd.1 hd.2
      rw [stampKey_eq cal .day hp] at hdk
      simp only [stamp, Prod.mk.injEq, and_true] at hdk
      have r := day_range cal (86400 * d)
      have hmo : cal.monthOf (86400 * d) = 12 * medianYear cal s.samples + m := by
        have := year_month cal (86400 * d)
        have hme : cal.month e.key = m + 1 := by rw [← t2]; unfold Cal.month; rw [h1]
        omega
      rw [hmo] at r
      rw [hdk.2, h2, t3] at r
      omega
    have hsub : (stampKey cal .day e.key :: F) ⊆ sortedKeys (stampKey cal .day) s.samples := by
      intro x hx
      rcases List.mem_cons.mp hx with rfl | hx
      · exact (hmem _).mpr ⟨e, he, rfl⟩
      · exact hFsub x hx
    have hnd : (stampKey cal .day e.key :: F).Nodup := List.nodup_cons.mpr ⟨hnot, hFsort.imp (fun h => ne_of_lt h)⟩
    have := (List.subperm_of_subset hnd hsub).length_le
    rw [List.length_cons] at this
    omega
  · intro hlen
    refine ((C40_succeeds cal infer "day" .day hf custom s hi hr hne ⟨by omega, by omega⟩ ?_).1).mpr ?_
    · intro e he
      obtain ⟨w0, w1⟩ := hw.within e he
      have r := month_range cal e.key
      have d := day_range cal e.key
      have hk := year_month cal e.key
      have h1 := hlen _ w0 w1 (cal.month e.key - 1) (by omega) (by omega)
      rw [show 12 * cal.year e.key + (cal.month e.key - 1) = cal.monthOf e.key by omega] at h1
      obtain ⟨t, t1, t2, t3, -⟩ := dayAt cal (medianYear cal s.samples) (cal.month e.key - 1) (cal.day e.key) ⟨by omega, by omega⟩ ⟨d.1, by omega⟩
      refine ⟨t, t1, ?_⟩
      simp only [stamp, t2, t3, Prod.mk.injEq, and_true]
      omega
    · intro t ht _ _
      obtain ⟨e, he, hed⟩ := hw.daily t (by omega) (by omega)
      obtain ⟨h1, h2⟩ := sameDay cal _ _ hed
      refine ⟨e, he, ?_⟩
      simp only [stamp, h2]
      unfold Cal.month
      rw [h1]
  · intro out hout
    obtain ⟨-, -, l, hol, hg⟩ := climatology_group_ok cal infer "day" .day hf custom s out hout
    obtain ⟨hup, hll⟩ := upper l hg
    have := (List.subperm_of_subset (hFsort.imp (fun h => ne_of_lt h)) (fun x hx => hFsub x hx)).length_le
    exact ⟨l, hol, by rw [hD0, hD1]; omega⟩

theorem len_periodic (cal : Cal) (hper : ∀ k, cal.len (k + 12) = cal.len k) (m n : ℤ) : cal.len (12 * n + m) = cal.len m := by
  induction n using Int.induction_on with
  | zero => rw [mul_zero, zero_add]
  | succ i ih => rw [← ih, ← hper (12 * i + m)]; congr 1; ring
  | pred i ih => rw [← ih, ← hper (12 * (-(i : ℤ) - 1) + m)]; congr 1; ring

/-- C43, part that holds: calendars whose years are all alike (noleap, all_leap, 360_day): the call succeeds for every record of whole
years and has one entry per day of the year. -/
theorem C43_alike_partial (cal : Cal) (hper : ∀ k, cal.len (k + 12) = cal.len k) (infer : InferFreq) (custom : List String) (s : Series K)
    (hi : s.isTime = true) (hr : Regular cal infer s) (y0 y1 : ℤ) (hw : WholeYears cal s y0 y1) (h1000 : 1000 ≤ y0)
    (h99999 : y1 ≤ 99999) :
    ∃ l, climatologyAverage cal infer "day" custom s = .ok (.times l) ∧ 86400 * (l.length : ℤ) = cal.monthStart (12 * y0 + 12) - cal.monthStart (12 * y0) := by
  have hu := (uniform_iff cal infer s).mpr hr
  obtain ⟨h1, h2⟩ := C43_exact cal infer custom s hi hr y0 y1 hw h1000 h99999
  obtain ⟨out, hout⟩ := h1.mpr (fun y _ _ m _ _ => by rw [len_periodic cal hper, len_periodic cal hper])
  obtain ⟨l, hl, hlen⟩ := h2 out hout
  refine ⟨l, by rw [hout, hl], ?_⟩
  rw [hlen]
  -- all years have the same number of days
  have key : ∀ y : ℤ, ∀ n : ℕ, cal.monthStart (12 * y + n) - cal.monthStart (12 * y) = cal.monthStart (0 + n) - cal.monthStart 0 := by
    intro y n
    induction n with
    | zero => simp
    | succ n ih =>
      have e1 := len_periodic cal hper n y
      unfold Cal.len at e1
      obtain ⟨a, ha⟩ := cal.wholeDays (12 * y + n)
      obtain ⟨b, hb⟩ := cal.wholeDays (12 * y + n + 1)
      obtain ⟨c, hc⟩ := cal.wholeDays n
      obtain ⟨d, hd⟩ := cal.wholeDays (n + 1)
      push_cast at ih ⊢
      rw [zero_add] at ih
      rw [show 12 * y + ((n : ℤ) + 1) = 12 * y + n + 1 by ring, show (0 : ℤ) + ((n : ℤ) + 1) = n + 1 by ring]
      omega
  have k1 := key (medianYear cal s.samples) 12
  have k2 := key y0 12
  push_cast at k1 k2
  rw [k1, k2]

theorem noleap_alike (k : ℤ) : Cal.noleap.len (k + 12) = Cal.noleap.len k := by
  unfold Cal.len
  simp only [Cal.noleap]
  rw [show (k + 12 + 1) % 12 = (k + 1) % 12 by omega, show (k + 12) % 12 = k % 12 by omega]
  omega

theorem days360_alike (k : ℤ) : Cal.days360.len (k + 12) = Cal.days360.len k := by
  unfold Cal.len
  simp only [Cal.days360]
  omega

/-- lengths of the Gregorian months -/
theorem gregorian_len (y m : ℤ) (hm : 0 ≤ m ∧ m < 12) :
    Cal.gregorian.len (12 * y + m) = (if m = 11 then 31 else Cal.cum365 (m + 1) - Cal.cum365 m) + if m = 1 ∧ Cal.leap y then 1 else 0 := by
  unfold Cal.len
  simp only [Cal.gregorian, Cal.ofStarts]
  rw [show (12 * y + m) / 12 = y by omega, show (12 * y + m) % 12 = m by omega]
  by_cases h : m = 11
  · subst h
    rw [show (12 * y + 11 + 1) / 12 = y + 1 by omega, show (12 * y + 11 + 1) % 12 = 0 by omega, Cal.gregYear_step,
      show Cal.cum365 0 = 0 by decide, show Cal.cum365 11 = 334 by decide]
    by_cases hl : Cal.leap y
    · simp only [hl, and_true]
      split_ifs <;> omega
    · simp only [hl, and_false, if_false]
      split_ifs <;> omega
  · rw [show (12 * y + m + 1) / 12 = y by omega, show (12 * y + m + 1) % 12 = m + 1 by omega]
    by_cases hl : Cal.leap y
    · simp only [hl, and_true]
      split_ifs <;> omega
    · simp only [hl, and_false, if_false]
      split_ifs <;> omega

/-- C43 in the Gregorian calendar: a record of whole years has a daily climatology exactly if its median year is a leap year or no year
of the record is. -/
theorem C43_gregorian (infer : InferFreq) (custom : List String) (s : Series K) (hi : s.isTime = true)
    (hr : Regular Cal.gregorian infer s) (y0 y1 : ℤ) (hw : WholeYears Cal.gregorian s y0 y1) (h1000 : 1000 ≤ y0) (h99999 : y1 ≤ 99999) :
    (∃ out, climatologyAverage Cal.gregorian infer "day" custom s = .ok out) ↔
      (Cal.leap (medianYear Cal.gregorian s.samples) ∨ ∀ y, y0 ≤ y → y ≤ y1 → ¬ Cal.leap y) := by
  have hu := (uniform_iff Cal.gregorian infer s).mpr hr
  rw [(C43_exact Cal.gregorian infer custom s hi hr y0 y1 hw h1000 h99999).1]
  constructor
  · intro h
    by_contra hc
    push Not at hc
    obtain ⟨h1, y, hy0, hy1, hl⟩ := hc
    have := h y hy0 hy1 1 (by omega) (by omega)
    rw [gregorian_len y 1 (by omega), gregorian_len _ 1 (by omega)] at this
    simp only [hl, h1, and_true, and_false, if_true, if_false] at this
    split_ifs at this
    · omega
    · omega
  · intro h y hy0 hy1 m hm0 hm1
    rw [gregorian_len y m ⟨hm0, hm1⟩, gregorian_len _ m ⟨hm0, hm1⟩]
    rcases h with h | h
    · simp only [h, and_true]
      split_ifs <;> omega
    · simp only [h y hy0 hy1, and_false, if_false]
      split_ifs <;> omega

/-- one sample per day from 1 January 2001 to 31 December 2004 -/
def daily2001 : Series ℚ := ⟨1, (List.range 1461).map (fun i : ℕ => ⟨86400 * (Cal.gregYear 2001 + i), fun _ => some 0⟩), true⟩

theorem gregorian_year (t y : ℤ) (h0 : 86400 * Cal.gregYear y ≤ t) (h1 : t < 86400 * Cal.gregYear (y + 1)) : Cal.gregorian.year t = y := by
  rw [year_within]
  simp only [Cal.gregorian, Cal.ofStarts]
  rw [show 12 * y / 12 = y by omega, show 12 * y % 12 = 0 by omega, show (12 * y + 12) / 12 = y + 1 by omega,
    show (12 * y + 12) % 12 = 0 by omega, show Cal.cum365 0 = 0 by decide]
  simp only [show ¬ ((2 : ℤ) ≤ 0) by omega, false_and, if_false]
  omega

theorem gregorian_year_iff (t y : ℤ) : Cal.gregorian.year t = y ↔ 86400 * Cal.gregYear y ≤ t ∧ t < 86400 * Cal.gregYear (y + 1) := by
  refine ⟨fun h => ?_, fun h => gregorian_year t y h.1 h.2⟩
  rw [year_within] at h
  simp only [Cal.gregorian, Cal.ofStarts] at h
  rw [show 12 * y / 12 = y by omega, show 12 * y % 12 = 0 by omega, show (12 * y + 12) / 12 = y + 1 by omega,
    show (12 * y + 12) % 12 = 0 by omega, show Cal.cum365 0 = 0 by decide] at h
  simp only [show ¬ ((2 : ℤ) ≤ 0) by omega, false_and, if_false] at h
  omega

theorem daily2001_whole : WholeYears Cal.gregorian daily2001 2001 2004 where
  order := by decide
  within := by
    intro e he
    simp only [daily2001, List.mem_map, List.mem_range] at he
    obtain ⟨i, hi, rfl⟩ := he
    simp only
    have e1 : Cal.gregYear 2001 = 730851 := by decide
    have e2 : Cal.gregYear 2002 = 731216 := by decide
    have e3 : Cal.gregYear 2003 = 731581 := by decide
    have e4 : Cal.gregYear 2004 = 731946 := by decide
    have e5 : Cal.gregYear 2005 = 732312 := by decide
    have : Cal.gregorian.year (86400 * (Cal.gregYear 2001 + i)) = 2001 ∨ Cal.gregorian.year (86400 * (Cal.gregYear 2001 + i)) = 2002 ∨
        Cal.gregorian.year (86400 * (Cal.gregYear 2001 + i)) = 2003 ∨ Cal.gregorian.year (86400 * (Cal.gregYear 2001 + i)) = 2004 := by
      simp only [gregorian_year_iff, show (2001 : ℤ) + 1 = 2002 from rfl, show (2002 : ℤ) + 1 = 2003 from rfl, show (2003 : ℤ) + 1 = 2004 from rfl,
        show (2004 : ℤ) + 1 = 2005 from rfl, e1, e2, e3, e4, e5]
      omega
    omega
  daily := by
    intro t h0 h1
    have e1 : Cal.gregYear 2001 = 730851 := by decide
    have e2 : Cal.gregYear 2002 = 731216 := by decide
    have e3 : Cal.gregYear 2003 = 731581 := by decide
    have e4 : Cal.gregYear 2004 = 731946 := by decide
    have e5 : Cal.gregYear 2005 = 732312 := by decide
    have hb : 86400 * 730851 ≤ t ∧ t < 86400 * 732312 := by
      have : Cal.gregorian.year t = 2001 ∨ Cal.gregorian.year t = 2002 ∨ Cal.gregorian.year t = 2003 ∨ Cal.gregorian.year t = 2004 := by omega
      simp only [gregorian_year_iff, show (2001 : ℤ) + 1 = 2002 from rfl, show (2002 : ℤ) + 1 = 2003 from rfl, show (2003 : ℤ) + 1 = 2004 from rfl,
        show (2004 : ℤ) + 1 = 2005 from rfl, e1, e2, e3, e4, e5] at this
      omega
    refine ⟨⟨86400 * (Cal.gregYear 2001 + (t / 86400 - 730851).toNat), fun _ => some 0⟩, ?_, ?_⟩
    · simp only [daily2001, List.mem_map, List.mem_range]
      exact ⟨(t / 86400 - 730851).toNat, by omega, rfl⟩
    · simp only
      omega

theorem daily2001_median : medianYear Cal.gregorian daily2001.samples = 2003 := by
  unfold medianYear median2
  have hsorted : (daily2001.samples.map (fun e => Cal.gregorian.year e.key)).Pairwise (· ≤ ·) := by
    rw [List.pairwise_map]
    simp only [daily2001]
    rw [List.pairwise_map]
    refine List.pairwise_lt_range.imp ?_
    intro i j hij
    have := monthOf_mono Cal.gregorian (show 86400 * (Cal.gregYear 2001 + (i : ℤ)) ≤ 86400 * (Cal.gregYear 2001 + j) by omega)
    unfold Cal.year
    simp only
    omega
  rw [hsorted.insertionSort_eq]
  have hget : (daily2001.samples.map (fun e => Cal.gregorian.year e.key)).getD 730 0 = 2003 := by
    rw [List.getD_eq_getElem?_getD, List.getElem?_map]
    simp only [daily2001]
    rw [List.getElem?_map, List.getElem?_range (by omega)]
    simp only [Option.map_some, Option.getD_some]
    apply gregorian_year
    · decide
    · decide
  have hlen : (daily2001.samples.map (fun e => Cal.gregorian.year e.key)).length = 1461 := by simp [daily2001]
  simp only [hlen, show (1461 - 1) / 2 = 730 from rfl, show 1461 / 2 = 730 from rfl, hget]
  decide

/-- C43 is false of the code: the daily climatology of the complete daily record 2001 to 2004 raises, because the median year 2003 has no
29 February. -/
theorem C43_counterexample :
    ¬ (∀ (infer : InferFreq) (s : Series ℚ) (y0 y1 : ℤ), s.isTime = true → Regular Cal.gregorian infer s →
      WholeYears Cal.gregorian s y0 y1 → 1000 ≤ y0 → y1 ≤ 99999 → ∃ out, climatologyAverage Cal.gregorian infer "day" [] s = .ok out) := by
  intro h
  have hr : Regular Cal.gregorian (fun _ => .ok true) daily2001 := Or.inl rfl
  have h1 := h (fun _ => .ok true) daily2001 2001 2004 rfl hr daily2001_whole (by decide) (by decide)
  rw [C43_gregorian (fun _ => .ok true) [] daily2001 rfl hr 2001 2004 daily2001_whole (by decide) (by decide), daily2001_median] at h1
  rcases h1 with h1 | h1
  · exact absurd h1 (by decide)
  · exact h1 2004 (by decide) (by decide) (by decide)

end Verif.Props
