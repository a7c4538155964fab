import Verif.Props.ClimSelect

/-
C142: averaging in steps.
-/

set_option linter.unusedSectionVars false

namespace Verif.Spec
variable {K : Type _}

/-- the result of one averaging as input of the next -/
def again (s : Series K) (l : List (Entry K)) : Series K := ⟨s.ncell, l, s.isTime⟩

/-- time stamps and values (of the first `n` cells) of a result -/
def rows (n : ℕ) (l : List (Entry K)) : List (ℤ × List (Option K)) := l.map (fun e => (e.key, (List.range n).map e.val))

end Verif.Spec

namespace Verif.Lemmas
open Model Spec Props
variable {K : Type _} [Field K] [LinearOrder K] [IsStrictOrderedRing K]

theorem center_in (cal : Cal) (p : Period) (hp : simple p) (b : ℤ) : periodOf cal p (periodCenter cal p b) = b := by
  rcases hp with rfl | rfl | rfl
  · simp only [periodOf, periodCenter, periodStart]; omega
  · simp only [periodOf, periodCenter, periodStart]; omega
  · have := cal.pos b
    simp only [periodOf]
    refine monthOf_unique cal ?_ ?_ <;> simp only [periodCenter, periodStart] <;> omega

theorem center_lt (cal : Cal) (p : Period) (hp : simple p) {a b : ℤ} (h : a < b) : periodCenter cal p a < periodCenter cal p b := by
  by_contra hc
  have := periodOf_mono cal p (not_lt.mp hc)
  rw [center_in cal p hp, center_in cal p hp] at this
  omega

/-- consecutive periods with one value each -/
def steps (cal : Cal) (p : Period) (k0 k1 : ℤ) (w : ℤ → ℕ → Option K) : List (Entry K) :=
  (periodRange k0 k1).map (fun b => ⟨periodCenter cal p b, w b⟩)

theorem steps_sorted (cal : Cal) (p : Period) (hp : simple p) (k0 k1 : ℤ) (w : ℤ → ℕ → Option K) :
    (steps cal p k0 k1 w).Pairwise (fun a b => a.key ≤ b.key) := by
  unfold steps
  rw [List.pairwise_map]
  exact (periodRange_sorted k0 k1).imp (fun h => (center_lt cal p hp h).le)

theorem steps_ne (cal : Cal) (p : Period) {k0 k1 : ℤ} (h : k0 ≤ k1) (w : ℤ → ℕ → Option K) : steps cal p k0 k1 w ≠ [] := by
  unfold steps
  intro hc
  rw [List.map_eq_nil_iff] at hc
  have := (mem_periodRange k0 k1 k0).mpr ⟨le_rfl, h⟩
  rw [hc] at this
  cases this

theorem steps_head (cal : Cal) (p : Period) {k0 k1 : ℤ} (h : k0 ≤ k1) (w : ℤ → ℕ → Option K) :
    (steps cal p k0 k1 w).head? = some ⟨periodCenter cal p k0, w k0⟩ := by
  unfold steps; rw [List.head?_map, periodRange_head k0 k1 h]; rfl

theorem steps_last (cal : Cal) (p : Period) {k0 k1 : ℤ} (h : k0 ≤ k1) (w : ℤ → ℕ → Option K) :
    (steps cal p k0 k1 w).getLast? = some ⟨periodCenter cal p k1, w k1⟩ := by
  unfold steps; rw [List.getLast?_map, periodRange_last k0 k1 h]; rfl

theorem filter_eq_single (k0 k1 b : ℤ) (h : b ∈ periodRange k0 k1) : (periodRange k0 k1).filter (fun k => decide (k = b)) = [b] := by
  refine sorted_ext ((periodRange_sorted k0 k1).filter _) (List.pairwise_singleton _ _) ?_
  intro x
  simp only [List.mem_filter, decide_eq_true_eq, List.mem_singleton]
  exact ⟨fun h => h.2, fun e => ⟨e ▸ h, e⟩⟩

theorem steps_bins (cal : Cal) (p : Period) (hp : simple p) {k0 k1 : ℤ} (h : k0 ≤ k1) (w : ℤ → ℕ → Option K) :
    bins (periodOf cal p) (steps cal p k0 k1 w) = (periodRange k0 k1).map (fun b => (b, [⟨periodCenter cal p b, w b⟩])) := by
  unfold bins
  rw [steps_head cal p h, steps_last cal p h]
  simp only [center_in cal p hp]
  refine List.map_congr_left fun b hb => ?_
  unfold steps
  rw [List.filter_map]
  have : ((fun e : Entry K => decide (periodOf cal p e.key = b)) ∘ fun b => (⟨periodCenter cal p b, w b⟩ : Entry K)) = fun k => decide (k = b) := by
    funext k
    simp only [Function.comp_apply, center_in cal p hp]
  rw [this, filter_eq_single k0 k1 b hb]
  rfl

theorem nanMean_single (c : ℕ) (e : Entry K) : nanMean c [e] = e.val c := by
  unfold nanMean
  cases h : e.val c with
  | none => simp [h]
  | some x => simp [h]

theorem steps_mean (cal : Cal) (p : Period) (hp : simple p) {k0 k1 : ℤ} (h : k0 ≤ k1) (w : ℤ → ℕ → Option K) :
    meanEach (bins (periodOf cal p) (steps cal p k0 k1 w)) = (periodRange k0 k1).map (fun b => ⟨b, w b⟩) := by
  rw [steps_bins cal p hp h]
  unfold meanEach
  rw [List.map_map]
  refine List.map_congr_left fun b _ => ?_
  simp only [Function.comp_apply, nanMean_single]

/-- shape of a result by hour, day or month -/
theorem simple_shape (cal : Cal) (infer : InferFreq) (freq : String) (p : Period) (hf : GroupFreq freq p) (s : Series K) (hn : 0 < s.ncell)
    (out : List (Entry K)) (h : calendarAverage cal infer freq s = .ok out) :
    ∃ (k0 k1 : ℤ), k0 ≤ k1 ∧ (∀ b, FullPeriod cal p s b ↔ k0 ≤ b ∧ b ≤ k1) ∧
      out = steps cal p k0 k1 (fun b c => mean (valuesIn s.samples (fun t => periodOf cal p t = b) c)) ∧
      dropna s.ncell (meanEach (bins (periodOf cal p) s.samples)) =
        (periodRange k0 k1).map (fun b => ⟨b, fun c => mean (valuesIn s.samples (fun t => periodOf cal p t = b) c)⟩) := by
  have hps : ¬ (p = .season ∨ p = .year) := by rcases hf with ⟨-, rfl⟩ | ⟨-, rfl⟩ | ⟨-, rfl⟩ <;> decide
  have hcal : calendarPeriod freq = .ok p := by rcases hf with ⟨rfl, rfl⟩ | ⟨rfl, rfl⟩ | ⟨rfl, rfl⟩ <;> rfl
  rw [calendar_eq cal infer freq p hcal] at h
  obtain ⟨hi, hu, hne, hs⟩ := calBody_ok cal infer p s out h
  obtain ⟨ks, hsort, hmem, heq⟩ := full_list cal p s hn hne hs
  rw [calBody_eq cal infer p s hi hu hne hs _ rfl, if_neg hps, if_neg hps, heq, List.head?_map, List.getLast?_map] at h
  cases ha : ks.head? with
  | none => rw [ha] at h; cases h
  | some k0 =>
    cases hz : ks.getLast? with
    | none => rw [ha, hz] at h; cases h
    | some k1 =>
      rw [ha, hz] at h
      simp only [Option.map_some] at h
      have hlen : (periodRange k0 k1).length = ks.length := by
        unfold centerBounds at h
        rw [List.length_map] at h
        split_ifs at h with hlen
        exact hlen
      have hr : ks = periodRange k0 k1 := by
        refine range_of_length ks k0 k1 hsort ?_ (le_of_eq hlen)
        intro x hx
        exact head_last_bounds (fun x : ℤ => x) ks (hsort.imp le_of_lt) k0 k1 ha hz x hx
      have h01 : k0 ≤ k1 := by
        have hx : k0 ∈ ks := List.mem_of_mem_head? ha
        rw [hr, mem_periodRange] at hx
        exact hx.2
      rw [hr, centerBounds_map] at h
      injection h with h
      rw [hr] at hmem heq
      exact ⟨k0, k1, h01, fun b => by rw [← hmem, mem_periodRange], h.symm, heq⟩

/-- the data of a record of months pass the check for regular data -/
theorem months_uniform (cal : Cal) (infer : InferFreq) (n : ℕ) (tm : Bool) {k0 k1 : ℤ} (h : k0 ≤ k1) (w : ℤ → ℕ → Option K)
    (hi : ∃ b, infer ((steps cal .month k0 k1 w).map (·.key)) = .ok b) :
    checkUniform cal infer (⟨n, steps cal .month k0 k1 w, tm⟩ : Series K) = .ok () := by
  obtain ⟨b, hb⟩ := hi
  unfold checkUniform
  simp only [hb, bind, Except.bind]
  cases b with
  | true => rfl
  | false =>
    have hp : simple Period.month := by unfold simple; tauto
    have e : (periodOf cal .month) = cal.monthOf := rfl
    have hr : resample cal.monthOf (steps cal .month k0 k1 w) = .ok (bins cal.monthOf (steps cal .month k0 k1 w)) := by
      unfold resample
      rw [if_neg]
      · rfl
      · push Not
        exact ⟨steps_ne cal .month h w, steps_sorted cal .month hp k0 k1 w⟩
    rw [hr, ← e, steps_bins cal .month hp h]
    simp [pure, Except.pure]

/-- averaging again what has been averaged: everything the second call works with is the same as in a direct call -/
theorem calBody_again (cal : Cal) (infer : InferFreq) (p q : Period) (hp : simple p)
    (hq : (if q = .season ∨ q = .year then .month else q) = p) (s : Series K)
    (hi : s.isTime = true) (hu : checkUniform cal infer s = .ok ()) (hne : s.samples ≠ [])
    (hs : s.samples.Pairwise (fun a b => a.key ≤ b.key)) {k0 k1 : ℤ} (h01 : k0 ≤ k1) (w : ℤ → ℕ → Option K)
    (hfull : ∀ b, k0 ≤ b → b ≤ k1 → ∀ c < s.ncell, (w b c).isSome)
    (hw : dropna s.ncell (meanEach (bins (periodOf cal p) s.samples)) = (periodRange k0 k1).map (fun b => ⟨b, w b⟩))
    (hu' : checkUniform cal infer (again s (steps cal p k0 k1 w)) = .ok ()) :
    calBody cal infer q (again s (steps cal p k0 k1 w)) = calBody cal infer q s := by
  have hd : dropna s.ncell (meanEach (bins (periodOf cal p) (steps cal p k0 k1 w))) = dropna s.ncell (meanEach (bins (periodOf cal p) s.samples)) := by
    rw [hw, steps_mean cal p hp h01]
    unfold dropna
    rw [List.filter_eq_self]
    intro e he
    obtain ⟨b, hb, rfl⟩ := List.mem_map.mp he
    rw [List.all_eq_true]
    intro c hc
    obtain ⟨b0, b1⟩ := (mem_periodRange k0 k1 b).mp hb
    exact hfull b b0 b1 c (List.mem_range.mp hc)
  rw [calBody_eq cal infer q s hi hu hne hs _ rfl, calBody_eq cal infer q (again s (steps cal p k0 k1 w)) hi hu' (steps_ne cal p h01 w)
    (steps_sorted cal p hp k0 k1 w) _ rfl]
  have e : (again s (steps cal p k0 k1 w)).samples = steps cal p k0 k1 w := rfl
  have e' : (again s (steps cal p k0 k1 w)).ncell = s.ncell := rfl
  rw [e, e', hq, hd]

/-- a finer period lies in one coarser period -/
def Nested (p key : Period) : Prop := (p = .hour ∧ (key = .day ∨ key = .month)) ∨ (p = .day ∧ key = .month)

theorem nested_center (cal : Cal) {p key : Period} (h : Nested p key) (t : ℤ) :
    periodOf cal key (periodCenter cal p (periodOf cal p t)) = periodOf cal key t := by
  rcases h with ⟨rfl, rfl | rfl⟩ | ⟨rfl, rfl⟩
  · simp only [periodOf, periodCenter, periodStart]; omega
  · obtain ⟨h0, h1⟩ := cal.inMonth t
    obtain ⟨x, hx⟩ := cal.wholeDays (cal.monthOf t)
    obtain ⟨z, hz⟩ := cal.wholeDays (cal.monthOf t + 1)
    refine monthOf_unique cal ?_ ?_ <;> simp only [periodOf, periodCenter, periodStart] <;> omega
  · obtain ⟨h0, h1⟩ := cal.inMonth t
    obtain ⟨x, hx⟩ := cal.wholeDays (cal.monthOf t)
    obtain ⟨z, hz⟩ := cal.wholeDays (cal.monthOf t + 1)
    refine monthOf_unique cal ?_ ?_ <;> simp only [periodOf, periodCenter, periodStart] <;> omega

theorem Nested.simple {p key : Period} (h : Nested p key) : simple p := by
  rcases h with ⟨rfl, -⟩ | ⟨rfl, -⟩
  · exact Or.inl rfl
  · exact Or.inr (Or.inl rfl)

theorem filterMap_some_length {α : Type _} (l : List α) (g : α → Option K) (h : ∀ e ∈ l, (g e).isSome) : (l.filterMap g).length = l.length := by
  induction l with
  | nil => rfl
  | cons a l ih =>
    obtain ⟨v, hv⟩ := Option.isSome_iff_exists.mp (h a (by simp))
    rw [List.filterMap_cons, hv]
    simp [ih (fun e he => h e (by simp [he]))]

/-- with the same number of values in every short period, the mean over a long period of the means over the short ones is the mean over the long one -/
theorem even_means (cal : Cal) (p key : Period) (hnest : Nested p key) (s : Series K) (hne : s.samples ≠ [])
    (hs : s.samples.Pairwise (fun a b => a.key ≤ b.key)) (hall : ∀ e ∈ s.samples, ∀ c, (e.val c).isSome) (n : ℕ) (hn0 : 0 < n)
    (hcount : ∀ e ∈ s.samples, (s.samples.filter (fun e' => decide (periodOf cal p e'.key = periodOf cal p e.key))).length = n)
    {k0 k1 : ℤ} (h01 : k0 ≤ k1) (hrange : ∀ b, (∃ e ∈ s.samples, periodOf cal p e.key = b) ↔ k0 ≤ b ∧ b ≤ k1) :
    meanEach (bins (periodOf cal key) (steps cal p k0 k1 (fun b c => mean (valuesIn s.samples (fun t => periodOf cal p t = b) c)))) =
      meanEach (bins (periodOf cal key) s.samples) := by
  obtain ⟨a, ha⟩ : ∃ a, s.samples.head? = some a := by
    cases hh : s.samples.head? with
    | none => exact absurd (List.head?_eq_none_iff.mp hh) hne
    | some a => exact ⟨a, rfl⟩
  obtain ⟨z, hz⟩ : ∃ z, s.samples.getLast? = some z := by
    cases hh : s.samples.getLast? with
    | none => exact absurd (List.getLast?_eq_none_iff.mp hh) hne
    | some z => exact ⟨z, rfl⟩
  have hbd := head_last_bounds (fun e : Entry K => e.key) s.samples hs a z ha hz
  have ha' : periodOf cal p a.key = k0 := by
    obtain ⟨e, he, h⟩ := (hrange k0).mpr ⟨le_rfl, h01⟩
    have h1 := periodOf_mono cal p (hbd e he).1
    have h2 := ((hrange _).mp ⟨a, List.mem_of_mem_head? ha, rfl⟩).1
    omega
  have hz' : periodOf cal p z.key = k1 := by
    obtain ⟨e, he, h⟩ := (hrange k1).mpr ⟨h01, le_rfl⟩
    have h1 := periodOf_mono cal p (hbd e he).2
    have h2 := ((hrange _).mp ⟨z, List.mem_of_getLast? hz, rfl⟩).2
    omega
  unfold bins
  rw [steps_head cal p h01, steps_last cal p h01, ha, hz]
  simp only [← ha', ← hz', nested_center cal hnest]
  rw [ha', hz']
  unfold meanEach
  rw [List.map_map, List.map_map]
  refine List.map_congr_left fun B _ => ?_
  simp only [Function.comp_apply, Entry.mk.injEq, true_and]
  funext c
  set L := (periodRange k0 k1).filter (fun b => decide (periodOf cal key (periodCenter cal p b) = B)) with hL
  set S : ℤ → K := fun b => ((s.samples.filter (fun e => decide (periodOf cal p e.key = b))).filterMap (·.val c)).sum with hS
  have hlen : ∀ b ∈ L, ((s.samples.filter (fun e => decide (periodOf cal p e.key = b))).filterMap (·.val c)).length = n := by
    intro b hb
    have hb' := (mem_periodRange k0 k1 b).mp (List.mem_filter.mp hb).1
    obtain ⟨e, he, rfl⟩ := (hrange b).mpr hb'
    rw [filterMap_some_length _ _ (fun e' he' => hall e' (List.mem_filter.mp he').1 c), hcount e he]
  have hmean : ∀ b ∈ L, mean (valuesIn s.samples (fun t => periodOf cal p t = b) c) = some (S b / n) := by
    intro b hb
    have := hlen b hb
    unfold mean valuesIn
    rw [if_neg, this]
    intro h0
    rw [h0] at this
    simp at this
    omega
  have e1 : ((steps cal p k0 k1 (fun b c => mean (valuesIn s.samples (fun t => periodOf cal p t = b) c))).filter
      (fun e => decide (periodOf cal key e.key = B))).filterMap (·.val c) = L.map (fun b => S b / n) := by
    unfold steps
    rw [List.filter_map, List.filterMap_map]
    have : ((fun e : Entry K => decide (periodOf cal key e.key = B)) ∘ fun b =>
        (⟨periodCenter cal p b, fun c => mean (valuesIn s.samples (fun t => periodOf cal p t = b) c)⟩ : Entry K)) =
        fun b => decide (periodOf cal key (periodCenter cal p b) = B) := rfl
    rw [this, ← hL]
    have hm : ∀ M : List ℤ, (∀ b ∈ M, mean (valuesIn s.samples (fun t => periodOf cal p t = b) c) = some (S b / n)) →
        M.filterMap ((fun e : Entry K => e.val c) ∘ fun b =>
        (⟨periodCenter cal p b, fun c => mean (valuesIn s.samples (fun t => periodOf cal p t = b) c)⟩ : Entry K)) = M.map (fun b => S b / n) := by
      intro M
      induction M with
      | nil => intro _; rfl
      | cons b M ih =>
        intro h
        rw [List.filterMap_cons, List.map_cons, ← ih (fun b hb => h b (by simp [hb]))]
        simp only [Function.comp_apply, h b (by simp)]
    exact hm L hmean
  have hnd : L.Nodup := ((periodRange_sorted k0 k1).imp (fun h => ne_of_lt h)).filter _
  have e2 : s.samples.filter (fun e => decide (periodOf cal key e.key = B)) = s.samples.filter (fun e => decide (periodOf cal p e.key ∈ L)) := by
    apply List.filter_congr
    intro e he
    rw [Bool.eq_iff_iff, decide_eq_true_iff, decide_eq_true_iff, hL, List.mem_filter, decide_eq_true_iff, nested_center cal hnest]
    exact ⟨fun h => ⟨(mem_periodRange k0 k1 _).mpr ((hrange _).mp ⟨e, he, rfl⟩), h⟩, fun h => h.2⟩
  have esum : ((s.samples.filter (fun e => decide (periodOf cal key e.key = B))).filterMap (·.val c)).sum = (L.map S).sum := by
    rw [e2]
    exact sum_by_months s.samples (fun e => periodOf cal p e.key) L hnd (·.val c)
  have elen : (((s.samples.filter (fun e => decide (periodOf cal key e.key = B))).filterMap (·.val c)).length : K) = n * L.length := by
    rw [e2, length_by_months s.samples (fun e => periodOf cal p e.key) L hnd (·.val c)]
    have : L.map (fun k => (((s.samples.filter (fun e => decide (periodOf cal p e.key = k))).filterMap (·.val c)).length : K)) = L.map (fun _ => (n : K)) :=
      List.map_congr_left fun k hk => by rw [hlen k hk]
    rw [this]
    simp [mul_comm]
  have hnK : (n : K) ≠ 0 := by exact_mod_cast hn0.ne'
  have hnil : (s.samples.filter (fun e => decide (periodOf cal key e.key = B))).filterMap (·.val c) = [] ↔ L = [] := by
    rw [← List.length_eq_zero_iff, ← List.length_eq_zero_iff]
    have : (((s.samples.filter (fun e => decide (periodOf cal key e.key = B))).filterMap (·.val c)).length : K) = ((n * L.length : ℕ) : K) := by
      rw [elen]; push_cast; rfl
    have := Nat.cast_injective this
    rw [this, Nat.mul_eq_zero]
    constructor
    · rintro (h | h)
      · omega
      · exact h
    · exact Or.inr
  unfold nanMean
  rw [e1]
  by_cases hl : L = []
  · rw [if_pos (by rw [hl]; rfl), if_pos (hnil.mpr hl)]
  · rw [if_neg (by simpa using hl), if_neg (fun h => hl (hnil.mp h)), esum, elen, List.length_map]
    congr 1
    have hdiv : (L.map (fun b => S b / n)).sum = (L.map S).sum / n := by
      simp only [div_eq_mul_inv]
      rw [List.sum_map_mul_right]
    rw [hdiv, div_div]

end Verif.Lemmas

namespace Verif.Props
open Model Spec Lemmas
variable {K : Type _} [Field K] [LinearOrder K] [IsStrictOrderedRing K]

/-- C142, months first: the seasonal or yearly averages of monthly averages are the seasonal or yearly averages of the data themselves, whatever the
data, as long as the monthly averages exist (and `xr.infer_freq` does not raise on their time stamps, as it does for fewer than three). Averaging
by month twice is averaging once. -/
theorem C142_month_first (cal : Cal) (infer : InferFreq) (freq : String) (hf : freq = "month" ∨ freq = "season" ∨ freq = "year") (s : Series K)
    (hn : 0 < s.ncell) (m : List (Entry K)) (h : calendarAverage cal infer "month" s = .ok m)
    (hi : ∃ b, infer (m.map (·.key)) = .ok b) :
    calendarAverage cal infer freq (again s m) = calendarAverage cal infer freq s := by
  have hg : GroupFreq "month" Period.month := Or.inr (Or.inr ⟨rfl, rfl⟩)
  obtain ⟨k0, k1, h01, hfull, hm, hd⟩ := simple_shape cal infer "month" .month hg s hn m h
  rw [calendar_eq cal infer "month" .month rfl] at h
  obtain ⟨ht, hu, hne, hs⟩ := calBody_ok cal infer .month s m h
  have hp : simple Period.month := by unfold simple; tauto
  rw [hm] at hi ⊢
  have hu' := months_uniform cal infer s.ncell s.isTime h01 _ hi
  have main : ∀ q, (if q = Period.season ∨ q = .year then .month else q) = Period.month → _ := fun q hq =>
    calBody_again cal infer .month q hp hq s ht hu hne hs h01 _ (fun b b0 b1 c hc => (hfull b).mpr ⟨b0, b1⟩ c hc) hd hu'
  rcases hf with rfl | rfl | rfl
  · rw [calendar_eq cal infer "month" .month rfl, calendar_eq cal infer "month" .month rfl]
    exact main .month rfl
  · rw [calendar_eq cal infer "season" .season rfl, calendar_eq cal infer "season" .season rfl]
    exact main .season rfl
  · rw [calendar_eq cal infer "year" .year rfl, calendar_eq cal infer "year" .year rfl]
    exact main .year rfl

/-- three samples a month for 14 months, one of them missing -/
def thrice : Series ℚ := ⟨1, (List.range 42).map (fun i : ℕ => ⟨864000 * i, fun _ => if i = 4 then none else some (i * i)⟩), true⟩

example : ∃ m, calendarAverage Cal.days360 (fun _ => .ok true) "month" thrice = .ok m ∧
    calendarAverage Cal.days360 (fun _ => .ok true) "year" (again thrice m) = calendarAverage Cal.days360 (fun _ => .ok true) "year" thrice ∧
    (calendarAverage Cal.days360 (fun _ => .ok true) "year" thrice).toOption.isSome := by
  have h0 : (calendarAverage Cal.days360 (fun _ => .ok true) "month" thrice).toOption.isSome := by decide +kernel
  cases h : calendarAverage Cal.days360 (fun _ => .ok true) "month" thrice with
  | error e => rw [h] at h0; cases h0
  | ok m => exact ⟨m, rfl, C142_month_first _ _ "year" (by simp) _ (by decide) m h ⟨true, rfl⟩, by decide +kernel⟩

/-- C142, averaging twice: hourly averages of hourly averages are the hourly averages, and the same for days, provided the first result passes as evenly
spaced (`xr.infer_freq` finds its frequency). -/
theorem C142_repeat (cal : Cal) (infer : InferFreq) (freq : String) (hf : freq = "hour" ∨ freq = "day") (s : Series K)
    (hn : 0 < s.ncell) (m : List (Entry K)) (h : calendarAverage cal infer freq s = .ok m)
    (hi : infer (m.map (·.key)) = .ok true) :
    calendarAverage cal infer freq (again s m) = .ok m := by
  obtain ⟨p, hg, hcal, hp, hps⟩ : ∃ p, GroupFreq freq p ∧ calendarPeriod freq = .ok p ∧ simple p ∧ ¬ (p = .season ∨ p = .year) := by
    rcases hf with rfl | rfl
    · exact ⟨.hour, Or.inl ⟨rfl, rfl⟩, rfl, Or.inl rfl, by decide⟩
    · exact ⟨.day, Or.inr (Or.inl ⟨rfl, rfl⟩), rfl, Or.inr (Or.inl rfl), by decide⟩
  obtain ⟨k0, k1, h01, hfull, hm, hd⟩ := simple_shape cal infer freq p hg s hn m h
  have h' := h
  rw [calendar_eq cal infer freq p hcal] at h'
  obtain ⟨ht, hu, hne, hs⟩ := calBody_ok cal infer p s m h'
  rw [← h, hm]
  rw [hm] at hi
  rw [calendar_eq cal infer freq p hcal, calendar_eq cal infer freq p hcal]
  refine calBody_again cal infer p p hp (if_neg hps) s ht hu hne hs h01 _ (fun b b0 b1 c hc => (hfull b).mpr ⟨b0, b1⟩ c hc) hd ?_
  unfold checkUniform
  have e : (again s (steps cal p k0 k1 fun b c => mean (valuesIn s.samples (fun t => periodOf cal p t = b) c))).samples =
    steps cal p k0 k1 fun b c => mean (valuesIn s.samples (fun t => periodOf cal p t = b) c) := rfl
  simp only [e, hi, bind, Except.bind]
  rfl

theorem rows_at (n : ℕ) (f : ℕ → ℕ) (hf : ∀ c < n, f c = c) (l : List (Entry K)) : rows n (l.map (Entry.at f)) = rows n l := by
  unfold rows
  rw [List.map_map]
  refine List.map_congr_left fun e _ => ?_
  simp only [Function.comp_apply, Entry.at, Prod.mk.injEq, true_and]
  exact List.map_congr_left fun c hc => by rw [hf c (List.mem_range.mp hc)]

theorem sameGaps_self (cal : Cal) (p : Period) (f : ℕ → ℕ) (s : Series K) (hf : ∀ c < s.ncell, f c = c) : SameGaps cal p s.ncell f s := by
  intro e _
  unfold FullPeriod selected
  simp only [valuesIn_at]
  exact ⟨fun h c hc => by rw [hf c hc]; exact h c hc, fun h c hc => by have := h c hc; rwa [hf c hc] at this⟩

/-- C142, where it holds for hours and days: if nothing is missing and every hour (day) of the record has the same number of samples, then the averages by
day, month, season or year of the hourly (daily) averages are those of the data: the same errors or the same time stamps and values in
every cell. Missing: records with missing values or hours (days) filled differently, for which it is false (`C142_counterexample`). -/
theorem C142_steps_partial (cal : Cal) (infer : InferFreq) (freq freq' : String) (p key : Period)
    (hpq : (freq, p, freq', key) ∈ [("hour", Period.hour, "day", Period.day), ("hour", .hour, "month", .month), ("hour", .hour, "season", .month),
      ("hour", .hour, "year", .month), ("day", .day, "month", .month), ("day", .day, "season", .month), ("day", .day, "year", .month)])
    (s : Series K) (hn : 0 < s.ncell) (m : List (Entry K)) (h : calendarAverage cal infer freq s = .ok m)
    (hi : infer (m.map (·.key)) = .ok true) (hall : ∀ e ∈ s.samples, ∀ c < s.ncell, (e.val c).isSome) (n : ℕ)
    (hcount : ∀ e ∈ s.samples, (s.samples.filter (fun e' => decide (periodOf cal p e'.key = periodOf cal p e.key))).length = n) :
    (calendarAverage cal infer freq' (again s m)).map (rows s.ncell) = (calendarAverage cal infer freq' s).map (rows s.ncell) := by
  obtain ⟨hg, hcal, hp, hps, hnest, q, hq, hqk, hm1, hm2⟩ : GroupFreq freq p ∧ calendarPeriod freq = .ok p ∧ simple p ∧ ¬ (p = .season ∨ p = .year) ∧
      Nested p key ∧ ∃ q, calendarPeriod freq' = .ok q ∧ (if q = .season ∨ q = .year then .month else q) = key ∧
      (freq, p) ∈ [("hour", Period.hour), ("day", .day), ("month", .month), ("season", .month), ("year", .month)] ∧
      (freq', key) ∈ [("hour", Period.hour), ("day", .day), ("month", .month), ("season", .month), ("year", .month)] := by
    simp only [List.mem_cons, Prod.mk.injEq, List.not_mem_nil, or_false] at hpq
    rcases hpq with ⟨rfl, rfl, rfl, rfl⟩ | ⟨rfl, rfl, rfl, rfl⟩ | ⟨rfl, rfl, rfl, rfl⟩ | ⟨rfl, rfl, rfl, rfl⟩ | ⟨rfl, rfl, rfl, rfl⟩ |
      ⟨rfl, rfl, rfl, rfl⟩ | ⟨rfl, rfl, rfl, rfl⟩
    · exact ⟨Or.inl ⟨rfl, rfl⟩, rfl, Or.inl rfl, by decide, Or.inl ⟨rfl, Or.inl rfl⟩, .day, rfl, rfl, by simp, by simp⟩
    · exact ⟨Or.inl ⟨rfl, rfl⟩, rfl, Or.inl rfl, by decide, Or.inl ⟨rfl, Or.inr rfl⟩, .month, rfl, rfl, by simp, by simp⟩
    · exact ⟨Or.inl ⟨rfl, rfl⟩, rfl, Or.inl rfl, by decide, Or.inl ⟨rfl, Or.inr rfl⟩, .season, rfl, rfl, by simp, by simp⟩
    · exact ⟨Or.inl ⟨rfl, rfl⟩, rfl, Or.inl rfl, by decide, Or.inl ⟨rfl, Or.inr rfl⟩, .year, rfl, rfl, by simp, by simp⟩
    · exact ⟨Or.inr (Or.inl ⟨rfl, rfl⟩), rfl, Or.inr (Or.inl rfl), by decide, Or.inr ⟨rfl, rfl⟩, .month, rfl, rfl, by simp, by simp⟩
    · exact ⟨Or.inr (Or.inl ⟨rfl, rfl⟩), rfl, Or.inr (Or.inl rfl), by decide, Or.inr ⟨rfl, rfl⟩, .season, rfl, rfl, by simp, by simp⟩
    · exact ⟨Or.inr (Or.inl ⟨rfl, rfl⟩), rfl, Or.inr (Or.inl rfl), by decide, Or.inr ⟨rfl, rfl⟩, .year, rfl, rfl, by simp, by simp⟩
  set f : ℕ → ℕ := fun c => if c < s.ncell then c else 0 with hf
  have hfc : ∀ c < s.ncell, f c = c := fun c hc => by simp [hf, hc]
  have hfl : ∀ c, f c < s.ncell := fun c => by by_cases hc : c < s.ncell <;> simp [hf, hc, hn]
  have h1 : calendarAverage cal infer freq (selected s.ncell f s) = .ok (m.map (Entry.at f)) := by
    rw [C125_calendar_partial cal infer freq p hm1 s s.ncell f hn hn (sameGaps_self cal p f s hfc), h]; rfl
  have e1 : calendarAverage cal infer freq' (selected s.ncell f s) = (calendarAverage cal infer freq' s).map (List.map (Entry.at f)) :=
    C125_calendar_partial cal infer freq' key hm2 s s.ncell f hn hn (sameGaps_self cal key f s hfc)
  have e2 : calendarAverage cal infer freq' (again (selected s.ncell f s) (m.map (Entry.at f))) =
      (calendarAverage cal infer freq' (again s m)).map (List.map (Entry.at f)) :=
    C125_calendar_partial cal infer freq' key hm2 (again s m) s.ncell f hn hn (sameGaps_self cal key f (again s m) hfc)
  have hk : (m.map (Entry.at f)).map (·.key) = m.map (·.key) := by rw [List.map_map]; rfl
  have main : calendarAverage cal infer freq' (again (selected s.ncell f s) (m.map (Entry.at f))) =
      calendarAverage cal infer freq' (selected s.ncell f s) := by
    set s' := selected s.ncell f s with hs'
    have hall' : ∀ e ∈ s'.samples, ∀ c, (e.val c).isSome := by
      intro e he c
      obtain ⟨e0, he0, rfl⟩ := List.mem_map.mp he
      exact hall e0 he0 (f c) (hfl c)
    have hcount' : ∀ e ∈ s'.samples, (s'.samples.filter (fun e' => decide (periodOf cal p e'.key = periodOf cal p e.key))).length = n := by
      intro e he
      obtain ⟨e0, he0, rfl⟩ := List.mem_map.mp he
      have : s'.samples.filter (fun e' => decide (periodOf cal p e'.key = periodOf cal p (Entry.at f e0).key)) =
          (s.samples.filter (fun e' => decide (periodOf cal p e'.key = periodOf cal p e0.key))).map (Entry.at f) :=
        filter_at f (fun t => decide (periodOf cal p t = periodOf cal p e0.key)) s.samples
      rw [this, List.length_map]
      exact hcount e0 he0
    obtain ⟨k0, k1, h01, hfull, hm, -⟩ := simple_shape cal infer freq p hg s' hn _ h1
    rw [calendar_eq cal infer freq p hcal] at h1
    obtain ⟨ht, hu, hne, hs⟩ := calBody_ok cal infer p s' _ h1
    have hrange : ∀ b, (∃ e ∈ s'.samples, periodOf cal p e.key = b) ↔ k0 ≤ b ∧ b ≤ k1 := by
      intro b
      rw [← hfull]
      constructor
      · rintro ⟨e, he, rfl⟩ c hc
        unfold mean
        rw [if_neg]
        · rfl
        · obtain ⟨v, hv⟩ := Option.isSome_iff_exists.mp (hall' e he c)
          apply List.ne_nil_of_mem (a := v)
          unfold valuesIn
          rw [List.mem_filterMap]
          exact ⟨e, List.mem_filter.mpr ⟨he, by simp⟩, hv⟩
      · exact full_sample cal p s' hn b
    have hn0 : 0 < n := by
      obtain ⟨e, he, -⟩ := (hrange k0).mpr ⟨le_rfl, h01⟩
      rw [← hcount' e he]
      exact List.length_pos_of_mem (List.mem_filter.mpr ⟨he, by simp⟩)
    have heven := even_means cal p key hnest s' hne hs hall' n hn0 hcount' h01 hrange
    rw [← hm] at heven
    have hu' : checkUniform cal infer (again s' (m.map (Entry.at f))) = .ok () := by
      unfold checkUniform
      have e : (again s' (m.map (Entry.at f))).samples = m.map (Entry.at f) := rfl
      simp only [e, hk, hi, bind, Except.bind]
      rfl
    have hne' : (again s' (m.map (Entry.at f))).samples ≠ [] := by
      show m.map (Entry.at f) ≠ []
      rw [hm]
      exact steps_ne cal p h01 _
    have hs'' : (again s' (m.map (Entry.at f))).samples.Pairwise (fun a b => a.key ≤ b.key) := by
      show (m.map (Entry.at f)).Pairwise (fun a b => a.key ≤ b.key)
      rw [hm]
      exact steps_sorted cal p hp k0 k1 _
    rw [calendar_eq cal infer freq' q hq, calendar_eq cal infer freq' q hq, calBody_eq cal infer q s' ht hu hne hs _ rfl,
      calBody_eq cal infer q (again s' (m.map (Entry.at f))) ht hu' hne' hs'' _ rfl]
    have e : (again s' (m.map (Entry.at f))).samples = m.map (Entry.at f) := rfl
    have e' : (again s' (m.map (Entry.at f))).ncell = s'.ncell := rfl
    rw [e, e', hqk, heven]
  rw [e1, e2] at main
  have fin := congrArg (fun x => Except.map (rows s.ncell) x) main
  have hr : ∀ x : Except PyErr (List (Entry K)), Except.map (rows s.ncell) (x.map (List.map (Entry.at f))) = x.map (rows s.ncell) := by
    intro x
    cases x with
    | error e => rfl
    | ok l => simp only [Except.map, rows_at s.ncell f hfc]
  simpa only [hr] using fin

/-- half-hourly data of three hours; the second value may be missing -/
def halfHours (x : Option ℚ) : Series ℚ :=
  ⟨1, [⟨0, fun _ => some 0⟩, ⟨1800, fun _ => x⟩, ⟨3600, fun _ => some 6⟩, ⟨5400, fun _ => some 6⟩, ⟨7200, fun _ => some 6⟩, ⟨9000, fun _ => some 6⟩], true⟩

example : ∃ m, calendarAverage Cal.noleap (fun _ => .ok true) "hour" (halfHours (some 6)) = .ok m ∧
    (calendarAverage Cal.noleap (fun _ => .ok true) "day" (again (halfHours (some 6)) m)).map (rows 1) =
      (calendarAverage Cal.noleap (fun _ => .ok true) "day" (halfHours (some 6))).map (rows 1) ∧
    (calendarAverage Cal.noleap (fun _ => .ok true) "day" (halfHours (some 6))).toOption.map (rows 1) = some [(43200, [some 5])] := by
  have h0 : (calendarAverage Cal.noleap (fun _ => .ok true) "hour" (halfHours (some 6))).toOption.isSome := by decide +kernel
  cases h : calendarAverage Cal.noleap (fun _ => .ok true) "hour" (halfHours (some 6)) with
  | error e => rw [h] at h0; cases h0
  | ok m =>
    exact ⟨m, rfl, C142_steps_partial _ _ "hour" "day" .hour .day (by simp) (halfHours (some 6)) (by decide) m h rfl (by decide +kernel) 2 (by decide +kernel),
      by decide +kernel⟩

/-- C142 is false of data with missing values: of three hours of half-hourly data one value is missing; the daily average of the data is 24/5, that of
the hourly averages is 4. -/
theorem C142_counterexample :
    ∃ m, calendarAverage Cal.noleap (fun _ => .ok true) "hour" (halfHours none) = .ok m ∧
      (calendarAverage Cal.noleap (fun _ => .ok true) "day" (again (halfHours none) m)).toOption.map (rows 1) = some [(43200, [some 4])] ∧
      (calendarAverage Cal.noleap (fun _ => .ok true) "day" (halfHours none)).toOption.map (rows 1) = some [(43200, [some (24 / 5)])] := by
  have h0 : (calendarAverage Cal.noleap (fun _ => .ok true) "hour" (halfHours none)).toOption.isSome := by decide +kernel
  cases h : calendarAverage Cal.noleap (fun _ => .ok true) "hour" (halfHours none) with
  | error e => rw [h] at h0; cases h0
  | ok m =>
    have hm : (((calendarAverage Cal.noleap (fun _ => .ok true) "hour" (halfHours none)).toOption.map (fun m =>
        (calendarAverage Cal.noleap (fun _ => .ok true) "day" (again (halfHours none) m)).toOption.map (rows 1)))) = some (some [(43200, [some 4])]) := by
      decide +kernel
    rw [h] at hm
    exact ⟨m, rfl, Option.some.inj hm, by decide +kernel⟩

end Verif.Props
