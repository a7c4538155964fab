import Verif.Props.ClimUnits
import Verif.Props.Refine

/-
Property C197: averages in time and interpolation in space.
-/

set_option linter.unusedSectionVars false

namespace Verif.Spec
variable {K : Type} [Field K] [LinearOrder K]

/-- no value is missing -/
def NoGaps (s : Series K) : Prop := ∀ e ∈ s.samples, ∀ c < s.ncell, ∃ v, e.val c = some v

/-- NaN for a missing value -/
def orNan : Option K → XF K
  | some v => .fin v
  | none => .nan

/-- steps in time as a DataArray with dimensions (time, lat, lon): the values of a step are laid out row by row -/
def asGrid (l : List (Entry K)) (lat lon : List K) : Model.GeoGrid K :=
  { lead := 1, nlat := lat.length, nlon := lon.length, lat := lat, lon := lon,
    get := fun t a b => orNan ((l[t.headD 0]?).bind (fun e => e.val (a * lon.length + b))) }

/-- the DataArray (time, lat, lon) holds the steps `l` -/
def Holds (g : Model.GridArr K) (l : List (Entry K)) : Prop :=
  ∀ (t : ℕ) (e : Entry K), l[t]? = some e → ∀ a < g.nlat, ∀ b < g.nlon, g.get [t] a b = orNan (e.val (a * g.nlon + b))

/-- every point lies between two points of the axis -/
def Within (axis pts : List K) : Prop := ∀ p ∈ pts, (∃ a ∈ axis, a ≤ p) ∧ ∃ b ∈ axis, p ≤ b

/-- Interpolating every step to the points `latOut`, `lonOut` and then calling `A` (an average in time) gives the same as calling `A` and interpolating its
result: the same errors, the same times, the same values. `s` are the data on the grid `lat`, `lon`, `s'` the interpolated data as a series. -/
def EitherOrder (A : Series K → Except PyErr (List (Entry K))) (s : Series K) (lat lon latOut lonOut : List K) (fill : Option (XF K)) : Prop :=
  ∃ fine, Model.interpMultidim (.xr (asGrid s.samples lat lon)) latOut lonOut false none .linear fill = .ok (.dataArray, fine) ∧
    ∀ s' : Series K, s'.ncell = latOut.length * lonOut.length → s'.isTime = s.isTime → s'.samples.map (·.key) = s.samples.map (·.key) →
      Holds fine.toGridArr s'.samples →
      (∀ e, A s = .error e → A s' = .error e) ∧
      ∀ out, A s = .ok out → ∃ out' fine', A s' = .ok out' ∧ out'.map (·.key) = out.map (·.key) ∧
        Model.interpMultidim (.xr (asGrid out lat lon)) latOut lonOut false none .linear fill = .ok (.dataArray, fine') ∧ Holds fine'.toGridArr out'

end Verif.Spec

namespace Verif.Props
open Model Spec Lemmas
variable {K : Type} [Field K] [LinearOrder K] [IsStrictOrderedRing K]

/-! ### two fields averaged together -/

/-- what is used of an average in time: cells do not influence each other, and linear relations between cells are kept -/
structure TimeMean (A : Series K → Except PyErr (List (Entry K))) : Prop where
  sel : ∀ (s : Series K) (m : ℕ) (f : ℕ → ℕ), 0 < s.ncell → 0 < m → NoGaps s → (∀ c < m, f c < s.ncell) →
    A (selected m f s) = (A s).map (List.map (Entry.at f))
  rel : ∀ {ι : Type} [Nonempty ι] (s : Series K) (cells : ι → ℕ), (∀ i, cells i < s.ncell) → ∀ C : Submodule K (ι → K),
    (∀ e ∈ s.samples, Together cells (C : Set (ι → K)) e.val) → ∀ out, A s = .ok out → ∀ o ∈ out, Together cells (C : Set (ι → K)) o.val

theorem full_of_noGaps (cal : Cal) (p : Period) (s : Series K) (h : NoGaps s) (e : Entry K) (he : e ∈ s.samples) : FullPeriod cal p s (periodOf cal p e.key) := by
  intro c hc
  obtain ⟨v, hv⟩ := h e he c hc
  have hm : v ∈ valuesIn s.samples (fun t => periodOf cal p t = periodOf cal p e.key) c := by
    simp only [valuesIn, List.mem_filterMap, List.mem_filter, decide_eq_true_eq]
    exact ⟨e, ⟨he, rfl⟩, hv⟩
  unfold mean
  rw [if_neg (List.ne_nil_of_mem hm)]
  rfl

theorem sameGaps_of_noGaps (cal : Cal) (p : Period) (m : ℕ) (f : ℕ → ℕ) (s : Series K) (h : NoGaps s) (hf : ∀ c < m, f c < s.ncell) : SameGaps cal p m f s := by
  intro e he
  have h' : NoGaps (selected m f s) := by
    intro e' he' c hc
    simp only [selected, List.mem_map] at he'
    obtain ⟨d, hd, rfl⟩ := he'
    exact h d hd (f c) (hf c hc)
  refine iff_of_true (full_of_noGaps cal p s h e he) ?_
  exact full_of_noGaps cal p _ h' (Entry.at f e) (List.mem_map.mpr ⟨e, he, rfl⟩)

theorem calendar_timeMean (cal : Cal) (infer : InferFreq) (freq : String) : TimeMean (K := K) (calendarAverage cal infer freq) where
  sel := fun s m f hn hm hg hf => by
    have key : ∀ p, (freq, p) ∈ [("hour", Period.hour), ("day", .day), ("month", .month), ("season", .month), ("year", .month)] →
        calendarAverage cal infer freq (selected m f s) = (calendarAverage cal infer freq s).map (List.map (Entry.at f)) :=
      fun p hp => C125_calendar_partial cal infer freq p hp s m f hn hm (sameGaps_of_noGaps cal p m f s hg hf)
    by_cases h1 : freq = "hour"
    · exact key .hour (by simp [h1])
    by_cases h2 : freq = "day"
    · exact key .day (by simp [h2])
    by_cases h3 : freq = "month"
    · exact key .month (by simp [h3])
    by_cases h4 : freq = "season"
    · exact key .month (by simp [h4])
    by_cases h5 : freq = "year"
    · exact key .month (by simp [h5])
    have hp : calendarPeriod freq = .error .valueError := by
      unfold calendarPeriod
      split <;> first | contradiction | rfl
    unfold calendarAverage
    rw [hp]
    rfl
  rel := fun {_ _} s cells hc C h out ho => C133_calendar cal infer freq s cells hc _ C.convex h out ho

theorem anomaly_timeMean (cal : Cal) (infer : InferFreq) (freq : String) : TimeMean (K := K) (climateAnomaly cal infer freq) where
  sel := fun s m f hn hm hg hf => C125_anomaly_partial cal infer freq s m f hn hm (sameGaps_of_noGaps cal .month m f s hg hf)
  rel := fun {_ _} s cells hc C h out ho => C133_anomaly cal infer freq s cells hc C h out ho

theorem monthToSeason_timeMean (cal : Cal) (season : String) : TimeMean (K := K) (monthToSeason cal season) where
  sel := fun s m f _ _ _ _ => C125_month_to_season cal season s m f
  rel := fun {_ _} s cells _ C h out ho => C133_month_to_season cal season s cells _ C.convex h out ho

/-- the steps of a climatology, with their times if they have any -/
def climSteps : ClimOut K → List (Entry K)
  | .times l => l
  | .seasons l => l.map (fun x => ⟨0, x.2⟩)

theorem climSteps_at (f : ℕ → ℕ) (o : ClimOut K) : climSteps (selectedOut f o) = (climSteps o).map (Entry.at f) := by
  cases o with
  | times l => rfl
  | seasons l =>
    simp only [climSteps, selectedOut, List.map_map]
    rfl

theorem climatology_timeMean (cal : Cal) (infer : InferFreq) (freq : String) (custom : List String) :
    TimeMean (K := K) (fun s => (climatologyAverage cal infer freq custom s).map climSteps) where
  sel := fun s m f hn hm hg hf => by
    have : climatologyAverage cal infer freq custom (selected m f s) = (climatologyAverage cal infer freq custom s).map (selectedOut f) := by
      by_cases h : freq = "season"
      · subst h
        exact C125_season_partial cal infer custom s m f hn hm (sameGaps_of_noGaps cal .month m f s hg hf)
      · exact C125_climatology cal infer freq h custom s m f
    show Except.map climSteps _ = Except.map _ (Except.map climSteps _)
    rw [this]
    cases climatologyAverage cal infer freq custom s with
    | error e => rfl
    | ok o => exact congrArg Except.ok (climSteps_at f o)
  rel := fun {_ _} s cells hc C h out ho o hmem => by
    cases hq : climatologyAverage cal infer freq custom s with
    | error e =>
      simp only [hq, Except.map] at ho
      cases ho
    | ok q =>
      simp only [hq, Except.map] at ho
      injection ho with ho
      subst ho
      rcases climatology_freq cal infer freq custom s _ hq with ⟨p, hp⟩ | rfl
      · obtain ⟨l, rfl, hv⟩ := C133_climatology cal infer freq p hp custom s cells _ C.convex h _ hq
        exact hv o hmem
      · obtain ⟨l, rfl, hv⟩ := C133_season cal infer custom s cells hc _ C.convex h _ hq
        obtain ⟨l', hl', -, hw⟩ := C91_weighted cal infer custom s (lt_of_le_of_lt (Nat.zero_le _) (hc (Classical.arbitrary _))) _ hq
        injection hl' with hl'
        subst hl'
        simp only [climSteps, List.mem_map] at hmem
        obtain ⟨x, hx, rfl⟩ := hmem
        obtain ⟨months, hmo, -⟩ := hw x hx
        obtain ⟨v, hv1, hv2⟩ := hv x hx months hmo (Or.inl C.zero_mem)
        exact Or.inr ⟨v, hv1, hv2⟩

/-- cells of the first field, then cells of the second; then what lies outside, alternating -/
def bothVal (n n' : ℕ) (v v' : ℕ → Option K) (c : ℕ) : Option K :=
  if c < n then v c else if c < n + n' then v' (c - n) else if (c - (n + n')) % 2 = 0 then v (n + (c - (n + n')) / 2) else v' (n' + (c - (n + n')) / 2)

def fstCell (n n' c : ℕ) : ℕ := if c < n then c else n + n' + 2 * (c - n)
def sndCell (n n' c : ℕ) : ℕ := if c < n' then n + c else n + n' + (2 * (c - n') + 1)

theorem bothVal_fst (n n' : ℕ) (v v' : ℕ → Option K) (c : ℕ) : bothVal n n' v v' (fstCell n n' c) = v c := by
  unfold bothVal fstCell
  by_cases h : c < n
  · rw [if_pos h, if_pos h]
  · rw [if_neg h, if_neg (by omega), if_neg (by omega), if_pos (by omega)]
    congr 1
    omega

theorem bothVal_snd (n n' : ℕ) (v v' : ℕ → Option K) (c : ℕ) : bothVal n n' v v' (sndCell n n' c) = v' c := by
  unfold bothVal sndCell
  by_cases h : c < n'
  · rw [if_pos h, if_neg (by omega), if_pos (by omega)]
    congr 1
    omega
  · rw [if_neg h, if_neg (by omega), if_neg (by omega), if_neg (by omega)]
    congr 1
    omega

/-- both fields in one Dataset -/
def bothFields (s s' : Series K) : Series K :=
  ⟨s.ncell + s'.ncell, List.zipWith (fun e e' => ⟨e.key, bothVal s.ncell s'.ncell e.val e'.val⟩) s.samples s'.samples, s.isTime⟩

theorem zip_fst (n n' : ℕ) : ∀ l l' : List (Entry K), l'.map (·.key) = l.map (·.key) →
    (List.zipWith (fun e e' => (⟨e.key, bothVal n n' e.val e'.val⟩ : Entry K)) l l').map (Entry.at (fstCell n n')) = l ∧
    (List.zipWith (fun e e' => (⟨e.key, bothVal n n' e.val e'.val⟩ : Entry K)) l l').map (Entry.at (sndCell n n')) = l'
  | [], [], _ => ⟨rfl, rfl⟩
  | [], _ :: _, h => by simp at h
  | _ :: _, [], h => by simp at h
  | e :: l, e' :: l', h => by
    simp only [List.map_cons, List.cons.injEq] at h
    obtain ⟨h1, h2⟩ := zip_fst n n' l l' h.2
    simp only [List.zipWith_cons_cons, List.map_cons]
    rw [h1, h2]
    constructor
    · congr 1
      cases e
      simp only [Entry.at, Entry.mk.injEq, true_and]
      exact funext fun c => bothVal_fst _ _ _ _ c
    · congr 1
      cases e'
      simp only [Entry.at, Entry.mk.injEq]
      exact ⟨h.1.symm, funext fun c => bothVal_snd _ _ _ _ c⟩

theorem select_fst (s s' : Series K) (hk : s'.samples.map (·.key) = s.samples.map (·.key)) :
    selected s.ncell (fstCell s.ncell s'.ncell) (bothFields s s') = s := by
  unfold selected bothFields
  rw [(zip_fst s.ncell s'.ncell _ _ hk).1]

theorem select_snd (s s' : Series K) (hk : s'.samples.map (·.key) = s.samples.map (·.key)) (ht : s'.isTime = s.isTime) :
    selected s'.ncell (sndCell s.ncell s'.ncell) (bothFields s s') = s' := by
  unfold selected bothFields
  rw [(zip_fst s.ncell s'.ncell _ _ hk).2, ← ht]

theorem both_noGaps (s s' : Series K) (h : NoGaps s) (h' : NoGaps s') : NoGaps (bothFields s s') := by
  intro e he c hc
  obtain ⟨i, hi⟩ := List.mem_iff_getElem?.mp he
  simp only [bothFields, List.getElem?_zipWith] at hi
  cases h1 : s.samples[i]? with
  | none => rw [h1] at hi; simp at hi
  | some a =>
    cases h2 : s'.samples[i]? with
    | none => rw [h1, h2] at hi; simp at hi
    | some b =>
      rw [h1, h2] at hi
      obtain rfl := Option.some.inj hi
      simp only [bothFields] at hc
      simp only [bothVal]
      by_cases hcn : c < s.ncell
      · rw [if_pos hcn]
        exact h a (List.mem_of_getElem? h1) c hcn
      · rw [if_neg hcn, if_pos hc]
        exact h' b (List.mem_of_getElem? h2) _ (by omega)

/-- four cells of one field and one of another: what holds between their values holds between their averages -/
theorem mean_relation {A : Series K → Except PyErr (List (Entry K))} (hA : TimeMean A) (s s' : Series K) (hn : 0 < s.ncell) (hn' : 0 < s'.ncell)
    (hg : NoGaps s) (hg' : NoGaps s') (hk : s'.samples.map (·.key) = s.samples.map (·.key)) (ht : s'.isTime = s.isTime) :
    (∀ e, A s = .error e → A s' = .error e) ∧ ∀ out, A s = .ok out → ∃ out', A s' = .ok out' ∧ out'.map (·.key) = out.map (·.key) ∧
      ∀ (cells : Fin 4 → ℕ) (c' : ℕ), (∀ i, cells i < s.ncell) → c' < s'.ncell → ∀ C : Submodule K (Fin 5 → K),
        (∀ (i : ℕ) (e e' : Entry K), s.samples[i]? = some e → s'.samples[i]? = some e' →
          ∃ v ∈ C, (∀ k : Fin 4, e.val (cells k) = some (v k.castSucc)) ∧ e'.val c' = some (v 4)) →
        ∀ (i : ℕ) (o o' : Entry K), out[i]? = some o → out'[i]? = some o' →
          ((∀ k, o.val (cells k) = none) ∧ o'.val c' = none) ∨ ∃ v ∈ C, (∀ k : Fin 4, o.val (cells k) = some (v k.castSucc)) ∧ o'.val c' = some (v 4) := by
  have hB : 0 < (bothFields s s').ncell := by simp only [bothFields]; omega
  have hgB := both_noGaps s s' hg hg'
  have e1 := hA.sel (bothFields s s') s.ncell (fstCell s.ncell s'.ncell) hB hn hgB
    (fun c hc => by simp only [fstCell, if_pos hc, bothFields]; omega)
  have e2 := hA.sel (bothFields s s') s'.ncell (sndCell s.ncell s'.ncell) hB hn' hgB
    (fun c hc => by simp only [sndCell, if_pos hc, bothFields]; omega)
  rw [select_fst s s' hk] at e1
  rw [select_snd s s' hk ht] at e2
  cases hq : A (bothFields s s') with
  | error e =>
    rw [hq] at e1 e2
    rw [e1, e2]
    exact ⟨fun _ h => h, fun _ h => (nomatch h)⟩
  | ok q =>
    rw [hq] at e1 e2
    rw [e1, e2]
    refine ⟨fun _ h => (nomatch h), fun out ho => ?_⟩
    injection ho with ho
    subst ho
    refine ⟨_, rfl, by simp only [List.map_map]; rfl, fun cells c' hc hc' C hv i o o' hi hi' => ?_⟩
    simp only [List.getElem?_map, Option.map_eq_some_iff] at hi hi'
    obtain ⟨b, hb, rfl⟩ := hi
    obtain ⟨b', hb', rfl⟩ := hi'
    rw [hb] at hb'
    obtain rfl := Option.some.inj hb'
    have hT := hA.rel (bothFields s s') (Fin.snoc (α := fun _ => ℕ) (fun k => fstCell s.ncell s'.ncell (cells k)) (sndCell s.ncell s'.ncell c'))
      (fun k => by
        refine Fin.lastCases ?_ (fun k => ?_) k
        · simp only [Fin.snoc_last, sndCell, if_pos hc', bothFields]; omega
        · simp only [Fin.snoc_castSucc, fstCell, if_pos (hc k), bothFields]; have := hc k; omega)
      C (fun e he => by
        obtain ⟨i, hi⟩ := List.mem_iff_getElem?.mp he
        simp only [bothFields, List.getElem?_zipWith] at hi
        cases h1 : s.samples[i]? with
        | none => rw [h1] at hi; simp at hi
        | some a =>
          cases h2 : s'.samples[i]? with
          | none => rw [h1, h2] at hi; simp at hi
          | some d =>
            rw [h1, h2] at hi
            obtain rfl := Option.some.inj hi
            obtain ⟨v, hvC, hv1, hv2⟩ := hv i a d h1 h2
            refine Or.inr ⟨v, hvC, fun k => ?_⟩
            refine Fin.lastCases ?_ (fun k => ?_) k
            · simp only [Fin.snoc_last, bothVal_snd]
              exact hv2
            · simp only [Fin.snoc_castSucc, bothVal_fst]
              exact hv1 k)
      q hq b (List.mem_of_getElem? hb)
    rcases hT with hT | ⟨v, hvC, hT⟩
    · refine Or.inl ⟨fun k => ?_, ?_⟩
      · have := hT k.castSucc
        simp only [Fin.snoc_castSucc] at this
        exact this
      · have := hT (Fin.last 4)
        simp only [Fin.snoc_last] at this
        exact this
    · refine Or.inr ⟨v, hvC, fun k => ?_, ?_⟩
      · have := hT k.castSucc
        simp only [Fin.snoc_castSucc] at this
        exact this
      · have := hT (Fin.last 4)
        simp only [Fin.snoc_last] at this
        exact this

/-! ### interpolation -/

theorem inc_getD {l : List K} (h : l.Pairwise (· < ·)) : IncAxis l.length (fun i => l.getD i 0) := by
  intro i j hij hj
  simp only [List.getD_eq_getElem?_getD, List.getElem?_eq_getElem hj, List.getElem?_eq_getElem (hij.trans hj), Option.getD_some]
  exact List.pairwise_iff_getElem.mp h i j _ hj hij

theorem column_getD (l : List K) : l = column l.length (fun i => l.getD i 0) := by
  apply List.ext_getElem
  · simp [column]
  · intro i h1 h2
    simp [column, List.getD_eq_getElem?_getD, List.getElem?_eq_getElem h1]

theorem asGrid_onAxes (l : List (Entry K)) (lat lon : List K) (hlat : lat.Pairwise (· < ·)) (hlon : lon.Pairwise (· < ·)) (h2 : 2 ≤ lat.length)
    (h2' : 2 ≤ lon.length) : OnAxes (asGrid l lat lon) (fun i => lat.getD i 0) (fun i => lon.getD i 0) :=
  ⟨column_getD lat, column_getD lon, inc_getD hlat, inc_getD hlon, h2, by show 1 ≤ lon.length; omega⟩

/-- the cell of an axis in which a point lies -/
theorem within_cell (axis pts : List K) (h : axis.Pairwise (· < ·)) (h2 : 2 ≤ axis.length) (hw : Within axis pts) (p : K) (hp : p ∈ pts) :
    ∃ k, k + 1 < axis.length ∧ (axis.getD k 0 < p ∨ k = 0 ∧ axis.getD 0 0 ≤ p) ∧ p ≤ axis.getD (k + 1) 0 := by
  obtain ⟨⟨a, ha, hap⟩, b, hb, hpb⟩ := hw p hp
  have hinc := inc_getD h
  have get : ∀ c ∈ axis, ∃ i < axis.length, axis.getD i 0 = c := by
    intro c hc
    obtain ⟨i, hi, e⟩ := List.mem_iff_getElem.mp hc
    exact ⟨i, hi, by simp [List.getD_eq_getElem?_getD, List.getElem?_eq_getElem hi, e]⟩
  obtain ⟨i, hi, ei⟩ := get a ha
  obtain ⟨j, hj, ej⟩ := get b hb
  refine exists_cell axis.length h2 (fun i => axis.getD i 0) hinc p ?_ ?_
  · have : axis.getD 0 0 ≤ axis.getD i 0 := axis_le hinc (Nat.zero_le i) hi
    rw [ei] at this
    exact this.trans hap
  · have : axis.getD j 0 ≤ axis.getD (axis.length - 1) 0 := axis_le hinc (show j ≤ axis.length - 1 by omega) (by omega)
    rw [ej] at this
    exact hpb.trans this

/-- the value at a point, from the four corners of a cell in which it lies -/
theorem asGrid_value (l : List (Entry K)) (lat lon : List K) (hlat : lat.Pairwise (· < ·)) (hlon : lon.Pairwise (· < ·)) (h2 : 2 ≤ lat.length)
    (h2' : 2 ≤ lon.length) (latOut lonOut : List K) (fill : Option (XF K)) :
    ∃ fine, interpMultidim (.xr (asGrid l lat lon)) latOut lonOut false none .linear fill = .ok (.dataArray, fine) ∧
      fine.nlat = latOut.length ∧ fine.nlon = lonOut.length ∧
      ∀ (t : ℕ) (e : Entry K), l[t]? = some e → ∀ (i j : ℕ) (p q : K), latOut[i]? = some p → lonOut[j]? = some q → ∀ k m : ℕ,
        k + 1 < lat.length → (lat.getD k 0 < p ∨ k = 0 ∧ lat.getD 0 0 ≤ p) → p ≤ lat.getD (k + 1) 0 →
        m + 1 < lon.length → (lon.getD m 0 < q ∨ m = 0 ∧ lon.getD 0 0 ≤ q) → q ≤ lon.getD (m + 1) 0 →
        fine.get [t] i j = seg (lat.getD k 0) (lat.getD (k + 1) 0)
          (seg (lon.getD m 0) (lon.getD (m + 1) 0) (orNan (e.val (k * lon.length + m))) (orNan (e.val (k * lon.length + (m + 1)))) q)
          (seg (lon.getD m 0) (lon.getD (m + 1) 0) (orNan (e.val ((k + 1) * lon.length + m))) (orNan (e.val ((k + 1) * lon.length + (m + 1)))) q) p := by
  have h := asGrid_onAxes l lat lon hlat hlon h2 h2'
  obtain ⟨fine, e1, -, -, e2, e3, -, e4⟩ := plain_eq _ _ _ h latOut lonOut none .linear fill
  refine ⟨fine, e1, e2, e3, fun t e he i j p q hp hq k m hk hk1 hk2 hm hm1 hm2 => ?_⟩
  rw [e4 [t] i j p q hp hq]
  have hrow : ∀ r, rowAt .linear fill (asGrid l lat lon).nlon (fun i => lon.getD i 0) (fun r c => maskVal none ((asGrid l lat lon).get [t] r c)) q r =
      seg (lon.getD m 0) (lon.getD (m + 1) 0) (orNan (e.val (r * lon.length + m))) (orNan (e.val (r * lon.length + (m + 1)))) q := by
    intro r
    unfold rowAt
    rw [interpAxis_cell fill _ (fun i => lon.getD i 0) _ h.incLon q m hm hm1 hm2]
    simp only [maskVal, asGrid, List.headD_cons, he, Option.bind_some]
  rw [interpAxis_cell fill _ (fun i => lat.getD i 0) _ h.incLat p k hk hk1 hk2, hrow, hrow]
  rfl

/-- the bilinear relation between four values and a fifth -/
def bilinearSpace (a b : K) : Submodule K (Fin 5 → K) where
  carrier := {v | v 4 = bilinear (v 0) (v 1) (v 2) (v 3) a b}
  zero_mem' := by simp [bilinear]
  add_mem' := by
    intro v w hv hw
    simp only [Set.mem_ofPred_eq, Pi.add_apply, bilinear] at *
    rw [hv, hw]; ring
  smul_mem' := by
    intro r v hv
    simp only [Set.mem_ofPred_eq, Pi.smul_apply, smul_eq_mul, bilinear] at *
    rw [hv]; ring

theorem seg_bilinear (y0 y1 x0 x1 p q : K) (hy : y0 < y1) (hx : x0 < x1) (v : Fin 4 → K) :
    seg y0 y1 (seg x0 x1 (.fin (v 0)) (.fin (v 1)) q) (seg x0 x1 (.fin (v 2)) (.fin (v 3)) q) p =
      .fin (bilinear (v 0) (v 1) (v 2) (v 3) ((p - y0) / (y1 - y0)) ((q - x0) / (x1 - x0))) := by
  rw [seg_fin _ _ _ _ _ hx, seg_fin _ _ _ _ _ hx, seg_fin _ _ _ _ _ hy]
  rfl

theorem orNan_fin {a : Option K} {v : K} (h : orNan a = .fin v) : a = some v := by
  cases a with
  | none => cases h
  | some w => injection h with h; rw [h]

theorem either_order {A : Series K → Except PyErr (List (Entry K))} (hA : TimeMean A) (s : Series K) (lat lon latOut lonOut : List K) (fill : Option (XF K))
    (hlat : lat.Pairwise (· < ·)) (hlon : lon.Pairwise (· < ·)) (h2 : 2 ≤ lat.length) (h2' : 2 ≤ lon.length) (hn : s.ncell = lat.length * lon.length)
    (hg : NoGaps s) (hw : Within lat latOut) (hw' : Within lon lonOut) (ho : latOut ≠ []) (ho' : lonOut ≠ []) :
    EitherOrder A s lat lon latOut lonOut fill := by
  obtain ⟨fine, f1, f2, f3, f4⟩ := asGrid_value s.samples lat lon hlat hlon h2 h2' latOut lonOut fill
  refine ⟨fine, f1, fun s' hn' ht hk hh => ?_⟩
  have hpos : 0 < lonOut.length := List.length_pos_iff.mpr ho'
  have hpos' : 0 < latOut.length := List.length_pos_iff.mpr ho
  -- the four corners and the value at one output point
  have corner : ∀ k m : ℕ, k + 1 < lat.length → m + 1 < lon.length →
      ∀ i : Fin 4, (![k * lon.length + m, k * lon.length + (m + 1), (k + 1) * lon.length + m, (k + 1) * lon.length + (m + 1)] : Fin 4 → ℕ) i < s.ncell := by
    intro k m hk hm i
    rw [hn]
    have h1 : (k + 1 + 1) * lon.length ≤ lat.length * lon.length := Nat.mul_le_mul_right _ (by omega)
    have h3 : (k + 1 + 1) * lon.length = k * lon.length + lon.length + lon.length := by ring
    have h4 : (k + 1) * lon.length = k * lon.length + lon.length := by ring
    fin_cases i <;> simp <;> omega
  have relation : ∀ (i j : ℕ) (p q : K), latOut[i]? = some p → lonOut[j]? = some q → i < latOut.length → j < lonOut.length → ∀ k m : ℕ,
      k + 1 < lat.length → (lat.getD k 0 < p ∨ k = 0 ∧ lat.getD 0 0 ≤ p) → p ≤ lat.getD (k + 1) 0 →
      m + 1 < lon.length → (lon.getD m 0 < q ∨ m = 0 ∧ lon.getD 0 0 ≤ q) → q ≤ lon.getD (m + 1) 0 →
      ∀ (t : ℕ) (e e' : Entry K), s.samples[t]? = some e → s'.samples[t]? = some e' →
        ∃ v ∈ bilinearSpace ((p - lat.getD k 0) / (lat.getD (k + 1) 0 - lat.getD k 0)) ((q - lon.getD m 0) / (lon.getD (m + 1) 0 - lon.getD m 0)),
          (∀ c : Fin 4, e.val ((![k * lon.length + m, k * lon.length + (m + 1), (k + 1) * lon.length + m, (k + 1) * lon.length + (m + 1)] : Fin 4 → ℕ) c) =
            some (v c.castSucc)) ∧ e'.val (i * lonOut.length + j) = some (v 4) := by
    intro i j p q hp hq hi hj k m hk hk1 hk2 hm hm1 hm2 t e e' he he'
    have hval := f4 t e he i j p q hp hq k m hk hk1 hk2 hm hm1 hm2
    choose v hv using fun c : Fin 4 => hg e (List.mem_of_getElem? he) _ (corner k m hk hm c)
    have v0 := hv 0
    have v1 := hv 1
    have v2 := hv 2
    have v3 := hv 3
    simp only [Matrix.cons_val_zero, Matrix.cons_val_one, Matrix.cons_val] at v0 v1 v2 v3
    rw [v0, v1, v2, v3] at hval
    have hsb := seg_bilinear _ _ _ _ p q (inc_getD hlat k (k + 1) (by omega) hk) (inc_getD hlon m (m + 1) (by omega) hm) v
    simp only [orNan] at hval hsb
    rw [hsb, hh t e' he' i (by rw [f2]; exact hi) j (by rw [f3]; exact hj), f3] at hval
    refine ⟨Fin.snoc (α := fun _ => K) v (bilinear (v 0) (v 1) (v 2) (v 3) ((p - lat.getD k 0) / (lat.getD (k + 1) 0 - lat.getD k 0))
      ((q - lon.getD m 0) / (lon.getD (m + 1) 0 - lon.getD m 0))), ?_, fun c => ?_, ?_⟩
    · show Fin.snoc (α := fun _ => K) v _ (Fin.last 4) = bilinear (Fin.snoc (α := fun _ => K) v _ (Fin.castSucc 0)) (Fin.snoc (α := fun _ => K) v _ (Fin.castSucc 1))
        (Fin.snoc (α := fun _ => K) v _ (Fin.castSucc 2)) (Fin.snoc (α := fun _ => K) v _ (Fin.castSucc 3)) _ _
      simp only [Fin.snoc_last, Fin.snoc_castSucc]
    · rw [Fin.snoc_castSucc]
      exact hv c
    · rw [show (4 : Fin 5) = Fin.last 4 from rfl, Fin.snoc_last]
      exact orNan_fin hval
  have hg' : NoGaps s' := by
    intro e' he' c hc
    rw [hn'] at hc
    obtain ⟨t, ht'⟩ := List.mem_iff_getElem?.mp he'
    have hj : c % lonOut.length < lonOut.length := Nat.mod_lt _ hpos
    have hi : c / lonOut.length < latOut.length := by
      rw [Nat.div_lt_iff_lt_mul hpos]
      exact hc
    have hs : ∃ e, s.samples[t]? = some e := by
      have hl : s'.samples.length = s.samples.length := by simpa using congrArg List.length hk
      obtain ⟨hlt, -⟩ := List.getElem?_eq_some_iff.mp ht'
      exact ⟨_, List.getElem?_eq_getElem (hl ▸ hlt)⟩
    obtain ⟨e, he⟩ := hs
    obtain ⟨k, hk0, hk1, hk2⟩ := within_cell lat latOut hlat h2 hw _ (List.getElem_mem hi)
    obtain ⟨m, hm0, hm1, hm2⟩ := within_cell lon lonOut hlon h2' hw' _ (List.getElem_mem hj)
    obtain ⟨v, -, -, hv⟩ := relation _ _ _ _ (List.getElem?_eq_getElem hi) (List.getElem?_eq_getElem hj) hi hj k m hk0 hk1 hk2 hm0 hm1 hm2 t e e' he ht'
    rw [Nat.div_add_mod'] at hv
    exact ⟨_, hv⟩
  have hnpos : 0 < s.ncell := by rw [hn]; exact Nat.mul_pos (by omega) (by omega)
  have hnpos' : 0 < s'.ncell := by rw [hn']; exact Nat.mul_pos hpos' hpos
  obtain ⟨herr, hok⟩ := mean_relation hA s s' hnpos hnpos' hg hg' hk ht
  refine ⟨herr, fun out hout => ?_⟩
  obtain ⟨out', o1, o2, o3⟩ := hok out hout
  obtain ⟨fine', g1, g2, g3, g4⟩ := asGrid_value out lat lon hlat hlon h2 h2' latOut lonOut fill
  refine ⟨out', fine', o1, o2, g1, fun t o' ho1 i hi j hj => ?_⟩
  rw [g2] at hi
  rw [g3] at hj ⊢
  have hs : ∃ o, out[t]? = some o := by
    have hl : out'.length = out.length := by simpa using congrArg List.length o2
    obtain ⟨hlt, -⟩ := List.getElem?_eq_some_iff.mp ho1
    exact ⟨_, List.getElem?_eq_getElem (hl ▸ hlt)⟩
  obtain ⟨o, ho2⟩ := hs
  obtain ⟨k, hk0, hk1, hk2⟩ := within_cell lat latOut hlat h2 hw _ (List.getElem_mem hi)
  obtain ⟨m, hm0, hm1, hm2⟩ := within_cell lon lonOut hlon h2' hw' _ (List.getElem_mem hj)
  have hc' : i * lonOut.length + j < s'.ncell := by
    rw [hn']
    have : (i + 1) * lonOut.length ≤ latOut.length * lonOut.length := Nat.mul_le_mul_right _ (by omega)
    have e : (i + 1) * lonOut.length = i * lonOut.length + lonOut.length := by ring
    omega
  rw [g4 t o ho2 i j _ _ (List.getElem?_eq_getElem hi) (List.getElem?_eq_getElem hj) k m hk0 hk1 hk2 hm0 hm1 hm2]
  rcases o3 _ (i * lonOut.length + j) (corner k m hk0 hm0) hc' _
    (relation i j _ _ (List.getElem?_eq_getElem hi) (List.getElem?_eq_getElem hj) hi hj k m hk0 hk1 hk2 hm0 hm1 hm2) t o o' ho2 ho1 with ⟨hv, hv'⟩ | ⟨v, hvC, hv, hv'⟩
  · have v0 := hv 0
    have v2 := hv 2
    simp only [Matrix.cons_val_zero, Matrix.cons_val] at v0 v2
    rw [v0, v2, hv']
    exact seg_nan _ _ _ _ _ (Or.inl (seg_nan _ _ _ _ _ (Or.inl rfl)))
  · have v0 := hv 0
    have v1 := hv 1
    have v2 := hv 2
    have v3 := hv 3
    simp only [Matrix.cons_val_zero, Matrix.cons_val_one, Matrix.cons_val] at v0 v1 v2 v3
    rw [v0, v1, v2, v3, hv']
    have hsb := seg_bilinear _ _ _ _ (latOut[i]) (lonOut[j]) (inc_getD hlat k (k + 1) (by omega) hk0) (inc_getD hlon m (m + 1) (by omega) hm0)
      (fun c : Fin 4 => v c.castSucc)
    simp only [orNan]
    refine hsb.trans ?_
    congr 1
    exact (show v 4 = _ from hvC).symm

/-! ### C197 -/

section
variable (s : Series K) (lat lon latOut lonOut : List K) (fill : Option (XF K)) (hlat : lat.Pairwise (· < ·)) (hlon : lon.Pairwise (· < ·))
  (h2 : 2 ≤ lat.length) (h2' : 2 ≤ lon.length) (hn : s.ncell = lat.length * lon.length) (hg : NoGaps s) (hw : Within lat latOut) (hw' : Within lon lonOut)
  (ho : latOut ≠ []) (ho' : lonOut ≠ [])
include hlat hlon h2 h2' hn hg hw hw' ho ho'

/-- **C197**, `calendar_average`: of data without gaps, interpolated to points within the grid. -/
theorem C197_calendar (cal : Cal) (infer : InferFreq) (freq : String) : EitherOrder (calendarAverage cal infer freq) s lat lon latOut lonOut fill :=
  either_order (calendar_timeMean cal infer freq) s lat lon latOut lonOut fill hlat hlon h2 h2' hn hg hw hw' ho ho'

/-- **C197**, `climatology_average`, with hourly, daily, monthly and seasonal climatologies. -/
theorem C197_climatology (cal : Cal) (infer : InferFreq) (freq : String) (custom : List String) :
    EitherOrder (fun s => (climatologyAverage cal infer freq custom s).map climSteps) s lat lon latOut lonOut fill :=
  either_order (climatology_timeMean cal infer freq custom) s lat lon latOut lonOut fill hlat hlon h2 h2' hn hg hw hw' ho ho'

/-- **C197**, `climate_anomaly`. -/
theorem C197_anomaly (cal : Cal) (infer : InferFreq) (freq : String) : EitherOrder (climateAnomaly cal infer freq) s lat lon latOut lonOut fill :=
  either_order (anomaly_timeMean cal infer freq) s lat lon latOut lonOut fill hlat hlon h2 h2' hn hg hw hw' ho ho'

/-- **C197**, `month_to_season`. -/
theorem C197_month_to_season (cal : Cal) (season : String) : EitherOrder (monthToSeason cal season) s lat lon latOut lonOut fill :=
  either_order (monthToSeason_timeMean cal season) s lat lon latOut lonOut fill hlat hlon h2 h2' hn hg hw hw' ho ho'

end

/-! ### cases -/

/-- two days in one month on a grid of 2 by 2 points, without gaps -/
def twoDays : Series ℚ := ⟨4, [⟨0, fun c => some (c : ℚ)⟩, ⟨86400, fun c => some (10 * (c : ℚ))⟩], true⟩

/-- interpolated to the centre of the grid; the monthly mean there is 8.25 -/
example : EitherOrder (calendarAverage Cal.days360 (fun _ => .ok true) "month") twoDays [0, 1] [0, 1] [1 / 2] [1 / 2] none ∧
    (calendarAverage Cal.days360 (fun _ => .ok true) "month" twoDays).map (List.map (fun e => [e.val 0, e.val 1, e.val 2, e.val 3])) =
      .ok [[some 0, some (11 / 2), some 11, some (33 / 2)]] := by
  refine ⟨C197_calendar twoDays [0, 1] [0, 1] [1 / 2] [1 / 2] none (by decide +kernel) (by decide +kernel) (by decide) (by decide) rfl ?_ ?_ ?_ (by simp) (by simp) _ _ _,
    by decide +kernel⟩
  · intro e he c _
    simp only [twoDays, List.mem_cons, List.not_mem_nil, or_false] at he
    rcases he with rfl | rfl
    · exact ⟨_, rfl⟩
    · exact ⟨_, rfl⟩
  · intro p hp
    simp only [List.mem_singleton] at hp
    subst hp
    exact ⟨⟨0, by simp, by norm_num⟩, 1, by simp, by norm_num⟩
  · intro p hp
    simp only [List.mem_singleton] at hp
    subst hp
    exact ⟨⟨0, by simp, by norm_num⟩, 1, by simp, by norm_num⟩

/-- the same with a missing value: cell 0 on the second day -/
def gapDays : Series ℚ := ⟨4, [⟨0, fun _ => some 0⟩, ⟨86400, fun c => if c = 0 then none else some 10⟩], true⟩

/-- C197 needs data without gaps: where one value of a month is missing, interpolating first and averaging first give different means. -/
theorem C197_gap_matters : ¬ EitherOrder (calendarAverage Cal.days360 (fun _ => .ok true) "month") gapDays [0, 1] [0, 1] [1 / 2] [1 / 2] none := by
  rintro ⟨fine, h1, h2⟩
  obtain ⟨fine0, g1, g2, g3, g4⟩ := asGrid_value gapDays.samples [0, 1] [0, 1] (by decide +kernel) (by decide +kernel) (by decide) (by decide) [1 / 2] [1 / 2] none
  rw [h1] at g1
  cases g1
  have hin : ([0, 1] : List ℚ).getD 0 0 < 1 / 2 ∧ (1 / 2 : ℚ) ≤ ([0, 1] : List ℚ).getD (0 + 1) 0 := by decide +kernel
  obtain ⟨-, h3⟩ := h2 ⟨1, [⟨0, fun _ => some 0⟩, ⟨86400, fun _ => none⟩], true⟩ rfl rfl rfl (by
    intro t e he a ha b hb
    rw [g2] at ha
    rw [g3] at hb
    obtain rfl : a = 0 := by simpa using ha
    obtain rfl : b = 0 := by simpa using hb
    match t, he with
    | 0, he =>
      obtain rfl := Option.some.inj he
      rw [g4 0 _ rfl 0 0 (1 / 2) (1 / 2) rfl rfl 0 0 (by decide) (Or.inl hin.1) hin.2 (by decide) (Or.inl hin.1) hin.2, g3]
      decide +kernel
    | 1, he =>
      obtain rfl := Option.some.inj he
      rw [g4 1 _ rfl 0 0 (1 / 2) (1 / 2) rfl rfl 0 0 (by decide) (Or.inl hin.1) hin.2 (by decide) (Or.inl hin.1) hin.2, g3]
      decide +kernel
    | t + 2, he => simp at he)
  cases hq : calendarAverage Cal.days360 (fun _ => .ok true) "month" gapDays with
  | error e =>
    have : (calendarAverage Cal.days360 (fun _ => .ok true) "month" gapDays).map (List.map (fun e => e.val 0)) = .ok [some 0] := by decide +kernel
    rw [hq] at this
    cases this
  | ok out =>
    obtain ⟨out', fine', a1, -, a3, a4⟩ := h3 out hq
    obtain ⟨fine1, b1, b2, b3, b4⟩ := asGrid_value out [0, 1] [0, 1] (by decide +kernel) (by decide +kernel) (by decide) (by decide) [1 / 2] [1 / 2] none
    rw [a3] at b1
    cases b1
    have v : (calendarAverage Cal.days360 (fun _ => .ok true) "month" gapDays).map (List.map (fun e => [e.val 0, e.val 1, e.val 2, e.val 3])) =
        .ok [[some 0, some 5, some 5, some 5]] := by decide +kernel
    have w : (calendarAverage Cal.days360 (fun _ => .ok true) "month" (⟨1, [⟨0, fun _ => some 0⟩, ⟨86400, fun _ => none⟩], true⟩ : Series ℚ)).map
        (List.map (fun e => e.val 0)) = .ok [some 0] := by decide +kernel
    rw [hq] at v
    rw [a1] at w
    simp only [Except.map, Except.ok.injEq] at v w
    obtain ⟨o, rfl, v'⟩ := List.map_eq_singleton_iff.mp v
    obtain ⟨o', rfl, w'⟩ := List.map_eq_singleton_iff.mp w
    have := a4 0 o' rfl 0 (by rw [b2]; decide) 0 (by rw [b3]; decide)
    rw [b4 0 o rfl 0 0 (1 / 2) (1 / 2) rfl rfl 0 0 (by decide) (Or.inl hin.1) hin.2 (by decide) (Or.inl hin.1) hin.2] at this
    simp only [List.cons.injEq, and_true] at v'
    simp only [List.length_cons, List.length_nil, Nat.zero_mul, Nat.zero_add, Nat.one_mul, Nat.add_zero, Nat.reduceAdd, v'.1, v'.2.1, v'.2.2.1, v'.2.2.2, w'] at this
    revert this
    decide +kernel

end Verif.Props
