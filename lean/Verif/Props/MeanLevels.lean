import Verif.Props.MeanField
import Verif.Props.VertLinear

/-
Property C198: averages in time and interpolation to pressure levels.
-/

set_option linter.unusedSectionVars false

namespace Verif.Spec

/-- the same grid point, perhaps at another time -/
def SamePlace (ps : LArr ℝ) (i j : String → ℕ) : Prop := ∀ d ∈ ps.dims, d ≠ "time" → i d = j d

/-- how the values of one time step are numbered from 0 to `N - 1`: by grid point and level -/
structure Numbering (ps : LArr ℝ) (n N : ℕ) (cell : (String → ℕ) → ℕ → ℕ) : Prop where
  place : ∀ i j, SamePlace ps i j → ∀ k, cell i k = cell j k
  range : ∀ i, AtPoint ps i → ∀ k < n, cell i k < N
  onto : ∀ c < N, ∃ i k, AtPoint ps i ∧ k < n ∧ cell i k = c

/-- the DataArray with a time dimension and `n` levels along `lev` holds the steps `l` -/
def HoldsLevels (lev : String) (n : ℕ) (ps : LArr ℝ) (data : LArr (XF ℝ)) (cell : (String → ℕ) → ℕ → ℕ) (l : List (Entry ℝ)) : Prop :=
  ∀ i, AtPoint ps i → ∀ e, l[i "time"]? = some e → ∀ k < n, levelValue lev data i k = orNan (e.val (cell i k))

/-- the surface pressure is the same at all times -/
structure Steady (ps : LArr ℝ) (steps : ℕ) : Prop where
  time : "time" ∈ ps.dims
  size : ps.size "time" = steps
  same : ∀ i j, SamePlace ps i j → ps.get i = ps.get j

/-- the same surface pressure, for another number of time steps -/
structure SamePressure (ps ps2 : LArr ℝ) (steps : ℕ) : Prop where
  dims : ps2.dims = ps.dims
  sizes : ∀ d ∈ ps.dims, d ≠ "time" → ps2.size d = ps.size d
  size : ps2.size "time" = steps
  get : ps2.get = ps.get

end Verif.Spec

namespace Verif.Props
open Model Spec Lemmas

/-- Interpolating the data to the pressures `x` and then calling `A` (an average in time) gives the same as calling `A` and interpolating its result, with the
same surface pressure: the same errors, the same times, the same values. `s` are the data as a series, `s'` the interpolated data. -/
def LevelsEitherOrder (A : Series ℝ → Except PyErr (List (Entry ℝ))) (o : HybridOpts) (lev e : String) (n : ℕ) (a b : ℕ → ℝ) (p0 : ℝ) (x labels : List ℝ)
    (tBot phi : LArr (XF ℝ)) (ps : LArr ℝ) (data : LArr (XF ℝ)) (s : Series ℝ) (cell : (String → ℕ) → ℕ → ℕ) : Prop :=
  ∃ out, interpHybridToPressure o p0 x none false labels data ps (vec lev n a) (vec e n b) tBot phi = .ok out ∧
    ∀ (s' : Series ℝ) (cell' : (String → ℕ) → ℕ → ℕ), s'.isTime = s.isTime → s'.samples.map (·.key) = s.samples.map (·.key) →
      Numbering ps x.length s'.ncell cell' → 0 < s'.ncell → HoldsLevels "plev" x.length ps out cell' s'.samples →
      (∀ err, A s = .error err → A s' = .error err) ∧
      ∀ avg, A s = .ok avg → ∃ avg', A s' = .ok avg' ∧ avg'.map (·.key) = avg.map (·.key) ∧
        ∀ ps2 data2, SamePressure ps ps2 avg.length → GoodCall o lev n a b p0 x ps2 data2 → HoldsLevels lev n ps2 data2 cell avg →
          ∃ out2, interpHybridToPressure o p0 x none false labels data2 ps2 (vec lev n a) (vec e n b) tBot phi = .ok out2 ∧
            HoldsLevels "plev" x.length ps2 out2 cell' avg'

/-- the linear relation between the values of two levels and the value between them -/
def lineSpace (w : ℝ) : Submodule ℝ (Fin 5 → ℝ) where
  carrier := {v | v 4 = v 0 + (v 1 - v 0) * w}
  zero_mem' := by simp
  add_mem' := by
    intro v u hv hu
    simp only [Set.mem_ofPred_eq, Pi.add_apply] at *
    rw [hv, hu]; ring
  smul_mem' := by
    intro r v hv
    simp only [Set.mem_ofPred_eq, Pi.smul_apply, smul_eq_mul] at *
    rw [hv]; ring

theorem lineValue_nan (pi pj x : ℝ) (v : XF ℝ) : lineValue pi pj .nan v x = .nan := by simp [lineValue]

theorem levels_either_order {A : Series ℝ → Except PyErr (List (Entry ℝ))} (hA : TimeMean A) (o : HybridOpts) (hx : o.extrapolate = false) (lev e : String)
    (n : ℕ) (a b : ℕ → ℝ) (p0 : ℝ) (x : List ℝ) (labels : List ℝ) (tBot phi : LArr (XF ℝ)) (ps : LArr ℝ) (data : LArr (XF ℝ)) (h : GoodCall o lev n a b p0 x ps data)
    (s : Series ℝ) (hs : Steady ps s.samples.length) (cell : (String → ℕ) → ℕ → ℕ) (hc : Numbering ps n s.ncell cell) (hg : NoGaps s)
    (hpos : 0 < s.ncell) (hd : HoldsLevels lev n ps data cell s.samples)
    (hin : ∀ i, AtPoint ps i → ∀ y ∈ x, ¬ Outside n (levelPressure a b p0 ps i) y) :
    LevelsEitherOrder A o lev e n a b p0 x labels tBot phi ps data s cell := by
  obtain ⟨out, ho, hi⟩ := call_spec o lev e n a b p0 x ps data h hx none false rfl labels tBot phi
  refine ⟨out, ho, fun s' cell' ht hk hc' hpos' hh => ?_⟩
  have hlen : s'.samples.length = s.samples.length := by simpa using congrArg List.length hk
  -- the value at level `m` from any two neighbouring levels
  have relation : ∀ (j : String → ℕ), (∀ d ∈ ps.dims, d ≠ "time" → j d < ps.size d) → ∀ m, ∀ hm : m < x.length, ∀ k l,
      Bracket n (fun k => coordOf o.method (levelPressure a b p0 ps j k)) (coordOf o.method x[m]) k l →
      ∀ (t : ℕ) (d d' : Entry ℝ), s.samples[t]? = some d → s'.samples[t]? = some d' →
        ∃ v ∈ lineSpace ((coordOf o.method x[m] - coordOf o.method (levelPressure a b p0 ps j k)) /
            (coordOf o.method (levelPressure a b p0 ps j l) - coordOf o.method (levelPressure a b p0 ps j k))),
          (∀ c : Fin 4, d.val ((![cell j k, cell j l, cell j k, cell j l] : Fin 4 → ℕ) c) = some (v c.castSucc)) ∧ d'.val (cell' j m) = some (v 4) := by
    intro j hj m hm k l hb t d d' hd1 hd2
    obtain ⟨htl, -⟩ := List.getElem?_eq_some_iff.mp hd1
    have place : SamePlace ps (Function.update j "time" t) j := fun q _ hq => Function.update_of_ne hq _ _
    have hpt : AtPoint ps (Function.update j "time" t) := by
      intro q hq
      by_cases hqt : q = "time"
      · subst hqt
        rw [Function.update_self, hs.size]
        exact htl
      · rw [Function.update_of_ne hqt]
        exact hj q hq hqt
    have nop : ∀ q ∈ ps.dims, q ≠ "plev" := fun q hq he => h.grid.plevNew (he ▸ hq)
    have place' : SamePlace ps (Function.update (Function.update j "time" t) "plev" m) j := fun q hq hqt => by
      rw [Function.update_of_ne (nop q hq), Function.update_of_ne hqt]
    have hpt' : AtPoint ps (Function.update (Function.update j "time" t) "plev" m) := by
      intro q hq
      rw [Function.update_of_ne (nop q hq)]
      exact hpt q hq
    have hval := hi.value _ hpt' x[m] (by rw [Function.update_self]; exact List.getElem?_eq_getElem hm)
    have hP : ∀ k, levelPressure a b p0 ps (Function.update (Function.update j "time" t) "plev" m) k = levelPressure a b p0 ps j k := fun k => by
      simp only [levelPressure, hs.same _ _ place']
    simp only [hP] at hval
    have htime : (Function.update (Function.update j "time" t) "plev" m) "time" = t := by
      rw [Function.update_of_ne (by decide), Function.update_self]
    have hcol : ∀ k < n, levelValue lev data (Function.update (Function.update j "time" t) "plev" m) k = orNan (d.val (cell j k)) := by
      intro k hk
      rw [hd _ hpt' d (by rw [htime]; exact hd1) k hk, hc.place _ _ place']
    have hcr : ∀ k < n, cell j k < s.ncell := fun k hk => by
      rw [← hc.place _ _ place]
      exact hc.range _ hpt k hk
    have hfin : ∀ k, ∃ v, k < n → d.val (cell j k) = some v := fun k => by
      by_cases hk : k < n
      · obtain ⟨v, hv⟩ := hg d (List.mem_of_getElem? hd1) _ (hcr k hk)
        exact ⟨v, fun _ => hv⟩
      · exact ⟨0, fun hk' => absurd hk' hk⟩
    choose f hf using hfin
    have hdist : Distinct n (fun k => coordOf o.method (levelPressure a b p0 ps j k)) := by
      have := h.coordDistinct _ hpt'
      simp only [hP] at this
      exact this
    have hline := interpAt_line n _ hdist _ f (fun k hk => by rw [hcol k hk, hf k hk]; rfl) _ _ hval k l hb
    have hout := hh _ hpt d' (by rw [Function.update_self]; exact hd2) m hm
    have hout' : levelValue "plev" out (Function.update j "time" t) m = out.get (Function.update (Function.update j "time" t) "plev" m) := rfl
    rw [hout', hline, hc'.place _ _ place] at hout
    refine ⟨![f k, f l, f k, f l, line (fun k => coordOf o.method (levelPressure a b p0 ps j k)) f (coordOf o.method x[m]) k l], ?_, fun c => ?_, ?_⟩
    · show (_ : ℝ) = _ + (_ - _) * _
      simp only [line]
      rfl
    · fin_cases c
      · exact hf k hb.1
      · exact hf l hb.2.1
      · exact hf k hb.1
      · exact hf l hb.2.1
    · exact orNan_fin hout.symm
  have bracket : ∀ (i : String → ℕ), AtPoint ps i → ∀ m, ∀ hm : m < x.length, ¬ Outside n (fun k => coordOf o.method (levelPressure a b p0 ps i k)) (coordOf o.method x[m]) := by
    intro i hpt m hm
    rw [outside_transform _ _ (coordOf_mono o.method) n _ (h.mem_p i hpt) _ (h.mem_x x[m] (List.getElem_mem hm))]
    exact hin i hpt _ (List.getElem_mem hm)
  have hg' : NoGaps s' := by
    intro d' hd' c hcn
    obtain ⟨t, ht'⟩ := List.mem_iff_getElem?.mp hd'
    obtain ⟨htl, -⟩ := List.getElem?_eq_some_iff.mp ht'
    rw [hlen] at htl
    obtain ⟨i, m, hpt, hm, rfl⟩ := hc'.onto c hcn
    have hpt1 : AtPoint ps (Function.update i "plev" m) := fun q hq => by
      rw [Function.update_of_ne (fun he : q = "plev" => h.grid.plevNew (he ▸ hq))]
      exact hpt q hq
    have hval := hi.value _ hpt1 x[m] (by rw [Function.update_self]; exact List.getElem?_eq_getElem hm)
    obtain ⟨k, l, hb⟩ := interpAt_bracket n _ _ _ _ hval (bracket _ hpt1 m hm)
    have hP : ∀ k, levelPressure a b p0 ps (Function.update i "plev" m) k = levelPressure a b p0 ps i k := fun k => by
      simp only [levelPressure]
      rw [hs.same _ i (fun q hq _ => Function.update_of_ne (fun he : q = "plev" => h.grid.plevNew (he ▸ hq)) _ _)]
    simp only [hP] at hb
    obtain ⟨v, -, -, hv⟩ := relation i (fun q hq _ => hpt q hq) m hm k l hb t _ d' (List.getElem?_eq_getElem htl) ht'
    exact ⟨_, hv⟩
  obtain ⟨herr, hok⟩ := mean_relation hA s s' hpos hpos' hg hg' hk ht
  refine ⟨herr, fun avg havg => ?_⟩
  obtain ⟨avg', a1, a2, a3⟩ := hok avg havg
  refine ⟨avg', a1, a2, fun ps2 data2 hsp h2 hd2 => ?_⟩
  obtain ⟨out2, ho2, hi2⟩ := call_spec o lev e n a b p0 x ps2 data2 h2 hx none false rfl labels tBot phi
  refine ⟨out2, ho2, fun i hpt o' ho' m hm => ?_⟩
  have hplev : ∀ q ∈ ps2.dims, q ≠ "plev" := fun q hq he => h2.grid.plevNew (he ▸ hq)
  have hpt2 : AtPoint ps2 (Function.update i "plev" m) := fun q hq => by
    rw [Function.update_of_ne (hplev q hq)]
    exact hpt q hq
  have hval := hi2.value _ hpt2 x[m] (by rw [Function.update_self]; exact List.getElem?_eq_getElem hm)
  have place : SamePlace ps (Function.update i "plev" m) i := fun q hq _ => Function.update_of_ne (hplev q (hsp.dims ▸ hq)) _ _
  have hP : ∀ k, levelPressure a b p0 ps2 (Function.update i "plev" m) k = levelPressure a b p0 ps i k := fun k => by
    simp only [levelPressure, hsp.get, hs.same _ i place]
  simp only [hP] at hval
  have hsz : ∀ d ∈ ps.dims, d ≠ "time" → i d < ps.size d := fun d hd hdt => by
    rw [← hsp.sizes d hd hdt]
    exact hpt d (hsp.dims ▸ hd)
  have htlen : avg'.length = avg.length := by simpa using congrArg List.length a2
  obtain ⟨htl, -⟩ := List.getElem?_eq_some_iff.mp ho'
  have hoe : avg[i "time"]? = some (avg[i "time"]'(htlen ▸ htl)) := List.getElem?_eq_getElem _
  have htime : (Function.update i "plev" m) "time" = i "time" := Function.update_of_ne (by decide) _ _
  have hcol : ∀ k < n, levelValue lev data2 (Function.update i "plev" m) k = orNan ((avg[i "time"]'(htlen ▸ htl)).val (cell i k)) := fun k hk => by
    rw [hd2 _ hpt2 _ (by rw [htime]; exact hoe) k hk, hc.place _ _ place]
  show out2.get (Function.update i "plev" m) = _
  -- a point of the first call at the same place
  have hpos1 : 0 < ps.size "time" := (h.grid.sizes "time" hs.time).2
  have hpt1 : AtPoint ps (Function.update i "time" 0) := fun q hq => by
    by_cases hqt : q = "time"
    · subst hqt
      rw [Function.update_self]
      exact hpos1
    · rw [Function.update_of_ne hqt]
      exact hsz q hq hqt
  have place1 : SamePlace ps (Function.update i "time" 0) i := fun q _ hq => Function.update_of_ne hq _ _
  have hP1 : ∀ k, levelPressure a b p0 ps (Function.update i "time" 0) k = levelPressure a b p0 ps i k := fun k => by
    simp only [levelPressure, hs.same _ i place1]
  rcases hval with ⟨hout, -⟩ | ⟨-, k, l, hb, hv⟩
  · have := bracket _ hpt1 m hm
    simp only [hP1] at this
    exact absurd hout this
  · have hcell : ∀ c : Fin 4, (![cell i k, cell i l, cell i k, cell i l] : Fin 4 → ℕ) c < s.ncell := by
      have hk1 : ∀ k < n, cell i k < s.ncell := fun k hk => by
        rw [← hc.place _ _ place1]
        exact hc.range _ hpt1 k hk
      intro c
      fin_cases c
      · exact hk1 k hb.1
      · exact hk1 l hb.2.1
      · exact hk1 k hb.1
      · exact hk1 l hb.2.1
    have hc1 : cell' i m < s'.ncell := by
      rw [← hc'.place _ _ place1]
      exact hc'.range _ hpt1 m hm
    rw [hv, hcol k hb.1, hcol l hb.2.1]
    rcases a3 _ (cell' i m) hcell hc1 _ (relation i hsz m hm k l hb) (i "time") _ o' hoe ho' with ⟨h0, h1⟩ | ⟨v, hvC, h0, h1⟩
    · have h00 := h0 0
      simp only [Matrix.cons_val_zero] at h00
      rw [h00, h1]
      exact lineValue_nan _ _ _ _
    · have h00 := h0 0
      have h01 := h0 1
      simp only [Matrix.cons_val_zero, Matrix.cons_val_one] at h00 h01
      rw [h00, h01, h1]
      simp only [orNan, lineValue, XF.fin_sub, XF.fin_mul, XF.fin_add]
      congr 1
      exact (show v 4 = _ from hvC).symm

/-! ### C198 -/

section
variable (o : HybridOpts) (hx : o.extrapolate = false) (lev e : String) (n : ℕ) (a b : ℕ → ℝ) (p0 : ℝ) (x : List ℝ) (labels : List ℝ) (tBot phi : LArr (XF ℝ))
  (ps : LArr ℝ) (data : LArr (XF ℝ)) (h : GoodCall o lev n a b p0 x ps data) (s : Series ℝ) (hs : Steady ps s.samples.length)
  (cell : (String → ℕ) → ℕ → ℕ) (hc : Numbering ps n s.ncell cell) (hg : NoGaps s) (hpos : 0 < s.ncell) (hd : HoldsLevels lev n ps data cell s.samples)
  (hin : ∀ i, AtPoint ps i → ∀ y ∈ x, ¬ Outside n (levelPressure a b p0 ps i) y)
include hx h hs hc hg hpos hd hin

/-- **C198**, `calendar_average`: data without gaps, steady surface pressure, pressures within the columns. -/
theorem C198_calendar (cal : Cal) (infer : InferFreq) (freq : String) :
    LevelsEitherOrder (calendarAverage cal infer freq) o lev e n a b p0 x labels tBot phi ps data s cell :=
  levels_either_order (calendar_timeMean cal infer freq) o hx lev e n a b p0 x labels tBot phi ps data h s hs cell hc hg hpos hd hin

/-- **C198**, `climatology_average`. -/
theorem C198_climatology (cal : Cal) (infer : InferFreq) (freq : String) (custom : List String) :
    LevelsEitherOrder (fun s => (climatologyAverage cal infer freq custom s).map climSteps) o lev e n a b p0 x labels tBot phi ps data s cell :=
  levels_either_order (climatology_timeMean cal infer freq custom) o hx lev e n a b p0 x labels tBot phi ps data h s hs cell hc hg hpos hd hin

/-- **C198**, `climate_anomaly`. -/
theorem C198_anomaly (cal : Cal) (infer : InferFreq) (freq : String) :
    LevelsEitherOrder (climateAnomaly cal infer freq) o lev e n a b p0 x labels tBot phi ps data s cell :=
  levels_either_order (anomaly_timeMean cal infer freq) o hx lev e n a b p0 x labels tBot phi ps data h s hs cell hc hg hpos hd hin

/-- **C198**, `month_to_season`. -/
theorem C198_month_to_season (cal : Cal) (season : String) :
    LevelsEitherOrder (monthToSeason cal season) o lev e n a b p0 x labels tBot phi ps data s cell :=
  levels_either_order (monthToSeason_timeMean cal season) o hx lev e n a b p0 x labels tBot phi ps data h s hs cell hc hg hpos hd hin

end

/-! ### a case -/

/-- two days, one grid point, surface pressure 1000 hPa -/
def steadyPs : LArr ℝ := ⟨["time"], fun _ => 2, fun _ => 100000⟩
/-- the values of level `k` on day `t` -/
def steadyData : LArr (XF ℝ) := ⟨["time", "lev"], fun _ => 2, fun i => .fin (10 * (i "lev" : ℝ) + (i "time" : ℝ))⟩
def steadySeries : Series ℝ := ⟨2, [⟨0, fun c => some (10 * (c : ℝ) + ((0 : ℕ) : ℝ))⟩, ⟨86400, fun c => some (10 * (c : ℝ) + ((1 : ℕ) : ℝ))⟩], true⟩

theorem steady_pressure (i : String → ℕ) (k : ℕ) : levelPressure (fun _ => 0) demoB 100000 steadyPs i k = (if k = 0 then 1 else 1 / 2) * 100000 := by
  simp [levelPressure, demoB, steadyPs]

theorem steady_good : GoodCall (demoOpts "linear" false (some "other")) "lev" 2 (fun _ => 0) demoB 100000 [60000] steadyPs steadyData where
  accepted := ⟨rfl, Or.inl rfl, Or.inl rfl, Or.inr (Or.inl rfl)⟩
  grid :=
    { two := le_refl _, levNew := by simp [steadyPs], plevNew := by simp [steadyPs], perm := by simp only [steadyPs, steadyData]; decide, sizeLev := rfl,
      sizes := by intro d _; simp [steadyPs, steadyData], wf := fun _ _ _ => rfl }
  nonempty := by simp
  sorted := Or.inl (by simp)
  distinct := by
    intro i _ k hk l hl h
    rw [steady_pressure, steady_pressure] at h
    rcases (by omega : k = 0 ∨ k = 1) with rfl | rfl <;> rcases (by omega : l = 0 ∨ l = 1) with rfl | rfl <;> first | rfl | norm_num at h
  positive := fun h => by simp [demoOpts] at h

example (labels : List ℝ) (tBot phi : LArr (XF ℝ)) :
    LevelsEitherOrder (calendarAverage Cal.days360 (fun _ => .ok true) "month") (demoOpts "linear" false (some "other")) "lev" "lev" 2 (fun _ => 0) demoB 100000 [60000]
      labels tBot phi steadyPs steadyData steadySeries (fun _ k => k) := by
  refine C198_calendar _ rfl "lev" "lev" 2 _ _ _ _ labels tBot phi steadyPs steadyData steady_good steadySeries ⟨by simp [steadyPs], rfl, fun _ _ _ => rfl⟩ _
    ⟨fun _ _ _ _ => rfl, fun _ _ k hk => hk, fun c hc => ⟨fun _ => 0, c, fun _ _ => by simp [steadyPs], hc, rfl⟩⟩ ?_ (by decide) ?_ ?_ _ _ _
  · intro d hd c _
    simp only [steadySeries, List.mem_cons, List.not_mem_nil, or_false] at hd
    rcases hd with rfl | rfl
    · exact ⟨_, rfl⟩
    · exact ⟨_, rfl⟩
  · intro i hpt d hd k _
    have ht : i "time" < 2 := hpt "time" (by simp [steadyPs])
    simp only [levelValue, steadyData, Function.update_self]
    rw [Function.update_of_ne (by decide)]
    rcases (by omega : i "time" = 0 ∨ i "time" = 1) with h | h
    · rw [h] at hd ⊢
      obtain rfl := Option.some.inj hd
      rfl
    · rw [h] at hd ⊢
      obtain rfl := Option.some.inj hd
      rfl
  · intro i _ y hy ho
    simp only [List.mem_singleton] at hy
    subst hy
    rcases ho with ho | ho
    · have := ho 1 (by norm_num)
      rw [steady_pressure] at this
      norm_num at this
    · have := ho 0 (by norm_num)
      rw [steady_pressure] at this
      norm_num at this

end Verif.Props
