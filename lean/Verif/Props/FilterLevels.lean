import Verif.Props.FilterField
import Verif.Props.MeanLevels
import Verif.Props.Sigma

/-
Property C209: filtering in time and vertical interpolation can be done in either order if the surface pressure is steady.
-/

set_option linter.unusedSectionVars false

namespace Verif.Spec

/-- the values at grid point `i` and level `k` at the times `0, ..., T - 1` -/
def TimeSeries (lev : String) (data : LArr (XF ℝ)) (T : ℕ) (i : String → ℕ) (k : ℕ) (y : ZMod T → ℝ) : Prop :=
  ∀ t < T, levelValue lev data (Function.update i "time" t) k = .fin (y t)

/-- missing at all times -/
def NeverThere (lev : String) (data : LArr (XF ℝ)) (T : ℕ) (i : String → ℕ) (k : ℕ) : Prop :=
  ∀ t < T, levelValue lev data (Function.update i "time" t) k = .nan

end Verif.Spec

namespace Verif.Props
open Model Spec Lemmas

/-- `data2` are the data filtered in time, at every grid point and level -/
def FilteredLevels (fl : Flags) (f cl ch : ℝ) (lev : String) (n T : ℕ) [NeZero T] (ps : LArr ℝ) (data data2 : LArr (XF ℝ)) : Prop :=
  ∀ i, AtPoint ps i → ∀ k < n, ∃ y, TimeSeries lev data T i k y ∧ TimeSeries lev data2 T i k (fourierFilter fl f cl ch y)

namespace FilterLevels

/-- one column: interpolation of the filtered values -/
theorem column_filter (fl : Flags) (f cl ch : ℝ) (hf : 0 < f) (h1 : 0 ≤ cl) (h2 : 0 ≤ ch) (T n : ℕ) [NeZero T] (p : ℕ → ℝ) (hp : Distinct n p) (x : ℝ)
    (v v2 : ℕ → ℕ → XF ℝ) (z : ℕ → ZMod T → ℝ) (hv : ∀ t < T, ∀ k < n, v t k = .fin (z k t)) (hv2 : ∀ t < T, ∀ k < n, v2 t k = .fin (fourierFilter fl f cl ch (z k) t))
    (o o2 : ℕ → XF ℝ) (ho : ∀ t < T, InterpAt n p (v t) x (o t)) (ho2 : ∀ t < T, InterpAt n p (v2 t) x (o2 t)) :
    (Outside n p x → ∀ t < T, o t = .nan ∧ o2 t = .nan) ∧
    (¬ Outside n p x → ∃ y : ZMod T → ℝ, ∀ t < T, o t = .fin (y t) ∧ o2 t = .fin (fourierFilter fl f cl ch y t)) := by
  constructor
  · intro hout t ht
    constructor
    · rcases ho t ht with ⟨-, h⟩ | ⟨h, -⟩
      · exact h
      · exact absurd hout h
    · rcases ho2 t ht with ⟨-, h⟩ | ⟨h, -⟩
      · exact h
      · exact absurd hout h
  · intro hin
    have h0 : 0 < T := Nat.pos_of_ne_zero (NeZero.ne T)
    obtain ⟨i, j, hb⟩ := interpAt_bracket n p _ x _ (ho 0 h0) hin
    refine ⟨fun t => line p (fun k => z k t) x i j, fun t ht => ⟨interpAt_line n p hp _ _ (hv t ht) x _ (ho t ht) i j hb, ?_⟩⟩
    rw [interpAt_line n p hp _ _ (hv2 t ht) x _ (ho2 t ht) i j hb]
    congr 1
    obtain ⟨H, hH⟩ := FilterField.kernel fl f cl ch hf h1 h2 (t : ZMod T)
    simp only [line, hH]
    rw [← Finset.sum_sub_distrib, Finset.sum_mul, ← Finset.sum_add_distrib]
    exact Finset.sum_congr rfl fun s _ => by ring

theorem at_time (ps : LArr ℝ) (T : ℕ) (hs : Steady ps T) (i : String → ℕ) (hi : AtPoint ps i) (t : ℕ) (ht : t < T) : AtPoint ps (Function.update i "time" t) := by
  intro q hq
  by_cases hqt : q = "time"
  · subst hqt
    rw [Function.update_self, hs.size]
    exact ht
  · rw [Function.update_of_ne hqt]
    exact hi q hq

theorem at_level (ps : LArr ℝ) (d : String) (hd : d ∉ ps.dims) (i : String → ℕ) (hi : AtPoint ps i) (m : ℕ) : AtPoint ps (Function.update i d m) := by
  intro q hq
  rw [Function.update_of_ne (fun he : q = d => hd (he ▸ hq))]
  exact hi q hq

theorem same_place (ps : LArr ℝ) (d : String) (hd : d ∉ ps.dims) (i : String → ℕ) (t m : ℕ) :
    SamePlace ps (Function.update (Function.update i "time" t) d m) i := by
  intro q hq hqt
  rw [Function.update_of_ne (fun he : q = d => hd (he ▸ hq)), Function.update_of_ne hqt]

end FilterLevels
open FilterLevels

/-- **C209**, `interp_hybrid_to_pressure`. If the surface pressure is steady, interpolating the filtered data gives the filtered
interpolated data, at every grid point and requested pressure within the column; other values are missing in both. For every filter,
method, number of times and data without gaps. -/
theorem C209_hybrid (fl : Flags) (f cl ch : ℝ) (hf : 0 < f) (h1 : 0 ≤ cl) (h2 : 0 ≤ ch) (o : HybridOpts) (hx : o.extrapolate = false) (lev e : String)
    (n T : ℕ) [NeZero T] (a b : ℕ → ℝ) (p0 : ℝ) (x labels : List ℝ) (tBot phi : LArr (XF ℝ)) (ps : LArr ℝ) (hs : Steady ps T) (data data2 : LArr (XF ℝ))
    (h : GoodCall o lev n a b p0 x ps data) (h' : GoodCall o lev n a b p0 x ps data2) (hfil : FilteredLevels fl f cl ch lev n T ps data data2) :
    ∃ out out2, interpHybridToPressure o p0 x none false labels data ps (vec lev n a) (vec e n b) tBot phi = .ok out ∧
      interpHybridToPressure o p0 x none false labels data2 ps (vec lev n a) (vec e n b) tBot phi = .ok out2 ∧
      ∀ i, AtPoint ps i → ∀ m y, x[m]? = some y →
        (Outside n (levelPressure a b p0 ps i) y → NeverThere "plev" out T i m ∧ NeverThere "plev" out2 T i m) ∧
        (¬ Outside n (levelPressure a b p0 ps i) y → ∃ r, TimeSeries "plev" out T i m r ∧ TimeSeries "plev" out2 T i m (fourierFilter fl f cl ch r)) := by
  obtain ⟨out, ho, hi⟩ := call_spec o lev e n a b p0 x ps data h hx none false rfl labels tBot phi
  obtain ⟨out2, ho2, hi2⟩ := call_spec o lev e n a b p0 x ps data2 h' hx none false rfl labels tBot phi
  refine ⟨out, out2, ho, ho2, fun i hpt m y hy => ?_⟩
  have hlt : lev ≠ "time" := fun he => h.grid.levNew (he ▸ hs.time)
  have hP : ∀ t k, levelPressure a b p0 ps (Function.update (Function.update i "time" t) "plev" m) k = levelPressure a b p0 ps i k := fun t k => by
    simp only [levelPressure, hs.same _ _ (same_place ps "plev" h.grid.plevNew i t m)]
  have hpts : ∀ t < T, AtPoint ps (Function.update (Function.update i "time" t) "plev" m) := fun t ht =>
    at_level ps "plev" h.grid.plevNew _ (at_time ps T hs i hpt t ht) m
  have hfil' := hfil (Function.update i "plev" m) (at_level ps "plev" h.grid.plevNew i hpt m)
  choose! z hz using hfil'
  have hcomm : ∀ t, Function.update (Function.update i "time" t) "plev" m = Function.update (Function.update i "plev" m) "time" t := fun t =>
    Function.update_comm (by decide) _ _ _
  have hval : ∀ t < T, InterpAt n (fun k => coordOf o.method (levelPressure a b p0 ps i k)) (levelValue lev data (Function.update (Function.update i "time" t) "plev" m))
      (coordOf o.method y) (out.get (Function.update (Function.update i "time" t) "plev" m)) := fun t ht => by
    have := hi.value _ (hpts t ht) y (by rw [Function.update_self]; exact hy)
    simp only [hP] at this
    exact this
  have hval2 : ∀ t < T, InterpAt n (fun k => coordOf o.method (levelPressure a b p0 ps i k)) (levelValue lev data2 (Function.update (Function.update i "time" t) "plev" m))
      (coordOf o.method y) (out2.get (Function.update (Function.update i "time" t) "plev" m)) := fun t ht => by
    have := hi2.value _ (hpts t ht) y (by rw [Function.update_self]; exact hy)
    simp only [hP] at this
    exact this
  have key := column_filter fl f cl ch hf h1 h2 T n _ (h.coordDistinct i hpt) (coordOf o.method y) _ _ z
    (fun t ht k hk => by rw [hcomm]; exact (hz k hk).1 t ht) (fun t ht k hk => by rw [hcomm]; exact (hz k hk).2 t ht) _ _ hval hval2
  rw [outside_transform _ _ (coordOf_mono o.method) n _ (h.mem_p i hpt) _ (h.mem_x y (List.mem_of_getElem? hy))] at key
  refine ⟨fun hout => ⟨fun t ht => (key.1 hout t ht).1, fun t ht => (key.1 hout t ht).2⟩, fun hin => ?_⟩
  obtain ⟨r, hr⟩ := key.2 hin
  exact ⟨r, fun t ht => (hr t ht).1, fun t ht => (hr t ht).2⟩

/-- **C209**, `interp_sigma_to_hybrid` (not more hybrid than sigma levels: with more the call fails, C21). -/
theorem C209_sigma (fl : Flags) (f cl ch : ℝ) (hf : 0 < f) (h1 : 0 ≤ cl) (h2 : 0 ≤ ch) (levDim cf : Option String) (method lev hd : String)
    (hl : levDim = some lev ∨ levDim = none ∧ cf = some lev) (n T : ℕ) [NeZero T] (s : ℕ → ℝ) (m : ℕ) (a b : ℕ → ℝ) (p0 : ℝ) (ps : LArr ℝ) (hs : Steady ps T)
    (data data2 : LArr (XF ℝ)) (h : SigmaCall method lev hd n s m a b p0 ps data) (h' : SigmaCall method lev hd n s m a b p0 ps data2) (hmn : m ≤ n)
    (hfil : FilteredLevels fl f cl ch lev n T ps data data2) :
    ∃ out out2 hlev, interpSigmaToHybrid Real.log levDim cf method p0 (column n s) data ps (vec hd m a) (vec hd m b) = .ok (out, hlev) ∧
      interpSigmaToHybrid Real.log levDim cf method p0 (column n s) data2 ps (vec hd m a) (vec hd m b) = .ok (out2, hlev) ∧
      ∀ i, AtPoint ps i → ∀ q < m,
        (Outside n s (hybridSigma a b p0 ps i q) → NeverThere "hlev" out T i q ∧ NeverThere "hlev" out2 T i q) ∧
        (¬ Outside n s (hybridSigma a b p0 ps i q) → ∃ r, TimeSeries "hlev" out T i q r ∧ TimeSeries "hlev" out2 T i q (fourierFilter fl f cl ch r)) := by
  obtain ⟨out, hlev, ho, hi, e1⟩ := C21_columns_partial levDim cf method lev hd hl n s m a b p0 ps data h hmn
  obtain ⟨out2, hlev2, ho2, hi2, e2⟩ := C21_columns_partial levDim cf method lev hd hl n s m a b p0 ps data2 h' hmn
  refine ⟨out, out2, hlev, ho, by rw [ho2, e1, e2], fun i hpt q hq => ?_⟩
  have hP : ∀ t, hybridSigma a b p0 ps (Function.update (Function.update i "time" t) "hlev" q) q = hybridSigma a b p0 ps i q := fun t => by
    simp only [hybridSigma, hs.same _ _ (same_place ps "hlev" h.grid.hlevNew i t q)]
  have hpts : ∀ t < T, AtPoint ps (Function.update (Function.update i "time" t) "hlev" q) := fun t ht =>
    at_level ps "hlev" h.grid.hlevNew _ (at_time ps T hs i hpt t ht) q
  have hfil' := hfil (Function.update i "hlev" q) (at_level ps "hlev" h.grid.hlevNew i hpt q)
  choose! z hz using hfil'
  have hcomm : ∀ t, Function.update (Function.update i "time" t) "hlev" q = Function.update (Function.update i "hlev" q) "time" t := fun t =>
    Function.update_comm (by decide) _ _ _
  have hval : ∀ t < T, InterpAt n (fun k => coordOf method (s k)) (levelValue lev data (Function.update (Function.update i "time" t) "hlev" q))
      (coordOf method (hybridSigma a b p0 ps i q)) (out.get (Function.update (Function.update i "time" t) "hlev" q)) := fun t ht => by
    have := hi.value _ (hpts t ht) (by rw [Function.update_self]; exact hq)
    rw [Function.update_self, hP] at this
    exact this
  have hval2 : ∀ t < T, InterpAt n (fun k => coordOf method (s k)) (levelValue lev data2 (Function.update (Function.update i "time" t) "hlev" q))
      (coordOf method (hybridSigma a b p0 ps i q)) (out2.get (Function.update (Function.update i "time" t) "hlev" q)) := fun t ht => by
    have := hi2.value _ (hpts t ht) (by rw [Function.update_self]; exact hq)
    rw [Function.update_self, hP] at this
    exact this
  have key := column_filter fl f cl ch hf h1 h2 T n _ (distinct_transform _ _ (coordOf_mono method) n _ h.mem_s h.distinct) (coordOf method (hybridSigma a b p0 ps i q)) _ _ z
    (fun t ht k hk => by rw [hcomm]; exact (hz k hk).1 t ht) (fun t ht k hk => by rw [hcomm]; exact (hz k hk).2 t ht) _ _ hval hval2
  rw [h.outside_iff i hpt q hq] at key
  refine ⟨fun hout => ⟨fun t ht => (key.1 hout t ht).1, fun t ht => (key.1 hout t ht).2⟩, fun hin => ?_⟩
  obtain ⟨r, hr⟩ := key.2 hin
  exact ⟨r, fun t ht => (hr t ht).1, fun t ht => (hr t ht).2⟩

/-! ### a case -/

/-- two times, one grid point, two levels: any values -/
def twoTimes (z : ℕ → ZMod 2 → ℝ) : LArr (XF ℝ) := ⟨["time", "lev"], fun _ => 2, fun i => .fin (z (i "lev") (i "time"))⟩

theorem twoTimes_series (z : ℕ → ZMod 2 → ℝ) (i : String → ℕ) (k : ℕ) : TimeSeries "lev" (twoTimes z) 2 i k (z k) := by
  intro t _
  simp [levelValue, twoTimes]

theorem twoTimes_good (z : ℕ → ZMod 2 → ℝ) :
    GoodCall (demoOpts "linear" false (some "other")) "lev" 2 (fun _ => 0) demoB 100000 [60000] steadyPs (twoTimes z) where
  accepted := steady_good.accepted
  grid := ⟨le_refl _, by simp [steadyPs], by simp [steadyPs], by simp only [steadyPs, twoTimes]; decide, rfl, by intro d _; simp [steadyPs, twoTimes], fun _ _ _ => rfl⟩
  nonempty := steady_good.nonempty
  sorted := steady_good.sorted
  distinct := steady_good.distinct
  positive := steady_good.positive

example (z : ℕ → ZMod 2 → ℝ) (labels : List ℝ) (tBot phi : LArr (XF ℝ)) :
    ∃ out out2, interpHybridToPressure (demoOpts "linear" false (some "other")) 100000 [60000] none false labels (twoTimes z) steadyPs (vec "lev" 2 fun _ => 0)
        (vec "lev" 2 demoB) tBot phi = .ok out ∧
      interpHybridToPressure (demoOpts "linear" false (some "other")) 100000 [60000] none false labels
        (twoTimes fun k => fourierFilter { lowPass := true } 2 (1 / 2) 0 (z k)) steadyPs (vec "lev" 2 fun _ => 0) (vec "lev" 2 demoB) tBot phi = .ok out2 ∧
      ∃ r, TimeSeries "plev" out 2 (fun _ => 0) 0 r ∧ TimeSeries "plev" out2 2 (fun _ => 0) 0 (fourierFilter { lowPass := true } 2 (1 / 2) 0 r) := by
  have : NeZero 2 := ⟨by norm_num⟩
  obtain ⟨out, out2, ho, ho2, hr⟩ := C209_hybrid { lowPass := true } 2 (1 / 2) 0 (by norm_num) (by norm_num) le_rfl _ rfl "lev" "lev" 2 2 _ _ _ _ labels tBot phi steadyPs
    ⟨by simp [steadyPs], rfl, fun _ _ _ => rfl⟩ _ _ (twoTimes_good z) (twoTimes_good fun k => fourierFilter { lowPass := true } 2 (1 / 2) 0 (z k))
    (fun i _ k _ => ⟨z k, twoTimes_series z i k, twoTimes_series _ i k⟩)
  refine ⟨out, out2, ho, ho2, (hr (fun _ => 0) (fun _ _ => by simp [steadyPs]) 0 60000 rfl).2 ?_⟩
  intro hout
  rcases hout with hout | hout
  · have := hout 1 (by norm_num)
    rw [steady_pressure] at this
    norm_num at this
  · have := hout 0 (by norm_num)
    rw [steady_pressure] at this
    norm_num at this

end Verif.Props
