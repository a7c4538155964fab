import Verif.Model.MetLabels
import Verif.Lemmas.RelhumIce
import Verif.Props.DeltaPressure
import Mathlib.Tactic.NormNum
import Mathlib.Tactic.Linarith

/-
Properties C111-C113, C117: labels of the DataArrays returned by the meteorology functions.
-/

set_option linter.unusedSectionVars false
namespace Verif.Lemmas
open Verif Verif.Model Verif.XF

/-- shared dimensions have the same size -/
def Agree {α β : Type _} (a : LArr α) (b : LArr β) : Prop := ∀ d ∈ a.dims, d ∈ b.dims → a.size d = b.size d

theorem zip_ok {α β γ : Type _} (f : α → β → γ) (a : LArr α) (b : LArr β) (h : Agree a b) :
    LArr.zip f a b = .ok ⟨a.dims ++ b.dims.filter (fun d => !a.dims.contains d),
      fun d => if a.dims.contains d then a.size d else b.size d, fun i => f (a.get i) (b.get i)⟩ := by
  unfold LArr.zip
  rw [if_pos]
  rw [List.all_eq_true]
  intro d hd
  by_cases hb : d ∈ b.dims
  · simp [h d hd hb]
  · simp [hb]

theorem filter_not_subset {a b : List String} (h : ∀ d ∈ b, d ∈ a) : b.filter (fun d => !a.contains d) = [] := by
  rw [List.filter_eq_nil_iff]
  intro d hd
  simp [h d hd]

/-- the computation lines the three arrays up by name; if they have the same dimensions the result has the order of the mixing ratio -/
theorem relhumNames_ok (est : XF ℝ → XF ℝ) (t w p : LArr (XF ℝ)) (hw : ∀ d, d ∈ w.dims ↔ d ∈ t.dims) (hp : ∀ d, d ∈ p.dims ↔ d ∈ t.dims)
    (sw : Agree w t) (sp : Agree p t) :
    ∃ r, relhumNames est t w p = .ok r ∧ r.dims = w.dims ∧ (∀ d ∈ w.dims, r.size d = w.size d) ∧
      ∀ i, r.get i = fin 100 * (w.get i / qst (est (t.get i)) (p.get i)) := by
  unfold relhumNames
  have e1 := zip_ok (fun p e => (p * fin 0.01) - fin 0.378 * e) p (t.map est) (fun d h1 h2 => sp d h1 h2)
  simp only [bind, Except.bind]
  rw [e1]
  simp only
  rw [filter_not_subset (a := p.dims) (b := (t.map est).dims) (fun d hd => (hp d).mpr hd), List.append_nil]
  have e2 := zip_ok (fun e d => (fin 0.622 * e) / d) (t.map est)
    (⟨p.dims, fun d => if p.dims.contains d then p.size d else (t.map est).size d,
      fun i => (p.get i * fin 0.01) - fin 0.378 * ((t.map est).get i)⟩ : LArr (XF ℝ)) (by
        intro d h1 h2
        have h2' : d ∈ p.dims := h2
        simp only [List.contains_eq_mem, h2', decide_true, if_true]
        exact (sp d h2' h1).symm)
  rw [e2]
  simp only
  rw [filter_not_subset (a := (t.map est).dims) (b := p.dims) (fun d hd => (hp d).mp hd), List.append_nil]
  rw [zip_ok]
  · refine ⟨_, rfl, ?_, ?_, ?_⟩
    · simp only
      rw [filter_not_subset (a := w.dims) (b := (t.map est).dims) (fun d hd => (hw d).mpr hd), List.append_nil]
    · intro d hd
      simp [hd]
    · intro i; rfl
  · intro d h1 h2
    have h2' : d ∈ (t.map est).dims := h2
    simp only [List.contains_eq_mem, h2', decide_true, if_true]
    exact sw d h1 h2

end Verif.Lemmas

namespace Verif.Props
open Verif.Model Verif.Spec Verif.Lemmas Verif.XF

/-! ### C112 dimension names -/

/-- `out` is `f` of the inputs at every labelled point: its dimensions are those of the temperature, and the value at the point with
index `i d` along each dimension `d` is computed from the values of the inputs at that same point. -/
def AtLabels (f : XF ℝ → XF ℝ → XF ℝ → XF ℝ) (t w p out : LArr (XF ℝ)) : Prop :=
  out.dims = t.dims ∧ (∀ d ∈ t.dims, out.size d = t.size d) ∧ ∀ i, out.get i = f (t.get i) (w.get i) (p.get i)

/-- three arrays over the same named dimensions (in any order) and of the same shape -/
structure SameNames (t w p : LArr (XF ℝ)) : Prop where
  namesW : ∀ d, d ∈ w.dims ↔ d ∈ t.dims
  namesP : ∀ d, d ∈ p.dims ↔ d ∈ t.dims
  sizeW : ∀ d ∈ t.dims, w.size d = t.size d
  sizeP : ∀ d ∈ t.dims, p.size d = t.size d
  shapeW : w.shape = t.shape
  shapeP : p.shape = t.shape
  wft : t.WF
  wfw : w.WF
  wfp : p.WF

theorem relhumDA_eq (est : XF ℝ → XF ℝ) (t w p : LArr (XF ℝ)) (h : SameNames t w p) :
    ∃ r, relhumDA est t w p = .ok r ∧ r.dims = t.dims ∧ (∀ d ∈ t.dims, r.size d = t.size d) ∧
      ∀ i, r.get i = (fun j => fin 100 * (w.get j / qst (est (t.get j)) (p.get j)))
        (fun d => i (t.dims.getD (w.dims.idxOf d) "")) := by
  obtain ⟨r, e1, e2, e3, e4⟩ := relhumNames_ok est t w p h.namesW h.namesP (fun d h1 h2 => h.sizeW d h2) (fun d h1 h2 => h.sizeP d h2)
  have hs : r.shape = t.dims.map t.size := by
    have : r.shape = w.shape := by
      unfold LArr.shape
      rw [e2]
      exact List.map_congr_left e3
    rw [this, h.shapeW]; rfl
  refine ⟨⟨t.dims, t.size, fun i => r.get (fun d => i (t.dims.getD (r.dims.idxOf d) ""))⟩, ?_, rfl, fun _ _ => rfl, ?_⟩
  · unfold relhumDA
    simp only [bind, Except.bind, e1]
    rw [if_neg (by rw [h.shapeW, h.shapeP]; simp)]
    simp only [pure, Except.pure, relabel]
    rw [if_neg (by simp [hs])]
  · intro i
    simp only [e4, e2]

theorem idx_self (l : List String) (d : String) (h : d ∈ l) : l.getD (l.idxOf d) "" = d := by
  have := List.idxOf_lt_length_of_mem h
  rw [List.getD_eq_getElem?_getD, List.getElem?_eq_getElem this]
  simp

/-- **C112, relhum_ice and relhum_water** (partial). If temperature and mixing ratio list their dimensions in the same order (the
pressure may differ), every labelled point gets the value computed from the inputs at that point. Missing: a mixing ratio with
another dimension order, for which the result is silently transposed (`C112_counterexample`, `C112_transposed`). -/
theorem C112_relhum_ice_partial (t w p : LArr (XF ℝ)) (h : SameNames t w p) (hd : w.dims = t.dims) :
    (∃ r, relhumIceDA t w p = .ok r ∧ AtLabels relhumIcePoint t w p r) ∧
    (∃ r, relhumWaterDA t w p = .ok r ∧ AtLabels relhumWaterPoint t w p r) := by
  have key : ∀ est : XF ℝ → XF ℝ, ∃ r, relhumDA est t w p = .ok r ∧
      AtLabels (fun t w p => fin 100 * (w / qst (est t) p)) t w p r := by
    intro est
    obtain ⟨r, e1, e2, e3, e4⟩ := relhumDA_eq est t w p h
    refine ⟨r, e1, e2, e3, fun i => ?_⟩
    rw [e4 i]
    simp only
    have hi : ∀ d ∈ t.dims, i (t.dims.getD (w.dims.idxOf d) "") = i d := by
      intro d hdm
      rw [hd, idx_self _ _ hdm]
    rw [h.wft _ i hi, h.wfw _ i (fun d hdm => hi d ((h.namesW d).mp hdm)), h.wfp _ i (fun d hdm => hi d ((h.namesP d).mp hdm))]
  exact ⟨key estIce, key estWater⟩

/-- **C112, exact.** In general the value stored at a labelled point is the correct value of another point: the index along the `k`-th
dimension of the temperature is used for the `k`-th dimension of the mixing ratio. -/
theorem C112_transposed (t w p : LArr (XF ℝ)) (h : SameNames t w p) :
    ∃ r, relhumIceDA t w p = .ok r ∧ r.dims = t.dims ∧
      ∀ i j, (∀ k < t.dims.length, ∀ a b, t.dims[k]? = some a → w.dims[k]? = some b → j b = i a) → w.dims.Nodup →
        w.dims.length = t.dims.length →
        r.get i = relhumIcePoint (t.get j) (w.get j) (p.get j) := by
  obtain ⟨r, e1, e2, e3, e4⟩ := relhumDA_eq estIce t w p h
  refine ⟨r, e1, e2, fun i j hij hnd hlen => ?_⟩
  rw [e4 i]
  have hj : ∀ d ∈ w.dims, i (t.dims.getD (w.dims.idxOf d) "") = j d := by
    intro d hd
    have hlt := List.idxOf_lt_length_of_mem hd
    have hlt' : w.dims.idxOf d < t.dims.length := by omega
    have hb : w.dims[w.dims.idxOf d]? = some d := by rw [List.getElem?_eq_getElem hlt]; simp
    have ha : t.dims[w.dims.idxOf d]? = some t.dims[w.dims.idxOf d] := List.getElem?_eq_getElem hlt'
    rw [List.getD_eq_getElem?_getD, ha, Option.getD_some]
    exact (hij _ hlt' _ _ ha hb).symm
  simp only
  rw [h.wft _ j (fun d hd => hj d ((h.namesW d).mpr hd)), h.wfw _ j hj, h.wfp _ j (fun d hd => hj d ((h.namesW d).mpr ((h.namesP d).mp hd)))]
  rfl

/-- a 2×2 array over `lat`, `lon` in the given order -/
def square (dims : List String) (f : ℕ → ℕ → ℝ) : LArr (XF ℝ) := ⟨dims, fun _ => 2, fun i => fin (f (i "lat") (i "lon"))⟩

theorem square_names (a b c : List String) (ha : a = ["lat", "lon"] ∨ a = ["lon", "lat"]) (hb : b = ["lat", "lon"] ∨ b = ["lon", "lat"])
    (hc : c = ["lat", "lon"] ∨ c = ["lon", "lat"]) (f g k : ℕ → ℕ → ℝ) : SameNames (square a f) (square b g) (square c k) := by
  have hm : ∀ l : List String, (l = ["lat", "lon"] ∨ l = ["lon", "lat"]) → ∀ d, d ∈ l ↔ d = "lat" ∨ d = "lon" := by
    rintro l (rfl | rfl) d <;> simp [or_comm]
  have hwf : ∀ l : List String, (l = ["lat", "lon"] ∨ l = ["lon", "lat"]) → ∀ f : ℕ → ℕ → ℝ, (square l f).WF := by
    intro l hl f i j hij
    simp only [square] at hij ⊢
    rw [hij "lat" ((hm l hl _).mpr (Or.inl rfl)), hij "lon" ((hm l hl _).mpr (Or.inr rfl))]
  have hsh : ∀ l : List String, (l = ["lat", "lon"] ∨ l = ["lon", "lat"]) → ∀ f : ℕ → ℕ → ℝ, (square l f).shape = [2, 2] := by
    rintro l (rfl | rfl) f <;> rfl
  exact ⟨fun d => by simp only [square]; rw [hm b hb, hm a ha], fun d => by simp only [square]; rw [hm c hc, hm a ha],
    fun _ _ => rfl, fun _ _ => rfl, by rw [hsh b hb, hsh a ha], by rw [hsh c hc, hsh a ha], hwf a ha f, hwf b hb g, hwf c hc k⟩

/-- **C112 counterexample.** Temperature and pressure over (lat, lon), mixing ratio over (lon, lat): the humidity reported at lat 0,
lon 1, where the mixing ratio is 0.001, is zero. No error is raised. -/
theorem C112_counterexample :
    ∃ t w p r : LArr (XF ℝ), SameNames t w p ∧ relhumIceDA t w p = .ok r ∧
      ∃ i : String → ℕ, w.get i = fin 0.001 ∧ r.get i = fin 0 ∧ relhumIcePoint (t.get i) (w.get i) (p.get i) ≠ fin 0 := by
  have hn := square_names ["lat", "lon"] ["lon", "lat"] ["lat", "lon"] (Or.inl rfl) (Or.inr rfl) (Or.inl rfl)
    (fun _ _ => 273.15) (fun a o => if a = 0 ∧ o = 1 then 0.001 else 0) (fun _ _ => 100000)
  obtain ⟨r, e1, e2, e3⟩ := C112_transposed _ _ _ hn
  refine ⟨_, _, _, r, hn, e1, fun d => if d = "lon" then 1 else 0, ?_, ?_, ?_⟩
  · simp [square]
  · rw [e3 _ (fun d => if d = "lat" then 1 else 0)]
    · simp only [square, relhumIcePoint]
      rw [estIce_fin (by norm_num), rh_of_est (magnusIce_pos _)]
      simp
    · intro k hk a b ha hb
      simp only [square] at ha hb hk
      rcases k with _ | _ | k
      · simp at ha hb; subst ha; subst hb; decide
      · simp at ha hb; subst ha; subst hb; decide
      · simp at hk
    · simp [square]
    · rfl
  · simp only [square, relhumIcePoint]
    rw [estIce_fin (by norm_num), rh_of_est (magnusIce_pos _)]
    have h1 : magnusIce (273.15 - 273.15) = 6.1128 := by unfold magnusIce; norm_num
    rw [h1]
    norm_num
    decide

/-- **C112, the other humidity functions.** dewtemp, relhum and heat_index line their inputs up by name in every case: whatever the
orders of the dimensions, the value at a labelled point is computed from the inputs at that point. -/
theorem C112_by_name (alt : Bool) (t w p : LArr (XF ℝ)) (h : SameNames t w p) :
    (∃ r, dewtempDA t w = .ok r ∧ r.dims = t.dims ∧ ∀ i, r.get i = dewtempPoint (t.get i) (w.get i)) ∧
    (∃ r, heatIndexDA alt t w = .ok r ∧ r.dims = w.dims ∧ ∀ i, r.get i = heatIndexPoint alt (t.get i) (w.get i)) ∧
    (∃ r, relhumTableDA t w p = .ok r ∧ r.dims = w.dims ∧ ∀ i, r.get i = relhumOfEs (relhumEsD (t.get i)) (w.get i) (p.get i)) := by
  refine ⟨?_, ?_, ?_⟩
  · refine ⟨_, zip_ok _ _ _ (fun d h1 h2 => (h.sizeW d h1).symm), ?_, fun i => rfl⟩
    simp only
    rw [filter_not_subset (fun d hd => (h.namesW d).mp hd), List.append_nil]
  · unfold heatIndexDA
    simp only [bind, Except.bind]
    rw [if_neg (by rw [h.shapeW]; simp)]
    refine ⟨_, zip_ok _ _ _ (fun d h1 h2 => h.sizeW d h2), ?_, fun i => rfl⟩
    simp only
    rw [filter_not_subset (fun d hd => (h.namesW d).mpr hd), List.append_nil]
  · unfold relhumTableDA
    simp only [bind, Except.bind]
    rw [zip_ok Prod.mk p (t.map relhumEsD) (fun d h1 h2 => h.sizeP d h2)]
    simp only
    rw [zip_ok]
    · refine ⟨_, rfl, ?_, fun i => rfl⟩
      simp only
      rw [filter_not_subset, List.append_nil]
      intro d hd
      rcases List.mem_append.mp hd with hd | hd
      · exact (h.namesW d).mpr ((h.namesP d).mp hd)
      · exact (h.namesW d).mpr (List.mem_of_mem_filter hd)
    · intro d h1 h2
      simp only
      have hdt := (h.namesW d).mp h1
      simp only [List.contains_eq_mem, (h.namesP d).mpr hdt, decide_true, if_true]
      rw [h.sizeW d hdt, h.sizeP d hdt]

example : ∃ r, relhumIceDA (square ["lat", "lon"] (fun _ _ => 260)) (square ["lat", "lon"] (fun a o => 0.001 * (a + o)))
      (square ["lon", "lat"] (fun _ _ => 80000)) = .ok r ∧ r.dims = ["lat", "lon"] := by
  obtain ⟨⟨r, h1, h2, -⟩, -⟩ := C112_relhum_ice_partial _ _ _ (square_names ["lat", "lon"] ["lat", "lon"] ["lon", "lat"] (Or.inl rfl)
    (Or.inl rfl) (Or.inr rfl) (fun _ _ => 260) (fun a o => 0.001 * (a + o)) (fun _ _ => 80000)) rfl
  exact ⟨r, h1, h2⟩

/-! ### C113 units -/

/-- the documented unit of the result -/
def unitOf : MetFn → String
  | .dewtemp => "Kelvin"
  | .heatIndex => "F"
  | .relhum | .relhumIce | .relhumWater => "percentage"
  | .maxDaylight => "hours/day"
  | .psychrometric | .svpSlope => "kPa/C"
  | .svp | .actualSvp => "kPa"

/-- **C113** (partial). Whatever attributes the inputs carry, the result says what its units are. Missing: relhum_ice and relhum_water
(`C113_counterexample`). -/
theorem C113_units_partial (f : MetFn) (h1 : f ≠ .relhumIce) (h2 : f ≠ .relhumWater) (base t : Attrs) :
    metAttrs f base t "units" = some (unitOf f) ∧ (metAttrs f base t "long_name").isSome := by
  cases f <;> first | exact absurd rfl h1 | exact absurd rfl h2 | (constructor <;> rfl)

/-- **C113 counterexample.** relhum_ice and relhum_water return a percentage labelled with all attributes of the temperature, in
particular its units. -/
theorem C113_counterexample :
    ∃ t : Attrs, ∀ base, metAttrs .relhumIce base t "units" = some "K" ∧ metAttrs .relhumWater base t "units" = some "K" ∧
      metAttrs .relhumIce base t "long_name" = some "Temperature" :=
  ⟨setAttr (setAttr noAttrs "units" "K") "long_name" "Temperature", fun _ => ⟨rfl, rfl, rfl⟩⟩

/-! ### C111 delta_pressure -/

variable {K : Type _} [Field K] [LinearOrder K] [IsStrictOrderedRing K]

/-- **C111** (partial). For a DataArray of surface pressures the result is a DataArray with the extra last dimension `lev`, whose coordinate is the
level array in the given order; the entry at `idx ++ [k]` is entry `k` of the column at `idx`, so it belongs to the label of level
`k`; all attributes, in particular the units, are those of the levels if these are a DataArray. Missing: `long_name`
(`C111_counterexample`). -/
theorem C111_labels_partial (levAttrs : Option Attrs) (p : List K) (hp : 2 ≤ p.length) (dims : List String) (attrs : Attrs)
    (ps : NDArr (XF K)) (ptop : Option K) (hwf : ps.data.length = ps.shape.prod) (hdims : dims.length = ps.shape.length)
    (r : LevelDA (XF K)) (c : List K) (hr : deltaPressureDA levAttrs p dims attrs ps ptop = .ok (r, c)) :
    r.dims = dims ++ ["lev"] ∧ r.dims.length = r.arr.shape.length ∧ c = p ∧ r.arr.shape = ps.shape ++ [c.length] ∧
    (∀ idx, ValidIndex ps.shape idx → ∃ e d, ps.data[offset ps.shape idx]? = some e ∧ deltaPressure p e ptop = .ok d ∧
      ∀ k, k < c.length → r.arr.data[offset r.arr.shape (idx ++ [k])]? = d[k]?) ∧
    (∀ key, key ≠ "long name" → r.attrs key = (levAttrs.getD attrs) key) := by
  unfold deltaPressureDA at hr
  cases hnd : deltaPressureND p ps ptop with
  | error e => simp only [hnd, bind, Except.bind] at hr; cases hr
  | ok q =>
    simp only [hnd, bind, Except.bind, pure, Except.pure, Except.ok.injEq, Prod.mk.injEq] at hr
    obtain ⟨h1, rfl⟩ := hr
    subst h1
    obtain ⟨e1, e2, e3⟩ := C05_nd_pointwise p hp ps ptop hwf q hnd
    refine ⟨rfl, ?_, rfl, e1, ?_, ?_⟩
    · simp [e1, hdims]
    · intro idx hidx
      obtain ⟨e, d, g1, g2, -, g4⟩ := e3 idx hidx
      exact ⟨e, d, g1, g2, g4⟩
    · intro key hk
      simp only [setAttr, if_neg hk]
      cases levAttrs <;> rfl

/-- **C111 counterexample.** The description is stored under the key `long name` (with a blank), so for levels with a `long_name` the
thicknesses are labelled as pressure levels. -/
theorem C111_counterexample :
    ∃ (la : Attrs) (r : LevelDA (XF ℚ)) (c : List ℚ),
      deltaPressureDA (some la) [100, 200, 300] ["time"] noAttrs ⟨[1], [.fin 260]⟩ none = .ok (r, c) ∧
      r.attrs "long_name" = some "pressure level" := by
  cases h : deltaPressureND [100, 200, 300] ⟨[1], [XF.fin (260 : ℚ)]⟩ none with
  | error e =>
    have h' : (deltaPressureND [100, 200, 300] ⟨[1], [XF.fin (260 : ℚ)]⟩ none).isOk = true := by decide +kernel
    rw [h] at h'; cases h'
  | ok q =>
    refine ⟨setAttr noAttrs "long_name" "pressure level", ⟨q, ["time", "lev"],
      setAttr (setAttr noAttrs "long_name" "pressure level") "long name" "pressure layer thickness", "delta pressure"⟩, [100, 200, 300], ?_, rfl⟩
    unfold deltaPressureDA
    rw [h]
    rfl

/-! ### C117 max_daylight -/

/-- **C117** (partial). One-dimensional arguments: the result is labelled with the given days and latitudes, and the entry for day `d` and
latitude `l` is the day length of that day and latitude. Missing: scalar arguments (`C117_counterexample`). -/
theorem C117_labels_partial (jday lat : Tensor (XF ℝ)) (hj : jday.shape.length = 1) (hl : lat.shape.length = 1) :
    ∃ w r, maxDaylightDA jday lat = .ok (w, r, jday.values, lat.values) ∧ r.shape = [jday.values.length, lat.values.length] ∧
      ∀ d l a b, jday.values[d]? = some a → lat.values[l]? = some b → r.get [d, l] = daylightPoint a b := by
  let g : List ℕ → XF ℝ := fun i => match i with
      | [d, l] => daylightPoint (jday.values.getD d nan) (lat.values.getD l nan)
      | _ => nan
  have hm : maxDaylight jday lat = .ok (daylightWarning lat.values, ⟨[jday.values.length, lat.values.length], g⟩) := by
    unfold maxDaylight
    rw [if_neg (by omega)]
    rfl
  refine ⟨daylightWarning lat.values, ⟨[jday.values.length, lat.values.length], g⟩, ?_, rfl, ?_⟩
  · unfold maxDaylightDA
    simp only [hm, bind, Except.bind]
    rw [if_neg (by omega)]
    rfl
  · intro d l a b ha hb
    simp only [g, List.getD_eq_getElem?_getD, ha, hb, Option.getD_some]

/-- **C117 counterexample.** A DataArray of days with a single latitude given as a number raises ValueError, although the same call with
a numpy array of days works. -/
theorem C117_counterexample :
    ∃ jday lat : Tensor (XF ℝ), maxDaylightDA jday lat = .error .valueError ∧ ∃ w r, maxDaylight jday lat = .ok (w, r) := by
  refine ⟨⟨[3], fun _ => fin 100⟩, ⟨[], fun _ => fin 40⟩, ?_, ?_⟩
  · unfold maxDaylightDA maxDaylight
    simp only [bind, Except.bind]
    rw [if_neg (by simp)]
    simp
    rfl
  · unfold maxDaylight
    rw [if_neg (by simp)]
    exact ⟨_, _, rfl⟩

example : ∃ w r, maxDaylightDA ⟨[2], fun i => fin (100 + (i.sum : ℝ))⟩ ⟨[3], fun i => fin (10 * (i.sum : ℝ))⟩ = .ok (w, r) := by
  obtain ⟨w, r, h, -⟩ := C117_labels_partial ⟨[2], fun i => fin (100 + (i.sum : ℝ))⟩ ⟨[3], fun i => fin (10 * (i.sum : ℝ))⟩ rfl rfl
  exact ⟨w, _, h⟩

end Verif.Props
