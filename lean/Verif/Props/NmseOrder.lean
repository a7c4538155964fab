import Verif.Props.Skill

/-
Property C218: nmse does not depend on the order in which the cells of the grid are stored.
-/

set_option linter.unusedSectionVars false

namespace Verif.Spec

/-- the cells of a field: distance from the equator in degrees, observed and modeled value -/
noncomputable def gridCells (lats : List ℝ) (o m : List (Option ℝ)) : List (ℝ × Option ℝ × Option ℝ) := List.zip (lats.map fun φ => |φ|) (List.zip o m)

/-- a grid with exactly equal steps -/
def ExactSteps (l : List ℝ) : Prop := ∃ a d : ℝ, ∀ (k : ℕ) (x : ℝ), l[k]? = some x → x = a + k * d

end Verif.Spec

namespace Verif.Props
open Model Spec Lemmas

namespace NmseOrder

theorem slice_perm {α : Type} (f g h : α → ℝ) {Z Z' : List α} (hp : Z'.Perm Z) :
    nmseSlice (Z'.map f) (Z'.map g) (Z'.map h) = nmseSlice (Z.map f) (Z.map g) (Z.map h) := by
  have hm : ∀ v : α → ℝ, weightedMean (Z'.map f) (Z'.map v) = weightedMean (Z.map f) (Z.map v) := by
    intro v
    unfold weightedMean
    rw [List.zipWith_map, List.zipWith_map, List.zipWith_self, List.zipWith_self, (hp.map f).sum_eq, (hp.map fun z => f z * v z).sum_eq]
  unfold nmseSlice
  simp only [List.zipWith_map, List.zipWith_self, List.map_map, hm, Function.comp_def]

theorem mask_map (lats : List ℝ) : ∀ (o m : List (Option ℝ)), o.length = lats.length → m.length = lats.length →
    maskVar (lats.map cosDeg) o m =
      ((gridCells lats o m).map (fun z => maskWeight (cosDeg z.1) z.2.1 z.2.2),
       (gridCells lats o m).map (fun z => maskValue (maskWeight (cosDeg z.1) z.2.1 z.2.2) z.2.1),
       (gridCells lats o m).map (fun z => maskValue (maskWeight (cosDeg z.1) z.2.1 z.2.2) z.2.2)) := by
  have hc : ∀ φ : ℝ, cosDeg |φ| = cosDeg φ := by
    intro φ
    unfold cosDeg
    rcases abs_choice φ with h | h <;> rw [h]
    rw [neg_mul, Real.cos_neg]
  induction lats with
  | nil => intro o m _ _; simp [maskVar, gridCells]
  | cons φ lats ih =>
    intro o m ho hm
    obtain ⟨a, o, rfl⟩ : ∃ c l, o = c :: l := List.exists_cons_of_length_eq_add_one ho
    obtain ⟨b, m, rfl⟩ : ∃ c l, m = c :: l := List.exists_cons_of_length_eq_add_one hm
    have := ih o m (by simpa using ho) (by simpa using hm)
    unfold maskVar gridCells at this ⊢
    simp only [Prod.mk.injEq] at this
    obtain ⟨h1, h2, h3⟩ := this
    simp only [List.map_cons, List.zip_cons_cons, List.zipWith_cons_cons, hc]
    rw [h2, h3, h1]

end NmseOrder

open NmseOrder

/-- **C218**. Two calls whose cells are the same in some order, with latitudes that may be mirrored at the equator, give the same value. -/
theorem C218_cells (obs mod obs' mod' : GeoInput ℝ) (no nm no' nm' : String) (o m o' m' : List (Option ℝ)) (lats lats' : List ℝ)
    (ho : obs.vars = [(no, o)]) (hm : mod.vars = [(nm, m)]) (ho' : obs'.vars = [(no', o')]) (hm' : mod'.vars = [(nm', m')])
    (hl : cellLats obs.lat obs.lon = some lats) (hl' : cellLats obs'.lat obs'.lon = some lats') (hp : (gridCells lats' o' m').Perm (gridCells lats o m))
    (r r' : XF ℝ) (h : nmse obs mod = .ok (.one r)) (h' : nmse obs' mod' = .ok (.one r')) : r' = r := by
  have key : ∀ (obs mod : GeoInput ℝ) (no nm : String) (o m : List (Option ℝ)) (lats : List ℝ) (r : XF ℝ), obs.vars = [(no, o)] → mod.vars = [(nm, m)] →
      cellLats obs.lat obs.lon = some lats → nmse obs mod = .ok (.one r) →
      r = nmseSlice ((gridCells lats o m).map (fun z => maskWeight (cosDeg z.1) z.2.1 z.2.2))
       ((gridCells lats o m).map (fun z => maskValue (maskWeight (cosDeg z.1) z.2.1 z.2.2) z.2.1))
       ((gridCells lats o m).map (fun z => maskValue (maskWeight (cosDeg z.1) z.2.1 z.2.2) z.2.2)) := by
    intro obs mod no nm o m lats r ho hm hl h
    obtain ⟨lats1, no1, nm1, o1, m1, hg, -, ho1, hm1, hr⟩ := (nmse_one_iff cosDeg obs mod _).mp h
    have e := hg.cells
    rw [hl] at e
    cases e
    rw [ho] at ho1
    rw [hm] at hm1
    cases ho1
    cases hm1
    have hlen := lengths_of_grid hg ho hm
    rw [hr, mask_map lats o m hlen.1 hlen.2]
  rw [key obs mod no nm o m lats r ho hm hl h, key obs' mod' no' nm' o' m' lats' r' ho' hm' hl' h']
  exact slice_perm _ _ _ hp

namespace NmseOrder

theorem even_of_exact (l : List ℝ) (a d : ℝ) (hd : d ≠ 0) (h2 : 2 ≤ l.length) (h : ∀ (k : ℕ) (x : ℝ), l[k]? = some x → x = a + k * d) :
    evenSpacing (.d1 l) = .ok true := by
  obtain ⟨x, y, l, rfl⟩ : ∃ x y t, l = x :: y :: t := by
    match l, h2 with
    | x :: y :: t, _ => exact ⟨x, y, t, rfl⟩
  have hall : ∀ z ∈ npDiff (x :: y :: l), z = d := by
    intro z hz
    obtain ⟨k, hk, e⟩ := List.getElem_of_mem hz
    have hk1 : k + 1 < (x :: y :: l).length := by
      simp [npDiff] at hk ⊢
      omega
    have hx := List.getElem?_eq_getElem (l := x :: y :: l) (show k < _ by omega)
    have hy := List.getElem?_eq_getElem hk1
    have h3 := npDiff_getElem? _ k _ _ hx hy
    rw [List.getElem?_eq_getElem hk, e, Option.some.injEq] at h3
    rw [h3, h _ _ hx, h _ _ hy]
    push_cast
    ring
  have e : npDiff (x :: y :: l) = (y - x) :: npDiff (y :: l) := rfl
  have h0 : y - x = d := hall _ (by rw [e]; simp)
  unfold evenSpacing
  simp only
  rw [if_neg]
  · rw [e]
    simp only [Except.ok.injEq, List.all_eq_true]
    intro z hz
    rw [← e] at hz
    rw [hall z hz, h0]
    unfold isClose
    rw [decide_eq_true_iff, sub_self, abs_zero]
    positivity
  · intro hz
    rw [List.all_eq_true] at hz
    have := hz (y - x) (by rw [e]; simp)
    rw [decide_eq_true_iff, h0] at this
    exact hd this

theorem even_reverse (l : List ℝ) (h : ExactSteps l) (he : evenSpacing (.d1 l) = .ok true) : evenSpacing (.d1 l.reverse) = .ok true := by
  obtain ⟨a, d, h⟩ := h
  have h2 : 2 ≤ l.length := by
    by_contra hc
    match l, hc with
    | [], _ => simp [evenSpacing, npDiff] at he
    | [x], _ => simp [evenSpacing, npDiff] at he
    | x :: y :: t, hc => simp at hc
  have hd : d ≠ 0 := by
    rintro rfl
    have hall : ((npDiff l).all fun x => decide (x = 0)) = true := by
      rw [List.all_eq_true]
      intro z hz
      obtain ⟨k, hk, e⟩ := List.getElem_of_mem hz
      have hk1 : k + 1 < l.length := by
        simp [npDiff] at hk
        omega
      have hx := List.getElem?_eq_getElem (l := l) (show k < _ by omega)
      have hy := List.getElem?_eq_getElem hk1
      have h3 := npDiff_getElem? _ k _ _ hx hy
      rw [List.getElem?_eq_getElem hk, e, Option.some.injEq] at h3
      rw [decide_eq_true_iff, h3, h _ _ hx, h _ _ hy]
      simp
    unfold evenSpacing at he
    simp only [hall, if_true] at he
    cases he
  refine even_of_exact _ (a + ((l.length - 1 : ℕ) : ℝ) * d) (-d) (neg_ne_zero.mpr hd) (by simpa using h2) fun k x hx => ?_
  have hk : k < l.length := by
    have := (List.getElem?_eq_some_iff.mp hx).1
    simpa using this
  rw [List.getElem?_reverse hk] at hx
  rw [h _ _ hx]
  have : ((l.length - 1 - k : ℕ) : ℝ) = ((l.length - 1 : ℕ) : ℝ) - k := Nat.cast_sub (by omega)
  rw [this]
  ring

theorem cells_rows (n : ℕ) (la : List ℝ) : ∀ (ro rm : List (List (Option ℝ))), ro.length = la.length → rm.length = la.length → (∀ x ∈ ro, x.length = n) →
    (∀ x ∈ rm, x.length = n) → gridCells (la.flatMap fun x => List.replicate n x) ro.flatten rm.flatten =
      (List.zip la (List.zip ro rm)).flatMap (fun z => gridCells (List.replicate n z.1) z.2.1 z.2.2) := by
  induction la with
  | nil => intro ro rm _ _ _ _; simp [gridCells]
  | cons x la ih =>
    intro ro rm ho hm hno hnm
    obtain ⟨a, ro, rfl⟩ : ∃ c l, ro = c :: l := List.exists_cons_of_length_eq_add_one ho
    obtain ⟨b, rm, rfl⟩ : ∃ c l, rm = c :: l := List.exists_cons_of_length_eq_add_one hm
    have := ih ro rm (by simpa using ho) (by simpa using hm) (fun y hy => hno y (by simp [hy])) (fun y hy => hnm y (by simp [hy]))
    have h1 := hno a (by simp)
    have h2 := hnm b (by simp)
    rw [List.zip_cons_cons, List.zip_cons_cons, List.flatMap_cons, List.flatMap_cons, ← this]
    unfold gridCells
    rw [List.map_append, List.flatten_cons, List.flatten_cons, List.zip_append (by rw [h1, h2]), List.zip_append (by simp [h1, h2])]

theorem zip_reverse {α β : Type} {l : List α} {l' : List β} (h : l.length = l'.length) : List.zip l.reverse l'.reverse = (List.zip l l').reverse := by
  rw [List.zip_eq_zipWith, List.zip_eq_zipWith, List.reverse_zipWith h]

theorem flatten_length (n : ℕ) (rows : List (List (Option ℝ))) (h : ∀ x ∈ rows, x.length = n) : rows.flatten.length = rows.length * n := by
  induction rows with
  | nil => simp
  | cons x rows ih =>
    rw [List.flatten_cons, List.length_append, ih fun y hy => h y (by simp [hy]), h x (by simp), List.length_cons]
    ring

end NmseOrder

/-- **C218**, from north to south or from south to north: turning the latitude axis of both fields round does not change the result. -/
theorem C218_flipped (obs mod : GeoInput ℝ) (no nm : String) (ro rm : List (List (Option ℝ))) (la lo : List ℝ)
    (ho : obs.vars = [(no, ro.flatten)]) (hm : mod.vars = [(nm, rm.flatten)]) (hla : obs.lat = .d1 la) (hla' : mod.lat = .d1 la) (hlo : obs.lon = .d1 lo)
    (hro : ro.length = la.length ∧ ∀ x ∈ ro, x.length = lo.length) (hrm : rm.length = la.length ∧ ∀ x ∈ rm, x.length = lo.length) (hex : ExactSteps la)
    (r : XF ℝ) (h : nmse obs mod = .ok (.one r)) :
    nmse { obs with lat := .d1 la.reverse, vars := [(no, ro.reverse.flatten)] } { mod with lat := .d1 la.reverse, vars := [(nm, rm.reverse.flatten)] } = .ok (.one r) := by
  obtain ⟨lats, no1, nm1, o1, m1, hg, hk, ho1, hm1, hr⟩ := (nmse_one_iff cosDeg obs mod _).mp h
  have hcells : cellLats obs.lat obs.lon = some (la.flatMap fun x => List.replicate lo.length x) := by rw [hla, hlo]; rfl
  have hcells' : cellLats (.d1 la.reverse) obs.lon = some (la.reverse.flatMap fun x => List.replicate lo.length x) := by rw [hlo]; rfl
  have hlen : ∀ l : List ℝ, (l.flatMap fun x => List.replicate lo.length x).length = l.length * lo.length := by
    intro l
    induction l with
    | nil => simp
    | cons x l ih => rw [List.flatMap_cons, List.length_append, ih, List.length_replicate, List.length_cons]; ring
  have hrev : ∀ rows : List (List (Option ℝ)), (∀ x ∈ rows, x.length = lo.length) → ∀ x ∈ rows.reverse, x.length = lo.length :=
    fun rows hx x hm => hx x (List.mem_reverse.mp hm)
  have hok : ∃ r', nmse { obs with lat := .d1 la.reverse, vars := [(no, ro.reverse.flatten)] } { mod with lat := .d1 la.reverse, vars := [(nm, rm.reverse.flatten)] } =
      .ok (.one r') := by
    refine ⟨_, (nmse_one_iff cosDeg _ _ _).mpr ⟨_, no, nm, _, _, ⟨hg.kind, hg.coords, hg.found, even_reverse la hex (hla ▸ hg.evenLat), hg.evenLon, hg.single,
      ⟨rfl, hg.labels.2⟩, hcells', ?_⟩, hk, rfl, rfl, rfl⟩⟩
    intro v hv
    simp only [List.cons_append, List.nil_append, List.mem_cons, List.not_mem_nil, or_false] at hv
    rcases hv with rfl | rfl
    · rw [hlen, flatten_length lo.length _ (hrev ro hro.2), List.length_reverse, List.length_reverse, hro.1]
    · rw [hlen, flatten_length lo.length _ (hrev rm hrm.2), List.length_reverse, List.length_reverse, hrm.1]
  obtain ⟨r', hr'⟩ := hok
  rw [hr']
  have := C218_cells obs mod _ _ no nm no nm _ _ _ _ _ _ ho hm rfl rfl hcells hcells' ?_ r r' h hr'
  · rw [this]
  rw [cells_rows _ _ _ _ (by simpa using hro.1) (by simpa using hrm.1) (hrev ro hro.2) (hrev rm hrm.2), cells_rows _ _ _ _ hro.1 hrm.1 hro.2 hrm.2]
  refine List.Perm.flatMap_right _ ?_
  rw [zip_reverse (by rw [hro.1, hrm.1]), zip_reverse (by simp [hro.1, hrm.1])]
  exact List.reverse_perm _

/-- two latitudes, stored from the equator northwards and the other way round -/
example : ∃ r, nmse (exField [some 1, some 2, none, some 5]) (exField [some 1, some 3, some 4, some 4]) = .ok (.one r) ∧
    nmse { exField [none, some 5, some 1, some 2] with lat := .d1 [60, 0] } { exField [some 4, some 4, some 1, some 3] with lat := .d1 [60, 0] } = .ok (.one r) := by
  obtain ⟨r, hr⟩ := exField_ok [some 1, some 2, none, some 5] [some 1, some 3, some 4, some 4] rfl rfl
  refine ⟨r, hr, ?_⟩
  exact C218_flipped (exField [some 1, some 2, none, some 5]) (exField [some 1, some 3, some 4, some 4]) "t" "t" [[some 1, some 2], [none, some 5]] [[some 1, some 3], [some 4, some 4]] [0, 60] [0, 10] rfl rfl rfl rfl rfl
    ⟨rfl, by simp⟩ ⟨rfl, by simp⟩ ⟨0, 60, fun k x hx => by
      match k with
      | 0 => simp at hx; simp [← hx]
      | 1 => simp at hx; simp [← hx]
      | k + 2 => simp at hx⟩ r hr

/-- a field on three latitudes and two longitudes -/
def edgeGrid (la : List ℚ) : GeoInput ℚ :=
  { kind := .dataArray, coords := ["lat", "lon"], found := true, manyLat := false, manyLon := false, lat := .d1 la, lon := .d1 [0, 10],
    vars := [("t", [some 1, some 2, some 3, some 4, some 5, some 6])] }

/-- **C218**, what does not hold: on a grid at the edge of the tolerance of the spacing test the direction of the axis decides, since all steps are compared with the
first one. From north to south this grid is accepted, from south to north it is rejected. -/
theorem C218_direction_counterexample (wt : ℚ → ℚ) :
    (∃ out, nmseWith wt (edgeGrid [200001001005 / 100000000000, 1, 0]) (edgeGrid [200001001005 / 100000000000, 1, 0]) = .ok out) ∧
    nmseWith wt (edgeGrid [0, 1, 200001001005 / 100000000000]) (edgeGrid [0, 1, 200001001005 / 100000000000]) = .error .valueError := by
  constructor
  · refine ⟨_, nmse_run wt _ _ [200001001005 / 100000000000, 200001001005 / 100000000000, 1, 1, 0, 0] ⟨?_, ?_, ?_, ?_, ?_, ?_, ?_, ?_, ?_⟩⟩ <;> decide +kernel
  · have h : evenSpacing (edgeGrid [0, 1, 200001001005 / 100000000000]).lat = .ok false := by decide +kernel
    have h2 : evenSpacing (.d1 [(0 : ℚ), 10]) = .ok true := by decide +kernel
    unfold nmseWith
    rw [h]
    simp [h2, edgeGrid, bind, Except.bind, throw, throwThe, MonadExceptOf.throw]

end Verif.Props
