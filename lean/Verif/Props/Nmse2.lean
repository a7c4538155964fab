import Verif.Props.Nmse

/-
C62, the exact test of the spacing.
-/

set_option linter.unusedSectionVars false

namespace Verif.Props
open Model Spec Lemmas
variable {K : Type _} [Field K] [LinearOrder K] [IsStrictOrderedRing K]

/-- the values of a 2-D coordinate along its first dimension, at position `j` of the second -/
def coordColumn (rows : List (List K)) (j : ℕ) : List K := rows.map (fun r => r.getD j 0)

/-- coordinates with two different values (1-D), or with at least one row, all rows being equally long (2-D) -/
def UsableCoord : CoordArr K → Prop
  | .d1 l => ∃ (i : ℕ) (x y : K), l[i]? = some x ∧ l[i + 1]? = some y ∧ x ≠ y
  | .d2 rows => ∃ m : ℕ, rows ≠ [] ∧ ∀ r ∈ rows, r.length = m

/-- what the code accepts: evenly spaced 1-D coordinates; 2-D coordinates evenly spaced along their first dimension -/
def SpacingAccepted : CoordArr K → Prop
  | .d1 l => EvenSteps l
  | .d2 rows => ∀ j < (rows.headD []).length, EvenSteps (coordColumn rows j)

theorem npDiff_length (l : List K) : (npDiff l).length = l.length - 1 := by
  unfold npDiff
  simp

theorem mem_npDiff (l : List K) (d : K) : d ∈ npDiff l ↔ ∃ (i : ℕ) (x y : K), l[i]? = some x ∧ l[i + 1]? = some y ∧ d = y - x := by
  constructor
  · intro h
    obtain ⟨i, hi⟩ := List.mem_iff_getElem?.mp h
    unfold npDiff at hi
    rw [List.getElem?_zipWith_eq_some] at hi
    obtain ⟨y, x, hy, hx, rfl⟩ := hi
    rw [List.getElem?_tail] at hy
    exact ⟨i, x, y, hx, hy, rfl⟩
  · rintro ⟨i, x, y, hx, hy, rfl⟩
    exact List.mem_of_getElem? (npDiff_getElem? l i x y hx hy)

/-- 1-D coordinates -/
theorem evenSpacing_d1 (l : List K) (h : UsableCoord (.d1 l)) :
    (evenSpacing (.d1 l) = .ok true ∧ EvenSteps l) ∨ (evenSpacing (.d1 l) = .ok false ∧ ¬ EvenSteps l) := by
  obtain ⟨i, x, y, hx, hy, hne⟩ := h
  have hd : ¬ ((npDiff l).all (fun x => decide (x = 0)) = true) := by
    intro hall
    rw [List.all_eq_true] at hall
    have := hall _ (List.mem_of_getElem? (npDiff_getElem? l i x y hx hy))
    rw [decide_eq_true_iff, sub_eq_zero] at this
    exact hne this.symm
  unfold evenSpacing
  simp only [if_neg hd]
  cases hn : npDiff l with
  | nil =>
    rw [hn] at hd
    exact absurd rfl hd
  | cons d0 ds =>
    obtain ⟨x0, x1, h0, h1, hd0⟩ : ∃ x0 x1, l[0]? = some x0 ∧ l[1]? = some x1 ∧ d0 = x1 - x0 := by
      have : (npDiff l)[0]? = some d0 := by rw [hn]; rfl
      unfold npDiff at this
      rw [List.getElem?_zipWith_eq_some] at this
      obtain ⟨y, x, hy, hx, rfl⟩ := this
      rw [List.getElem?_tail] at hy
      exact ⟨x, y, hx, hy, rfl⟩
    have hiff : (d0 :: ds).all (fun x => isClose x d0) = true ↔ EvenSteps l := by
      rw [← hn, List.all_eq_true]
      constructor
      · intro hall i a0 a1 a b g0 g1 ga gb
        have := hall _ (List.mem_of_getElem? (npDiff_getElem? l i a b ga gb))
        unfold isClose at this
        rw [decide_eq_true_iff, hd0] at this
        rw [h0] at g0
        rw [h1] at g1
        injection g0 with g0
        injection g1 with g1
        rw [← g0, ← g1]
        exact this
      · intro hev d hdm
        obtain ⟨i, a, b, ga, gb, rfl⟩ := (mem_npDiff l d).mp hdm
        unfold isClose
        rw [decide_eq_true_iff, hd0]
        exact hev i x0 x1 a b h0 h1 ga gb
    by_cases hb : (d0 :: ds).all (fun x => isClose x d0) = true
    · exact .inl ⟨by simp only [hb], hiff.mp hb⟩
    · exact .inr ⟨by simp only [Bool.not_eq_true] at hb; simp only [hb], fun he => hb (hiff.mpr he)⟩

theorem npDiffRows_getElem? (rows : List (List K)) (i : ℕ) (a b : List K) (ha : rows[i]? = some a) (hb : rows[i + 1]? = some b) :
    (npDiffRows rows)[i]? = some (List.zipWith (fun b a => b - a) b a) := by
  unfold npDiffRows
  rw [List.getElem?_zipWith_eq_some]
  exact ⟨b, a, by rw [List.getElem?_tail]; exact hb, ha, rfl⟩

theorem mem_npDiffRows (rows : List (List K)) (d : List K) (h : d ∈ npDiffRows rows) :
    ∃ (i : ℕ) (a b : List K), rows[i]? = some a ∧ rows[i + 1]? = some b ∧ d = List.zipWith (fun b a => b - a) b a := by
  obtain ⟨i, hi⟩ := List.mem_iff_getElem?.mp h
  unfold npDiffRows at hi
  rw [List.getElem?_zipWith_eq_some] at hi
  obtain ⟨b, a, hb, ha, rfl⟩ := hi
  rw [List.getElem?_tail] at hb
  exact ⟨i, a, b, ha, hb, rfl⟩

theorem isClose_self (x : K) : isClose x x = true := by
  unfold isClose
  rw [decide_eq_true_iff, sub_self, abs_zero]
  positivity

theorem getD_of_getElem? (l : List K) (j : ℕ) (x : K) (h : l[j]? = some x) : l.getD j 0 = x := by
  rw [List.getD_eq_getElem?_getD, h]; rfl

/-- if no value changes along the first dimension, all rows are equal -/
theorem rows_equal (rows : List (List K)) (m : ℕ) (hm : ∀ r ∈ rows, r.length = m)
    (h0 : (npDiffRows rows).all (fun r => r.all (fun x => decide (x = 0))) = true) (r0 : List K) (hr0 : rows[0]? = some r0) :
    ∀ (i : ℕ) (r : List K), rows[i]? = some r → r = r0 := by
  intro i
  induction i with
  | zero => intro r hr; rw [hr0] at hr; injection hr with hr; exact hr.symm
  | succ i ih =>
    intro r hr
    obtain ⟨a, ha⟩ : ∃ a, rows[i]? = some a := ⟨_, List.getElem?_eq_getElem (by
      have := (List.getElem?_eq_some_iff.mp hr).1
      omega)⟩
    have hra := ih a ha
    have hmem := List.mem_of_getElem? (npDiffRows_getElem? rows i a r ha hr)
    rw [List.all_eq_true] at h0
    have hz := h0 _ hmem
    rw [List.all_eq_true] at hz
    rw [← hra]
    have hla := hm a (List.mem_of_getElem? ha)
    have hlr := hm r (List.mem_of_getElem? hr)
    refine List.ext_getElem (by rw [hla, hlr]) fun j h1 h2 => ?_
    have := hz (r[j] - a[j]) (List.mem_of_getElem? (i := j) (by
      rw [List.getElem?_zipWith_eq_some]
      exact ⟨r[j], a[j], List.getElem?_eq_getElem h1, List.getElem?_eq_getElem h2, rfl⟩))
    rw [decide_eq_true_iff, sub_eq_zero] at this
    exact this

theorem coordColumn_getElem? (rows : List (List K)) (i j : ℕ) (r : List K) (x : K) (hr : rows[i]? = some r) (hx : r[j]? = some x) :
    (coordColumn rows j)[i]? = some x := by
  unfold coordColumn
  rw [List.getElem?_map, hr, Option.map_some, getD_of_getElem? r j x hx]

/-- 2-D coordinates -/
theorem evenSpacing_d2 (rows : List (List K)) (h : UsableCoord (.d2 rows)) :
    (evenSpacing (.d2 rows) = .ok true ∧ SpacingAccepted (.d2 rows)) ∨ (evenSpacing (.d2 rows) = .ok false ∧ ¬ SpacingAccepted (.d2 rows)) := by
  obtain ⟨m, hne, hm⟩ := h
  obtain ⟨r0, rs, rfl⟩ := List.exists_cons_of_ne_nil hne
  have hlen0 : r0.length = m := hm r0 (by simp)
  unfold SpacingAccepted evenSpacing
  simp only [List.headD_cons, hlen0]
  by_cases h0 : (npDiffRows (r0 :: rs)).all (fun r => r.all (fun x => decide (x = 0))) = true
  · -- all rows are equal
    have heq := rows_equal (r0 :: rs) m hm h0 r0 rfl
    refine .inl ⟨?_, ?_⟩
    · simp only [if_pos h0, List.map_cons]
      congr 1
      rw [List.all_eq_true]
      intro r hr
      have : r = npDiff r0 := by
        rw [List.mem_cons, List.mem_map] at hr
        rcases hr with rfl | ⟨r', hr', rfl⟩
        · rfl
        · obtain ⟨i, hi⟩ := List.mem_iff_getElem?.mp hr'
          rw [heq (i + 1) r' (by rw [List.getElem?_cons_succ]; exact hi)]
      subst this
      rw [List.all_eq_true]
      intro b hb
      obtain ⟨i, hi⟩ := List.mem_iff_getElem?.mp hb
      rw [List.getElem?_zipWith_eq_some] at hi
      obtain ⟨x, y, hx, hy, rfl⟩ := hi
      rw [hx] at hy
      injection hy with hy
      subst hy
      exact isClose_self x
    · intro j hj i x0 x1 x y _ h1 hx hy
      have hcol : ∀ (i : ℕ) (x : K), (coordColumn (r0 :: rs) j)[i]? = some x → x = r0.getD j 0 := by
        intro i x hx
        unfold coordColumn at hx
        rw [List.getElem?_map] at hx
        obtain ⟨r, hr, rfl⟩ := Option.map_eq_some_iff.mp hx
        rw [heq i r hr]
      rw [hcol _ _ hx, hcol _ _ hy, hcol _ _ h1, hcol 0 x0 ‹_›]
      simp only [sub_self, abs_zero]
      positivity
  · -- differences along the first dimension
    simp only [if_neg h0]
    cases hd : npDiffRows (r0 :: rs) with
    | nil =>
      rw [hd] at h0
      exact absurd rfl h0
    | cons d0 ds =>
      obtain ⟨r1, rs', rfl⟩ : ∃ r1 rs', rs = r1 :: rs' := by
        cases rs with
        | nil => simp [npDiffRows] at hd
        | cons r1 rs' => exact ⟨r1, rs', rfl⟩
      have hlen1 : r1.length = m := hm r1 (by simp)
      have hd0 : d0 = List.zipWith (fun b a => b - a) r1 r0 := by
        have := npDiffRows_getElem? (r0 :: r1 :: rs') 0 r0 r1 rfl rfl
        rw [hd] at this
        simpa using this
      have hiff : (d0 :: ds).all (fun r => (List.zipWith isClose r d0).all id) = true ↔ ∀ j < m, EvenSteps (coordColumn (r0 :: r1 :: rs') j) := by
        rw [← hd, List.all_eq_true]
        constructor
        · intro hall j hj i x0 x1 x y g0 g1 gx gy
          unfold coordColumn at gx gy g0 g1
          rw [List.getElem?_map] at gx gy
          obtain ⟨a, ha, rfl⟩ := Option.map_eq_some_iff.mp gx
          obtain ⟨b, hb, rfl⟩ := Option.map_eq_some_iff.mp gy
          simp only [List.map_cons, List.getElem?_cons_zero, List.getElem?_cons_succ, Option.some.injEq] at g0 g1
          subst g0 g1
          have hla := hm a (List.mem_of_getElem? ha)
          have hlb := hm b (List.mem_of_getElem? hb)
          have h1 := hall _ (List.mem_of_getElem? (npDiffRows_getElem? _ i a b ha hb))
          rw [List.all_eq_true] at h1
          have h2 := h1 (isClose (b[j] - a[j]) (r1[j] - r0[j])) (List.mem_of_getElem? (i := j) (by
            rw [List.getElem?_zipWith_eq_some]
            refine ⟨b[j] - a[j], r1[j] - r0[j], ?_, ?_, rfl⟩
            · rw [List.getElem?_zipWith_eq_some]
              exact ⟨_, _, List.getElem?_eq_getElem _, List.getElem?_eq_getElem _, rfl⟩
            · rw [hd0, List.getElem?_zipWith_eq_some]
              exact ⟨_, _, List.getElem?_eq_getElem _, List.getElem?_eq_getElem _, rfl⟩))
          rw [id, isClose, decide_eq_true_iff] at h2
          rw [getD_of_getElem? a j a[j] (List.getElem?_eq_getElem _), getD_of_getElem? b j b[j] (List.getElem?_eq_getElem _),
            getD_of_getElem? r0 j r0[j] (List.getElem?_eq_getElem _), getD_of_getElem? r1 j r1[j] (List.getElem?_eq_getElem _)]
          exact h2
        · intro hev d hdm
          obtain ⟨i, a, b, ha, hb, rfl⟩ := mem_npDiffRows _ d hdm
          rw [List.all_eq_true]
          intro t ht
          obtain ⟨j, hj⟩ := List.mem_iff_getElem?.mp ht
          rw [List.getElem?_zipWith_eq_some] at hj
          obtain ⟨u, v, hu, hv, rfl⟩ := hj
          rw [List.getElem?_zipWith_eq_some] at hu
          obtain ⟨y, x, hy, hx, rfl⟩ := hu
          rw [hd0, List.getElem?_zipWith_eq_some] at hv
          obtain ⟨x1, x0, hx1, hx0, rfl⟩ := hv
          rw [id, isClose, decide_eq_true_iff]
          have hjm : j < m := by
            rw [← hlen0]
            exact (List.getElem?_eq_some_iff.mp hx0).1
          exact hev j hjm i x0 x1 x y (coordColumn_getElem? _ 0 j r0 x0 rfl hx0) (coordColumn_getElem? _ 1 j r1 x1 rfl hx1)
            (coordColumn_getElem? _ i j a x ha hx) (coordColumn_getElem? _ (i + 1) j b y hb hy)
      by_cases hb : (d0 :: ds).all (fun r => (List.zipWith isClose r d0).all id) = true
      · exact .inl ⟨by simp only [hb], hiff.mp hb⟩
      · exact .inr ⟨by simp only [Bool.not_eq_true] at hb; simp only [hb], fun he => hb (hiff.mpr he)⟩

theorem evenSpacing_cases (c : CoordArr K) (h : UsableCoord c) :
    (evenSpacing c = .ok true ∧ SpacingAccepted c) ∨ (evenSpacing c = .ok false ∧ ¬ SpacingAccepted c) := by
  cases c with
  | d1 l => exact evenSpacing_d1 l h
  | d2 rows => exact evenSpacing_d2 rows h

/-- two fields on the same grid about which nothing but the spacing is in question -/
structure Comparable (obs mod : GeoInput K) : Prop where
  kind : obs.kind = mod.kind ∧ obs.kind ≠ .other
  coords : obs.coords ⊆ mod.coords ∧ mod.coords ⊆ obs.coords
  found : obs.found = true ∧ mod.found = true
  single : obs.manyLat = false ∧ obs.manyLon = false
  lat : obs.lat = mod.lat
  lon : obs.lon = mod.lon
  usableLat : UsableCoord obs.lat
  usableLon : UsableCoord obs.lon
  /-- every variable has a value for each cell -/
  cells : ∃ lats, cellLats obs.lat obs.lon = some lats ∧ ∀ v ∈ obs.vars ++ mod.vars, v.2.length = lats.length
  vars : (obs.kind = .dataArray ∧ obs.vars.length = 1 ∧ mod.vars.length = 1) ∨
    (obs.kind = .dataset ∧ obs.vars.map (·.1) = mod.vars.map (·.1))

/-- `C62`, exactly: two comparable fields give a result if and only if their latitudes and longitudes are evenly spaced, where of 2-D
coordinates only the spacing along the first dimension counts; otherwise the call raises ValueError. -/
theorem C62_exact (wt : K → K) (obs mod : GeoInput K) (h : Comparable obs mod) :
    ((∃ out, nmseWith wt obs mod = .ok out) ↔ SpacingAccepted obs.lat ∧ SpacingAccepted obs.lon) ∧
    (¬ (SpacingAccepted obs.lat ∧ SpacingAccepted obs.lon) → nmseWith wt obs mod = .error .valueError) := by
  have hla := evenSpacing_cases obs.lat h.usableLat
  have hlo := evenSpacing_cases obs.lon h.usableLon
  have hbad : ¬ (SpacingAccepted obs.lat ∧ SpacingAccepted obs.lon) → nmseWith wt obs mod = .error .valueError := by
    intro hn
    have h1 : ¬ (obs.kind = .other ∨ mod.kind = .other) := by
      rw [← h.kind.1]
      simp [h.kind.2]
    have h2 : ¬ (obs.kind ≠ mod.kind) := by simp [h.kind.1]
    unfold nmseWith
    simp only [if_neg h1, if_neg h2, if_neg (not_not.mpr h.coords), if_neg (not_not.mpr h.found), h.single.1, h.single.2]
    rcases hla with ⟨e1, a1⟩ | ⟨e1, a1⟩ <;> rcases hlo with ⟨e2, a2⟩ | ⟨e2, a2⟩
    · exact absurd ⟨a1, a2⟩ hn
    all_goals
      rw [e1, e2]
      rfl
  refine ⟨⟨?_, ?_⟩, hbad⟩
  · rintro ⟨out, ho⟩
    by_contra hn
    rw [hbad hn] at ho
    cases ho
  · rintro ⟨a1, a2⟩
    obtain ⟨lats, hc, hl⟩ := h.cells
    have hg : GridOk obs mod lats := ⟨h.kind, h.coords, h.found, by tauto, by tauto, h.single, ⟨by rw [h.lat], by rw [h.lon]⟩, hc, hl⟩
    rw [nmse_run wt obs mod lats hg]
    rcases h.vars with ⟨hk, ho, hm⟩ | ⟨hk, hv⟩
    · obtain ⟨o, ho⟩ := List.length_eq_one_iff.mp ho
      obtain ⟨m, hm⟩ := List.length_eq_one_iff.mp hm
      simp only [hk, ho, hm]
      exact ⟨_, rfl⟩
    · simp only [hk, hv, ne_eq, not_true_eq_false, if_false]
      exact ⟨_, rfl⟩

/-- the grid of the counterexample meets the hypotheses: its longitudes 0, 1, 3 lie along the second dimension and are accepted -/
example : Comparable unevenGrid unevenGrid ∧ SpacingAccepted unevenGrid.lon := by
  refine ⟨⟨⟨rfl, by decide⟩, ⟨fun _ h => h, fun _ h => h⟩, ⟨rfl, rfl⟩, ⟨rfl, rfl⟩, rfl, rfl, ⟨3, by decide, by decide⟩, ⟨3, by decide, by decide⟩,
    ⟨_, rfl, by decide⟩, .inl ⟨rfl, rfl, rfl⟩⟩, ?_⟩
  intro j hj i x0 x1 x y h0 h1 hx hy
  have hj' : j = 0 ∨ j = 1 ∨ j = 2 := by
    simp [unevenGrid] at hj
    omega
  have hi : i = 0 := by
    have := (List.getElem?_eq_some_iff.mp hy).1
    simp [unevenGrid, coordColumn] at this
    omega
  subst hi
  rw [h0] at hx
  rw [h1] at hy
  injection hx with hx
  injection hy with hy
  subst hx hy
  rw [sub_self, abs_zero]
  positivity

/-- the transposed grid, with the longitudes 0, 1, 3 along the first dimension, is rejected -/
example : ¬ SpacingAccepted (.d2 [[0, 0], [1, 1], [3, 3]] : CoordArr ℚ) := by
  intro h
  have := h 0 (by decide) 1 0 1 1 3 rfl rfl rfl rfl
  norm_num at this

end Verif.Props
