import Verif.Props.Lookup

/-
C121: zonal_meridional_psi finds its variables by the documented names.
-/

set_option linter.unusedSectionVars false
namespace Verif.Props
open Model Spec PyStr

/-- variable `v` matches a standard name, if one is asked for -/
def MatchesStandard? (s : Option Str) (v : Var) : Prop := ∃ r, s = some r ∧ MatchesStandard r v

/-- variable `v` matches a long name, if one is asked for -/
def MatchesLong? (l : Option Str) (v : Var) : Prop := ∃ r, l = some r ∧ MatchesLong r v

/-- `n` is what the documented search finds: the first data variable with the standard name; if there is none, the first one with the long
name; if there is none, any variable or coordinate with one of the possible names -/
def Documented (ds : Dataset) (s l : Option Str) (names : List Str) (n : Str) : Prop :=
  FirstMatch ds (MatchesStandard? s) n ∨
  ((∀ v ∈ ds.dataVars, ¬ MatchesStandard? s v) ∧ FirstMatch ds (MatchesLong? l) n) ∨
  ((∀ v ∈ ds.dataVars, ¬ MatchesStandard? s v) ∧ (∀ v ∈ ds.dataVars, ¬ MatchesLong? l v) ∧ HasCandidate ds names n)

/-- the search returns something documented, and something whenever there is something documented -/
theorem findVar_documented (order : List Str → List Str) (ho : IsEnumeration order) (ds : Dataset) (s l : Option Str)
    (hs : s ≠ some []) (hl : l ≠ some []) (names : List Str) :
    (∀ n, findVar order ds s l (some names) = .ok n → Documented ds s l names n) ∧
    (∀ n, Documented ds s l names n → ∃ m, findVar order ds s l (some names) = .ok m) := by
  -- the three stages
  obtain ⟨st1, h1, h1'⟩ : ∃ st : Option Var, (match (generalizing := false) s with
      | some (c :: cs) => ds.dataVars.find? (fun (v : Var) =>
        (nameVariations (c :: cs)).contains v.name || (nameVariations (c :: cs)).contains (attrOrEmpty v.standardName))
      | _ => none) = st ∧ ((∃ v, st = some v ∧ FirstMatch ds (MatchesStandard? s) v.name) ∨
        (st = none ∧ ∀ v ∈ ds.dataVars, ¬ MatchesStandard? s v)) := by
    refine ⟨_, rfl, ?_⟩
    cases s with
    | none => exact .inr ⟨rfl, fun v _ ⟨r, hr, _⟩ => by cases hr⟩
    | some s =>
      cases s with
      | nil => exact absurd rfl hs
      | cons c cs =>
        have heq : ∀ v, MatchesStandard? (some (c :: cs)) v ↔ MatchesStandard (c :: cs) v := by
          intro v
          constructor
          · rintro ⟨r, hr, h⟩
            injection hr with hr
            rw [hr]; exact h
          · intro h; exact ⟨_, rfl, h⟩
        dsimp only
        cases hf : ds.dataVars.find? (fun (v : Var) =>
            (nameVariations (c :: cs)).contains v.name || (nameVariations (c :: cs)).contains (attrOrEmpty v.standardName)) with
        | some v => exact .inl ⟨v, rfl, find_some_first (fun v => (standard_test c cs v).trans (heq v).symm) hf⟩
        | none => exact .inr ⟨rfl, find_none_all (fun v => (standard_test c cs v).trans (heq v).symm) hf⟩
  obtain ⟨st2, h2, h2'⟩ : ∃ st : Option Var, (match (generalizing := false) l with
      | some (c :: cs) => ds.dataVars.find? (fun (v : Var) =>
        (longNameVariations (c :: cs)).contains v.name || (longNameVariations (c :: cs)).contains (attrOrEmpty v.longName))
      | _ => none) = st ∧ ((∃ v, st = some v ∧ FirstMatch ds (MatchesLong? l) v.name) ∨
        (st = none ∧ ∀ v ∈ ds.dataVars, ¬ MatchesLong? l v)) := by
    refine ⟨_, rfl, ?_⟩
    cases l with
    | none => exact .inr ⟨rfl, fun v _ ⟨r, hr, _⟩ => by cases hr⟩
    | some l =>
      cases l with
      | nil => exact absurd rfl hl
      | cons c cs =>
        have heq : ∀ v, MatchesLong? (some (c :: cs)) v ↔ MatchesLong (c :: cs) v := by
          intro v
          constructor
          · rintro ⟨r, hr, h⟩
            injection hr with hr
            rw [hr]; exact h
          · intro h; exact ⟨_, rfl, h⟩
        dsimp only
        cases hf : ds.dataVars.find? (fun (v : Var) =>
            (longNameVariations (c :: cs)).contains v.name || (longNameVariations (c :: cs)).contains (attrOrEmpty v.longName)) with
        | some v => exact .inl ⟨v, rfl, find_some_first (fun v => (long_test c cs v).trans (heq v).symm) hf⟩
        | none => exact .inr ⟨rfl, find_none_all (fun v => (long_test c cs v).trans (heq v).symm) hf⟩
  obtain ⟨st3, h3, h3'⟩ : ∃ st : Option Str, (match (generalizing := false) some names with
      | some (n :: ns) => (order (expandedNames (n :: ns))).find? (fun n => ds.contains n)
      | _ => none) = st ∧ ((∃ n, st = some n ∧ HasCandidate ds names n) ∨ (st = none ∧ ∀ n, ¬ HasCandidate ds names n)) := by
    refine ⟨_, rfl, ?_⟩
    cases names with
    | nil => exact .inr ⟨rfl, fun n hn => by obtain ⟨-, r, hr, -⟩ := hn; simp at hr⟩
    | cons a as =>
      have hcand : ∀ n, n ∈ order (expandedNames (a :: as)) ↔ ∃ r ∈ a :: as, IsSpelling r n := by
        intro n
        rw [ho]
        simp only [expandedNames, List.mem_flatMap, mem_nameVariations]
      dsimp only
      cases hf : (order (expandedNames (a :: as))).find? (fun n => ds.contains n) with
      | some n =>
        exact .inl ⟨n, rfl, (contains_iff ds n).mp (List.find?_some (p := fun n => ds.contains n) hf), (hcand n).mp (List.mem_of_find?_eq_some hf)⟩
      | none =>
        refine .inr ⟨rfl, fun n hn => ?_⟩
        have := List.find?_eq_none.mp hf n ((hcand n).mpr hn.2)
        exact this ((contains_iff ds n).mpr hn.1)
  have hres : findVar order ds s l (some names) = (match (generalizing := false) st1 with
      | some v => .ok v.name
      | none => match (generalizing := false) st2 with
        | some v => .ok v.name
        | none => match (generalizing := false) st3 with
          | some n => .ok n
          | none => .error .keyError) := by
    unfold findVar
    rw [← h1, ← h2, ← h3]
    rfl
  rw [hres]
  rcases h1' with ⟨v, rfl, hv⟩ | ⟨rfl, hn1⟩
  · exact ⟨fun n hn => by injection hn with hn; subst hn; exact .inl hv, fun _ _ => ⟨_, rfl⟩⟩
  · rcases h2' with ⟨v, rfl, hv⟩ | ⟨rfl, hn2⟩
    · exact ⟨fun n hn => by injection hn with hn; subst hn; exact .inr (.inl ⟨hn1, hv⟩), fun _ _ => ⟨_, rfl⟩⟩
    · rcases h3' with ⟨m, rfl, hv⟩ | ⟨rfl, hn3⟩
      · exact ⟨fun n hn => by injection hn with hn; subst hn; exact .inr (.inr ⟨hn1, hn2, hv⟩), fun _ _ => ⟨_, rfl⟩⟩
      · refine ⟨fun n hn => (by cases hn), fun n hn => ?_⟩
        rcases hn with ⟨a, v, b, he, -, hP, -⟩ | ⟨-, a, v, b, he, -, hP, -⟩ | ⟨-, -, h⟩
        · exact absurd hP (hn1 v (by rw [he]; simp))
        · exact absurd hP (hn2 v (by rw [he]; simp))
        · exact absurd h (hn3 n)

theorem findOptional_documented (order : List Str → List Str) (ho : IsEnumeration order) (ds : Dataset) (s l : Option Str)
    (hs : s ≠ some []) (hl : l ≠ some []) (names : List Str) :
    (∃ n, findOptionalVar order ds s l (some names) = .ok (some n) ∧ Documented ds s l names n) ∨
    (findOptionalVar order ds s l (some names) = .ok none ∧ ∀ n, ¬ Documented ds s l names n) := by
  obtain ⟨h1, h2⟩ := findVar_documented order ho ds s l hs hl names
  obtain ⟨-, he, -⟩ := C59_result_present order ds s l (some names)
  unfold findOptionalVar
  cases h : findVar order ds s l (some names) with
  | ok n => exact .inl ⟨n, rfl, h1 n h⟩
  | error e =>
    rw [he e h]
    refine .inr ⟨rfl, fun n hn => ?_⟩
    obtain ⟨m, hm⟩ := h2 n hn
    rw [h] at hm
    cases hm

/-- the documented searches of `zonal_meridional_psi` -/
def IsWind (ds : Dataset) : Str → Prop :=
  Documented ds (some "northward_wind".toList) (some "Meridional wind".toList) ["V".toList, "vs".toList, "meridional_wind".toList]
def IsSurfacePressure (ds : Dataset) : Str → Prop :=
  Documented ds (some "surface_air_pressure".toList) (some "Surface pressure".toList)
    ["PS".toList, "p_surface".toList, "surface_pressure".toList, "pressure_surface".toList]
def IsHyam (ds : Dataset) : Str → Prop :=
  Documented ds none (some "hybrid A coefficient at layer midpoints".toList) ["hyam".toList, "hya".toList, "hybrid_A_midpoints".toList]
def IsHybm (ds : Dataset) : Str → Prop :=
  Documented ds none (some "hybrid B coefficient at layer midpoints".toList) ["hybm".toList, "hyb".toList, "hybrid_B_midpoints".toList]
def IsPlev (ds : Dataset) : Str → Prop :=
  Documented ds (some "air_pressure".toList) none ["plev".toList, "pressure_lev".toList, "pressure_levels".toList]

theorem spelling_ps (n : Str) : IsSpelling "PS".toList n ↔ IsSpelling "ps".toList n := by
  have h1 : lower "PS".toList = "ps".toList := by decide
  have h2 : upper "PS".toList = "PS".toList := by decide
  have h3 : capitalize "PS".toList = "Ps".toList := by decide
  have h4 : title '_' "PS".toList = "Ps".toList := by decide
  have g1 : lower "ps".toList = "ps".toList := by decide
  have g2 : upper "ps".toList = "PS".toList := by decide
  have g3 : capitalize "ps".toList = "Ps".toList := by decide
  have g4 : title '_' "ps".toList = "Ps".toList := by decide
  unfold IsSpelling
  rw [h1, h2, h3, h4, g1, g2, g3, g4]
  tauto

/-- the code's list of names, with `ps`, finds what the documented one, with `PS`, finds -/
theorem documented_ps (ds : Dataset) (n : Str) :
    Documented ds (some "surface_air_pressure".toList) (some "Surface pressure".toList)
      ["ps".toList, "p_surface".toList, "surface_pressure".toList, "pressure_surface".toList] n ↔ IsSurfacePressure ds n := by
  unfold IsSurfacePressure Documented HasCandidate
  simp only [List.mem_cons, List.not_mem_nil, or_false, exists_eq_or_imp, exists_eq_left, spelling_ps]

theorem lookup_of_has (ds : Dataset) (n : Str) (h : Has ds n) : ∃ v, ds.lookup n = .ok v := by
  obtain ⟨v, hv, rfl⟩ := h
  unfold Dataset.lookup
  cases h : (ds.dataVars ++ ds.coords).find? (fun u => u.name == v.name) with
  | some u => exact ⟨u, rfl⟩
  | none =>
    have := List.find?_eq_none.mp h v (List.mem_append.mpr hv)
    simp at this

theorem Documented.has {ds : Dataset} {s l : Option Str} {names : List Str} {n : Str} (h : Documented ds s l names n) : Has ds n := by
  rcases h with ⟨a, v, b, he, rfl, -⟩ | ⟨-, a, v, b, he, rfl, -⟩ | ⟨-, -, h, -⟩
  · exact ⟨v, .inl (by rw [he]; simp), rfl⟩
  · exact ⟨v, .inl (by rw [he]; simp), rfl⟩
  · exact h

/-- `C121`, what is used: with no names given, the wind, the surface pressure and the pressure or hybrid coordinates are what the documented
search finds -/
theorem C121_used (order : List Str → List Str) (ho : IsEnumeration order) (ds : Dataset) (w p : Str) (src : PsiSource)
    (h : psiSelect order ds {} = .ok (w, p, src)) :
    IsWind ds w ∧ IsSurfacePressure ds p ∧ (∀ z, src = .onPressure z → IsPlev ds z) ∧ (∀ a b, src = .interpolated a b → IsHyam ds a ∧ IsHybm ds b) := by
  have hw := findVar_documented order ho ds (some "northward_wind".toList) (some "Meridional wind".toList) (by decide) (by decide)
    ["V".toList, "vs".toList, "meridional_wind".toList]
  have hp := findVar_documented order ho ds (some "surface_air_pressure".toList) (some "Surface pressure".toList) (by decide) (by decide)
    ["ps".toList, "p_surface".toList, "surface_pressure".toList, "pressure_surface".toList]
  have ha := findOptional_documented order ho ds none (some "hybrid A coefficient at layer midpoints".toList) (by decide) (by decide)
    ["hyam".toList, "hya".toList, "hybrid_A_midpoints".toList]
  have hb := findOptional_documented order ho ds none (some "hybrid B coefficient at layer midpoints".toList) (by decide) (by decide)
    ["hybm".toList, "hyb".toList, "hybrid_B_midpoints".toList]
  have hz := findOptional_documented order ho ds (some "air_pressure".toList) none (by decide) (by decide)
    ["plev".toList, "pressure_lev".toList, "pressure_levels".toList]
  unfold psiSelect psiWind psiPs psiHyam psiHybm psiPlev at h
  simp only [given] at h
  cases e1 : findVar order ds (some "northward_wind".toList) (some "Meridional wind".toList)
      (some ["V".toList, "vs".toList, "meridional_wind".toList]) with
  | error e => rw [e1] at h; cases h
  | ok w' =>
  cases e2 : findVar order ds (some "surface_air_pressure".toList) (some "Surface pressure".toList)
      (some ["ps".toList, "p_surface".toList, "surface_pressure".toList, "pressure_surface".toList]) with
  | error e => rw [e1, e2] at h; cases h
  | ok p' =>
  have W := hw.1 w' e1
  have P := (documented_ps ds p').mp (hp.1 p' e2)
  rw [e1, e2] at h
  simp only [bind, Except.bind, pure, Except.pure] at h
  -- what is left after the two mandatory variables
  have fin : ∀ oa ob, (∀ a, oa = some a → IsHyam ds a) → (∀ b, ob = some b → IsHybm ds b) →
      (match oa, ob with
        | some a, some b => do
            let _ ← ds.lookup w'
            let _ ← ds.lookup p'
            let _ ← ds.lookup a
            let _ ← ds.lookup b
            return (w', p', PsiSource.interpolated a b)
        | _, _ => (.error .attributeError : Except PyErr (Str × Str × PsiSource))) = .ok (w, p, src) →
      w' = w ∧ p' = p ∧ (∀ z, src = .onPressure z → IsPlev ds z) ∧ (∀ a b, src = .interpolated a b → IsHyam ds a ∧ IsHybm ds b) := by
    intro oa ob hoa hob h
    cases oa with
    | none => cases h
    | some a =>
      cases ob with
      | none => cases h
      | some b =>
        obtain ⟨v1, l1⟩ := lookup_of_has ds w' W.has
        obtain ⟨v2, l2⟩ := lookup_of_has ds p' P.has
        obtain ⟨v3, l3⟩ := lookup_of_has ds a (hoa a rfl).has
        obtain ⟨v4, l4⟩ := lookup_of_has ds b (hob b rfl).has
        simp only [l1, l2, l3, l4, bind, Except.bind, pure, Except.pure] at h
        injection h with h
        rw [Prod.mk.injEq, Prod.mk.injEq] at h
        obtain ⟨q1, q2, q3⟩ := h
        refine ⟨q1, q2, fun z hz => (by rw [← q3] at hz; cases hz), fun a' b' hab => ?_⟩
        rw [← q3] at hab
        injection hab with r1 r2
        subst r1 r2
        exact ⟨hoa _ rfl, hob _ rfl⟩
  have hcase : ∀ oa ob oz, findOptionalVar order ds none (some "hybrid A coefficient at layer midpoints".toList)
        (some ["hyam".toList, "hya".toList, "hybrid_A_midpoints".toList]) = .ok oa →
      findOptionalVar order ds none (some "hybrid B coefficient at layer midpoints".toList)
        (some ["hybm".toList, "hyb".toList, "hybrid_B_midpoints".toList]) = .ok ob →
      findOptionalVar order ds (some "air_pressure".toList) none
        (some ["plev".toList, "pressure_lev".toList, "pressure_levels".toList]) = .ok oz →
      (∀ a, oa = some a → IsHyam ds a) → (∀ b, ob = some b → IsHybm ds b) → (∀ z, oz = some z → IsPlev ds z) →
      IsWind ds w ∧ IsSurfacePressure ds p ∧ (∀ z, src = .onPressure z → IsPlev ds z) ∧
        (∀ a b, src = .interpolated a b → IsHyam ds a ∧ IsHybm ds b) := by
    intro oa ob oz ea eb ez hoa hob hoz
    rw [ea, eb, ez] at h
    simp only at h
    cases oz with
    | none =>
      obtain ⟨r1, r2, r3, r4⟩ := fin oa ob hoa hob h
      exact ⟨r1 ▸ W, r2 ▸ P, r3, r4⟩
    | some z =>
      obtain ⟨v1, l1⟩ := lookup_of_has ds w' W.has
      simp only [l1] at h
      by_cases hd : v1.dims.contains z = true
      · simp only [hd, if_true] at h
        injection h with h
        rw [Prod.mk.injEq, Prod.mk.injEq] at h
        obtain ⟨q1, q2, q3⟩ := h
        refine ⟨q1 ▸ W, q2 ▸ P, fun z' hz' => ?_, fun a b hab => by rw [← q3] at hab; cases hab⟩
        rw [← q3] at hz'
        injection hz' with r1
        subst r1
        exact hoz _ rfl
      · simp only [hd] at h
        obtain ⟨r1, r2, r3, r4⟩ := fin oa ob hoa hob (by
          rw [← h]; cases oa <;> cases ob <;> simp [l1, bind, Except.bind, pure, Except.pure])
        exact ⟨r1 ▸ W, r2 ▸ P, r3, r4⟩
  have opt : ∀ {s l : Option Str} {names : List Str}, ((∃ n, findOptionalVar order ds s l (some names) = .ok (some n) ∧ Documented ds s l names n) ∨
      (findOptionalVar order ds s l (some names) = .ok none ∧ ∀ n, ¬ Documented ds s l names n)) →
      ∃ o, findOptionalVar order ds s l (some names) = .ok o ∧ ∀ a, o = some a → Documented ds s l names a := by
    rintro s l names (⟨n, h1, h2⟩ | ⟨h1, -⟩)
    · exact ⟨some n, h1, fun a ha => by injection ha with ha; exact ha ▸ h2⟩
    · exact ⟨none, h1, fun a ha => by cases ha⟩
  obtain ⟨oa, ea, hoa⟩ := opt ha
  obtain ⟨ob, eb, hob⟩ := opt hb
  obtain ⟨oz, ez, hoz⟩ := opt hz
  exact hcase oa ob oz ea eb ez hoa hob hoz

/-- `C121`, what is found: if the documented searches find a wind and a surface pressure, and find both hybrid coefficients, the call has its
variables; without a wind or a surface pressure it is a KeyError -/
theorem C121_found (order : List Str → List Str) (ho : IsEnumeration order) (ds : Dataset) :
    ((∃ n, IsWind ds n) → (∃ n, IsSurfacePressure ds n) → (∃ n, IsHyam ds n) → (∃ n, IsHybm ds n) → ∃ r, psiSelect order ds {} = .ok r) ∧
    ((∀ n, ¬ IsWind ds n) ∨ (∀ n, ¬ IsSurfacePressure ds n) → psiSelect order ds {} = .error .keyError) := by
  have hw := findVar_documented order ho ds (some "northward_wind".toList) (some "Meridional wind".toList) (by decide) (by decide)
    ["V".toList, "vs".toList, "meridional_wind".toList]
  have hp := findVar_documented order ho ds (some "surface_air_pressure".toList) (some "Surface pressure".toList) (by decide) (by decide)
    ["ps".toList, "p_surface".toList, "surface_pressure".toList, "pressure_surface".toList]
  have ha := findOptional_documented order ho ds none (some "hybrid A coefficient at layer midpoints".toList) (by decide) (by decide)
    ["hyam".toList, "hya".toList, "hybrid_A_midpoints".toList]
  have hb := findOptional_documented order ho ds none (some "hybrid B coefficient at layer midpoints".toList) (by decide) (by decide)
    ["hybm".toList, "hyb".toList, "hybrid_B_midpoints".toList]
  have hz := findOptional_documented order ho ds (some "air_pressure".toList) none (by decide) (by decide)
    ["plev".toList, "pressure_lev".toList, "pressure_levels".toList]
  constructor
  · rintro ⟨n1, h1⟩ ⟨n2, h2⟩ ⟨n3, h3⟩ ⟨n4, h4⟩
    obtain ⟨w, ew⟩ := hw.2 n1 h1
    obtain ⟨p, ep⟩ := hp.2 n2 ((documented_ps ds n2).mpr h2)
    rcases ha with ⟨a, ea, ha⟩ | ⟨-, ha⟩
    swap
    · exact absurd h3 (ha n3)
    rcases hb with ⟨b, eb, hb⟩ | ⟨-, hb⟩
    swap
    · exact absurd h4 (hb n4)
    obtain ⟨v1, l1⟩ := lookup_of_has ds w (hw.1 w ew).has
    obtain ⟨v2, l2⟩ := lookup_of_has ds p (hp.1 p ep).has
    obtain ⟨v3, l3⟩ := lookup_of_has ds a ha.has
    obtain ⟨v4, l4⟩ := lookup_of_has ds b hb.has
    have hoz : ∃ oz, findOptionalVar order ds (some "air_pressure".toList) none
        (some ["plev".toList, "pressure_lev".toList, "pressure_levels".toList]) = .ok oz := by
      rcases hz with ⟨z, h, -⟩ | ⟨h, -⟩
      · exact ⟨_, h⟩
      · exact ⟨_, h⟩
    obtain ⟨oz, ez⟩ := hoz
    unfold psiSelect psiWind psiPs psiHyam psiHybm psiPlev
    simp only [given, ew, ep, ea, eb, ez, bind, Except.bind, pure, Except.pure]
    cases oz with
    | none => simp only [l1, l2, l3, l4]; exact ⟨_, rfl⟩
    | some z =>
      simp only [l1]
      by_cases hd : v1.dims.contains z = true
      · simp only [hd, if_true]; exact ⟨_, rfl⟩
      · simp only [hd, l2, l3, l4]; exact ⟨_, rfl⟩
  · intro h
    have key : ∀ {s l : Option Str} {names : List Str}, (∀ n, findVar order ds s l (some names) = .ok n → Documented ds s l names n) →
        (∀ n, ¬ Documented ds s l names n) → findVar order ds s l (some names) = .error .keyError := by
      intro s l names h1 h2
      cases hf : findVar order ds s l (some names) with
      | ok n => exact absurd (h1 n hf) (h2 n)
      | error e => rw [(C59_result_present order ds s l (some names)).2.1 e hf]
    unfold psiSelect psiWind psiPs
    simp only [given]
    by_cases h1 : ∀ n, ¬ IsWind ds n
    · have e1 := key hw.1 (by unfold IsWind at h1; exact h1)
      rw [e1]; rfl
    · have h2 : ∀ n, ¬ IsSurfacePressure ds n := h.resolve_left h1
      have e2 := key hp.1 (fun n hn => h2 n ((documented_ps ds n).mp hn))
      cases e1 : findVar order ds (some "northward_wind".toList) (some "Meridional wind".toList)
          (some ["V".toList, "vs".toList, "meridional_wind".toList]) with
      | ok w => rw [e2]; rfl
      | error e => rw [(C59_result_present order ds _ _ _).2.1 e e1]; rfl

/-- `C121`, pressure levels: a found pressure coordinate that is a dimension of the wind is used -/
theorem C121_pressure_levels (order : List Str → List Str) (ho : IsEnumeration order) (ds : Dataset) (w p : Str) (src : PsiSource)
    (h : psiSelect order ds {} = .ok (w, p, src)) (z : Str) (hz : IsPlev ds z) (hone : ∀ z', IsPlev ds z' → z' = z)
    (v : Var) (hv : ds.lookup w = .ok v) (hd : z ∈ v.dims) : src = .onPressure z := by
  obtain ⟨-, -, -, h4⟩ := C81_selection order ds {} w p src h
  obtain ⟨-, -, h5, -⟩ := C121_used order ho ds w p src h
  cases src with
  | onPressure z' => rw [hone z' (h5 z' rfl)]
  | interpolated a b =>
    exfalso
    rcases findOptional_documented order ho ds (some "air_pressure".toList) none (by decide) (by decide)
      ["plev".toList, "pressure_lev".toList, "pressure_levels".toList] with ⟨z', e, hz'⟩ | ⟨-, hn⟩
    · have := (h4 a b rfl).2.2 z' v (by unfold psiPlev; simp only [given]; exact e) hv
      rw [hone z' hz'] at this
      exact this hd
    · exact hn z hz

/-- a CAM style data set: wind `V`, surface pressure `PS` and the hybrid coefficients as coordinates -/
def camDs : Dataset := ⟨[{ name := "V".toList, longName := some "Meridional wind".toList, dims := ["time".toList, "lev".toList, "n_face".toList] },
  { name := "PS".toList }], [{ name := "hyam".toList }, { name := "hybm".toList }]⟩

example : psiSelect id camDs {} = .ok ("V".toList, "PS".toList, .interpolated "hyam".toList "hybm".toList) := by decide +kernel

example : IsSurfacePressure camDs "PS".toList :=
  (C121_used id (fun _ _ => Iff.rfl) camDs _ _ _ (by decide +kernel : psiSelect id camDs {} = .ok ("V".toList, "PS".toList, .interpolated "hyam".toList "hybm".toList))).2.1

end Verif.Props
