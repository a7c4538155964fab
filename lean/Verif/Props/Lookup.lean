import Verif.Model.Lookup
import Verif.Spec.Lookup
import Mathlib.Data.List.Basic
import Mathlib.Tactic.Push

/-
Properties C59, C60, C80, C81: variable lookup.
-/

set_option linter.unusedSectionVars false
namespace Verif.Props
open Model Spec PyStr

/-- `order` really enumerates the set: same elements, any order -/
def IsEnumeration (order : List Str → List Str) : Prop := ∀ l x, x ∈ order l ↔ x ∈ l

/-- variable `v` matches the standard name `r`: by its own name or its `standard_name` attribute -/
def MatchesStandard (r : Str) (v : Var) : Prop :=
  IsSpelling r v.name ∨ ∃ a, v.standardName = some a ∧ IsSpelling r a

/-- variable `v` matches the long name `r` -/
def MatchesLong (r : Str) (v : Var) : Prop :=
  IsLongSpelling r v.name ∨ ∃ a, v.longName = some a ∧ IsLongSpelling r a

/-- the data set has a variable or coordinate of this name -/
def Has (ds : Dataset) (n : Str) : Prop := ∃ v, (v ∈ ds.dataVars ∨ v ∈ ds.coords) ∧ v.name = n

/-- some spelling of one of the candidate names is in the data set -/
def HasCandidate (ds : Dataset) (names : List Str) (n : Str) : Prop := Has ds n ∧ ∃ r ∈ names, IsSpelling r n

theorem contains_iff (ds : Dataset) (n : Str) : ds.contains n = true ↔ Has ds n := by
  simp only [Dataset.contains, List.any_eq_true, List.mem_append, beq_iff_eq]
  rfl

theorem mem_nameVariations (r s : Str) : s ∈ nameVariations r ↔ IsSpelling r s := by
  simp [nameVariations, IsSpelling]

theorem mem_longVariations (r s : Str) : s ∈ longNameVariations r ↔ IsLongSpelling r s := by
  simp only [longNameVariations, IsLongSpelling, IsSpelling, List.mem_cons, List.not_mem_nil, or_false]
  tauto

theorem lower_ne_nil (c : Char) (cs : Str) : lower (c :: cs) ≠ [] := by simp [lower]

theorem split_ne_nil (sep : Char) (s : Str) : split sep s ≠ [] := by
  induction s with
  | nil => simp [split]
  | cons c cs ih =>
    unfold split
    split_ifs
    · simp
    · split <;> simp

theorem title_ne_nil (sep : Char) (c : Char) (cs : Str) : title sep (c :: cs) ≠ [] := by
  unfold title split
  split_ifs with h
  · cases h2 : split sep cs with
    | nil => exact absurd h2 (split_ne_nil sep cs)
    | cons w ws => simp [join, capitalize]
  · split
    · simp [join, capitalize]
    · rename_i w ws _
      cases ws <;> simp [join, capitalize]

theorem not_spelling_nil (c : Char) (cs : Str) : ¬ IsSpelling (c :: cs) [] := by
  have := title_ne_nil '_' c cs
  simp [IsSpelling, lower, upper, capitalize, this.symm]

theorem not_longSpelling_nil (c : Char) (cs : Str) : ¬ IsLongSpelling (c :: cs) [] := by
  have := title_ne_nil ' ' c cs
  simp [IsLongSpelling, not_spelling_nil, replace, this.symm]

theorem standard_test (c : Char) (cs : Str) (v : Var) :
    ((nameVariations (c :: cs)).contains v.name || (nameVariations (c :: cs)).contains (attrOrEmpty v.standardName)) = true
      ↔ MatchesStandard (c :: cs) v := by
  simp only [Bool.or_eq_true, List.contains_iff_mem, mem_nameVariations, MatchesStandard, attrOrEmpty]
  cases h : v.standardName with
  | none => simp [not_spelling_nil]
  | some a => simp

theorem long_test (c : Char) (cs : Str) (v : Var) :
    ((longNameVariations (c :: cs)).contains v.name || (longNameVariations (c :: cs)).contains (attrOrEmpty v.longName)) = true
      ↔ MatchesLong (c :: cs) v := by
  simp only [Bool.or_eq_true, List.contains_iff_mem, mem_longVariations, MatchesLong, attrOrEmpty]
  cases h : v.longName with
  | none => simp [not_longSpelling_nil]
  | some a => simp

theorem find_test_congr {α : Type _} {p q : α → Bool} {P : α → Prop} (l : List α) (hp : ∀ a, p a = true ↔ P a)
    (hq : ∀ a, q a = true ↔ P a) : l.find? p = l.find? q := by
  have : p = q := by
    funext a
    rw [Bool.eq_iff_iff, hp, hq]
  rw [this]

/-! ### C59 -/

/-- `n` is the name of the first data variable satisfying `P` -/
def FirstMatch (ds : Dataset) (P : Var → Prop) (n : Str) : Prop :=
  ∃ l v l', ds.dataVars = l ++ v :: l' ∧ v.name = n ∧ P v ∧ ∀ w ∈ l, ¬ P w

theorem find_some_first {ds : Dataset} {p : Var → Bool} {P : Var → Prop} (hp : ∀ v, p v = true ↔ P v) {v : Var}
    (h : ds.dataVars.find? p = some v) : FirstMatch ds P v.name := by
  obtain ⟨hv, l, l', he, hl⟩ := List.find?_eq_some_iff_append.mp h
  refine ⟨l, v, l', he, rfl, (hp v).mp hv, fun w hw hPw => ?_⟩
  have := hl w hw
  rw [(hp w).mpr hPw] at this
  simp at this

theorem find_none_all {ds : Dataset} {p : Var → Bool} {P : Var → Prop} (hp : ∀ v, p v = true ↔ P v)
    (h : ds.dataVars.find? p = none) : ∀ v ∈ ds.dataVars, ¬ P v := by
  intro v hv hP
  have := List.find?_eq_none.mp h v hv
  exact this ((hp v).mpr hP)

/-- C59, the exact result of the lookup with non-empty requests. Whatever order Python uses for the set:
the first data variable matching the standard name; if there is none, the first one matching the long name; if there
is none, some candidate name present in the data set; if there is none, KeyError (and `None` from the optional
form). -/
theorem C59_priority (order : List Str → List Str) (ho : IsEnumeration order) (ds : Dataset) (s l : Str)
    (hs : s ≠ []) (hl : l ≠ []) (names : List Str) :
    let S := fun v => MatchesStandard s v
    let L := fun v => MatchesLong l v
    let res := findVar order ds (some s) (some l) (some names)
    ((∃ v ∈ ds.dataVars, S v) → ∃ n, res = .ok n ∧ FirstMatch ds S n) ∧
    ((∀ v ∈ ds.dataVars, ¬ S v) → (∃ v ∈ ds.dataVars, L v) → ∃ n, res = .ok n ∧ FirstMatch ds L n) ∧
    ((∀ v ∈ ds.dataVars, ¬ S v) → (∀ v ∈ ds.dataVars, ¬ L v) → (∃ n, HasCandidate ds names n) →
      ∃ n, res = .ok n ∧ HasCandidate ds names n) ∧
    ((∀ v ∈ ds.dataVars, ¬ S v) → (∀ v ∈ ds.dataVars, ¬ L v) → (∀ n, ¬ HasCandidate ds names n) →
      res = .error .keyError ∧ findOptionalVar order ds (some s) (some l) (some names) = .ok none) := by
  intro S L res
  obtain ⟨c, cs, rfl⟩ := List.exists_cons_of_ne_nil hs
  obtain ⟨c', cs', rfl⟩ := List.exists_cons_of_ne_nil hl
  have hcand : ∀ n, (n ∈ order (expandedNames names) ∧ ds.contains n = true) ↔ HasCandidate ds names n := by
    intro n
    rw [ho, contains_iff]
    simp only [expandedNames, List.mem_flatMap, mem_nameVariations, HasCandidate]
    tauto
  have hres : res = findVar order ds (some (c :: cs)) (some (c' :: cs')) (some names) := rfl
  unfold findOptionalVar
  rw [← hres]
  unfold findVar at hres
  dsimp only at hres
  cases h1 : ds.dataVars.find? (fun v =>
        (nameVariations (c :: cs)).contains v.name || (nameVariations (c :: cs)).contains (attrOrEmpty v.standardName)) with
  | some v =>
    rw [h1] at hres
    have hf := find_some_first (standard_test c cs) h1
    have hmem : v ∈ ds.dataVars := List.mem_of_find?_eq_some h1
    have hS : S v := (standard_test c cs v).mp (by have := List.find?_some h1; exact this)
    refine ⟨fun _ => ⟨_, hres, hf⟩, fun h => absurd hS (h v hmem), fun h => absurd hS (h v hmem), fun h => absurd hS (h v hmem)⟩
  | none =>
    rw [h1] at hres
    have hn1 := find_none_all (standard_test c cs) h1
    refine ⟨fun ⟨v, hv, h⟩ => absurd h (hn1 v hv), ?_⟩
    cases h2 : ds.dataVars.find? (fun v =>
        (longNameVariations (c' :: cs')).contains v.name || (longNameVariations (c' :: cs')).contains (attrOrEmpty v.longName)) with
    | some v =>
      rw [h2] at hres
      have hf := find_some_first (long_test c' cs') h2
      have hmem : v ∈ ds.dataVars := List.mem_of_find?_eq_some h2
      have hL : L v := (long_test c' cs' v).mp (by have := List.find?_some h2; exact this)
      exact ⟨fun _ _ => ⟨_, hres, hf⟩, fun _ h => absurd hL (h v hmem), fun _ h => absurd hL (h v hmem)⟩
    | none =>
      rw [h2] at hres
      have hn2 := find_none_all (long_test c' cs') h2
      refine ⟨fun _ ⟨v, hv, h⟩ => absurd h (hn2 v hv), ?_⟩
      cases names with
      | nil =>
        have hno : ∀ n, ¬ HasCandidate ds [] n := by rintro n ⟨-, r, hr, -⟩; simp at hr
        exact ⟨fun _ _ ⟨n, h⟩ => absurd h (hno n), fun _ _ _ => by rw [hres]; exact ⟨rfl, rfl⟩⟩
      | cons m ms =>
        cases h3 : (order (expandedNames (m :: ms))).find? (fun n => ds.contains n) with
        | some n =>
          simp only [h3] at hres
          have hc := (hcand n).mp ⟨List.mem_of_find?_eq_some h3, List.find?_some h3⟩
          exact ⟨fun _ _ _ => ⟨n, hres, hc⟩, fun _ _ h => absurd hc (h n)⟩
        | none =>
          simp only [h3] at hres
          have hno : ∀ n, ¬ HasCandidate ds (m :: ms) n := by
            intro n hn
            obtain ⟨ha, hb⟩ := (hcand n).mpr hn
            exact List.find?_eq_none.mp h3 n ha hb
          exact ⟨fun _ _ ⟨n, h⟩ => absurd h (hno n), fun _ _ _ => by rw [hres]; exact ⟨rfl, rfl⟩⟩

/-- C59. Whatever is requested, a returned name is present in the data set, and the optional form fails never. -/
theorem C59_result_present (order : List Str → List Str) (ds : Dataset) (s l : Option Str)
    (names : Option (List Str)) :
    (∀ n, findVar order ds s l names = .ok n → Has ds n) ∧
    (∀ e, findVar order ds s l names = .error e → e = .keyError) ∧
    (∃ o, findOptionalVar order ds s l names = .ok o) := by
  have hfind : ∀ (p : Var → Bool) v, ds.dataVars.find? p = some v → Has ds v.name :=
    fun p v h => ⟨v, Or.inl (List.mem_of_find?_eq_some h), rfl⟩
  have h1 : ∀ n, findVar order ds s l names = .ok n → Has ds n := by
    intro n h
    unfold findVar at h
    dsimp only at h
    split at h
    · rename_i v hv
      injection h with h
      subst h
      split at hv
      · exact hfind _ v hv
      · cases hv
    · split at h
      · rename_i v hv
        injection h with h
        subst h
        split at hv
        · exact hfind _ v hv
        · cases hv
      · split at h
        · rename_i m hm
          injection h with h
          subst h
          split at hm
          · exact (contains_iff ds m).mp (List.find?_some (p := fun n => ds.contains n) hm)
          · cases hm
        · cases h
  have h2 : ∀ e, findVar order ds s l names = .error e → e = .keyError := by
    intro e h
    unfold findVar at h
    dsimp only at h
    split at h
    · cases h
    · split at h
      · cases h
      · split at h
        · cases h
        · injection h with h
          exact h.symm
  refine ⟨h1, h2, ?_⟩
  unfold findOptionalVar
  cases h : findVar order ds s l names with
  | ok n => exact ⟨_, rfl⟩
  | error e => rw [h2 e h]; exact ⟨_, rfl⟩

/-- a data set with a wind variable by standard name and another one called `V` -/
def exDs : Dataset := ⟨[{ name := "V".toList }, { name := "wind".toList, standardName := some "northward_wind".toList }], []⟩

example : ∃ n, findVar id exDs (some "northward_wind".toList) (some "Meridional wind".toList) (some ["V".toList]) = .ok n ∧
    FirstMatch exDs (MatchesStandard "northward_wind".toList) n :=
  (C59_priority id (fun _ _ => Iff.rfl) exDs _ _ (by decide) (by decide) _).1
    ⟨{ name := "wind".toList, standardName := some "northward_wind".toList }, by simp [exDs],
      Or.inr ⟨_, rfl, Or.inl rfl⟩⟩

example : findVar id exDs (some "northward_wind".toList) (some "Meridional wind".toList) (some ["V".toList])
    = .ok "wind".toList := by decide +kernel

/-! ### C60 determinism -/

/-- C60 is false: with variables `ps` and `PS` (both spellings of a candidate name, no matching attributes), the name
returned depends on the iteration order of a set. -/
theorem C60_counterexample :
    ∃ (ds : Dataset) (o o' : List Str → List Str), IsEnumeration o ∧ IsEnumeration o' ∧
      findVar o ds (some "surface_air_pressure".toList) (some "Surface pressure".toList) (some ["ps".toList])
        = .ok "ps".toList ∧
      findVar o' ds (some "surface_air_pressure".toList) (some "Surface pressure".toList) (some ["ps".toList])
        = .ok "PS".toList := by
  refine ⟨⟨[{ name := "ps".toList }, { name := "PS".toList }], []⟩, id, List.reverse, fun _ _ => Iff.rfl,
    fun _ _ => List.mem_reverse, by decide +kernel, by decide +kernel⟩

/-- C60 holds whenever an attribute or exact name already decides (standard or long name match), or at most one of
the candidate spellings is present. Missing: several candidate spellings present and no earlier match. -/
theorem C60_deterministic_partial (o o' : List Str → List Str) (ho : IsEnumeration o) (ho' : IsEnumeration o')
    (ds : Dataset) (s l : Str) (hs : s ≠ []) (hl : l ≠ []) (names : List Str)
    (h : (∃ v ∈ ds.dataVars, MatchesStandard s v ∨ MatchesLong l v) ∨
      ∀ n n', HasCandidate ds names n → HasCandidate ds names n' → n = n') :
    findVar o ds (some s) (some l) (some names) = findVar o' ds (some s) (some l) (some names) := by
  obtain ⟨c, cs, rfl⟩ := List.exists_cons_of_ne_nil hs
  obtain ⟨c', cs', rfl⟩ := List.exists_cons_of_ne_nil hl
  unfold findVar
  dsimp only
  cases h1 : ds.dataVars.find? (fun v =>
        (nameVariations (c :: cs)).contains v.name || (nameVariations (c :: cs)).contains (attrOrEmpty v.standardName)) with
  | some v => rfl
  | none =>
    cases h2 : ds.dataVars.find? (fun v =>
        (longNameVariations (c' :: cs')).contains v.name || (longNameVariations (c' :: cs')).contains (attrOrEmpty v.longName)) with
    | some v => rfl
    | none =>
      rcases h with ⟨v, hv, h | h⟩ | h
      · exact absurd h (find_none_all (standard_test c cs) h1 v hv)
      · exact absurd h (find_none_all (long_test c' cs') h2 v hv)
      · cases names with
        | nil => rfl
        | cons m ms =>
          have key : ∀ (p q : List Str → List Str), IsEnumeration p → IsEnumeration q → ∀ n,
              (p (expandedNames (m :: ms))).find? (fun n => ds.contains n) = some n →
              (q (expandedNames (m :: ms))).find? (fun n => ds.contains n) = some n := by
            intro p q hp hq n hn
            have hcand : ∀ (r : List Str → List Str), IsEnumeration r → ∀ k, k ∈ r (expandedNames (m :: ms)) →
                ds.contains k = true → HasCandidate ds (m :: ms) k := by
              intro r hr k hk hc
              rw [hr] at hk
              rw [contains_iff] at hc
              simp only [expandedNames, List.mem_flatMap, mem_nameVariations] at hk
              exact ⟨hc, hk⟩
            have hin := List.mem_of_find?_eq_some hn
            have hc := List.find?_some (p := fun n => ds.contains n) hn
            cases hq' : (q (expandedNames (m :: ms))).find? (fun n => ds.contains n) with
            | none =>
              have := List.find?_eq_none.mp hq' n ((hq _ _).mpr ((hp _ _).mp hin))
              exact absurd hc this
            | some n' =>
              have hin' := List.mem_of_find?_eq_some hq'
              have hc' := List.find?_some (p := fun n => ds.contains n) hq'
              rw [h n n' (hcand p hp n hin hc) (hcand q hq n' hin' hc')]
          cases h3 : (o (expandedNames (m :: ms))).find? (fun n => ds.contains n) with
          | some n => simp only [key o o' ho ho' n h3, h3]
          | none =>
            cases h4 : (o' (expandedNames (m :: ms))).find? (fun n => ds.contains n) with
            | some n => rw [key o' o ho' ho n h4] at h3; cases h3
            | none => simp only [h3, h4]

example : findVar id exDs (some "northward_wind".toList) (some "x".toList) (some ["v".toList])
    = findVar List.reverse exDs (some "northward_wind".toList) (some "x".toList) (some ["v".toList]) :=
  C60_deterministic_partial _ _ (fun _ _ => Iff.rfl) (fun _ _ => List.mem_reverse) exDs _ _ (by decide) (by decide) _
    (Or.inl ⟨{ name := "wind".toList, standardName := some "northward_wind".toList }, by simp [exDs],
      Or.inl (Or.inr ⟨_, rfl, Or.inl rfl⟩)⟩)


/-! ### C80 coordinates and attribute names -/

/-- C80 is false: a pressure coordinate that carries `standard_name = 'air_pressure'` but has another name is not found
(coordinates are matched by name only), so data on pressure levels are rejected. -/
theorem C80_counterexample :
    ∃ ds : Dataset, (∃ v ∈ ds.coords, v.standardName = some "air_pressure".toList ∧
        ∃ w ∈ ds.dataVars, w.name = "V".toList ∧ v.name ∈ w.dims) ∧
      psiSelect id ds {} = .error .attributeError := by
  refine ⟨⟨[{ name := "V".toList, dims := ["time".toList, "level".toList, "n_face".toList] },
      { name := "PS".toList, dims := ["time".toList, "n_face".toList] }],
    [{ name := "level".toList, standardName := some "air_pressure".toList, dims := ["level".toList] }]⟩, ?_, ?_⟩
  · exact ⟨_, List.mem_singleton.mpr rfl, rfl, _, List.mem_cons_self, rfl, by simp⟩
  · decide +kernel

/-- C80, what does hold: the attributes of coordinates never influence the lookup. -/
theorem C80_coord_attributes_ignored_partial (order : List Str → List Str) (ds : Dataset) (f g : Var → Option Str)
    (s l : Option Str) (names : Option (List Str)) :
    findVar order ⟨ds.dataVars, ds.coords.map (fun v => { v with standardName := f v, longName := g v })⟩ s l names
      = findVar order ds s l names := by
  have hc : ∀ n, (Dataset.mk ds.dataVars (ds.coords.map (fun v => { v with standardName := f v, longName := g v }))).contains n
      = ds.contains n := by
    intro n
    simp only [Dataset.contains, List.any_append, List.any_map]
    rfl
  unfold findVar
  simp only [hc]

/-! ### C81 choice of the source -/

/-- C81. With all names given explicitly and present in the data set: the wind is used as it is exactly when the
pressure coordinate is one of its dimensions, and is interpolated from hybrid levels otherwise. -/
theorem C81_explicit (order : List Str → List Str) (ds : Dataset) (w p z a b : Str)
    (hw : w ≠ []) (hp : p ≠ []) (hz : z ≠ []) (ha : a ≠ []) (hb : b ≠ [])
    (v : Var) (hv : ds.lookup w = .ok v) (hps : Has ds p) (hA : Has ds a) (hB : Has ds b) :
    psiSelect order ds ⟨some w, some p, some z, some a, some b⟩
      = .ok (w, p, if z ∈ v.dims then .onPressure z else .interpolated a b) := by
  have hg : ∀ n : Str, n ≠ [] → given (some n) = some n := by
    intro n hn
    obtain ⟨c, cs, rfl⟩ := List.exists_cons_of_ne_nil hn
    rfl
  have hl : ∀ n, Has ds n → ∃ v, ds.lookup n = .ok v := by
    rintro n ⟨v, hv, rfl⟩
    unfold Dataset.lookup
    cases h : (ds.dataVars ++ ds.coords).find? (fun u => u.name == v.name) with
    | some u => exact ⟨u, rfl⟩
    | none =>
      have := List.find?_eq_none.mp h v (List.mem_append.mpr hv)
      simp at this
  obtain ⟨vp, hvp⟩ := hl p hps
  obtain ⟨va, hva⟩ := hl a hA
  obtain ⟨vb, hvb⟩ := hl b hB
  by_cases hd : z ∈ v.dims
  · simp [psiSelect, psiWind, psiPs, psiHyam, psiHybm, psiPlev, hg, hw, hp, hz, ha, hb, hv, hd, bind, Except.bind, pure, Except.pure]
  · simp [psiSelect, psiWind, psiPs, psiHyam, psiHybm, psiPlev, hg, hw, hp, hz, ha, hb, hv, hd, hvp, hva, hvb, bind, Except.bind,
      pure, Except.pure]

/-- C81. In every case: a successful selection uses the wind on its own levels only if the coordinate is one of the
wind's dimensions, and explicitly given names are the ones used. -/
theorem C81_selection (order : List Str → List Str) (ds : Dataset) (n : PsiNames) (w p : Str) (src : PsiSource)
    (h : psiSelect order ds n = .ok (w, p, src)) :
    (∀ c cs, n.wind = some (c :: cs) → w = c :: cs) ∧ (∀ c cs, n.ps = some (c :: cs) → p = c :: cs) ∧
    (∀ z, src = .onPressure z → (∃ v, ds.lookup w = .ok v ∧ z ∈ v.dims) ∧ ∀ c cs, n.plev = some (c :: cs) → z = c :: cs) ∧
    (∀ a b, src = .interpolated a b → (∀ c cs, n.hyam = some (c :: cs) → a = c :: cs) ∧
      (∀ c cs, n.hybm = some (c :: cs) → b = c :: cs) ∧
      ∀ z v, psiPlev order ds n = .ok (some z) → ds.lookup w = .ok v → z ∉ v.dims) := by
  unfold psiSelect at h
  cases h1 : psiWind order ds n with
  | error e => simp [h1, bind, Except.bind] at h
  | ok w' =>
  cases h2 : psiPs order ds n with
  | error e => simp [h1, h2, bind, Except.bind] at h
  | ok p' =>
  cases h3 : psiHyam order ds n with
  | error e => simp [h1, h2, h3, bind, Except.bind] at h
  | ok ha =>
  cases h4 : psiHybm order ds n with
  | error e => simp [h1, h2, h3, h4, bind, Except.bind] at h
  | ok hb =>
  cases h5 : psiPlev order ds n with
  | error e => simp [h1, h2, h3, h4, h5, bind, Except.bind] at h
  | ok z =>
  simp only [h1, h2, h3, h4, h5, bind, Except.bind, pure, Except.pure] at h
  have hw' : ∀ c cs, n.wind = some (c :: cs) → w' = c :: cs := by
    intro c cs hc
    simpa [psiWind, hc, given, eq_comm] using h1
  have hp' : ∀ c cs, n.ps = some (c :: cs) → p' = c :: cs := by
    intro c cs hc
    simpa [psiPs, hc, given, eq_comm] using h2
  have ha' : ∀ c cs, n.hyam = some (c :: cs) → ha = some (c :: cs) := by
    intro c cs hc
    simpa [psiHyam, hc, given, eq_comm] using h3
  have hb' : ∀ c cs, n.hybm = some (c :: cs) → hb = some (c :: cs) := by
    intro c cs hc
    simpa [psiHybm, hc, given, eq_comm] using h4
  have hz' : ∀ c cs, n.plev = some (c :: cs) → z = some (c :: cs) := by
    intro c cs hc
    simpa [psiPlev, hc, given, eq_comm] using h5
  have hybrid : ∀ (hz : ∀ zz v, z = some zz → ds.lookup w' = .ok v → zz ∉ v.dims),
      (match ha, hb with
        | some a, some b => do
            let _ ← ds.lookup w'
            let _ ← ds.lookup p'
            let _ ← ds.lookup a
            let _ ← ds.lookup b
            return (w', p', PsiSource.interpolated a b)
        | _, _ => Except.error PyErr.attributeError) = .ok (w, p, src) →
      (w' = w ∧ p' = p) ∧ ∃ a b, ha = some a ∧ hb = some b ∧ src = .interpolated a b := by
    intro hz h
    cases ha with
    | none => simp at h
    | some a =>
    cases hb with
    | none => simp at h
    | some b =>
    cases g1 : ds.lookup w' with
    | error e => simp [g1, bind, Except.bind] at h
    | ok v1 =>
    cases g2 : ds.lookup p' with
    | error e => simp [g1, g2, bind, Except.bind] at h
    | ok v2 =>
    cases g3 : ds.lookup a with
    | error e => simp [g1, g2, g3, bind, Except.bind] at h
    | ok v3 =>
    cases g4 : ds.lookup b with
    | error e => simp [g1, g2, g3, g4, bind, Except.bind] at h
    | ok v4 =>
    simp only [g1, g2, g3, g4, bind, Except.bind, pure, Except.pure, Except.ok.injEq, Prod.mk.injEq] at h
    exact ⟨⟨h.1, h.2.1⟩, a, b, rfl, rfl, h.2.2.symm⟩
  have finish : ∀ (hz : ∀ zz v, z = some zz → ds.lookup w' = .ok v → zz ∉ v.dims),
      ((w' = w ∧ p' = p) ∧ ∃ a b, ha = some a ∧ hb = some b ∧ src = .interpolated a b) →
      (∀ c cs, n.wind = some (c :: cs) → w = c :: cs) ∧ (∀ c cs, n.ps = some (c :: cs) → p = c :: cs) ∧
      (∀ z, src = .onPressure z → (∃ v, ds.lookup w = .ok v ∧ z ∈ v.dims) ∧ ∀ c cs, n.plev = some (c :: cs) → z = c :: cs) ∧
      (∀ a b, src = .interpolated a b → (∀ c cs, n.hyam = some (c :: cs) → a = c :: cs) ∧
        (∀ c cs, n.hybm = some (c :: cs) → b = c :: cs) ∧
        ∀ zz v, (Except.ok z : Except PyErr _) = .ok (some zz) → ds.lookup w = .ok v → zz ∉ v.dims) := by
    rintro hz ⟨⟨rfl, rfl⟩, a, b, h6, h7, rfl⟩
    refine ⟨hw', hp', fun z hz => by simp at hz, fun a' b' hab => ?_⟩
    injection hab with e1 e2
    subst e1 e2
    refine ⟨fun c cs hc => ?_, fun c cs hc => ?_, fun zz v hzz hv => hz zz v (by injection hzz) hv⟩
    · have := ha' c cs hc
      rw [h6] at this
      exact Option.some.inj this
    · have := hb' c cs hc
      rw [h7] at this
      exact Option.some.inj this
  cases z with
  | none =>
    refine finish (fun zz v hzz => by simp at hzz) (hybrid (fun zz v hzz => by simp at hzz) ?_)
    exact h
  | some zz =>
    cases hlk : ds.lookup w' with
    | error e => simp [hlk] at h
    | ok v =>
      simp only [hlk] at h
      by_cases hd : zz ∈ v.dims
      · simp only [List.contains_iff_mem, hd, if_true, Except.ok.injEq, Prod.mk.injEq] at h
        obtain ⟨rfl, rfl, rfl⟩ := h
        refine ⟨hw', hp', fun z hz => ?_, fun a b hab => by simp at hab⟩
        injection hz with hz
        subst hz
        exact ⟨⟨v, hlk, hd⟩, fun c cs hc => Option.some.inj (hz' c cs hc)⟩
      · simp only [List.contains_iff_mem, hd, if_false] at h
        have hz : ∀ z' v', some zz = some z' → ds.lookup w' = .ok v' → z' ∉ v'.dims := by
          intro z' v' e1 e2
          rw [hlk] at e2
          injection e1 with e1
          injection e2 with e2
          subst e1 e2
          exact hd
        refine finish hz (hybrid hz ?_)
        cases ha <;> cases hb <;> simpa [hlk, bind, Except.bind, pure, Except.pure] using h

/-- wind on pressure levels, names found automatically -/
def exUx : Dataset :=
  ⟨[{ name := "V".toList, dims := ["time".toList, "plev".toList, "n_face".toList] },
      { name := "PS".toList, dims := ["time".toList, "n_face".toList] }],
    [{ name := "plev".toList, dims := ["plev".toList] }]⟩

example : psiSelect id exUx {} = .ok ("V".toList, "PS".toList, .onPressure "plev".toList) := by decide +kernel

/-! ### C82 name of the pressure coordinate -/

/-- C82 is false: for every name other than `plev` the construction of the thickness array fails, so
`plev_coordname` (and two of the three names searched automatically) cannot be used. -/
theorem C82_counterexample :
    (∀ z : Str, z ≠ "plev".toList → z ≠ "time".toList → z ≠ "latitudes".toList →
      psiThicknessCheck (.onPressure z) = .error .valueError) ∧
    ∃ ds : Dataset, psiSelect id ds {} = .ok ("V".toList, "PS".toList, .onPressure "pressure_lev".toList) ∧
      psiPrepare id ds {} = .error .valueError := by
  refine ⟨fun z h1 h2 h3 => ?_, ?_⟩
  · have : (["time".toList, "latitudes".toList, "plev".toList].contains z) = false := by
      rw [Bool.eq_false_iff]
      intro h
      rw [List.contains_iff_mem] at h
      simp only [List.mem_cons, List.not_mem_nil, or_false] at h
      tauto
    simp only [psiThicknessCheck, checkCoords, List.all_cons, this, Bool.false_and]
    rfl
  · exact ⟨⟨[{ name := "V".toList, dims := ["time".toList, "pressure_lev".toList, "n_face".toList] },
        { name := "PS".toList, dims := ["time".toList, "n_face".toList] }],
      [{ name := "pressure_lev".toList, dims := ["pressure_lev".toList] }]⟩, by decide +kernel, by decide +kernel⟩

/-- C82 holds for the name `plev` and for winds interpolated from hybrid levels. -/
theorem C82_plev_partial (order : List Str → List Str) (ds : Dataset) (n : PsiNames) (w p : Str) (src : PsiSource)
    (h : psiSelect order ds n = .ok (w, p, src)) (hs : ∀ z, src = .onPressure z → z = "plev".toList) :
    psiPrepare order ds n = .ok (w, p, src) := by
  have : psiThicknessCheck src = .ok () := by
    cases src with
    | onPressure z => rw [hs z rfl]; decide
    | interpolated a b => simp only [psiThicknessCheck]; decide
  simp only [psiPrepare, h, this, bind, Except.bind, pure, Except.pure]

example : psiPrepare id exUx {} = .ok ("V".toList, "PS".toList, .onPressure "plev".toList) :=
  C82_plev_partial id exUx {} _ _ _ (by decide +kernel) (fun z hz => by injection hz with hz; exact hz.symm)

end Verif.Props
