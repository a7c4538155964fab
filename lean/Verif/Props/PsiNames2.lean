import Verif.Props.PsiNames

/-
C81: which variables zonal_meridional_psi uses for any combination of given and missing names, and when it has none to use.
-/

set_option linter.unusedSectionVars false
namespace Verif.Props
open Model Spec PyStr

/-- the variable used for an optional name argument: the one given; if none is given (or the empty string), one the documented search finds -/
def Chosen (arg : Option Str) (search : Str → Prop) (n : Str) : Prop :=
  (arg = some n ∧ n ≠ []) ∨ ((arg = none ∨ arg = some []) ∧ search n)

theorem chosen_given (arg : Option Str) (search : Str → Prop) :
    (∃ n, given arg = some n ∧ ∀ m, Chosen arg search m ↔ m = n) ∨ (given arg = none ∧ ∀ m, Chosen arg search m ↔ search m) := by
  unfold Chosen given
  match arg with
  | none => right; simp
  | some [] => right; simp
  | some (c :: cs) =>
    left
    refine ⟨c :: cs, rfl, fun m => ?_⟩
    constructor
    · rintro (⟨h, -⟩ | ⟨h | h, -⟩)
      · injection h with h; exact h.symm
      · cases h
      · cases h
    · rintro rfl
      exact .inl ⟨rfl, by simp⟩

/-- a mandatory variable -/
theorem mandatory_spec (order : List Str → List Str) (ho : IsEnumeration order) (ds : Dataset) (arg : Option Str) (s l : Option Str)
    (hs : s ≠ some []) (hl : l ≠ some []) (names : List Str) (search : Str → Prop) (hsearch : ∀ n, Documented ds s l names n ↔ search n) :
    (∃ n, (match given arg with
      | some n => (.ok n : Except PyErr Str)
      | none => findVar order ds s l (some names)) = .ok n ∧ Chosen arg search n) ∨
    ((match given arg with
      | some n => (.ok n : Except PyErr Str)
      | none => findVar order ds s l (some names)) = .error .keyError ∧ ∀ n, ¬ Chosen arg search n) := by
  rcases chosen_given arg search with ⟨n, hg, hc⟩ | ⟨hg, hc⟩
  · rw [hg]
    exact .inl ⟨n, rfl, (hc n).mpr rfl⟩
  · rw [hg]
    obtain ⟨h1, h2⟩ := findVar_documented order ho ds s l hs hl names
    obtain ⟨-, he, -⟩ := C59_result_present order ds s l (some names)
    cases h : findVar order ds s l (some names) with
    | ok n => exact .inl ⟨n, rfl, (hc n).mpr ((hsearch n).mp (h1 n h))⟩
    | error e =>
      rw [he e h]
      refine .inr ⟨rfl, fun n hn => ?_⟩
      obtain ⟨m, hm⟩ := h2 n ((hsearch n).mpr ((hc n).mp hn))
      rw [h] at hm
      cases hm

/-- an optional variable -/
theorem optional_spec (order : List Str → List Str) (ho : IsEnumeration order) (ds : Dataset) (arg : Option Str) (s l : Option Str)
    (hs : s ≠ some []) (hl : l ≠ some []) (names : List Str) :
    (∃ n, (match given arg with
      | some n => (.ok (some n) : Except PyErr (Option Str))
      | none => findOptionalVar order ds s l (some names)) = .ok (some n) ∧ Chosen arg (Documented ds s l names) n) ∨
    ((match given arg with
      | some n => (.ok (some n) : Except PyErr (Option Str))
      | none => findOptionalVar order ds s l (some names)) = .ok none ∧ ∀ n, ¬ Chosen arg (Documented ds s l names) n) := by
  rcases chosen_given arg (Documented ds s l names) with ⟨n, hg, hc⟩ | ⟨hg, hc⟩
  · rw [hg]
    exact .inl ⟨n, rfl, (hc n).mpr rfl⟩
  · rw [hg]
    rcases findOptional_documented order ho ds s l hs hl names with ⟨n, h1, h2⟩ | ⟨h1, h2⟩
    · exact .inl ⟨n, h1, (hc n).mpr h2⟩
    · exact .inr ⟨h1, fun n hn => h2 n ((hc n).mp hn)⟩

/-- what the call does with the names: the wind and the surface pressure first, then the source of the winds on pressure levels -/
theorem psiSelect_spec (order : List Str → List Str) (ho : IsEnumeration order) (ds : Dataset) (n : PsiNames) :
    (((∀ w, ¬ Chosen n.wind (IsWind ds) w) ∨ (∀ p, ¬ Chosen n.ps (IsSurfacePressure ds) p)) ∧ psiSelect order ds n = .error .keyError) ∨
    ∃ w p oa ob oz, Chosen n.wind (IsWind ds) w ∧ Chosen n.ps (IsSurfacePressure ds) p ∧
      ((∃ a, oa = some a ∧ Chosen n.hyam (IsHyam ds) a) ∨ (oa = none ∧ ∀ a, ¬ Chosen n.hyam (IsHyam ds) a)) ∧
      ((∃ b, ob = some b ∧ Chosen n.hybm (IsHybm ds) b) ∨ (ob = none ∧ ∀ b, ¬ Chosen n.hybm (IsHybm ds) b)) ∧
      ((∃ z, oz = some z ∧ Chosen n.plev (IsPlev ds) z) ∨ (oz = none ∧ ∀ z, ¬ Chosen n.plev (IsPlev ds) z)) ∧
      psiSelect order ds n = (do
        let onPressure : Option Str ← match oz with
          | some p => do
              let v ← ds.lookup w
              pure (if v.dims.contains p then some p else none)
          | none => pure none
        match onPressure with
        | some z => return (w, p, .onPressure z)
        | none =>
          match oa, ob with
          | some a, some b => do
              let _ ← ds.lookup w
              let _ ← ds.lookup p
              let _ ← ds.lookup a
              let _ ← ds.lookup b
              return (w, p, .interpolated a b)
          | _, _ => .error .attributeError) := by
  have hw := mandatory_spec order ho ds n.wind (some "northward_wind".toList) (some "Meridional wind".toList) (by decide) (by decide)
    ["V".toList, "vs".toList, "meridional_wind".toList] (IsWind ds) (fun _ => Iff.rfl)
  have hp := mandatory_spec order ho ds n.ps (some "surface_air_pressure".toList) (some "Surface pressure".toList) (by decide) (by decide)
    ["ps".toList, "p_surface".toList, "surface_pressure".toList, "pressure_surface".toList] (IsSurfacePressure ds) (documented_ps ds)
  have ha := optional_spec order ho ds n.hyam none (some "hybrid A coefficient at layer midpoints".toList) (by decide) (by decide)
    ["hyam".toList, "hya".toList, "hybrid_A_midpoints".toList]
  have hb := optional_spec order ho ds n.hybm none (some "hybrid B coefficient at layer midpoints".toList) (by decide) (by decide)
    ["hybm".toList, "hyb".toList, "hybrid_B_midpoints".toList]
  have hz := optional_spec order ho ds n.plev (some "air_pressure".toList) none (by decide) (by decide)
    ["plev".toList, "pressure_lev".toList, "pressure_levels".toList]
  have hw' : (∃ w, psiWind order ds n = .ok w ∧ Chosen n.wind (IsWind ds) w) ∨
      (psiWind order ds n = .error .keyError ∧ ∀ w, ¬ Chosen n.wind (IsWind ds) w) := hw
  have hp' : (∃ p, psiPs order ds n = .ok p ∧ Chosen n.ps (IsSurfacePressure ds) p) ∨
      (psiPs order ds n = .error .keyError ∧ ∀ p, ¬ Chosen n.ps (IsSurfacePressure ds) p) := hp
  have ha' : (∃ a, psiHyam order ds n = .ok (some a) ∧ Chosen n.hyam (IsHyam ds) a) ∨
      (psiHyam order ds n = .ok none ∧ ∀ a, ¬ Chosen n.hyam (IsHyam ds) a) := ha
  have hb' : (∃ a, psiHybm order ds n = .ok (some a) ∧ Chosen n.hybm (IsHybm ds) a) ∨
      (psiHybm order ds n = .ok none ∧ ∀ a, ¬ Chosen n.hybm (IsHybm ds) a) := hb
  have hz' : (∃ a, psiPlev order ds n = .ok (some a) ∧ Chosen n.plev (IsPlev ds) a) ∨
      (psiPlev order ds n = .ok none ∧ ∀ a, ¬ Chosen n.plev (IsPlev ds) a) := hz
  clear hw hp ha hb hz
  have opt : ∀ {x : Except PyErr (Option Str)} {C : Str → Prop}, ((∃ a, x = .ok (some a) ∧ C a) ∨ (x = .ok none ∧ ∀ a, ¬ C a)) →
      ∃ o, x = .ok o ∧ ((∃ a, o = some a ∧ C a) ∨ (o = none ∧ ∀ a, ¬ C a)) := by
    rintro x C (⟨a, h1, h2⟩ | ⟨h1, h2⟩)
    · exact ⟨_, h1, .inl ⟨a, rfl, h2⟩⟩
    · exact ⟨_, h1, .inr ⟨rfl, h2⟩⟩
  obtain ⟨oa, ea, ca⟩ := opt ha'
  obtain ⟨ob, eb, cb⟩ := opt hb'
  obtain ⟨oz, ez, cz⟩ := opt hz'
  unfold psiSelect
  rcases hw' with ⟨w, ew, cw⟩ | ⟨ew, cw⟩
  · rcases hp' with ⟨p, ep, cp⟩ | ⟨ep, cp⟩
    · right
      rw [ew, ep, ea, eb, ez]
      exact ⟨w, p, oa, ob, oz, cw, cp, ca, cb, cz, rfl⟩
    · left
      rw [ew, ep]
      exact ⟨.inr cp, rfl⟩
  · left
    rw [ew]
    exact ⟨.inl cw, rfl⟩

/-- `C81`, for any combination of given and missing names: the variables used are the chosen ones; the wind is used on its own levels only if
the chosen pressure coordinate is one of its dimensions, and is interpolated from hybrid levels only if the chosen coordinate is not. -/
theorem C81_used (order : List Str → List Str) (ho : IsEnumeration order) (ds : Dataset) (n : PsiNames) (w p : Str) (src : PsiSource)
    (h : psiSelect order ds n = .ok (w, p, src)) :
    Chosen n.wind (IsWind ds) w ∧ Chosen n.ps (IsSurfacePressure ds) p ∧
    (∀ z, src = .onPressure z → Chosen n.plev (IsPlev ds) z ∧ ∃ v, ds.lookup w = .ok v ∧ z ∈ v.dims) ∧
    (∀ a b, src = .interpolated a b → Chosen n.hyam (IsHyam ds) a ∧ Chosen n.hybm (IsHybm ds) b ∧ ∃ v, ds.lookup w = .ok v ∧
      ((∃ z, Chosen n.plev (IsPlev ds) z ∧ z ∉ v.dims) ∨ ∀ z, ¬ Chosen n.plev (IsPlev ds) z)) := by
  rcases psiSelect_spec order ho ds n with ⟨-, he⟩ | ⟨w', p', oa, ob, oz, cw, cp, ca, cb, cz, he⟩
  · rw [he] at h; cases h
  rw [he] at h
  clear he
  have fin : ∀ (hnot : ∀ v, ds.lookup w' = .ok v → ((∃ z, Chosen n.plev (IsPlev ds) z ∧ z ∉ v.dims) ∨ ∀ z, ¬ Chosen n.plev (IsPlev ds) z)),
      (match oa, ob with
        | some a, some b => do
            let _ ← ds.lookup w'
            let _ ← ds.lookup p'
            let _ ← ds.lookup a
            let _ ← ds.lookup b
            return (w', p', PsiSource.interpolated a b)
        | _, _ => (.error .attributeError : Except PyErr (Str × Str × PsiSource))) = .ok (w, p, src) →
      Chosen n.wind (IsWind ds) w ∧ Chosen n.ps (IsSurfacePressure ds) p ∧
      (∀ z, src = .onPressure z → Chosen n.plev (IsPlev ds) z ∧ ∃ v, ds.lookup w = .ok v ∧ z ∈ v.dims) ∧
      (∀ a b, src = .interpolated a b → Chosen n.hyam (IsHyam ds) a ∧ Chosen n.hybm (IsHybm ds) b ∧ ∃ v, ds.lookup w = .ok v ∧
        ((∃ z, Chosen n.plev (IsPlev ds) z ∧ z ∉ v.dims) ∨ ∀ z, ¬ Chosen n.plev (IsPlev ds) z)) := by
    intro hnot h
    rcases ca with ⟨a, rfl, ca⟩ | ⟨rfl, -⟩
    · rcases cb with ⟨b, rfl, cb⟩ | ⟨rfl, -⟩
      · cases l1 : ds.lookup w' with
        | error e => simp [l1, bind, Except.bind] at h
        | ok v =>
          cases l2 : ds.lookup p' with
          | error e => simp [l1, l2, bind, Except.bind] at h
          | ok v2 =>
            cases l3 : ds.lookup a with
            | error e => simp [l1, l2, l3, bind, Except.bind] at h
            | ok v3 =>
              cases l4 : ds.lookup b with
              | error e => simp [l1, l2, l3, l4, bind, Except.bind] at h
              | ok v4 =>
                simp only [l1, l2, l3, l4, bind, Except.bind, pure, Except.pure, Except.ok.injEq, Prod.mk.injEq] at h
                obtain ⟨rfl, rfl, rfl⟩ := h
                refine ⟨cw, cp, fun z hz => (by cases hz), fun a' b' hab => ?_⟩
                injection hab with e1 e2
                subst e1 e2
                exact ⟨ca, cb, v, l1, hnot v l1⟩
      · cases h
    · cases h
  rcases cz with ⟨z, rfl, cz⟩ | ⟨rfl, cz⟩
  · cases l1 : ds.lookup w' with
    | error e => simp [l1, bind, Except.bind] at h
    | ok v =>
      by_cases hd : v.dims.contains z = true
      · simp only [l1, bind, Except.bind, pure, Except.pure, hd, if_true, Except.ok.injEq, Prod.mk.injEq] at h
        obtain ⟨rfl, rfl, rfl⟩ := h
        refine ⟨cw, cp, fun z' hz => ?_, fun a b hab => by cases hab⟩
        injection hz with e1
        subst e1
        exact ⟨cz, v, l1, by simpa using hd⟩
      · have hd' : v.dims.contains z = false := by simpa using hd
        refine fin (fun v' hv' => ?_) ?_
        · rw [l1] at hv'
          injection hv' with e1
          subst e1
          exact .inl ⟨z, cz, by simpa using hd⟩
        · rw [← h]
          simp only [l1, bind, Except.bind, pure, Except.pure, hd']
          rfl
  · exact fin (fun v _ => .inr cz) h

/-- `C81`, no source: a wind and a surface pressure are there, no pressure coordinate that is a dimension of the wind, and one of the hybrid
coefficients is neither given nor found: AttributeError. Without a wind or a surface pressure: KeyError. -/
theorem C81_rejected (order : List Str → List Str) (ho : IsEnumeration order) (ds : Dataset) (n : PsiNames) :
    ((∀ w, ¬ Chosen n.wind (IsWind ds) w) ∨ (∀ p, ¬ Chosen n.ps (IsSurfacePressure ds) p) → psiSelect order ds n = .error .keyError) ∧
    ((∃ w, Chosen n.wind (IsWind ds) w) → (∃ p, Chosen n.ps (IsSurfacePressure ds) p) →
      (∀ w, Chosen n.wind (IsWind ds) w → ∃ v, ds.lookup w = .ok v ∧ ∀ z, Chosen n.plev (IsPlev ds) z → z ∉ v.dims) →
      (∀ a, ¬ Chosen n.hyam (IsHyam ds) a) ∨ (∀ b, ¬ Chosen n.hybm (IsHybm ds) b) → psiSelect order ds n = .error .attributeError) := by
  rcases psiSelect_spec order ho ds n with ⟨hno, he⟩ | ⟨w, p, oa, ob, oz, cw, cp, ca, cb, cz, he⟩
  · refine ⟨fun _ => he, fun ⟨w, hw⟩ ⟨p, hp⟩ _ _ => ?_⟩
    rcases hno with h | h
    · exact absurd hw (h w)
    · exact absurd hp (h p)
  · refine ⟨fun hno => ?_, fun _ _ hdim hcoef => ?_⟩
    · rcases hno with h | h
      · exact absurd cw (h w)
      · exact absurd cp (h p)
    · rw [he]
      obtain ⟨v, l1, hz⟩ := hdim w cw
      have hlast : (match oa, ob with
          | some a, some b => do
              let _ ← ds.lookup w
              let _ ← ds.lookup p
              let _ ← ds.lookup a
              let _ ← ds.lookup b
              return (w, p, PsiSource.interpolated a b)
          | _, _ => (.error .attributeError : Except PyErr (Str × Str × PsiSource))) = .error .attributeError := by
        rcases hcoef with h | h
        · rcases ca with ⟨a, -, ca⟩ | ⟨rfl, -⟩
          · exact absurd ca (h a)
          · rfl
        · rcases cb with ⟨b, -, cb⟩ | ⟨rfl, -⟩
          · exact absurd cb (h b)
          · cases oa <;> rfl
      rcases cz with ⟨z, rfl, cz⟩ | ⟨rfl, cz⟩
      · have hd : v.dims.contains z = false := by
          have := hz z cz
          simpa using this
        refine Eq.trans ?_ hlast
        simp only [l1, bind, Except.bind, pure, Except.pure, hd]
        rfl
      · exact hlast

/-- a data set with a wind on hybrid levels and no coefficients: nothing to interpolate with -/
example : psiSelect id ⟨[{ name := "V".toList, dims := ["time".toList, "lev".toList] }, { name := "PS".toList }], []⟩ {}
    = .error .attributeError := by decide +kernel

end Verif.Props
