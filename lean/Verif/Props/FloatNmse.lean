import Verif.Model.FloatsNmse
import Verif.Lemmas.FloatSum
import Verif.Lemmas.FloatPsi
import Verif.Props.Nmse

/-
C157: nmse in floating-point arithmetic.
-/

set_option linter.unusedSectionVars false
namespace Verif.Props
open Model Spec Lemmas
variable {K : Type _} [Field K] [LinearOrder K] [IsStrictOrderedRing K]

theorem nmseWithBy_exact (wt : K → K) (obs mod : GeoInput K) : nmseWithBy evenSpacing nmseSlice wt obs mod = nmseWith wt obs mod := rfl

theorem nmseSliceFl_exact (ws o m : List K) : nmseSliceFl Rounding.exact List.sum ws o m = nmseSlice ws o m := by
  have h : ∀ ws vs : List K, weightedMeanFl Rounding.exact List.sum ws vs = weightedMean ws vs := fun _ _ => rfl
  unfold nmseSliceFl nmseSlice
  simp only [h]
  cases weightedMean ws o with
  | fin ow => exact roundXF_exact _
  | pinf => rfl
  | ninf => rfl
  | nan => rfl

/-- C157. With exact arithmetic the computation is the one of C61. -/
theorem C157_exact (wt : K → K) (obs mod : GeoInput K) : nmseWithFl Rounding.exact Rounding.exact List.sum wt obs mod = nmseWith wt obs mod := by
  have : (nmseSliceFl Rounding.exact List.sum : List K → List K → List K → XF K) = nmseSlice := by
    funext ws o m
    exact nmseSliceFl_exact ws o m
  have e2 : evenSpacingFl (Rounding.exact : Rounding K) = evenSpacing := by
    funext c
    cases c <;> rfl
  unfold nmseWithFl
  rw [e2]
  rw [this, nmseWithBy_exact]

theorem sumFl_nonneg (R : Rounding K) (t : SumTree K) (h : ∀ a ∈ t.list, 0 ≤ a) : 0 ≤ t.sumFl R := by
  induction t with
  | leaf x => exact h x (by simp [SumTree.list])
  | node l r ihl ihr =>
    exact R.fl_nonneg (add_nonneg (ihl (fun a ha => h a (by simp [SumTree.list, ha]))) (ihr (fun a ha => h a (by simp [SumTree.list, ha]))))

theorem sumFl_zero (R : Rounding K) (t : SumTree K) (h : ∀ a ∈ t.list, a = 0) : t.sumFl R = 0 := by
  induction t with
  | leaf x => exact h x (by simp [SumTree.list])
  | node l r ihl ihr =>
    rw [SumTree.sumFl, ihl (fun a ha => h a (by simp [SumTree.list, ha])), ihr (fun a ha => h a (by simp [SumTree.list, ha])), add_zero, R.fl_zero]

theorem addsUp_nonneg {R : Rounding K} {sum : List K → K} (hs : AddsUp R sum) {l : List K} (h : ∀ a ∈ l, 0 ≤ a) : 0 ≤ sum l := by
  by_cases hl : l = []
  · rw [hl, hs.1]
  · obtain ⟨t, hp, e⟩ := hs.2 l hl
    rw [e]
    exact sumFl_nonneg R t (fun a ha => h a (hp.mem_iff.mp ha))

theorem addsUp_zero {R : Rounding K} {sum : List K → K} (hs : AddsUp R sum) {l : List K} (h : ∀ a ∈ l, a = 0) : sum l = 0 := by
  by_cases hl : l = []
  · rw [hl, hs.1]
  · obtain ⟨t, hp, e⟩ := hs.2 l hl
    rw [e]
    exact sumFl_zero R t (fun a ha => h a (hp.mem_iff.mp ha))

theorem sqDiffFl_nonneg (R : Rounding K) (a b : K) : 0 ≤ sqDiffFl R a b := R.fl_nonneg (mul_self_nonneg _)

theorem sqDiffFl_self (R : Rounding K) (a : K) : sqDiffFl R a a = 0 := by
  unfold sqDiffFl
  rw [sub_self, R.fl_zero, mul_zero, R.fl_zero]

/-- no negative number: NaN, infinity or a number from 0 on -/
def NotNegative (x : XF K) : Prop := x = .nan ∨ x = .pinf ∨ ∃ r, x = .fin r ∧ 0 ≤ r

/-- all numbers of a result -/
def nmseNumbers : NmseOut K → List (XF K)
  | .one r => [r]
  | .table t => t.flatMap (fun v => v.2.map (·.2))

theorem mem_zipWith {α β γ : Type _} {f : α → β → γ} {l : List α} {l' : List β} {c : γ} (h : c ∈ List.zipWith f l l') :
    ∃ a ∈ l, ∃ b ∈ l', c = f a b := by
  induction l generalizing l' with
  | nil => simp at h
  | cons a l ih =>
    cases l' with
    | nil => simp at h
    | cons b l' =>
      rw [List.zipWith_cons_cons, List.mem_cons] at h
      rcases h with rfl | h
      · exact ⟨a, by simp, b, by simp, rfl⟩
      · obtain ⟨a', ha, b', hb, e⟩ := ih h
        exact ⟨a', by simp [ha], b', by simp [hb], e⟩

theorem weightedMeanFl_nonneg {R : Rounding K} {sum : List K → K} (hs : AddsUp R sum) (ws vs : List K) (hw : ∀ w ∈ ws, 0 ≤ w) (hv : ∀ v ∈ vs, 0 ≤ v) :
    weightedMeanFl R sum ws vs = .nan ∨ ∃ r, weightedMeanFl R sum ws vs = .fin r ∧ 0 ≤ r := by
  unfold weightedMeanFl
  split_ifs with h0
  · exact Or.inl rfl
  · refine Or.inr ⟨_, rfl, R.fl_nonneg (div_nonneg (addsUp_nonneg hs ?_) (addsUp_nonneg hs hw))⟩
    intro a ha
    obtain ⟨w, h1, v, h2, rfl⟩ := mem_zipWith ha
    exact R.fl_nonneg (mul_nonneg (hw w h1) (hv v h2))

/-- the computation of one variable -/
theorem nmseSliceFl_nonneg {R : Rounding K} {sum : List K → K} (hs : AddsUp R sum) (ws o m : List K) (hw : ∀ w ∈ ws, 0 ≤ w) :
    NotNegative (nmseSliceFl R sum ws o m) := by
  unfold nmseSliceFl NotNegative
  cases weightedMeanFl R sum ws o with
  | fin ow =>
    have h1 := weightedMeanFl_nonneg hs ws (List.zipWith (sqDiffFl R) m o) hw (fun v hv => by
      obtain ⟨a, -, b, -, rfl⟩ := mem_zipWith hv; exact sqDiffFl_nonneg R a b)
    have h2 := weightedMeanFl_nonneg hs ws (o.map (fun o => sqDiffFl R o ow)) hw (fun v hv => by
      obtain ⟨a, -, rfl⟩ := List.mem_map.mp hv; exact sqDiffFl_nonneg R a ow)
    simp only
    rcases h1 with e1 | ⟨a, e1, ha⟩
    · rw [e1]; left; cases weightedMeanFl R sum ws (o.map fun o => sqDiffFl R o ow) <;> rfl
    · rcases h2 with e2 | ⟨b, e2, hb⟩
      · rw [e1, e2]; left; rfl
      · rw [e1, e2]
        by_cases hb0 : b = 0
        · rw [hb0, XF.fin_div_zero]
          unfold XF.signInf
          rcases ha.lt_or_eq with ha | ha
          · rw [if_pos ha]; right; left; rfl
          · rw [if_neg (by linarith), if_neg (by linarith)]; left; rfl
        · rw [XF.fin_div _ _ hb0]
          exact Or.inr (Or.inr ⟨_, rfl, R.fl_nonneg (div_nonneg ha hb)⟩)
  | pinf => exact Or.inl rfl
  | ninf => exact Or.inl rfl
  | nan => exact Or.inl rfl

/-- identical fields -/
theorem nmseSliceFl_same {R : Rounding K} {sum : List K → K} (hs : AddsUp R sum) (ws o : List K) :
    nmseSliceFl R sum ws o o = .nan ∨ nmseSliceFl R sum ws o o = .fin 0 := by
  unfold nmseSliceFl
  cases weightedMeanFl R sum ws o with
  | fin ow =>
    simp only
    have hz : weightedMeanFl R sum ws (List.zipWith (sqDiffFl R) o o) = .nan ∨ weightedMeanFl R sum ws (List.zipWith (sqDiffFl R) o o) = .fin 0 := by
      unfold weightedMeanFl
      split_ifs with h0
      · exact Or.inl rfl
      · right
        rw [addsUp_zero hs, zero_div, R.fl_zero]
        intro a ha
        obtain ⟨w, -, v, h2, rfl⟩ := mem_zipWith ha
        rw [List.zipWith_self] at h2
        obtain ⟨b, -, rfl⟩ := List.mem_map.mp h2
        rw [sqDiffFl_self, mul_zero, R.fl_zero]
    rcases hz with e | e
    · rw [e]; left; cases weightedMeanFl R sum ws (o.map fun o => sqDiffFl R o ow) <;> rfl
    · rw [e]
      cases hd : weightedMeanFl R sum ws (o.map fun o => sqDiffFl R o ow) with
      | fin b =>
        by_cases hb0 : b = 0
        · rw [hb0, XF.fin_div_zero]; left; simp [XF.signInf, roundXF]
        · rw [XF.fin_div _ _ hb0]; right; simp [roundXF, R.fl_zero]
      | nan => left; rfl
      | pinf => exact absurd hd (by unfold weightedMeanFl; split_ifs <;> simp)
      | ninf => exact absurd hd (by unfold weightedMeanFl; split_ifs <;> simp)
  | pinf => exact Or.inl rfl
  | ninf => exact Or.inl rfl
  | nan => exact Or.inl rfl

/-- what the numbers of a result are, whatever is computed from the masked values -/
theorem nmseWithBy_numbers (even : CoordArr K → Except PyErr Bool) (slice : List K → List K → List K → XF K) (wt : K → K) (obs mod : GeoInput K) (out : NmseOut K)
    (h : nmseWithBy even slice wt obs mod = .ok out) :
    ∃ lats, cellLats obs.lat obs.lon = some lats ∧ ∀ r ∈ nmseNumbers out, ∃ u ∈ obs.vars, ∃ u' ∈ mod.vars, ∃ (i : ℕ) (o m : String × List (Option K)), obs.vars[i]? = some o ∧ mod.vars[i]? = some m ∧
      r = slice (maskVar (lats.map wt) u.2 u'.2).1 (maskVar (lats.map wt) o.2 m.2).2.1 (maskVar (lats.map wt) o.2 m.2).2.2 := by
  unfold nmseWithBy at h
  by_cases h1 : obs.kind = .other ∨ mod.kind = .other
  · simp only [if_pos h1] at h; cases h
  by_cases h2 : obs.kind ≠ mod.kind
  · simp only [if_neg h1, if_pos h2] at h; cases h
  by_cases h3 : obs.coords ⊆ mod.coords ∧ mod.coords ⊆ obs.coords
  swap
  · simp only [if_neg h1, if_neg h2, if_pos h3] at h; cases h
  by_cases h4 : obs.found = true ∧ mod.found = true
  swap
  · simp only [if_neg h1, if_neg h2, if_neg (not_not.mpr h3), if_pos h4] at h; cases h
  by_cases m1 : obs.manyLat = true
  · simp only [if_neg h1, if_neg h2, if_neg (not_not.mpr h3), if_neg (not_not.mpr h4), if_pos m1] at h; cases h
  simp only [if_neg h1, if_neg h2, if_neg (not_not.mpr h3), if_neg (not_not.mpr h4), if_neg m1] at h
  cases ha : even obs.lat with
  | error e => rw [ha] at h; cases h
  | ok a =>
    rw [ha] at h
    by_cases m2 : obs.manyLon = true
    · simp only [if_pos m2] at h; cases h
    cases hb : even obs.lon with
    | error e => simp only [if_neg m2, hb] at h; cases h
    | ok b =>
      simp only [if_neg m2, hb] at h
      simp only [bind, Except.bind, pure, Except.pure, throw, throwThe, MonadExceptOf.throw] at h
      split at h
      · cases h
      split at h
      · cases h
      split at h
      · cases h
      cases hl : cellLats obs.lat obs.lon with
      | none => simp only [hl] at h; cases h
      | some lats =>
        simp only [hl] at h
        split at h
        · cases h
        refine ⟨lats, rfl, ?_⟩
        intro r hr
        cases hk : obs.kind with
        | other => exact absurd (Or.inl hk) h1
        | dataArray =>
          simp only [hk] at h
          split at h
          · rename_i o m eo em
            cases h
            rw [nmseNumbers, List.mem_singleton] at hr
            subst hr
            have e1 : obs.vars[0]? = some o := by rw [eo]; rfl
            have e2 : mod.vars[0]? = some m := by rw [em]; rfl
            exact ⟨o, List.mem_of_getElem? e1, m, List.mem_of_getElem? e2, 0, o, m, e1, e2, rfl⟩
          · cases h
        | dataset =>
          simp only [hk] at h
          split at h
          · cases h
          · cases h
            simp only [nmseNumbers, List.mem_flatMap, List.mem_map] at hr
            obtain ⟨x, ⟨v, hv, rfl⟩, y, hy, rfl⟩ := hr
            rw [List.mem_map] at hy
            obtain ⟨u, hu, rfl⟩ := hy
            obtain ⟨u1, h1', u2, h2', rfl⟩ := mem_zipWith hu
            obtain ⟨i, hi⟩ := List.mem_iff_getElem?.mp hv
            rw [List.getElem?_zipWith_eq_some] at hi
            obtain ⟨o, m, ho, hm, rfl⟩ := hi
            exact ⟨u1, h1', u2, h2', i, o, m, ho, hm, rfl⟩

theorem maskVar_nonneg (ws : List K) (o m : List (Option K)) (hw : ∀ w ∈ ws, 0 ≤ w) : ∀ w ∈ (maskVar ws o m).1, 0 ≤ w := by
  intro w h
  obtain ⟨a, ha, b, -, rfl⟩ := mem_zipWith h
  unfold maskWeight
  split_ifs
  · exact hw a ha
  · exact le_refl _

/-- C157. With weights that are not negative no result is negative: every number that is returned, for DataArrays and for Datasets, is at least 0,
and NaN or plus infinity otherwise, however the additions are ordered and whatever the rounding. -/
theorem C157_not_negative (C R : Rounding K) (sum : List K → K) (hs : AddsUp R sum) (wt : K → K) (obs mod : GeoInput K) (lats : List K)
    (hl : cellLats obs.lat obs.lon = some lats) (hw : ∀ φ ∈ lats, 0 ≤ wt φ) (out : NmseOut K) (h : nmseWithFl C R sum wt obs mod = .ok out) :
    ∀ r ∈ nmseNumbers out, NotNegative r := by
  obtain ⟨lats', hl', hn⟩ := nmseWithBy_numbers _ _ _ _ _ _ h
  rw [hl, Option.some.injEq] at hl'
  subst hl'
  intro r hr
  obtain ⟨u, -, u', -, i, o, m, -, -, rfl⟩ := hn r hr
  exact nmseSliceFl_nonneg hs _ _ _ (maskVar_nonneg _ _ _ (fun w h => by obtain ⟨φ, hφ, rfl⟩ := List.mem_map.mp h; exact hw φ hφ))

/-- C157. A field compared with itself gives exactly 0, never a small number left over by rounding (NaN when the computed spread of the observations
is 0). -/
theorem C157_identical (C R : Rounding K) (sum : List K → K) (hs : AddsUp R sum) (wt : K → K) (obs : GeoInput K) (out : NmseOut K)
    (h : nmseWithFl C R sum wt obs obs = .ok out) : ∀ r ∈ nmseNumbers out, r = .nan ∨ r = .fin 0 := by
  obtain ⟨lats', -, hn⟩ := nmseWithBy_numbers _ _ _ _ _ _ h
  intro r hr
  obtain ⟨u, -, u', -, i, o, m, ho, hm, rfl⟩ := hn r hr
  rw [ho, Option.some.injEq] at hm
  subst hm
  exact nmseSliceFl_same hs _ _

theorem leftSum_addsUp (R : Rounding K) : AddsUp R (leftSum R) := by
  refine ⟨rfl, ?_⟩
  intro l hl
  cases l with
  | nil => exact absurd rfl hl
  | cons x xs =>
    have key : ∀ (ys : List K) (t : SumTree K), ∃ t' : SumTree K, t'.list = t.list ++ ys ∧ ys.foldl (fun a y => R.fl (a + y)) (t.sumFl R) = t'.sumFl R := by
      intro ys
      induction ys with
      | nil => intro t; exact ⟨t, by simp, rfl⟩
      | cons y ys ih =>
        intro t
        obtain ⟨t', h1, h2⟩ := ih (.node t (.leaf y))
        exact ⟨t', by rw [h1]; simp [SumTree.list], h2⟩
    obtain ⟨t', h1, h2⟩ := key xs (.leaf x)
    exact ⟨t', by rw [h1]; exact List.Perm.refl _, h2⟩

/-- a field on latitudes 0 and 60, longitudes 0 and 10 -/
def smallField (v : List (Option ℚ)) : GeoInput ℚ :=
  { kind := .dataArray, coords := ["lat", "lon"], found := true, manyLat := false, manyLon := false, lat := .d1 [0, 60], lon := .d1 [0, 10], vars := [("t", v)] }

/-- the weights numpy stores for latitudes 0 and 60: 1 and 0.5000000000000001 -/
def storedCos (φ : ℚ) : ℚ := if φ = 60 then 4503599627370497 / 9007199254740992 else 1

/-- the number nearest to 273.15 -/
def freezing : ℚ := float64.fl (27315 / 100)

/-- the hypotheses of `C157_not_negative` are met, and the result is a number -/
example : AddsUp float64 (leftSum (float64 : Rounding ℚ)) ∧ cellLats (smallField [some 1, some 2, none, some 5]).lat (smallField [some 1, some 2, none, some 5]).lon = some [0, 0, 60, 60] ∧
    (∀ φ ∈ ([0, 0, 60, 60] : List ℚ), 0 ≤ storedCos φ) ∧
    nmseWithFl float64 float64 (leftSum float64) storedCos (smallField [some 1, some 2, none, some 5]) (smallField [some 1, some 3, some 4, some 5]) =
      .ok (.one (.fin (3335999723978145 / 18014398509481984))) :=
  ⟨leftSum_addsUp _, rfl, by decide +kernel, by decide +kernel⟩

/-- a field compared with itself -/
example : nmseWithFl float64 float64 (leftSum float64) storedCos (smallField [some 1, some 2, none, some 5]) (smallField [some 1, some 2, none, some 5]) =
    .ok (.one (.fin 0)) := by decide +kernel

/-- C158 fails. Observations that are 273.15 in all four cells of a grid with latitudes 0 and 60 have no spread, and the formula has no value; their
computed mean is 273.15000000000003, however, and a model that is 274 everywhere is given the number 2.2e26. The model that agrees with the
observations gets 0. -/
theorem C158_counterexample :
    nmseWithFl float64 float64 (leftSum float64) storedCos (smallField [some freezing, some freezing, some freezing, some freezing])
        (smallField [some 274, some 274, some 274, some 274]) = .ok (.one (.fin 223602919595933778963333120)) ∧
      nmseWithFl float64 float64 (leftSum float64) storedCos (smallField [some freezing, some freezing, some freezing, some freezing])
        (smallField [some freezing, some freezing, some freezing, some freezing]) = .ok (.one (.fin 0)) ∧
      nmseWith storedCos (smallField [some freezing, some freezing, some freezing, some freezing]) (smallField [some 274, some 274, some 274, some 274]) = .ok (.one .pinf) ∧
      nmseWith storedCos (smallField [some freezing, some freezing, some freezing, some freezing])
        (smallField [some freezing, some freezing, some freezing, some freezing]) = .ok (.one .nan) := by decide +kernel

theorem maskVar_constant (ws : List K) (o m : List (Option K)) (c : K) (ho : ∀ x ∈ o, x = none ∨ x = some c) :
    ∀ p ∈ List.zip (maskVar ws o m).1 (maskVar ws o m).2.1, p.1 = 0 ∨ p.2 = c := by
  unfold maskVar
  simp only
  induction ws generalizing o m with
  | nil => intro p hp; simp at hp
  | cons w ws ih =>
    cases o with
    | nil => intro p hp; simp at hp
    | cons x o =>
      cases m with
      | nil => intro p hp; simp at hp
      | cons y m =>
        intro p hp
        simp only [List.zip_cons_cons, List.zipWith_cons_cons, List.mem_cons] at hp
        rcases hp with rfl | hp
        · rcases ho x (by simp) with rfl | rfl
          · left; simp [maskWeight]
          · by_cases h : maskWeight w (some c) y = 0
            · left; exact h
            · right; exact if_pos h
        · exact ih o m (fun x hx => ho x (by simp [hx])) p hp

/-- C158, what remains. If the computed mean of observations that are all `c` is `c` itself, then the result is NaN or infinite. What is missing: with
the rounding of the mean, this need not be so (`C158_counterexample`). -/
theorem C158_constant_partial (C R : Rounding K) (sum : List K → K) (hs : AddsUp R sum) (wt : K → K) (obs mod : GeoInput K) (c : K) (no nm : String)
    (o m : List (Option K)) (lats : List K) (ho : obs.vars = [(no, o)]) (hm : mod.vars = [(nm, m)]) (hl : cellLats obs.lat obs.lon = some lats)
    (hc : ∀ x ∈ o, x = none ∨ x = some c)
    (hmean : weightedMeanFl R sum (maskVar (lats.map wt) o m).1 (maskVar (lats.map wt) o m).2.1 = .fin c)
    (r : XF K) (h : nmseWithFl C R sum wt obs mod = .ok (.one r)) : ¬ ∃ x, r = .fin x := by
  obtain ⟨lats', hl', hn⟩ := nmseWithBy_numbers _ _ _ _ _ _ h
  rw [hl, Option.some.injEq] at hl'
  subst hl'
  obtain ⟨u, hu, u', hu', i, o', m', ho', hm', rfl⟩ := hn r (by simp [nmseNumbers])
  have e1 := List.mem_of_getElem? ho'
  have e2 := List.mem_of_getElem? hm'
  rw [ho, List.mem_singleton] at hu e1
  rw [hm, List.mem_singleton] at hu' e2
  subst hu hu' e1 e2
  simp only at *
  have hp := maskVar_constant (lats.map wt) o m c hc
  generalize maskVar (lats.map wt) o m = v at *
  have hW : sum v.1 ≠ 0 := by
    intro h0
    rw [weightedMeanFl, if_pos h0] at hmean
    cases hmean
  have hden : weightedMeanFl R sum v.1 (v.2.1.map (fun o => sqDiffFl R o c)) = .fin 0 := by
    unfold weightedMeanFl
    rw [if_neg hW, addsUp_zero hs, zero_div, R.fl_zero]
    intro a ha
    rw [List.zipWith_map_right] at ha
    obtain ⟨i, hi⟩ := List.mem_iff_getElem?.mp ha
    rw [List.getElem?_zipWith_eq_some] at hi
    obtain ⟨w, x, hw, hx, rfl⟩ := hi
    have hz : (v.1.zip v.2.1)[i]? = some (w, x) := by
      rw [List.zip, List.getElem?_zipWith_eq_some]
      exact ⟨w, x, hw, hx, rfl⟩
    rcases hp _ (List.mem_of_getElem? hz) with e | e
    · simp only at e; rw [e, zero_mul, R.fl_zero]
    · simp only at e; rw [e, sqDiffFl_self, mul_zero, R.fl_zero]
  unfold nmseSliceFl
  rw [hmean]
  simp only [hden]
  cases hd : weightedMeanFl R sum v.1 (List.zipWith (sqDiffFl R) v.2.2 v.2.1) with
  | fin a =>
    rw [XF.fin_div_zero]
    unfold XF.signInf
    rintro ⟨x, hx⟩
    split_ifs at hx <;> cases hx
  | nan => rintro ⟨x, hx⟩; cases hx
  | pinf => exact absurd hd (by unfold weightedMeanFl; split_ifs <;> simp)
  | ninf => exact absurd hd (by unfold weightedMeanFl; split_ifs <;> simp)

/-- with one of the four cells missing, the computed mean is the constant -/
example : weightedMeanFl float64 (leftSum float64) (maskVar ([0, 0, 60, 60].map storedCos) [some freezing, some freezing, some freezing, none] [some 274, some 274, some 274, some 274]).1
    (maskVar ([0, 0, 60, 60].map storedCos) [some freezing, some freezing, some freezing, none] [some 274, some 274, some 274, some 274]).2.1 = .fin freezing ∧
    nmseWithFl float64 float64 (leftSum float64) storedCos (smallField [some freezing, some freezing, some freezing, none])
        (smallField [some 274, some 274, some 274, some 274]) = .ok (.one .pinf) := by decide +kernel

end Verif.Props
