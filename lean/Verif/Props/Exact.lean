import Verif.Props.DeltaPressure
import Verif.Props.Lookup
import Verif.Props.Extrap
import Verif.Lemmas.FloatDelta

/-
Properties C01, C02, C60, C85: for each of these the property fails for some inputs; here the exact set of inputs for which it holds.
-/

set_option linter.unusedSectionVars false
namespace Verif.Props
open Model Spec Lemmas PyStr

section Layers
variable {K : Type _} [Field K] [LinearOrder K] [IsStrictOrderedRing K]

/-- C01, exactly when it holds: for a surface pressure at or below (numerically) neither the column top nor zero, the layers returned sum to the surface pressure minus
the column top if and only if the surface lies below (numerically above) the midpoint of the two highest levels. -/
theorem C01_exact (n : ℕ) (hn : 2 ≤ n) (lev : ℕ → K) (hinc : Increasing n lev) (ps : K) (ptop : Option K) (h0 : 0 ≤ ptop.getD (lev 0))
    (ht : ptop.getD (lev 0) ≤ lev 0) (htps : ptop.getD (lev 0) ≤ ps) (hps0 : 0 < ps) (p : List K) (hp : p = column n lev ∨ p = (column n lev).reverse) :
    ∃ d, deltaPressure p (.fin ps) ptop = .ok d ∧ (nanSum d = ps - ptop.getD (lev 0) ↔ (lev 0 + lev 1) / 2 < ps) := by
  rcases lt_or_ge ((lev 0 + lev 1) / 2) ps with hps | hps
  · obtain ⟨d, h1, h2⟩ := C01_sum_of_layers_partial n hn lev hinc ps ptop h0 ht hps p hp
    exact ⟨d, h1, fun _ => hps, fun _ => h2⟩
  · have hw := C03_top_layer_wraps n hn lev hinc ps ptop h0 ht htps hps0 hps
    have hlast : lev 0 < lev (n - 1) := hinc 0 (n - 1) (by omega) (by omega)
    have hsum : nanSum (column n (fun k => if k = 0 then XF.fin (ps - (lev 0 + lev (n - 1)) / 2) else .nan)) = ps - (lev 0 + lev (n - 1)) / 2 := by
      rw [nanSum_rest 1 n (by omega) _ (fun k hk _ => if_neg (by omega)), nanSum_succ 0 _ (ps - (lev 0 + lev (n - 1)) / 2) (if_pos rfl)]
      simp [nanSum, column]
    have hne : ¬ (ps - (lev 0 + lev (n - 1)) / 2 = ps - ptop.getD (lev 0) ↔ (lev 0 + lev 1) / 2 < ps) → False := by
      intro h
      refine h ⟨fun he => absurd he (by linarith), fun hl => absurd hl (not_lt.mpr hps)⟩
    rcases hp with rfl | rfl
    · refine ⟨_, hw, ?_⟩
      rw [hsum]
      exact not_not.mp hne
    · rw [deltaPressure_reverse n hn lev hinc, hw]
      refine ⟨_, rfl, ?_⟩
      rw [nanSum_reverse, hsum]
      exact not_not.mp hne

/-- C02, exactly when it holds: every layer that is not missing is positive if and only if the surface lies below the midpoint of the two highest levels; otherwise the
top layer is returned with a thickness that is not positive. -/
theorem C02_exact (n : ℕ) (hn : 2 ≤ n) (lev : ℕ → K) (hinc : Increasing n lev) (ps : K) (ptop : Option K) (h0 : 0 ≤ ptop.getD (lev 0))
    (ht : ptop.getD (lev 0) ≤ lev 0) (htps : ptop.getD (lev 0) ≤ ps) (hps0 : 0 < ps) :
    ∃ d, deltaPressure (column n lev) (.fin ps) ptop = .ok d ∧
      ((∀ (k : ℕ) (x : K), d[k]? = some (XF.fin x) → 0 < x) ↔ (lev 0 + lev 1) / 2 < ps) := by
  rcases lt_or_ge ((lev 0 + lev 1) / 2) ps with hps | hps
  · obtain ⟨d, h1, -, hlen, h2⟩ := C02_missing_iff_underground_partial n hn lev hinc ps ptop h0 ht hps
    refine ⟨d, h1, fun _ => hps, fun _ k x hk => ?_⟩
    have hkn : k < n := by
      rw [← hlen]
      exact (List.getElem?_eq_some_iff.mp hk).1
    obtain ⟨x', h3, h4⟩ := (h2 k hkn).2 (by rw [hk]; simp)
    rw [hk] at h3
    injection h3 with h3
    injection h3 with h3
    rw [h3]; exact h4
  · refine ⟨_, C03_top_layer_wraps n hn lev hinc ps ptop h0 ht htps hps0 hps, fun h => ?_, fun h => absurd h (not_lt.mpr hps)⟩
    have hx := h 0 (ps - (lev 0 + lev (n - 1)) / 2) (by
      unfold column
      rw [List.getElem?_map, List.getElem?_range (by omega)]
      rfl)
    have hlast : lev 1 ≤ lev (n - 1) := by
      rcases eq_or_lt_of_le (show 1 ≤ n - 1 by omega) with h | h
      · rw [← h]
      · exact (hinc 1 (n - 1) h (by omega)).le
    linarith

/-- both sides of the equivalences occur: the column 100, 200, 300 hPa with the top at 50 hPa, and surfaces at 95 and at 250 hPa -/
example : ∃ ps ps' : ℚ, Increasing 3 exLev ∧ 0 ≤ (some (50 : ℚ)).getD (exLev 0) ∧ (some (50 : ℚ)).getD (exLev 0) ≤ exLev 0 ∧ 50 ≤ ps ∧ 50 ≤ ps' ∧
    ¬ (exLev 0 + exLev 1) / 2 < ps ∧ (exLev 0 + exLev 1) / 2 < ps' :=
  ⟨95, 250, exLev_incr 3, by norm_num, by norm_num [exLev], by norm_num, by norm_num, by norm_num [exLev], by norm_num [exLev]⟩

end Layers

/-! ### C60 -/

/-- an enumeration that begins with `n`, if `n` is among the names -/
def startWith (n : Str) (l : List Str) : List Str := if n ∈ l then n :: l else l

theorem startWith_enum (n : Str) : IsEnumeration (startWith n) := by
  intro l x
  unfold startWith
  split_ifs with h
  · simp only [List.mem_cons]
    exact ⟨fun hx => hx.elim (fun e => e ▸ h) id, Or.inr⟩
  · rfl

theorem findVar_startWith (ds : Dataset) (s l : Str) (hs : s ≠ []) (hl : l ≠ []) (names : List Str) (n : Str)
    (hno : ¬ ∃ v ∈ ds.dataVars, MatchesStandard s v ∨ MatchesLong l v) (hn : HasCandidate ds names n) :
    findVar (startWith n) ds (some s) (some l) (some names) = .ok n := by
  obtain ⟨c, cs, rfl⟩ := List.exists_cons_of_ne_nil hs
  obtain ⟨c', cs', rfl⟩ := List.exists_cons_of_ne_nil hl
  obtain ⟨m, ms, rfl⟩ := List.exists_cons_of_ne_nil (show names ≠ [] by rintro rfl; obtain ⟨-, r, hr, -⟩ := hn; simp at hr)
  have h1 : ds.dataVars.find? (fun v =>
      (nameVariations (c :: cs)).contains v.name || (nameVariations (c :: cs)).contains (attrOrEmpty v.standardName)) = none :=
    List.find?_eq_none.mpr fun v hv h => hno ⟨v, hv, Or.inl ((standard_test c cs v).mp h)⟩
  have h2 : ds.dataVars.find? (fun v =>
      (longNameVariations (c' :: cs')).contains v.name || (longNameVariations (c' :: cs')).contains (attrOrEmpty v.longName)) = none :=
    List.find?_eq_none.mpr fun v hv h => hno ⟨v, hv, Or.inr ((long_test c' cs' v).mp h)⟩
  have hmem : n ∈ expandedNames (m :: ms) := by
    simp only [expandedNames, List.mem_flatMap, mem_nameVariations]
    exact hn.2
  have h3 : (startWith n (expandedNames (m :: ms))).find? (fun n => ds.contains n) = some n := by
    unfold startWith
    rw [if_pos hmem, List.find?_cons_of_pos ((contains_iff ds n).mpr hn.1)]
  unfold findVar
  dsimp only
  rw [h1, h2, h3]

/-- C60, exactly when it holds: the name found is the same whatever order Python uses for the set of spellings if and only if some data variable already matches the
standard or the long name, or at most one candidate spelling is in the data set. -/
theorem C60_exact (ds : Dataset) (s l : Str) (hs : s ≠ []) (hl : l ≠ []) (names : List Str) :
    (∀ o o', IsEnumeration o → IsEnumeration o' →
      findVar o ds (some s) (some l) (some names) = findVar o' ds (some s) (some l) (some names)) ↔
    (∃ v ∈ ds.dataVars, MatchesStandard s v ∨ MatchesLong l v) ∨
      ∀ n n', HasCandidate ds names n → HasCandidate ds names n' → n = n' := by
  refine ⟨fun h => ?_, fun h o o' ho ho' => C60_deterministic_partial o o' ho ho' ds s l hs hl names h⟩
  by_cases hno : ∃ v ∈ ds.dataVars, MatchesStandard s v ∨ MatchesLong l v
  · exact Or.inl hno
  · refine Or.inr fun n n' hn hn' => ?_
    have := h (startWith n) (startWith n') (startWith_enum n) (startWith_enum n')
    rw [findVar_startWith ds s l hs hl names n hno hn, findVar_startWith ds s l hs hl names n' hno hn'] at this
    injection this

/-! ### C85 -/

/-- C85, exactly when it holds: below the surface (pressure above the surface pressure) the extrapolated height depends continuously on the bottom-level temperature if
and only if the surface geopotential is positive. -/
theorem C85_exact (p pl ps phi : ℝ) (hl : 0 < pl) (hs : 0 < ps) (hp : ps < p) :
    (∃ f : ℝ → ℝ, Continuous f ∧ ∀ t, geoHeightExtrapolate (.fin t) (.fin p) (.fin pl) (.fin ps) (.fin phi) = .fin (f t)) ↔ 0 < phi := by
  have hp0 : 0 < p := hs.trans hp
  refine ⟨?_, C85_continuous_partial p pl ps phi hp0 hl hs⟩
  rintro ⟨f, hf, hval⟩
  by_contra hphi
  have hphi : phi ≤ 0 := not_lt.mp hphi
  have hα := alpha_bounds
  have hg := g_pos
  have hR := R_pos
  have hfac : 0 < 1 + Ecmwf.α * (ps / pl - 1) := by
    have hr : 0 < ps / pl := div_pos hs hl
    nlinarith [hα.1, hα.2, mul_pos hα.1 hr]
  set c := 1 + Ecmwf.α * (ps / pl - 1) with hc
  have hL : 0 < Real.log (p / ps) := Real.log_pos ((one_lt_div hs).mpr hp)
  set L := Real.log (p / ps) with hLdef
  have hlap : 0 < Ecmwf.lapse := by unfold Ecmwf.lapse; norm_num
  have hsea : Ecmwf.lapse * (phi / Ecmwf.g) ≤ 0 := mul_nonpos_of_nonneg_of_nonpos hlap.le (div_nonpos_of_nonpos_of_nonneg hphi hg.le)
  set b := 290.5 - Ecmwf.lapse * (phi / Ecmwf.g) with hb
  have hb0 : 290.5 ≤ b := by linarith
  -- the height as a function of the surface temperature
  have hh : ∀ ts, f (ts / c) = Ecmwf.height ts ps phi p := by
    intro ts
    have h1 := hval (ts / c)
    rw [C19_formula _ p pl ps phi hp0 hl hs] at h1
    injection h1 with h1
    rw [← h1, show Ecmwf.surfaceT (ts / c) pl ps = ts by unfold Ecmwf.surfaceT; rw [← hc]; field_simp]
  have hcont : Continuous fun ts => Ecmwf.height ts ps phi p := by
    have : (fun ts => Ecmwf.height ts ps phi p) = fun ts => f (ts / c) := funext fun ts => (hh ts).symm
    rw [this]
    exact hf.comp (continuous_id.div_const c)
  have hat : Ecmwf.height b ps phi p = phi / Ecmwf.g - Ecmwf.R * b / Ecmwf.g * L * (1 + Ecmwf.α * L / 2 + (Ecmwf.α * L) ^ 2 / 6) := by
    have e1 : Ecmwf.alphaZ b phi = Ecmwf.α := by
      unfold Ecmwf.alphaZ
      rw [if_pos (by linarith)]
    have e2 : Ecmwf.dampedT b phi = b := by
      unfold Ecmwf.dampedT
      dsimp only
      have hn : ¬ (290.5 < b ∧ 290.5 < b + Ecmwf.lapse * (phi / Ecmwf.g)) := fun h => by linarith [h.2]
      simp only [if_neg hn]
      rw [if_neg (by linarith)]
    unfold Ecmwf.height
    dsimp only
    rw [e1, e2]
  have habove : ∀ ts, b < ts → Ecmwf.height ts ps phi p = phi / Ecmwf.g - Ecmwf.R * ((290.5 + ts) / 2) / Ecmwf.g * L := by
    intro ts hts
    have e1 : Ecmwf.alphaZ ts phi = 0 := by
      unfold Ecmwf.alphaZ
      rw [if_neg (by linarith), if_neg (by linarith)]
    have e2 : Ecmwf.dampedT ts phi = (290.5 + ts) / 2 := by
      unfold Ecmwf.dampedT
      dsimp only
      have hn : 290.5 < ts ∧ 290.5 < ts + Ecmwf.lapse * (phi / Ecmwf.g) := ⟨by linarith, by linarith⟩
      simp only [if_pos hn]
      rw [if_neg (by linarith)]
    unfold Ecmwf.height
    dsimp only
    rw [e1, e2]
    ring
  have hlim : Filter.Tendsto (fun ts => Ecmwf.height ts ps phi p) (nhdsWithin b (Set.Ioi b)) (nhds (Ecmwf.height b ps phi p)) :=
    hcont.continuousAt.continuousWithinAt
  have hlim2 : Filter.Tendsto (fun ts => Ecmwf.height ts ps phi p) (nhdsWithin b (Set.Ioi b))
      (nhds (phi / Ecmwf.g - Ecmwf.R * ((290.5 + b) / 2) / Ecmwf.g * L)) := by
    have hc : Continuous fun ts : ℝ => phi / Ecmwf.g - Ecmwf.R * ((290.5 + ts) / 2) / Ecmwf.g * L := by fun_prop
    refine Filter.Tendsto.congr' ?_ (hc.continuousAt.continuousWithinAt : Filter.Tendsto _ (nhdsWithin b (Set.Ioi b)) _)
    filter_upwards [self_mem_nhdsWithin] with ts hts
    exact (habove ts hts).symm
  have huniq := tendsto_nhds_unique hlim hlim2
  rw [hat] at huniq
  have hu : 0 < Ecmwf.α * L := mul_pos hα.1 hL
  have hk : 0 < Ecmwf.R * b / Ecmwf.g * L := mul_pos (div_pos (mul_pos hR (by linarith)) hg) hL
  have hle : Ecmwf.R * ((290.5 + b) / 2) / Ecmwf.g * L ≤ Ecmwf.R * b / Ecmwf.g * L := by
    have : Ecmwf.R * ((290.5 + b) / 2) ≤ Ecmwf.R * b := mul_le_mul_of_nonneg_left (by linarith) hR.le
    exact mul_le_mul_of_nonneg_right (div_le_div_of_nonneg_right this hg.le) hL.le
  have hgt : 0 < Ecmwf.R * b / Ecmwf.g * L * (Ecmwf.α * L / 2 + (Ecmwf.α * L) ^ 2 / 6) := by positivity
  have hring : Ecmwf.R * b / Ecmwf.g * L * (1 + Ecmwf.α * L / 2 + (Ecmwf.α * L) ^ 2 / 6) =
      Ecmwf.R * b / Ecmwf.g * L + Ecmwf.R * b / Ecmwf.g * L * (Ecmwf.α * L / 2 + (Ecmwf.α * L) ^ 2 / 6) := by ring
  linarith

/-- both sides occur: land at 100 m above sea level, and the sea surface -/
example : (∃ f : ℝ → ℝ, Continuous f ∧ ∀ t, geoHeightExtrapolate (.fin t) (.fin 105000) (.fin 99000) (.fin 100000) (.fin 980) = .fin (f t)) ∧
    ¬ ∃ f : ℝ → ℝ, Continuous f ∧ ∀ t, geoHeightExtrapolate (.fin t) (.fin 105000) (.fin 99000) (.fin 100000) (.fin 0) = .fin (f t) :=
  ⟨(C85_exact 105000 99000 100000 980 (by norm_num) (by norm_num) (by norm_num)).mpr (by norm_num),
   fun h => absurd ((C85_exact 105000 99000 100000 0 (by norm_num) (by norm_num) (by norm_num)).mp h) (lt_irrefl 0)⟩

end Verif.Props
