import Verif.Props.MeanGradient
import Verif.Props.PsiLaws

/-
Property C200: averages in time and the meridional streamfunction.
-/

set_option linter.unusedSectionVars false

namespace Verif.Props
open Model Spec Lemmas

section
variable {K : Type} [Field K] [LinearOrder K] [IsStrictOrderedRing K]

/-- `f` are the values of the first `m` cells of a time step -/
def CellsHold (m : ℕ) (e : Entry K) (f : ℕ → K) : Prop := ∀ q < m, e.val q = some (f q)

/-- the first `m` cells of a time step are all missing -/
def CellsMissing (m : ℕ) (e : Entry K) : Prop := ∀ q < m, e.val q = none

/-- a number computed from the first `m` values, linearly -/
structure LinearIn (m : ℕ) (Φ : (ℕ → K) → K) : Prop where
  add : ∀ f g : ℕ → K, Φ (fun q => f q + g q) = Φ f + Φ g
  smul : ∀ (a : K) (f : ℕ → K), Φ (fun q => a * f q) = a * Φ f
  below : ∀ f g : ℕ → K, (∀ q < m, f q = g q) → Φ f = Φ g

/-- values below `m`, zero elsewhere -/
def padZero {m : ℕ} (v : Fin m → K) (q : ℕ) : K := if h : q < m then v ⟨q, h⟩ else 0

theorem padZero_at {m : ℕ} (v : Fin m → K) (q : ℕ) (h : q < m) : padZero v q = v ⟨q, h⟩ := dif_pos h

/-- the relation between the values and the number computed from them -/
def computedSpace {m : ℕ} {Φ : (ℕ → K) → K} (h : LinearIn m Φ) : Submodule K (Option (Fin m) → K) where
  carrier := {v | v none = Φ (padZero fun p => v (some p))}
  zero_mem' := by
    have h0 := h.smul 0 (fun _ => 0)
    simp only [zero_mul] at h0
    have : (padZero fun p : Fin m => (0 : Option (Fin m) → K) (some p)) = fun _ => 0 := by
      funext q
      unfold padZero
      split <;> rfl
    simp only [Set.mem_ofPred_eq, Pi.zero_apply] at *
    rw [this, h0]
  add_mem' := by
    intro v u hv hu
    simp only [Set.mem_ofPred_eq, Pi.add_apply] at *
    rw [hv, hu, ← h.add]
    congr 1
    funext q
    unfold padZero
    split
    · rfl
    · simp
  smul_mem' := by
    intro r v hv
    simp only [Set.mem_ofPred_eq, Pi.smul_apply, smul_eq_mul] at *
    rw [hv, ← h.smul]
    congr 1
    funext q
    unfold padZero
    split
    · rfl
    · simp

/-- Fields computed from the data of each time step alone, linearly and in the same way at all times: their averages are computed from the averages of
the data in that way. -/
theorem computed_mean {A : Series K → Except PyErr (List (Entry K))} (hA : TimeMean A) {m m' : ℕ} (hm : 0 < m) (hm' : 0 < m') (s s' : Series K)
    (hn : s.ncell = m) (hn' : s'.ncell = m') (hk : s'.samples.map (·.key) = s.samples.map (·.key)) (ht : s'.isTime = s.isTime)
    (Φ : ℕ → (ℕ → K) → K) (hΦ : ∀ q < m', LinearIn m (Φ q))
    (hs : ∀ (t : ℕ) (e e' : Entry K), s.samples[t]? = some e → s'.samples[t]? = some e' → ∃ f, CellsHold m e f ∧ CellsHold m' e' (fun q => Φ q f)) :
    (∀ e, A s = .error e → A s' = .error e) ∧ ∀ out, A s = .ok out → ∃ out', A s' = .ok out' ∧ out'.map (·.key) = out.map (·.key) ∧
      ∀ (t : ℕ) (o o' : Entry K), out[t]? = some o → out'[t]? = some o' → (CellsMissing m o ∧ CellsMissing m' o') ∨
        ∃ f, CellsHold m o f ∧ CellsHold m' o' (fun q => Φ q f) := by
  have hlen : s'.samples.length = s.samples.length := by simpa using congrArg List.length hk
  have hg : NoGaps s := by
    intro e he q hq
    obtain ⟨t, ht⟩ := List.mem_iff_getElem?.mp he
    obtain ⟨hl, -⟩ := List.getElem?_eq_some_iff.mp ht
    obtain ⟨f, hf, -⟩ := hs t e _ ht (List.getElem?_eq_getElem (hlen ▸ hl))
    exact ⟨_, hf q (hn ▸ hq)⟩
  have hg' : NoGaps s' := by
    intro e' he' q hq
    obtain ⟨t, ht'⟩ := List.mem_iff_getElem?.mp he'
    obtain ⟨hl, -⟩ := List.getElem?_eq_some_iff.mp ht'
    obtain ⟨f, -, hf⟩ := hs t _ e' (List.getElem?_eq_getElem (hlen ▸ hl)) ht'
    exact ⟨_, hf q (hn' ▸ hq)⟩
  obtain ⟨herr, hok⟩ := mean_linear hA s s' (by omega) (by omega) hg hg' hk ht
  refine ⟨herr, fun out hout => ?_⟩
  obtain ⟨out', o1, o2, o3⟩ := hok out hout
  refine ⟨out', o1, o2, fun t o o' h1 h2 => ?_⟩
  have key : ∀ q (hq : q < m'), ((∀ p : Fin m, o.val p = none) ∧ o'.val q = none) ∨
      ∃ v ∈ computedSpace (hΦ q hq), (∀ p : Fin m, o.val p = some (v (some p))) ∧ o'.val q = some (v none) := by
    intro q hq
    refine o3 (fun p : Fin m => (p : ℕ)) q (fun p => by rw [hn]; exact p.2) (by rw [hn']; exact hq) _ (fun t e e' he he' => ?_) t o o' h1 h2
    obtain ⟨f, hf, hg1⟩ := hs t e e' he he'
    refine ⟨fun x => x.elim (Φ q f) (fun p => f p), ?_, fun p => hf _ p.2, hg1 q hq⟩
    refine (hΦ q hq).below _ _ fun r hr => ?_
    rw [padZero_at _ r hr]
    rfl
  rcases Classical.em (∃ p : Fin m, o.val p = none) with ⟨p0, hp0⟩ | hno
  · refine Or.inl ⟨fun q hq => ?_, fun q hq => ?_⟩
    · rcases key 0 hm' with ⟨h, -⟩ | ⟨v, -, h, -⟩
      · exact h ⟨q, hq⟩
      · rw [h p0] at hp0
        cases hp0
    · rcases key q hq with ⟨-, h⟩ | ⟨v, -, h, -⟩
      · exact h
      · rw [h p0] at hp0
        cases hp0
  · right
    have hsome : ∀ p : Fin m, ∃ v, o.val p = some v := fun p => by
      cases h : o.val p with
      | none => exact absurd ⟨p, h⟩ hno
      | some v => exact ⟨v, rfl⟩
    choose v hv using hsome
    refine ⟨padZero v, fun q hq => ?_, fun q hq => ?_⟩
    · rw [padZero_at v q hq]
      exact hv ⟨q, hq⟩
    · rcases key q hq with ⟨h, -⟩ | ⟨u, hu, h, h'⟩
      · have := h ⟨0, hm⟩
        rw [hv] at this
        cases this
      · have huv : (fun p => u (some p)) = v := by
          funext p
          exact Option.some.inj ((h p).symm.trans (hv p))
        have hu' : u none = Φ q (padZero fun p => u (some p)) := hu
        rw [huv] at hu'
        exact h'.trans (congrArg some hu')

end

/-- `ep` holds the streamfunction that `zonal_meridional_psi` computes from the zonal mean wind held by `e`: `L` latitudes with `n` levels each, one after
the other, over the surface pressures `ps` -/
def StepPsi (rawPs : List (XF ℝ)) (L n : ℕ) (lev lat ps : ℕ → ℝ) (e ep : Entry ℝ) : Prop :=
  ∃ v P : ℕ → ℕ → ℝ, (∀ l < L, ∀ k < n, e.val (l * n + k) = some (v l k)) ∧
    zonalPsi rawPs (column n lev) (column L lat) (gridOf 1 L (fun _ l => (.fin (ps l), column n (fun k => .fin (v l k)))))
      = .ok (gridOf 1 L (fun _ l => column n (fun k => .fin (P l k)))) ∧
    ∀ l < L, ∀ k < n, ep.val (l * n + k) = some (P l k)

/-- Averaging the wind in time and then computing the streamfunction gives the averages of the streamfunctions. -/
def PsiEitherOrder (A : Series ℝ → Except PyErr (List (Entry ℝ))) (rawPs : List (XF ℝ)) (L n : ℕ) (lev lat ps : ℕ → ℝ) (s sp : Series ℝ) : Prop :=
  (∀ err, A s = .error err → A sp = .error err) ∧
  ∀ out, A s = .ok out → ∃ outp, A sp = .ok outp ∧ outp.map (·.key) = out.map (·.key) ∧
    ∀ (t : ℕ) (o op : Entry ℝ), out[t]? = some o → outp[t]? = some op →
      (CellsMissing (L * n) o ∧ CellsMissing (L * n) op) ∨ StepPsi rawPs L n lev lat ps o op

/-- the streamfunction at cell `q` -/
noncomputable def psiCell (n : ℕ) (lev lat ps : ℕ → ℝ) (q : ℕ) (f : ℕ → ℝ) : ℝ :=
  massFactor (lat (q / n)) * ∑ j ∈ Finset.range (q % n + 1), f (q / n * n + j) * present (thickness n lev (ps (q / n)) (lev 0) j)

theorem psiCell_linear (L n : ℕ) (hn : 0 < n) (lev lat ps : ℕ → ℝ) (q : ℕ) (hq : q < L * n) : LinearIn (L * n) (psiCell n lev lat ps q) where
  add f g := by
    simp only [psiCell, add_mul, Finset.sum_add_distrib, mul_add]
  smul a f := by
    simp only [psiCell, mul_assoc, ← Finset.mul_sum]
    ring
  below f g h := by
    unfold psiCell
    congr 1
    refine Finset.sum_congr rfl fun j hj => ?_
    have h1 := Finset.mem_range.mp hj
    have h2 := Nat.div_add_mod' q n
    rw [h]
    omega

theorem psi_call (rawPs : List (XF ℝ)) (L n : ℕ) (hn : 2 ≤ n) (lev lat : ℕ → ℝ) (hinc : Increasing n lev) (h0 : 0 ≤ lev 0) (ps : ℕ → ℝ)
    (hraw : ∀ p ∈ rawPs, p = .nan ∨ ∃ x : ℝ, 0 < x ∧ p = .fin x) (hps : ∀ l < L, (lev 0 + lev 1) / 2 < ps l) (v : ℕ → ℕ → ℝ) :
    zonalPsi rawPs (column n lev) (column L lat) (gridOf 1 L (fun _ l => (.fin (ps l), column n (fun k => .fin (v l k)))))
      = .ok (gridOf 1 L (fun _ l => column n (fun k => .fin (massFactor (lat l) * ∑ j ∈ Finset.range (k + 1), v l j * present (thickness n lev (ps l) (lev 0) j))))) := by
  have := C57_call_values rawPs 1 L n hn lev lat hinc h0 (fun _ => ps) (fun _ l k => .fin (v l k)) hraw (fun t l j => by simp [NoInf]) (fun _ _ => hps)
  simp only [layerFlux_fin] at this
  exact this

theorem psi_unique {L n : ℕ} {P Q : ℕ → ℕ → ℝ} (h : (.ok (gridOf 1 L (fun _ l => column n (fun k => XF.fin (P l k)))) : Except PyErr _) =
    .ok (gridOf 1 L (fun _ l => column n (fun k => .fin (Q l k))))) (l : ℕ) (hl : l < L) (k : ℕ) (hk : k < n) : P l k = Q l k := by
  have h := Except.ok.inj h
  unfold gridOf column at h
  rw [List.map_inj_left] at h
  have h := h 0 (by simp)
  rw [List.map_inj_left] at h
  have h := h l (List.mem_range.mpr hl)
  rw [List.map_inj_left] at h
  exact XF.fin.inj (h k (List.mem_range.mpr hk))

theorem psi_either_order {A : Series ℝ → Except PyErr (List (Entry ℝ))} (hA : TimeMean A) (rawPs : List (XF ℝ)) (L n : ℕ) (hL : 0 < L) (hn : 2 ≤ n) (lev lat : ℕ → ℝ)
    (hinc : Increasing n lev) (h0 : 0 ≤ lev 0) (ps : ℕ → ℝ) (hraw : ∀ p ∈ rawPs, p = .nan ∨ ∃ x : ℝ, 0 < x ∧ p = .fin x)
    (hps : ∀ l < L, (lev 0 + lev 1) / 2 < ps l) (s sp : Series ℝ) (hc : s.ncell = L * n) (hc' : sp.ncell = L * n)
    (hk : sp.samples.map (·.key) = s.samples.map (·.key)) (ht : sp.isTime = s.isTime)
    (hs : ∀ (t : ℕ) (e ep : Entry ℝ), s.samples[t]? = some e → sp.samples[t]? = some ep → StepPsi rawPs L n lev lat ps e ep) :
    PsiEitherOrder A rawPs L n lev lat ps s sp := by
  have hpos : 0 < L * n := Nat.mul_pos hL (by omega)
  obtain ⟨herr, hok⟩ := computed_mean hA hpos hpos s sp hc hc' hk ht (psiCell n lev lat ps) (psiCell_linear L n (by omega) lev lat ps)
    (fun t e ep he hep => by
      obtain ⟨v, P, h1, h2, h3⟩ := hs t e ep he hep
      refine ⟨fun q => v (q / n) (q % n), fun q hq => ?_, fun q hq => ?_⟩
      · obtain ⟨a, b, c⟩ := Gradient.rows_of_cell hq
        have h4 := h1 _ a _ b
        rw [c] at h4
        exact h4
      · obtain ⟨a, b, c⟩ := Gradient.rows_of_cell hq
        rw [psi_call rawPs L n hn lev lat hinc h0 ps hraw hps v] at h2
        have := psi_unique h2 _ a _ b
        have h4 := h3 _ a _ b
        rw [c, ← this] at h4
        rw [h4]
        unfold psiCell
        congr 2
        refine Finset.sum_congr rfl fun j hj => ?_
        have h5 := Finset.mem_range.mp hj
        have h6 : (q / n * n + j) / n = q / n := by
          rw [Nat.add_comm, Nat.add_mul_div_right _ _ (by omega), Nat.div_eq_of_lt (by omega), Nat.zero_add]
        have h7 : (q / n * n + j) % n = j := by
          rw [Nat.add_comm, Nat.add_mul_mod_self_right, Nat.mod_eq_of_lt (by omega)]
        simp only [h6, h7])
  refine ⟨herr, fun out hout => ?_⟩
  obtain ⟨outp, o1, o2, o3⟩ := hok out hout
  refine ⟨outp, o1, o2, fun t o op h1 h2 => ?_⟩
  rcases o3 t o op h1 h2 with h | ⟨f, f1, f2⟩
  · exact Or.inl h
  · refine Or.inr ⟨fun l k => f (l * n + k), _, fun l hl k hk => f1 _ (Gradient.rows_cell hl hk),
      psi_call rawPs L n hn lev lat hinc h0 ps hraw hps _, fun l hl k hk => ?_⟩
    rw [f2 _ (Gradient.rows_cell hl hk)]
    have h6 : (l * n + k) / n = l := by
      rw [Nat.add_comm, Nat.add_mul_div_right _ _ (by omega), Nat.div_eq_of_lt (by omega), Nat.zero_add]
    have h7 : (l * n + k) % n = k := by
      rw [Nat.add_comm, Nat.add_mul_mod_self_right, Nat.mod_eq_of_lt (by omega)]
    simp only [psiCell, h6, h7]

/-! ### C200 -/

section
variable (rawPs : List (XF ℝ)) (L n : ℕ) (hL : 0 < L) (hn : 2 ≤ n) (lev lat : ℕ → ℝ)
    (hinc : Increasing n lev) (h0 : 0 ≤ lev 0) (ps : ℕ → ℝ) (hraw : ∀ p ∈ rawPs, p = .nan ∨ ∃ x : ℝ, 0 < x ∧ p = .fin x)
    (hps : ∀ l < L, (lev 0 + lev 1) / 2 < ps l) (s sp : Series ℝ) (hc : s.ncell = L * n) (hc' : sp.ncell = L * n)
    (hk : sp.samples.map (·.key) = s.samples.map (·.key)) (ht : sp.isTime = s.isTime)
    (hs : ∀ (t : ℕ) (e ep : Entry ℝ), s.samples[t]? = some e → sp.samples[t]? = some ep → StepPsi rawPs L n lev lat ps e ep)
include hL hn hinc h0 hraw hps hc hc' hk ht hs

/-- **C200**, `calendar_average`: the streamfunction of the averages is the average of the streamfunctions. -/
theorem C200_calendar (cal : Cal) (infer : InferFreq) (freq : String) : PsiEitherOrder (calendarAverage cal infer freq) rawPs L n lev lat ps s sp :=
  psi_either_order (calendar_timeMean cal infer freq) rawPs L n hL hn lev lat hinc h0 ps hraw hps s sp hc hc' hk ht hs

/-- **C200**, `climatology_average`. -/
theorem C200_climatology (cal : Cal) (infer : InferFreq) (freq : String) (custom : List String) :
    PsiEitherOrder (fun s => (climatologyAverage cal infer freq custom s).map climSteps) rawPs L n lev lat ps s sp :=
  psi_either_order (climatology_timeMean cal infer freq custom) rawPs L n hL hn lev lat hinc h0 ps hraw hps s sp hc hc' hk ht hs

/-- **C200**, `climate_anomaly`. -/
theorem C200_anomaly (cal : Cal) (infer : InferFreq) (freq : String) : PsiEitherOrder (climateAnomaly cal infer freq) rawPs L n lev lat ps s sp :=
  psi_either_order (anomaly_timeMean cal infer freq) rawPs L n hL hn lev lat hinc h0 ps hraw hps s sp hc hc' hk ht hs

/-- **C200**, `month_to_season`. -/
theorem C200_month_to_season (cal : Cal) (season : String) : PsiEitherOrder (monthToSeason cal season) rawPs L n lev lat ps s sp :=
  psi_either_order (monthToSeason_timeMean cal season) rawPs L n hL hn lev lat hinc h0 ps hraw hps s sp hc hc' hk ht hs

end

/-! ### a case -/

/-- two days in one month, with any two winds on 3 latitudes and 2 levels -/
noncomputable def windDays (f g : ℕ → ℕ → ℝ) : Series ℝ :=
  ⟨3 * 2, [⟨0, fun q => some (f (q / 2) (q % 2))⟩, ⟨86400, fun q => some (g (q / 2) (q % 2))⟩], true⟩

/-- the streamfunction of a wind on levels 100 and 500 over a surface at 600 -/
noncomputable def windPsi (f : ℕ → ℕ → ℝ) (l k : ℕ) : ℝ :=
  massFactor (30 * (l : ℝ)) * ∑ j ∈ Finset.range (k + 1), f l j * present (thickness 2 (fun k => 100 + 400 * (k : ℝ)) 600 (100 + 400 * ((0 : ℕ) : ℝ)) j)

theorem windDays_keys (f g f' g' : ℕ → ℕ → ℝ) : (windDays f g).samples.map (·.key) = (windDays f' g').samples.map (·.key) := by
  simp only [windDays, List.map_cons, List.map_nil]

theorem windDays_at {f g : ℕ → ℕ → ℝ} {t : ℕ} {e : Entry ℝ} (h : (windDays f g).samples[t]? = some e) :
    (t = 0 ∧ ∀ l < 3, ∀ k < 2, e.val (l * 2 + k) = some (f l k)) ∨ (t = 1 ∧ ∀ l < 3, ∀ k < 2, e.val (l * 2 + k) = some (g l k)) := by
  have h1 : ∀ l k, k < 2 → (l * 2 + k) / 2 = l := by omega
  have h2 : ∀ l k, k < 2 → (l * 2 + k) % 2 = k := by omega
  simp only [windDays] at h
  rcases t with _ | _ | t
  · rw [List.getElem?_cons_zero] at h
    refine Or.inl ⟨rfl, fun l _ k hk => ?_⟩
    rw [← Option.some.inj h]
    simp only [h1 l k hk, h2 l k hk]
  · rw [List.getElem?_cons_succ, List.getElem?_cons_zero] at h
    refine Or.inr ⟨rfl, fun l _ k hk => ?_⟩
    rw [← Option.some.inj h]
    simp only [h1 l k hk, h2 l k hk]
  · rw [List.getElem?_cons_succ, List.getElem?_cons_succ, List.getElem?_nil] at h
    cases h

/-- the levels, the cells of the surface pressure and the surface pressure of the case -/
theorem wind_levels : Increasing 2 (fun k => 100 + 400 * (k : ℝ)) ∧ (0 : ℝ) ≤ (fun k : ℕ => 100 + 400 * (k : ℝ)) 0 ∧
    (∀ p ∈ [XF.fin (600 : ℝ), .nan], p = .nan ∨ ∃ x : ℝ, 0 < x ∧ p = .fin x) ∧
    ∀ l < 3, ((fun k : ℕ => 100 + 400 * (k : ℝ)) 0 + (fun k : ℕ => 100 + 400 * (k : ℝ)) 1) / 2 < (fun _ : ℕ => (600 : ℝ)) l := by
  refine ⟨?_, by norm_num, ?_, fun l _ => by norm_num⟩
  · intro i j h _
    have : (i : ℝ) < j := by exact_mod_cast h
    simp only
    linarith
  · intro p hp
    simp only [List.mem_cons, List.not_mem_nil, or_false] at hp
    rcases hp with rfl | rfl
    · exact .inr ⟨600, by norm_num, rfl⟩
    · exact .inl rfl

theorem windDays_steps (f g : ℕ → ℕ → ℝ) (t : ℕ) (e ep : Entry ℝ) (he : (windDays f g).samples[t]? = some e)
    (hep : (windDays (windPsi f) (windPsi g)).samples[t]? = some ep) :
    StepPsi [.fin 600, .nan] 3 2 (fun k => 100 + 400 * (k : ℝ)) (fun l => 30 * (l : ℝ)) (fun _ => 600) e ep := by
  obtain ⟨h1, h2, h3, h4⟩ := wind_levels
  have call := psi_call [.fin 600, .nan] 3 2 le_rfl (fun k => 100 + 400 * (k : ℝ)) (fun l => 30 * (l : ℝ)) h1 h2 (fun _ => 600) h3 h4
  rcases windDays_at he with ⟨t0, a1⟩ | ⟨t0, a1⟩
  · rcases windDays_at hep with ⟨-, a2⟩ | ⟨h, -⟩
    · exact ⟨f, windPsi f, a1, call f, a2⟩
    · omega
  · rcases windDays_at hep with ⟨h, -⟩ | ⟨-, a2⟩
    · omega
    · exact ⟨g, windPsi g, a1, call g, a2⟩

example (f g : ℕ → ℕ → ℝ) : PsiEitherOrder (calendarAverage Cal.days360 (fun _ => .ok true) "month") [.fin 600, .nan] 3 2 (fun k => 100 + 400 * (k : ℝ))
    (fun l => 30 * (l : ℝ)) (fun _ => 600) (windDays f g) (windDays (windPsi f) (windPsi g)) :=
  have e1 : ∀ f g, (windDays f g).ncell = 3 * 2 := fun f g => by rw [windDays]
  have e2 : ∀ f g, (windDays f g).isTime = true := fun f g => by rw [windDays]
  C200_calendar [.fin 600, .nan] 3 2 (by decide) le_rfl (fun k => 100 + 400 * (k : ℝ)) (fun l => 30 * (l : ℝ)) wind_levels.1 wind_levels.2.1 (fun _ => 600)
    wind_levels.2.2.1 wind_levels.2.2.2 (windDays f g) (windDays (windPsi f) (windPsi g)) (e1 _ _) (e1 _ _) (windDays_keys _ _ _ _)
    ((e2 _ _).trans (e2 _ _).symm) (windDays_steps f g) Cal.days360 (fun _ => .ok true) "month"

end Verif.Props
