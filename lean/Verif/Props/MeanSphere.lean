import Verif.Props.MeanGradient
import Verif.Props.FilterSphere

/-
Property C212: averages in time and spherical harmonics can be taken in either order.
-/

set_option linter.unusedSectionVars false

namespace Verif.Spec
open Model Model.Spherical

/-- the averages in time -/
inductive Averaging : (Series ℝ → Except PyErr (List (Entry ℝ))) → Prop
  | calendar (cal : Cal) (infer : InferFreq) (freq : String) : Averaging (calendarAverage cal infer freq)
  | climatology (cal : Cal) (infer : InferFreq) (freq : String) (custom : List String) :
      Averaging (fun s => (climatologyAverage cal infer freq custom s).map Props.climSteps)
  | anomaly (cal : Cal) (infer : InferFreq) (freq : String) : Averaging (climateAnomaly cal infer freq)
  | monthToSeason (cal : Cal) (season : String) : Averaging (monthToSeason cal season)

/-- the first `n` values of a time step are missing -/
def Nothing (n : ℕ) (e : Entry ℝ) : Prop := ∀ q < n, e.val q = none

/-- a field of one time step, row by row -/
def HoldsGrid (r c : ℕ) (e : Entry ℝ) (f : Fin r → Fin c → ℝ) : Prop := ∀ (i : Fin r) (j : Fin c), e.val (i * c + j) = some (f i j)

/-- harmonic coefficients of one time step: first the real parts, then the imaginary parts -/
def HoldsCoefs (N : ℕ) (e : Entry ℝ) (coef : ℕ → ℂ) : Prop :=
  ∀ p < (N + 1) * (N + 2) / 2, e.val p = some (coef p).re ∧ e.val ((N + 1) * (N + 2) / 2 + p) = some (coef p).im

/-- `s'` holds for each time step of `s` (with `n` values) a result (with `m` values) related to it by `Step`; then the average of `s'` holds the results for
the average of `s`: the same errors, the same times, missing where the average is -/
def Commutes (A : Series ℝ → Except PyErr (List (Entry ℝ))) (n m : ℕ) (Step : Entry ℝ → Entry ℝ → Prop) (s s' : Series ℝ) : Prop :=
  (∀ err, A s = .error err → A s' = .error err) ∧
  ∀ out, A s = .ok out → ∃ out', A s' = .ok out' ∧ out'.map (·.key) = out.map (·.key) ∧
    ∀ (t : ℕ) (o o' : Entry ℝ), out[t]? = some o → out'[t]? = some o' → (Nothing n o ∧ Nothing m o') ∨ Step o o'

end Verif.Spec

namespace Verif.Props
open Model Spec

theorem averaging_timeMean {A : Series ℝ → Except PyErr (List (Entry ℝ))} (h : Averaging A) : TimeMean A := by
  cases h with
  | calendar cal infer freq => exact calendar_timeMean cal infer freq
  | climatology cal infer freq custom => exact climatology_timeMean cal infer freq custom
  | anomaly cal infer freq => exact anomaly_timeMean cal infer freq
  | monthToSeason cal season => exact monthToSeason_timeMean cal season

namespace MeanSphere

/-- the relation between a result and the values it is computed from -/
def graph {ι : Type} (L : (ι → ℝ) →ₗ[ℝ] ℝ) : Submodule ℝ (Option ι → ℝ) where
  carrier := {v | v none = L (fun i => v (some i))}
  zero_mem' := by
    show (0 : ℝ) = L (fun _ => 0)
    exact (map_zero L).symm
  add_mem' := by
    intro v u hv hu
    simp only [Set.mem_ofPred_eq, Pi.add_apply] at *
    rw [hv, hu, ← map_add]
    rfl
  smul_mem' := by
    intro r v hv
    simp only [Set.mem_ofPred_eq, Pi.smul_apply, smul_eq_mul] at *
    rw [hv, ← smul_eq_mul, ← map_smul]
    rfl

/-- results that are linear in the values of a time step -/
theorem functional_mean {A : Series ℝ → Except PyErr (List (Entry ℝ))} (hA : TimeMean A) {ι : Type} [Nonempty ι] (s s' : Series ℝ) (m : ℕ) (hm : 0 < m)
    (hn' : s'.ncell = m) (hk : s'.samples.map (·.key) = s.samples.map (·.key)) (ht : s'.isTime = s.isTime) (cell : ι → ℕ) (hcell : ∀ i, cell i < s.ncell)
    (onto : ∀ q < s.ncell, ∃ i, cell i = q) (L : ℕ → (ι → ℝ) →ₗ[ℝ] ℝ)
    (hs : ∀ (t : ℕ) (e e' : Entry ℝ), s.samples[t]? = some e → s'.samples[t]? = some e' → ∃ x : ι → ℝ, (∀ i, e.val (cell i) = some (x i)) ∧
      ∀ p < m, e'.val p = some (L p x)) :
    Commutes A s.ncell m (fun e e' => ∃ x : ι → ℝ, (∀ i, e.val (cell i) = some (x i)) ∧ ∀ p < m, e'.val p = some (L p x)) s s' := by
  have hlen : s'.samples.length = s.samples.length := by simpa using congrArg List.length hk
  have hpos : 0 < s.ncell := lt_of_le_of_lt (Nat.zero_le _) (hcell (Classical.arbitrary ι))
  have hg : NoGaps s := by
    intro e he q hq
    obtain ⟨t, ht⟩ := List.mem_iff_getElem?.mp he
    obtain ⟨hl, -⟩ := List.getElem?_eq_some_iff.mp ht
    obtain ⟨x, hx, -⟩ := hs t e _ ht (List.getElem?_eq_getElem (hlen.symm ▸ hl))
    obtain ⟨i, rfl⟩ := onto q hq
    exact ⟨_, hx i⟩
  have hg' : NoGaps s' := by
    intro e' he' q hq
    obtain ⟨t, ht'⟩ := List.mem_iff_getElem?.mp he'
    obtain ⟨hl, -⟩ := List.getElem?_eq_some_iff.mp ht'
    obtain ⟨x, -, hx⟩ := hs t _ e' (List.getElem?_eq_getElem (hlen ▸ hl)) ht'
    exact ⟨_, hx q (hn' ▸ hq)⟩
  obtain ⟨herr, hok⟩ := mean_linear hA s s' hpos (by rw [hn']; exact hm) hg hg' hk ht
  refine ⟨herr, fun out hout => ?_⟩
  obtain ⟨out', o1, o2, o3⟩ := hok out hout
  refine ⟨out', o1, o2, fun t o o' h1 h2 => ?_⟩
  have key : ∀ p < m, ((∀ i, o.val (cell i) = none) ∧ o'.val p = none) ∨
      ∃ v ∈ graph (L p), (∀ i, o.val (cell i) = some (v (some i))) ∧ o'.val p = some (v none) := by
    intro p hp
    refine o3 cell p hcell (by rw [hn']; exact hp) _ (fun t e e' he he' => ?_) t o o' h1 h2
    obtain ⟨x, hx, hx'⟩ := hs t e e' he he'
    exact ⟨fun k => k.elim (L p x) x, rfl, hx, hx' p hp⟩
  rcases key 0 hm with ⟨h0, -⟩ | ⟨v, -, h0, -⟩
  · refine Or.inl ⟨fun q hq => ?_, fun p hp => ?_⟩
    · obtain ⟨i, rfl⟩ := onto q hq
      exact h0 i
    · rcases key p hp with ⟨-, h⟩ | ⟨v, -, h, -⟩
      · exact h
      · have := (h0 (Classical.arbitrary ι)).symm.trans (h _)
        cases this
  · refine Or.inr ⟨fun i => v (some i), h0, fun p hp => ?_⟩
    rcases key p hp with ⟨h, -⟩ | ⟨u, hu, h, h'⟩
    · have := (h (Classical.arbitrary ι)).symm.trans (h0 _)
      cases this
    · have hu' : u none = L p (fun i => u (some i)) := hu
      have huv : (fun i => u (some i)) = fun i => v (some i) := funext fun i => Option.some.inj ((h i).symm.trans (h0 i))
      rw [h', hu', huv]

end MeanSphere
end Verif.Props

namespace Verif.Props
open Model Model.Spherical Spec Spec.Spherical Lemmas.Spherical MeanSphere

/-- the harmonic coefficients of the field of a time step -/
def DecompositionStep (lib : SciPy) (old : Bool) (ty : Container) (r c N : ℕ) (scale theta phi : Fin r → Fin c → ℝ) (e e' : Entry ℝ) : Prop :=
  ∃ f coef, HoldsGrid r c e f ∧ decomposition lib old ty f scale theta phi N = (ty, coefVector N coef) ∧ HoldsCoefs N e' coef

/-- the field with the harmonic coefficients of a time step -/
def RecompositionStep (lib : SciPy) (old : Bool) (ty : Container) (r c N : ℕ) (theta phi : Fin r → Fin c → ℝ) (e e' : Entry ℝ) : Prop :=
  ∃ coef f, HoldsCoefs N e coef ∧ recomposition lib old ty (coefVector N coef) theta phi N = .ok (ty, f) ∧ HoldsGrid r c e' f

namespace MeanSphere

theorem coefVector_inj {N : ℕ} {a b : ℕ → ℂ} (h : coefVector N a = coefVector N b) (p : ℕ) (hp : p < (N + 1) * (N + 2) / 2) : a p = b p := by
  have := congrArg (fun l : List ℂ => l[p]?) h
  simpa [coefVector, hp] using this

/-- coefficient number `p` -/
noncomputable def coefAt (lib : SciPy) (old : Bool) {r c : ℕ} (N : ℕ) (scale theta phi : Fin r → Fin c → ℝ) (f : Fin r → Fin c → ℝ) (p : ℕ) : ℂ :=
  coefficient (sphHarmY lib old) f scale theta phi ((recompPairs N).getD p (0, 0)).1 ((recompPairs N).getD p (0, 0)).2

theorem decomposition_coefAt (lib : SciPy) (old : Bool) (ty : Container) {r c : ℕ} (N : ℕ) (f scale theta phi : Fin r → Fin c → ℝ) :
    decomposition lib old ty f scale theta phi N = (ty, coefVector N (coefAt lib old N scale theta phi f)) := by
  have hlen : (recompPairs N).length = (N + 1) * (N + 2) / 2 := pairs_length N
  rw [decomp_eq]
  congr 1
  refine List.ext_getElem (by simp [coefVector, hlen]) fun k hk hk' => ?_
  rw [List.length_map] at hk
  simp [coefVector, coefAt, List.getD_eq_getElem?_getD, List.getElem?_eq_getElem hk]

theorem coefAt_add (lib : SciPy) (old : Bool) {r c : ℕ} (N : ℕ) (scale theta phi f g : Fin r → Fin c → ℝ) (p : ℕ) :
    coefAt lib old N scale theta phi (fun i j => f i j + g i j) p = coefAt lib old N scale theta phi f p + coefAt lib old N scale theta phi g p := by
  unfold coefAt coefficient
  rw [← add_mul]
  congr 1
  rw [← Finset.sum_add_distrib]
  refine Finset.sum_congr rfl fun i _ => ?_
  rw [← Finset.sum_add_distrib]
  exact Finset.sum_congr rfl fun j _ => by push_cast; ring

theorem coefAt_smul (lib : SciPy) (old : Bool) {r c : ℕ} (N : ℕ) (scale theta phi f : Fin r → Fin c → ℝ) (a : ℝ) (p : ℕ) :
    coefAt lib old N scale theta phi (fun i j => a * f i j) p = (a : ℂ) * coefAt lib old N scale theta phi f p := by
  unfold coefAt coefficient
  rw [← mul_assoc (a : ℂ)]
  refine congrArg (fun z : ℂ => z * (_ * _)) ?_
  rw [Finset.mul_sum]
  refine Finset.sum_congr rfl fun i _ => ?_
  rw [Finset.mul_sum]
  exact Finset.sum_congr rfl fun j _ => by push_cast; ring

/-- real and imaginary parts of the coefficients, as functions of the field -/
noncomputable def coefPart (lib : SciPy) (old : Bool) {r c : ℕ} (N : ℕ) (scale theta phi : Fin r → Fin c → ℝ) (p : ℕ) : (Fin r × Fin c → ℝ) →ₗ[ℝ] ℝ where
  toFun := fun x => if p < (N + 1) * (N + 2) / 2 then (coefAt lib old N scale theta phi (fun i j => x (i, j)) p).re
    else (coefAt lib old N scale theta phi (fun i j => x (i, j)) (p - (N + 1) * (N + 2) / 2)).im
  map_add' := fun x y => by
    simp only [Pi.add_apply, coefAt_add]
    split_ifs <;> simp
  map_smul' := fun a x => by
    simp only [Pi.smul_apply, smul_eq_mul, coefAt_smul, RingHom.id_apply]
    split_ifs <;> simp

/-- coefficients from their parts -/
noncomputable def fromParts (M : ℕ) (x : Fin M ⊕ Fin M → ℝ) (p : ℕ) : ℂ := if h : p < M then ⟨x (.inl ⟨p, h⟩), x (.inr ⟨p, h⟩)⟩ else 0

theorem coefVector_getD (N : ℕ) (g : ℕ → ℂ) (k : ℕ) : (coefVector N g).getD k 0 = if k < (N + 1) * (N + 2) / 2 then g k else 0 := by
  unfold coefVector
  split_ifs with hi
  · simp [List.getD_eq_getElem?_getD, hi]
  · simp [List.getD_eq_getElem?_getD, hi]

theorem fromParts_getD (N : ℕ) (x : Fin ((N + 1) * (N + 2) / 2) ⊕ Fin ((N + 1) * (N + 2) / 2) → ℝ) (k : ℕ) :
    (coefVector N (fromParts _ x)).getD k 0 = fromParts _ x k := by
  rw [coefVector_getD]
  split_ifs with h
  · rfl
  · unfold fromParts
    rw [dif_neg h]

theorem fromParts_add (M : ℕ) (x y : Fin M ⊕ Fin M → ℝ) (k : ℕ) : fromParts M (x + y) k = fromParts M x k + fromParts M y k := by
  unfold fromParts
  split_ifs
  · rfl
  · simp

theorem fromParts_smul (M : ℕ) (a : ℝ) (x : Fin M ⊕ Fin M → ℝ) (k : ℕ) : fromParts M (a • x) k = (a : ℂ) * fromParts M x k := by
  unfold fromParts
  split_ifs
  · apply Complex.ext <;> simp
  · simp

/-- the value of the field at grid point number `q`, as a function of the parts of the coefficients -/
noncomputable def fieldPart (lib : SciPy) (old : Bool) {r c : ℕ} (N : ℕ) (theta phi : Fin r → Fin c → ℝ) (i : Fin r) (j : Fin c) :
    (Fin ((N + 1) * (N + 2) / 2) ⊕ Fin ((N + 1) * (N + 2) / 2) → ℝ) →ₗ[ℝ] ℝ where
  toFun := fun x => synthesis (sphHarmY lib old) N (coefVector N (fromParts _ x)) theta phi i j
  map_add' := fun x y => by
    simp only [synthesis, fromParts_getD, fromParts_add]
    rw [← Finset.sum_add_distrib]
    refine Finset.sum_congr rfl fun n _ => ?_
    rw [← Finset.sum_add_distrib]
    refine Finset.sum_congr rfl fun m _ => ?_
    simp only [Complex.add_re, Complex.add_im]
    ring
  map_smul' := fun a x => by
    simp only [synthesis, fromParts_getD, fromParts_smul, RingHom.id_apply, smul_eq_mul]
    rw [Finset.mul_sum]
    refine Finset.sum_congr rfl fun n _ => ?_
    rw [Finset.mul_sum]
    refine Finset.sum_congr rfl fun m _ => ?_
    simp only [Complex.re_ofReal_mul, Complex.im_ofReal_mul]
    ring

theorem count_pos (N : ℕ) : 0 < (N + 1) * (N + 2) / 2 := Nat.div_pos (by nlinarith) (by norm_num)

end MeanSphere

/-- **C212**, `decomposition`: the harmonic coefficients of the averages in time are the averages of the harmonic coefficients. For every
grid, set of weights and average of fields without gaps. -/
theorem C212_decomposition {A : Series ℝ → Except PyErr (List (Entry ℝ))} (hA : Averaging A) (lib : SciPy) (old : Bool) (ty : Container) (r c N : ℕ) (hr : 0 < r)
    (hc : 0 < c) (scale theta phi : Fin r → Fin c → ℝ) (s s' : Series ℝ) (hn : s.ncell = r * c) (hn' : s'.ncell = 2 * ((N + 1) * (N + 2) / 2))
    (hk : s'.samples.map (·.key) = s.samples.map (·.key)) (ht : s'.isTime = s.isTime)
    (hs : ∀ (t : ℕ) (e e' : Entry ℝ), s.samples[t]? = some e → s'.samples[t]? = some e' → DecompositionStep lib old ty r c N scale theta phi e e') :
    Commutes A (r * c) (2 * ((N + 1) * (N + 2) / 2)) (DecompositionStep lib old ty r c N scale theta phi) s s' := by
  have : Nonempty (Fin r × Fin c) := ⟨(⟨0, hr⟩, ⟨0, hc⟩)⟩
  have hM := count_pos N
  have h := functional_mean (averaging_timeMean hA) s s' _ (by omega) hn' hk ht (fun p : Fin r × Fin c => (p.1 * c + p.2 : ℕ))
    (fun p => by rw [hn]; exact Gradient.rows_cell p.1.2 p.2.2)
    (fun q hq => by
      rw [hn] at hq
      obtain ⟨h1, h2, h3⟩ := Gradient.rows_of_cell hq
      exact ⟨(⟨_, h1⟩, ⟨_, h2⟩), h3⟩)
    (coefPart lib old N scale theta phi) (fun t e e' he he' => by
      obtain ⟨f, coef, hf, hd, hco⟩ := hs t e e' he he'
      rw [decomposition_coefAt] at hd
      have hcf := fun p hp => coefVector_inj (Prod.mk.inj hd).2 p hp
      refine ⟨fun q => f q.1 q.2, fun q => hf q.1 q.2, fun p hp => ?_⟩
      simp only [coefPart, LinearMap.coe_mk, AddHom.coe_mk]
      split_ifs with hpm
      · rw [hcf p hpm, (hco p hpm).1]
      · have hp' : p - (N + 1) * (N + 2) / 2 < (N + 1) * (N + 2) / 2 := by omega
        rw [hcf _ hp', ← (hco _ hp').2]
        congr 1
        omega)
  rw [hn] at h
  refine ⟨h.1, fun out ho => ?_⟩
  obtain ⟨out', h1, h2, h3⟩ := h.2 out ho
  refine ⟨out', h1, h2, fun t o o' ht1 ht2 => ?_⟩
  rcases h3 t o o' ht1 ht2 with h0 | ⟨x, hx, hx'⟩
  · exact Or.inl h0
  · refine Or.inr ⟨fun i j => x (i, j), _, fun i j => hx (i, j), decomposition_coefAt lib old ty N _ scale theta phi, fun p hp => ⟨?_, ?_⟩⟩
    · rw [hx' p (by omega)]
      simp only [coefPart, LinearMap.coe_mk, AddHom.coe_mk, if_pos hp]
    · rw [hx' _ (by omega)]
      simp only [coefPart, LinearMap.coe_mk, AddHom.coe_mk, if_neg (show ¬ ((N + 1) * (N + 2) / 2 + p < (N + 1) * (N + 2) / 2) by omega), Nat.add_sub_cancel_left]

/-- **C212**, `recomposition`: the field with averaged coefficients is the average of the fields. -/
theorem C212_recomposition {A : Series ℝ → Except PyErr (List (Entry ℝ))} (hA : Averaging A) (lib : SciPy) (old : Bool) (ty : Container) (r c N : ℕ) (hr : 0 < r)
    (hc : 0 < c) (theta phi : Fin r → Fin c → ℝ) (s s' : Series ℝ) (hn : s.ncell = 2 * ((N + 1) * (N + 2) / 2)) (hn' : s'.ncell = r * c)
    (hk : s'.samples.map (·.key) = s.samples.map (·.key)) (ht : s'.isTime = s.isTime)
    (hs : ∀ (t : ℕ) (e e' : Entry ℝ), s.samples[t]? = some e → s'.samples[t]? = some e' → RecompositionStep lib old ty r c N theta phi e e') :
    Commutes A (2 * ((N + 1) * (N + 2) / 2)) (r * c) (RecompositionStep lib old ty r c N theta phi) s s' := by
  have hM := count_pos N
  have : Nonempty (Fin ((N + 1) * (N + 2) / 2) ⊕ Fin ((N + 1) * (N + 2) / 2)) := ⟨.inl ⟨0, hM⟩⟩
  have hlen : ∀ g, (coefVector N g).length = count N := fun g => by simp [coefVector, count]
  have h := functional_mean (averaging_timeMean hA) s s' _ (Nat.mul_pos hr hc) hn' hk ht
    (fun p : Fin ((N + 1) * (N + 2) / 2) ⊕ Fin ((N + 1) * (N + 2) / 2) => p.elim (fun p : Fin _ => (p : ℕ)) (fun p : Fin _ => (N + 1) * (N + 2) / 2 + (p : ℕ)))
    (fun p => by
      rw [hn]
      rcases p with p | p
      · have := p.2; simp only [Sum.elim_inl]; omega
      · have := p.2; simp only [Sum.elim_inr]; omega)
    (fun q hq => by
      rw [hn] at hq
      by_cases h : q < (N + 1) * (N + 2) / 2
      · exact ⟨.inl ⟨q, h⟩, rfl⟩
      · exact ⟨.inr ⟨q - (N + 1) * (N + 2) / 2, by omega⟩, by simp only [Sum.elim_inr]; omega⟩)
    (fun q => if hq : q < r * c then fieldPart lib old N theta phi ⟨q / c, (Gradient.rows_of_cell hq).1⟩ ⟨q % c, (Gradient.rows_of_cell hq).2.1⟩ else 0)
    (fun t e e' he he' => by
      obtain ⟨coef, f, hco, hd, hf⟩ := hs t e e' he he'
      rw [recomp_eq lib old ty _ theta phi N (hlen _)] at hd
      obtain rfl := (Prod.mk.inj (Except.ok.inj hd)).2
      refine ⟨fun p => p.elim (fun p : Fin _ => (coef p).re) (fun p : Fin _ => (coef p).im), fun p => ?_, fun q hq => ?_⟩
      · rcases p with p | p
        · exact (hco p p.2).1
        · exact (hco p p.2).2
      · rw [dif_pos hq]
        have e1 := hf ⟨q / c, (Gradient.rows_of_cell hq).1⟩ ⟨q % c, (Gradient.rows_of_cell hq).2.1⟩
        have e0 : e'.val q = e'.val (q / c * c + q % c) := by rw [(Gradient.rows_of_cell hq).2.2]
        rw [e0]
        refine e1.trans ?_
        simp only [fieldPart, LinearMap.coe_mk, AddHom.coe_mk]
        congr 2
        unfold coefVector
        refine List.map_congr_left fun p hp => ?_
        rw [fromParts, dif_pos (List.mem_range.mp hp)]
        rfl)
  rw [hn] at h
  refine ⟨h.1, fun out ho => ?_⟩
  obtain ⟨out', h1, h2, h3⟩ := h.2 out ho
  refine ⟨out', h1, h2, fun t o o' ht1 ht2 => ?_⟩
  rcases h3 t o o' ht1 ht2 with h0 | ⟨x, hx, hx'⟩
  · exact Or.inl h0
  · refine Or.inr ⟨fromParts _ x, _, fun p hp => ⟨?_, ?_⟩, recomp_eq lib old ty _ theta phi N (hlen _), fun i j => ?_⟩
    · have := hx (.inl ⟨p, hp⟩)
      simp only [Sum.elim_inl] at this
      rw [this, fromParts, dif_pos hp]
    · have := hx (.inr ⟨p, hp⟩)
      simp only [Sum.elim_inr] at this
      rw [this, fromParts, dif_pos hp]
    · have hq : (i * c + j : ℕ) < r * c := Gradient.rows_cell i.2 j.2
      rw [hx' _ hq, dif_pos hq]
      simp only [fieldPart, LinearMap.coe_mk, AddHom.coe_mk]
      have e1 : (⟨(i * c + j : ℕ) / c, (Gradient.rows_of_cell hq).1⟩ : Fin r) = i := by
        apply Fin.ext
        show (i * c + j : ℕ) / c = i
        rw [mul_comm, Nat.mul_add_div hc, Nat.div_eq_of_lt j.2, add_zero]
      have e2 : (⟨(i * c + j : ℕ) % c, (Gradient.rows_of_cell hq).2.1⟩ : Fin c) = j := by
        apply Fin.ext
        show (i * c + j : ℕ) % c = j
        rw [mul_comm, Nat.mul_add_mod, Nat.mod_eq_of_lt j.2]
      rw [e1, e2]

/-- fields of two days -/
noncomputable def sphereDays (f g : Fin 2 → Fin 3 → ℝ) : Series ℝ :=
  ⟨2 * 3, [⟨0, fun q => if h : q < 2 * 3 then some (f ⟨q / 3, by omega⟩ ⟨q % 3, by omega⟩) else none⟩,
    ⟨86400, fun q => if h : q < 2 * 3 then some (g ⟨q / 3, by omega⟩ ⟨q % 3, by omega⟩) else none⟩], true⟩

/-- coefficients of two days -/
noncomputable def coefDays (N : ℕ) (a b : ℕ → ℂ) : Series ℝ :=
  ⟨2 * ((N + 1) * (N + 2) / 2), [⟨0, fun p => some (if p < (N + 1) * (N + 2) / 2 then (a p).re else (a (p - (N + 1) * (N + 2) / 2)).im)⟩,
    ⟨86400, fun p => some (if p < (N + 1) * (N + 2) / 2 then (b p).re else (b (p - (N + 1) * (N + 2) / 2)).im)⟩], true⟩

theorem sphereDays_holds (k : ℤ) (f : Fin 2 → Fin 3 → ℝ) :
    HoldsGrid 2 3 ⟨k, fun q => if h : q < 2 * 3 then some (f ⟨q / 3, by omega⟩ ⟨q % 3, by omega⟩) else none⟩ f := by
  intro i j
  have hi := i.2
  have hj := j.2
  have h1 : (i * 3 + j : ℕ) / 3 = i := by omega
  have h2 : (i * 3 + j : ℕ) % 3 = j := by omega
  simp only [h1, h2]
  rw [dif_pos (by omega)]

theorem coefDays_holds (N : ℕ) (k : ℤ) (a : ℕ → ℂ) :
    HoldsCoefs N ⟨k, fun p => some (if p < (N + 1) * (N + 2) / 2 then (a p).re else (a (p - (N + 1) * (N + 2) / 2)).im)⟩ a := by
  intro p hp
  refine ⟨?_, ?_⟩
  · simp only [if_pos hp]
  · simp only [if_neg (show ¬ ((N + 1) * (N + 2) / 2 + p < (N + 1) * (N + 2) / 2) by omega), Nat.add_sub_cancel_left]

/-- the monthly mean of the harmonics of two fields on a grid of 2 by 3 points -/
example (lib : SciPy) (N : ℕ) (f g scale theta phi : Fin 2 → Fin 3 → ℝ) :
    Commutes (calendarAverage Cal.days360 (fun _ => .ok true) "month") (2 * 3) (2 * ((N + 1) * (N + 2) / 2))
      (DecompositionStep lib false .xarray 2 3 N scale theta phi) (sphereDays f g)
      (coefDays N (coefAt lib false N scale theta phi f) (coefAt lib false N scale theta phi g)) := by
  have e1 : (sphereDays f g).ncell = 2 * 3 := by rw [sphereDays]
  have e2 : ∀ a b, (coefDays N a b).ncell = 2 * ((N + 1) * (N + 2) / 2) := fun a b => by rw [coefDays]
  refine C212_decomposition (.calendar _ _ _) lib false .xarray 2 3 N (by decide) (by decide) scale theta phi _ _ e1 (e2 _ _)
    (by simp only [sphereDays, coefDays, List.map_cons, List.map_nil]) (by simp only [sphereDays, coefDays]) fun t e e' he he' => ?_
  simp only [sphereDays] at he
  simp only [coefDays] at he'
  rcases t with _ | _ | t
  · rw [List.getElem?_cons_zero] at he he'
    obtain rfl := Option.some.inj he
    obtain rfl := Option.some.inj he'
    exact ⟨f, _, sphereDays_holds _ _, decomposition_coefAt lib false .xarray N f scale theta phi, coefDays_holds _ _ _⟩
  · rw [List.getElem?_cons_succ, List.getElem?_cons_zero] at he he'
    obtain rfl := Option.some.inj he
    obtain rfl := Option.some.inj he'
    exact ⟨g, _, sphereDays_holds _ _, decomposition_coefAt lib false .xarray N g scale theta phi, coefDays_holds _ _ _⟩
  · simp at he

end Verif.Props
