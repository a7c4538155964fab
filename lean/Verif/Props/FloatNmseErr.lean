import Verif.Lemmas.FloatNmseErr
import Verif.Props.FloatCorr
import Verif.Props.FloatSpacing

/-
C184: accuracy of nmse in floating-point arithmetic.
-/

set_option linter.unusedSectionVars false
namespace Verif.Props
open Model Spec Lemmas

theorem nmseWithBy_lengths {K : Type _} [Field K] [LinearOrder K] [IsStrictOrderedRing K] (even : CoordArr K → Except PyErr Bool)
    (slice : List K → List K → List K → XF K) (wt : K → K) (obs mod : GeoInput K) (out : NmseOut K) (h : nmseWithBy even slice wt obs mod = .ok out)
    (lats : List K) (hl : cellLats obs.lat obs.lon = some lats) : ∀ v ∈ obs.vars ++ mod.vars, v.2.length = lats.length := by
  unfold nmseWithBy at h
  by_cases h1 : obs.kind = .other ∨ mod.kind = .other
  · simp only [if_pos h1] at h; cases h
  by_cases h2 : obs.kind ≠ mod.kind
  · simp only [if_neg h1, if_pos h2] at h; cases h
  by_cases h3 : obs.coords ⊆ mod.coords ∧ mod.coords ⊆ obs.coords
  swap
  · simp only [if_neg h1, if_neg h2, if_pos h3] at h; cases h
  by_cases h4 : obs.found = true ∧ mod.found = true
  swap
  · simp only [if_neg h1, if_neg h2, if_neg (not_not.mpr h3), if_pos h4] at h; cases h
  by_cases m1 : obs.manyLat = true
  · simp only [if_neg h1, if_neg h2, if_neg (not_not.mpr h3), if_neg (not_not.mpr h4), if_pos m1] at h; cases h
  simp only [if_neg h1, if_neg h2, if_neg (not_not.mpr h3), if_neg (not_not.mpr h4), if_neg m1] at h
  cases ha : even obs.lat with
  | error e => rw [ha] at h; cases h
  | ok a =>
    rw [ha] at h
    by_cases m2 : obs.manyLon = true
    · simp only [if_pos m2] at h; cases h
    cases hb : even obs.lon with
    | error e => simp only [if_neg m2, hb] at h; cases h
    | ok b =>
      simp only [if_neg m2, hb] at h
      simp only [bind, Except.bind, pure, Except.pure, throw, throwThe, MonadExceptOf.throw] at h
      split at h
      · cases h
      split at h
      · cases h
      split at h
      · cases h
      simp only [hl] at h
      split at h
      · cases h
      · rename_i hall
        rw [not_not, List.all_eq_true] at hall
        intro v hv
        have := of_decide_eq_true (hall v hv)
        rwa [List.length_map] at this

/-- the general form: the sums have a relative error of `γ` -/
theorem nmse_call {C R : Rounding ℝ} {u η γ τ : ℝ} (P : Precise R u η) (g0 : 0 ≤ γ) (g1 : γ ≤ 1 / 10) (sum : List ℝ → ℝ) (wt : ℝ → ℝ) (obs mod : GeoInput ℝ)
    (no nm : String) (o m : List (Option ℝ)) (lats : List ℝ) (ho : obs.vars = [(no, o)]) (hm : mod.vars = [(nm, m)])
    (hl : cellLats obs.lat obs.lon = some lats) (hs : SumsWithin R sum lats.length γ) (A s : ℝ) (hw : ∀ φ ∈ lats, R.rep (wt φ) ∧ 0 ≤ wt φ ∧ wt φ ≤ 1)
    (hA : ∀ x, some x ∈ o → R.rep x ∧ |x| ≤ A) (hB : ∀ x, some x ∈ m → R.rep x) (I : NmseRange u η τ lats.length A s)
    (sa : s ^ 2 ≤ scatter (validCells (lats.map wt) o m) (·.2.1)) (r : XF ℝ) (h : nmseWithFl C R sum wt obs mod = .ok (.one r)) :
    ∃ x, r = .fin x ∧ |x - nmseOf (validCells (lats.map wt) o m)| ≤
        (9 / 4 * γ + 19 * u + 9 * (γ + 2 * u) ^ 2 * (A / spread (validCells (lats.map wt) o m) (·.2.1)) ^ 2) * nmseOf (validCells (lats.map wt) o m) + 3 * τ := by
  have hlen := nmseWithBy_lengths _ _ _ _ _ _ h lats hl
  obtain ⟨lats', hl', hn⟩ := nmseWithBy_numbers _ _ _ _ _ _ h
  rw [hl, Option.some.injEq] at hl'
  subst hl'
  obtain ⟨v, hv, v', hv', i, o', m', ho', hm', rfl⟩ := hn r (by simp [nmseNumbers])
  have e1 := List.mem_of_getElem? ho'
  have e2 := List.mem_of_getElem? hm'
  rw [ho, hm] at hlen
  rw [ho, List.mem_singleton] at hv e1
  rw [hm, List.mem_singleton] at hv' e2
  subst hv hv' e1 e2
  have l1 : o.length = (lats.map wt).length := by
    rw [List.length_map]
    exact hlen (no, o) (by simp)
  have l2 : m.length = (lats.map wt).length := by
    rw [List.length_map]
    exact hlen (nm, m) (by simp)
  refine nmse_core P g0 g1 (lats.map wt) o m l1 l2 sum (by rwa [List.length_map]) A s ?_ hA hB (by rwa [List.length_map]) sa
  intro w hw'
  obtain ⟨φ, hφ, rfl⟩ := List.mem_map.mp hw'
  exact hw φ hφ

theorem nmseOf_nonneg (V : List (ℝ × ℝ × ℝ)) (hw : ∀ x ∈ V, 0 ≤ x.1) : 0 ≤ nmseOf V :=
  div_nonneg (wMean_sq_nonneg V (·.1) _ hw) (wMean_sq_nonneg V (·.1) _ hw)

theorem validCells_weight (ws : List ℝ) (o m : List (Option ℝ)) (y : ℝ × ℝ × ℝ) (h : y ∈ validCells ws o m) : y.1 ∈ ws := by
  obtain ⟨i, h1, -, -⟩ := (mem_validCells ws o m y).mp h
  exact List.mem_of_getElem? h1

/-- **C184**: whenever `nmse` accepts two DataArrays and the observations are not constant, the value computed in floating-point arithmetic, with sums in
which no summand goes through more than `h` additions, is the normalised mean squared error with the stored weights up to the relative error
`5/2 (h + 8) u + 11 ((h + 2) u)² (A/σ)²`, where `A` is the size of the observations and `σ` their standard deviation. `τ` is what underflow may add. -/
theorem C184_accuracy {C R : Rounding ℝ} {u η τ : ℝ} (P : Precise R u η) (sum : List ℝ → ℝ) (wt : ℝ → ℝ) (obs mod : GeoInput ℝ) (no nm : String)
    (o m : List (Option ℝ)) (lats : List ℝ) (ho : obs.vars = [(no, o)]) (hm : mod.vars = [(nm, m)]) (hl : cellLats obs.lat obs.lon = some lats) (h : ℕ)
    (hs : AddsWithin R sum lats.length h) (hu : h * u ≤ 1 / 20) (A s : ℝ) (hw : ∀ φ ∈ lats, R.rep (wt φ) ∧ 0 ≤ wt φ ∧ wt φ ≤ 1)
    (hA : ∀ x, some x ∈ o → R.rep x ∧ |x| ≤ A) (hB : ∀ x, some x ∈ m → R.rep x) (I : NmseRange u η τ lats.length A s)
    (sa : s ^ 2 ≤ scatter (validCells (lats.map wt) o m) (·.2.1)) (r : XF ℝ) (hr : nmseWithFl C R sum wt obs mod = .ok (.one r)) :
    ∃ x, r = .fin x ∧ |x - nmseOf (validCells (lats.map wt) o m)| ≤
        (5 / 2 * (h + 8) * u + 11 * ((h + 2) * u) ^ 2 * (A / spread (validCells (lats.map wt) o m) (·.2.1)) ^ 2) * nmseOf (validCells (lats.map wt) o m) + 3 * τ := by
  have u0 := P.acc.u_nonneg
  have h0 : (0 : ℝ) ≤ h := Nat.cast_nonneg h
  have hp := pow_small u0 h hu
  have h1 : (1 : ℝ) ≤ (1 + u) ^ h := one_le_pow₀ (by linarith)
  obtain ⟨x, hx, hd⟩ := nmse_call P (sub_nonneg.mpr h1) (by linarith) sum wt obs mod no nm o m lats ho hm hl (hs.sums P.acc) A s hw hA hB I sa r hr
  refine ⟨x, hx, hd.trans (add_le_add (mul_le_mul_of_nonneg_right (add_le_add ?_ (mul_le_mul_of_nonneg_right ?_ (sq_nonneg _))) ?_) le_rfl)⟩
  · nlinarith [mul_nonneg h0 u0]
  · have k1 : (1 + u) ^ h - 1 + 2 * u ≤ 106 / 100 * ((h + 2) * u) := by nlinarith [mul_nonneg h0 u0]
    have k2 := pow_le_pow_left₀ (by linarith) k1 2
    nlinarith [sq_nonneg (((h : ℝ) + 2) * u)]
  · refine nmseOf_nonneg _ fun y hy => ?_
    obtain ⟨φ, hφ, e⟩ := List.mem_map.mp (validCells_weight _ _ _ _ hy)
    rw [← e]
    exact (hw φ hφ).2.1

/-- **C184** for additions in any order: `h = N - 1` for `N` cells -/
theorem C184_any_order {C R : Rounding ℝ} {u η τ : ℝ} (P : Precise R u η) (sum : List ℝ → ℝ) (wt : ℝ → ℝ) (obs mod : GeoInput ℝ) (no nm : String)
    (o m : List (Option ℝ)) (lats : List ℝ) (ho : obs.vars = [(no, o)]) (hm : mod.vars = [(nm, m)]) (hl : cellLats obs.lat obs.lon = some lats)
    (hs : AddsUp R sum) (hu : lats.length * u ≤ 1 / 20) (A s : ℝ) (hw : ∀ φ ∈ lats, R.rep (wt φ) ∧ 0 ≤ wt φ ∧ wt φ ≤ 1)
    (hA : ∀ x, some x ∈ o → R.rep x ∧ |x| ≤ A) (hB : ∀ x, some x ∈ m → R.rep x) (I : NmseRange u η τ lats.length A s)
    (sa : s ^ 2 ≤ scatter (validCells (lats.map wt) o m) (·.2.1)) (r : XF ℝ) (hr : nmseWithFl C R sum wt obs mod = .ok (.one r)) :
    ∃ x, r = .fin x ∧ |x - nmseOf (validCells (lats.map wt) o m)| ≤
        (5 / 2 * (lats.length + 7) * u + 11 * ((lats.length + 1) * u) ^ 2 * (A / spread (validCells (lats.map wt) o m) (·.2.1)) ^ 2) *
          nmseOf (validCells (lats.map wt) o m) + 3 * τ := by
  have u0 := P.acc.u_nonneg
  have hN : lats.length ≠ 0 := by
    intro h
    rw [List.length_eq_zero_iff] at h
    subst h
    have : scatter (validCells (([] : List ℝ).map wt) o m) (·.2.1) = 0 := by simp [validCells, scatter]
    rw [this] at sa
    have := pow_pos I.s_pos 2
    linarith
  have e : ((lats.length - 1 : ℕ) : ℝ) = lats.length - 1 := by
    rw [Nat.cast_sub (Nat.one_le_iff_ne_zero.mpr hN), Nat.cast_one]
  obtain ⟨x, hx, hd⟩ := C184_accuracy P sum wt obs mod no nm o m lats ho hm hl _ (addsUp_within hs _ hN) (by rw [e]; linarith) A s hw hA hB I sa r hr
  refine ⟨x, hx, hd.trans (le_of_eq ?_)⟩
  rw [e]
  ring

/-! ### The stored weights -/

theorem validCells_lats (f : ℝ → ℝ) (lats : List ℝ) (o m : List (Option ℝ)) :
    validCells (lats.map f) o m = (validCells lats o m).map (fun y => (f y.1, y.2)) := by
  rw [validCells_cellVal, validCells_cellVal, List.zip_map_left, List.filterMap_map, List.map_filterMap]
  congr 1
  funext ⟨w, x, y⟩
  cases x <;> cases y <;> rfl

theorem nmseOf_sums (V : List (ℝ × ℝ × ℝ)) (hW : (V.map (·.1)).sum ≠ 0) :
    nmseOf V = (V.map (fun y => y.1 * (y.2.2 - y.2.1) ^ 2)).sum / scatter V (·.2.1) := by
  unfold nmseOf scatter
  conv_lhs => rw [wMean, wMean]
  exact div_div_div_cancel_right₀ hW _ _

theorem scatter_le (V : List (ℝ × ℝ × ℝ)) (hw : ∀ x ∈ V, 0 ≤ x.1) (hW : (V.map (·.1)).sum ≠ 0) (c : ℝ) :
    scatter V (·.2.1) ≤ (V.map (fun y => y.1 * (y.2.1 - c) ^ 2)).sum := by
  have h := mom_shift V hW (·.2.1) (·.2.1) c c
  rw [mom_sq, mom_sq] at h
  rw [h]
  have := mul_nonneg (sum_map_nonneg V (·.1) hw) (mul_self_nonneg (c - wMean V (·.1) (·.2.1)))
  unfold scatter
  linarith

/-- **C184, the weights**: weights that are off by the relative error `δ`, as the stored cosines are away from the poles, change the normalised mean
squared error by at most `9/4 δ` of its value. -/
theorem C184_weights (wt : ℝ → ℝ) (lats : List ℝ) (hlat : ∀ φ ∈ lats, |φ| ≤ 90) (o m : List (Option ℝ)) {δ : ℝ} (d0 : 0 ≤ δ) (d1 : δ ≤ 1 / 10)
    (hwt : ∀ φ ∈ lats, |wt φ - cosDeg φ| ≤ δ * cosDeg φ) (hs : 0 < scatter (validCells (lats.map cosDeg) o m) (·.2.1)) :
    |nmseOf (validCells (lats.map wt) o m) - nmseOf (validCells (lats.map cosDeg) o m)| ≤ 9 / 4 * δ * nmseOf (validCells (lats.map cosDeg) o m) := by
  have hc := weights_nonneg lats hlat o m
  have key : ∀ G : ℝ × ℝ × ℝ → ℝ, (∀ y, 0 ≤ G y) →
      |((validCells (lats.map wt) o m).map (fun y => y.1 * G (0, y.2))).sum - ((validCells (lats.map cosDeg) o m).map (fun y => y.1 * G (0, y.2))).sum| ≤
        δ * ((validCells (lats.map cosDeg) o m).map (fun y => y.1 * G (0, y.2))).sum := by
    intro G hG
    rw [validCells_lats wt, validCells_lats cosDeg, List.map_map, List.map_map]
    have := sum_map_err (validCells lats o m) (fun y => wt y.1 * G (0, y.2)) (fun y => cosDeg y.1 * G (0, y.2)) (fun y => δ * (cosDeg y.1 * G (0, y.2)) + 0) fun y hy => by
      have h1 := hwt y.1 (validCells_weight _ _ _ _ hy)
      rw [← sub_mul, abs_mul, abs_of_nonneg (hG _), add_zero, ← mul_assoc]
      exact mul_le_mul_of_nonneg_right h1 (hG _)
    rw [sum_map_add_const, mul_zero, add_zero] at this
    exact this
  have hw : ∀ y ∈ validCells (lats.map wt) o m, 0 ≤ y.1 := by
    intro y hy
    obtain ⟨φ, hφ, e⟩ := List.mem_map.mp (validCells_weight _ _ _ _ hy)
    rw [← e]
    have h1 := (abs_le.mp (hwt φ hφ)).1
    have h2 : 0 ≤ cosDeg φ := cosDeg_nonneg φ (hlat φ hφ)
    nlinarith
  have hWc : 0 < ((validCells (lats.map cosDeg) o m).map (·.1)).sum := by
    refine lt_of_le_of_ne (sum_map_nonneg _ _ hc) fun h => ?_
    have hz := (sum_zero_iff (validCells (lats.map cosDeg) o m) (·.1) hc).mp h.symm
    have : scatter (validCells (lats.map cosDeg) o m) (·.2.1) = 0 := by
      unfold scatter
      refine List.sum_eq_zero fun x hx => ?_
      obtain ⟨y, hy, rfl⟩ := List.mem_map.mp hx
      simp only [hz y hy, zero_mul]
    linarith
  have hWw : 0 < ((validCells (lats.map wt) o m).map (·.1)).sum := by
    have := (abs_le.mp (key (fun _ => 1) fun _ => zero_le_one)).1
    simp only [mul_one] at this
    nlinarith
  rw [nmseOf_sums _ hWc.ne', nmseOf_sums _ hWw.ne']
  have kE := key (fun y => (y.2.2 - y.2.1) ^ 2) fun _ => sq_nonneg _
  have kD := fun c => key (fun y => (y.2.1 - c) ^ 2) fun _ => sq_nonneg _
  simp only at kE kD
  have lo : (1 - δ) * scatter (validCells (lats.map cosDeg) o m) (·.2.1) ≤ scatter (validCells (lats.map wt) o m) (·.2.1) := by
    have h1 := (abs_le.mp (kD (wMean (validCells (lats.map wt) o m) (·.1) (·.2.1)))).1
    have h2 := scatter_le _ hc hWc.ne' (wMean (validCells (lats.map wt) o m) (·.1) (·.2.1))
    have h3 : scatter (validCells (lats.map wt) o m) (·.2.1) =
      ((validCells (lats.map wt) o m).map (fun y => y.1 * (y.2.1 - wMean (validCells (lats.map wt) o m) (·.1) (·.2.1)) ^ 2)).sum := rfl
    rw [← h3] at h1
    have h4 := mul_le_mul_of_nonneg_left h2 (by linarith : 0 ≤ 1 - δ)
    linarith
  have hi : scatter (validCells (lats.map wt) o m) (·.2.1) ≤ (1 + δ) * scatter (validCells (lats.map cosDeg) o m) (·.2.1) := by
    have h1 := (abs_le.mp (kD (wMean (validCells (lats.map cosDeg) o m) (·.1) (·.2.1)))).2
    have h2 := scatter_le _ hw hWw.ne' (wMean (validCells (lats.map cosDeg) o m) (·.1) (·.2.1))
    have h3 : scatter (validCells (lats.map cosDeg) o m) (·.2.1) =
      ((validCells (lats.map cosDeg) o m).map (fun y => y.1 * (y.2.1 - wMean (validCells (lats.map cosDeg) o m) (·.1) (·.2.1)) ^ 2)).sum := rfl
    rw [← h3] at h1
    linarith
  have E0 : 0 ≤ ((validCells (lats.map cosDeg) o m).map (fun y => y.1 * (y.2.2 - y.2.1) ^ 2)).sum :=
    sum_map_nonneg _ _ fun y hy => mul_nonneg (hc y hy) (sq_nonneg _)
  generalize ((validCells (lats.map cosDeg) o m).map (fun y => y.1 * (y.2.2 - y.2.1) ^ 2)).sum = E at *
  generalize ((validCells (lats.map wt) o m).map (fun y => y.1 * (y.2.2 - y.2.1) ^ 2)).sum = E' at *
  generalize scatter (validCells (lats.map cosDeg) o m) (·.2.1) = D at *
  generalize scatter (validCells (lats.map wt) o m) (·.2.1) = D' at *
  have D0' : 0 < D' := lt_of_lt_of_le (mul_pos (by linarith) hs) lo
  have e : E' / D' - E / D = ((E' - E) - E / D * (D' - D)) / D' := by
    field_simp
    ring
  have q0 : 0 ≤ E / D := div_nonneg E0 hs.le
  have qE : E / D * D = E := div_mul_cancel₀ _ hs.ne'
  rw [e, abs_div, abs_of_pos D0', div_le_iff₀ D0']
  generalize E / D = q at *
  have h1 : |D' - D| ≤ δ * D := abs_le.mpr ⟨by linarith, by linarith⟩
  have h2 : |(E' - E) - q * (D' - D)| ≤ δ * E + q * (δ * D) := by
    refine (abs_sub _ _).trans (add_le_add kE ?_)
    rw [abs_mul, abs_of_nonneg q0]
    exact mul_le_mul_of_nonneg_left h1 q0
  have h3 : q * (δ * D) = δ * E := by rw [← qE]; ring
  have h4 : 9 / 4 * δ * q * ((1 - δ) * D) ≤ 9 / 4 * δ * q * D' := mul_le_mul_of_nonneg_left lo (by positivity)
  have h5 : 9 / 4 * δ * q * ((1 - δ) * D) = 9 / 4 * (1 - δ) * (δ * E) := by rw [← qE]; ring
  have h6 : 2 * (δ * E) ≤ 9 / 4 * (1 - δ) * (δ * E) := mul_le_mul_of_nonneg_right (by linarith) (mul_nonneg d0 E0)
  linarith

/-! ### Double and single precision -/

theorem nmseRange_double {N : ℕ} (hN : N ≤ 10 ^ 6) {A : ℝ} (hA : (2 : ℝ) ^ (-500 : ℤ) ≤ A ∧ A ≤ 2 ^ (100 : ℤ)) :
    NmseRange (2 ^ (-53 : ℤ)) (2 ^ (-1075 : ℤ)) (2 ^ (-500 : ℤ)) N A (2 ^ (-200 : ℤ)) := by
  refine ⟨two_zpow_pos _, two_zpow_mono (by norm_num), two_zpow_mono (by norm_num), ?_, ?_⟩
  · refine le_trans ?_ (mul_le_mul_of_nonneg_left hA.1 (two_zpow_pos _).le)
    rw [← zpow_add₀ (by norm_num)]
    exact two_zpow_mono (by norm_num)
  · have hN' : (N : ℝ) ≤ 2 ^ (20 : ℤ) := by
      have : (N : ℝ) ≤ 10 ^ 6 := by exact_mod_cast hN
      refine this.trans (by norm_num)
    have h1 : 4 + 4 * A ≤ (2 : ℝ) ^ (103 : ℤ) := by
      have e : (2 : ℝ) ^ (103 : ℤ) = 8 * 2 ^ (100 : ℤ) := by
        rw [show (103 : ℤ) = 3 + 100 by norm_num, zpow_add₀ (by norm_num)]
        norm_num
      have : (1 : ℝ) ≤ 2 ^ (100 : ℤ) := one_le_zpow₀ (by norm_num) (by norm_num)
      rw [e]
      linarith [hA.2]
    have A0 : 0 ≤ A := (two_zpow_pos _).le.trans hA.1
    calc (N : ℝ) * 2 ^ (-1075 : ℤ) * (4 + 4 * A) ≤ 2 ^ (20 : ℤ) * 2 ^ (-1075 : ℤ) * 2 ^ (103 : ℤ) :=
          mul_le_mul (mul_le_mul_of_nonneg_right hN' (two_zpow_pos _).le) h1 (by positivity) (by positivity)
      _ = 2 ^ (-952 : ℤ) := by rw [← zpow_add₀ (by norm_num), ← zpow_add₀ (by norm_num)]; norm_num
      _ ≤ 2 ^ (-900 : ℤ) := two_zpow_mono (by norm_num)
      _ = _ := by rw [← zpow_natCast, ← zpow_mul, ← zpow_add₀ (by norm_num)]; norm_num

/-- **C184** in double precision, for up to a million cells added up in any order -/
theorem C184_double (C : Rounding ℝ) (sum : List ℝ → ℝ) (wt : ℝ → ℝ) (obs mod : GeoInput ℝ) (no nm : String) (o m : List (Option ℝ)) (lats : List ℝ)
    (ho : obs.vars = [(no, o)]) (hm : mod.vars = [(nm, m)]) (hl : cellLats obs.lat obs.lon = some lats) (hN : lats.length ≤ 10 ^ 6) (hs : AddsUp float64 sum)
    (A : ℝ) (rA : (2 : ℝ) ^ (-500 : ℤ) ≤ A ∧ A ≤ 2 ^ (100 : ℤ)) (hw : ∀ φ ∈ lats, (float64 : Rounding ℝ).rep (wt φ) ∧ 0 ≤ wt φ ∧ wt φ ≤ 1)
    (hA : ∀ x, some x ∈ o → (float64 : Rounding ℝ).rep x ∧ |x| ≤ A) (hB : ∀ x, some x ∈ m → (float64 : Rounding ℝ).rep x)
    (sa : (2 : ℝ) ^ (-400 : ℤ) ≤ scatter (validCells (lats.map wt) o m) (·.2.1)) (r : XF ℝ) (hr : nmseWithFl C float64 sum wt obs mod = .ok (.one r)) :
    ∃ x, r = .fin x ∧ |x - nmseOf (validCells (lats.map wt) o m)| ≤
        (3e-10 + 14e-20 * (A / spread (validCells (lats.map wt) o m) (·.2.1)) ^ 2) * nmseOf (validCells (lats.map wt) o m) + 1e-150 := by
  have hN' : (lats.length : ℝ) ≤ 10 ^ 6 := by exact_mod_cast hN
  have e : ((2 : ℝ) ^ (-200 : ℤ)) ^ 2 = 2 ^ (-400 : ℤ) := by
    rw [← zpow_natCast, ← zpow_mul]
    norm_num
  obtain ⟨x, hx, hd⟩ := C184_any_order precise_float64 sum wt obs mod no nm o m lats ho hm hl hs (by norm_num [zpow_neg]; linarith) A _ hw hA hB
    (nmseRange_double hN rA) (by rw [e]; exact sa) r hr
  have n0 : (0 : ℝ) ≤ lats.length := Nat.cast_nonneg _
  refine ⟨x, hx, hd.trans (add_le_add (mul_le_mul_of_nonneg_right (add_le_add ?_ (mul_le_mul_of_nonneg_right ?_ (sq_nonneg _))) ?_) ?_)⟩
  · norm_num [zpow_neg]
    linarith
  · have : ((lats.length : ℝ) + 1) * 2 ^ (-53 : ℤ) ≤ 1111e-13 := by
      norm_num [zpow_neg]
      linarith
    have := pow_le_pow_left₀ (by positivity) this 2
    refine (mul_le_mul_of_nonneg_left this (by norm_num)).trans ?_
    norm_num
  · refine nmseOf_nonneg _ fun y hy => ?_
    obtain ⟨φ, hφ, e⟩ := List.mem_map.mp (validCells_weight _ _ _ _ hy)
    rw [← e]
    exact (hw φ hφ).2.1
  · have h1 : (2 : ℝ) ^ (-500 : ℤ) = ((2 : ℝ) ^ (-100 : ℤ)) ^ 5 := by
      rw [← zpow_natCast, ← zpow_mul]
      norm_num
    have h2 : (2 : ℝ) ^ (-100 : ℤ) ≤ 8e-31 := by norm_num [zpow_neg]
    have h3 := pow_le_pow_left₀ (two_zpow_pos _).le h2 5
    rw [h1]
    refine (mul_le_mul_of_nonneg_left h3 (by norm_num)).trans ?_
    norm_num

theorem nmseRange_single {N : ℕ} (hN : N ≤ 10 ^ 9) {A : ℝ} (hA : (2 : ℝ) ^ (-60 : ℤ) ≤ A ∧ A ≤ 2 ^ (30 : ℤ)) :
    NmseRange (2 ^ (-24 : ℤ)) (2 ^ (-150 : ℤ)) (2 ^ (-67 : ℤ)) N A (2 ^ (-10 : ℤ)) := by
  refine ⟨two_zpow_pos _, two_zpow_mono (by norm_num), two_zpow_mono (by norm_num), ?_, ?_⟩
  · refine le_trans ?_ (mul_le_mul_of_nonneg_left hA.1 (two_zpow_pos _).le)
    rw [← zpow_add₀ (by norm_num)]
    exact two_zpow_mono (by norm_num)
  · have hN' : (N : ℝ) ≤ 2 ^ (30 : ℤ) := by
      have : (N : ℝ) ≤ 10 ^ 9 := by exact_mod_cast hN
      refine this.trans (by norm_num)
    have h1 : 4 + 4 * A ≤ (2 : ℝ) ^ (33 : ℤ) := by
      have h2 := hA.2
      norm_num at h2 ⊢
      linarith
    have A0 : 0 ≤ A := (two_zpow_pos _).le.trans hA.1
    calc (N : ℝ) * 2 ^ (-150 : ℤ) * (4 + 4 * A) ≤ 2 ^ (30 : ℤ) * 2 ^ (-150 : ℤ) * 2 ^ (33 : ℤ) :=
          mul_le_mul (mul_le_mul_of_nonneg_right hN' (two_zpow_pos _).le) h1 (by positivity) (by positivity)
      _ ≤ _ := by norm_num [zpow_neg]

/-- **C184** in single precision, for up to 10^9 cells added up pairwise (no summand goes through more than 40 additions) -/
theorem C184_single (C : Rounding ℝ) (sum : List ℝ → ℝ) (wt : ℝ → ℝ) (obs mod : GeoInput ℝ) (no nm : String) (o m : List (Option ℝ)) (lats : List ℝ)
    (ho : obs.vars = [(no, o)]) (hm : mod.vars = [(nm, m)]) (hl : cellLats obs.lat obs.lon = some lats) (hN : lats.length ≤ 10 ^ 9)
    (hs : AddsWithin float32 sum lats.length 40) (A : ℝ) (rA : (2 : ℝ) ^ (-60 : ℤ) ≤ A ∧ A ≤ 2 ^ (30 : ℤ))
    (hw : ∀ φ ∈ lats, (float32 : Rounding ℝ).rep (wt φ) ∧ 0 ≤ wt φ ∧ wt φ ≤ 1) (hA : ∀ x, some x ∈ o → (float32 : Rounding ℝ).rep x ∧ |x| ≤ A)
    (hB : ∀ x, some x ∈ m → (float32 : Rounding ℝ).rep x) (sa : (2 : ℝ) ^ (-20 : ℤ) ≤ scatter (validCells (lats.map wt) o m) (·.2.1)) (r : XF ℝ)
    (hr : nmseWithFl C float32 sum wt obs mod = .ok (.one r)) :
    ∃ x, r = .fin x ∧ |x - nmseOf (validCells (lats.map wt) o m)| ≤
        (8e-6 + 7e-11 * (A / spread (validCells (lats.map wt) o m) (·.2.1)) ^ 2) * nmseOf (validCells (lats.map wt) o m) + 1e-19 := by
  have e : ((2 : ℝ) ^ (-10 : ℤ)) ^ 2 = 2 ^ (-20 : ℤ) := by
    rw [← zpow_natCast, ← zpow_mul]
    norm_num
  obtain ⟨x, hx, hd⟩ := C184_accuracy precise_float32 sum wt obs mod no nm o m lats ho hm hl 40 hs (by norm_num [zpow_neg]) A _ hw hA hB
    (nmseRange_single hN rA) (by rw [e]; exact sa) r hr
  refine ⟨x, hx, hd.trans (add_le_add (mul_le_mul_of_nonneg_right (add_le_add ?_ (mul_le_mul_of_nonneg_right ?_ (sq_nonneg _))) ?_) ?_)⟩
  · norm_num [zpow_neg]
  · norm_num [zpow_neg]
  · refine nmseOf_nonneg _ fun y hy => ?_
    obtain ⟨φ, hφ, e⟩ := List.mem_map.mp (validCells_weight _ _ _ _ hy)
    rw [← e]
    exact (hw φ hφ).2.1
  · norm_num [zpow_neg]

/-! ### A case that meets the hypotheses -/

/-- a field on latitudes 0 and 60, longitudes 0 and 10 -/
noncomputable def realField (v : List (Option ℝ)) : GeoInput ℝ :=
  { kind := .dataArray, coords := ["lat", "lon"], found := true, manyLat := false, manyLon := false, lat := .d1 [0, 60], lon := .d1 [0, 10], vars := [("t", v)] }

/-- observations 300, 301, missing, 302 and a model 300, 302, 7, 302 in double precision, with the weights 1 and 1/2: the error is the exact one,
a small fraction aside -/
example : ∃ x, nmseWithFl float64 float64 (leftSum float64) (fun φ => if φ = 60 then 1 / 2 else 1) (realField [some 300, some 301, none, some 302])
      (realField [some 300, some 302, some 7, some 302]) = .ok (.one (.fin x)) ∧ |x - 5 / 7| ≤ 1e-9 := by
  have rep : ∀ n : ℕ, (n : ℤ) ≤ 2 ^ 53 → (float64 : Rounding ℝ).rep n := fun n hn => ⟨n, 0, by norm_num, by rwa [abs_of_nonneg (by positivity)], by simp⟩
  have half : (float64 : Rounding ℝ).rep (1 / 2) := ⟨1, -1, by norm_num, by norm_num, by norm_num⟩
  have g1 : evenSpacingFl (float64 : Rounding ℝ) (.d1 [0, 60]) = .ok true := by
    refine C166_exact_grid_partial float64 (a := 0) (d := 60) (by simp) (by norm_num) ?_ (by simpa using rep 60 (by norm_num))
    intro k x hx
    match k with
    | 0 => simpa using hx.symm
    | 1 => simpa using hx.symm
    | k + 2 => simp at hx
  have g2 : evenSpacingFl (float64 : Rounding ℝ) (.d1 [0, 10]) = .ok true := by
    refine C166_exact_grid_partial float64 (a := 0) (d := 10) (by simp) (by norm_num) ?_ (by simpa using rep 10 (by norm_num))
    intro k x hx
    match k with
    | 0 => simpa using hx.symm
    | 1 => simpa using hx.symm
    | k + 2 => simp at hx
  set wt : ℝ → ℝ := fun φ => if φ = 60 then 1 / 2 else 1 with hwt
  have hr : ∃ r, nmseWithFl float64 float64 (leftSum float64) wt (realField [some 300, some 301, none, some 302])
      (realField [some 300, some 302, some 7, some 302]) = .ok (.one r) := by
    rw [C166_call_partial _ _ _ _ _ _ g1 g2]
    unfold nmseWithBy
    simp [realField, cellLats, indexLabels, bind, Except.bind, pure, Except.pure]
  obtain ⟨r, hr⟩ := hr
  have hws : ([0, 0, 60, 60] : List ℝ).map wt = [1, 1, 1 / 2, 1 / 2] := by norm_num [hwt]
  have hv : validCells (([0, 0, 60, 60] : List ℝ).map wt) [some 300, some 301, none, some 302] [some 300, some 302, some 7, some 302] =
      [(1, 300, 300), (1, 301, 302), (1 / 2, 302, 302)] := by
    rw [hws]
    rfl
  have h5 : (2 : ℝ) ^ (-400 : ℤ) ≤ 1 / 2 := (two_zpow_mono (by norm_num : (-400 : ℤ) ≤ -1)).trans (by norm_num)
  have h6 : (2 : ℝ) ^ (-500 : ℤ) ≤ 1 := zpow_le_one_of_nonpos₀ (by norm_num) (by norm_num)
  have h7 : (302 : ℝ) ≤ 2 ^ (100 : ℤ) := le_trans (by norm_num) (two_zpow_mono (by norm_num : (9 : ℤ) ≤ 100))
  obtain ⟨x, hx, hd⟩ := C184_double float64 (leftSum float64) wt (realField [some 300, some 301, none, some 302]) (realField [some 300, some 302, some 7, some 302])
    "t" "t" _ _ [0, 0, 60, 60] rfl rfl rfl (by norm_num) (leftSum_addsUp _) 302 ⟨h6.trans (by norm_num), h7⟩
    (fun φ _ => by
      simp only [hwt]
      split_ifs
      · exact ⟨half, by norm_num, by norm_num⟩
      · exact ⟨float64.rep_one, by norm_num, by norm_num⟩)
    (fun x hx => by
      have : x = 300 ∨ x = 301 ∨ x = 302 := by simpa using hx
      rcases this with rfl | rfl | rfl
      · exact ⟨by simpa using rep 300 (by norm_num), by norm_num⟩
      · exact ⟨by simpa using rep 301 (by norm_num), by norm_num⟩
      · exact ⟨by simpa using rep 302 (by norm_num), by norm_num⟩)
    (fun x hx => by
      have : x = 300 ∨ x = 302 ∨ x = 7 := by
        simp only [List.mem_cons, Option.some.injEq, List.not_mem_nil, or_false] at hx
        tauto
      rcases this with rfl | rfl | rfl
      · simpa using rep 300 (by norm_num)
      · simpa using rep 302 (by norm_num)
      · simpa using rep 7 (by norm_num))
    (by rw [hv]; refine h5.trans ?_; norm_num [scatter, wMean]) r hr
  refine ⟨x, by rw [hr, hx], ?_⟩
  rw [hv, div_pow] at hd
  have s1 : spread [(1, 300, 300), (1, 301, 302), (1 / 2, 302, 302)] (·.2.1) ^ 2 = 14 / 25 := by
    unfold spread
    rw [Real.sq_sqrt (by norm_num [wMean])]
    norm_num [wMean]
  have s2 : nmseOf [((1 : ℝ), (300 : ℝ), (300 : ℝ)), (1, 301, 302), (1 / 2, 302, 302)] = 5 / 7 := by norm_num [nmseOf, wMean]
  rw [s1, s2] at hd
  refine hd.trans ?_
  norm_num

end Verif.Props
