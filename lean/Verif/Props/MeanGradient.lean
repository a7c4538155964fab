import Verif.Props.MeanField
import Verif.Props.Gradient

/-
Property C199: averages in time and gradients.
-/

set_option linter.unusedSectionVars false

namespace Verif.Props
open Model Spec Lemmas
variable {K : Type} [Field K] [LinearOrder K] [IsStrictOrderedRing K]

/-- cells of one field and one of another: a linear relation between their values holds between their averages -/
theorem mean_linear {A : Series K → Except PyErr (List (Entry K))} (hA : TimeMean A) (s s' : Series K) (hn : 0 < s.ncell) (hn' : 0 < s'.ncell)
    (hg : NoGaps s) (hg' : NoGaps s') (hk : s'.samples.map (·.key) = s.samples.map (·.key)) (ht : s'.isTime = s.isTime) :
    (∀ e, A s = .error e → A s' = .error e) ∧ ∀ out, A s = .ok out → ∃ out', A s' = .ok out' ∧ out'.map (·.key) = out.map (·.key) ∧
      ∀ {ι : Type} (cells : ι → ℕ) (c' : ℕ), (∀ i, cells i < s.ncell) → c' < s'.ncell → ∀ C : Submodule K (Option ι → K),
        (∀ (i : ℕ) (e e' : Entry K), s.samples[i]? = some e → s'.samples[i]? = some e' →
          ∃ v ∈ C, (∀ k : ι, e.val (cells k) = some (v (some k))) ∧ e'.val c' = some (v none)) →
        ∀ (i : ℕ) (o o' : Entry K), out[i]? = some o → out'[i]? = some o' →
          ((∀ k, o.val (cells k) = none) ∧ o'.val c' = none) ∨ ∃ v ∈ C, (∀ k : ι, o.val (cells k) = some (v (some k))) ∧ o'.val c' = some (v none) := by
  have hB : 0 < (bothFields s s').ncell := by simp only [bothFields]; omega
  have hgB := both_noGaps s s' hg hg'
  have e1 := hA.sel (bothFields s s') s.ncell (fstCell s.ncell s'.ncell) hB hn hgB
    (fun c hc => by simp only [fstCell, if_pos hc, bothFields]; omega)
  have e2 := hA.sel (bothFields s s') s'.ncell (sndCell s.ncell s'.ncell) hB hn' hgB
    (fun c hc => by simp only [sndCell, if_pos hc, bothFields]; omega)
  rw [select_fst s s' hk] at e1
  rw [select_snd s s' hk ht] at e2
  cases hq : A (bothFields s s') with
  | error e =>
    rw [hq] at e1 e2
    rw [e1, e2]
    exact ⟨fun _ h => h, fun _ h => (nomatch h)⟩
  | ok q =>
    rw [hq] at e1 e2
    rw [e1, e2]
    refine ⟨fun _ h => (nomatch h), fun out ho => ?_⟩
    injection ho with ho
    subst ho
    refine ⟨_, rfl, by simp only [List.map_map]; rfl, fun {ι} cells c' hc hc' C hv i o o' hi hi' => ?_⟩
    simp only [List.getElem?_map, Option.map_eq_some_iff] at hi hi'
    obtain ⟨b, hb, rfl⟩ := hi
    obtain ⟨b', hb', rfl⟩ := hi'
    rw [hb] at hb'
    obtain rfl := Option.some.inj hb'
    have hT := hA.rel (bothFields s s') (fun k : Option ι => k.elim (sndCell s.ncell s'.ncell c') (fun k => fstCell s.ncell s'.ncell (cells k)))
      (fun k => by
        cases k with
        | none => simp only [Option.elim, sndCell, if_pos hc', bothFields]; omega
        | some k => simp only [Option.elim, fstCell, if_pos (hc k), bothFields]; have := hc k; omega)
      C (fun e he => by
        obtain ⟨i, hi⟩ := List.mem_iff_getElem?.mp he
        simp only [bothFields, List.getElem?_zipWith] at hi
        cases h1 : s.samples[i]? with
        | none => rw [h1] at hi; simp at hi
        | some a =>
          cases h2 : s'.samples[i]? with
          | none => rw [h1, h2] at hi; simp at hi
          | some d =>
            rw [h1, h2] at hi
            obtain rfl := Option.some.inj hi
            obtain ⟨v, hvC, hv1, hv2⟩ := hv i a d h1 h2
            refine Or.inr ⟨v, hvC, fun k => ?_⟩
            cases k with
            | none => simp only [Option.elim, bothVal_snd]; exact hv2
            | some k => simp only [Option.elim, bothVal_fst]; exact hv1 k)
      q hq b (List.mem_of_getElem? hb)
    rcases hT with hT | ⟨v, hvC, hT⟩
    · exact Or.inl ⟨fun k => hT (some k), hT none⟩
    · exact Or.inr ⟨v, hvC, fun k => hT (some k), hT none⟩

end Verif.Props

namespace Verif.Props.Gradient
open Model Spec Lemmas Verif.Props Spec.Gradient Model.Gradient Lemmas.Gradient

/-- the values of one time step, row by row -/
def Rows (r c : ℕ) (e : Entry ℝ) (f : ℕ → ℕ → ℝ) : Prop := ∀ i < r, ∀ j < c, e.val (i * c + j) = some (f i j)

/-- `ex` and `ey` hold the two components of the gradient of the field held by `e` -/
def StepGradient (k : DataKind) (r c : ℕ) (lon lat : ℕ → ℕ → ℝ) (e ex ey : Entry ℝ) : Prop :=
  ∃ f gx gy, Rows r c e f ∧ Gives (gradient (field k r c f) (some (grid r c lon)) (some (grid r c lat))) r c gx gy ∧ Rows r c ex gx ∧ Rows r c ey gy

/-- all values of a time step are missing -/
def AllMissing (r c : ℕ) (e : Entry ℝ) : Prop := ∀ i < r, ∀ j < c, e.val (i * c + j) = none

/-- the relation between a difference quotient and the two values -/
def quotientSpace {ι : Type} (p q : ι) (w : ℝ) : Submodule ℝ (Option ι → ℝ) where
  carrier := {v | v none = (v (some p) - v (some q)) / w}
  zero_mem' := by simp
  add_mem' := by
    intro v u hv hu
    simp only [Set.mem_ofPred_eq, Pi.add_apply] at *
    rw [hv, hu]; ring
  smul_mem' := by
    intro r v hv
    simp only [Set.mem_ofPred_eq, Pi.smul_apply, smul_eq_mul] at *
    rw [hv]; ring

theorem gives_unique {res : Except PyErr (List Result)} {r c : ℕ} {x y x' y' : ℕ → ℕ → ℝ} (h : Gives res r c x y) (h' : Gives res r c x' y') (i j : ℕ)
    (hi : i < r) (hj : j < c) : x i j = x' i j ∧ y i j = y' i j := by
  obtain ⟨a, b, e, -, -, hv⟩ := h
  obtain ⟨a', b', e', -, -, hv'⟩ := h'
  rw [e] at e'
  cases e'
  exact ⟨XF.fin.inj ((hv i j hi hj).1.symm.trans (hv' i j hi hj).1), XF.fin.inj ((hv i j hi hj).2.symm.trans (hv' i j hi hj).2)⟩

theorem rows_cell {r c i j : ℕ} (hi : i < r) (hj : j < c) : i * c + j < r * c := by
  have h1 : (i + 1) * c ≤ r * c := Nat.mul_le_mul_right _ hi
  have h2 : (i + 1) * c = i * c + c := by ring
  omega

theorem rows_of_cell {r c q : ℕ} (h : q < r * c) : q / c < r ∧ q % c < c ∧ q / c * c + q % c = q := by
  have hc : 0 < c := Nat.pos_of_ne_zero fun h0 => by rw [h0, Nat.mul_zero] at h; omega
  exact ⟨(Nat.div_lt_iff_lt_mul hc).mpr h, Nat.mod_lt _ hc, Nat.div_add_mod' q c⟩

/-- a number for every grid point, from the numbers of the grid points -/
noncomputable def spread {r c : ℕ} (v : Fin r × Fin c → ℝ) (i j : ℕ) : ℝ := if h : i < r ∧ j < c then v (⟨i, h.1⟩, ⟨j, h.2⟩) else 0

theorem spread_at {r c : ℕ} (v : Fin r × Fin c → ℝ) (i j : ℕ) (hi : i < r) (hj : j < c) : spread v i j = v (⟨i, hi⟩, ⟨j, hj⟩) := by
  unfold spread
  rw [dif_pos ⟨hi, hj⟩]

/-- an average of one component of the gradient, from the average of the data -/
theorem component_mean {A : Series ℝ → Except PyErr (List (Entry ℝ))} (hA : TimeMean A) {r c : ℕ} (hr : 0 < r) (hc : 0 < c) (s s' : Series ℝ)
    (hn : s.ncell = r * c) (hn' : s'.ncell = r * c) (hk : s'.samples.map (·.key) = s.samples.map (·.key)) (ht : s'.isTime = s.isTime)
    (up lo : Fin r → Fin c → Fin r × Fin c) (w : Fin r → Fin c → ℝ)
    (hs : ∀ (t : ℕ) (e e' : Entry ℝ), s.samples[t]? = some e → s'.samples[t]? = some e' → ∃ f g, Rows r c e f ∧ Rows r c e' g ∧
      ∀ (i : Fin r) (j : Fin c), g i j = (f (up i j).1 (up i j).2 - f (lo i j).1 (lo i j).2) / w i j) :
    (∀ e, A s = .error e → A s' = .error e) ∧ ∀ out, A s = .ok out → ∃ out', A s' = .ok out' ∧ out'.map (·.key) = out.map (·.key) ∧
      ∀ (t : ℕ) (o o' : Entry ℝ), out[t]? = some o → out'[t]? = some o' → (AllMissing r c o ∧ AllMissing r c o') ∨
        ∃ v : Fin r × Fin c → ℝ, Rows r c o (spread v) ∧
          Rows r c o' (spread (fun p => (v (up p.1 p.2) - v (lo p.1 p.2)) / w p.1 p.2)) := by
  have hlen : s'.samples.length = s.samples.length := by simpa using congrArg List.length hk
  have both : ∀ t : ℕ, (∃ e, s.samples[t]? = some e) ↔ ∃ e', s'.samples[t]? = some e' := by
    intro t
    constructor
    · rintro ⟨e, he⟩
      obtain ⟨hl, -⟩ := List.getElem?_eq_some_iff.mp he
      exact ⟨_, List.getElem?_eq_getElem (hlen ▸ hl)⟩
    · rintro ⟨e, he⟩
      obtain ⟨hl, -⟩ := List.getElem?_eq_some_iff.mp he
      exact ⟨_, List.getElem?_eq_getElem (hlen ▸ hl)⟩
  have hg : NoGaps s := by
    intro e he q hq
    obtain ⟨t, ht⟩ := List.mem_iff_getElem?.mp he
    obtain ⟨e', he'⟩ := (both t).mp ⟨e, ht⟩
    obtain ⟨f, g, hf, -, -⟩ := hs t e e' ht he'
    rw [hn] at hq
    obtain ⟨h1, h2, h3⟩ := rows_of_cell hq
    exact ⟨_, h3 ▸ hf _ h1 _ h2⟩
  have hg' : NoGaps s' := by
    intro e' he' q hq
    obtain ⟨t, ht'⟩ := List.mem_iff_getElem?.mp he'
    obtain ⟨e, he⟩ := (both t).mpr ⟨e', ht'⟩
    obtain ⟨f, g, -, hf, -⟩ := hs t e e' he ht'
    rw [hn'] at hq
    obtain ⟨h1, h2, h3⟩ := rows_of_cell hq
    exact ⟨_, h3 ▸ hf _ h1 _ h2⟩
  obtain ⟨herr, hok⟩ := mean_linear hA s s' (by rw [hn]; exact Nat.mul_pos hr hc) (by rw [hn']; exact Nat.mul_pos hr hc) hg hg' hk ht
  refine ⟨herr, fun out hout => ?_⟩
  obtain ⟨out', o1, o2, o3⟩ := hok out hout
  refine ⟨out', o1, o2, fun t o o' h1 h2 => ?_⟩
  have key : ∀ (i : Fin r) (j : Fin c), ((∀ p : Fin r × Fin c, o.val (p.1 * c + p.2) = none) ∧ o'.val (i * c + j) = none) ∨
      ∃ v ∈ quotientSpace (up i j) (lo i j) (w i j), (∀ p : Fin r × Fin c, o.val (p.1 * c + p.2) = some (v (some p))) ∧ o'.val (i * c + j) = some (v none) := by
    intro i j
    refine o3 (fun p : Fin r × Fin c => (p.1 * c + p.2 : ℕ)) (i * c + j) (fun p => by rw [hn]; exact rows_cell p.1.2 p.2.2) (by rw [hn']; exact rows_cell i.2 j.2) _
      (fun t e e' he he' => ?_) t o o' h1 h2
    obtain ⟨f, g, hf, hg1, hv⟩ := hs t e e' he he'
    refine ⟨fun x => x.elim (g i j) (fun p => f p.1 p.2), ?_, fun p => hf _ p.1.2 _ p.2.2, hg1 _ i.2 _ j.2⟩
    exact hv i j
  rcases Classical.em (∃ p : Fin r × Fin c, o.val (p.1 * c + p.2) = none) with ⟨p0, hp0⟩ | hno
  · refine Or.inl ⟨fun i hi j hj => ?_, fun i hi j hj => ?_⟩
    · rcases key ⟨0, hr⟩ ⟨0, hc⟩ with ⟨h, -⟩ | ⟨v, -, h, -⟩
      · exact h (⟨i, hi⟩, ⟨j, hj⟩)
      · rw [h p0] at hp0
        cases hp0
    · rcases key ⟨i, hi⟩ ⟨j, hj⟩ with ⟨-, h⟩ | ⟨v, -, h, -⟩
      · exact h
      · rw [h p0] at hp0
        cases hp0
  · right
    have hsome : ∀ p : Fin r × Fin c, ∃ v, o.val (p.1 * c + p.2) = some v := fun p => by
      cases h : o.val (p.1 * c + p.2) with
      | none => exact absurd ⟨p, h⟩ hno
      | some v => exact ⟨v, rfl⟩
    choose v hv using hsome
    refine ⟨v, fun i hi j hj => ?_, fun i hi j hj => ?_⟩
    · rw [spread_at v i j hi hj]
      exact hv (⟨i, hi⟩, ⟨j, hj⟩)
    · rw [spread_at _ i j hi hj]
      rcases key ⟨i, hi⟩ ⟨j, hj⟩ with ⟨h, -⟩ | ⟨u, hu, h, h'⟩
      · have := h (⟨i, hi⟩, ⟨j, hj⟩)
        rw [hv] at this
        cases this
      · have huv : ∀ p, u (some p) = v p := fun p => by
          have := (h p).symm.trans (hv p)
          exact Option.some.inj this
        have hu' : u none = (u (some (up ⟨i, hi⟩ ⟨j, hj⟩)) - u (some (lo ⟨i, hi⟩ ⟨j, hj⟩))) / w ⟨i, hi⟩ ⟨j, hj⟩ := hu
        rw [huv, huv] at hu'
        rw [← hu']
        exact h'

theorem upper_lt {n i : ℕ} (hn : 2 ≤ n) : upper n i < n := by simp only [upper]; omega
theorem lower_lt {n i : ℕ} (hi : i < n) : lower i < n := by simp only [lower]; omega

/-- Averaging the data in time and then taking the gradient gives the averages of the gradients. `s` are the data, `sx` and `sy` the two components of the
gradient of every time step; `A` is an average in time. -/
def GradientEitherOrder (A : Series ℝ → Except PyErr (List (Entry ℝ))) (k : DataKind) (r c : ℕ) (lon lat : ℕ → ℕ → ℝ) (s sx sy : Series ℝ) : Prop :=
  (∀ err, A s = .error err → A sx = .error err ∧ A sy = .error err) ∧
  ∀ out, A s = .ok out → ∃ outx outy, A sx = .ok outx ∧ A sy = .ok outy ∧ outx.map (·.key) = out.map (·.key) ∧ outy.map (·.key) = out.map (·.key) ∧
    ∀ (t : ℕ) (o ox oy : Entry ℝ), out[t]? = some o → outx[t]? = some ox → outy[t]? = some oy →
      (AllMissing r c o ∧ AllMissing r c ox ∧ AllMissing r c oy) ∨ StepGradient k r c lon lat o ox oy

theorem gradient_either_order {A : Series ℝ → Except PyErr (List (Entry ℝ))} (hA : TimeMean A) (k : DataKind) (hk : k ≠ .dataset) {r c : ℕ} (hr : 2 ≤ r) (hc : 2 ≤ c)
    (lon lat : ℕ → ℕ → ℝ) (hsp : Spaced r c lon lat) (s sx sy : Series ℝ) (hn : s.ncell = r * c) (hnx : sx.ncell = r * c) (hny : sy.ncell = r * c)
    (hkx : sx.samples.map (·.key) = s.samples.map (·.key)) (hky : sy.samples.map (·.key) = s.samples.map (·.key)) (htx : sx.isTime = s.isTime)
    (hty : sy.isTime = s.isTime)
    (hs : ∀ (t : ℕ) (e ex ey : Entry ℝ), s.samples[t]? = some e → sx.samples[t]? = some ex → sy.samples[t]? = some ey → StepGradient k r c lon lat e ex ey) :
    GradientEitherOrder A k r c lon lat s sx sy := by
  have hlx : sx.samples.length = s.samples.length := by simpa using congrArg List.length hkx
  have hly : sy.samples.length = s.samples.length := by simpa using congrArg List.length hky
  obtain ⟨ex1, ex2⟩ := component_mean hA (by omega) (by omega) s sx hn hnx hkx htx
    (fun i j => (⟨upper r i, upper_lt hr⟩, j)) (fun i j => (⟨lower i, lower_lt i.2⟩, j)) (fun i j => arcLat (lat (upper r i) j) - arcLat (lat (lower i) j))
    (fun t e e' he he' => by
      obtain ⟨hl, -⟩ := List.getElem?_eq_some_iff.mp he
      obtain ⟨f, gx, gy, h1, h2, h3, -⟩ := hs t e e' _ he he' (List.getElem?_eq_getElem (hly ▸ hl))
      refine ⟨f, gx, h1, h3, fun i j => ?_⟩
      exact (gives_unique h2 (C75_difference_quotients k hk hr hc f lon lat hsp) i j i.2 j.2).1)
  obtain ⟨ey1, ey2⟩ := component_mean hA (by omega) (by omega) s sy hn hny hky hty
    (fun i j => (i, ⟨upper c j, upper_lt hc⟩)) (fun i j => (i, ⟨lower j, lower_lt j.2⟩))
    (fun i j => arcLon (lon i (upper c j)) (lat i (upper c j)) - arcLon (lon i (lower j)) (lat i (lower j)))
    (fun t e e' he he' => by
      obtain ⟨hl, -⟩ := List.getElem?_eq_some_iff.mp he
      obtain ⟨f, gx, gy, h1, h2, -, h3⟩ := hs t e _ e' he (List.getElem?_eq_getElem (hlx ▸ hl)) he'
      refine ⟨f, gy, h1, h3, fun i j => ?_⟩
      exact (gives_unique h2 (C75_difference_quotients k hk hr hc f lon lat hsp) i j i.2 j.2).2)
  refine ⟨fun err h => ⟨ex1 err h, ey1 err h⟩, fun out hout => ?_⟩
  obtain ⟨outx, x1, x2, x3⟩ := ex2 out hout
  obtain ⟨outy, y1, y2, y3⟩ := ey2 out hout
  refine ⟨outx, outy, x1, y1, x2, y2, fun t o ox oy ho hox hoy => ?_⟩
  rcases x3 t o ox ho hox with ⟨m1, m2⟩ | ⟨v, v1, v2⟩
  · rcases y3 t o oy ho hoy with ⟨-, m3⟩ | ⟨u, u1, -⟩
    · exact Or.inl ⟨m1, m2, m3⟩
    · have := (m1 0 (by omega) 0 (by omega)).symm.trans (u1 0 (by omega) 0 (by omega))
      cases this
  · right
    refine ⟨spread v, _, _, v1, C75_difference_quotients k hk hr hc (spread v) lon lat hsp, fun i hi j hj => ?_, fun i hi j hj => ?_⟩
    · rw [v2 i hi j hj, spread_at _ i j hi hj]
      simp only [quotient]
      rw [spread_at v _ j (upper_lt hr) hj, spread_at v _ j (lower_lt hi) hj]
    · rcases y3 t o oy ho hoy with ⟨m1, -⟩ | ⟨u, u1, u2⟩
      · have := (m1 0 (by omega) 0 (by omega)).symm.trans (v1 0 (by omega) 0 (by omega))
        cases this
      · have huv : ∀ i (hi : i < r) j (hj : j < c), u (⟨i, hi⟩, ⟨j, hj⟩) = spread v i j := fun i hi j hj => by
          have := (u1 i hi j hj).symm.trans (v1 i hi j hj)
          rw [spread_at u i j hi hj] at this
          exact Option.some.inj this
        rw [u2 i hi j hj, spread_at _ i j hi hj]
        simp only [quotient]
        rw [huv, huv]

end Verif.Props.Gradient

namespace Verif.Props
open Model Spec Lemmas Spec.Gradient Model.Gradient Lemmas.Gradient Verif.Props.Gradient

/-! ### C199 -/

section
variable (k : DataKind) (hk : k ≠ .dataset) {r c : ℕ} (hr : 2 ≤ r) (hc : 2 ≤ c) (lon lat : ℕ → ℕ → ℝ) (hsp : Spaced r c lon lat) (s sx sy : Series ℝ)
  (hn : s.ncell = r * c) (hnx : sx.ncell = r * c) (hny : sy.ncell = r * c)
  (hkx : sx.samples.map (·.key) = s.samples.map (·.key)) (hky : sy.samples.map (·.key) = s.samples.map (·.key)) (htx : sx.isTime = s.isTime)
  (hty : sy.isTime = s.isTime)
  (hs : ∀ (t : ℕ) (e ex ey : Entry ℝ), s.samples[t]? = some e → sx.samples[t]? = some ex → sy.samples[t]? = some ey → StepGradient k r c lon lat e ex ey)
include hk hr hc hsp hn hnx hny hkx hky htx hty hs

/-- **C199**, `calendar_average`: the gradient of the averages is the average of the gradients. -/
theorem C199_calendar (cal : Cal) (infer : InferFreq) (freq : String) :
    GradientEitherOrder (calendarAverage cal infer freq) k r c lon lat s sx sy :=
  gradient_either_order (calendar_timeMean cal infer freq) k hk hr hc lon lat hsp s sx sy hn hnx hny hkx hky htx hty hs

/-- **C199**, `climatology_average`: the gradient of the averages is the average of the gradients. -/
theorem C199_climatology (cal : Cal) (infer : InferFreq) (freq : String) (custom : List String) :
    GradientEitherOrder (fun s => (climatologyAverage cal infer freq custom s).map climSteps) k r c lon lat s sx sy :=
  gradient_either_order (climatology_timeMean cal infer freq custom) k hk hr hc lon lat hsp s sx sy hn hnx hny hkx hky htx hty hs

/-- **C199**, `climate_anomaly`: the gradient of the averages is the average of the gradients. -/
theorem C199_anomaly (cal : Cal) (infer : InferFreq) (freq : String) :
    GradientEitherOrder (climateAnomaly cal infer freq) k r c lon lat s sx sy :=
  gradient_either_order (anomaly_timeMean cal infer freq) k hk hr hc lon lat hsp s sx sy hn hnx hny hkx hky htx hty hs

/-- **C199**, `month_to_season`: the gradient of the averages is the average of the gradients. -/
theorem C199_month_to_season (cal : Cal) (season : String) :
    GradientEitherOrder (monthToSeason cal season) k r c lon lat s sx sy :=
  gradient_either_order (monthToSeason_timeMean cal season) k hk hr hc lon lat hsp s sx sy hn hnx hny hkx hky htx hty hs

end

/-! ### a case -/

/-- two days in one month, with any two fields -/
noncomputable def gradDays (f g : ℕ → ℕ → ℝ) : Series ℝ :=
  ⟨3 * 3, [⟨0, fun q => some (f (q / 3) (q % 3))⟩, ⟨86400, fun q => some (g (q / 3) (q % 3))⟩], true⟩

theorem gradDays_rows (t : ℤ) (f : ℕ → ℕ → ℝ) : Rows 3 3 ⟨t, fun q => some (f (q / 3) (q % 3))⟩ f := by
  intro i hi j hj
  have h1 : (i * 3 + j) / 3 = i := by omega
  have h2 : (i * 3 + j) % 3 = j := by omega
  simp only [h1, h2]

theorem gradDays_keys (f g f' g' : ℕ → ℕ → ℝ) : (gradDays f g).samples.map (·.key) = (gradDays f' g').samples.map (·.key) := by
  simp only [gradDays, List.map_cons, List.map_nil]

theorem gradDays_at {f g : ℕ → ℕ → ℝ} {t : ℕ} {e : Entry ℝ} (h : (gradDays f g).samples[t]? = some e) :
    (t = 0 ∧ Rows 3 3 e f) ∨ (t = 1 ∧ Rows 3 3 e g) := by
  simp only [gradDays] at h
  rcases t with _ | _ | t
  · rw [List.getElem?_cons_zero] at h
    exact Or.inl ⟨rfl, Option.some.inj h ▸ gradDays_rows _ _⟩
  · rw [List.getElem?_cons_succ, List.getElem?_cons_zero] at h
    exact Or.inr ⟨rfl, Option.some.inj h ▸ gradDays_rows _ _⟩
  · rw [List.getElem?_cons_succ, List.getElem?_cons_succ, List.getElem?_nil] at h
    cases h

theorem three_by_three : Spaced 3 3 (fun _ j => 10 * (j : ℝ)) (fun i _ => 30 - 30 * (i : ℝ)) := by
  apply spaced_of_monotone (by norm_num) (by norm_num) (fun j => 10 * (j : ℝ)) (fun i => 30 - 30 * (i : ℝ))
  · intro i hi
    have : (i : ℝ) ≤ 2 := by exact_mod_cast Nat.lt_succ_iff.mp hi
    constructor <;> nlinarith [Nat.cast_nonneg (α := ℝ) i]
  · right
    intro i i' h _
    have : (i : ℝ) < i' := by exact_mod_cast h
    linarith
  · left
    intro i i' h _
    have : (i : ℝ) < i' := by exact_mod_cast h
    linarith

/-- the components of the gradient on that grid -/
noncomputable def comp1 (f : ℕ → ℕ → ℝ) (i j : ℕ) : ℝ := quotient 3 (fun v => f v j) (fun v => arcLat (30 - 30 * (v : ℝ))) i
noncomputable def comp2 (f : ℕ → ℕ → ℝ) (i j : ℕ) : ℝ := quotient 3 (fun v => f i v) (fun v => arcLon (10 * (v : ℝ)) (30 - 30 * (i : ℝ))) j

theorem comp_step (f : ℕ → ℕ → ℝ) {e ex ey : Entry ℝ} (h1 : Rows 3 3 e f) (h2 : Rows 3 3 ex (comp1 f)) (h3 : Rows 3 3 ey (comp2 f)) :
    StepGradient .dataArray 3 3 (fun _ j => 10 * (j : ℝ)) (fun i _ => 30 - 30 * (i : ℝ)) e ex ey :=
  ⟨f, comp1 f, comp2 f, h1, C75_difference_quotients .dataArray (by decide) (by decide) (by decide) f _ _ three_by_three, h2, h3⟩

theorem gradDays_steps (f g : ℕ → ℕ → ℝ) (t : ℕ) (e ex ey : Entry ℝ) (he : (gradDays f g).samples[t]? = some e)
    (hex : (gradDays (comp1 f) (comp1 g)).samples[t]? = some ex) (hey : (gradDays (comp2 f) (comp2 g)).samples[t]? = some ey) :
    StepGradient .dataArray 3 3 (fun _ j => 10 * (j : ℝ)) (fun i _ => 30 - 30 * (i : ℝ)) e ex ey := by
  rcases gradDays_at he with ⟨h0, h1⟩ | ⟨h0, h1⟩
  · rcases gradDays_at hex with ⟨-, h2⟩ | ⟨h, -⟩
    · rcases gradDays_at hey with ⟨-, h3⟩ | ⟨h, -⟩
      · exact comp_step f h1 h2 h3
      · omega
    · omega
  · rcases gradDays_at hex with ⟨h, -⟩ | ⟨-, h2⟩
    · omega
    · rcases gradDays_at hey with ⟨h, -⟩ | ⟨-, h3⟩
      · omega
      · exact comp_step g h1 h2 h3

/-- the monthly mean of two fields on a grid of 3 by 3 points that crosses the equator -/
example (f g : ℕ → ℕ → ℝ) : GradientEitherOrder (calendarAverage Cal.days360 (fun _ => .ok true) "month") .dataArray 3 3
    (fun _ j => 10 * (j : ℝ)) (fun i _ => 30 - 30 * (i : ℝ)) (gradDays f g) (gradDays (comp1 f) (comp1 g)) (gradDays (comp2 f) (comp2 g)) :=
  have h1 : DataKind.dataArray ≠ .dataset := by decide
  have h2 : 2 ≤ 3 := by decide
  have e1 : ∀ f g, (gradDays f g).ncell = 3 * 3 := fun f g => by rw [gradDays]
  have e2 : ∀ f g, (gradDays f g).isTime = true := fun f g => by rw [gradDays]
  C199_calendar .dataArray h1 h2 h2 (fun _ j => 10 * (j : ℝ)) (fun i _ => 30 - 30 * (i : ℝ)) three_by_three (gradDays f g) (gradDays (comp1 f) (comp1 g))
    (gradDays (comp2 f) (comp2 g)) (e1 _ _) (e1 _ _) (e1 _ _) (gradDays_keys _ _ _ _) (gradDays_keys _ _ _ _) ((e2 _ _).trans (e2 _ _).symm)
    ((e2 _ _).trans (e2 _ _).symm) (gradDays_steps f g) Cal.days360 (fun _ => .ok true) "month"

end Verif.Props
