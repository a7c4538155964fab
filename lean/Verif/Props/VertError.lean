import Verif.Props.VertLinear

/-
Property C223: vertical interpolation does not amplify errors of the data.
-/

set_option linter.unusedSectionVars false

namespace Verif.Props
open Model XF Lemmas Spec

namespace VertError

theorem interpAt_close (n : ℕ) (p : ℕ → ℝ) (hd : Distinct n p) (u v : ℕ → XF ℝ) (f g : ℕ → ℝ) (ε : ℝ)
    (hu : ∀ k < n, u k = .fin (f k)) (hv : ∀ k < n, v k = .fin (g k)) (hle : ∀ k < n, |f k - g k| ≤ ε) (x : ℝ)
    (y y' : XF ℝ) (h1 : InterpAt n p u x y) (h2 : InterpAt n p v x y') (ho : ¬ Outside n p x) :
    ∃ a b, y = .fin a ∧ y' = .fin b ∧ |a - b| ≤ ε := by
  obtain ⟨i, j, hb⟩ := interpAt_bracket n p u x y h1 ho
  refine ⟨_, _, interpAt_line n p hd u f hu x y h1 i j hb, interpAt_line n p hd v g hv x y' h2 i j hb, ?_⟩
  have hpos : 0 < p j - p i := sub_pos.mpr hb.2.2.1
  have t0 : 0 ≤ (x - p i) / (p j - p i) := div_nonneg (sub_nonneg.mpr hb.2.2.2.1) hpos.le
  have t1 : (x - p i) / (p j - p i) ≤ 1 := by rw [div_le_one hpos]; linarith [hb.2.2.2.2.1]
  simp only [line]
  generalize (x - p i) / (p j - p i) = t at t0 t1 ⊢
  have hi := abs_le.mp (hle i hb.1)
  have hj := abs_le.mp (hle j hb.2.1)
  have s := sub_nonneg.mpr t1
  rw [abs_le]
  constructor
  · nlinarith [mul_le_mul_of_nonneg_left hi.1 s, mul_le_mul_of_nonneg_left hj.1 t0]
  · nlinarith [mul_le_mul_of_nonneg_left hi.2 s, mul_le_mul_of_nonneg_left hj.2 t0]

end VertError

open VertError

/-- **C223**, hybrid to pressure: if two columns differ by at most `ε` at every level, so do their interpolated values. -/
theorem C223_hybrid (o : HybridOpts) (lev e : String) (n : ℕ) (a b : ℕ → ℝ) (p0 : ℝ) (x : List ℝ) (ps : LArr ℝ)
    (data₁ data₂ : LArr (XF ℝ)) (h₁ : GoodCall o lev n a b p0 x ps data₁) (h₂ : GoodCall o lev n a b p0 x ps data₂)
    (hx : o.extrapolate = false) (chunks₁ chunks₂ : Option (String → List ℕ))
    (others₁ others₂ : Bool) (hv₁ : ValidChunks data₁ chunks₁ others₁) (hv₂ : ValidChunks data₂ chunks₂ others₂)
    (labels : List ℝ) (tBot phi : LArr (XF ℝ)) (ε : ℝ) :
    ∃ out₁ out₂,
      interpHybridToPressure o p0 x chunks₁ others₁ labels data₁ ps (vec lev n a) (vec e n b) tBot phi = .ok out₁ ∧
      interpHybridToPressure o p0 x chunks₂ others₂ labels data₂ ps (vec lev n a) (vec e n b) tBot phi = .ok out₂ ∧
      ∀ i, AtPoint ps i → ∀ y, x[i "plev"]? = some y → ¬ Outside n (levelPressure a b p0 ps i) y → ∀ f g : ℕ → ℝ,
        (∀ k < n, levelValue lev data₁ i k = .fin (f k) ∧ levelValue lev data₂ i k = .fin (g k) ∧ |f k - g k| ≤ ε) →
        ∃ u v, out₁.get i = .fin u ∧ out₂.get i = .fin v ∧ |u - v| ≤ ε := by
  obtain ⟨out₁, ho₁, hi₁⟩ := call_spec o lev e n a b p0 x ps data₁ h₁ hx chunks₁ others₁ hv₁ labels tBot phi
  obtain ⟨out₂, ho₂, hi₂⟩ := call_spec o lev e n a b p0 x ps data₂ h₂ hx chunks₂ others₂ hv₂ labels tBot phi
  refine ⟨out₁, out₂, ho₁, ho₂, fun i hpt y hy hno f g hfg => ?_⟩
  refine interpAt_close n _ (h₁.coordDistinct i hpt) _ _ f g ε (fun k hk => (hfg k hk).1) (fun k hk => (hfg k hk).2.1)
    (fun k hk => (hfg k hk).2.2) _ _ _ (hi₁.value i hpt _ hy) (hi₂.value i hpt _ hy) ?_
  rw [outside_transform _ _ (coordOf_mono o.method) n _ (h₁.mem_p i hpt) _ (h₁.mem_x y (List.mem_of_getElem? hy))]
  exact hno

/-- **C223**, sigma to hybrid. Missing: more hybrid than sigma levels, for which the code fails (see C21). -/
theorem C223_sigma_partial (levDim cf : Option String) (method lev hd : String)
    (hl : levDim = some lev ∨ levDim = none ∧ cf = some lev)
    (n : ℕ) (s : ℕ → ℝ) (m : ℕ) (a b : ℕ → ℝ) (p0 : ℝ) (ps : LArr ℝ) (data₁ data₂ : LArr (XF ℝ))
    (h₁ : SigmaCall method lev hd n s m a b p0 ps data₁) (h₂ : SigmaCall method lev hd n s m a b p0 ps data₂) (hmn : m ≤ n) (ε : ℝ) :
    ∃ out₁ out₂ hlev,
      interpSigmaToHybrid Real.log levDim cf method p0 (column n s) data₁ ps (vec hd m a) (vec hd m b) = .ok (out₁, hlev) ∧
      interpSigmaToHybrid Real.log levDim cf method p0 (column n s) data₂ ps (vec hd m a) (vec hd m b) = .ok (out₂, hlev) ∧
      ∀ i, AtPoint ps i → i "hlev" < m → ¬ Outside n s (hybridSigma a b p0 ps i (i "hlev")) → ∀ f g : ℕ → ℝ,
        (∀ k < n, levelValue lev data₁ i k = .fin (f k) ∧ levelValue lev data₂ i k = .fin (g k) ∧ |f k - g k| ≤ ε) →
        ∃ u v, out₁.get i = .fin u ∧ out₂.get i = .fin v ∧ |u - v| ≤ ε := by
  obtain ⟨out₁, hlev₁, ho₁, hi₁, e₁⟩ := C21_columns_partial levDim cf method lev hd hl n s m a b p0 ps data₁ h₁ hmn
  obtain ⟨out₂, hlev₂, ho₂, hi₂, e₂⟩ := C21_columns_partial levDim cf method lev hd hl n s m a b p0 ps data₂ h₂ hmn
  refine ⟨out₁, out₂, hlev₁, ho₁, by rw [ho₂, e₁, e₂], fun i hpt hm hno f g hfg => ?_⟩
  have hdis := distinct_transform _ _ (coordOf_mono method) n _ h₁.mem_s h₁.distinct
  refine interpAt_close n _ hdis _ _ f g ε (fun k hk => (hfg k hk).1) (fun k hk => (hfg k hk).2.1) (fun k hk => (hfg k hk).2.2) _ _ _ (hi₁.value i hpt hm)
    (hi₂.value i hpt hm) ?_
  rw [h₁.outside_iff i hpt _ hm]
  exact hno

/-- the pressure of the levels and a copy with errors of at most 5 -/
noncomputable def pressureErr : LArr (XF ℝ) :=
  ⟨["lat", "lev"], fun _ => 2, fun i => .fin (demoB (i "lev") * (100000 + 1000 * (i "lat" : ℝ)) + (if i "lev" = 0 then 5 else -3))⟩

example : ∃ out₁ out₂, interpHybridToPressure (demoOpts "linear" false (some "other")) 100000 [60000] none false [1, 2] pressureData demoPs
      (vec "lev" 2 (fun _ => 0)) (vec "lev" 2 demoB) demoData demoData = .ok out₁ ∧
    interpHybridToPressure (demoOpts "linear" false (some "other")) 100000 [60000] none false [1, 2] pressureErr demoPs
      (vec "lev" 2 (fun _ => 0)) (vec "lev" 2 demoB) demoData demoData = .ok out₂ ∧
    ∃ u v, out₁.get (fun _ => 0) = .fin u ∧ out₂.get (fun _ => 0) = .fin v ∧ |u - v| ≤ 5 := by
  have h := pressureData_good [60000] (by simp) (Or.inl (by simp)) (by simp)
  have h' : GoodCall (demoOpts "linear" false (some "other")) "lev" 2 (fun _ => 0) demoB 100000 [60000] demoPs pressureErr :=
    { accepted := h.accepted, grid := ⟨h.grid.two, h.grid.levNew, h.grid.plevNew, h.grid.perm, rfl, fun d _ => by simp [demoPs, pressureErr], h.grid.wf⟩,
      nonempty := h.nonempty, sorted := h.sorted, distinct := h.distinct, positive := h.positive }
  obtain ⟨out₁, out₂, h1, h2, h3⟩ := C223_hybrid _ "lev" "lev" 2 _ _ _ _ _ _ _ h h' rfl none none false false rfl rfl [1, 2] demoData demoData 5
  refine ⟨out₁, out₂, h1, h2, h3 (fun _ => 0) (by intro d hd; simp [demoPs] at hd ⊢) 60000 (by simp) ?_
    (fun k => demoB k * 100000) (fun k => demoB k * 100000 + (if k = 0 then 5 else -3)) fun k _ => ⟨?_, ?_, ?_⟩⟩
  · rintro (ho | ho)
    · have := ho 1 (by norm_num)
      rw [demo_pressure] at this
      simp at this
      linarith
    · have := ho 0 (by norm_num)
      rw [demo_pressure] at this
      simp at this
      linarith
  · simp [levelValue, pressureData]
  · simp [levelValue, pressureErr]
  · split_ifs <;> rw [abs_le] <;> constructor <;> linarith

end Verif.Props
