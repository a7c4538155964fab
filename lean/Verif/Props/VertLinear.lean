import Verif.Lemmas.Columns
import Verif.Props.HybridInterp2
import Verif.Props.Sigma

/-
Property C127 (vertical interpolation is linear in the data, keeps order and reproduces linear profiles) and the part of C11 on
the interpolated pressure field.
-/

set_option linter.unusedSectionVars false
namespace Verif.Props
open Model Spec Lemmas

/-! ### hybrid levels to pressure levels -/

theorem GoodCall.coordDistinct {o : HybridOpts} {lev : String} {n : ℕ} {a b : ℕ → ℝ} {p0 : ℝ} {x : List ℝ} {ps : LArr ℝ}
    {data : LArr (XF ℝ)} (h : GoodCall o lev n a b p0 x ps data) (i : String → ℕ) (hi : AtPoint ps i) :
    Distinct n (fun k => coordOf o.method (levelPressure a b p0 ps i k)) :=
  distinct_transform _ _ (coordOf_mono o.method) n _ (h.mem_p i hi) (h.distinct i hi)

/-- C127, hybrid to pressure: where the profile is `c + d * p` (method "linear") or `c + d * log p` (method "log") on the levels of
a column, the value at a requested pressure `y` inside the column is `c + d * y` or `c + d * log y`. In particular interpolating the
pressure itself gives the requested pressure. -/
theorem C127_hybrid_profile (o : HybridOpts) (lev e : String) (n : ℕ) (a b : ℕ → ℝ) (p0 : ℝ) (x : List ℝ) (ps : LArr ℝ) (data : LArr (XF ℝ))
    (h : GoodCall o lev n a b p0 x ps data) (hx : o.extrapolate = false) (chunks : Option (String → List ℕ)) (others : Bool)
    (hv : ValidChunks data chunks others) (labels : List ℝ) (tBot phi : LArr (XF ℝ)) :
    ∃ out, interpHybridToPressure o p0 x chunks others labels data ps (vec lev n a) (vec e n b) tBot phi = .ok out ∧
      ∀ i, AtPoint ps i → ∀ y, x[i "plev"]? = some y → ¬ Outside n (levelPressure a b p0 ps i) y → ∀ c d : ℝ,
        (o.method = "linear" → (∀ k < n, levelValue lev data i k = .fin (c + d * levelPressure a b p0 ps i k)) →
          out.get i = .fin (c + d * y)) ∧
        (o.method = "log" → (∀ k < n, levelValue lev data i k = .fin (c + d * Real.log (levelPressure a b p0 ps i k))) →
          out.get i = .fin (c + d * Real.log y)) := by
  obtain ⟨out, ho, hi⟩ := call_spec o lev e n a b p0 x ps data h hx chunks others hv labels tBot phi
  refine ⟨out, ho, fun i hpt y hy hno c d => ?_⟩
  have hval := hi.value i hpt y hy
  have hno' : ¬ Outside n (fun k => coordOf o.method (levelPressure a b p0 ps i k)) (coordOf o.method y) := by
    rw [outside_transform _ _ (coordOf_mono o.method) n _ (h.mem_p i hpt) _ (h.mem_x y (List.mem_of_getElem? hy))]
    exact hno
  have key := fun hp => interpAt_linear n _ _ c d hp _ _ hval hno'
  constructor
  · intro hm hp
    have hc : ∀ z, coordOf o.method z = z := fun z => by rw [hm]; simp [coordOf]
    simpa only [hc] using key (by simpa only [hc] using hp)
  · intro hm hp
    have hc : ∀ z, coordOf o.method z = Real.log z := fun z => by rw [hm]; simp [coordOf]
    simpa only [hc] using key (by simpa only [hc] using hp)

/-- C127, hybrid to pressure: interpolating `c * data₁ + d * data₂` gives `c` times the first result plus `d` times the second, at every
grid point whose two columns have no missing values (missing outside the column). The three calls may be chunked differently. -/
theorem C127_hybrid_combination (o : HybridOpts) (lev e : String) (n : ℕ) (a b : ℕ → ℝ) (p0 : ℝ) (x : List ℝ) (ps : LArr ℝ)
    (data₁ data₂ data₃ : LArr (XF ℝ)) (h₁ : GoodCall o lev n a b p0 x ps data₁) (h₂ : GoodCall o lev n a b p0 x ps data₂)
    (h₃ : GoodCall o lev n a b p0 x ps data₃) (hx : o.extrapolate = false) (chunks₁ chunks₂ chunks₃ : Option (String → List ℕ))
    (others₁ others₂ others₃ : Bool) (hv₁ : ValidChunks data₁ chunks₁ others₁) (hv₂ : ValidChunks data₂ chunks₂ others₂)
    (hv₃ : ValidChunks data₃ chunks₃ others₃) (labels : List ℝ) (tBot phi : LArr (XF ℝ)) :
    ∃ out₁ out₂ out₃,
      interpHybridToPressure o p0 x chunks₁ others₁ labels data₁ ps (vec lev n a) (vec e n b) tBot phi = .ok out₁ ∧
      interpHybridToPressure o p0 x chunks₂ others₂ labels data₂ ps (vec lev n a) (vec e n b) tBot phi = .ok out₂ ∧
      interpHybridToPressure o p0 x chunks₃ others₃ labels data₃ ps (vec lev n a) (vec e n b) tBot phi = .ok out₃ ∧
      ∀ i, AtPoint ps i → i "plev" < x.length → FullColumn lev n data₁ i → FullColumn lev n data₂ i → ∀ c d : ℝ,
        (∀ k < n, levelValue lev data₃ i k = .fin c * levelValue lev data₁ i k + .fin d * levelValue lev data₂ i k) →
        out₃.get i = .fin c * out₁.get i + .fin d * out₂.get i := by
  obtain ⟨out₁, ho₁, hi₁⟩ := call_spec o lev e n a b p0 x ps data₁ h₁ hx chunks₁ others₁ hv₁ labels tBot phi
  obtain ⟨out₂, ho₂, hi₂⟩ := call_spec o lev e n a b p0 x ps data₂ h₂ hx chunks₂ others₂ hv₂ labels tBot phi
  obtain ⟨out₃, ho₃, hi₃⟩ := call_spec o lev e n a b p0 x ps data₃ h₃ hx chunks₃ others₃ hv₃ labels tBot phi
  refine ⟨out₁, out₂, out₃, ho₁, ho₂, ho₃, fun i hpt hy hf hg c d hcomb => ?_⟩
  have hy' : x[i "plev"]? = some x[i "plev"] := List.getElem?_eq_getElem hy
  choose! f hf using hf
  choose! g hg using hg
  exact interpAt_combine n _ (h₁.coordDistinct i hpt) _ _ _ f g c d hf hg
    (fun k hk => by rw [hcomb k hk, hf k hk, hg k hk]; simp) _ _ _ _ (hi₁.value i hpt _ hy') (hi₂.value i hpt _ hy') (hi₃.value i hpt _ hy')

/-- C127, hybrid to pressure: if no level of the first column exceeds the same level of the second, no interpolated value of the first
exceeds that of the second. -/
theorem C127_hybrid_order (o : HybridOpts) (lev e : String) (n : ℕ) (a b : ℕ → ℝ) (p0 : ℝ) (x : List ℝ) (ps : LArr ℝ)
    (data₁ data₂ : LArr (XF ℝ)) (h₁ : GoodCall o lev n a b p0 x ps data₁) (h₂ : GoodCall o lev n a b p0 x ps data₂)
    (hx : o.extrapolate = false) (chunks₁ chunks₂ : Option (String → List ℕ))
    (others₁ others₂ : Bool) (hv₁ : ValidChunks data₁ chunks₁ others₁) (hv₂ : ValidChunks data₂ chunks₂ others₂)
    (labels : List ℝ) (tBot phi : LArr (XF ℝ)) :
    ∃ out₁ out₂,
      interpHybridToPressure o p0 x chunks₁ others₁ labels data₁ ps (vec lev n a) (vec e n b) tBot phi = .ok out₁ ∧
      interpHybridToPressure o p0 x chunks₂ others₂ labels data₂ ps (vec lev n a) (vec e n b) tBot phi = .ok out₂ ∧
      ∀ i, AtPoint ps i → ∀ y, x[i "plev"]? = some y → ¬ Outside n (levelPressure a b p0 ps i) y → ∀ f g : ℕ → ℝ,
        (∀ k < n, levelValue lev data₁ i k = .fin (f k) ∧ levelValue lev data₂ i k = .fin (g k) ∧ f k ≤ g k) →
        ∃ u v, out₁.get i = .fin u ∧ out₂.get i = .fin v ∧ u ≤ v := by
  obtain ⟨out₁, ho₁, hi₁⟩ := call_spec o lev e n a b p0 x ps data₁ h₁ hx chunks₁ others₁ hv₁ labels tBot phi
  obtain ⟨out₂, ho₂, hi₂⟩ := call_spec o lev e n a b p0 x ps data₂ h₂ hx chunks₂ others₂ hv₂ labels tBot phi
  refine ⟨out₁, out₂, ho₁, ho₂, fun i hpt y hy hno f g hfg => ?_⟩
  refine interpAt_mono n _ (h₁.coordDistinct i hpt) _ _ f g (fun k hk => (hfg k hk).1) (fun k hk => (hfg k hk).2.1)
    (fun k hk => (hfg k hk).2.2) _ _ _ (hi₁.value i hpt _ hy) (hi₂.value i hpt _ hy) ?_
  rw [outside_transform _ _ (coordOf_mono o.method) n _ (h₁.mem_p i hpt) _ (h₁.mem_x y (List.mem_of_getElem? hy))]
  exact hno

/-- a profile that is the pressure of the level -/
noncomputable def pressureData : LArr (XF ℝ) :=
  ⟨["lat", "lev"], fun _ => 2, fun i => .fin (demoB (i "lev") * (100000 + 1000 * (i "lat" : ℝ)))⟩

theorem pressureData_good (x : List ℝ) (hx : x ≠ []) (hs : Sorted x) (hpos : ∀ y ∈ x, 0 < y) :
    GoodCall (demoOpts "linear" false (some "other")) "lev" 2 (fun _ => 0) demoB 100000 x demoPs pressureData :=
  let h := demo_good "linear" (Or.inl rfl) false x hx hs hpos
  { accepted := h.accepted, grid := ⟨h.grid.two, h.grid.levNew, h.grid.plevNew, h.grid.perm, rfl, fun d _ => by simp [demoPs, pressureData], h.grid.wf⟩,
    nonempty := hx, sorted := hs, distinct := h.distinct, positive := h.positive }

/-- the pressure interpolated at 60000 Pa is 60000 Pa, over both latitudes; and `3 * data + 2 * pressure` interpolated is
`3 *` the one result plus `2 *` the other -/
example : ∃ out, interpHybridToPressure (demoOpts "linear" false (some "other")) 100000 [60000] none false [1, 2] pressureData demoPs
    (vec "lev" 2 (fun _ => 0)) (vec "lev" 2 demoB) demoData demoData = .ok out ∧
    ∀ lat < 2, out.get (fun d => if d = "lat" then lat else 0) = .fin 60000 := by
  have hg := pressureData_good [60000] (by simp) (Or.inl (by simp)) (by simp)
  obtain ⟨out, h1, h2⟩ := C127_hybrid_profile _ "lev" "lev" 2 _ _ _ _ _ _ hg rfl none false rfl [1, 2] demoData demoData
  refine ⟨out, h1, fun lat hlat => ?_⟩
  have hl : (lat : ℝ) ≤ 1 := by exact_mod_cast (by omega : lat ≤ 1)
  have h0 : (0 : ℝ) ≤ lat := Nat.cast_nonneg _
  have := (h2 (fun d => if d = "lat" then lat else 0) (by intro d hd; simp [demoPs] at hd ⊢; simp [hd]; omega) 60000 (by simp) (by
    rintro (ho | ho)
    · have := ho 1 (by norm_num)
      rw [demo_pressure] at this
      simp at this
      linarith
    · have := ho 0 (by norm_num)
      rw [demo_pressure] at this
      simp at this
      linarith) 0 1).1 rfl (fun k _ => by simp [levelValue, pressureData, demo_pressure, demoB])
  simpa using this

example : ∃ data₃, GoodCall (demoOpts "linear" false (some "other")) "lev" 2 (fun _ => 0) demoB 100000 [60000] demoPs data₃ ∧
    ∀ i k, levelValue "lev" data₃ i k = .fin 3 * levelValue "lev" demoData i k + .fin 2 * levelValue "lev" pressureData i k := by
  have h := demo_good "linear" (Or.inl rfl) false [60000] (by simp) (Or.inl (by simp)) (by simp)
  refine ⟨⟨["lat", "lev"], fun _ => 2, fun i => .fin 3 * demoData.get i + .fin 2 * pressureData.get i⟩,
    { accepted := h.accepted, grid := ⟨h.grid.two, h.grid.levNew, h.grid.plevNew, h.grid.perm, rfl, fun d _ => by simp [demoPs], h.grid.wf⟩,
      nonempty := h.nonempty, sorted := h.sorted, distinct := h.distinct, positive := h.positive }, fun i k => rfl⟩

/-! ### sigma levels to hybrid levels -/

theorem SigmaCall.mem_s {method lev hd : String} {n : ℕ} {s : ℕ → ℝ} {m : ℕ} {a b : ℕ → ℝ} {p0 : ℝ} {ps : LArr ℝ} {data : LArr (XF ℝ)}
    (h : SigmaCall method lev hd n s m a b p0 ps data) (k : ℕ) (hk : k < n) : s k ∈ domainOf method := by
  unfold domainOf
  split_ifs with hm
  · exact (h.positive hm).1 k hk
  · trivial

theorem SigmaCall.mem_h {method lev hd : String} {n : ℕ} {s : ℕ → ℝ} {m : ℕ} {a b : ℕ → ℝ} {p0 : ℝ} {ps : LArr ℝ} {data : LArr (XF ℝ)}
    (h : SigmaCall method lev hd n s m a b p0 ps data) (i : String → ℕ) (hi : AtPoint ps i) (k : ℕ) (hk : k < m) :
    hybridSigma a b p0 ps i k ∈ domainOf method := by
  unfold domainOf
  split_ifs with hm
  · exact (h.positive hm).2 i hi k hk
  · trivial

theorem SigmaCall.outside_iff {method lev hd : String} {n : ℕ} {s : ℕ → ℝ} {m : ℕ} {a b : ℕ → ℝ} {p0 : ℝ} {ps : LArr ℝ} {data : LArr (XF ℝ)}
    (h : SigmaCall method lev hd n s m a b p0 ps data) (i : String → ℕ) (hi : AtPoint ps i) (k : ℕ) (hk : k < m) :
    Outside n (fun k => coordOf method (s k)) (coordOf method (hybridSigma a b p0 ps i k)) ↔ Outside n s (hybridSigma a b p0 ps i k) :=
  outside_transform _ _ (coordOf_mono method) n _ h.mem_s _ (h.mem_h i hi k hk)

/-- C127, sigma to hybrid: where the profile is `c + d * sigma` (method "linear") or `c + d * log sigma` (method "log") on the levels of
a column, the value at a hybrid level inside the column is `c + d * q` or `c + d * log q`, with `q` the sigma of that hybrid level. -/
theorem C127_sigma_profile_partial (levDim cf : Option String) (method lev hd : String) (hl : levDim = some lev ∨ levDim = none ∧ cf = some lev)
    (n : ℕ) (s : ℕ → ℝ) (m : ℕ) (a b : ℕ → ℝ) (p0 : ℝ) (ps : LArr ℝ) (data : LArr (XF ℝ))
    (h : SigmaCall method lev hd n s m a b p0 ps data) (hmn : m ≤ n) :
    ∃ out hlev, interpSigmaToHybrid Real.log levDim cf method p0 (column n s) data ps (vec hd m a) (vec hd m b) = .ok (out, hlev) ∧
      ∀ i, AtPoint ps i → i "hlev" < m → ¬ Outside n s (hybridSigma a b p0 ps i (i "hlev")) → ∀ c d : ℝ,
        (method = "linear" → (∀ k < n, levelValue lev data i k = .fin (c + d * s k)) →
          out.get i = .fin (c + d * hybridSigma a b p0 ps i (i "hlev"))) ∧
        (method = "log" → (∀ k < n, levelValue lev data i k = .fin (c + d * Real.log (s k))) →
          out.get i = .fin (c + d * Real.log (hybridSigma a b p0 ps i (i "hlev")))) := by
  obtain ⟨out, hlev, ho, hi, -⟩ := C21_columns_partial levDim cf method lev hd hl n s m a b p0 ps data h hmn
  refine ⟨out, hlev, ho, fun i hpt hm hno c d => ?_⟩
  have key := fun hp => interpAt_linear n _ _ c d hp _ _ (hi.value i hpt hm) (by rw [h.outside_iff i hpt _ hm]; exact hno)
  constructor
  · intro hme hp
    have hc : ∀ z, coordOf method z = z := fun z => by rw [hme]; simp [coordOf]
    simpa only [hc] using key (by simpa only [hc] using hp)
  · intro hme hp
    have hc : ∀ z, coordOf method z = Real.log z := fun z => by rw [hme]; simp [coordOf]
    simpa only [hc] using key (by simpa only [hc] using hp)

/-- C127, sigma to hybrid: interpolating `c * data₁ + d * data₂` gives `c` times the first result plus `d` times the second; and larger
columns give larger values. -/
theorem C127_sigma_combination_partial (levDim cf : Option String) (method lev hd : String)
    (hl : levDim = some lev ∨ levDim = none ∧ cf = some lev)
    (n : ℕ) (s : ℕ → ℝ) (m : ℕ) (a b : ℕ → ℝ) (p0 : ℝ) (ps : LArr ℝ) (data₁ data₂ data₃ : LArr (XF ℝ))
    (h₁ : SigmaCall method lev hd n s m a b p0 ps data₁) (h₂ : SigmaCall method lev hd n s m a b p0 ps data₂)
    (h₃ : SigmaCall method lev hd n s m a b p0 ps data₃) (hmn : m ≤ n) :
    ∃ out₁ out₂ out₃ hlev,
      interpSigmaToHybrid Real.log levDim cf method p0 (column n s) data₁ ps (vec hd m a) (vec hd m b) = .ok (out₁, hlev) ∧
      interpSigmaToHybrid Real.log levDim cf method p0 (column n s) data₂ ps (vec hd m a) (vec hd m b) = .ok (out₂, hlev) ∧
      interpSigmaToHybrid Real.log levDim cf method p0 (column n s) data₃ ps (vec hd m a) (vec hd m b) = .ok (out₃, hlev) ∧
      ∀ i, AtPoint ps i → i "hlev" < m → FullColumn lev n data₁ i → FullColumn lev n data₂ i →
        (∀ c d : ℝ,
          (∀ k < n, levelValue lev data₃ i k = .fin c * levelValue lev data₁ i k + .fin d * levelValue lev data₂ i k) →
          out₃.get i = .fin c * out₁.get i + .fin d * out₂.get i) ∧
        (¬ Outside n s (hybridSigma a b p0 ps i (i "hlev")) →
          (∀ k < n, ∀ f g, levelValue lev data₁ i k = .fin f → levelValue lev data₂ i k = .fin g → f ≤ g) →
          ∃ u v, out₁.get i = .fin u ∧ out₂.get i = .fin v ∧ u ≤ v) := by
  obtain ⟨out₁, hlev₁, ho₁, hi₁, e₁⟩ := C21_columns_partial levDim cf method lev hd hl n s m a b p0 ps data₁ h₁ hmn
  obtain ⟨out₂, hlev₂, ho₂, hi₂, e₂⟩ := C21_columns_partial levDim cf method lev hd hl n s m a b p0 ps data₂ h₂ hmn
  obtain ⟨out₃, hlev₃, ho₃, hi₃, e₃⟩ := C21_columns_partial levDim cf method lev hd hl n s m a b p0 ps data₃ h₃ hmn
  refine ⟨out₁, out₂, out₃, hlev₁, ho₁, by rw [ho₂, e₁, e₂], by rw [ho₃, e₁, e₃], fun i hpt hm hf hg => ?_⟩
  have hdis := distinct_transform _ _ (coordOf_mono method) n _ h₁.mem_s h₁.distinct
  choose! f hf using hf
  choose! g hg using hg
  constructor
  · intro c d hcomb
    exact interpAt_combine n _ hdis _ _ _ f g c d hf hg
      (fun k hk => by rw [hcomb k hk, hf k hk, hg k hk]; simp) _ _ _ _ (hi₁.value i hpt hm) (hi₂.value i hpt hm) (hi₃.value i hpt hm)
  · intro hno hle
    refine interpAt_mono n _ hdis _ _ f g hf hg (fun k hk => hle k hk _ _ (hf k hk) (hg k hk)) _ _ _ (hi₁.value i hpt hm)
      (hi₂.value i hpt hm) ?_
    rw [h₁.outside_iff i hpt _ hm]
    exact hno

/-- C11, by calls: the pressure field on sigma levels (`sigma * ps`), interpolated linearly to hybrid levels, is the field
that `pressure_at_hybrid_levels` gives, at every hybrid level inside the sigma levels and every grid point with non-zero surface
pressure. -/
theorem C11_pressure_field (levDim cf : Option String) (lev hd : String) (hl : levDim = some lev ∨ levDim = none ∧ cf = some lev)
    (n : ℕ) (s : ℕ → ℝ) (m : ℕ) (a b : ℕ → ℝ) (p0 : ℝ) (ps : LArr ℝ) (data : LArr (XF ℝ))
    (h : SigmaCall "linear" lev hd n s m a b p0 ps data) (hmn : m ≤ n)
    (hdata : ∀ i, AtPoint ps i → ∀ k < n, levelValue lev data i k = .fin (s k * ps.get i)) :
    ∃ out hlev p, interpSigmaToHybrid Real.log levDim cf "linear" p0 (column n s) data ps (vec hd m a) (vec hd m b) = .ok (out, hlev) ∧
      pressureXr ps (vec hd m a) (vec hd m b) p0 = .ok p ∧
      ∀ i, AtPoint ps i → i "hlev" < m → ps.get i ≠ 0 → ¬ Outside n s (hybridSigma a b p0 ps i (i "hlev")) →
        out.get i = .fin (p.get (Function.update i hd (i "hlev"))) := by
  obtain ⟨out, hlev, ho, hi⟩ := C127_sigma_profile_partial levDim cf "linear" lev hd hl n s m a b p0 ps data h hmn
  obtain ⟨p, hp, -, -, -, hv⟩ := C08_xarray ps hd hd m a b p0 h.hdNew h.grid.wf
  refine ⟨out, hlev, p, ho, hp, fun i hpt hm hne hno => ?_⟩
  have := (hi i hpt hm hno 0 (ps.get i)).1 rfl (fun k hk => by rw [hdata i hpt k hk, zero_add, mul_comm])
  rw [this, hv]
  have hps : ps.get (Function.update i hd (i "hlev")) = ps.get i := by
    apply h.grid.wf
    intro f hf
    rw [Function.update_of_ne]
    exact fun he => h.hdNew (he ▸ hf)
  rw [hps]
  simp only [Function.update_self, hybridSigma, zero_add]
  congr 1
  field_simp

/-- the pressure on three sigma levels over two latitudes -/
noncomputable def sigmaPressure : LArr (XF ℝ) :=
  ⟨["lat", "lev"], fun d => if d = "lev" then 3 else 2, fun i => .fin (((i "lev" : ℝ) + 1) / 4 * (if i "lat" = 0 then 100000 else 80000))⟩

example : ∃ out hlev p, interpSigmaToHybrid Real.log (some "lev") none "linear" 100000 (column 3 (fun k => ((k : ℝ) + 1) / 4)) sigmaPressure sigmaPs
    (vec "hyb" 2 (fun _ => 0)) (vec "hyb" 2 (fun k => ((k : ℝ) + 1) / 5)) = .ok (out, hlev) ∧
    pressureXr sigmaPs (vec "hyb" 2 (fun _ => 0)) (vec "hyb" 2 (fun k => ((k : ℝ) + 1) / 5)) 100000 = .ok p ∧
    out.get (fun d => if d = "hyb" then 0 else 1) = .fin (p.get (fun _ => 1)) := by
  have h := sigma_demo_call 2 (by norm_num)
  obtain ⟨out, hlev, p, h1, h2, h3⟩ := C11_pressure_field (some "lev") none "lev" "hyb" (Or.inl rfl) 3 (fun k => ((k : ℝ) + 1) / 4) 2 (fun _ => 0)
    (fun k => ((k : ℝ) + 1) / 5) 100000 sigmaPs sigmaPressure
    { known := h.known, grid := ⟨h.grid.two, h.grid.levNew, h.grid.hlevNew, h.grid.perm, by simp [sigmaPressure], by
        intro d hd; simp [sigmaPs] at hd; subst hd; simp [sigmaPs, sigmaPressure], h.grid.wf⟩, hdNew := h.hdNew,
      levels := h.levels, distinct := h.distinct, sorted := h.sorted, positive := h.positive } (by norm_num)
    (fun i _ k _ => by simp [levelValue, sigmaPressure, sigmaPs])
  refine ⟨out, hlev, p, h1, h2, ?_⟩
  have := h3 (fun d => if d = "hyb" then 0 else 1) (by intro d hd; simp [sigmaPs] at hd; subst hd; simp [sigmaPs]) (by simp) (by simp [sigmaPs]) (by
    simp only [hybridSigma]
    rintro (ho | ho)
    · have := ho 0 (by norm_num); simp at this; norm_num at this
    · have := ho 2 (by norm_num); simp at this; norm_num at this)
  rw [this]
  congr 2
  funext d
  by_cases hd : d = "hyb" <;> simp [hd, Function.update]

end Verif.Props
