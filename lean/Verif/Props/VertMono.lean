import Verif.Props.VertLinear

/-
Property C136: vertical interpolation keeps monotone profiles monotone and does not steepen them.
-/

set_option linter.unusedSectionVars false
namespace Verif.Props
open Model Spec Lemmas

section
variable {K : Type _} [Field K] [LinearOrder K] [IsStrictOrderedRing K]

theorem line_between (p f : ℕ → K) (x : K) (i j : ℕ) (hp : p i < p j) (h1 : p i ≤ x) (h2 : x ≤ p j) (hf : f i ≤ f j) :
    f i ≤ line p f x i j ∧ line p f x i j ≤ f j := by
  have hpos : 0 < p j - p i := sub_pos.mpr hp
  have t0 : 0 ≤ (x - p i) / (p j - p i) := div_nonneg (sub_nonneg.mpr h1) hpos.le
  have t1 : (x - p i) / (p j - p i) ≤ 1 := by rw [div_le_one hpos]; linarith
  simp only [line]
  generalize (x - p i) / (p j - p i) = t at t0 t1
  have hd : 0 ≤ f j - f i := sub_nonneg.mpr hf
  constructor
  · have := mul_nonneg hd t0
    linarith
  · have := mul_le_mul_of_nonneg_left t1 hd
    linarith

/-- values of a monotone profile at two places -/
theorem line_monotone (n : ℕ) (p f : ℕ → K) (hm : ∀ k < n, ∀ l < n, p k < p l → f k ≤ f l) (hd : Distinct n p) (x x' : K) (hx : x ≤ x') (i j k l : ℕ)
    (h : Bracket n p x i j) (h' : Bracket n p x' k l) : line p f x i j ≤ line p f x' k l := by
  obtain ⟨h1, h2, h3, h4, h5, h6⟩ := h
  obtain ⟨g1, g2, g3, g4, g5, g6⟩ := h'
  by_cases hik : p j ≤ p k
  · have a1 := (line_between p f x i j h3 h4 h5 (hm i h1 j h2 h3)).2
    have a2 := (line_between p f x' k l g3 g4 g5 (hm k g1 l g2 g3)).1
    have a3 : f j ≤ f k := by
      rcases hik.lt_or_eq with h | h
      · exact hm j h2 k g1 h
      · rw [hd j h2 k g1 h]
    exact a1.trans (a3.trans a2)
  · have hkj : p k < p j := not_le.mp hik
    have hki : p k ≤ p i := not_lt.mp fun hh => h6 k g1 ⟨hh, hkj⟩
    rcases hki.lt_or_eq with hlt | heq
    · -- `p l ≤ p i ≤ x ≤ x' ≤ p l`
      have hli : p l ≤ p i := not_lt.mp fun hh => g6 i h1 ⟨hlt, hh⟩
      have hxe : x' = p l := le_antisymm g5 (hli.trans (h4.trans hx))
      have hxi : x = p i := le_antisymm (hx.trans (g5.trans hli)) h4
      have hil : p l = p i := le_antisymm hli (hxi ▸ hxe ▸ hx)
      have := hd l g2 i h1 hil
      subst this
      rw [hxe, hxi, line_left, line_right p f k l g3]
    · have := hd k g1 i h1 heq
      subst this
      have hjl : j = l := by
        rcases lt_trichotomy (p j) (p l) with a | a | a
        · exact absurd ⟨h3, a⟩ (g6 j h2)
        · exact hd j h2 l g2 a
        · exact absurd ⟨g3, a⟩ (h6 l g2)
      subst hjl
      have hpos : 0 < p j - p k := sub_pos.mpr h3
      simp only [line]
      have hdf : 0 ≤ f j - f k := sub_nonneg.mpr (hm k g1 j h2 h3)
      have : (x - p k) / (p j - p k) ≤ (x' - p k) / (p j - p k) := div_le_div_of_nonneg_right (by linarith) hpos.le
      have := mul_le_mul_of_nonneg_left this hdf
      linarith

theorem line_comb (p f : ℕ → K) (c d : K) (x : K) (i j : ℕ) (h : p i < p j) :
    line p (fun k => c * p k + d * f k) x i j = c * x + d * line p f x i j := by
  have hne : p j - p i ≠ 0 := (sub_pos.mpr h).ne'
  simp only [line]
  field_simp
  ring

/-- monotone, antitone and Lipschitz profiles -/
theorem interpAt_two (n : ℕ) (p : ℕ → K) (hd : Distinct n p) (v : ℕ → XF K) (f : ℕ → K) (hv : ∀ k < n, v k = .fin (f k)) (x x' : K) (hx : x ≤ x')
    (y y' : XF K) (h : InterpAt n p v x y) (h' : InterpAt n p v x' y') (ho : ¬ Outside n p x) (ho' : ¬ Outside n p x') :
    ∃ a b, y = .fin a ∧ y' = .fin b ∧ ((∀ k < n, ∀ l < n, p k < p l → f k ≤ f l) → a ≤ b) ∧
      ((∀ k < n, ∀ l < n, p k < p l → f l ≤ f k) → b ≤ a) ∧
      ∀ L, (∀ k < n, ∀ l < n, |f l - f k| ≤ L * |p l - p k|) → |b - a| ≤ L * |x' - x| := by
  obtain ⟨i, j, hb⟩ := interpAt_bracket n p v x y h ho
  obtain ⟨k, l, hb'⟩ := interpAt_bracket n p v x' y' h' ho'
  have key := fun (c d : K) (hm : ∀ k < n, ∀ l < n, p k < p l → c * p k + d * f k ≤ c * p l + d * f l) => by
    have := line_monotone n p (fun k => c * p k + d * f k) hm hd x x' hx i j k l hb hb'
    rwa [line_comb p f c d x i j hb.2.2.1, line_comb p f c d x' k l hb'.2.2.1] at this
  refine ⟨_, _, interpAt_line n p hd v f hv x y h i j hb, interpAt_line n p hd v f hv x' y' h' k l hb', fun hm => ?_, fun hm => ?_, fun L hL => ?_⟩
  · have := key 0 1 (fun k hk l hl hkl => by simpa using hm k hk l hl hkl)
    simpa using this
  · have := key 0 (-1) (fun k hk l hl hkl => by simpa using hm k hk l hl hkl)
    simpa using this
  · have h1 := key L 1 (fun k hk l hl hkl => by
      have := hL k hk l hl
      rw [abs_of_pos (sub_pos.mpr hkl)] at this
      have := neg_abs_le (f l - f k)
      linarith)
    have h2 := key L (-1) (fun k hk l hl hkl => by
      have := hL k hk l hl
      rw [abs_of_pos (sub_pos.mpr hkl)] at this
      have := le_abs_self (f l - f k)
      linarith)
    rw [abs_of_nonneg (sub_nonneg.mpr hx), abs_le]
    constructor <;> linarith

end

/-- the columns at two index tuples that differ at most in the level are the same -/
theorem same_column (lev : String) (n : ℕ) (ps : LArr ℝ) (data : LArr (XF ℝ)) (hperm : (lev :: ps.dims).Perm data.dims) (hw : data.WF)
    (i j : String → ℕ) (h : ∀ d ∈ ps.dims, i d = j d) (k : ℕ) : levelValue lev data i k = levelValue lev data j k := by
  unfold levelValue
  apply hw
  intro d hd
  rcases List.mem_cons.mp (hperm.mem_iff.mpr hd) with rfl | hd
  · simp
  · by_cases he : d = lev
    · subst he; simp
    · rw [Function.update_of_ne he, Function.update_of_ne he, h d hd]

/-- C136, hybrid to pressure: at one grid point, inside the column, a profile that increases (decreases) with pressure gives values that
increase (decrease) with the requested pressure; and if the profile changes by at most `L` per unit of the method's coordinate `t`
(pressure or its logarithm), so do the interpolated values. -/
theorem C136_hybrid (o : HybridOpts) (lev e : String) (n : ℕ) (a b : ℕ → ℝ) (p0 : ℝ) (x : List ℝ) (ps : LArr ℝ) (data : LArr (XF ℝ))
    (h : GoodCall o lev n a b p0 x ps data) (hw : data.WF) (hx : o.extrapolate = false) (chunks : Option (String → List ℕ)) (others : Bool)
    (hv : ValidChunks data chunks others) (labels : List ℝ) (tBot phi : LArr (XF ℝ)) :
    ∃ out, interpHybridToPressure o p0 x chunks others labels data ps (vec lev n a) (vec e n b) tBot phi = .ok out ∧
      ∀ i j, AtPoint ps i → (∀ d ∈ ps.dims, i d = j d) → ∀ y z, x[i "plev"]? = some y → x[j "plev"]? = some z → y ≤ z →
        ¬ Outside n (levelPressure a b p0 ps i) y → ¬ Outside n (levelPressure a b p0 ps i) z →
        ∀ f : ℕ → ℝ, (∀ k < n, levelValue lev data i k = .fin (f k)) →
        ∃ u v, out.get i = .fin u ∧ out.get j = .fin v ∧
          ((∀ k < n, ∀ l < n, levelPressure a b p0 ps i k < levelPressure a b p0 ps i l → f k ≤ f l) → u ≤ v) ∧
          ((∀ k < n, ∀ l < n, levelPressure a b p0 ps i k < levelPressure a b p0 ps i l → f l ≤ f k) → v ≤ u) ∧
          let t : ℝ → ℝ := if o.method = "log" then Real.log else id
          ∀ L, (∀ k < n, ∀ l < n, |f l - f k| ≤ L * |t (levelPressure a b p0 ps i l) - t (levelPressure a b p0 ps i k)|) →
            |v - u| ≤ L * |t z - t y| := by
  obtain ⟨out, ho, hi⟩ := call_spec o lev e n a b p0 x ps data h hx chunks others hv labels tBot phi
  refine ⟨out, ho, fun i j hpt hij y z hy hz hyz hno hnoz f hf => ?_⟩
  have hptj : AtPoint ps j := fun d hd => hij d hd ▸ hpt d hd
  have hP : levelPressure a b p0 ps j = levelPressure a b p0 ps i := by
    funext k
    unfold levelPressure
    rw [h.grid.wf i j hij]
  have hV : levelValue lev data j = levelValue lev data i := funext fun k => (same_column lev n ps data h.grid.perm hw i j hij k).symm
  have hvi := hi.value i hpt y hy
  have hvj := hi.value j hptj z hz
  rw [hP, hV] at hvj
  have my := h.mem_x y (List.mem_of_getElem? hy)
  have mz := h.mem_x z (List.mem_of_getElem? hz)
  have oy := (outside_transform _ _ (coordOf_mono o.method) n _ (h.mem_p i hpt) _ my).not.mpr hno
  have oz := (outside_transform _ _ (coordOf_mono o.method) n _ (h.mem_p i hpt) _ mz).not.mpr hnoz
  have hyz' : coordOf o.method y ≤ coordOf o.method z := (coordOf_mono o.method).monotoneOn my mz hyz
  obtain ⟨u, v, hu, hv, hm1, hm2, hL⟩ := interpAt_two n _ (h.coordDistinct i hpt) _ f hf _ _ hyz' _ _ hvi hvj oy oz
  refine ⟨u, v, hu, hv, fun hm => hm1 fun k hk l hl hkl => hm k hk l hl ?_, fun hm => hm2 fun k hk l hl hkl => hm k hk l hl ?_, hL⟩
  · exact ((coordOf_mono o.method).lt_iff_lt (h.mem_p i hpt k hk) (h.mem_p i hpt l hl)).mp hkl
  · exact ((coordOf_mono o.method).lt_iff_lt (h.mem_p i hpt k hk) (h.mem_p i hpt l hl)).mp hkl

/-- C136, sigma to hybrid: the same in the sigma coordinate. Part: for at most as many hybrid as sigma levels; for more the call fails (C21). -/
theorem C136_sigma_partial (levDim cf : Option String) (method lev hd : String) (hl : levDim = some lev ∨ levDim = none ∧ cf = some lev)
    (n : ℕ) (s : ℕ → ℝ) (m : ℕ) (a b : ℕ → ℝ) (p0 : ℝ) (ps : LArr ℝ) (data : LArr (XF ℝ))
    (h : SigmaCall method lev hd n s m a b p0 ps data) (hw : data.WF) (hmn : m ≤ n) :
    ∃ out hlev, interpSigmaToHybrid Real.log levDim cf method p0 (column n s) data ps (vec hd m a) (vec hd m b) = .ok (out, hlev) ∧
      ∀ i j, AtPoint ps i → (∀ d ∈ ps.dims, i d = j d) → i "hlev" < m → j "hlev" < m →
        let y := hybridSigma a b p0 ps i (i "hlev")
        let z := hybridSigma a b p0 ps i (j "hlev")
        y ≤ z → ¬ Outside n s y → ¬ Outside n s z →
        ∀ f : ℕ → ℝ, (∀ k < n, levelValue lev data i k = .fin (f k)) →
        ∃ u v, out.get i = .fin u ∧ out.get j = .fin v ∧
          ((∀ k < n, ∀ l < n, s k < s l → f k ≤ f l) → u ≤ v) ∧
          ((∀ k < n, ∀ l < n, s k < s l → f l ≤ f k) → v ≤ u) ∧
          let t : ℝ → ℝ := if method = "log" then Real.log else id
          ∀ L, (∀ k < n, ∀ l < n, |f l - f k| ≤ L * |t (s l) - t (s k)|) → |v - u| ≤ L * |t z - t y| := by
  obtain ⟨out, hlev, ho, hi, -⟩ := C21_columns_partial levDim cf method lev hd hl n s m a b p0 ps data h hmn
  refine ⟨out, hlev, ho, fun i j hpt hij hmi hmj hyz hno hnoz f hf => ?_⟩
  have hptj : AtPoint ps j := fun d hd => hij d hd ▸ hpt d hd
  have hS : hybridSigma a b p0 ps j = hybridSigma a b p0 ps i := by
    funext k
    unfold hybridSigma
    rw [h.grid.wf i j hij]
  have hV : levelValue lev data j = levelValue lev data i := funext fun k => (same_column lev n ps data h.grid.perm hw i j hij k).symm
  have hdis := distinct_transform _ _ (coordOf_mono method) n _ h.mem_s h.distinct
  have hvi := hi.value i hpt hmi
  have hvj := hi.value j hptj hmj
  have oy := (h.outside_iff i hpt _ hmi).not.mpr hno
  have oz := (h.outside_iff j hptj _ hmj).not.mpr (by rw [hS]; exact hnoz)
  have my := h.mem_h i hpt _ hmi
  have mz := h.mem_h j hptj _ hmj
  rw [hS] at hvj oz mz
  rw [hV] at hvj
  have hyz' := (coordOf_mono method).monotoneOn my mz hyz
  obtain ⟨u, v, hu, hv, hm1, hm2, hL⟩ := interpAt_two n _ hdis _ f hf _ _ hyz' _ _ hvi hvj oy oz
  refine ⟨u, v, hu, hv, fun hm => hm1 fun k hk l hl hkl => hm k hk l hl ?_, fun hm => hm2 fun k hk l hl hkl => hm k hk l hl ?_, hL⟩
  · exact ((coordOf_mono method).lt_iff_lt (h.mem_s k hk) (h.mem_s l hl)).mp hkl
  · exact ((coordOf_mono method).lt_iff_lt (h.mem_s k hk) (h.mem_s l hl)).mp hkl

/-- the demonstration data decrease with pressure: the value at 80000 Pa is at most that at 60000 Pa -/
example : ∃ out, interpHybridToPressure (demoOpts "linear" false (some "other")) 100000 [60000, 80000] none false [1, 2] demoData demoPs
    (vec "lev" 2 (fun _ => 0)) (vec "lev" 2 demoB) demoData demoData = .ok out ∧
    ∃ u v, out.get (fun _ => 0) = .fin u ∧ out.get (fun d => if d = "lat" then 0 else 1) = .fin v ∧ v ≤ u := by
  have hg := demo_good "linear" (Or.inl rfl) false [60000, 80000] (by simp) (Or.inl (by simp; norm_num)) (by simp)
  obtain ⟨out, h1, h2⟩ := C136_hybrid _ "lev" "lev" 2 _ _ _ _ _ _ hg (by
    intro i j hij
    have := hij "lev" (by simp [demoData])
    simp [demoData, this]) rfl none false rfl [1, 2] demoData demoData
  refine ⟨out, h1, ?_⟩
  obtain ⟨u, v, hu, hv, -, hm, -⟩ := h2 (fun _ => 0) (fun d => if d = "lat" then 0 else 1) (by intro d hd; simp [demoPs]) (by
      intro d hd; simp [demoPs] at hd; simp [hd]) 60000 80000 (by simp) (by simp) (by norm_num) (by
    rintro (ho | ho)
    · have := ho 1 (by norm_num)
      rw [demo_pressure] at this
      simp at this
      linarith
    · have := ho 0 (by norm_num)
      rw [demo_pressure] at this
      simp at this
      linarith) (by
    rintro (ho | ho)
    · have := ho 1 (by norm_num)
      rw [demo_pressure] at this
      simp at this
      linarith
    · have := ho 0 (by norm_num)
      rw [demo_pressure] at this
      simp at this
      linarith) (fun k => 10 * ((k : ℝ) + 1)) (fun k _ => by simp [levelValue, demoData])
  refine ⟨u, v, hu, hv, hm fun k hk l hl hkl => ?_⟩
  rw [demo_pressure, demo_pressure] at hkl
  rcases (by omega : k = 0 ∨ k = 1) with rfl | rfl <;> rcases (by omega : l = 0 ∨ l = 1) with rfl | rfl <;> simp at hkl ⊢ <;> linarith

end Verif.Props
