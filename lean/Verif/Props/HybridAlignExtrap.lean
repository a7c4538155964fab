import Verif.Props.HybridAlign

/-
Property C185: which level counts as the lowest one when the labels of the data and of the coefficients differ.
-/

set_option linter.unusedSectionVars false
namespace Verif.Props
open Verif Model Spec Lemmas
section
variable {K : Type} [Field K] [LinearOrder K] [IsStrictOrderedRing K]

theorem argmaxFrom_max (l : List K) : ∀ (pos best : ℕ) (m : K) (pre : List K), pre.length = pos → pre[best]? = some m →
    (∀ y ∈ pre, y ≤ m) → ∃ v, (pre ++ l)[argmaxFrom pos best m l]? = some v ∧ ∀ y ∈ pre ++ l, y ≤ v := by
  induction l with
  | nil =>
    intro pos best m pre hp hb hm
    exact ⟨m, by simpa [argmaxFrom] using hb, by simpa using hm⟩
  | cons c l ih =>
    intro pos best m pre hp hb hm
    have happ : pre ++ c :: l = (pre ++ [c]) ++ l := by simp
    unfold argmaxFrom
    split_ifs with hlt
    · rw [happ]
      refine ih (pos + 1) pos c (pre ++ [c]) (by simp [hp]) (by simp [← hp]) ?_
      intro y hy
      simp only [List.mem_append, List.mem_singleton] at hy
      rcases hy with hy | rfl
      · exact (hm y hy).trans hlt.le
      · exact le_refl _
    · rw [happ]
      refine ih (pos + 1) best m (pre ++ [c]) (by simp [hp]) ?_ ?_
      · rw [List.getElem?_append_left (by
          by_contra hge
          rw [List.getElem?_eq_none (not_lt.mp hge)] at hb
          cases hb)]
        exact hb
      · intro y hy
        simp only [List.mem_append, List.mem_singleton] at hy
        rcases hy with hy | rfl
        · exact hm y hy
        · exact not_lt.mp hlt

/-- the position found holds the largest label -/
theorem argmax_max (l : List K) (h : l ≠ []) : ∃ μ, l[argmax l]? = some μ ∧ ∀ y ∈ l, y ≤ μ := by
  cases l with
  | nil => exact absurd rfl h
  | cons y ys =>
    have := argmaxFrom_max ys 1 0 y [y] rfl rfl (by simp)
    simpa [argmax] using this

/-- C185, with extrapolation: when the labels of the points agree, the call returns. The level taken as the lowest one is the level of the
largest label *of the coefficients* (`hyam`), whatever the labels of `data`. Above its pressure (included) the result is the one without
extrapolation, below it is the value of `data` at that position. -/
theorem C185_extrapolate_values (g : K → K) (S : Set K) (lev : String) (n : ℕ) (hn : 0 < n) (a b : ℕ → K) (ia ib : String → Option (List K))
    (hab : ia lev = ib lev) (l : List K) (hl : ia lev = some l) (hln : l.length = n) (p0 : K) (x : List K) (ps : IArr K K) (data : IArr K (XF K))
    (h : LevelData lev n ps.arr data.arr) (hc : ColumnsOk g S n a b p0 x ps.arr) (hpts : ∀ d ∈ ps.arr.dims, ps.index d = data.index d)
    (hlab : (data.index lev).isSome) :
    ∃ r out low μ, interpHybridIdx g lev p0 x false data ps ⟨vec lev n a, ia⟩ ⟨vec lev n b, ib⟩ = .ok r ∧
      interpHybridIdx g lev p0 x true data ps ⟨vec lev n a, ia⟩ ⟨vec lev n b, ib⟩ = .ok out ∧ out.arr.dims = r.arr.dims ∧ out.arr.size = r.arr.size ∧
      out.index = r.index ∧ l[low]? = some μ ∧ (∀ y ∈ l, y ≤ μ) ∧
      ∀ i, AtPoint ps.arr i → ∀ y, x[i "plev"]? = some y →
        (y ≤ Spec.levelPressure a b p0 ps.arr i low → out.arr.get i = r.arr.get i) ∧
        (Spec.levelPressure a b p0 ps.arr i low < y → out.arr.get i = levelValue lev data.arr i low) := by
  obtain ⟨μ, hμ, hmax⟩ := argmax_max l (by rintro rfl; simp at hln; omega)
  have hlow : argmax l < n := by
    by_contra hge
    rw [List.getElem?_eq_none (by omega)] at hμ
    cases hμ
  obtain ⟨P, h1, h2, h3, h4, h5, h6, h7⟩ := pressureIdx_spec ps lev n a b ia ib p0 h.levNew h.wf _ _ (by rw [hab]; exact joinLabels_same n _) (by
    intro e he
    simp only [List.mem_map, List.mem_range] at he
    obtain ⟨k, hk, rfl⟩ := he
    exact hk)
  obtain ⟨r, hr, -⟩ := C185_by_position g S lev n a b ia ib hab p0 x ps data h hc
  have m1 : lev ∈ data.arr.dims := h.perm.mem_iff.mp (by simp)
  have m2 : P.arr.dims.Perm data.arr.dims := h2 ▸ h.perm
  have m3 : ∀ d ∈ data.arr.dims, P.arr.size d = data.arr.size d := by
    intro d hdm
    rcases List.mem_cons.mp (h.perm.mem_iff.mpr hdm) with rfl | hdm
    · rw [h3, h.sizeLev]; simp
    · rw [h4 d hdm, (h.sizes d hdm).1]
  have m4 : ∀ d ∈ data.arr.dims, d ≠ lev → exactOk (data.index d) (P.index d) = true := by
    intro d hdm hne
    have hd : d ∈ ps.arr.dims := by
      rcases List.mem_cons.mp (h.perm.mem_iff.mpr hdm) with rfl | hd
      · exact absurd rfl hne
      · exact hd
    rw [h6 d hd, hpts d hd]
    unfold exactOk
    cases data.index d <;> simp
  have hr' := hr
  unfold interpHybridIdx at hr'
  simp only [m1, not_true_eq_false, if_false, h1, m2, bind, Except.bind, pure, Except.pure, Bool.false_eq_true] at hr'
  rw [if_neg (not_not.mpr m3)] at hr'
  cases hI : interpAlong g lev x P.arr data.arr with
  | error e => rw [hI] at hr'; cases hr'
  | ok o =>
    rw [hI] at hr'
    simp only [Except.ok.injEq] at hr'
    subst hr'
    have hPl : P.index lev = some l := by rw [h5, ← hab, hl]
    refine ⟨_, ⟨remapExtrap lev x l P.arr (fun _ _ i => data.arr.get (Function.update i lev (argmax l))) o,
      fun d => if d = "plev" then (data.index lev).map (fun _ => x) else if d = lev then none else data.index d⟩, argmax l, μ, hr, ?_, rfl, rfl, rfl, hμ, hmax, ?_⟩
    · unfold interpHybridIdx
      simp only [m1, not_true_eq_false, if_false, h1, m2, bind, Except.bind, pure, Except.pure, if_true, hI]
      rw [if_neg (not_not.mpr m3), if_neg (not_not.mpr m4), hPl, hlab]
      rfl
    · intro i hi y hy
      have hne : ∀ d ∈ ps.arr.dims, d ≠ lev := fun d hd he => h.levNew (he ▸ hd)
      have hP : P.arr.get (Function.update i lev (argmax l)) = Spec.levelPressure a b p0 ps.arr i (argmax l) := by
        rw [h7 _ (by simpa using hlow) (fun d hd => by rw [Function.update_of_ne (hne d hd)]; exact hi d hd), Spec.levelPressure]
        simp only [Function.update_self]
        rw [diag_getD n _ hlow, h.wf _ i (fun d hd => Function.update_of_ne (hne d hd) _ _)]
      have hxy : x.getD (i "plev") 0 = y := by rw [List.getD_eq_getElem?_getD, hy]; rfl
      simp only [remapExtrap, hP, hxy]
      exact ⟨fun hle => if_pos hle, fun hlt => if_neg (not_le.mpr hlt)⟩

end

/-- the case: `data` lists its labels from the ground up, the coefficients from the top down -/
example : ∃ out, interpHybridIdx id "lev" 100000 [600] true (alignData [0, 10] [2, 1]) (alignPs [0, 10])
      ⟨vec "lev" 2 (fun _ => 0), fun _ => some [1, 2]⟩ ⟨vec "lev" 2 alignB, fun _ => some [1, 2]⟩ = .ok out := by
  obtain ⟨r, out, low, μ, -, ho, -⟩ := C185_extrapolate_values id Set.univ "lev" 2 (by omega) (fun _ => 0) alignB (fun _ => some [1, 2])
    (fun _ => some [1, 2]) rfl [1, 2] rfl rfl 100000 [600] (alignPs [0, 10]) (alignData [0, 10] [2, 1]) (align_levelData _ _ _) (align_columns _)
    (by intro d hd; have : d = "lat" := by simpa [alignPs] using hd
        subst this; rfl) rfl
  exact ⟨out, ho⟩

end Verif.Props
