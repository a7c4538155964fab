import Verif.Model.PearsonNd
import Verif.Lemmas.Pearson

/-
Lemmas for pearson_r along an axis: the values of the arrays after each step.
-/

namespace Verif.Lemmas
open Model Spec

/-- the array has shape `s` and value `g i` at every index in bounds -/
def TIs {α : Type} (x : Tensor α) (s : List ℕ) (g : List ℕ → α) : Prop := x.shape = s ∧ ∀ i, Tensor.InBounds s i → x.get i = g i

theorem bshapeRev_app (l e : List ℕ) : Tensor.bshapeRev (l ++ e) l = some (l ++ e) := by
  induction l with
  | nil => cases e <;> rfl
  | cons x l ih => simp [Tensor.bshapeRev, Tensor.bdim, ih]

theorem tis_zip {α β γ : Type} (f : α → β → γ) {x : Tensor α} {y : Tensor β} {s : List ℕ} {g : List ℕ → α} {h : List ℕ → β}
    (hx : TIs x s g) (hy : TIs y s h) : ∃ r, Tensor.zip f x y = .ok r ∧ TIs r s (fun i => f (g i) (h i)) := by
  obtain ⟨r, hr, h1, h2⟩ := Tensor.zip_same f x y (hx.1.trans hy.1.symm)
  refine ⟨r, hr, h1.trans hx.1, fun i hi => ?_⟩
  rw [h2 i (hx.1 ▸ hi), hx.2 i hi, hy.2 i hi]

theorem tis_zip_tail {α β γ : Type} (f : α → β → γ) {x : Tensor α} {y : Tensor β} {n : ℕ} {s : List ℕ} {g : List ℕ → α} {h : List ℕ → β}
    (hx : TIs x (n :: s) g) (hy : TIs y s h) : ∃ r, Tensor.zip f x y = .ok r ∧ TIs r (n :: s) (fun i => f (g i) (h i.tail)) := by
  have hb : Tensor.bshape (n :: s) s = some (n :: s) := by
    unfold Tensor.bshape
    rw [List.reverse_cons, bshapeRev_app]
    simp
  refine ⟨⟨n :: s, fun i => f (x.get (Tensor.bidx x.shape i)) (y.get (Tensor.bidx y.shape i))⟩, ?_, rfl, ?_⟩
  · simp only [Tensor.zip, hx.1, hy.1, hb]
  · intro i hi
    simp only [hx.1, hy.1, Tensor.bidx_of_inBounds hi, hx.2 i hi]
    cases hi with
    | @cons t _ j _ ht hj =>
      have hl : j.length = s.length := hj.length_eq
      have : Tensor.bidx s (t :: j) = j := by
        have e := Tensor.bidx_of_inBounds hj
        unfold Tensor.bidx at e ⊢
        rw [hl, Nat.sub_self, List.drop_zero] at e
        rw [List.length_cons, hl, Nat.add_sub_cancel_left]
        exact e
      rw [this, List.tail_cons, hy.2 j hj]

theorem tis_zip_tail_left {α β γ : Type} (f : α → β → γ) {x : Tensor α} {y : Tensor β} {n : ℕ} {s : List ℕ} {g : List ℕ → α} {h : List ℕ → β}
    (hx : TIs x s g) (hy : TIs y (n :: s) h) : ∃ r, Tensor.zip f x y = .ok r ∧ TIs r (n :: s) (fun i => f (g i.tail) (h i)) := by
  have hrev : ∀ l e : List ℕ, Tensor.bshapeRev l (l ++ e) = some (l ++ e) := by
    intro l e
    induction l with
    | nil => rfl
    | cons x l ih => simp [Tensor.bshapeRev, Tensor.bdim, ih]
  have hb : Tensor.bshape s (n :: s) = some (n :: s) := by
    unfold Tensor.bshape
    rw [List.reverse_cons, hrev]
    simp
  refine ⟨⟨n :: s, fun i => f (x.get (Tensor.bidx x.shape i)) (y.get (Tensor.bidx y.shape i))⟩, ?_, rfl, ?_⟩
  · simp only [Tensor.zip, hx.1, hy.1, hb]
  · intro i hi
    simp only [hx.1, hy.1, Tensor.bidx_of_inBounds hi, hy.2 i hi]
    cases hi with
    | @cons t _ j _ ht hj =>
      have hl : j.length = s.length := hj.length_eq
      have : Tensor.bidx s (t :: j) = j := by
        have e := Tensor.bidx_of_inBounds hj
        unfold Tensor.bidx at e ⊢
        rw [hl, Nat.sub_self, List.drop_zero] at e
        rw [List.length_cons, hl, Nat.add_sub_cancel_left]
        exact e
      rw [this, List.tail_cons, hx.2 j hj]

theorem tis_reduce {α : Type} (f : List α → α) {x : Tensor α} {n : ℕ} {s : List ℕ} {g : List ℕ → α} (hx : TIs x (n :: s) g) :
    TIs (reduce0 f x) s (fun j => f ((List.range n).map (fun t => g (t :: j)))) := by
  refine ⟨by simp [reduce0, hx.1], fun j hj => ?_⟩
  simp only [reduce0, column, hx.1, List.headD_cons]
  congr 1
  refine List.map_congr_left fun t ht => ?_
  exact hx.2 _ (List.Forall₂.cons (List.mem_range.mp ht) hj)

theorem inBounds_insert {s j : List ℕ} {k t : ℕ} (hk : k < s.length) (hj : Tensor.InBounds (s.eraseIdx k) j) (ht : t < s.getD k 0) :
    Tensor.InBounds s (j.insertIdx k t) := by
  induction s generalizing j k with
  | nil => simp at hk
  | cons d s ih =>
    cases k with
    | zero =>
      simp only [List.eraseIdx_cons_zero, List.getD_cons_zero] at hj ht
      rw [List.insertIdx_zero]
      exact List.Forall₂.cons ht hj
    | succ k =>
      simp only [List.eraseIdx_cons_succ, List.getD_cons_succ] at hj ht
      cases hj with
      | cons h1 h2 =>
        rw [List.insertIdx_succ_cons]
        exact List.Forall₂.cons h1 (ih (by simpa using hk) h2 ht)

theorem tis_roll {α : Type} {x : Tensor α} {s : List ℕ} {g : List ℕ → α} (hx : TIs x s g) {axis : ℤ} {k : ℕ} (hk : normAxis s.length axis = .ok k)
    (hk' : k < s.length) :
    ∃ r, rollaxis x axis = .ok r ∧ TIs r (s.getD k 0 :: s.eraseIdx k) (fun i => g (i.tail.insertIdx k (i.headD 0))) := by
  refine ⟨rollTensor k x, ?_, ?_, ?_⟩
  · simp only [rollaxis, hx.1, hk, bind, Except.bind, pure, Except.pure]
  · simp only [rollTensor, hx.1]
  · intro i hi
    cases hi with
    | cons h1 h2 => exact hx.2 _ (inBounds_insert hk' h2 h1)

/-- what is computed along one line with weights -/
noncomputable def wform (skip : Bool) (T : List ℕ) (u v z : ℕ → XF ℝ) : XF ℝ :=
  let ma := sumFunc skip (T.map (fun t => u t * z t)) / sumFunc skip (T.map z)
  let mb := sumFunc skip (T.map (fun t => v t * z t)) / sumFunc skip (T.map z)
  clipUnit (sumFunc skip (T.map (fun t => z t * (u t - ma) * (v t - mb))) /
    xSqrt (sumFunc skip (T.map (fun t => z t * (u t - ma) * (u t - ma))) * sumFunc skip (T.map (fun t => z t * (v t - mb) * (v t - mb)))))

/-- what is computed along one line without weights -/
noncomputable def uform (skip : Bool) (T : List ℕ) (u v : ℕ → XF ℝ) : XF ℝ :=
  let ma := meanFunc skip (T.map u)
  let mb := meanFunc skip (T.map v)
  clipUnit (sumFunc skip (T.map (fun t => (u t - ma) * (v t - mb))) /
    xSqrt (sumFunc skip (T.map (fun t => (u t - ma) * (u t - ma))) * sumFunc skip (T.map (fun t => (v t - mb) * (v t - mb)))))

theorem weightedNd_at {a b w : Tensor (XF ℝ)} {n : ℕ} {s : List ℕ} {u v z : List ℕ → XF ℝ} (ha : TIs a (n :: s) u) (hb : TIs b (n :: s) v)
    (hw : TIs w (n :: s) z) (skip : Bool) :
    ∃ r, weightedNd a b w skip = .ok r ∧
      TIs r s (fun j => wform skip (List.range n) (fun t => u (t :: j)) (fun t => v (t :: j)) (fun t => z (t :: j))) := by
  obtain ⟨aw, e1, h1⟩ := tis_zip (· * ·) ha hw
  obtain ⟨ma, e2, h2⟩ := tis_zip (· / ·) (tis_reduce (sumFunc skip) h1) (tis_reduce (sumFunc skip) hw)
  obtain ⟨bw, e3, h3⟩ := tis_zip (· * ·) hb hw
  obtain ⟨mb, e4, h4⟩ := tis_zip (· / ·) (tis_reduce (sumFunc skip) h3) (tis_reduce (sumFunc skip) hw)
  obtain ⟨am, e5, h5⟩ := tis_zip_tail (· - ·) ha h2
  obtain ⟨bm, e6, h6⟩ := tis_zip_tail (· - ·) hb h4
  obtain ⟨wa, e7, h7⟩ := tis_zip (· * ·) hw h5
  obtain ⟨wab, e8, h8⟩ := tis_zip (· * ·) h7 h6
  obtain ⟨waa, e9, h9⟩ := tis_zip (· * ·) h7 h5
  obtain ⟨wb, e10, h10⟩ := tis_zip (· * ·) hw h6
  obtain ⟨wbb, e11, h11⟩ := tis_zip (· * ·) h10 h6
  obtain ⟨den, e12, h12⟩ := tis_zip (fun x y => xSqrt (x * y)) (tis_reduce (sumFunc skip) h9) (tis_reduce (sumFunc skip) h11)
  obtain ⟨r, e13, h13⟩ := tis_zip (fun x y => clipUnit (x / y)) (tis_reduce (sumFunc skip) h8) h12
  refine ⟨r, ?_, h13.1, fun j hj => ?_⟩
  · simp only [weightedNd, e1, e2, e3, e4, e5, e6, e7, e8, e9, e10, e11, e12, e13, bind, Except.bind]
  · rw [h13.2 j hj]
    rfl

theorem unweightedNd_at {a b : Tensor (XF ℝ)} {n : ℕ} {s : List ℕ} {u v : List ℕ → XF ℝ} (ha : TIs a (n :: s) u) (hb : TIs b (n :: s) v)
    (skip : Bool) :
    ∃ r, unweightedNd a b skip = .ok r ∧ TIs r s (fun j => uform skip (List.range n) (fun t => u (t :: j)) (fun t => v (t :: j))) := by
  obtain ⟨am, e5, h5⟩ := tis_zip_tail (· - ·) ha (tis_reduce (meanFunc skip) ha)
  obtain ⟨bm, e6, h6⟩ := tis_zip_tail (· - ·) hb (tis_reduce (meanFunc skip) hb)
  obtain ⟨wab, e8, h8⟩ := tis_zip (· * ·) h5 h6
  obtain ⟨waa, e9, h9⟩ := tis_zip (· * ·) h5 h5
  obtain ⟨wbb, e11, h11⟩ := tis_zip (· * ·) h6 h6
  obtain ⟨den, e12, h12⟩ := tis_zip (fun x y => xSqrt (x * y)) (tis_reduce (sumFunc skip) h9) (tis_reduce (sumFunc skip) h11)
  obtain ⟨r, e13, h13⟩ := tis_zip (fun x y => clipUnit (x / y)) (tis_reduce (sumFunc skip) h8) h12
  refine ⟨r, ?_, h13.1, fun j hj => ?_⟩
  · simp only [unweightedNd, e5, e6, e8, e9, e11, e12, e13, bind, Except.bind]
  · rw [h13.2 j hj]
    rfl

theorem sum_nan (skip : Bool) (T : List ℕ) (g : ℕ → XF ℝ) (hs : skip = true ∨ T = []) (hg : ∀ t ∈ T, g t = .nan) :
    sumFunc skip (T.map g) = .fin 0 := by
  rcases hs with rfl | rfl
  · rw [List.map_congr_left hg]
    clear hg
    induction T with
    | nil => rfl
    | cons x T ih =>
      simp only [sumFunc, if_true, xSum, List.map_cons, List.foldr_cons, XF.isNaN_nan] at ih ⊢
      rw [ih]
      simp
  · cases skip <;> rfl

theorem wform_empty (skip : Bool) (T : List ℕ) (u v z : ℕ → XF ℝ) (hs : skip = true ∨ T = []) (hz : ∀ t ∈ T, z t = .nan) :
    wform skip T u v z = .nan := by
  have hnan : (XF.fin (0 : ℝ)) / .fin 0 = .nan := by rw [XF.fin_div_zero]; simp [XF.signInf]
  unfold wform
  simp only []
  rw [sum_nan skip T (fun t => z t * _ * _) hs (fun t ht => by rw [hz t ht, XF.nan_mul, XF.nan_mul]),
    sum_nan skip T (fun t => z t * _ * _) hs (fun t ht => by rw [hz t ht, XF.nan_mul, XF.nan_mul]),
    sum_nan skip T (fun t => z t * _ * _) hs (fun t ht => by rw [hz t ht, XF.nan_mul, XF.nan_mul])]
  simp [xSqrt, XF.fin_div_zero, XF.signInf, clipUnit]

theorem uform_empty (skip : Bool) (T : List ℕ) (u v : ℕ → XF ℝ) (hs : skip = true ∨ T = []) (hu : ∀ t ∈ T, u t = .nan) (hv : ∀ t ∈ T, v t = .nan) :
    uform skip T u v = .nan := by
  unfold uform
  simp only []
  rw [sum_nan skip T (fun t => (u t - _) * (v t - _)) hs (fun t ht => by rw [hu t ht, XF.nan_sub, XF.nan_mul]),
    sum_nan skip T (fun t => (u t - _) * (u t - _)) hs (fun t ht => by rw [hu t ht, XF.nan_sub, XF.nan_mul]),
    sum_nan skip T (fun t => (v t - _) * (v t - _)) hs (fun t ht => by rw [hv t ht, XF.nan_sub, XF.nan_mul])]
  simp [xSqrt, XF.fin_div_zero, XF.signInf, clipUnit]

theorem empty_cases {skip : Bool} {T : List ℕ} {v : ℕ → Option (ℝ × ℝ × ℝ)} (hs : skip = true ∨ ∀ t ∈ T, (v t).isSome = true)
    (he : T.filterMap v = []) : (skip = true ∨ T = []) ∧ ∀ (h : ℝ × ℝ × ℝ → ℝ), ∀ t ∈ T, lift v h t = .nan := by
  refine ⟨?_, fun h t ht => by unfold lift; rw [List.filterMap_eq_nil_iff.mp he t ht]⟩
  rcases hs with hs | hs
  · exact Or.inl hs
  · refine Or.inr (List.eq_nil_iff_forall_not_mem.mpr fun t ht => ?_)
    have := hs t ht
    rw [List.filterMap_eq_nil_iff.mp he t ht] at this
    cases this

theorem wform_value (skip : Bool) (T : List ℕ) (v : ℕ → Option (ℝ × ℝ × ℝ)) (hs : skip = true ∨ ∀ t ∈ T, (v t).isSome = true)
    (hpos : ∀ y ∈ T.filterMap v, 0 < y.1) :
    wform skip T (lift v (·.2.1)) (lift v (·.2.2)) (lift v (·.1)) = corrX (T.filterMap v) := by
  by_cases he : T.filterMap v = []
  · obtain ⟨h1, h2⟩ := empty_cases hs he
    rw [wform_empty skip T _ _ _ h1 (h2 _), he, corrX_nil]
  · have hW : ((T.filterMap v).map (·.1)).sum ≠ 0 := by
      rw [Ne, sum_zero_iff _ _ (fun y hy => (hpos y hy).le)]
      intro h
      obtain ⟨y, hy⟩ := List.exists_mem_of_ne_nil _ he
      exact (hpos y hy).ne' (h y hy)
    have h := tail_weights skip v T hs hW
    have hne : ¬ (T.map (lift v (·.1))).all XF.isNaN = true := by
      rw [all_nan_lift]
      exact he
    unfold pearsonTail at h
    simp only [checkWeights, if_neg hne, bcast2_maps, List.map_map, Function.comp_def, bind, Except.bind, pure, Except.pure, Except.ok.injEq] at h
    rw [← h]
    rfl

theorem uform_value (skip : Bool) (T : List ℕ) (v : ℕ → Option (ℝ × ℝ × ℝ)) (hs : skip = true ∨ ∀ t ∈ T, (v t).isSome = true)
    (h1 : ∀ y ∈ T.filterMap v, y.1 = 1) : uform skip T (lift v (·.2.1)) (lift v (·.2.2)) = corrX (T.filterMap v) := by
  by_cases he : T.filterMap v = []
  · obtain ⟨h1, h2⟩ := empty_cases hs he
    rw [uform_empty skip T _ _ h1 (h2 _) (h2 _), he, corrX_nil]
  · have h := tail_unweighted skip v T hs h1 he
    unfold pearsonTail at h
    simp only [checkWeights, bcast2_maps, List.map_map, Function.comp_def, bind, Except.bind, pure, Except.pure, Except.ok.injEq] at h
    rw [← h]
    rfl

end Verif.Lemmas
