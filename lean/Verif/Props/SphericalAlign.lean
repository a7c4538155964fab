import Verif.Model.SphericalAlign
import Verif.Lemmas.ExtrapAlign

/-
Property C189: spherical harmonic decomposition of DataArrays whose labels differ.
-/

set_option linter.unusedSectionVars false
namespace Verif.Props
open Verif Model Spec Lemmas Model.Spherical

/-- the point with label `a` along `d0` and `b` along `d1` -/
def point2 (d0 d1 : String) (a b : ℝ) : String → ℝ := fun d => if d = d0 then a else if d = d1 then b else 0

/-- `arr` is a 2-D array over `d0` and `d1`, in either order, labelled `la` and `lb` in any order, with the value `F a b` at the labels `a`, `b` -/
structure Grid2 (d0 d1 : String) (la lb : List ℝ) (arr : IArr ℝ ℝ) (F : ℝ → ℝ → ℝ) : Prop where
  lab : Labelled arr
  dims : arr.arr.dims = [d0, d1] ∨ arr.arr.dims = [d1, d0]
  rows : ∃ l, arr.index d0 = some l ∧ l.Perm la
  cols : ∃ l, arr.index d1 = some l ∧ l.Perm lb
  value : ∀ a ∈ la, ∀ b ∈ lb, At arr (point2 d0 d1 a b) (F a b)

theorem get_pos2 (d0 d1 : String) (hne : d0 ≠ d1) (la lb : List ℝ) (arr : IArr ℝ ℝ) (F : ℝ → ℝ → ℝ) (h : Grid2 d0 d1 la lb arr F) (l m : List ℝ)
    (el : arr.index d0 = some l) (em : arr.index d1 = some m) (i j : ℕ) (hi : i < l.length) (hj : j < m.length) :
    arr.arr.get (pos2 d0 d1 i j) = F l[i] m[j] ∧ arr.arr.get (pos2 d1 d0 j i) = F l[i] m[j] := by
  have hrow : l[i] ∈ la := by
    obtain ⟨l', e', p⟩ := h.rows
    rw [el] at e'
    cases e'
    exact p.mem_iff.mp (List.getElem_mem hi)
  have hcol : m[j] ∈ lb := by
    obtain ⟨l', e', p⟩ := h.cols
    rw [em] at e'
    cases e'
    exact p.mem_iff.mp (List.getElem_mem hj)
  have hmem : ∀ d ∈ arr.arr.dims, d = d0 ∨ d = d1 := by
    intro d hd
    rcases h.dims with e | e <;> rw [e] at hd <;> simp at hd <;> tauto
  have key : ∀ ix : String → ℕ, ix d0 = i → ix d1 = j → arr.arr.get ix = F l[i] m[j] := by
    intro ix h0 h1
    refine at_unique arr h.lab (point2 d0 d1 l[i] m[j]) _ _ ⟨ix, ?_, rfl⟩ (h.value _ hrow _ hcol)
    intro d hd
    rcases hmem d hd with rfl | rfl
    · exact ⟨l, el, by simp [h0, point2, hi]⟩
    · exact ⟨m, em, by simp [h1, point2, hne.symm, hj]⟩
  exact ⟨key _ (by simp [pos2]) (by simp [pos2, hne.symm]), key _ (by simp [pos2, hne]) (by simp [pos2])⟩

theorem sum_labels (l : List ℝ) (f : ℝ → ℂ) : (l.map f).sum = ∑ i ∈ Finset.range l.length, f (l.getD i 0) := by
  rw [← Fin.sum_univ_eq_sum_range (fun i => f (l.getD i 0)), ← List.sum_ofFn]
  congr 1
  apply List.ext_getElem
  · simp
  · intro k h1 h2
    simp at h1
    simp [h1]

/-- the sum over all pairs of labels -/
noncomputable def sumOver (la lb : List ℝ) (f : ℝ → ℝ → ℂ) : ℂ := (la.map (fun a => (lb.map (f a)).sum)).sum

theorem sumOver_range (la lb : List ℝ) (f : ℝ → ℝ → ℂ) :
    sumOver la lb f = ∑ i ∈ Finset.range la.length, ∑ j ∈ Finset.range lb.length, f (la.getD i 0) (lb.getD j 0) := by
  unfold sumOver
  rw [sum_labels]
  refine Finset.sum_congr rfl (fun i _ => ?_)
  rw [sum_labels]

theorem sumOver_perm (la lb la' lb' : List ℝ) (ha : la'.Perm la) (hb : lb'.Perm lb) (f : ℝ → ℝ → ℂ) : sumOver la' lb' f = sumOver la lb f := by
  unfold sumOver
  rw [(ha.map _).sum_eq]
  congr 1
  refine List.map_congr_left (fun a _ => ?_)
  exact (hb.map _).sum_eq

theorem grid2_total (d0 d1 : String) (hne : d0 ≠ d1) (la lb : List ℝ) (arr : IArr ℝ ℝ) (F : ℝ → ℝ → ℝ) (h : Grid2 d0 d1 la lb arr F) :
    total2 arr.arr d0 d1 = sumOver la lb (fun a b => (F a b : ℂ)) ∧ total2 arr.arr d1 d0 = sumOver la lb (fun a b => (F a b : ℂ)) := by
  obtain ⟨l, el, pl⟩ := h.rows
  obtain ⟨m, em, pm⟩ := h.cols
  have hm0 : d0 ∈ arr.arr.dims := by rcases h.dims with e | e <;> rw [e] <;> simp
  have hm1 : d1 ∈ arr.arr.dims := by rcases h.dims with e | e <;> rw [e] <;> simp
  obtain ⟨l', e', -, sl⟩ := h.lab.labels d0 hm0
  rw [el] at e'
  cases e'
  obtain ⟨m', e', -, sm⟩ := h.lab.labels d1 hm1
  rw [em] at e'
  cases e'
  have hmain : ∑ i ∈ Finset.range l.length, ∑ j ∈ Finset.range m.length, ((F (l.getD i 0) (m.getD j 0) : ℝ) : ℂ) = sumOver la lb (fun a b => (F a b : ℂ)) := by
    rw [← sumOver_perm la lb l m pl pm, sumOver_range]
  rw [← hmain]
  unfold total2
  rw [← sl, ← sm]
  constructor
  · refine Finset.sum_congr rfl (fun i hi => Finset.sum_congr rfl (fun j hj => ?_))
    have hi := Finset.mem_range.mp hi
    have hj := Finset.mem_range.mp hj
    rw [(get_pos2 d0 d1 hne la lb arr F h l m el em i j hi hj).1]
    simp [hi, hj]
  · rw [Finset.sum_comm]
    refine Finset.sum_congr rfl (fun i hi => Finset.sum_congr rfl (fun j hj => ?_))
    have hi := Finset.mem_range.mp hi
    have hj := Finset.mem_range.mp hj
    rw [(get_pos2 d0 d1 hne la lb arr F h l m el em i j hi hj).2]
    simp [hi, hj]

/-- the coefficients of the field `D` with weights `S` on the points with longitude `T` and colatitude `P`, added up label by label -/
noncomputable def labelledCoefficients (lib : SciPy) (old : Bool) (la lb : List ℝ) (D S T P : ℝ → ℝ → ℝ) (N : ℕ) : List ℂ :=
  (decompPairs N).map (fun p => sumOver la lb (fun a b => (D a b : ℂ) * (S a b : ℂ) * sphHarmY lib old p.1 p.2.1 (P a b) (T a b)) *
    (p.2.2 * (1 / (sumOver la lb (fun a b => (S a b : ℂ)) * sphHarmY lib old 0 0 0 0 ^ 2))))

theorem izip_grid2 (d0 d1 : String) (hne : d0 ≠ d1) (la lb : List ℝ) (data scale : IArr ℝ ℝ) (D S : ℝ → ℝ → ℝ) (hd : Grid2 d0 d1 la lb data D)
    (hdims : data.arr.dims = [d0, d1]) (hs : Grid2 d0 d1 la lb scale S) :
    ∃ r, IArr.zip (fun x y : ℝ => x * y) data scale = .ok r ∧ r.arr.dims = [d0, d1] ∧ r.index d0 = data.index d0 ∧ r.index d1 = data.index d1 ∧
      Grid2 d0 d1 la lb r (fun a b => D a b * S a b) := by
  obtain ⟨r, e, l, dr, -, i1, -, a⟩ := izip_at (fun x y : ℝ => x * y) data scale hd.lab hs.lab
  have hm0 : d0 ∈ scale.arr.dims := by rcases hs.dims with e | e <;> rw [e] <;> simp
  have hm1 : d1 ∈ scale.arr.dims := by rcases hs.dims with e | e <;> rw [e] <;> simp
  have hdr : r.arr.dims = [d0, d1] := by
    rw [dr, hdims]
    have : scale.arr.dims.filter (fun d => !(List.contains [d0, d1] d)) = [] := by
      rw [List.filter_eq_nil_iff]
      intro x hx
      rcases hs.dims with e | e <;> rw [e] at hx <;> simp at hx <;> rcases hx with rfl | rfl <;> simp
    rw [this, List.append_nil]
  obtain ⟨l0, e0, p0⟩ := hd.rows
  obtain ⟨l1, e1, p1⟩ := hd.cols
  obtain ⟨m0, f0, q0⟩ := hs.rows
  obtain ⟨m1, f1, q1⟩ := hs.cols
  have ei0 : r.index d0 = some l0 := by
    rw [i1 d0 (by rw [hdims]; simp) l0 e0 hm0 m0 f0]
    congr 1
    exact List.filter_eq_self.mpr (fun x hx => by simpa using q0.mem_iff.mpr (p0.mem_iff.mp hx))
  have ei1 : r.index d1 = some l1 := by
    rw [i1 d1 (by rw [hdims]; simp) l1 e1 hm1 m1 f1]
    congr 1
    exact List.filter_eq_self.mpr (fun x hx => by simpa using q1.mem_iff.mpr (p1.mem_iff.mp hx))
  refine ⟨r, e, hdr, by rw [ei0, e0], by rw [ei1, e1], l, Or.inl hdr, ⟨l0, ei0, p0⟩, ⟨l1, ei1, p1⟩, ?_⟩
  intro x hx y hy
  exact (a _ _).mpr ⟨_, _, hd.value x hx y hy, hs.value x hx y hy, rfl⟩

/-- **C189, partial.** Data and weights are matched by labels: the weights may list the dimensions and their labels in any order. `theta` and `phi` must list
the labels in the order of `data`; what is missing is any other order (see the counterexample). -/
theorem C189_partial (lib : SciPy) (old : Bool) (d0 d1 : String) (hne : d0 ≠ d1) (la lb : List ℝ) (data scale theta phi : IArr ℝ ℝ) (D S T P : ℝ → ℝ → ℝ)
    (hd : Grid2 d0 d1 la lb data D) (hs : Grid2 d0 d1 la lb scale S) (ht : Grid2 d0 d1 la lb theta T) (hp : Grid2 d0 d1 la lb phi P)
    (hdims : data.arr.dims = [d0, d1]) (htd : theta.arr.dims = [d0, d1]) (hpd : phi.arr.dims = [d0, d1])
    (hti : ∀ d ∈ [d0, d1], theta.index d = data.index d) (hpi : ∀ d ∈ [d0, d1], phi.index d = data.index d) (N : ℕ) :
    decompositionIdx lib old data scale theta phi N = .ok (labelledCoefficients lib old la lb D S T P N) := by
  obtain ⟨r, er, dr, x0, x1, hr⟩ := izip_grid2 d0 d1 hne la lb data scale D S hd hdims hs
  obtain ⟨l0, e0, p0⟩ := hd.rows
  obtain ⟨l1, e1, p1⟩ := hd.cols
  have sz : ∀ (a : IArr ℝ ℝ), Labelled a → a.arr.dims = [d0, d1] → a.index d0 = some l0 → a.index d1 = some l1 → a.arr.size d0 = l0.length ∧ a.arr.size d1 = l1.length := by
    intro a hl hd i0 i1
    obtain ⟨m0, f0, -, s0⟩ := hl.labels d0 (by rw [hd]; simp)
    obtain ⟨m1, f1, -, s1⟩ := hl.labels d1 (by rw [hd]; simp)
    rw [i0] at f0
    rw [i1] at f1
    cases f0
    cases f1
    exact ⟨s0.symm, s1.symm⟩
  have t0 : theta.index d0 = some l0 := by rw [hti d0 (by simp), e0]
  have t1 : theta.index d1 = some l1 := by rw [hti d1 (by simp), e1]
  have q0 : phi.index d0 = some l0 := by rw [hpi d0 (by simp), e0]
  have q1 : phi.index d1 = some l1 := by rw [hpi d1 (by simp), e1]
  have r0 : r.index d0 = some l0 := by rw [x0, e0]
  have r1 : r.index d1 = some l1 := by rw [x1, e1]
  obtain ⟨sr0, sr1⟩ := sz r hr.lab dr r0 r1
  obtain ⟨st0, st1⟩ := sz theta ht.lab htd t0 t1
  obtain ⟨sp0, sp1⟩ := sz phi hp.lab hpd q0 q1
  have htot : ∃ f0 f1, scale.arr.dims = [f0, f1] ∧ total2 scale.arr f0 f1 = sumOver la lb (fun a b => (S a b : ℂ)) := by
    rcases hs.dims with e | e
    · exact ⟨_, _, e, (grid2_total d0 d1 hne la lb scale S hs).1⟩
    · exact ⟨_, _, e, (grid2_total d0 d1 hne la lb scale S hs).2⟩
  obtain ⟨f0, f1, es, hT⟩ := htot
  unfold decompositionIdx
  simp only [hdims, es, er, bind, Except.bind, dr, htd, hpd, sr0, sr1, st0, st1, sp0, sp1, pure, Except.pure, hT, ne_eq, not_true, or_self, if_false]
  congr 1
  unfold labelledCoefficients
  refine List.map_congr_left (fun p _ => ?_)
  congr 1
  rw [← sumOver_perm la lb l0 l1 p0 p1, sumOver_range]
  refine Finset.sum_congr rfl (fun i hi => Finset.sum_congr rfl (fun j hj => ?_))
  have hi := Finset.mem_range.mp hi
  have hj := Finset.mem_range.mp hj
  rw [(get_pos2 d0 d1 hne la lb r _ hr l0 l1 r0 r1 i j hi hj).1, (get_pos2 d0 d1 hne la lb theta _ ht l0 l1 t0 t1 i j hi hj).1,
    (get_pos2 d0 d1 hne la lb phi _ hp l0 l1 q0 q1 i j hi hj).1]
  simp [hi, hj]

/-- **C189, missing labels.** If the weights lack a label of the data, the call fails; nothing is dropped silently. -/
theorem C189_missing (lib : SciPy) (old : Bool) (d0 d1 : String) (data scale theta phi : IArr ℝ ℝ) (hd : Labelled data) (hs : Labelled scale)
    (ht : Labelled theta) (hdims : data.arr.dims = [d0, d1]) (hti : ∀ d ∈ [d0, d1], theta.index d = data.index d) (htd : theta.arr.dims = [d0, d1])
    (d : String) (hdd : d ∈ data.arr.dims) (hds : d ∈ scale.arr.dims) (l m : List ℝ) (el : data.index d = some l) (em : scale.index d = some m) (μ : ℝ)
    (h1 : μ ∈ l) (h2 : μ ∉ m) (N : ℕ) : decompositionIdx lib old data scale theta phi N = .error .valueError := by
  obtain ⟨r, er, lr, dr, mr, i1, -, -⟩ := izip_at (fun x y : ℝ => x * y) data scale hd hs
  have ei := i1 d hdd l el hds m em
  obtain ⟨l', e', -, sr⟩ := lr.labels d ((mr d).mpr (Or.inl hdd))
  rw [ei] at e'
  cases e'
  obtain ⟨lt, et, -, st⟩ := ht.labels d (by rw [htd, ← hdims]; exact hdd)
  rw [hti d (by rw [← hdims]; exact hdd), el] at et
  cases et
  have hlt : r.arr.size d < theta.arr.size d := by
    rw [← sr, ← st]
    apply List.length_filter_lt_length_iff_exists.mpr
    exact ⟨μ, h1, by simpa using h2⟩
  unfold decompositionIdx
  rw [hdims]
  cases es : scale.arr.dims with
  | nil => rfl
  | cons e0 t =>
    cases t with
    | nil => rfl
    | cons e1 t =>
      cases t with
      | cons e2 t => rfl
      | nil =>
        simp only [er, bind, Except.bind, throw, throwThe, MonadExceptOf.throw]
        split_ifs with c1 c2 c3 c4
        all_goals try rfl
        exfalso
        push Not at c4
        have hd' : d = d0 ∨ d = d1 := by
          rw [hdims] at hdd
          simpa using hdd
        rcases hd' with rfl | rfl
        · omega
        · omega

/-! ### cases -/

/-- two latitudes with the given labels and values, one longitude -/
def sphArr (u w x y : ℝ) : IArr ℝ ℝ :=
  ⟨⟨["lat", "lon"], fun d => if d = "lat" then 2 else 1, fun i => if i "lat" = 0 then x else y⟩,
    fun d => if d = "lat" then some [u, w] else some [5]⟩

theorem sphArr_grid (u w x y : ℝ) (h : u ≠ w) (la : List ℝ) (hp : [u, w].Perm la) (F : ℝ → ℝ → ℝ) (hF : F u 5 = x ∧ F w 5 = y) :
    Grid2 "lat" "lon" la [5] (sphArr u w x y) F where
  lab := {
    wf := by
      intro i j hij
      simp [sphArr, hij "lat" (by simp [sphArr])]
    labels := by
      intro d hd
      have : d = "lat" ∨ d = "lon" := by simpa [sphArr] using hd
      rcases this with rfl | rfl
      · exact ⟨[u, w], by simp [sphArr], by simp [h], by simp [sphArr]⟩
      · exact ⟨[5], by simp [sphArr], by simp, by simp [sphArr]⟩ }
  dims := Or.inl rfl
  rows := ⟨[u, w], by simp [sphArr], hp⟩
  cols := ⟨[5], by simp [sphArr], List.Perm.refl _⟩
  value := by
    intro a ha b hb
    obtain rfl : b = 5 := by simpa using hb
    have : a = u ∨ a = w := by simpa using hp.mem_iff.mpr ha
    rcases this with rfl | rfl
    · refine ⟨fun _ => 0, ?_, by simp [sphArr, hF.1]⟩
      intro d hd
      have : d = "lat" ∨ d = "lon" := by simpa [sphArr] using hd
      rcases this with rfl | rfl
      · exact ⟨_, by simp [sphArr]; rfl, by simp [point2]⟩
      · exact ⟨[5], by simp [sphArr], by simp [point2]⟩
    · refine ⟨fun d => if d = "lat" then 1 else 0, ?_, by simp [sphArr, hF.2]⟩
      intro d hd
      have : d = "lat" ∨ d = "lon" := by simpa [sphArr] using hd
      rcases this with rfl | rfl
      · exact ⟨_, by simp [sphArr]; rfl, by simp [point2]⟩
      · exact ⟨[5], by simp [sphArr], by simp [point2]⟩

/-- values by latitude -/
noncomputable def byLat (x y : ℝ) : ℝ → ℝ → ℝ := fun a _ => if a = 0 then x else y

/-- non-vacuity: weights that list the latitudes in the other order are matched -/
example (lib : SciPy) (N : ℕ) : decompositionIdx lib false (sphArr 0 1 7 8) (sphArr 1 0 3 2) (sphArr 0 1 0 0) (sphArr 0 1 0 Real.pi) N =
    .ok (labelledCoefficients lib false [0, 1] [5] (byLat 7 8) (byLat 2 3) (byLat 0 0) (byLat 0 Real.pi) N) := by
  refine C189_partial lib false "lat" "lon" (by decide) [0, 1] [5] _ _ _ _ _ _ _ _ (sphArr_grid 0 1 7 8 (by norm_num) _ (List.Perm.refl _) _ (by simp [byLat]))
    (sphArr_grid 1 0 3 2 (by norm_num) _ (List.Perm.swap _ _ _) _ (by simp [byLat])) (sphArr_grid 0 1 0 0 (by norm_num) _ (List.Perm.refl _) _ (by simp [byLat]))
    (sphArr_grid 0 1 0 Real.pi (by norm_num) _ (List.Perm.refl _) _ (by simp [byLat])) rfl rfl rfl ?_ ?_ N
  · intro d _; simp [sphArr]
  · intro d _; simp [sphArr]

/-- C189 fails: `phi` lists the same two latitudes in the other order. The call succeeds; the datum of one pole is put at the other. -/
theorem C189_counterexample (lib : SciPy) (h0 : sphHarmY lib false 0 0 0 0 ≠ 0) (h1 : sphHarmY lib false 1 0 0 0 ≠ sphHarmY lib false 1 0 Real.pi 0) :
    Grid2 "lat" "lon" [0, 1] [5] (sphArr 1 0 Real.pi 0) (byLat 0 Real.pi) ∧
    ∃ out, decompositionIdx lib false (sphArr 0 1 1 0) (sphArr 0 1 1 1) (sphArr 0 1 0 0) (sphArr 1 0 Real.pi 0) 1 = .ok out ∧
      out ≠ labelledCoefficients lib false [0, 1] [5] (byLat 1 0) (byLat 1 1) (byLat 0 0) (byLat 0 Real.pi) 1 := by
  refine ⟨sphArr_grid 1 0 Real.pi 0 (by norm_num) _ (List.Perm.swap _ _ _) _ (by simp [byLat]), ?_⟩
  have hA := C189_partial lib false "lat" "lon" (by decide) [0, 1] [5] (sphArr 0 1 1 0) (sphArr 0 1 1 1) (sphArr 0 1 0 0) (sphArr 0 1 Real.pi 0) (byLat 1 0)
    (byLat 1 1) (byLat 0 0) (byLat Real.pi 0) (sphArr_grid 0 1 1 0 (by norm_num) _ (List.Perm.refl _) _ (by simp [byLat]))
    (sphArr_grid 0 1 1 1 (by norm_num) _ (List.Perm.refl _) _ (by simp [byLat])) (sphArr_grid 0 1 0 0 (by norm_num) _ (List.Perm.refl _) _ (by simp [byLat]))
    (sphArr_grid 0 1 Real.pi 0 (by norm_num) _ (List.Perm.refl _) _ (by simp [byLat])) rfl rfl rfl (by intro d _; simp [sphArr]) (by intro d _; simp [sphArr]) 1
  have hsame : decompositionIdx lib false (sphArr 0 1 1 0) (sphArr 0 1 1 1) (sphArr 0 1 0 0) (sphArr 1 0 Real.pi 0) 1 =
      decompositionIdx lib false (sphArr 0 1 1 0) (sphArr 0 1 1 1) (sphArr 0 1 0 0) (sphArr 0 1 Real.pi 0) 1 := rfl
  refine ⟨_, hsame.trans hA, ?_⟩
  intro hE
  have hk := congrArg (fun l => l[1]?) hE
  have hpair : decompPairs 1 = [(0, 0, 1), (1, 0, 1), (1, 1, 2)] := by decide
  simp only [labelledCoefficients, hpair, List.map_cons, List.getElem?_cons_succ, List.getElem?_cons_zero, Option.some.injEq] at hk
  simp only [sumOver, byLat, List.map_cons, List.map_nil, List.sum_cons, List.sum_nil] at hk
  norm_num at hk
  rcases hk with hk | hk
  · exact h1 hk.symm
  · exact h0 hk

/-- non-vacuity of the missing-label theorem: weights for latitudes 0 and 2 -/
example (lib : SciPy) (N : ℕ) :
    decompositionIdx lib false (sphArr 0 1 7 8) (sphArr 0 2 3 2) (sphArr 0 1 0 0) (sphArr 0 1 0 Real.pi) N = .error .valueError :=
  C189_missing lib false "lat" "lon" _ _ _ _ (sphArr_grid 0 1 7 8 (by norm_num) _ (List.Perm.refl _) (byLat 7 8) (by simp [byLat])).lab
    (sphArr_grid 0 2 3 2 (by norm_num) _ (List.Perm.refl _) (byLat 3 2) (by simp [byLat])).lab
    (sphArr_grid 0 1 0 0 (by norm_num) _ (List.Perm.refl _) (byLat 0 0) (by simp [byLat])).lab rfl (by intro d _; simp [sphArr]) rfl "lat" (by simp [sphArr])
    (by simp [sphArr]) [0, 1] [0, 2] (by simp [sphArr]) (by simp [sphArr]) 1 (by simp) (by norm_num) N

end Verif.Props
