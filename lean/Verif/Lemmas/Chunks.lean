import Verif.Lemmas.HybridInterp

set_option linter.unusedSectionVars false
namespace Verif.Lemmas
open Model Spec Props
variable {K : Type _} [Field K] [LinearOrder K] [IsStrictOrderedRing K]

theorem locate_spec (cs : List ℕ) (n : ℕ) (h : n < cs.sum) : (locate cs n).1 ≤ n ∧ n < (locate cs n).1 + (locate cs n).2 := by
  induction cs generalizing n with
  | nil => simp at h
  | cons c cs ih =>
    unfold locate
    split_ifs with hc
    · simpa using hc
    · have := ih (n - c) (by simp at h; omega)
      simp only
      omega

theorem locate_mem (cs : List ℕ) (n o : ℕ) (h : n < cs.sum) : ((locate cs n).1 + o, (locate cs n).2) ∈ chunkList o cs := by
  induction cs generalizing n o with
  | nil => simp at h
  | cons c cs ih =>
    unfold locate chunkList
    split_ifs with hc
    · simp
    · have := ih (n - c) (o + c) (by simp at h; omega)
      have e : (locate cs (n - c)).1 + (o + c) = (locate cs (n - c)).1 + c + o := by omega
      rw [e] at this
      simp [this]

theorem chunkList_bound (cs : List ℕ) (o : ℕ) : ∀ p ∈ chunkList o cs, p.2 ∈ cs ∧ p.1 + p.2 ≤ o + cs.sum := by
  induction cs generalizing o with
  | nil => intro p hp; cases hp
  | cons c cs ih =>
    intro p hp
    simp only [chunkList, List.mem_cons] at hp
    rcases hp with rfl | hp
    · simp
    · obtain ⟨h1, h2⟩ := ih (o + c) p hp
      simp [h1]; omega

theorem mem_blocksOf (chunks : String → List ℕ) (ds : List String) (b : String → ℕ × ℕ) :
    b ∈ blocksOf chunks ds → (∀ d ∈ ds, b d ∈ chunkList 0 (chunks d)) ∧ ∀ d ∉ ds, b d = (0, 0) := by
  induction ds generalizing b with
  | nil => intro h; simp [blocksOf] at h; subst h; simp
  | cons e ds ih =>
    intro h
    simp only [blocksOf, List.mem_flatMap, List.mem_map] at h
    obtain ⟨c, hc, b', hb', rfl⟩ := h
    obtain ⟨h1, h2⟩ := ih b' hb'
    constructor
    · intro d hd
      by_cases hde : d = e
      · subst hde; simpa using hc
      · rw [Function.update_of_ne hde]; exact h1 d (by simpa [hde] using hd)
    · intro d hd
      simp at hd
      rw [Function.update_of_ne hd.1]; exact h2 d hd.2

theorem blocksOf_complete (chunks : String → List ℕ) (ds : List String) (b : String → ℕ × ℕ)
    (h1 : ∀ d ∈ ds, b d ∈ chunkList 0 (chunks d)) (h2 : ∀ d ∉ ds, b d = (0, 0)) : b ∈ blocksOf chunks ds := by
  induction ds generalizing b with
  | nil =>
    have : b = fun _ => (0, 0) := funext fun d => h2 d (by simp)
    simp [blocksOf, this]
  | cons e ds ih =>
    simp only [blocksOf, List.mem_flatMap, List.mem_map]
    by_cases he : e ∈ ds
    · exact ⟨b e, h1 e (by simp), b, ih b (fun d hd => h1 d (by simp [hd])) (fun d hd => h2 d (by
        simp only [List.mem_cons, not_or]; exact ⟨fun h => hd (h ▸ he), hd⟩)), by simp⟩
    · refine ⟨b e, h1 e (by simp), Function.update b e (0, 0), ih _ ?_ ?_, by simp⟩
      · intro d hd
        have : d ≠ e := fun h => he (h ▸ hd)
        rw [Function.update_of_ne this]; exact h1 d (by simp [hd])
      · intro d hd
        by_cases hde : d = e
        · subst hde; simp
        · rw [Function.update_of_ne hde]; exact h2 d (by simp [hde, hd])

theorem mem_indicesOf (size : String → ℕ) (ds : List String) (i : String → ℕ) :
    i ∈ LArr.indicesOf size ds ↔ (∀ d ∈ ds, i d < size d) ∧ ∀ d ∉ ds, i d = 0 := by
  constructor
  · intro h
    refine ⟨indicesOf_bounds size ds i h, ?_⟩
    induction ds generalizing i with
    | nil => simp [LArr.indicesOf] at h; simp [h]
    | cons e ds ih =>
      intro d hd
      simp only [LArr.indicesOf, List.mem_flatMap, List.mem_range, List.mem_map] at h
      obtain ⟨k, hk, j, hj, rfl⟩ := h
      simp at hd
      rw [Function.update_of_ne hd.1]
      exact ih j hj d hd.2
  · rintro ⟨h1, h2⟩
    induction ds generalizing i with
    | nil =>
      have : i = fun _ => 0 := funext fun d => h2 d (by simp)
      simp [LArr.indicesOf, this]
    | cons e ds ih =>
      simp only [LArr.indicesOf, List.mem_flatMap, List.mem_range, List.mem_map]
      by_cases he : e ∈ ds
      · exact ⟨i e, h1 e (by simp), i, ih i (fun d hd => h1 d (by simp [hd])) (fun d hd => h2 d (by
          simp only [List.mem_cons, not_or]; exact ⟨fun h => hd (h ▸ he), hd⟩)), by simp⟩
      · refine ⟨i e, h1 e (by simp), Function.update i e 0, ih _ ?_ ?_, by simp⟩
        · intro d hd
          have : d ≠ e := fun h => he (h ▸ hd)
          rw [Function.update_of_ne this]; exact h1 d (by simp [hd])
        · intro d hd
          by_cases hde : d = e
          · subst hde; simp
          · rw [Function.update_of_ne hde]; exact h2 d (by simp [hde, hd])

theorem line_block {α : Type _} (lev : String) (cs : List ℕ) (b : String → ℕ × ℕ) (A : LArr α) (j : String → ℕ) (h : cs.sum = A.size lev) :
    (block lev cs b A).line lev j = A.line lev (fun d => (b d).1 + j d) := by
  have hs : (block lev cs b A).size lev = A.size lev := by simp [block, h]
  unfold LArr.line
  rw [hs]
  refine List.map_congr_left fun k hk => ?_
  have hk' := (locate_spec cs k (by rw [h]; simpa using hk)).1
  simp only [block]
  congr 1
  funext d
  by_cases hd : d = lev
  · subst hd
    simp only [if_true, Function.update_self]
    omega
  · simp [hd]

theorem colRes_block (g : K → K) (lev : String) (x : List K) (P : LArr K) (D : LArr (XF K)) (cs : List ℕ) (b : String → ℕ × ℕ)
    (j : String → ℕ) (hP : cs.sum = P.size lev) (hD : cs.sum = D.size lev) :
    colRes g lev x (block lev cs b P) (block lev cs b D) j = colRes g lev x P D (fun d => (b d).1 + j d) := by
  unfold colRes
  rw [line_block lev cs b P j hP, line_block lev cs b D j hD]

theorem index_error {α : Type _} (l : List α) (i : Int) (e : PyErr) (h : Py.index l i = .error e) : e = .indexError := by
  unfold Py.index at h
  simp only at h
  repeat' split at h
  all_goals first | (cases h; rfl) | cases h

theorem interpPoint_error (xp : List K) (v : List (XF K)) (x : K) (e : PyErr) (h : interpPoint xp v x = .error e) : e = .indexError := by
  unfold interpPoint at h
  simp only [bind, Except.bind, pure, Except.pure] at h
  repeat' split at h
  all_goals first
    | (rename_i hh; cases h; exact index_error _ _ _ hh)
    | (simp at h)

theorem interpolate1d_error (x xp : List K) (v : List (XF K)) (hl : xp.length = v.length) (e : PyErr)
    (h : interpolate1d x xp v = .error e) : e = if x = [] then .valueError else .indexError := by
  unfold interpolate1d at h
  by_cases hx : x = []
  · subst hx
    simp [hl, throw, throwThe, MonadExceptOf.throw, bind, Except.bind] at h
    simp [h]
  · have : x.isEmpty = false := by simpa using hx
    simp only [hl, ne_eq, not_true_eq_false, if_false, this, Bool.false_eq_true, bind, Except.bind, pure, Except.pure] at h
    rw [if_neg hx]
    split at h
    · rename_i e' he
      cases h
      obtain ⟨a, -, ha⟩ := mapM_error_mem _ _ _ he
      exact interpPoint_error _ _ _ _ ha
    · split at h
      · rename_i he; cases h; exact index_error _ _ _ he
      · split at h
        · rename_i he; cases h; exact index_error _ _ _ he
        · simp at h

theorem colRes_error (g : K → K) (lev : String) (x : List K) (P : LArr K) (D : LArr (XF K)) (i : String → ℕ)
    (hs : P.size lev = D.size lev) (e : PyErr) (h : colRes g lev x P D i = .error e) :
    e = if x = [] then .valueError else .indexError := by
  have := interpolate1d_error _ _ _ (by simp [LArr.line, hs]) e h
  simpa using this

theorem interpAlong_cases (g : K → K) (lev : String) (x : List K) (P : LArr K) (D : LArr (XF K)) (hs : P.size lev = D.size lev)
    (hne : LArr.indicesOf D.size (D.dims.filter (fun d => d ≠ lev)) ≠ []) :
    ((∀ i ∈ LArr.indicesOf D.size (D.dims.filter (fun d => d ≠ lev)), ∃ r, colRes g lev x P D i = .ok r) ∧
      interpAlong g lev x P D = .ok ⟨outDims D.dims lev, fun d => if d = "plev" then x.length else D.size d,
      fun i => pick (colRes g lev x P D i) (i "plev")⟩) ∨
    ((∃ i ∈ LArr.indicesOf D.size (D.dims.filter (fun d => d ≠ lev)), ∃ e, colRes g lev x P D i = .error e) ∧
      interpAlong g lev x P D = .error (if x = [] then .valueError else .indexError)) := by
  by_cases hall : ∀ i ∈ LArr.indicesOf D.size (D.dims.filter (fun d => d ≠ lev)), ∃ r, colRes g lev x P D i = .ok r
  · exact Or.inl ⟨hall, interpAlong_ok g lev x P D hne hall⟩
  · right
    have he : (LArr.indicesOf D.size (D.dims.filter (fun d => d ≠ lev))).isEmpty = false := by simpa using hne
    cases hm : (LArr.indicesOf D.size (D.dims.filter (fun d => d ≠ lev))).mapM (colRes g lev x P D) with
    | ok r => exact absurd (mapM_ok_mem _ _ _ hm) hall
    | error e =>
      obtain ⟨i, hi, hie⟩ := mapM_error_mem _ _ _ hm
      refine ⟨⟨i, hi, e, hie⟩, ?_⟩
      rw [← colRes_error g lev x P D i hs e hie]
      unfold interpAlong
      unfold colRes at hm
      simp only [he, hm, bind, Except.bind]
      rfl

/-- two outcomes are the same: same error, or arrays equal in dimensions, sizes and values at the indices allowed by `ok` -/
def SameOutcome (ok : (String → ℕ) → Prop) (r s : Except PyErr (LArr (XF K))) : Prop :=
  match r, s with
  | .ok o, .ok o' => o.dims = o'.dims ∧ o.size = o'.size ∧ ∀ i, ok i → o.get i = o'.get i
  | .error e, .error e' => e = e'
  | _, _ => False

theorem interpChunked_same (g : K → K) (lev : String) (x : List K) (P : LArr K) (D : LArr (XF K)) (chunks : String → List ℕ)
    (hlev : lev ∈ D.dims) (hpl : "plev" ∉ D.dims.filter (fun d => d ≠ lev)) (hs : P.size lev = D.size lev)
    (hpos : ∀ d ∈ D.dims.filter (fun d => d ≠ lev), 0 < D.size d) (hc : Chunking D chunks) :
    SameOutcome (fun i => ∀ d ∈ D.dims.filter (fun d => d ≠ lev), i d < D.size d)
      (interpAlong g lev x P D) (interpChunked g lev x chunks P D) := by
  set ds := D.dims.filter (fun d => d ≠ lev) with hds
  have hdsm : ∀ d, d ∈ ds ↔ d ∈ D.dims ∧ d ≠ lev := by intro d; simp [hds]
  have hsum : (chunks lev).sum = D.size lev := (hc lev hlev).1
  have hne : LArr.indicesOf D.size ds ≠ [] := indicesOf_ne_nil _ _ hpos
  -- a block run
  have hblk : ∀ b ∈ blocksOf chunks ds, LArr.indicesOf (block lev (chunks lev) b D).size ds ≠ [] := by
    intro b hb
    refine indicesOf_ne_nil _ _ fun d hd => ?_
    have h1 := (chunkList_bound _ _ _ ((mem_blocksOf chunks ds b hb).1 d hd)).1
    have h2 := (hdsm d).mp hd
    simpa [block, h2.2] using (hc d h2.1).2 _ h1
  have hrun := fun b hb => interpAlong_cases g lev x (block lev (chunks lev) b P) (block lev (chunks lev) b D)
    (by simp [block]) (by exact hblk b hb)
  have hin : ∀ b ∈ blocksOf chunks ds, ∀ j ∈ LArr.indicesOf (block lev (chunks lev) b D).size ds, ∀ d ∈ ds, (b d).1 + j d < D.size d := by
    intro b hb j hj d hd
    have h1 := indicesOf_bounds _ _ j hj d hd
    have h2 := (hdsm d).mp hd
    have h3 := (chunkList_bound _ _ _ ((mem_blocksOf chunks ds b hb).1 d hd)).2
    have h4 := (hc d h2.1).1
    have h5 : j d < (b d).2 := by simpa [block, h2.2] using h1
    omega
  -- the block of an index
  let loc : (String → ℕ) → String → ℕ × ℕ := fun i d => if d ∈ D.dims ∧ d ≠ lev then locate (chunks d) (i d) else (0, 0)
  have hloc : ∀ i, (∀ d ∈ ds, i d < D.size d) → loc i ∈ blocksOf chunks ds ∧ (∀ d, (loc i d).1 ≤ i d) ∧
      ∀ d ∈ ds, i d - (loc i d).1 < (loc i d).2 := by
    intro i hi
    have key : ∀ d ∈ ds, loc i d = locate (chunks d) (i d) ∧ i d < (chunks d).sum := by
      intro d hd
      have h2 := (hdsm d).mp hd
      refine ⟨by simp [loc, h2.1, h2.2], ?_⟩
      rw [(hc d h2.1).1]; exact hi d hd
    have key' : ∀ d, d ∉ ds → loc i d = (0, 0) := by
      intro d hd
      have h2 := (not_congr (hdsm d)).mp hd
      simp only [loc, h2, if_false]
    refine ⟨blocksOf_complete chunks ds _ (fun d hd => ?_) key', fun d => ?_, fun d hd => ?_⟩
    · rw [(key d hd).1]; exact locate_mem _ _ 0 (key d hd).2
    · by_cases hd : d ∈ ds
      · rw [(key d hd).1]; exact (locate_spec _ _ (key d hd).2).1
      · rw [key' d hd]; exact Nat.zero_le _
    · have := locate_spec _ _ (key d hd).2
      rw [(key d hd).1]; omega
  -- columns of blocks are columns of the whole
  have hsub : ∀ b ∈ blocksOf chunks ds, ∀ j ∈ LArr.indicesOf (block lev (chunks lev) b D).size ds,
      (fun d => (b d).1 + j d) ∈ LArr.indicesOf D.size ds := by
    intro b hb j hj
    rw [mem_indicesOf]
    refine ⟨hin b hb j hj, fun d hd => ?_⟩
    have h1 := (mem_blocksOf chunks ds b hb).2 d hd
    have h2 := ((mem_indicesOf _ _ _).mp hj).2 d hd
    simp [h1, h2]
  have hPs : (chunks lev).sum = P.size lev := by rw [hs, hsum]
  have hcb : ∀ b j, colRes g lev x (block lev (chunks lev) b P) (block lev (chunks lev) b D) j =
      colRes g lev x P D (fun d => (b d).1 + j d) := fun b j => colRes_block g lev x P D (chunks lev) b j hPs hsum
  rcases interpAlong_cases g lev x P D hs hne with ⟨hall, heq⟩ | ⟨⟨i, hi, e, hie⟩, heq⟩
  · have hok : ∀ b ∈ blocksOf chunks ds, interpAlong g lev x (block lev (chunks lev) b P) (block lev (chunks lev) b D) =
        .ok ⟨outDims D.dims lev, fun d => if d = "plev" then x.length else (block lev (chunks lev) b D).size d,
          fun i => pick (colRes g lev x P D (fun d => (b d).1 + i d)) (i "plev")⟩ := by
      intro b hb
      rcases hrun b hb with ⟨-, h⟩ | ⟨⟨j, hj, e, hje⟩, -⟩
      · rw [h]
        simp only [hcb]
        rfl
      · exfalso
        rw [hcb] at hje
        obtain ⟨r, hr⟩ := hall _ (hsub b hb j hj)
        rw [hr] at hje
        cases hje
    obtain ⟨r, hr⟩ := mapM_total (fun b => interpAlong g lev x (block lev (chunks lev) b P) (block lev (chunks lev) b D))
      (blocksOf chunks ds) (fun b hb => ⟨_, hok b hb⟩)
    rw [heq]
    unfold interpChunked
    simp only [← hds, hr, bind, Except.bind, pure, Except.pure]
    refine ⟨rfl, rfl, fun i hi => ?_⟩
    obtain ⟨h1, h2, h3⟩ := hloc i hi
    show pick (colRes g lev x P D i) (i "plev") =
      match interpAlong g lev x (block lev (chunks lev) (loc i) P) (block lev (chunks lev) (loc i) D) with
      | .ok r => r.get (fun d => i d - (loc i d).1)
      | .error _ => .nan
    rw [hok (loc i) h1]
    have e1 : (fun d => (loc i d).1 + (i d - (loc i d).1)) = i := by
      funext d
      have := h2 d
      omega
    have e2 : (loc i "plev").1 = 0 := by
      have := (mem_blocksOf chunks ds (loc i) h1).2 "plev" hpl
      rw [this]
    show _ = pick (colRes g lev x P D (fun d => (loc i d).1 + (i d - (loc i d).1))) (i "plev" - (loc i "plev").1)
    rw [e1, e2]
    rfl
  · rw [heq]
    have hi' := (mem_indicesOf _ _ _).mp hi
    obtain ⟨h1, h2, h3⟩ := hloc i hi'.1
    have hbad : interpAlong g lev x (block lev (chunks lev) (loc i) P) (block lev (chunks lev) (loc i) D) =
        .error (if x = [] then .valueError else .indexError) := by
      rcases hrun (loc i) h1 with ⟨h, -⟩ | ⟨-, h⟩
      · exfalso
        obtain ⟨r, hr⟩ := h (fun d => i d - (loc i d).1) (by
          refine (mem_indicesOf _ _ _).mpr ⟨fun d hd => ?_, fun d hd => ?_⟩
          · have h4 := (hdsm d).mp hd
            have := h3 d hd
            simpa [block, h4.2] using this
          · rw [hi'.2 d hd]; simp)
        rw [hcb] at hr
        have e1 : (fun d => (loc i d).1 + (i d - (loc i d).1)) = i := by
          funext d
          have := h2 d
          omega
        rw [e1, hie] at hr
        cases hr
      · exact h
    cases hm : (blocksOf chunks ds).mapM (fun b => interpAlong g lev x (block lev (chunks lev) b P) (block lev (chunks lev) b D)) with
    | ok r =>
      exfalso
      obtain ⟨s, hs'⟩ := mapM_ok_mem _ _ _ hm (loc i) h1
      rw [hbad] at hs'
      cases hs'
    | error e' =>
      obtain ⟨b, hb, hbe⟩ := mapM_error_mem _ _ _ hm
      have : e' = if x = [] then .valueError else .indexError := by
        rcases hrun b hb with ⟨-, h⟩ | ⟨-, h⟩
        · rw [h] at hbe; cases hbe
        · rw [h] at hbe; cases hbe; rfl
      unfold interpChunked
      simp only [← hds, hm, bind, Except.bind]
      exact this.symm

end Verif.Lemmas
