import Verif.Lemmas.Interp1d
import Verif.Spec.HybridInterp
import Verif.Props.Hybrid
import Verif.Model.Hybrid

set_option linter.unusedSectionVars false
namespace Verif.Lemmas
open Model Spec Props
variable {K : Type _} [Field K] [LinearOrder K] [IsStrictOrderedRing K]

theorem indicesOf_bounds (size : String → ℕ) (ds : List String) : ∀ i ∈ LArr.indicesOf size ds, ∀ d ∈ ds, i d < size d := by
  induction ds with
  | nil => intro i _ d hd; cases hd
  | cons e ds ih =>
    intro i hi d hd
    simp only [LArr.indicesOf, List.mem_flatMap, List.mem_range, List.mem_map] at hi
    obtain ⟨k, hk, j, hj, rfl⟩ := hi
    by_cases h : d = e
    · subst h; simpa using hk
    · rw [Function.update_of_ne h]
      exact ih j hj d (by simpa [h] using hd)

theorem indicesOf_ne_nil (size : String → ℕ) (ds : List String) (h : ∀ d ∈ ds, 0 < size d) : LArr.indicesOf size ds ≠ [] := by
  induction ds with
  | nil => simp [LArr.indicesOf]
  | cons e ds ih =>
    have h1 := ih (fun d hd => h d (by simp [hd]))
    have h2 := h e (by simp)
    obtain ⟨j, hj⟩ := List.exists_mem_of_ne_nil _ h1
    refine List.ne_nil_of_mem (a := Function.update j e 0) ?_
    simp only [LArr.indicesOf, List.mem_flatMap, List.mem_range, List.mem_map]
    exact ⟨0, h2, j, hj, rfl⟩

/-- every index agrees, on the given dimensions, with one of the list -/
theorem indicesOf_complete (size : String → ℕ) (ds : List String) (i : String → ℕ) (h : ∀ d ∈ ds, i d < size d) :
    ∃ j ∈ LArr.indicesOf size ds, ∀ d ∈ ds, j d = i d := by
  induction ds with
  | nil => exact ⟨fun _ => 0, by simp [LArr.indicesOf], by simp⟩
  | cons e ds ih =>
    obtain ⟨j, hj, he⟩ := ih (fun d hd => h d (by simp [hd]))
    refine ⟨Function.update j e (i e), ?_, ?_⟩
    · simp only [LArr.indicesOf, List.mem_flatMap, List.mem_range, List.mem_map]
      exact ⟨i e, h e (by simp), j, hj, rfl⟩
    · intro d hd
      by_cases hde : d = e
      · subst hde; simp
      · rw [Function.update_of_ne hde]
        exact he d (by simpa [hde] using hd)

theorem mapM_total {α β : Type _} (f : α → Except PyErr β) (l : List α) (h : ∀ a ∈ l, ∃ b, f a = .ok b) :
    ∃ r, l.mapM f = .ok r := by
  induction l with
  | nil => exact ⟨[], rfl⟩
  | cons a l ih =>
    obtain ⟨b, hb⟩ := h a (by simp)
    obtain ⟨r, hr⟩ := ih (fun a ha => h a (by simp [ha]))
    exact ⟨b :: r, by simp [List.mapM_cons, hb, hr, bind, Except.bind, pure, Except.pure]⟩

theorem mapM_ok_mem {α β : Type _} (f : α → Except PyErr β) (l : List α) (r : List β) (h : l.mapM f = .ok r) :
    ∀ a ∈ l, ∃ b, f a = .ok b := by
  induction l generalizing r with
  | nil => intro a ha; cases ha
  | cons c l ih =>
    cases hc : f c with
    | error e => simp [List.mapM_cons, hc, bind, Except.bind] at h
    | ok b =>
      cases hl : l.mapM f with
      | error e => simp [List.mapM_cons, hc, hl, bind, Except.bind] at h
      | ok r' =>
        intro a ha
        rcases List.mem_cons.mp ha with rfl | ha
        · exact ⟨b, hc⟩
        · exact ih r' hl a ha

theorem mapM_error_mem {α β : Type _} (f : α → Except PyErr β) (l : List α) (e : PyErr) (h : l.mapM f = .error e) :
    ∃ a ∈ l, f a = .error e := by
  induction l with
  | nil => simp [pure, Except.pure] at h
  | cons c l ih =>
    cases hc : f c with
    | error e' =>
      simp [List.mapM_cons, hc, bind, Except.bind] at h
      subst h
      exact ⟨c, by simp, hc⟩
    | ok b =>
      cases hl : l.mapM f with
      | error e' =>
        simp [List.mapM_cons, hc, hl, bind, Except.bind] at h
        subst h
        obtain ⟨a, ha, h'⟩ := ih hl
        exact ⟨a, by simp [ha], h'⟩
      | ok r' => simp [List.mapM_cons, hc, hl, bind, Except.bind, pure, Except.pure] at h

/-- the pressures and their column at a grid point -/
theorem line_pressure (lev : String) (n : ℕ) (ps : LArr K) (P : LArr K) (a b : ℕ → K) (p0 : K) (hl : lev ∉ ps.dims) (hw : ps.WF)
    (hsz : P.size lev = n) (hget : ∀ i, P.get i = a (i lev) * p0 + b (i lev) * ps.get i) (i : String → ℕ) :
    P.line lev i = column n (levelPressure a b p0 ps i) := by
  unfold LArr.line column
  rw [hsz]
  refine List.map_congr_left fun k _ => ?_
  rw [hget, levelPressure]
  have : ps.get (Function.update i lev k) = ps.get i := by
    refine hw _ _ fun d hd => ?_
    rw [Function.update_of_ne]
    rintro rfl
    exact hl hd
  simp [this]

theorem line_data (lev : String) (n : ℕ) (data : LArr (XF K)) (hsz : data.size lev = n) (i : String → ℕ) :
    data.line lev i = column n (levelValue lev data i) := by
  unfold LArr.line column
  rw [hsz]
  rfl

/-- what the eager interpolation does at one column -/
def colRes (g : K → K) (lev : String) (x : List K) (P : LArr K) (D : LArr (XF K)) (i : String → ℕ) :
    Except PyErr (List (XF K)) := interpolate1d (x.map g) ((P.line lev i).map g) (D.line lev i)

/-- the value picked from a column -/
def pick (r : Except PyErr (List (XF K))) (q : ℕ) : XF K :=
  match r with
  | .ok r => r.getD q .nan
  | .error _ => .nan

theorem interpAlong_ok (g : K → K) (lev : String) (x : List K) (P : LArr K) (D : LArr (XF K))
    (hne : LArr.indicesOf D.size (D.dims.filter (fun d => d ≠ lev)) ≠ [])
    (hok : ∀ i ∈ LArr.indicesOf D.size (D.dims.filter (fun d => d ≠ lev)), ∃ r, colRes g lev x P D i = .ok r) :
    interpAlong g lev x P D = .ok ⟨outDims D.dims lev, fun d => if d = "plev" then x.length else D.size d,
      fun i => pick (colRes g lev x P D i) (i "plev")⟩ := by
  obtain ⟨r, hr⟩ := mapM_total _ _ hok
  have he : (LArr.indicesOf D.size (D.dims.filter (fun d => d ≠ lev))).isEmpty = false := by simpa using hne
  unfold interpAlong
  unfold colRes at hr
  simp only [he, hr, bind, Except.bind, pure, Except.pure]
  rfl

theorem forall₂_getD {α β : Type _} {R : α → β → Prop} {l : List α} {m : List β} (h : List.Forall₂ R l m) (q : ℕ) (a : α)
    (d : β) (hq : l[q]? = some a) : R a (m.getD q d) := by
  induction h generalizing q with
  | nil => simp at hq
  | cons h1 h2 ih =>
    cases q with
    | zero => simp at hq; subst hq; simpa using h1
    | succ q => simp at hq; simpa using ih q hq

theorem sorted_map (g : K → K) (S : Set K) (hg : StrictMonoOn g S) (x : List K) (hs : Sorted x) (hx : ∀ t ∈ x, t ∈ S) :
    Sorted (x.map g) := by
  rcases hs with hs | hs
  · left
    rw [List.pairwise_map]
    refine hs.imp_of_mem ?_
    intro c d hc hd h
    exact (hg.le_iff_le (hx c hc) (hx d hd)).mpr h
  · right
    rw [List.pairwise_map]
    refine hs.imp_of_mem ?_
    intro c d hc hd h
    exact (hg.le_iff_le (hx d hd) (hx c hc)).mpr h

/-- one column of the result -/
theorem colRes_spec (g : K → K) (S : Set K) (hg : StrictMonoOn g S) (lev : String) (n : ℕ) (hn : 2 ≤ n) (x : List K)
    (hx : x ≠ []) (hs : Sorted x) (hxS : ∀ t ∈ x, t ∈ S) (P : LArr K) (D : LArr (XF K)) (i : String → ℕ) (p : ℕ → K) (v : ℕ → XF K)
    (hp : P.line lev i = column n p) (hv : D.line lev i = column n v) (hd : Distinct n p) (hpS : ∀ k < n, p k ∈ S) :
    ∃ r, colRes g lev x P D i = .ok r ∧ ∀ q y, x[q]? = some y →
      InterpAt n (fun k => g (p k)) v (g y) (pick (colRes g lev x P D i) q) := by
  have hcol : (column n p).map g = column n (fun k => g (p k)) := by simp [column]
  have hd' : Distinct n (fun k => g (p k)) := fun k hk l hl h => hd k hk l hl (hg.injOn (hpS k hk) (hpS l hl) h)
  obtain ⟨r, hr, hf⟩ := interpolate1d_spec n hn (fun k => g (p k)) v hd' (x.map g) (by simpa using hx)
    (sorted_map g S hg x hs hxS)
  have hc : colRes g lev x P D i = .ok r := by
    unfold colRes
    rw [hp, hv, hcol, hr]
  refine ⟨r, hc, fun q y hq => ?_⟩
  rw [hc]
  exact forall₂_getD hf q (g y) .nan (by simp [hq])

theorem outDims_eq (dims : List String) (lev : String) : outDims dims lev = dims.map (fun d => if d = lev then "plev" else d) := rfl

/-- dimensions other than the level dimension are those of the surface pressure -/
theorem LevelData.filter_mem {lev : String} {n : ℕ} {ps : LArr K} {data : LArr (XF K)} (h : LevelData lev n ps data) (d : String) :
    d ∈ data.dims.filter (fun d => d ≠ lev) ↔ d ∈ ps.dims := by
  have := h.perm.mem_iff (a := d)
  simp only [List.mem_filter, ← this, List.mem_cons, decide_eq_true_eq]
  constructor
  · rintro ⟨h1 | h1, h2⟩
    · exact absurd h1 h2
    · exact h1
  · intro h1
    exact ⟨Or.inr h1, fun he => h.levNew (he ▸ h1)⟩

/-- eager interpolation of a well-formed input -/
theorem interpAlong_spec (g : K → K) (S : Set K) (hg : StrictMonoOn g S) (lev : String) (n : ℕ) (ps P : LArr K) (data : LArr (XF K))
    (h : LevelData lev n ps data) (a b : ℕ → K) (p0 : K) (x : List K) (hx : x ≠ []) (hs : Sorted x) (hxS : ∀ t ∈ x, t ∈ S)
    (hsz : P.size lev = n) (hget : ∀ i, P.get i = a (i lev) * p0 + b (i lev) * ps.get i)
    (hd : ∀ i, AtPoint ps i → Distinct n (levelPressure a b p0 ps i))
    (hpS : ∀ i, AtPoint ps i → ∀ k < n, levelPressure a b p0 ps i k ∈ S) :
    ∃ out, interpAlong g lev x P data = .ok out ∧ IsInterpolated g lev n a b p0 x ps data out := by
  have hcol : ∀ i, AtPoint ps i → ∃ r, colRes g lev x P data i = .ok r ∧ ∀ q y, x[q]? = some y →
      InterpAt n (fun k => g (levelPressure a b p0 ps i k)) (levelValue lev data i) (g y) (pick (colRes g lev x P data i) q) :=
    fun i hi => colRes_spec g S hg lev n h.two x hx hs hxS P data i _ _
      (line_pressure lev n ps P a b p0 h.levNew h.wf hsz hget i) (line_data lev n data h.sizeLev i) (hd i hi) (hpS i hi)
  refine ⟨_, interpAlong_ok g lev x P data ?_ ?_, ?_⟩
  · refine indicesOf_ne_nil _ _ fun d hd' => ?_
    have hm := (LevelData.filter_mem h d).mp hd'
    rw [(h.sizes d hm).1]
    exact (h.sizes d hm).2
  · intro i hi
    have hb := indicesOf_bounds _ _ i hi
    obtain ⟨r, hr, -⟩ := hcol i fun d hd' => by
      rw [← (h.sizes d hd').1]
      exact hb d ((LevelData.filter_mem h d).mpr hd')
    exact ⟨r, hr⟩
  · refine ⟨rfl, by simp, fun d hd' => ?_, fun i hi y hy => (hcol i hi).choose_spec.2 _ y hy⟩
    have : d ≠ "plev" := fun he => h.plevNew (he ▸ hd')
    simp [this, (h.sizes d hd').1]

/-- eager or chunked -/
def dispatch (g : K → K) (lev : String) (x : List K) (chunks : Option (String → List ℕ)) (others : Bool) (P : LArr K)
    (data : LArr (XF K)) : Except PyErr (LArr (XF K)) :=
  match chunks with
  | none => if others then .error .typeError else interpAlong g lev x P data
  | some c => interpChunked g lev x c P data

/-- the pressures computed first -/
theorem core_pressure (lev e : String) (n : ℕ) (ps : LArr K) (data : LArr (XF K)) (h : LevelData lev n ps data) (a b : ℕ → K) (p0 : K) :
    ∃ P, pressureXr ps (vec lev n a) (vec e n b) p0 = .ok P ∧ P.size lev = n ∧ (∀ i, P.get i = a (i lev) * p0 + b (i lev) * ps.get i) ∧
      ∀ g x chunks others labels below, interpHybridCore g lev p0 x chunks others labels data ps (vec lev n a) (vec e n b) below =
        (dispatch g lev x chunks others P data).map
        (fun out => match below with
          | none => out
          | some f => remapExtrap lev x labels P f out) := by
  obtain ⟨P, h1, h2, h3, h4, h5⟩ := C08_xarray ps lev e n a b p0 h.levNew h.wf
  refine ⟨P, h1, h3, h5, fun g x chunks others labels below => ?_⟩
  have m1 : lev ∈ data.dims := h.perm.mem_iff.mp (by simp)
  have m2 : P.dims.Perm data.dims := h2 ▸ h.perm
  have m3 : ∀ d ∈ data.dims, P.size d = data.size d := by
    intro d hd
    rcases List.mem_cons.mp (h.perm.mem_iff.mpr hd) with rfl | hd
    · rw [h3, h.sizeLev]
    · rw [h4 d hd, (h.sizes d hd).1]
  unfold interpHybridCore dispatch
  simp only [m1, not_true_eq_false, if_false, h1, m2, bind, Except.bind, pure, Except.pure]
  rw [if_neg (not_not.mpr m3)]
  cases chunks with
  | none =>
    cases others with
    | true => rfl
    | false =>
      simp only [Bool.false_eq_true, if_false]
      cases interpAlong g lev x P data <;> cases below <;> rfl
  | some c =>
    simp only
    cases interpChunked g lev x c P data <;> cases below <;> rfl

end Verif.Lemmas
