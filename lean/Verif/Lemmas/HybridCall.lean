import Verif.Lemmas.Chunks
import Verif.Model.Extrap

set_option linter.unusedSectionVars false
namespace Verif.Lemmas
open Model Spec Props
variable {K : Type _} [Field K] [LinearOrder K] [IsStrictOrderedRing K]

/-! ### consequences of the interpolation specification -/

theorem bracket_transform (g : K → K) (S : Set K) (hg : StrictMonoOn g S) (n : ℕ) (p : ℕ → K) (hp : ∀ k < n, p k ∈ S) (x : K)
    (hx : x ∈ S) (i j : ℕ) : Spec.Bracket n (fun k => g (p k)) (g x) i j ↔ Spec.Bracket n p x i j := by
  unfold Spec.Bracket
  constructor
  · rintro ⟨h1, h2, h3, h4, h5, h6⟩
    refine ⟨h1, h2, (hg.lt_iff_lt (hp i h1) (hp j h2)).mp h3, (hg.le_iff_le (hp i h1) hx).mp h4, (hg.le_iff_le hx (hp j h2)).mp h5, ?_⟩
    intro k hk h
    exact h6 k hk ⟨(hg.lt_iff_lt (hp i h1) (hp k hk)).mpr h.1, (hg.lt_iff_lt (hp k hk) (hp j h2)).mpr h.2⟩
  · rintro ⟨h1, h2, h3, h4, h5, h6⟩
    refine ⟨h1, h2, (hg.lt_iff_lt (hp i h1) (hp j h2)).mpr h3, (hg.le_iff_le (hp i h1) hx).mpr h4, (hg.le_iff_le hx (hp j h2)).mpr h5, ?_⟩
    intro k hk h
    exact h6 k hk ⟨(hg.lt_iff_lt (hp i h1) (hp k hk)).mp h.1, (hg.lt_iff_lt (hp k hk) (hp j h2)).mp h.2⟩

theorem outside_transform (g : K → K) (S : Set K) (hg : StrictMonoOn g S) (n : ℕ) (p : ℕ → K) (hp : ∀ k < n, p k ∈ S) (x : K)
    (hx : x ∈ S) : Outside n (fun k => g (p k)) (g x) ↔ Outside n p x := by
  unfold Outside
  refine or_congr (forall₂_congr fun k hk => ?_) (forall₂_congr fun k hk => ?_)
  · exact hg.lt_iff_lt hx (hp k hk)
  · exact hg.lt_iff_lt (hp k hk) hx

/-- with finite values on both sides the line is finite and between them, and hits them at the ends -/
theorem lineValue_fin (pi pj vi vj x : K) (h : pi < pj) (h1 : pi ≤ x) (h2 : x ≤ pj) :
    ∃ y, lineValue pi pj (.fin vi) (.fin vj) x = .fin y ∧ min vi vj ≤ y ∧ y ≤ max vi vj ∧ (x = pi → y = vi) ∧ (x = pj → y = vj) := by
  have hd : 0 < pj - pi := by linarith
  refine ⟨vi + (vj - vi) * ((x - pi) / (pj - pi)), by simp [lineValue], ?_, ?_, ?_, ?_⟩
  · set t := (x - pi) / (pj - pi) with ht
    have t0 : 0 ≤ t := div_nonneg (by linarith) hd.le
    have t1 : t ≤ 1 := by rw [ht, div_le_one hd]; linarith
    rcases le_total vi vj with h' | h'
    · rw [min_eq_left h']; nlinarith
    · rw [min_eq_right h']; nlinarith
  · set t := (x - pi) / (pj - pi) with ht
    have t0 : 0 ≤ t := div_nonneg (by linarith) hd.le
    have t1 : t ≤ 1 := by rw [ht, div_le_one hd]; linarith
    rcases le_total vi vj with h' | h'
    · rw [max_eq_right h']; nlinarith
    · rw [max_eq_left h']; nlinarith
  · rintro rfl; simp
  · rintro rfl; rw [div_self hd.ne']; ring

/-! ### the call -/

/-- eager input throughout, or chunked `data` (`others`: is one of the other arrays a dask array) -/
def ValidChunks (data : LArr (XF K)) (chunks : Option (String → List ℕ)) (others : Bool) : Prop :=
  match chunks with
  | none => others = false
  | some c => Chunking data c

theorem LevelData.plev {lev : String} {n : ℕ} {ps : LArr K} {data : LArr (XF K)} (h : LevelData lev n ps data) :
    "plev" ∉ data.dims.filter (fun d => d ≠ lev) := fun hm => h.plevNew ((LevelData.filter_mem h _).mp hm)

theorem LevelData.pos {lev : String} {n : ℕ} {ps : LArr K} {data : LArr (XF K)} (h : LevelData lev n ps data) :
    ∀ d ∈ data.dims.filter (fun d => d ≠ lev), 0 < data.size d := by
  intro d hd
  have hm := (LevelData.filter_mem h d).mp hd
  rw [(h.sizes d hm).1]
  exact (h.sizes d hm).2

theorem LevelData.lev_mem {lev : String} {n : ℕ} {ps : LArr K} {data : LArr (XF K)} (h : LevelData lev n ps data) :
    lev ∈ data.dims := h.perm.mem_iff.mp (by simp)

theorem LevelData.atPoint {lev : String} {n : ℕ} {ps : LArr K} {data : LArr (XF K)} (h : LevelData lev n ps data) (i : String → ℕ) :
    (∀ d ∈ data.dims.filter (fun d => d ≠ lev), i d < data.size d) ↔ AtPoint ps i := by
  constructor
  · intro hi d hd
    rw [← (h.sizes d hd).1]
    exact hi d ((LevelData.filter_mem h d).mpr hd)
  · intro hi d hd
    have hm := (LevelData.filter_mem h d).mp hd
    rw [(h.sizes d hm).1]
    exact hi d hm

theorem SameOutcome.map {ok : (String → ℕ) → Prop} {r s : Except PyErr (LArr (XF K))} (h : SameOutcome ok r s)
    (f : LArr (XF K) → LArr (XF K))
    (hf : ∀ o o' : LArr (XF K), o.dims = o'.dims → o.size = o'.size → (∀ i, ok i → o.get i = o'.get i) →
      (f o).dims = (f o').dims ∧ (f o).size = (f o').size ∧ ∀ i, ok i → (f o).get i = (f o').get i) :
    SameOutcome ok (r.map f) (s.map f) := by
  cases r <;> cases s <;> simp only [SameOutcome, Except.map] at h ⊢
  · exact h
  · exact hf _ _ h.1 h.2.1 h.2.2

theorem SameOutcome.mono {ok ok' : (String → ℕ) → Prop} {r s : Except PyErr (LArr (XF K))} (h : SameOutcome ok r s)
    (hi : ∀ i, ok' i → ok i) : SameOutcome ok' r s := by
  cases r <;> cases s <;> simp only [SameOutcome] at h ⊢
  · exact h
  · exact ⟨h.1, h.2.1, fun i hi' => h.2.2 i (hi i hi')⟩

/-- chunked and eager evaluation agree, errors included -/
theorem core_chunks (g : K → K) (lev e : String) (n : ℕ) (ps : LArr K) (data : LArr (XF K)) (h : LevelData lev n ps data) (a b : ℕ → K)
    (p0 : K) (x : List K) (c : String → List ℕ) (hc : Chunking data c) (others : Bool) (labels : List K)
    (below : Option (K → K → (String → ℕ) → XF K)) :
    SameOutcome (AtPoint ps) (interpHybridCore g lev p0 x none false labels data ps (vec lev n a) (vec e n b) below)
      (interpHybridCore g lev p0 x (some c) others labels data ps (vec lev n a) (vec e n b) below) := by
  obtain ⟨P, -, h2, -, h4⟩ := core_pressure lev e n ps data h a b p0
  rw [h4, h4]
  refine SameOutcome.map ?_ _ ?_
  · simp only [dispatch, Bool.false_eq_true, if_false]
    exact (interpChunked_same g lev x P data c (LevelData.lev_mem h) (LevelData.plev h) (by rw [h2, h.sizeLev])
      (LevelData.pos h) hc).mono fun i hi => (LevelData.atPoint h i).mpr hi
  · intro o o' h1 h2 h3
    cases below with
    | none => exact ⟨h1, h2, h3⟩
    | some f =>
      refine ⟨h1, h2, fun i hi => ?_⟩
      simp only [remapExtrap, h3 i hi]

/-- a value after the extrapolation step -/
def finish (below : Option (K → K → (String → ℕ) → XF K)) (inner : XF K) (y p : K) (i : String → ℕ) : XF K :=
  match below with
  | none => inner
  | some f => if y ≤ p then inner else f y p i

/-- the value at a grid point depends only on the column there -/
theorem core_get (g : K → K) (lev e : String) (n : ℕ) (ps : LArr K) (data : LArr (XF K)) (h : LevelData lev n ps data) (a b : ℕ → K)
    (p0 : K) (x : List K) (chunks : Option (String → List ℕ)) (others : Bool) (hv : ValidChunks data chunks others) (labels : List K)
    (below : Option (K → K → (String → ℕ) → XF K)) (out : LArr (XF K))
    (hout : interpHybridCore g lev p0 x chunks others labels data ps (vec lev n a) (vec e n b) below = .ok out)
    (i : String → ℕ) (hi : AtPoint ps i) :
    let inner := pick (interpolate1d (x.map g) (column n (fun k => g (levelPressure a b p0 ps i k))) (column n (levelValue lev data i)))
      (i "plev")
    out.get i = finish below inner (x.getD (i "plev") 0) (a (argmax labels) * p0 + b (argmax labels) * ps.get i) i := by
  intro inner
  have eager : ∀ out', interpHybridCore g lev p0 x none false labels data ps (vec lev n a) (vec e n b) below = .ok out' →
      out'.get i = finish below inner (x.getD (i "plev") 0) (a (argmax labels) * p0 + b (argmax labels) * ps.get i) i := by
    intro out' hout'
    obtain ⟨P, -, h2, h3, h4⟩ := core_pressure lev e n ps data h a b p0
    rw [h4] at hout'
    simp only [dispatch, Bool.false_eq_true, if_false] at hout'
    have hpsi : ps.get (Function.update i lev (argmax labels)) = ps.get i := by
      refine h.wf _ _ fun d hd => ?_
      rw [Function.update_of_ne]
      rintro rfl
      exact h.levNew hd
    rcases interpAlong_cases g lev x P data (by rw [h2, h.sizeLev]) (indicesOf_ne_nil _ _ (LevelData.pos h)) with ⟨-, heq⟩ | ⟨-, heq⟩
    · rw [heq] at hout'
      simp only [Except.map, Except.ok.injEq] at hout'
      have hin : pick (colRes g lev x P data i) (i "plev") = inner := by
        show pick _ _ = pick _ _
        unfold colRes
        rw [line_pressure lev n ps P a b p0 h.levNew h.wf h2 h3 i, line_data lev n data h.sizeLev i]
        simp only [column, List.map_map]
        rfl
      subst hout'
      cases below with
      | none => exact hin
      | some f => simp only [remapExtrap, hin, h3, hpsi, Function.update_self, finish]
    · rw [heq] at hout'
      simp [Except.map] at hout'
  cases chunks with
  | none =>
    simp only [ValidChunks] at hv
    subst hv
    exact eager out hout
  | some c =>
    have := core_chunks g lev e n ps data h a b p0 x c hv others labels below
    rw [hout] at this
    cases ho : interpHybridCore g lev p0 x none false labels data ps (vec lev n a) (vec e n b) below with
    | error e => rw [ho] at this; exact this.elim
    | ok o =>
      rw [ho] at this
      rw [← this.2.2 i hi]
      exact eager o ho

/-- everything at once, without extrapolation -/
theorem core_spec (g : K → K) (S : Set K) (hg : StrictMonoOn g S) (lev e : String) (n : ℕ) (ps : LArr K) (data : LArr (XF K))
    (h : LevelData lev n ps data) (a b : ℕ → K) (p0 : K) (x : List K) (hx : x ≠ []) (hs : Sorted x) (hxS : ∀ t ∈ x, t ∈ S)
    (hd : ∀ i, AtPoint ps i → Distinct n (levelPressure a b p0 ps i))
    (hpS : ∀ i, AtPoint ps i → ∀ k < n, levelPressure a b p0 ps i k ∈ S)
    (chunks : Option (String → List ℕ)) (others : Bool) (hv : ValidChunks data chunks others) (labels : List K) :
    ∃ out, interpHybridCore g lev p0 x chunks others labels data ps (vec lev n a) (vec e n b) none = .ok out ∧
      IsInterpolated g lev n a b p0 x ps data out := by
  obtain ⟨P, -, h2, h3, h4⟩ := core_pressure lev e n ps data h a b p0
  obtain ⟨out, ho, hi⟩ := interpAlong_spec g S hg lev n ps P data h a b p0 x hx hs hxS h2 h3 hd hpS
  have heager : interpHybridCore g lev p0 x none false labels data ps (vec lev n a) (vec e n b) none = .ok out := by
    rw [h4]; simp [dispatch, ho, Except.map]
  cases chunks with
  | none =>
    simp only [ValidChunks] at hv
    subst hv
    exact ⟨out, heager, hi⟩
  | some c =>
    have := core_chunks g lev e n ps data h a b p0 x c hv others labels none
    rw [heager] at this
    cases ho : interpHybridCore g lev p0 x (some c) others labels data ps (vec lev n a) (vec e n b) none with
    | error e => rw [ho] at this; exact this.elim
    | ok o =>
      rw [ho] at this
      obtain ⟨t1, t2, t3⟩ := this
      refine ⟨o, rfl, t1 ▸ hi.dims, t2 ▸ hi.sizePlev, fun d hd' => t2 ▸ hi.sizes d hd', fun i hi' y hy => ?_⟩
      rw [← t3 i hi']
      exact hi.value i hi' y hy

/-- extrapolation is applied to the result without extrapolation -/
theorem core_below (g : K → K) (lev e : String) (n : ℕ) (ps : LArr K) (data : LArr (XF K)) (h : LevelData lev n ps data)
    (a b : ℕ → K) (p0 : K) (x : List K) (chunks : Option (String → List ℕ)) (others : Bool) (labels : List K)
    (f : K → K → (String → ℕ) → XF K) (out : LArr (XF K))
    (ho : interpHybridCore g lev p0 x chunks others labels data ps (vec lev n a) (vec e n b) none = .ok out) :
    ∃ out', interpHybridCore g lev p0 x chunks others labels data ps (vec lev n a) (vec e n b) (some f) = .ok out' ∧
      out'.dims = out.dims ∧ out'.size = out.size ∧
      ∀ i, out'.get i = if x.getD (i "plev") 0 ≤ levelPressure a b p0 ps i (argmax labels) then out.get i
        else f (x.getD (i "plev") 0) (levelPressure a b p0 ps i (argmax labels)) i := by
  obtain ⟨P, -, h2, h3, h4⟩ := core_pressure lev e n ps data h a b p0
  rw [h4] at ho ⊢
  generalize dispatch g lev x chunks others P data = r at ho ⊢
  cases r with
  | error e => simp [Except.map] at ho
  | ok o =>
    simp only [Except.map, Except.ok.injEq] at ho ⊢
    subst ho
    refine ⟨_, rfl, rfl, rfl, fun i => ?_⟩
    have hpsi : ps.get (Function.update i lev (argmax labels)) = ps.get i := by
      refine h.wf _ _ fun d hd => ?_
      rw [Function.update_of_ne]
      rintro rfl
      exact h.levNew hd
    simp only [remapExtrap, h3, hpsi, Function.update_self, levelPressure]
    rfl

end Verif.Lemmas
