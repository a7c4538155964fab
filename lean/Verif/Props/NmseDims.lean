import Verif.Model.NmseDims
import Verif.Lemmas.NmseDims
import Verif.Lemmas.Nmse

/-
C187: nmse of fields with dimensions besides latitude and longitude.
-/

set_option linter.unusedSectionVars false
namespace Verif.Props
open Verif Model Spec Lemmas
variable {K : Type} [Field K] [LinearOrder K] [IsStrictOrderedRing K]

/-- along every dimension both arrays have, they have the same size and, if both carry labels, the same labels in the same order -/
def Belong {α β : Type} (a : IArr K α) (b : IArr K β) : Prop :=
  ∀ d ∈ a.arr.dims, d ∈ b.arr.dims → a.arr.size d = b.arr.size d ∧ ∀ x y, a.index d = some x → b.index d = some y → x = y

theorem izip_inv {α β γ : Type} (f : α → β → γ) (a : IArr K α) (b : IArr K β) (r : IArr K γ) (h : IArr.zip f a b = .ok r) :
    (∀ d ∈ a.arr.dims, d ∈ b.arr.dims → ∃ q, joinLabels (a.arr.size d) (b.arr.size d) (a.index d) (b.index d) = .ok q) ∧
    r.arr.dims = a.arr.dims ++ b.arr.dims.filter (fun d => !a.arr.dims.contains d) ∧ r.index = IArr.joined a b := by
  unfold IArr.zip at h
  simp only [bind, Except.bind] at h
  split at h
  · cases h
  rename_i v hv
  cases h
  refine ⟨?_, rfl, rfl⟩
  intro d h1 h2
  obtain ⟨q, hq⟩ := mapM_ok_mem _ _ _ hv d (by simp [h1])
  simp only [IArr.joinDim, h1, h2, if_true] at hq
  exact ⟨q, hq⟩

/-- **C187, labels.** nmse compares two fields only if, along every dimension both have (latitude, longitude, time, level, ...), they have the same
labels in the same order: any other pair is rejected, never compared by position or on a silent intersection. -/
theorem C187_rejects (wt : K → K) (lat lon : LArr K) (obs mdl : IArr K (Option K)) (hlat : ∀ d ∈ lat.dims, d ∈ obs.arr.dims)
    (out : IArr K (XF K)) (h : nmseDims wt lat lon obs mdl = .ok out) : Belong obs mdl := by
  unfold nmseDims at h
  simp only [bind, Except.bind] at h
  split at h
  · cases h
  rename_i cond hcond
  split at h
  · cases h
  rename_i w hw
  split at h
  · cases h
  rename_i o ho
  split at h
  · cases h
  rename_i m hm
  obtain ⟨c1, c2, c3⟩ := izip_inv _ _ _ _ hcond
  obtain ⟨w1, w2, w3, w4⟩ := zipExact_ok _ _ _ _ hw
  obtain ⟨o1, -, -, -⟩ := zipExact_ok _ _ _ _ ho
  obtain ⟨m1, -, -, -⟩ := zipExact_ok _ _ _ _ hm
  intro d hdo hdm
  have hdc : d ∈ cond.arr.dims := by rw [c2]; exact (mem_joinedDims _ _ d).mpr (Or.inl hdo)
  have hdw : d ∈ w.arr.dims := by rw [w2]; exact (mem_joinedDims _ _ d).mpr (Or.inr hdc)
  obtain ⟨so, lo⟩ := o1 d hdo hdw
  obtain ⟨sm, lm⟩ := m1 d hdm hdw
  refine ⟨so.trans sm.symm, ?_⟩
  intro x y hx hy
  obtain ⟨q, hq⟩ := c1 d hdo hdm
  obtain ⟨-, p2⟩ := pairs_both obs mdl d hdo hdm q.1 q.2 hq
  have hq2 : ∃ z, q.2 = some z := by
    rw [hx, hy] at hq
    simp only [joinLabels] at hq
    split at hq
    · cases hq; exact ⟨_, rfl⟩
    · split at hq
      · cases hq
      · cases hq; exact ⟨_, rfl⟩
  obtain ⟨z, hz⟩ := hq2
  have hci : cond.index d = some z := by rw [c3, p2, hz]
  have hwi : (w.index d).isSome := by
    by_cases hdl : d ∈ lat.dims
    · exact (w3 d hdl hdc).2 z hci
    · rw [(w4 d hdl hdc).2, hci]; rfl
  obtain ⟨v, hv⟩ := Option.isSome_iff_exists.mp hwi
  rw [lo x v hx hv, lm y v hy hv]

theorem maskVar_map {ι : Type} (c : List ι) (w : ι → K) (o m : ι → Option K) :
    maskVar (c.map w) (c.map o) (c.map m) = (c.map (fun x => maskWeight (w x) (o x) (m x)), c.map (fun x => maskValue (maskWeight (w x) (o x) (m x)) (o x)),
      c.map (fun x => maskValue (maskWeight (w x) (o x) (m x)) (m x))) := by
  have h1 : List.zipWith (fun w (x : Option K × Option K) => maskWeight w x.1 x.2) (c.map w) (List.zip (c.map o) (c.map m)) =
      c.map (fun x => maskWeight (w x) (o x) (m x)) := by
    apply List.ext_getElem
    · simp
    · intro k _ _
      simp
  unfold maskVar
  simp only [h1]
  refine Prod.ext rfl (Prod.ext ?_ ?_)
  · apply List.ext_getElem
    · simp
    · intro k _ _
      simp
  · apply List.ext_getElem
    · simp
    · intro k _ _
      simp

/-- `nmse` of arrays that fit together, index by index -/
theorem nmseDims_fits {S : String → ℕ} {L : String → Option (List K)} {N : String → Prop} (wt : K → K) (lat lon : LArr K) (obs mdl : IArr K (Option K))
    (fo : Fits S L N obs) (fm : Fits S L N mdl) (hlw : lat.WF) (hlat : ∀ d ∈ lat.dims, d ∈ obs.arr.dims ∧ lat.size d = obs.arr.size d)
    (hlon : ∀ d ∈ lon.dims, d ∈ obs.arr.dims) :
    ∃ out, nmseDims wt lat lon obs mdl = .ok out ∧ Fits S L N out ∧
      (∀ d, d ∈ out.arr.dims ↔ (d ∈ obs.arr.dims ∨ d ∈ mdl.arr.dims) ∧ d ∉ lat.dims ∧ d ∉ lon.dims) ∧
      ∀ i, (∀ d ∈ out.arr.dims, i d < S d) →
        let v := maskVar ((cellsAt S (lat.dims ++ lon.dims).dedup i).map (fun c => wt (lat.get c)))
          ((cellsAt S (lat.dims ++ lon.dims).dedup i).map obs.arr.get) ((cellsAt S (lat.dims ++ lon.dims).dedup i).map mdl.arr.get)
        out.arr.get i = nmseSlice v.1 v.2.1 v.2.2 := by
  set sp := (lat.dims ++ lon.dims).dedup with hspdef
  have hn : sp.Nodup := List.nodup_dedup _
  have hsp : ∀ d, d ∈ sp ↔ d ∈ lat.dims ∨ d ∈ lon.dims := by
    intro d
    rw [hspdef, List.mem_dedup, List.mem_append]
  have hspo : ∀ d ∈ sp, d ∈ obs.arr.dims := by
    intro d hd
    rcases (hsp d).mp hd with h | h
    · exact (hlat d h).1
    · exact hlon d h
  have f0 : Fits S L N (⟨lat.map wt, obs.index⟩ : IArr K K) := by
    refine ⟨?_, ?_, ?_⟩
    · intro i j hij
      show wt _ = wt _
      rw [hlw i j hij]
    · intro d hd
      obtain ⟨h1, h2⟩ := hlat d hd
      show lat.size d = _
      rw [h2, fo.size d h1]
    · intro d hd
      exact fo.index d (hlat d hd).1
  obtain ⟨cond, ec, fc, dc, gc⟩ := zip_fits (fun (o m : Option K) => o.isSome && m.isSome) fo fm
  obtain ⟨w, ew, fw, dw, gw⟩ := zipExact_fits (fun (w : K) (c : Bool) => if c then w else 0) f0 fc
  obtain ⟨o, eo, fo', do', go⟩ := zipExact_fits (fun (x : Option K) (w : K) => maskValue w x) fo fw
  obtain ⟨m, em, fm', dm', gm⟩ := zipExact_fits (fun (x : Option K) (w : K) => maskValue w x) fm fw
  have mc : ∀ d, d ∈ cond.arr.dims ↔ d ∈ obs.arr.dims ∨ d ∈ mdl.arr.dims := fun d => by rw [dc, mem_joinedDims]
  have mw : ∀ d, d ∈ w.arr.dims ↔ d ∈ obs.arr.dims ∨ d ∈ mdl.arr.dims := by
    intro d
    rw [dw, mem_joinedDims, mc]
    constructor
    · rintro (h | h)
      · exact Or.inl (hlat d h).1
      · exact h
    · exact Or.inr
  have mo : ∀ d, d ∈ o.arr.dims ↔ d ∈ obs.arr.dims ∨ d ∈ mdl.arr.dims := by
    intro d
    rw [do', mem_joinedDims, mw]
    tauto
  have mm : ∀ d, d ∈ m.arr.dims ↔ d ∈ obs.arr.dims ∨ d ∈ mdl.arr.dims := by
    intro d
    rw [dm', mem_joinedDims, mw]
    tauto
  obtain ⟨ow, eow, fow, mow, gow⟩ := meanOver_fits sp hn fw (fits_map some fo') (fun d hd => Or.inr ((mw d).mpr (Or.inl (hspo d hd))))
  obtain ⟨nu, enu, fnu, dnu, gnu⟩ := zip_fits (fun m o : K => some ((m - o) * (m - o))) fm' fo'
  have mnu : ∀ d, d ∈ nu.arr.dims ↔ d ∈ obs.arr.dims ∨ d ∈ mdl.arr.dims := by
    intro d
    rw [dnu, mem_joinedDims, mm, mo]
    tauto
  obtain ⟨nu2, enu2, fnu2, mnu2, gnu2⟩ := meanOver_fits sp hn fw fnu (fun d hd => Or.inr ((mw d).mpr (Or.inl (hspo d hd))))
  obtain ⟨de, ede, fde, dde, gde⟩ := zip_fits (fun (o : K) (ow : Option K) => ow.map (fun ow => (o - ow) * (o - ow))) fo' fow
  have hod : (IArr.map some o).arr.dims = o.arr.dims := rfl
  have mow' : ∀ d, d ∈ ow.arr.dims ↔ (d ∈ obs.arr.dims ∨ d ∈ mdl.arr.dims) ∧ d ∉ sp := by
    intro d
    rw [mow, hod, mo, mw]
    tauto
  have mde : ∀ d, d ∈ de.arr.dims ↔ d ∈ obs.arr.dims ∨ d ∈ mdl.arr.dims := by
    intro d
    rw [dde, mem_joinedDims, mo, mow']
    tauto
  obtain ⟨de2, ede2, fde2, mde2, gde2⟩ := meanOver_fits sp hn fw fde (fun d hd => Or.inr ((mw d).mpr (Or.inl (hspo d hd))))
  obtain ⟨out, eout, fout, dout, gout⟩ := zip_fits (fun (n d : Option K) => ofOpt n / ofOpt d) fnu2 fde2
  have mout : ∀ d, d ∈ out.arr.dims ↔ (d ∈ obs.arr.dims ∨ d ∈ mdl.arr.dims) ∧ d ∉ sp := by
    intro d
    rw [dout, mem_joinedDims, mnu2, mde2, mnu, mde, mw]
    tauto
  refine ⟨out, ?_, fout, ?_, ?_⟩
  · unfold nmseDims
    simp only [ec, ew, eo, em, ← hspdef, bind, Except.bind, eow, enu, enu2, ede, ede2]
    exact eout
  · intro d
    rw [mout, hsp]
    tauto
  · intro i hi
    have hi' : ∀ d, d ∈ obs.arr.dims ∨ d ∈ mdl.arr.dims → d ∉ sp → i d < S d := fun d h1 h2 => hi d ((mout d).mpr ⟨h1, h2⟩)
    -- indices of the cells are valid
    have hcell : ∀ c ∈ cellsAt S sp i, ∀ d, d ∈ obs.arr.dims ∨ d ∈ mdl.arr.dims → c d < S d := by
      intro c hc d hd
      obtain ⟨h1, h2⟩ := mem_cellsAt S sp hn i c hc
      by_cases h : d ∈ sp
      · exact h1 d h
      · rw [h2 d h]; exact hi' d hd h
    have vw : ∀ c ∈ cellsAt S sp i, w.arr.get c = maskWeight (wt (lat.get c)) (obs.arr.get c) (mdl.arr.get c) := by
      intro c hc
      rw [gw, gc c (hcell c hc)]
      unfold maskWeight
      show (if _ then wt (lat.get c) else 0) = _
      simp
    have vo : ∀ c ∈ cellsAt S sp i, o.arr.get c = maskValue (maskWeight (wt (lat.get c)) (obs.arr.get c) (mdl.arr.get c)) (obs.arr.get c) := by
      intro c hc
      rw [go, vw c hc]
    have vm : ∀ c ∈ cellsAt S sp i, m.arr.get c = maskValue (maskWeight (wt (lat.get c)) (obs.arr.get c) (mdl.arr.get c)) (mdl.arr.get c) := by
      intro c hc
      rw [gm, vw c hc]
    have vow : ∀ c ∈ cellsAt S sp i, ow.arr.get c = wmeanNa ((cellsAt S sp i).map w.arr.get) ((cellsAt S sp i).map (fun c => some (o.arr.get c))) := by
      intro c hc
      have : ow.arr.get c = ow.arr.get i := by
        apply fow.wf
        intro d hd
        exact (mem_cellsAt S sp hn i c hc).2 d ((mow' d).mp hd).2
      rw [this]
      exact gow i (by
        intro d h1 h2
        rw [hod, mo, mw] at h1
        exact hi' d (by tauto) h2)
    have e1 : nu2.arr.get i = wmeanNa ((cellsAt S sp i).map w.arr.get) ((cellsAt S sp i).map (fun c => some ((m.arr.get c - o.arr.get c) * (m.arr.get c - o.arr.get c)))) := by
      rw [gnu2 i (by
        intro d h1 h2
        rw [mnu, mw] at h1
        exact hi' d (by tauto) h2)]
      congr 1
      apply List.map_congr_left
      intro c hc
      apply gnu
      intro d hd
      rw [mm, mo] at hd
      exact hcell c hc d (by tauto)
    have e2 : de2.arr.get i = wmeanNa ((cellsAt S sp i).map w.arr.get) ((cellsAt S sp i).map (fun x =>
        (wmeanNa ((cellsAt S sp i).map w.arr.get) ((cellsAt S sp i).map (fun c => some (o.arr.get c)))).map (fun ow => (o.arr.get x - ow) * (o.arr.get x - ow)))) := by
      rw [gde2 i (by
        intro d h1 h2
        rw [mde, mw] at h1
        exact hi' d (by tauto) h2)]
      congr 1
      apply List.map_congr_left
      intro c hc
      rw [gde c (by
        intro d hd
        rw [mo, mow'] at hd
        exact hcell c hc d (by tauto)), vow c hc]
    rw [gout i (by
      intro d hd
      apply hi
      rw [dout, mem_joinedDims]
      exact hd), e1, e2, nmse_of_means (cellsAt S sp i) w.arr.get o.arr.get m.arr.get, maskVar_map]
    rw [List.map_congr_left vw, List.map_congr_left vo, List.map_congr_left vm]

/-- common sizes and labels of two arrays that belong together -/
theorem belong_fits (obs mdl : IArr K (Option K)) (hb : Belong obs mdl) (ho : obs.arr.WF) (hm : mdl.arr.WF) :
    ∃ L, Fits (fun d => if d ∈ obs.arr.dims then obs.arr.size d else mdl.arr.size d) L (fun _ => True) obs ∧
      Fits (fun d => if d ∈ obs.arr.dims then obs.arr.size d else mdl.arr.size d) L (fun _ => True) mdl := by
  refine ⟨fun d => if d ∈ obs.arr.dims then (obs.index d).orElse (fun _ => mdl.index d) else mdl.index d, ⟨ho, ?_, ?_⟩, ⟨hm, ?_, ?_⟩⟩
  · intro d hd
    simp [hd]
  · intro d hd
    cases h : obs.index d with
    | none => exact Or.inl ⟨rfl, trivial⟩
    | some l => right; simp [hd, h]
  · intro d hd
    by_cases h : d ∈ obs.arr.dims
    · simp only [h, if_true]
      exact (hb d h hd).1.symm
    · simp [h]
  · intro d hd
    cases h : mdl.index d with
    | none => exact Or.inl ⟨rfl, trivial⟩
    | some y =>
      right
      by_cases h' : d ∈ obs.arr.dims
      · cases hx : obs.index d with
        | none => simp [h', hx, h]
        | some x => simp [h', hx, (hb d h' hd).2 x y hx h]
      · simp [h', h]

/-- the size of dimension `d` in either array -/
def sizeOf2 (obs mdl : IArr K (Option K)) (d : String) : ℕ := if d ∈ obs.arr.dims then obs.arr.size d else mdl.arr.size d

/-- **C187, slices.** Two fields that belong together are compared, and the result has every dimension of either field except those of the
latitude and the longitude. At each index of these dimensions stands the normalised mean squared error of the cells of that slice in which both
fields have a value: no other slice has any influence. Along a dimension only one field has, the other field is compared with every slice. -/
theorem C187_slices (wt : K → K) (lat lon : LArr K) (obs mdl : IArr K (Option K)) (hb : Belong obs mdl) (ho : obs.arr.WF) (hm : mdl.arr.WF)
    (hlw : lat.WF) (hlat : ∀ d ∈ lat.dims, d ∈ obs.arr.dims ∧ lat.size d = obs.arr.size d) (hlon : ∀ d ∈ lon.dims, d ∈ obs.arr.dims) :
    ∃ out, nmseDims wt lat lon obs mdl = .ok out ∧
      (∀ d, d ∈ out.arr.dims ↔ (d ∈ obs.arr.dims ∨ d ∈ mdl.arr.dims) ∧ d ∉ lat.dims ∧ d ∉ lon.dims) ∧
      (∀ d ∈ out.arr.dims, out.arr.size d = sizeOf2 obs mdl d) ∧
      ∀ i, (∀ d ∈ out.arr.dims, i d < out.arr.size d) →
        let cells := cellsAt (sizeOf2 obs mdl) (lat.dims ++ lon.dims).dedup i
        let V := validCells (cells.map (fun c => wt (lat.get c))) (cells.map obs.arr.get) (cells.map mdl.arr.get)
        out.arr.get i = if (V.map (·.1)).sum = 0 then .nan else
          .fin (wMean V (·.1) (fun x => (x.2.2 - x.2.1) ^ 2)) / .fin (wMean V (·.1) (fun x => (x.2.1 - wMean V (·.1) (·.2.1)) ^ 2)) := by
  obtain ⟨L, fo, fm⟩ := belong_fits obs mdl hb ho hm
  obtain ⟨out, e, fout, hd, hg⟩ := nmseDims_fits wt lat lon obs mdl fo fm hlw hlat hlon
  refine ⟨out, e, hd, fout.size, ?_⟩
  intro i hi
  have := hg i (fun d h => by rw [← fout.size d h]; exact hi d h)
  simp only at this ⊢
  rw [this, nmseSlice_valid _ _ _ (by simp) (by simp)]
  rfl

/-- **C187, labels of the result.** If the fields carry the same labels (or both none) along the dimensions they share, each dimension of the result
keeps the labels it has in the inputs. -/
theorem C187_labels (wt : K → K) (lat lon : LArr K) (obs mdl : IArr K (Option K)) (ho : obs.arr.WF) (hm : mdl.arr.WF)
    (hb : ∀ d ∈ obs.arr.dims, d ∈ mdl.arr.dims → obs.arr.size d = mdl.arr.size d ∧ obs.index d = mdl.index d)
    (hlw : lat.WF) (hlat : ∀ d ∈ lat.dims, d ∈ obs.arr.dims ∧ lat.size d = obs.arr.size d) (hlon : ∀ d ∈ lon.dims, d ∈ obs.arr.dims)
    (out : IArr K (XF K)) (h : nmseDims wt lat lon obs mdl = .ok out) :
    ∀ d ∈ out.arr.dims, (d ∈ obs.arr.dims → out.index d = obs.index d) ∧ (d ∈ mdl.arr.dims → out.index d = mdl.index d) := by
  have fo : Fits (sizeOf2 obs mdl) (fun d => if d ∈ obs.arr.dims then obs.index d else mdl.index d) (fun _ => False) obs := by
    refine ⟨ho, ?_, ?_⟩
    · intro d hd; simp [sizeOf2, hd]
    · intro d hd; right; simp [hd]
  have fm : Fits (sizeOf2 obs mdl) (fun d => if d ∈ obs.arr.dims then obs.index d else mdl.index d) (fun _ => False) mdl := by
    refine ⟨hm, ?_, ?_⟩
    · intro d hd
      by_cases h' : d ∈ obs.arr.dims
      · simp [sizeOf2, h', (hb d h' hd).1]
      · simp [sizeOf2, h']
    · intro d hd
      right
      by_cases h' : d ∈ obs.arr.dims
      · simp [h', (hb d h' hd).2]
      · simp [h']
  obtain ⟨out', e, fout, -, -⟩ := nmseDims_fits wt lat lon obs mdl fo fm hlw hlat hlon
  rw [h] at e
  cases e
  intro d hd
  rcases fout.index d hd with ⟨-, k⟩ | k
  · exact absurd k id
  · constructor
    · intro h1
      rw [k]; simp [h1]
    · intro h2
      rw [k]
      by_cases h1 : d ∈ obs.arr.dims
      · simp [h1, (hb d h1 h2).2]
      · simp [h1]

/-- a one-dimensional coordinate -/
def coord1 (d : String) (l : List K) : LArr K := ⟨[d], fun _ => l.length, fun i => l.getD (i d) 0⟩

/-- the field of `a` over latitude and longitude, row by row, at index `i` of the other dimensions -/
def fieldAt (a : LArr (Option K)) (lat lon : String) (n m : ℕ) (i : String → ℕ) : List (Option K) :=
  (List.range n).flatMap (fun k => (List.range m).map (fun j => a.get (fun d => if d = lat then k else if d = lon then j else i d)))

theorem cellsAt_two (S : String → ℕ) (lat lon : String) (hne : lat ≠ lon) (i : String → ℕ) :
    cellsAt S [lat, lon] i = (List.range (S lat)).flatMap (fun k => (List.range (S lon)).map (fun j => fun d => if d = lat then k else if d = lon then j else i d)) := by
  unfold cellsAt
  simp only [LArr.indicesOf, List.map_flatMap, List.map_cons, List.map_nil]
  apply List.flatMap_congr
  intro k _
  rw [List.map_eq_flatMap]
  apply List.flatMap_congr
  intro j _
  congr 1
  funext d
  by_cases h1 : d = lat
  · simp [h1]
  · by_cases h2 : d = lon
    · subst h2
      simp [h1]
    · simp [h1, h2]

/-- **C187, as separate calls.** With one-dimensional latitudes and longitudes, the value at an index of the remaining dimensions (a time, a level, an
ensemble member) is what nmse returns for the two fields over latitude and longitude at that index. -/
theorem C187_nmse (wt : K → K) (dlat dlon : String) (hne : dlat ≠ dlon) (la lo : List K) (obs mdl : IArr K (Option K)) (ho : obs.arr.WF) (hm : mdl.arr.WF)
    (hd1 : dlat ∈ obs.arr.dims) (hd2 : dlon ∈ obs.arr.dims) (hs1 : obs.arr.size dlat = la.length) (hs2 : obs.arr.size dlon = lo.length)
    (out : IArr K (XF K)) (h : nmseDims wt (coord1 dlat la) (coord1 dlon lo) obs mdl = .ok out)
    (i : String → ℕ) (hi : ∀ d ∈ out.arr.dims, i d < out.arr.size d)
    (O M : GeoInput K) (n1 n2 : String) (hO1 : O.lat = .d1 la) (hO2 : O.lon = .d1 lo)
    (hO : O.vars = [(n1, fieldAt obs.arr dlat dlon la.length lo.length i)]) (hM : M.vars = [(n2, fieldAt mdl.arr dlat dlon la.length lo.length i)])
    (r : XF K) (hr : nmseWith wt O M = .ok (.one r)) : out.arr.get i = r := by
  have hb := C187_rejects wt (coord1 dlat la) (coord1 dlon lo) obs mdl (by
    intro d hd
    have : d = dlat := by simpa [coord1] using hd
    rw [this]; exact hd1) out h
  have hlw : (coord1 dlat la).WF := by
    intro a b hab
    simp only [coord1] at hab ⊢
    rw [hab dlat (by simp)]
  obtain ⟨out', e, -, hsz, hg⟩ := C187_slices wt (coord1 dlat la) (coord1 dlon lo) obs mdl hb ho hm hlw (by
    intro d hd
    have : d = dlat := by simpa [coord1] using hd
    subst this
    exact ⟨hd1, hs1.symm⟩) (by
    intro d hd
    have : d = dlon := by simpa [coord1] using hd
    rw [this]; exact hd2)
  rw [h] at e
  cases e
  have hv := hg i hi
  have hdd : ((coord1 dlat la).dims ++ (coord1 dlon lo).dims).dedup = [dlat, dlon] := by
    simp [coord1, List.dedup_cons_of_notMem, hne]
  have k1 : sizeOf2 obs mdl dlat = la.length := by simp [sizeOf2, hd1, hs1]
  have k2 : sizeOf2 obs mdl dlon = lo.length := by simp [sizeOf2, hd2, hs2]
  simp only [hdd, cellsAt_two _ _ _ hne, k1, k2, List.map_flatMap, List.map_map, Function.comp_def] at hv
  obtain ⟨lats, no, nm, o, m, hgr, -, ho', hm', hr'⟩ := (nmse_one_iff wt O M r).mp hr
  rw [hO] at ho'
  rw [hM] at hm'
  simp only [List.cons.injEq, Prod.mk.injEq, and_true] at ho' hm'
  obtain ⟨-, rfl⟩ := ho'
  obtain ⟨-, rfl⟩ := hm'
  have hl := hgr.cells
  rw [hO1, hO2] at hl
  simp only [cellLats, Option.some.injEq] at hl
  have hlat : (List.range la.length).flatMap (fun k => (List.range lo.length).map (fun j =>
      wt ((coord1 dlat la).get (fun d => if d = dlat then k else if d = dlon then j else i d)))) = lats.map wt := by
    rw [← hl, List.map_flatMap]
    have hla : (List.range la.length).map (fun k => la.getD k 0) = la := by
      apply List.ext_getElem
      · simp
      · intro k h1 h2
        simp [List.getD, h2]
    have key : ∀ g : K → List K, la.flatMap g = (List.range la.length).flatMap (fun k => g (la.getD k 0)) := by
      intro g
      conv_lhs => rw [← hla]
      rw [List.flatMap_map]
    rw [key]
    apply List.flatMap_congr
    intro k _
    rw [List.map_replicate]
    apply List.ext_getElem
    · simp
    · intro a _ _
      simp [coord1]
  have hol := hgr.lengths (n1, fieldAt obs.arr dlat dlon la.length lo.length i) (by rw [hO]; simp)
  have hml := hgr.lengths (n2, fieldAt mdl.arr dlat dlon la.length lo.length i) (by rw [hM]; simp)
  rw [hlat] at hv
  rw [hr', nmseSlice_valid _ _ _ (by simpa using hol) (by simpa using hml), hv]
  rfl

-- two times of the model against one observed field; the second time has a missing cell
example : (nmseDims (fun _ => (1 : ℚ)) (coord1 "lat" [0, 10]) (coord1 "lon" [0, 10])
      ⟨⟨["lat", "lon"], fun _ => 2, fun i => some ((i "lat" : ℚ) + 2 * (i "lon" : ℚ))⟩, fun _ => some [0, 10]⟩
      ⟨⟨["time", "lon", "lat"], fun _ => 2, fun i => if i "time" = 1 ∧ i "lat" = 1 ∧ i "lon" = 0 then none else
        some ((i "lat" : ℚ) + 2 * (i "lon" : ℚ) + 1)⟩, fun d => if d = "time" then some [1, 2] else some [0, 10]⟩).map
      (fun r => (r.arr.dims, r.arr.get (fun _ => 0), r.arr.get (fun d => if d = "time" then 1 else 0), r.index "time")) =
    .ok (["time"], .fin (4 / 5), .fin (9 / 14), some [1, 2]) := by decide +kernel

end Verif.Props
