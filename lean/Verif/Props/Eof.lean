import Verif.Model.Eof
import Mathlib.Data.List.Nodup
import Mathlib.Tactic.Ring

/-
C66, C67, C97, C98: the EOF functions.
-/

set_option linter.unusedSectionVars false

namespace Verif.Props
open Model.EofFns

variable {K A : Type}

/-- `x` is `t` with axis `k` moved to the front, the other axes in their order -/
structure TimeFirst (t : Tensor K) (k : ℕ) (x : Tensor K) : Prop where
  shape : ∃ n, t.shape[k]? = some n ∧ x.shape = n :: t.shape.eraseIdx k
  get : ∀ i rest, Tensor.InBounds x.shape (i :: rest) → x.get (i :: rest) = t.get (rest.insertIdx k i)

theorem filter_range (n k : ℕ) (hk : k < n) :
    (List.range n).filter (· ≠ k) = (List.range (n - 1)).map (fun j => if j < k then j else j + 1) := by
  have hlt : ∀ m, m ≤ k → (List.range m).filter (· ≠ k) = List.range m := by
    intro m hm
    rw [List.filter_eq_self]
    intro a ha
    have := List.mem_range.mp ha
    rw [decide_eq_true_iff]
    omega
  have key : ∀ d, (List.range (k + 1 + d)).filter (· ≠ k) = (List.range (k + d)).map (fun j => if j < k then j else j + 1) := by
    intro d
    induction d with
    | zero =>
      rw [Nat.add_zero, Nat.add_zero, List.range_succ, List.filter_append, hlt k le_rfl, List.filter_cons_of_neg (by simp), List.filter_nil, List.append_nil]
      conv_lhs => rw [← List.map_id (List.range k)]
      exact List.map_congr_left fun a ha => (if_pos (List.mem_range.mp ha)).symm
    | succ d ih =>
      rw [show k + 1 + (d + 1) = (k + 1 + d) + 1 by ring, show k + (d + 1) = (k + d) + 1 by ring, List.range_succ, List.filter_append, ih,
        List.range_succ, List.map_append, List.filter_cons_of_pos (by rw [decide_eq_true_iff]; omega), List.filter_nil, List.map_cons, List.map_nil,
        if_neg (by omega)]
      congr 2
      omega
  obtain ⟨d, rfl⟩ : ∃ d, n = k + 1 + d := ⟨n - (k + 1), by omega⟩
  rw [key d]
  congr 2
  omega

theorem transpose_timeFirst (t : Tensor K) (k : ℕ) (hk : k < t.shape.length) :
    TimeFirst t k (npTranspose t (k :: (List.range t.shape.length).filter (· ≠ k))) := by
  rw [filter_range _ k hk]
  set n := t.shape.length with hn
  set f : ℕ → ℕ := fun j => if j < k then j else j + 1 with hf
  have hshape : (npTranspose t (k :: (List.range (n - 1)).map f)).shape = t.shape.getD k 0 :: t.shape.eraseIdx k := by
    unfold npTranspose
    simp only [List.map_cons, List.map_map]
    congr 1
    apply List.ext_getElem?
    intro j
    rw [List.getElem?_map, List.getElem?_eraseIdx]
    by_cases hj : j < n - 1
    · rw [List.getElem?_range hj]
      simp only [Option.map_some, Function.comp, hf]
      split_ifs with h
      · rw [List.getD_eq_getElem?_getD, List.getElem?_eq_getElem (by omega)]
        rfl
      · rw [List.getD_eq_getElem?_getD, List.getElem?_eq_getElem (by omega)]
        rfl
    · rw [List.getElem?_eq_none (by simp; omega)]
      split_ifs with h
      · omega
      · rw [List.getElem?_eq_none (by omega)]
        rfl
  refine ⟨⟨t.shape.getD k 0, ?_, hshape⟩, ?_⟩
  · rw [List.getD_eq_getElem?_getD, List.getElem?_eq_getElem hk]
    rfl
  · intro i rest hb
    rw [hshape] at hb
    have hlen : rest.length = n - 1 := by
      have := hb.length_eq
      simp only [List.length_cons, List.length_eraseIdx, ← hn, if_pos hk] at this
      omega
    show t.get _ = t.get _
    congr 1
    apply List.ext_getElem?
    intro a
    rw [List.getElem?_map, List.getElem?_insertIdx]
    by_cases ha : a < n
    · rw [List.getElem?_range (by omega)]
      simp only [Option.map_some]
      have hnd : ((List.range (n - 1)).map f).Nodup := by
        refine List.Nodup.map ?_ List.nodup_range
        intro x y hxy
        simp only [hf] at hxy
        split_ifs at hxy <;> omega
      have hpos : ∀ j, j < n - 1 → ((List.range (n - 1)).map f).idxOf (f j) = j := by
        intro j hj
        have hj' : j < ((List.range (n - 1)).map f).length := by simpa using hj
        have := hnd.idxOf_getElem j hj'
        simpa using this
      rcases lt_trichotomy a k with h | h | h
      · have e : a = f a := by simp [hf, h]
        rw [if_pos h, List.idxOf_cons_ne _ (by omega)]
        conv_lhs => rw [e]
        rw [hpos a (by omega), List.getD_eq_getElem?_getD, List.getElem?_cons_succ, List.getElem?_eq_getElem (by omega)]
        rfl
      · subst h
        rw [if_neg (lt_irrefl _), if_pos rfl, if_pos (by omega), List.idxOf_cons_self]
        rfl
      · have e : a = f (a - 1) := by
          simp only [hf]
          rw [if_neg (by omega)]
          omega
        rw [if_neg (by omega), if_neg (by omega), List.idxOf_cons_ne _ (by omega)]
        conv_lhs => rw [e]
        rw [hpos (a - 1) (by omega), List.getD_eq_getElem?_getD, List.getElem?_cons_succ, List.getElem?_eq_getElem (by omega)]
        rfl
    · rw [List.getElem?_eq_none (by simp; omega), if_neg (by omega), if_neg (by omega), List.getElem?_eq_none (by omega)]
      rfl

/-- `C66` for time_dim between 0 and ndim-1: passing an array is the same as passing the DataArray in which that axis has been moved to the
front, is called "time", and the other axes follow in their order -/
theorem C66_axis_partial [NatCast K] (t : Tensor K) (td : ℤ) (h0 : 0 ≤ td) (h1 : td < t.shape.length) :
    ∃ x : XArr K A, TimeFirst t td.toNat x.data ∧ x.dims.head? = some "time" ∧ x.dims.length = t.shape.length ∧ x.coords = [] ∧ x.attrs = [] ∧
      (∀ mk opts, generateSolver mk opts (.arr t) td = (mk opts x).map (fun s => (x, s))) ∧
      (∀ mk neofs sc opts vf isMeta, (eofuncEofs mk (.arr t) neofs td sc opts vf isMeta).1 = (eofuncEofs mk (.xr x) neofs td sc opts vf isMeta).1) ∧
      (∀ mk npcs sc opts isMeta, (eofuncPcs mk (.arr t) npcs td sc opts isMeta).1 = (eofuncPcs mk (.xr x) npcs td sc opts isMeta).1) := by
  have hk : td.toNat < t.shape.length := by omega
  set x : XArr K A := ⟨"time" :: (List.range (t.shape.length - 1)).map (fun i => s!"dim_{i + 1}"),
    npTranspose t (td.toNat :: (List.range t.shape.length).filter (· ≠ td.toNat)), [], []⟩ with hx
  have hg : generateData (A := A) (.arr t) td = .ok x := by
    unfold generateData
    simp only
    rw [if_neg (by omega), if_neg (by omega)]
  have hs : ∀ mk opts, generateSolver mk opts (.arr t : Input K A) td = generateSolver mk opts (.xr x) td := by
    intro mk opts
    unfold generateSolver
    rw [hg]
    rfl
  refine ⟨x, transpose_timeFirst t td.toNat hk, rfl, ?_, rfl, rfl, ?_, ?_, ?_⟩
  · simp [hx]
    omega
  · intro mk opts
    rw [hs]
    unfold generateSolver
    simp only [generateData, bind, Except.bind]
    cases mk opts x <;> rfl
  · intro mk neofs sc opts vf isMeta
    unfold eofuncEofs
    rw [hs]
    simp only
    cases generateSolver mk opts (.xr x) td with
    | error e => rfl
    | ok p =>
      simp only
      by_cases hn : neofs ≤ 0
      · rw [if_pos hn, if_pos hn]
      · rw [if_neg hn, if_neg hn]
        cases p.2.eofs neofs sc <;> rfl
  · intro mk npcs sc opts isMeta
    unfold eofuncPcs
    rw [hs]

/-- `C66`: a time_dim out of range raises ValueError -/
theorem C66_out_of_range [NatCast K] (mk : Opts K → XArr K A → Except PyErr (Solver K A)) (t : Tensor K) (td : ℤ)
    (h : (t.shape.length : ℤ) ≤ td ∨ td < -(t.shape.length : ℤ)) (n sc : ℤ) (opts : Opts K) (vf isMeta : Bool) :
    (eofuncEofs mk (.arr t) n td sc opts vf isMeta).1 = .error .valueError ∧ (eofuncPcs mk (.arr t) n td sc opts isMeta).1 = .error .valueError := by
  have hg : generateSolver mk opts (.arr t : Input K A) td = .error .valueError := by
    unfold generateSolver generateData
    simp only
    rw [if_pos h]
    rfl
  unfold eofuncEofs eofuncPcs
  rw [hg]
  exact ⟨rfl, rfl⟩

/-- `C66` fails for the documented value -1: every negative time_dim raises ValueError -/
theorem C66_counterexample [NatCast K] (mk : Opts K → XArr K A → Except PyErr (Solver K A)) (t : Tensor K) (td : ℤ) (h : td < 0) (n sc : ℤ)
    (opts : Opts K) (vf isMeta : Bool) :
    (eofuncEofs mk (.arr t) n td sc opts vf isMeta).1 = .error .valueError ∧ (eofuncPcs mk (.arr t) n td sc opts isMeta).1 = .error .valueError := by
  have hg : generateSolver mk opts (.arr t : Input K A) td = .error .valueError := by
    unfold generateSolver generateData
    simp only
    rw [if_pos h]
    split_ifs <;> rfl
  unfold eofuncEofs eofuncPcs
  rw [hg]
  exact ⟨rfl, rfl⟩

/-! ### C67: the input object -/

/-- `C67` for eofunc_pcs, and for eofunc_eofs without `meta`: the attributes of the input are left alone -/
theorem C67_unchanged_partial [NatCast K] (mk : Opts K → XArr K A → Except PyErr (Solver K A)) (data : Input K A) (n td sc : ℤ) (opts : Opts K)
    (vf isMeta : Bool) :
    (eofuncEofs mk data n td sc opts vf false).2 = data.attrs ∧ (eofuncPcs mk data n td sc opts isMeta).2 = data.attrs := by
  refine ⟨?_, ?_⟩
  · unfold eofuncEofs
    cases hg : generateSolver mk opts data td with
    | error e => cases data <;> rfl
    | ok p =>
      simp only
      by_cases hn : n ≤ 0
      · rw [if_pos hn]
      · rw [if_neg hn]
        cases p.2.eofs n sc <;> cases data <;> rfl
  · unfold eofuncPcs
    cases data <;> rfl

theorem mem_setItem_self (d : List (String × A)) (k : String) (v : A) : (k, v) ∈ setItem d k v := by
  unfold setItem
  split_ifs with h
  · obtain ⟨x, hx, hk⟩ := List.mem_map.mp h
    exact List.mem_map.mpr ⟨x, hx, by rw [if_pos hk]⟩
  · simp

theorem mem_setItem_other (d : List (String × A)) (k k' : String) (v v' : A) (hne : k' ≠ k) (h : (k', v') ∈ d) : (k', v') ∈ setItem d k v := by
  unfold setItem
  split_ifs
  · exact List.mem_map.mpr ⟨(k', v'), h, by rw [if_neg hne]⟩
  · exact List.mem_append_left _ h

/-- `C67` fails for eofunc_eofs with `meta`: every successful solution of a DataArray writes its eigenvalues into the attributes of the input -/
theorem C67_counterexample (mk : Opts K → XArr K A → Except PyErr (Solver K A)) (x : XArr K A) (s : Solver K A) (opts : Opts K) (hs : mk opts x = .ok s)
    (n td sc : ℤ) (hn : 0 < n) (vf : Bool) (e : Tensor K) (he : s.eofs n sc = .ok e) :
    ("eigenvalues", s.eigenvalues n) ∈ (eofuncEofs mk (.xr x) n td sc opts vf true).2 := by
  have hg : generateSolver mk opts (.xr x) td = .ok (x, s) := by
    unfold generateSolver
    simp only [generateData, bind, Except.bind, hs]
    rfl
  unfold eofuncEofs
  rw [hg]
  simp only
  rw [if_neg (by omega), he]
  simp only [if_true]
  exact mem_setItem_other _ _ _ _ _ (by decide) (mem_setItem_other _ _ _ _ _ (by decide) (mem_setItem_other _ _ _ _ _ (by decide)
    (mem_setItem_self _ _ _)))

/-! ### C97: names, coordinates and attributes of the EOFs -/

/-- what a successful call has computed -/
theorem eofs_ok (mk : Opts K → XArr K A → Except PyErr (Solver K A)) (data : Input K A) (n td sc : ℤ) (opts : Opts K) (vf isMeta : Bool)
    (out : XArr K A) (h : (eofuncEofs mk data n td sc opts vf isMeta).1 = .ok out) :
    ∃ x s e dims coords, generateData data td = .ok x ∧ mk opts x = .ok s ∧ 0 < n ∧ s.eofs n sc = .ok e ∧ eofDims x td isMeta = .ok (dims, coords) ∧
      out.dims = dims ∧ out.data = e ∧ out.coords = coords ∧ dims.length = e.shape.length ∧
      out.attrs = setItem (setItem (setItem (setItem (if isMeta then x.attrs else []) "eigenvalues" (s.eigenvalues n)) "northTest" (s.northTest n vf))
        "totalAnomalyVariance" s.totalAnomalyVariance) "varianceFraction" (s.varianceFraction n) := by
  unfold eofuncEofs at h
  cases hg : generateSolver mk opts data td with
  | error e => rw [hg] at h; cases h
  | ok p =>
    obtain ⟨x, s⟩ := p
    rw [hg] at h
    simp only at h
    unfold generateSolver at hg
    cases hx : generateData data td with
    | error e => rw [hx] at hg; cases hg
    | ok x' =>
      rw [hx] at hg
      simp only [bind, Except.bind] at hg
      cases hs : mk opts x' with
      | error e => rw [hs] at hg; cases hg
      | ok s' =>
        rw [hs] at hg
        simp only [pure, Except.pure, Except.ok.injEq, Prod.mk.injEq] at hg
        obtain ⟨rfl, rfl⟩ := hg
        by_cases hn : n ≤ 0
        · rw [if_pos hn] at h
          cases h
        · rw [if_neg hn] at h
          cases he : s'.eofs n sc with
          | error e => rw [he] at h; cases h
          | ok e =>
            rw [he] at h
            simp only [bind, Except.bind] at h
            cases hd : eofDims x' td isMeta with
            | error e => rw [hd] at h; cases h
            | ok dc =>
              obtain ⟨dims, coords⟩ := dc
              rw [hd] at h
              simp only [mkDataArray] at h
              by_cases h1 : dims.length ≠ e.shape.length
              · rw [if_pos h1] at h
                cases h
              · rw [if_neg h1] at h
                by_cases h2 : ¬ (coords.all (fun c => decide (c.data.shape = c.dims.map (fun d => e.shape.getD (dims.idxOf d) 0) ∧ c.dims ⊆ dims))) = true
                · rw [if_pos h2] at h
                  cases h
                · rw [if_neg h2] at h
                  injection h with h
                  subst h
                  exact ⟨x', s', e, dims, coords, rfl, hs, by omega, he, hd, rfl, rfl, rfl, not_not.mp h1, rfl⟩

theorem keep_eq (n : ℕ) (td : ℤ) (h0 : 0 ≤ td) (h1 : td < n) :
    (List.range n).filter (fun (i : ℕ) => decide ((i : ℤ) ≠ td)) = (List.range (n - 1)).map (fun j => if j < td.toNat then j else j + 1) := by
  rw [← filter_range n td.toNat (by omega)]
  refine List.filter_congr fun i _ => ?_
  rw [decide_eq_decide]
  constructor <;> intro h <;> omega

/-- removing entry `k` -/
theorem map_skip {β : Type} [Inhabited β] (l : List β) (k : ℕ) (hk : k < l.length) (d : β) :
    ((List.range (l.length - 1)).map (fun j => if j < k then j else j + 1)).map (fun i => l.getD i d) = l.eraseIdx k := by
  apply List.ext_getElem?
  intro j
  rw [List.map_map, List.getElem?_map, List.getElem?_eraseIdx]
  by_cases hj : j < l.length - 1
  · rw [List.getElem?_range hj]
    simp only [Option.map_some, Function.comp]
    split_ifs with h
    · rw [List.getD_eq_getElem?_getD, List.getElem?_eq_getElem (by omega)]
      rfl
    · rw [List.getD_eq_getElem?_getD, List.getElem?_eq_getElem (by omega)]
      rfl
  · rw [List.getElem?_eq_none (by simp; omega)]
    split_ifs with h
    · omega
    · rw [List.getElem?_eq_none (by omega)]
      rfl

/-- `C97` for arrays without `meta`: the dimensions of the EOFs are "eof" and the numbers of the axes of the input other than time -/
theorem C97_array_labels (mk : Opts K → XArr K A → Except PyErr (Solver K A)) (t : Tensor K) (n td sc : ℤ) (h0 : 0 ≤ td) (h1 : td < t.shape.length)
    (opts : Opts K) (vf : Bool) (out : XArr K A) (h : (eofuncEofs mk (.arr t) n td sc opts vf false).1 = .ok out) :
    out.dims = "eof" :: ((List.range t.shape.length).map (fun i => s!"dim_{i}")).eraseIdx td.toNat ∧ out.coords = [] ∧
    out.attrs.map (·.1) = ["eigenvalues", "northTest", "totalAnomalyVariance", "varianceFraction"] := by
  obtain ⟨x, s, e, dims, coords, hx, -, -, -, hd, rfl, -, rfl, -, ha⟩ := eofs_ok mk _ n td sc opts vf false out h
  have hlen : x.data.shape.length = t.shape.length := by
    unfold generateData at hx
    simp only at hx
    rw [if_neg (by omega), if_neg (by omega)] at hx
    injection hx with hx
    subst hx
    have := transpose_timeFirst t td.toNat (by omega)
    obtain ⟨m, -, hs⟩ := this.shape
    simp only [hs, List.length_cons, List.length_eraseIdx]
    split_ifs <;> omega
  unfold eofDims at hd
  simp only [Bool.false_eq_true, if_false, pure, Except.pure, Except.ok.injEq, Prod.mk.injEq] at hd
  refine ⟨?_, hd.2.symm, ?_⟩
  · rw [← hd.1, hlen, keep_eq _ td h0 h1]
    congr 1
    have := map_skip ((List.range t.shape.length).map (fun i => s!"dim_{i}")) td.toNat (by simp; omega) ""
    rw [← this]
    simp only [List.length_map, List.length_range, List.map_map]
    refine List.map_congr_left fun j hj => ?_
    have hj := List.mem_range.mp hj
    simp only [Function.comp]
    rw [List.getD_eq_getElem?_getD, List.getElem?_map, List.getElem?_range (by split_ifs <;> omega)]
    rfl
  · rw [ha]
    simp [setItem]

/-- `C97` for DataArrays with `meta` and the default time_dim: the EOFs have the dimensions of the input except the first, all coordinates except
that of the first dimension, and all attributes of the input (those which do not have the name of a result) -/
theorem C97_meta_partial (mk : Opts K → XArr K A → Except PyErr (Solver K A)) (x : XArr K A) (d0 : String) (ds : List String) (hd : x.dims = d0 :: ds)
    (hwf : x.data.shape.length = x.dims.length) (n sc : ℤ) (opts : Opts K) (vf : Bool) (out : XArr K A)
    (h : (eofuncEofs mk (.xr x) n 0 sc opts vf true).1 = .ok out) :
    out.dims = "eof" :: ds ∧ out.coords = x.coords.filter (fun c => decide (c.name ≠ d0)) ∧
    (∀ k v, (k, v) ∈ x.attrs → k ∉ ["eigenvalues", "northTest", "totalAnomalyVariance", "varianceFraction"] → (k, v) ∈ out.attrs) := by
  obtain ⟨x', s, e, dims, coords, hx, -, -, -, hdd, rfl, -, rfl, -, ha⟩ := eofs_ok mk _ n 0 sc opts vf true out h
  simp only [generateData, Except.ok.injEq] at hx
  subst hx
  unfold eofDims at hdd
  simp only [if_true, bind, Except.bind, pure, Except.pure] at hdd
  rw [hwf, hd, keep_eq _ 0 le_rfl (by simp)] at hdd
  have hds := map_skip (d0 :: ds) 0 (by simp) ""
  simp only [List.length_cons, List.eraseIdx_zero, List.tail_cons] at hds
  simp only [List.length_cons, Int.toNat_zero, hds] at hdd
  have hget : pyGet (d0 :: ds) 0 = .ok d0 := rfl
  refine ⟨?_, ?_, ?_⟩
  · cases hc : x.coords.isEmpty
    · simp only [hc, Bool.false_eq_true, if_false, hget, Except.ok.injEq, Prod.mk.injEq] at hdd
      exact hdd.1.symm
    · simp only [hc, if_true, Except.ok.injEq, Prod.mk.injEq] at hdd
      exact hdd.1.symm
  · cases hc : x.coords.isEmpty
    · simp only [hc, Bool.false_eq_true, if_false, hget, Except.ok.injEq, Prod.mk.injEq] at hdd
      exact hdd.2.symm
    · simp only [hc, if_true, Except.ok.injEq, Prod.mk.injEq] at hdd
      rw [List.isEmpty_iff] at hc
      rw [hc, ← hdd.2]
      rfl
  · intro k v hkv hk
    simp only [List.mem_cons, List.not_mem_nil, or_false, not_or] at hk
    rw [ha]
    simp only [if_true]
    exact mem_setItem_other _ _ _ _ _ hk.2.2.2 (mem_setItem_other _ _ _ _ _ hk.2.2.1 (mem_setItem_other _ _ _ _ _ hk.2.1
      (mem_setItem_other _ _ _ _ _ hk.1 hkv)))

/-- a solver for which every computation succeeds, and which gives fields of the spatial shape of its data -/
def toySolver : Opts ℚ → XArr ℚ ℚ → Except PyErr (Solver ℚ ℚ) := fun _ x => .ok
  { eofs := fun n _ => .ok ⟨n.toNat :: x.data.shape.tail, fun _ => 0⟩
    pcs := fun n _ => .ok ⟨[x.data.shape.headD 0, n.toNat], fun _ => 0⟩
    eigenvalues := fun _ => 1, northTest := fun _ _ => 2, totalAnomalyVariance := 3, varianceFraction := fun _ => 4 }

/-- a DataArray (time: 3, lat: 2, lon: 4) with the given coordinates -/
def toyData (coords : List (Coord ℚ)) : XArr ℚ ℚ := ⟨["time", "lat", "lon"], ⟨[3, 2, 4], fun _ => 0⟩, coords, [("units", 7)]⟩

/-- names of the result, or the exception -/
def outDims (r : Except PyErr (XArr ℚ ℚ)) : Except PyErr (List String) := r.map (·.dims)

/-- `C97` fails: for a DataArray time_dim is documented to be ignored, but it changes the names of the dimensions of the result: with time_dim=1 and
`meta`, the latitudes are called time -/
theorem C97_counterexample_timeDim :
    outDims (eofuncEofs toySolver (.xr (toyData [])) 1 0 0 ⟨none, true, 1⟩ false true).1 = .ok ["eof", "lat", "lon"] ∧
    outDims (eofuncEofs toySolver (.xr (toyData [])) 1 1 0 ⟨none, true, 1⟩ false true).1 = .ok ["eof", "time", "lon"] ∧
    outDims (eofuncEofs toySolver (.xr (toyData [])) 1 (-1) 0 ⟨none, true, 1⟩ false true).1 = .error .valueError := by
  decide +kernel

/-- `C97` fails: with `meta`, an array whose time axis is not the first gets the name "time" for a spatial dimension, and its own time axis's number
is missing -/
theorem C97_counterexample_array :
    outDims (eofuncEofs toySolver (.arr ⟨[2, 3, 4], fun _ => 0⟩) 1 1 0 ⟨none, true, 1⟩ false true).1 = .ok ["eof", "time", "dim_2"] := by
  decide +kernel

/-- `C97` fails: with `meta`, a DataArray with a second coordinate along time raises ValueError -/
theorem C97_counterexample_aux :
    outDims (eofuncEofs toySolver (.xr (toyData [⟨"time", ["time"], ⟨[3], fun _ => 0⟩⟩, ⟨"year", ["time"], ⟨[3], fun _ => 0⟩⟩])) 1 0 0 ⟨none, true, 1⟩
      false true).1 = .error .valueError := by
  decide +kernel

/-! ### C98: the old names -/

/-- `C98` for arrays: eofunc and eofunc_ts are eofunc_eofs and eofunc_pcs with the last axis as time by default -/
theorem C98_arrays_partial [NatCast K] (mk : Opts K → XArr K A → Except PyErr (Solver K A)) (t : Tensor K) (n : ℕ) (td : Option ℤ) (isMeta : Bool)
    (evec : List ℕ) :
    eofunc mk (.arr t) n td isMeta = (eofuncEofs mk (.arr t) n (td.getD ((t.shape.length : ℤ) - 1)) 0 ⟨none, true, 1⟩ false isMeta).1 ∧
    eofuncTs mk (.arr t) (n :: evec) td isMeta = (eofuncPcs mk (.arr t) n (td.getD ((t.shape.length : ℤ) - 1)) 0 ⟨none, true, 1⟩ isMeta).1 :=
  ⟨rfl, rfl⟩

/-- `C98` fails for DataArrays: they are turned into arrays first, so that `meta` finds no metadata -/
theorem C98_counterexample [NatCast K] (mk : Opts K → XArr K A → Except PyErr (Solver K A)) (x : XArr K A) (n : ℤ) (td : Option ℤ) (isMeta : Bool)
    (evec : List ℕ) :
    eofunc mk (.xr x) n td isMeta = eofunc mk (.arr x.data) n td isMeta ∧ eofuncTs mk (.xr x) evec td isMeta = eofuncTs mk (.arr x.data) evec td isMeta :=
  ⟨rfl, rfl⟩

theorem C98_counterexample_dims :
    outDims (eofunc toySolver (.xr (toyData [])) 1 (some 0) true) = .ok ["eof", "dim_1", "dim_2"] ∧
    outDims (eofuncEofs toySolver (.xr (toyData [])) 1 0 0 ⟨none, true, 1⟩ false true).1 = .ok ["eof", "lat", "lon"] := by
  decide +kernel

/-- what a successful eofunc_pcs with `meta` has found -/
theorem pcs_meta_ok [NatCast K] (mk : Opts K → XArr K A → Except PyErr (Solver K A)) (data : Input K A) (n td sc : ℤ) (opts : Opts K) (out : XArr K A)
    (h : (eofuncPcs mk data n td sc opts true).1 = .ok out) :
    ∃ x name c, generateData data td = .ok x ∧ pyGet x.dims td = .ok name ∧ getCoord x name = .ok c ∧ c.dims ⊆ ["pc", "time"] := by
  unfold eofuncPcs generateSolver at h
  cases hx : generateData data td with
  | error e => rw [hx] at h; cases h
  | ok x =>
    rw [hx] at h
    simp only [bind, Except.bind, pure, Except.pure, throw, throwThe, MonadExceptOf.throw, if_true] at h
    cases hs : mk opts x with
    | error e => rw [hs] at h; cases h
    | ok s =>
      rw [hs] at h
      simp only at h
      by_cases hn : n ≤ 0
      · rw [if_pos hn] at h
        cases h
      · rw [if_neg hn] at h
        simp only [hs] at h
        cases hp : s.pcs n sc with
        | error e => rw [hp] at h; cases h
        | ok p =>
          rw [hp] at h
          simp only at h
          cases ht : pyGet x.dims td with
          | error e => rw [ht] at h; cases h
          | ok name =>
            rw [ht] at h
            simp only at h
            cases hc : getCoord x name with
            | error e => rw [hc] at h; cases h
            | ok c =>
              rw [hc] at h
              refine ⟨x, name, c, rfl, ht, hc, ?_⟩
              simp only [mkDataArray] at h
              split_ifs at h with h1 h2
              simp only [List.all_cons, List.all_nil, Bool.and_true, decide_eq_true_eq] at h2
              exact h2.2

theorem dim_name (k : ℕ) : s!"dim_{k}" ∉ ["pc", "time"] := by
  intro h
  simp only [List.mem_cons, List.not_mem_nil, or_false] at h
  rcases h with h | h
  · have := congrArg String.toList h
    simp [toString] at this
  · have := congrArg String.toList h
    simp [toString] at this

/-- `C98` fails: eofunc_ts with `meta` never succeeds for data of rank 2 or more (default time_dim) -/
theorem C98_counterexample_ts [NatCast K] (mk : Opts K → XArr K A → Except PyErr (Solver K A)) (data : Input K A) (h2 : 2 ≤ (asArray data).shape.length)
    (evec : List ℕ) (out : XArr K A) : eofuncTs mk data evec none true ≠ .ok out := by
  intro h
  unfold eofuncTs at h
  cases evec with
  | nil => cases h
  | cons n evec =>
    simp only [Option.getD_none] at h
    set t := asArray data
    obtain ⟨x, name, c, hx, hn, hc, hsub⟩ := pcs_meta_ok mk _ _ _ _ _ out h
    unfold generateData at hx
    simp only at hx
    rw [if_neg (by omega), if_neg (by omega)] at hx
    injection hx with hx
    subst hx
    simp only [pyGet, Py.index] at hn
    rw [if_neg (by omega), if_neg (by omega)] at hn
    have hidx : ((t.shape.length : ℤ) - 1).toNat = (t.shape.length - 2) + 1 := by omega
    rw [hidx, List.getElem?_cons_succ, List.getElem?_map, List.getElem?_range (by omega)] at hn
    simp only [Option.map_some, Except.ok.injEq] at hn
    have hmem : name ∈ "time" :: (List.range (t.shape.length - 1)).map (fun i => s!"dim_{i + 1}") := by
      rw [← hn]
      exact List.mem_cons_of_mem _ (List.mem_map.mpr ⟨t.shape.length - 2, List.mem_range.mpr (by omega), rfl⟩)
    unfold getCoord at hc
    simp only [List.find?_nil] at hc
    rw [if_pos hmem] at hc
    injection hc with hc
    subst hc
    have := hsub (List.mem_singleton.mpr rfl)
    rw [← hn] at this
    exact dim_name _ this

/-! ### cases which meet the hypotheses -/

example : ∃ out, (eofuncEofs toySolver (.arr ⟨[2, 3, 4], fun _ => 0⟩) 1 1 0 ⟨none, true, 1⟩ false false).1 = .ok out ∧ out.dims = ["eof", "dim_0", "dim_2"] :=
  ⟨_, rfl, by decide +kernel⟩

example : ∃ out, (eofuncEofs toySolver (.xr (toyData [⟨"time", ["time"], ⟨[3], fun _ => 0⟩⟩, ⟨"lat", ["lat"], ⟨[2], fun _ => 0⟩⟩])) 1 0 0 ⟨none, true, 1⟩
    false true).1 = .ok out ∧ out.coords.map (·.name) = ["lat"] ∧ ("units", 7) ∈ out.attrs :=
  ⟨_, rfl, by decide +kernel, by decide +kernel⟩

end Verif.Props
