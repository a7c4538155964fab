import Verif.Props.Eof

/-
C97: the values and attributes of the EOF functions' results.
-/

set_option linter.unusedSectionVars false

namespace Verif.Props
open Model.EofFns

variable {K A : Type}

/-- `C97`, the values: for a DataArray, whenever eofunc_eofs returns, the number of EOFs asked for is positive, the values are the ones the solver computes
from the data for that number and scaling, and the four statistics stored with it are the solver's for that number (the North test in the scaling
asked for). -/
theorem C97_eofs_values (mk : Opts K → XArr K A → Except PyErr (Solver K A)) (x : XArr K A) (n td sc : ℤ) (opts : Opts K) (vf isMeta : Bool)
    (out : XArr K A) (h : (eofuncEofs mk (.xr x) n td sc opts vf isMeta).1 = .ok out) :
    0 < n ∧ ∃ s e, mk opts x = .ok s ∧ s.eofs n sc = .ok e ∧ out.data = e ∧ out.dims.length = e.shape.length ∧
      ("eigenvalues", s.eigenvalues n) ∈ out.attrs ∧ ("northTest", s.northTest n vf) ∈ out.attrs ∧
      ("totalAnomalyVariance", s.totalAnomalyVariance) ∈ out.attrs ∧ ("varianceFraction", s.varianceFraction n) ∈ out.attrs := by
  obtain ⟨x', s, e, dims, coords, hx, hs, hn, he, -, rfl, hd, -, hl, ha⟩ := eofs_ok mk _ n td sc opts vf isMeta out h
  simp only [generateData, Except.ok.injEq] at hx
  subst hx
  rw [ha]
  exact ⟨hn, s, e, hs, he, hd, hl,
    mem_setItem_other _ _ _ _ _ (by decide) (mem_setItem_other _ _ _ _ _ (by decide) (mem_setItem_other _ _ _ _ _ (by decide) (mem_setItem_self _ _ _))),
    mem_setItem_other _ _ _ _ _ (by decide) (mem_setItem_other _ _ _ _ _ (by decide) (mem_setItem_self _ _ _)),
    mem_setItem_other _ _ _ _ _ (by decide) (mem_setItem_self _ _ _), mem_setItem_self _ _ _⟩

/-- `C97`, when it returns: without `meta`, eofunc_eofs of a DataArray of rank `r` with a time dimension in range returns exactly when the number asked for is
positive, the solver accepts the data and gives fields of rank `r`. -/
theorem C97_eofs_returns (mk : Opts K → XArr K A → Except PyErr (Solver K A)) (x : XArr K A) (n td sc : ℤ) (opts : Opts K) (vf : Bool)
    (h0 : 0 ≤ td) (h1 : td < x.data.shape.length) :
    (∃ out, (eofuncEofs mk (.xr x) n td sc opts vf false).1 = .ok out) ↔
      0 < n ∧ ∃ s e, mk opts x = .ok s ∧ s.eofs n sc = .ok e ∧ e.shape.length = x.data.shape.length := by
  have hdims : eofDims x td false = .ok ("eof" :: ((List.range x.data.shape.length).filter (fun (i : ℕ) => decide ((i : ℤ) ≠ td))).map (fun i => s!"dim_{i}"), []) := rfl
  have hlen : ("eof" :: ((List.range x.data.shape.length).filter (fun (i : ℕ) => decide ((i : ℤ) ≠ td))).map (fun i => s!"dim_{i}")).length
      = x.data.shape.length := by
    rw [keep_eq _ td h0 h1]
    simp only [List.length_cons, List.length_map, List.length_range]
    omega
  constructor
  · rintro ⟨out, h⟩
    obtain ⟨x', s, e, dims, coords, hx, hs, hn, he, hd, -, -, -, hl, -⟩ := eofs_ok mk _ n td sc opts vf false out h
    simp only [generateData, Except.ok.injEq] at hx
    subst hx
    rw [hdims] at hd
    injection hd with hd
    rw [Prod.mk.injEq] at hd
    rw [← hd.1, hlen] at hl
    exact ⟨hn, s, e, hs, he, hl.symm⟩
  · rintro ⟨hn, s, e, hs, he, hl⟩
    have hg : generateSolver mk opts (.xr x) td = .ok (x, s) := by
      unfold generateSolver
      simp only [generateData, bind, Except.bind, hs]
      rfl
    unfold eofuncEofs
    rw [hg]
    simp only
    rw [if_neg (by omega), he]
    simp only [hdims, bind, Except.bind, mkDataArray]
    rw [if_neg (by rw [hlen, hl]; simp), if_neg (by simp)]
    exact ⟨_, rfl⟩

/-- `C97` for eofunc_pcs: whenever it returns, the number asked for is positive and the result has the dimensions (pc, time); its value for component `a`
at time `b` is the one the solver computes for that number and scaling; without `meta` it has neither coordinates nor attributes, with `meta` it has
the attributes of the data and one coordinate, called time. -/
theorem C97_pcs_values [NatCast K] (mk : Opts K → XArr K A → Except PyErr (Solver K A)) (x : XArr K A) (n td sc : ℤ) (opts : Opts K) (isMeta : Bool)
    (out : XArr K A) (h : (eofuncPcs mk (.xr x) n td sc opts isMeta).1 = .ok out) :
    0 < n ∧ ∃ s p, mk opts x = .ok s ∧ s.pcs n sc = .ok p ∧ out.dims = ["pc", "time"] ∧ out.data.shape = p.shape.reverse ∧ p.shape.length = 2 ∧
      (∀ a b, out.data.get [a, b] = p.get [b, a]) ∧ (isMeta = false → out.coords = [] ∧ out.attrs = []) ∧
      (isMeta = true → out.attrs = x.attrs ∧ ∃ c, out.coords = [c] ∧ c.name = "time") := by
  unfold eofuncPcs generateSolver at h
  simp only [generateData, bind, Except.bind, pure, Except.pure, throw, throwThe, MonadExceptOf.throw] at h
  cases hs : mk opts x with
  | error e => rw [hs] at h; cases h
  | ok s =>
    rw [hs] at h
    simp only at h
    by_cases hn : n ≤ 0
    · rw [if_pos hn] at h
      cases h
    · rw [if_neg hn] at h
      simp only [hs] at h
      cases hp : s.pcs n sc with
      | error e => rw [hp] at h; cases h
      | ok p =>
        rw [hp] at h
        simp only at h
        cases isMeta with
        | false =>
          simp only [Bool.false_eq_true, if_false, mkDataArray] at h
          by_cases h1 : (["pc", "time"] : List String).length ≠ (transpose2 p).shape.length
          · rw [if_pos h1] at h
            cases h
          · rw [if_neg h1, if_neg (by simp)] at h
            injection h with h
            subst h
            refine ⟨by omega, s, p, rfl, hp, rfl, rfl, ?_, fun _ _ => rfl, fun _ => ⟨rfl, rfl⟩, fun h => by simp at h⟩
            simp [transpose2] at h1
            omega
        | true =>
          simp only [if_true] at h
          cases ht : pyGet x.dims td with
          | error e => rw [ht] at h; cases h
          | ok name =>
            rw [ht] at h
            simp only at h
            cases hc : getCoord x name with
            | error e => rw [hc] at h; cases h
            | ok c =>
              rw [hc] at h
              simp only [mkDataArray] at h
              by_cases h1 : (["pc", "time"] : List String).length ≠ (transpose2 p).shape.length
              · rw [if_pos h1] at h
                cases h
              · rw [if_neg h1] at h
                split at h
                · cases h
                · injection h with h
                  subst h
                  refine ⟨by omega, s, p, rfl, hp, rfl, rfl, ?_, fun _ _ => rfl, fun h => by simp at h, fun _ => ⟨rfl, _, rfl, rfl⟩⟩
                  simp [transpose2] at h1
                  omega

example : ∃ out, (eofuncPcs toySolver (.xr (toyData [])) 2 0 0 ⟨none, true, 1⟩ false).1 = .ok out ∧ out.data.shape = [2, 3] :=
  ⟨_, rfl, rfl⟩

example : ∃ out, (eofuncEofs toySolver (.xr (toyData [])) 2 0 0 ⟨none, true, 1⟩ false false).1 = .ok out :=
  (C97_eofs_returns toySolver (toyData []) 2 0 0 ⟨none, true, 1⟩ false le_rfl (by decide)).mpr ⟨by decide, _, _, rfl, rfl, rfl⟩

end Verif.Props
