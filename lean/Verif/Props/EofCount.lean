import Verif.Model.Eof
import Verif.Model.Humidity
import Verif.Props.EofModes
import Verif.Props.PointApi
import Verif.Props.Humidity

/-
C155: the number of modes asked of eofunc_eofs, eofunc_pcs, eofunc and eofunc_ts must be positive.
C56: the container returned by relhum.
-/

set_option linter.unusedSectionVars false
namespace Verif.Props
open Model Model.EofFns Spec XF

variable {K : Type _} {A : Type _}

/-- C155. Whatever the data, the options and the analysis (`mk`): a number of modes that is not positive never gives a result, and the input
keeps its attributes. -/
theorem C155_never [NatCast K] (mk : Opts K → XArr K A → Except PyErr (Solver K A)) (data : Input K A) (n td sc : ℤ) (opts : Opts K)
    (vf isMeta : Bool) (hn : n ≤ 0) :
    (∃ e, (eofuncEofs mk data n td sc opts vf isMeta).1 = .error e) ∧ (eofuncEofs mk data n td sc opts vf isMeta).2 = data.attrs ∧
    (∃ e, (eofuncPcs mk data n td sc opts isMeta).1 = .error e) ∧ (eofuncPcs mk data n td sc opts isMeta).2 = data.attrs := by
  unfold eofuncEofs eofuncPcs
  cases hg : generateSolver mk opts data td with
  | error e => exact ⟨⟨e, rfl⟩, rfl, ⟨e, rfl⟩, rfl⟩
  | ok p => simp only [if_pos hn]; exact ⟨⟨_, rfl⟩, trivial, ⟨_, rfl⟩, trivial⟩

/-- C155. If the data themselves can be analysed (the axis exists and eofs accepts them) the exception is the documented ValueError. -/
theorem C155_valueError [NatCast K] (mk : Opts K → XArr K A → Except PyErr (Solver K A)) (data : Input K A) (n td sc : ℤ) (opts : Opts K)
    (vf isMeta : Bool) (hn : n ≤ 0) (x : XArr K A) (s : Solver K A) (hx : generateData data td = .ok x) (hs : mk opts x = .ok s) :
    (eofuncEofs mk data n td sc opts vf isMeta).1 = .error .valueError ∧ (eofuncPcs mk data n td sc opts isMeta).1 = .error .valueError := by
  have hg : generateSolver mk opts data td = .ok (x, s) := by
    unfold generateSolver; rw [hx]; show (mk opts x >>= _) = _; rw [hs]; rfl
  unfold eofuncEofs eofuncPcs
  rw [hg]
  simp only [if_pos hn]
  exact ⟨trivial, rfl⟩

/-- C155. The same for the older entry points; eofunc_ts takes the number of modes from the first size of its second argument. -/
theorem C155_old_names [NatCast K] (mk : Opts K → XArr K A → Except PyErr (Solver K A)) (data : Input K A) (n : ℤ) (td : Option ℤ) (isMeta : Bool)
    (evec : List ℕ) (hn : n ≤ 0) (hv : evec.headD 0 = 0) :
    (∃ e, eofunc mk data n td isMeta = .error e) ∧ (∃ e, eofuncTs mk data evec td isMeta = .error e) := by
  refine ⟨(C155_never mk (.arr (asArray data)) n _ 0 _ false isMeta hn).1, ?_⟩
  unfold eofuncTs
  cases evec with
  | nil => exact ⟨_, rfl⟩
  | cons m l =>
    have hm : m = 0 := by simpa using hv
    subst hm
    exact (C155_never mk (.arr (asArray data)) ((0 : ℕ) : ℤ) _ 0 _ false isMeta (by simp)).2.2.1

/-- C155. With an analysis package that does what it documents, an array with at least two axes and more time steps than `ddof`: both functions
return exactly when the number of modes is positive. -/
theorem C155_exact {num : List ℝ → A} {mk : Opts ℝ → XArr ℝ A → Except PyErr (Solver ℝ A)} (hmk : EofContract num mk) (opts : Opts ℝ) (t : Tensor ℝ)
    (td : ℤ) (h0 : 0 ≤ td) (n : ℕ) (hn : t.shape[td.toNat]? = some n) (h2 : 2 ≤ t.shape.length) (hn0 : 0 < n) (hd : opts.ddof < n)
    (hw : ∀ w, opts.weights = some w → w.shape = t.shape.eraseIdx td.toNat) (q : ℤ) (sc : ℤ) (hsc : sc ∈ ([0, 1, 2] : List ℤ)) (vf : Bool) :
    ((∃ r, (eofuncEofs mk (.arr t) q td sc opts vf false).1 = .ok r) ↔ 0 < q) ∧ ((∃ r, (eofuncPcs mk (.arr t) q td sc opts false).1 = .ok r) ↔ 0 < q) := by
  obtain ⟨m, E, P, lam, hA, hc⟩ := C150_analysis hmk opts t td h0 n hn h2 hn0 hd hw
  have hneg := fun hq : q ≤ 0 => C155_never mk (.arr t) q td sc opts vf false hq
  constructor
  · refine ⟨fun ⟨r, hr⟩ => ?_, fun hq => ?_⟩
    · by_contra hq
      obtain ⟨e, he⟩ := (hneg (by omega)).1
      rw [hr] at he
      cases he
    · obtain ⟨⟨e, e1, -⟩, -⟩ := hc q hq sc hsc vf
      exact ⟨e, e1⟩
  · refine ⟨fun ⟨r, hr⟩ => ?_, fun hq => ?_⟩
    · by_contra hq
      obtain ⟨e, he⟩ := (hneg (by omega)).2.2.1
      rw [hr] at he
      cases he
    · obtain ⟨-, p, p1, -⟩ := hc q hq sc hsc vf
      exact ⟨p, p1⟩

/-- the hypotheses are met: a 3 × 2 array, time first; asking for 1 mode works and for 0 does not -/
example : ∃ mk : Opts ℝ → XArr ℝ (List ℝ) → Except PyErr (Solver ℝ (List ℝ)), ∃ t : Tensor ℝ, t.shape = [3, 2] ∧
    (∃ r, (eofuncEofs mk (.arr t) 1 0 0 ⟨none, true, 1⟩ false false).1 = .ok r) ∧
    (¬ ∃ r, (eofuncEofs mk (.arr t) 0 0 0 ⟨none, true, 1⟩ false false).1 = .ok r) := by
  obtain ⟨mk, hmk⟩ := contract_met
  refine ⟨mk, ⟨[3, 2], fun i => ((i.getD 0 0 * i.getD 1 0 : ℕ) : ℝ)⟩, rfl, ?_, ?_⟩
  · exact (C155_exact hmk ⟨none, true, 1⟩ _ 0 (le_refl 0) 3 rfl (by simp) (by norm_num) (by norm_num) (fun w hw => by cases hw) 1 0 (by simp) false).1.mpr one_pos
  · rw [(C155_exact hmk ⟨none, true, 1⟩ ⟨[3, 2], fun i => ((i.getD 0 0 * i.getD 1 0 : ℕ) : ℝ)⟩ 0 (le_refl 0) 3 rfl (by simp) (by norm_num) (by norm_num)
      (fun w hw => by cases hw) 0 0 (by simp) false).1]
    exact lt_irrefl 0

/-- C56. The container that relhum returns: a DataArray as soon as one input is a DataArray, otherwise a numpy array, or a numpy scalar for scalars. -/
theorem C56_relhum_container (t w p r : Arg (XF ℝ)) (h : relhum t w p = .ok r) :
    (r.ty = .dataArray ↔ t.ty = .dataArray ∨ w.ty = .dataArray ∨ p.ty = .dataArray) ∧
    (r.ty ≠ .dataArray → r.ty = if r.val.shape = [] then .npScalar else .ndarray) := by
  unfold relhum at h
  split at h
  · cases h
  by_cases hl : listTimesScalar t w p = true
  · rw [if_pos hl] at h; cases h
  rw [if_neg hl] at h
  change Except.map _ (Tensor.zip3 relhumOfEs (t.val.map relhumEsD) w.val p.val) = _ at h
  cases hz : Tensor.zip3 relhumOfEs (t.val.map relhumEsD) w.val p.val with
  | error e => rw [hz] at h; cases h
  | ok q =>
    rw [hz] at h
    injection h with h
    subst h
    by_cases hd : t.ty = .dataArray ∨ w.ty = .dataArray ∨ p.ty = .dataArray
    · simp only [if_pos hd]
      exact ⟨⟨fun _ => hd, fun _ => trivial⟩, fun h => absurd rfl h⟩
    · simp only [if_neg hd]
      refine ⟨⟨fun h => ?_, fun h => absurd h hd⟩, fun _ => rfl⟩
      unfold npResultType at h
      split_ifs at h

/-- a DataArray of pressures and numpy temperatures: the result is a DataArray -/
example : ∃ r, relhum (constArg .ndarray [2] 280) (constArg .ndarray [2] 0.01) (constArg .dataArray [2] 100000) = .ok r ∧ r.ty = .dataArray :=
  let ⟨r, h, _, _⟩ := C46_never_out_of_table (constArg .ndarray [2] 280) (constArg .ndarray [2] 0.01)
    (constArg .dataArray [2] 100000) rfl rfl (fun _ _ => by simp [constArg])
  ⟨r, h, (C56_relhum_container _ _ _ r h).1.mpr (Or.inr (Or.inr rfl))⟩

end Verif.Props
