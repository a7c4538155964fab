import Verif.Model.DeltaPressure
import Verif.Spec.Layers
import Verif.Lemmas.PyList
import Mathlib.Tactic.Ring
import Mathlib.Tactic.FieldSimp
import Mathlib.Algebra.Order.BigOperators.Group.List

set_option linter.unusedSectionVars false

namespace Verif.Lemmas
open Verif.Model Verif.Spec
variable {K : Type _} [Field K] [LinearOrder K]

@[simp] theorem column_length {α : Type _} (n : ℕ) (f : ℕ → α) : (column n f).length = n := by simp [column]

@[simp] theorem column_getElem {α : Type _} (n : ℕ) (f : ℕ → α) (i : ℕ) (h : i < (column n f).length) :
    (column n f)[i] = f i := by simp [column]

theorem column_getElem? {α : Type _} (n : ℕ) (f : ℕ → α) (i : ℕ) (h : i < n) :
    (column n f)[i]? = some (f i) := by simp [column, h]

theorem column_congr {α : Type _} (n : ℕ) (f g : ℕ → α) (h : ∀ k, k < n → f k = g k) :
    column n f = column n g := by
  apply List.map_congr_left; intro k hk; exact h k (List.mem_range.1 hk)

theorem list_eq_column {α : Type _} [Inhabited α] (l : List α) : ∃ f : ℕ → α, l = column l.length f := by
  refine ⟨fun i => (l[i]?).getD default, ?_⟩
  apply List.ext_getElem
  · simp
  · intro i h1 h2
    simp [h1]

theorem column_reverse {α : Type _} (n : ℕ) (f : ℕ → α) :
    (column n f).reverse = column n (fun k => f (n - 1 - k)) := by
  apply List.ext_getElem
  · simp
  · intro i h1 h2
    simp [List.getElem_reverse]

/-- value of the i-th midpoint of the model -/
def mid (q : ℕ → K) (i : ℕ) : K := if i = 0 then 0 else (q i + q (i - 1)) / 2

theorem midpoints_column (n : ℕ) (q : ℕ → K) : midpoints (column n q) = column n (mid q) := by
  apply List.ext_getElem
  · simp [midpoints, Np.roll1_length]
  · intro i h1 h2
    have hn : i < n := by simpa using h2
    cases i with
    | zero => simp [midpoints, mid]
    | succ k =>
      have := Np.roll1_getElem_succ (column n q) k (by simpa using hn)
      simp [midpoints, mid, this]

theorem mem_aboveGround (n : ℕ) (q : ℕ → K) (ps : XF K) (i : ℕ) :
    i ∈ aboveGround (column n q) ps ↔ i < n ∧ XF.lt (.fin (mid q i)) ps = true := by
  rw [aboveGround, Np.mem_nonzero, midpoints_column, List.getElem?_map]
  by_cases h : i < n
  · simp [h]
  · simp [column, h]

/-- Entry `k` of the array built by the assignments at 1238-1252, for start level 0 and end level `e`. -/
def coreEntry (n : ℕ) (q : ℕ → K) (ps : XF K) (ptop : K) (e k : ℕ) : XF K :=
  if k = e then ps - .fin ((q e + q (if e = 0 then n - 1 else e - 1)) / 2)
  else if k = 0 then .fin ((q 0 + q 1) / 2 - ptop)
  else if k < e then .fin ((q (k + 1) - q (k - 1)) / 2)
  else .nan

theorem deltaSorted_core (n : ℕ) (hn : 2 ≤ n) (q : ℕ → K) (ps : XF K) (ptop : K) (e : ℕ) (he : e < n)
    (hmin : Py.minNat (aboveGround (column n q) ps) = .ok 0)
    (hmax : Py.maxNat (aboveGround (column n q) ps) = .ok e) :
    deltaSorted (column n q) ps ptop = .ok (column n (coreEntry n q ps ptop e)) := by
  have i0 : Py.index (column n q) ((0 : ℕ) : Int) = .ok (q 0) := by
    rw [Py.index_nat _ _ (by simp; omega)]; simp
  have i1 : Py.index (column n q) (((0 : ℕ) : Int) + 1) = .ok (q 1) := by
    rw [Py.index_nat' _ _ 1 (by simp) (by simp; omega)]; simp
  have ie : Py.index (column n q) (e : Int) = .ok (q e) := by
    rw [Py.index_nat _ _ (by simp; omega)]; simp
  have ie1 : Py.index (column n q) ((e : Int) - 1) = .ok (q (if e = 0 then n - 1 else e - 1)) := by
    by_cases h : e = 0
    · subst h
      have := Py.index_neg_one (column n q) (by simp; omega)
      simpa using this
    · rw [Py.index_nat' _ _ (e - 1) (by omega) (by simp; omega)]; simp [h]
  have s0 : Py.setIndex (List.replicate (column n q).length (XF.nan : XF K)) ((0:ℕ) : Int)
      (.fin ((q 0 + q 1) / 2 - ptop)) = .ok ((List.replicate n (XF.nan : XF K)).set 0 (.fin ((q 0 + q 1) / 2 - ptop))) := by
    rw [Py.setIndex_nat _ _ _ (by simp; omega)]; simp
  have sl : List.zipWith (fun a b => XF.fin ((a - b) / 2))
      (Py.slice (column n q) (((0:ℕ) : Int) + 2) ((e : Int) + 1)) (Py.slice (column n q) ((0:ℕ) : Int) (e : Int))
      = column (e - 1) (fun k => XF.fin ((q (k + 2) - q k) / 2)) := by
    have h1 : Py.slice (column n q) (((0:ℕ) : Int) + 2) ((e : Int) + 1)
        = ((column n q).take (e + 1)).drop (min 2 n) := by
      have := Py.slice_nat (column n q) 2 (e + 1)
      simpa using this
    have h2 := Py.slice_nat (column n q) 0 e
    rw [h1, h2]
    apply List.ext_getElem
    · simp; omega
    · intro i h1 h2
      have : min 2 n = 2 := by omega
      simp [this, Nat.add_comm]
  have ss : Py.setSlice ((List.replicate n (XF.nan : XF K)).set 0 (.fin ((q 0 + q 1) / 2 - ptop)))
      (((0:ℕ) : Int) + 1) (e : Int) (column (e - 1) (fun k => XF.fin ((q (k + 2) - q k) / 2)))
      = .ok (column n (fun k => if k = 0 then .fin ((q 0 + q 1) / 2 - ptop)
          else if k < e then .fin ((q (k + 1) - q (k - 1)) / 2) else .nan)) := by
    have c1 : Py.clampBound n (((0:ℕ) : Int) + 1) = 1 := by
      have := Py.clampBound_nat n 1
      simp only [Nat.cast_one] at this
      simp only [Nat.cast_zero, zero_add, this]; omega
    have c2 : Py.clampBound n (e : Int) = e := by rw [Py.clampBound_nat]; omega
    simp only [Py.setSlice, List.length_set, List.length_replicate, c1, c2, column_length, if_true]
    congr 1
    apply List.ext_getElem
    · simp; omega
    · intro i h1 h2
      have hi : i < n := by simpa using h2
      rcases Nat.eq_zero_or_pos i with h | h
      · subst h
        rw [List.getElem_append_left (by simp; omega), List.getElem_append_left (by simp; omega)]
        simp
      · by_cases hie : i < e
        · rw [List.getElem_append_left (by simp; omega), List.getElem_append_right (by simp; omega)]
          have hm : min 1 n = 1 := by omega
          have hi1 : i - 1 + 2 = i + 1 := by omega
          simp [hm, hi1, hie, Nat.pos_iff_ne_zero.1 h]
        · rw [List.getElem_append_right (by simp; omega)]
          have hm : min 1 n = 1 := by omega
          have hne : i ≠ 0 := by omega
          simp only [List.getElem_drop, List.length_append, List.length_take, List.length_set,
            List.length_replicate, column_length, hm, column_getElem, hie, hne, if_false]
          rw [List.getElem_set]
          rw [if_neg (by omega)]
          simp
  have sf : Py.setIndex (column n (fun k => if k = 0 then XF.fin ((q 0 + q 1) / 2 - ptop)
          else if k < e then .fin ((q (k + 1) - q (k - 1)) / 2) else .nan)) (e : Int)
          (ps - .fin ((q e + q (if e = 0 then n - 1 else e - 1)) / 2))
      = .ok (column n (coreEntry n q ps ptop e)) := by
    rw [Py.setIndex_nat _ _ _ (by simpa using he)]
    congr 1
    apply List.ext_getElem
    · simp
    · intro i h1 h2
      rw [List.getElem_set]
      by_cases h : e = i
      · subst h; simp [coreEntry]
      · have h' : ¬ i = e := fun x => h x.symm
        simp [coreEntry, h, h']
  simp only [deltaSorted, hmin, hmax, bind, Except.bind, i0, i1, s0, sl, ss, ie, ie1, sf]

theorem XF.lt_of_fin_lt {a b : K} {ps : XF K} (hab : a ≤ b) (h : XF.lt (.fin b) ps = true) :
    XF.lt (.fin a) ps = true := by
  cases ps <;> simp_all [XF.lt]
  exact lt_of_le_of_lt hab h

/-- With positive surface pressure level 0 is above ground, so the start level is 0. -/
theorem deltaSorted_pos (n : ℕ) (hn : 2 ≤ n) (q : ℕ → K) (ps : XF K) (ptop : K)
    (hps : XF.lt (.fin 0) ps = true) :
    ∃ e, e < n ∧ XF.lt (.fin (mid q e)) ps = true ∧ (∀ i, i < n → XF.lt (.fin (mid q i)) ps = true → i ≤ e) ∧
      deltaSorted (column n q) ps ptop = .ok (column n (coreEntry n q ps ptop e)) := by
  have h0 : 0 ∈ aboveGround (column n q) ps := by
    rw [mem_aboveGround]; exact ⟨by omega, by simpa [mid] using hps⟩
  have hmin := Py.minNat_eq _ 0 h0 (fun x _ => Nat.zero_le x)
  obtain ⟨x, xs, hl⟩ : ∃ x xs, aboveGround (column n q) ps = x :: xs := by
    cases hl : aboveGround (column n q) ps with
    | nil => simp [hl] at h0
    | cons x xs => exact ⟨x, xs, rfl⟩
  have hmem : xs.foldl max x ∈ aboveGround (column n q) ps := by
    rw [hl]; rcases foldl_max_mem xs x with h | h
    · rw [h]; simp
    · simp [h]
  have hub : ∀ i ∈ aboveGround (column n q) ps, i ≤ xs.foldl max x := by
    intro i hi; rw [hl] at hi; exact le_foldl_max _ _ _ (by simpa using hi)
  have hmax := Py.maxNat_eq _ _ hmem hub
  have hm := (mem_aboveGround n q ps _).1 hmem
  exact ⟨_, hm.1, hm.2, fun i hi hlt => hub i ((mem_aboveGround n q ps i).2 ⟨hi, hlt⟩),
    deltaSorted_core n hn q ps ptop _ hm.1 hmin hmax⟩

theorem deltaSorted_empty (p : List K) (ps : XF K) (ptop : K) (h : aboveGround p ps = []) :
    deltaSorted p ps ptop = .error .valueError := by
  simp [deltaSorted, h, Py.minNat, bind, Except.bind]

variable [IsStrictOrderedRing K]

theorem mid_nonneg (n : ℕ) (q : ℕ → K) (hq : ∀ i, i < n → 0 ≤ q i) (i : ℕ) (hi : i < n) : 0 ≤ mid q i := by
  unfold mid; split
  · exact le_refl _
  · have := hq i hi; have := hq (i - 1) (by omega); positivity

theorem deltaSorted_nonpos (n : ℕ) (q : ℕ → K) (hq : ∀ i, i < n → 0 ≤ q i) (ps : XF K) (ptop : K)
    (hps : XF.lt (.fin 0) ps = false) : deltaSorted (column n q) ps ptop = .error .valueError := by
  apply deltaSorted_empty
  rw [List.eq_nil_iff_forall_not_mem]
  intro i hi
  obtain ⟨h1, h2⟩ := (mem_aboveGround n q ps i).1 hi
  have := XF.lt_of_fin_lt (mid_nonneg n q hq i h1) h2
  rw [hps] at this; cases this

/-- `_delta_pressure1D` on a column, checks resolved. -/
theorem deltaPressure1D_column (n : ℕ) (hn : 2 ≤ n) (lev : ℕ → K) (ps : XF K) (t : K) :
    deltaPressure1D (column n lev) ps t =
      if t < 0 ∨ XF.lt ps (.fin t) = true then .error .valueError
      else if lev 1 < lev 0 then
        (deltaSorted (column n (fun k => lev (n - 1 - k))) ps t).map List.reverse
      else deltaSorted (column n lev) ps t := by
  have i0 : Py.index (column n lev) 0 = .ok (lev 0) := by
    have := Py.index_nat (column n lev) 0 (by simp; omega); simpa using this
  have i1 : Py.index (column n lev) 1 = .ok (lev 1) := by
    have := Py.index_nat (column n lev) 1 (by simp; omega); simpa using this
  unfold deltaPressure1D
  by_cases h1 : t < 0
  · simp [h1, bind, Except.bind, throw, throwThe, MonadExceptOf.throw]
  · by_cases h2 : XF.lt ps (.fin t) = true
    · simp [h1, h2, bind, Except.bind, throw, throwThe, MonadExceptOf.throw]
    · simp only [h1, h2, or_self, if_false, i0, i1, bind, Except.bind, column_reverse,
        Except.map, pure, Except.pure, Bool.false_eq_true]

theorem npMin_spec (p : List K) (hp : p ≠ []) : ∃ m, npMin p = .ok m ∧ m ∈ p ∧ ∀ x ∈ p, m ≤ x := by
  obtain ⟨x, xs, rfl⟩ := List.exists_cons_of_ne_nil hp
  refine ⟨xs.foldl min x, rfl, ?_⟩
  clear hp
  induction xs generalizing x with
  | nil => simp
  | cons y ys ih =>
    obtain ⟨h1, h2⟩ := ih (min x y)
    simp only [List.foldl_cons]
    constructor
    · rcases List.mem_cons.1 h1 with h | h
      · rw [h]; rcases le_total x y with h' | h'
        · simp [min_eq_left h']
        · simp [min_eq_right h']
      · simp [h]
    · intro z hz
      have hm := h2 (min x y) (by simp)
      simp only [List.mem_cons] at hz
      rcases hz with h | h | h
      · subst h; exact le_trans hm (min_le_left _ _)
      · subst h; exact le_trans hm (min_le_right _ _)
      · exact h2 z (by simp [h])

theorem npMin_eq (p : List K) (m : K) (h1 : m ∈ p) (h2 : ∀ x ∈ p, m ≤ x) : npMin p = .ok m := by
  have hp : p ≠ [] := by intro h; simp [h] at h1
  obtain ⟨m', e, a, b⟩ := npMin_spec p hp
  rw [e, le_antisymm (h2 _ a) (b _ h1)]

theorem resolveTop_some (p : List K) (m t : K) (h : npMin p = .ok m) :
    resolveTop p (some t) = if t > m then .error .valueError else .ok t := by
  simp only [resolveTop, h, bind, Except.bind]
  rfl

theorem resolveTop_none (p : List K) (m : K) (h : npMin p = .ok m) : resolveTop p none = .ok m := by
  simp only [resolveTop, h, bind, Except.bind]; rfl

/-- Main computation for a top-down increasing column with the surface below the first midpoint. -/
theorem deltaPressure1D_incr (n : ℕ) (hn : 2 ≤ n) (lev : ℕ → K) (hinc : Increasing n lev) (ps t : K)
    (ht0 : 0 ≤ t) (ht : t ≤ lev 0) (hps : (lev 0 + lev 1) / 2 < ps) :
    deltaSorted (column n lev) (.fin ps) t = .ok (column n (thickness n lev ps t)) := by
  have h01 : lev 0 < lev 1 := hinc 0 1 (by omega) (by omega)
  have hpos : XF.lt (.fin (0 : K)) (.fin ps) = true := by
    simp; linarith
  obtain ⟨e, hen, hm, hmax, heq⟩ := deltaSorted_pos n hn lev (.fin ps) t hpos
  rw [heq]; congr 1; apply column_congr; intro k hk
  have he1 : 1 ≤ e := hmax 1 (by omega) (by simp [mid]; linarith)
  have hme : mid lev e = upperIface lev t e := by
    have : e ≠ 0 := by omega
    simp [mid, upperIface, this, add_comm]
  have hme' : upperIface lev t e < ps := by rw [← hme]; simpa using hm
  have hafter : ∀ i, e < i → i < n → ps ≤ upperIface lev t i := by
    intro i hi hin
    by_contra hc
    have : i ≤ e := hmax i hin (by
      have : i ≠ 0 := by omega
      simp only [XF.lt_fin, decide_eq_true_eq, mid, this, if_false]
      have h := not_le.1 hc
      simp only [upperIface, this, if_false] at h
      linarith)
    omega
  have hlev : ∀ i j, i ≤ j → j < n → lev i ≤ lev j := by
    intro i j hij hj
    rcases Nat.lt_or_eq_of_le hij with h | h
    · exact le_of_lt (hinc i j h hj)
    · rw [h]
  have hbefore : ∀ i, i < e → upperIface lev t i < ps ∧ (lev i + lev (i + 1)) / 2 < ps := by
    intro i hi
    have h3 : upperIface lev t e = (lev (e - 1) + lev e) / 2 := by
      have : e ≠ 0 := by omega
      simp [upperIface, this]
    have h1 := hlev i (e - 1) (by omega) (by omega)
    have h2 := hlev (i + 1) e (by omega) hen
    have h4 := hlev i (i + 1) (by omega) (by omega)
    refine ⟨?_, by linarith⟩
    unfold upperIface; split
    · have := hlev 0 i (by omega) (by omega); linarith
    · have := hlev (i - 1) i (by omega) (by omega); linarith
  unfold coreEntry thickness
  by_cases hke : k = e
  · subst hke
    rw [if_pos rfl, if_neg (not_le.2 hme')]
    have hk0 : k ≠ 0 := by omega
    have hlow : lowerIface n lev ps k = ps := by
      unfold lowerIface; split
      · rename_i hh
        have := hafter (k + 1) (by omega) hh
        simp [upperIface] at this
        exact min_eq_left this
      · rfl
    rw [hlow]
    simp [upperIface, hk0, add_comm]
  · rw [if_neg hke]
    by_cases hlt : k < e
    · obtain ⟨hb1, hb2⟩ := hbefore k hlt
      rw [if_neg (not_le.2 hb1)]
      have hlow : lowerIface n lev ps k = (lev k + lev (k + 1)) / 2 := by
        unfold lowerIface; rw [if_pos (by omega), min_eq_right (le_of_lt hb2)]
      rw [hlow]
      by_cases hk0 : k = 0
      · subst hk0; simp [upperIface]
      · simp only [hk0, if_false, hlt, if_true, upperIface]
        congr 1; ring
    · rw [if_pos (hafter k (by omega) hk)]
      have : k ≠ 0 := by omega
      simp [this, hlt]

theorem npMin_incr (n : ℕ) (hn : 1 ≤ n) (lev : ℕ → K) (hinc : Increasing n lev) :
    npMin (column n lev) = .ok (lev 0) := by
  apply npMin_eq
  · simp only [column, List.mem_map, List.mem_range]; exact ⟨0, by omega, rfl⟩
  · intro x hx
    simp only [column, List.mem_map, List.mem_range] at hx
    obtain ⟨i, hi, rfl⟩ := hx
    rcases Nat.eq_zero_or_pos i with h | h
    · rw [h]
    · exact le_of_lt (hinc 0 i h hi)

theorem npMin_reverse (p : List K) : npMin p.reverse = npMin p := by
  by_cases hp : p = []
  · subst hp; rfl
  · obtain ⟨m, h1, h2, h3⟩ := npMin_spec p hp
    rw [h1]; apply npMin_eq <;> simpa

theorem resolveTop_reverse (p : List K) (t : Option K) : resolveTop p.reverse t = resolveTop p t := by
  simp only [resolveTop, npMin_reverse]

/-- Reversal equivariance at the level of `_delta_pressure1D`. -/
theorem deltaPressure1D_reverse (n : ℕ) (hn : 2 ≤ n) (lev : ℕ → K) (hinc : Increasing n lev) (ps : XF K) (t : K) :
    deltaPressure1D (column n lev).reverse ps t = (deltaPressure1D (column n lev) ps t).map List.reverse := by
  rw [column_reverse, deltaPressure1D_column n hn, deltaPressure1D_column n hn]
  have h1 : ¬ lev 1 < lev 0 := not_lt.2 (le_of_lt (hinc 0 1 (by omega) (by omega)))
  have h2 : lev (n - 1 - 1) < lev (n - 1 - 0) := hinc _ _ (by omega) (by omega)
  split
  · rfl
  · congr 2
    apply column_congr; intro k hk
    congr 1; omega

/-- top of the column actually used -/
theorem resolveTop_incr (n : ℕ) (hn : 1 ≤ n) (lev : ℕ → K) (hinc : Increasing n lev) (ptop : Option K)
    (h : ptop.getD (lev 0) ≤ lev 0) : resolveTop (column n lev) ptop = .ok (ptop.getD (lev 0)) := by
  have hm := npMin_incr n hn lev hinc
  cases ptop with
  | none => rw [resolveTop_none _ _ hm]; rfl
  | some t =>
    rw [resolveTop_some _ _ _ hm]
    simp only [Option.getD_some] at *
    rw [if_neg (not_lt.2 h)]

theorem deltaPressure_incr (n : ℕ) (hn : 2 ≤ n) (lev : ℕ → K) (hinc : Increasing n lev) (ps : K) (ptop : Option K)
    (ht0 : 0 ≤ ptop.getD (lev 0)) (ht : ptop.getD (lev 0) ≤ lev 0) (hps : (lev 0 + lev 1) / 2 < ps) :
    deltaPressure (column n lev) (.fin ps) ptop
      = .ok (column n (thickness n lev ps (ptop.getD (lev 0)))) := by
  have h01 : lev 0 < lev 1 := hinc 0 1 (by omega) (by omega)
  unfold deltaPressure
  rw [resolveTop_incr n (by omega) lev hinc ptop ht]
  simp only [bind, Except.bind]
  rw [deltaPressure1D_column n hn, if_neg, if_neg (not_lt.2 (le_of_lt h01)),
    deltaPressure1D_incr n hn lev hinc ps _ ht0 ht hps]
  rintro (h | h)
  · exact absurd h (not_lt.2 ht0)
  · simp at h; linarith

theorem deltaPressure_reverse (n : ℕ) (hn : 2 ≤ n) (lev : ℕ → K) (hinc : Increasing n lev) (ps : XF K)
    (ptop : Option K) :
    deltaPressure (column n lev).reverse ps ptop = (deltaPressure (column n lev) ps ptop).map List.reverse := by
  unfold deltaPressure
  rw [resolveTop_reverse]
  cases resolveTop (column n lev) ptop with
  | error e => rfl
  | ok t => simp only [bind, Except.bind]; exact deltaPressure1D_reverse n hn lev hinc ps t

/-- telescoping over the first `m` layers -/
theorem nanSum_prefix (n : ℕ) (lev : ℕ → K) (hinc : Increasing n lev) (ps t : K) (ht : t ≤ lev 0) (htps : t ≤ ps)
    (m : ℕ) (hm : m < n) :
    nanSum (column m (thickness n lev ps t)) = min ps (upperIface lev t m) - t := by
  induction m with
  | zero => simp [nanSum, column, upperIface, htps]
  | succ m ih =>
    have ih := ih (by omega)
    have hstep : column (m + 1) (thickness n lev ps t) = column m (thickness n lev ps t) ++ [thickness n lev ps t m] := by
      simp [column, List.range_succ]
    have hmono : upperIface lev t m ≤ upperIface lev t (m + 1) := by
      have h1 := hinc m (m + 1) (by omega) hm
      unfold upperIface
      split
      · rename_i h; subst h; simp; linarith
      · have h2 := hinc (m - 1) m (by omega) (by omega)
        simp; linarith
    rw [hstep]
    simp only [nanSum, List.filterMap_append, List.sum_append] at ih ⊢
    rw [ih]
    unfold thickness
    split
    · rename_i h
      rw [min_eq_left h, min_eq_left (le_trans h hmono)]
      simp [List.filterMap_cons]
    · rename_i h
      have h := not_le.1 h
      rw [min_eq_right (le_of_lt h)]
      simp [lowerIface, hm, upperIface]

theorem nanSum_all (n : ℕ) (hn : 1 ≤ n) (lev : ℕ → K) (hinc : Increasing n lev) (ps t : K) (ht : t ≤ lev 0)
    (htps : t ≤ ps) : nanSum (column n (thickness n lev ps t)) = ps - t := by
  obtain ⟨m, rfl⟩ : ∃ m, n = m + 1 := ⟨n - 1, by omega⟩
  have ih := nanSum_prefix (m + 1) lev hinc ps t ht htps m (by omega)
  have hstep : column (m + 1) (thickness (m + 1) lev ps t)
      = column m (thickness (m + 1) lev ps t) ++ [thickness (m + 1) lev ps t m] := by
    simp [column, List.range_succ]
  rw [hstep]
  simp only [nanSum, List.filterMap_append, List.sum_append] at ih ⊢
  rw [ih]
  unfold thickness
  split
  · rename_i h; rw [min_eq_left h]; simp [List.filterMap_cons]
  · rename_i h
    rw [min_eq_right (le_of_lt (not_le.1 h))]
    simp [lowerIface]

theorem nanSum_reverse (l : List (XF K)) : nanSum l.reverse = nanSum l := by
  simp [nanSum, List.filterMap_reverse]

end Verif.Lemmas
