import Verif.Lemmas.DeltaPressure
import Verif.Lemmas.FloatErr

set_option linter.unusedSectionVars false
namespace Verif.Lemmas
open Verif.Model Verif.Spec
variable {K : Type _} [Field K] [LinearOrder K] [IsStrictOrderedRing K]

/-- levels above ground, as in 1231-1233 -/
def aboveGroundFl (R : Rounding K) (q : List K) (ps : K) : List ℕ :=
  Np.nonzero (((List.zipWith (avgFl R) q (Np.roll1 q)).set 0 0).map (fun m => decide (m < ps)))

/-- value of the i-th midpoint -/
def midFl (R : Rounding K) (q : ℕ → K) (i : ℕ) : K := if i = 0 then 0 else avgFl R (q i) (q (i - 1))

theorem midpointsFl_column (R : Rounding K) (n : ℕ) (q : ℕ → K) :
    (List.zipWith (avgFl R) (column n q) (Np.roll1 (column n q))).set 0 0 = column n (midFl R q) := by
  apply List.ext_getElem
  · simp [Np.roll1_length]
  · intro i h1 h2
    have hn : i < n := by simpa using h2
    cases i with
    | zero => simp [midFl]
    | succ k =>
      have := Np.roll1_getElem_succ (column n q) k (by simpa using hn)
      simp [midFl, this]

theorem mem_aboveGroundFl (R : Rounding K) (n : ℕ) (q : ℕ → K) (ps : K) (i : ℕ) :
    i ∈ aboveGroundFl R (column n q) ps ↔ i < n ∧ midFl R q i < ps := by
  rw [aboveGroundFl, Np.mem_nonzero, midpointsFl_column, List.getElem?_map]
  by_cases h : i < n
  · simp [h]
  · simp [column, h]

/-- Entry `k` of the array, for start level 0 and end level `e` -/
def coreEntryFl (R : Rounding K) (n : ℕ) (q : ℕ → K) (ps ptop : K) (e k : ℕ) : XF K :=
  if k = e then .fin (R.fl (ps - avgFl R (q e) (q (if e = 0 then n - 1 else e - 1))))
  else if k = 0 then .fin (R.fl (avgFl R (q 0) (q 1) - ptop))
  else if k < e then .fin (R.fl (R.fl (q (k + 1) - q (k - 1)) / 2))
  else .nan

theorem deltaSortedFl_core (R : Rounding K) (n : ℕ) (hn : 2 ≤ n) (q : ℕ → K) (ps : K) (ptop : K) (e : ℕ) (he : e < n)
    (hmin : Py.minNat (aboveGroundFl R (column n q) ps) = .ok 0)
    (hmax : Py.maxNat (aboveGroundFl R (column n q) ps) = .ok e) :
    deltaSortedFl R (column n q) ps ptop = .ok (column n (coreEntryFl R n q ps ptop e)) := by
  have i0 : Py.index (column n q) ((0 : ℕ) : Int) = .ok (q 0) := by
    rw [Py.index_nat _ _ (by simp; omega)]; simp
  have i1 : Py.index (column n q) (((0 : ℕ) : Int) + 1) = .ok (q 1) := by
    rw [Py.index_nat' _ _ 1 (by simp) (by simp; omega)]; simp
  have ie : Py.index (column n q) (e : Int) = .ok (q e) := by
    rw [Py.index_nat _ _ (by simp; omega)]; simp
  have ie1 : Py.index (column n q) ((e : Int) - 1) = .ok (q (if e = 0 then n - 1 else e - 1)) := by
    by_cases h : e = 0
    · subst h
      have := Py.index_neg_one (column n q) (by simp; omega)
      simpa using this
    · rw [Py.index_nat' _ _ (e - 1) (by omega) (by simp; omega)]; simp [h]
  have s0 : Py.setIndex (List.replicate (column n q).length (XF.nan : XF K)) ((0:ℕ) : Int)
      (.fin (R.fl (avgFl R (q 0) (q 1) - ptop))) = .ok ((List.replicate n (XF.nan : XF K)).set 0 (.fin (R.fl (avgFl R (q 0) (q 1) - ptop)))) := by
    rw [Py.setIndex_nat _ _ _ (by simp; omega)]; simp
  have sl : List.zipWith (fun a b => XF.fin (R.fl (R.fl (a - b) / 2)))
      (Py.slice (column n q) (((0:ℕ) : Int) + 2) ((e : Int) + 1)) (Py.slice (column n q) ((0:ℕ) : Int) (e : Int))
      = column (e - 1) (fun k => XF.fin (R.fl (R.fl (q (k + 2) - q k) / 2))) := by
    have h1 : Py.slice (column n q) (((0:ℕ) : Int) + 2) ((e : Int) + 1)
        = ((column n q).take (e + 1)).drop (min 2 n) := by
      have := Py.slice_nat (column n q) 2 (e + 1)
      simpa using this
    have h2 := Py.slice_nat (column n q) 0 e
    rw [h1, h2]
    apply List.ext_getElem
    · simp; omega
    · intro i h1 h2
      have : min 2 n = 2 := by omega
      simp [this, Nat.add_comm]
  have ss : Py.setSlice ((List.replicate n (XF.nan : XF K)).set 0 (.fin (R.fl (avgFl R (q 0) (q 1) - ptop))))
      (((0:ℕ) : Int) + 1) (e : Int) (column (e - 1) (fun k => XF.fin (R.fl (R.fl (q (k + 2) - q k) / 2))))
      = .ok (column n (fun k => if k = 0 then .fin (R.fl (avgFl R (q 0) (q 1) - ptop))
          else if k < e then .fin (R.fl (R.fl (q (k + 1) - q (k - 1)) / 2)) else .nan)) := by
    have c1 : Py.clampBound n (((0:ℕ) : Int) + 1) = 1 := by
      have := Py.clampBound_nat n 1
      simp only [Nat.cast_one] at this
      simp only [Nat.cast_zero, zero_add, this]; omega
    have c2 : Py.clampBound n (e : Int) = e := by rw [Py.clampBound_nat]; omega
    simp only [Py.setSlice, List.length_set, List.length_replicate, c1, c2, column_length, if_true]
    congr 1
    apply List.ext_getElem
    · simp; omega
    · intro i h1 h2
      have hi : i < n := by simpa using h2
      rcases Nat.eq_zero_or_pos i with h | h
      · subst h
        rw [List.getElem_append_left (by simp; omega), List.getElem_append_left (by simp; omega)]
        simp
      · by_cases hie : i < e
        · rw [List.getElem_append_left (by simp; omega), List.getElem_append_right (by simp; omega)]
          have hm : min 1 n = 1 := by omega
          have hi1 : i - 1 + 2 = i + 1 := by omega
          simp [hm, hi1, hie, Nat.pos_iff_ne_zero.1 h]
        · rw [List.getElem_append_right (by simp; omega)]
          have hm : min 1 n = 1 := by omega
          have hne : i ≠ 0 := by omega
          simp only [List.getElem_drop, List.length_append, List.length_take, List.length_set,
            List.length_replicate, column_length, hm, column_getElem, hie, hne, if_false]
          rw [List.getElem_set]
          rw [if_neg (by omega)]
          simp
  have sf : Py.setIndex (column n (fun k => if k = 0 then XF.fin (R.fl (avgFl R (q 0) (q 1) - ptop))
          else if k < e then .fin (R.fl (R.fl (q (k + 1) - q (k - 1)) / 2)) else .nan)) (e : Int)
          (XF.fin (R.fl (ps - avgFl R (q e) (q (if e = 0 then n - 1 else e - 1)))))
      = .ok (column n (coreEntryFl R n q ps ptop e)) := by
    rw [Py.setIndex_nat _ _ _ (by simpa using he)]
    congr 1
    apply List.ext_getElem
    · simp
    · intro i h1 h2
      rw [List.getElem_set]
      by_cases h : e = i
      · subst h; simp [coreEntryFl]
      · have h' : ¬ i = e := fun x => h x.symm
        simp [coreEntryFl, h, h']
  unfold aboveGroundFl at hmin hmax
  simp only [deltaSortedFl, hmin, hmax, bind, Except.bind, i0, i1, s0, sl, ss, ie, ie1, sf]


theorem avgFl_comm (R : Rounding K) (a b : K) : avgFl R a b = avgFl R b a := by unfold avgFl; rw [add_comm]

theorem avgFl_mono (R : Rounding K) {a b a' b' : K} (h1 : a ≤ a') (h2 : b ≤ b') : avgFl R a b ≤ avgFl R a' b' :=
  R.mono _ _ (div_le_div_of_nonneg_right (R.mono _ _ (add_le_add h1 h2)) (by norm_num))

theorem avgFl_ge (R : Rounding K) {a b : K} (ha : R.rep a) (h : a ≤ b) : a ≤ avgFl R a b := by
  refine R.le_fl ha ?_
  have : 2 * a ≤ R.fl (a + b) := R.le_fl (R.rep_double _ ha) (by linarith)
  linarith

theorem avgFl_error {R : Rounding K} {u η : K} (A : R.Accurate u η) (hu : u ≤ 1 / 16) {a b : K} (ha : R.rep a) (hb : R.rep b) (a0 : 0 ≤ a)
    (b0 : 0 ≤ b) : |avgFl R a b - (a + b) / 2| ≤ 33 / 16 * u * ((a + b) / 2) + η := by
  have e1 := A.add a b ha hb
  have s0 : 0 ≤ a + b := by linarith
  rw [abs_of_nonneg s0] at e1
  have f0 : 0 ≤ R.fl (a + b) := R.fl_nonneg s0
  have e2 := A.err (R.fl (a + b) / 2)
  rw [abs_of_nonneg (show 0 ≤ R.fl (a + b) / 2 by linarith)] at e2
  have hu0 := A.u_nonneg
  unfold avgFl
  set f := R.fl (a + b)
  have e3 : |f / 2 - (a + b) / 2| ≤ u * ((a + b) / 2) := by
    rw [← sub_div, abs_div, abs_two]
    linarith
  have t := abs_sub_le (R.fl (f / 2)) (f / 2) ((a + b) / 2)
  have e4 : u * (f / 2) ≤ u * ((a + b) / 2 + u * ((a + b) / 2)) :=
    mul_le_mul_of_nonneg_left (by have := (abs_le.mp e3).2; linarith) hu0
  have e5 : u * (u * ((a + b) / 2)) ≤ 1 / 16 * (u * ((a + b) / 2)) := mul_le_mul_of_nonneg_right hu (mul_nonneg hu0 (by linarith))
  linarith

/-- the last level above ground and the result, for increasing levels and a surface below the first interface -/
theorem deltaSortedFl_incr (R : Rounding K) (n : ℕ) (hn : 2 ≤ n) (lev : ℕ → K) (hinc : Increasing n lev) (ps t : K) (ht0 : 0 ≤ t) (ht : t ≤ lev 0)
    (hrep : ∀ i < n, R.rep (lev i)) (hps : avgFl R (lev 0) (lev 1) < ps) :
    ∃ e, 1 ≤ e ∧ e < n ∧ avgFl R (lev (e - 1)) (lev e) < ps ∧ (∀ i, e < i → i < n → ps ≤ avgFl R (lev (i - 1)) (lev i)) ∧
      deltaSortedFl R (column n lev) ps t = .ok (column n (coreEntryFl R n lev ps t e)) := by
  have hpos : 0 < ps := by
    have := avgFl_ge R (hrep 0 (by omega)) (hinc 0 1 (by omega) (by omega)).le
    linarith
  have h0 : 0 ∈ aboveGroundFl R (column n lev) ps := by
    rw [mem_aboveGroundFl]; exact ⟨by omega, by simpa [midFl] using hpos⟩
  have hmin := Py.minNat_eq _ 0 h0 (fun x _ => Nat.zero_le x)
  obtain ⟨x, xs, hl⟩ : ∃ x xs, aboveGroundFl R (column n lev) ps = x :: xs := by
    cases hl : aboveGroundFl R (column n lev) ps with
    | nil => simp [hl] at h0
    | cons x xs => exact ⟨x, xs, rfl⟩
  have hmem : xs.foldl max x ∈ aboveGroundFl R (column n lev) ps := by
    rw [hl]; rcases foldl_max_mem xs x with h | h
    · rw [h]; simp
    · simp [h]
  have hub : ∀ i ∈ aboveGroundFl R (column n lev) ps, i ≤ xs.foldl max x := by
    intro i hi; rw [hl] at hi; exact le_foldl_max _ _ _ (by simpa using hi)
  have hmax := Py.maxNat_eq _ _ hmem hub
  have hm := (mem_aboveGroundFl R n lev ps _).1 hmem
  have he1 : 1 ≤ xs.foldl max x := hub 1 ((mem_aboveGroundFl R n lev ps 1).2 ⟨by omega, by simpa [midFl, avgFl_comm R (lev 1)] using hps⟩)
  refine ⟨xs.foldl max x, he1, hm.1, ?_, ?_, deltaSortedFl_core R n hn lev ps t _ hm.1 hmin hmax⟩
  · have := hm.2
    unfold midFl at this
    rwa [if_neg (by omega), avgFl_comm] at this
  · intro i hi hin
    by_contra hc
    have : i ≤ xs.foldl max x := hub i ((mem_aboveGroundFl R n lev ps i).2 ⟨hin, by
      unfold midFl
      rw [if_neg (by omega), avgFl_comm]
      exact not_le.mp hc⟩)
    omega

theorem deltaPressureFl_incr (R : Rounding K) (n : ℕ) (hn : 2 ≤ n) (lev : ℕ → K) (hinc : Increasing n lev) (ps : K) (ptop : Option K)
    (ht0 : 0 ≤ ptop.getD (lev 0)) (ht : ptop.getD (lev 0) ≤ lev 0) (hrep : ∀ i < n, R.rep (lev i)) (hps : avgFl R (lev 0) (lev 1) < ps)
    (p : List K) (hp : p = column n lev ∨ p = (column n lev).reverse) :
    deltaPressureFl R p ps ptop = (deltaSortedFl R (column n lev) ps (ptop.getD (lev 0))).map (fun d => if p = column n lev then d else d.reverse) := by
  have h01 : lev 0 < lev 1 := hinc 0 1 (by omega) (by omega)
  have hge := avgFl_ge R (hrep 0 (by omega)) h01.le
  have htop : resolveTop p ptop = .ok (ptop.getD (lev 0)) := by
    rcases hp with rfl | rfl
    · exact resolveTop_incr n (by omega) lev hinc ptop ht
    · rw [resolveTop_reverse]; exact resolveTop_incr n (by omega) lev hinc ptop ht
  have run : ∀ q : ℕ → K, deltaPressure1DFl R (column n q) ps (ptop.getD (lev 0)) =
      if q 1 < q 0 then (deltaSortedFl R (column n q).reverse ps (ptop.getD (lev 0))).map List.reverse
      else deltaSortedFl R (column n q) ps (ptop.getD (lev 0)) := by
    intro q
    have i0 : Py.index (column n q) 0 = .ok (q 0) := by
      have := Py.index_nat (column n q) 0 (by simp; omega); simpa using this
    have i1 : Py.index (column n q) 1 = .ok (q 1) := by
      have := Py.index_nat (column n q) 1 (by simp; omega); simpa using this
    unfold deltaPressure1DFl
    simp only [if_neg (not_lt.mpr ht0), if_neg (not_lt.mpr (show ptop.getD (lev 0) ≤ ps by linarith)), i0, i1, bind, Except.bind, pure, Except.pure,
      Except.map]
  unfold deltaPressureFl
  rw [htop]
  simp only [bind, Except.bind]
  rcases hp with rfl | rfl
  · rw [run, if_neg (not_lt.mpr h01.le)]
    cases deltaSortedFl R (column n lev) ps (ptop.getD (lev 0)) <;> simp [Except.map]
  · have hne : (column n lev).reverse ≠ column n lev := by
      intro h
      have h' : (column n lev).reverse[0]? = (column n lev)[0]? := by rw [h]
      rw [column_reverse, column_getElem? _ _ _ (by omega), column_getElem? _ _ _ (by omega)] at h'
      have := hinc 0 (n - 1) (by omega) (by omega)
      simp only [Option.some.injEq] at h'
      rw [show n - 1 - 0 = n - 1 by omega] at h'
      rw [h'] at this
      exact lt_irrefl _ this
    rw [column_reverse, run, if_pos (by
      have := hinc (n - 1 - 1) (n - 1 - 0) (by omega) (by omega)
      exact this), ← column_reverse, List.reverse_reverse]
    cases deltaSortedFl R (column n lev) ps (ptop.getD (lev 0)) <;> simp [Except.map, hne]

section column
variable {R : Rounding K} {u η : K} (A : R.Accurate u η) (hu : u ≤ 1 / 16) {n : ℕ} {lev : ℕ → K} (hinc : Increasing n lev) {ps t : K}
  (ht0 : 0 ≤ t) (ht : t ≤ lev 0) (hrep : ∀ i < n, R.rep (lev i)) {e : ℕ} (hen : e < n) (hlow : avgFl R (lev (e - 1)) (lev e) < ps)

include hinc in
theorem incr_le {i j : ℕ} (h : i ≤ j) (hj : j < n) : lev i ≤ lev j := by
  rcases Nat.lt_or_eq_of_le h with h | h
  · exact (hinc i j h hj).le
  · rw [h]

include hinc ht0 ht in
theorem incr_nonneg {i : ℕ} (hi : i < n) : 0 ≤ lev i := by
  have := incr_le hinc (Nat.zero_le i) hi
  linarith

include A hu hinc ht0 ht hrep hen hlow in
/-- the interfaces above the surface -/
theorem iface_error {k : ℕ} (hk1 : 1 ≤ k) (hke : k ≤ e) :
    |avgFl R (lev (k - 1)) (lev k) - (lev (k - 1) + lev k) / 2| ≤ 19 / 8 * (u * ps) + 6 / 5 * η := by
  have h := avgFl_error A hu (hrep (k - 1) (by omega)) (hrep k (by omega)) (incr_nonneg hinc ht0 ht (by omega)) (incr_nonneg hinc ht0 ht (by omega))
  have hm : avgFl R (lev (k - 1)) (lev k) ≤ avgFl R (lev (e - 1)) (lev e) :=
    avgFl_mono R (incr_le hinc (by omega) (by omega)) (incr_le hinc hke hen)
  have hu0 := A.u_nonneg
  have he0 := A.eta_nonneg
  have M0 : 0 ≤ (lev (k - 1) + lev k) / 2 := by
    have := incr_nonneg hinc ht0 ht (i := k - 1) (by omega)
    have := incr_nonneg hinc ht0 ht (i := k) (by omega)
    linarith
  set M := (lev (k - 1) + lev k) / 2
  have h1 := (abs_le.mp h).1
  have uM : u * M ≤ 1 / 16 * M := mul_le_mul_of_nonneg_right hu M0
  have hM : M ≤ 256 / 223 * (ps + η) := by linarith
  have uM' : u * M ≤ u * (256 / 223 * (ps + η)) := mul_le_mul_of_nonneg_left hM hu0
  have ue : u * η ≤ 1 / 16 * η := mul_le_mul_of_nonneg_right hu he0
  have ups : 0 ≤ u * ps := by
    refine mul_nonneg hu0 ?_
    have := R.fl_nonneg (x := R.fl (lev (e - 1) + lev e) / 2) (div_nonneg (R.fl_nonneg (add_nonneg (incr_nonneg hinc ht0 ht (by omega)) (incr_nonneg hinc ht0 ht (by omega)))) (by norm_num))
    unfold avgFl at hlow
    linarith
  nlinarith

include A hu hinc hrep in
/-- an interior layer -/
theorem interior_error {k : ℕ} (hk1 : 1 ≤ k) (hk : k + 1 < n) :
    |R.fl (R.fl (lev (k + 1) - lev (k - 1)) / 2) - ((lev k + lev (k + 1)) / 2 - (lev (k - 1) + lev k) / 2)|
      ≤ 33 / 16 * (u * ((lev k + lev (k + 1)) / 2 - (lev (k - 1) + lev k) / 2)) + η := by
  have hle := incr_le hinc (show k - 1 ≤ k + 1 by omega) hk
  have e1 := A.sub (hrep (k + 1) hk) (hrep (k - 1) (by omega))
  rw [abs_of_nonneg (show 0 ≤ lev (k + 1) - lev (k - 1) by linarith)] at e1
  have g0 : 0 ≤ R.fl (lev (k + 1) - lev (k - 1)) := R.fl_nonneg (by linarith)
  have e2 := A.err (R.fl (lev (k + 1) - lev (k - 1)) / 2)
  rw [abs_of_nonneg (show 0 ≤ R.fl (lev (k + 1) - lev (k - 1)) / 2 by linarith)] at e2
  have hG : (lev k + lev (k + 1)) / 2 - (lev (k - 1) + lev k) / 2 = (lev (k + 1) - lev (k - 1)) / 2 := by ring
  rw [hG]
  have hu0 := A.u_nonneg
  have G0 : 0 ≤ (lev (k + 1) - lev (k - 1)) / 2 := by linarith
  have e3 : |R.fl (lev (k + 1) - lev (k - 1)) / 2 - (lev (k + 1) - lev (k - 1)) / 2| ≤ u * ((lev (k + 1) - lev (k - 1)) / 2) := by
    rw [← sub_div, abs_div, abs_two]
    linarith
  set g := R.fl (lev (k + 1) - lev (k - 1))
  set G := (lev (k + 1) - lev (k - 1)) / 2
  have e4 : u * (g / 2) ≤ u * (G + u * G) := mul_le_mul_of_nonneg_left (by have := (abs_le.mp e3).2; linarith) hu0
  have e5 : u * (u * G) ≤ 1 / 16 * (u * G) := mul_le_mul_of_nonneg_right hu (mul_nonneg hu0 G0)
  have t := abs_sub_le (R.fl (g / 2)) (g / 2) G
  linarith

include hinc hrep hen hlow in
/-- no layer is negative -/
theorem layer_nonneg (he1 : 1 ≤ e) (ht : t ≤ lev 0) (hrps : R.rep ps) {k : ℕ} {b : K} (hb : coreEntryFl R n lev ps t e k = .fin b) : 0 ≤ b := by
  unfold coreEntryFl at hb
  by_cases h1 : k = e
  · rw [if_pos h1, if_neg (by omega)] at hb
    cases hb
    rw [avgFl_comm]
    exact (R.sub_pos _ _ (R.rep_fl _) hrps hlow).le
  · rw [if_neg h1] at hb
    by_cases h2 : k = 0
    · rw [if_pos h2] at hb
      cases hb
      have := avgFl_ge R (hrep 0 (by omega)) (incr_le hinc (show 0 ≤ 1 by omega) (by omega))
      exact R.fl_nonneg (by linarith)
    · rw [if_neg h2] at hb
      by_cases h3 : k < e
      · rw [if_pos h3] at hb
        cases hb
        have := incr_le hinc (show k - 1 ≤ k + 1 by omega) (by omega)
        exact R.fl_nonneg (div_nonneg (R.fl_nonneg (by linarith)) (by norm_num))
      · rw [if_neg h3] at hb
        cases hb

include A hu hinc ht0 ht hrep hen hlow in
/-- every layer is close to the exact one -/
theorem layer_error (he1 : 1 ≤ e) (hrt : R.rep t) (hrps : R.rep ps) (hhigh : ∀ i, e < i → i < n → ps ≤ avgFl R (lev (i - 1)) (lev i))
    {k : ℕ} {b : K} (hb : coreEntryFl R n lev ps t e k = .fin b) :
    |b - (lowerIface n lev ps k - upperIface lev t k)| ≤ 6 * (u * ps) + 3 * η := by
  have hu0 := A.u_nonneg
  have he0 := A.eta_nonneg
  have ps0 : 0 ≤ ps := by
    have := R.fl_nonneg (x := R.fl (lev (e - 1) + lev e) / 2) (div_nonneg (R.fl_nonneg (add_nonneg (incr_nonneg hinc ht0 ht (by omega)) (incr_nonneg hinc ht0 ht (by omega)))) (by norm_num))
    unfold avgFl at hlow
    linarith
  have ups : 0 ≤ u * ps := mul_nonneg hu0 ps0
  have below : ∀ i, 1 ≤ i → i ≤ e → avgFl R (lev (i - 1)) (lev i) < ps := fun i h1 h2 =>
    (avgFl_mono R (incr_le hinc (by omega) (by omega)) (incr_le hinc h2 hen)).trans_lt hlow
  have D := fun i (h1 : 1 ≤ i) (h2 : i ≤ e) => iface_error A hu hinc ht0 ht hrep hen hlow h1 h2
  unfold coreEntryFl at hb
  by_cases h1 : k = e
  · subst h1
    rw [if_pos rfl, if_neg (by omega)] at hb
    cases hb
    rw [avgFl_comm]
    have d := D k he1 (le_refl _)
    have s := A.sub hrps (R.rep_fl (R.fl (lev (k - 1) + lev k) / 2))
    change |R.fl (ps - avgFl R (lev (k - 1)) (lev k)) - (ps - avgFl R (lev (k - 1)) (lev k))| ≤ u * |ps - avgFl R (lev (k - 1)) (lev k)| at s
    have m0 : 0 ≤ avgFl R (lev (k - 1)) (lev k) := R.fl_nonneg (div_nonneg (R.fl_nonneg (add_nonneg (incr_nonneg hinc ht0 ht (by omega)) (incr_nonneg hinc ht0 ht (by omega)))) (by norm_num))
    rw [abs_of_nonneg (by linarith : 0 ≤ ps - avgFl R (lev (k - 1)) (lev k))] at s
    have s' : u * (ps - avgFl R (lev (k - 1)) (lev k)) ≤ u * ps := mul_le_mul_of_nonneg_left (by linarith) hu0
    have up : upperIface lev t k = (lev (k - 1) + lev k) / 2 := by unfold upperIface; rw [if_neg (by omega)]
    have lo : |ps - lowerIface n lev ps k| ≤ 33 / 16 * (u * ps) + η := by
      unfold lowerIface
      split
      · rename_i hk1
        rcases le_total ps ((lev k + lev (k + 1)) / 2) with h | h
        · rw [min_eq_left h, sub_self, abs_zero]; linarith
        · rw [min_eq_right h, abs_of_nonneg (by linarith)]
          have a := avgFl_error A hu (hrep k (by omega)) (hrep (k + 1) hk1) (incr_nonneg hinc ht0 ht (by omega)) (incr_nonneg hinc ht0 ht (by omega))
          have hh := hhigh (k + 1) (by omega) hk1
          rw [Nat.add_sub_cancel] at hh
          have := (abs_le.mp a).2
          have : u * ((lev k + lev (k + 1)) / 2) ≤ u * ps := mul_le_mul_of_nonneg_left h hu0
          linarith
      · rw [sub_self, abs_zero]; linarith
    rw [up]
    obtain ⟨d1, d2⟩ := abs_le.mp d
    obtain ⟨s1, s2⟩ := abs_le.mp s
    obtain ⟨l1, l2⟩ := abs_le.mp lo
    rw [abs_le]
    constructor <;> linarith
  · rw [if_neg h1] at hb
    by_cases h2 : k = 0
    · subst h2
      rw [if_pos rfl] at hb
      cases hb
      have d := D 1 (le_refl _) he1
      have b1 := below 1 (le_refl _) he1
      rw [show 1 - 1 = 0 from rfl] at d b1
      have s := A.sub (R.rep_fl (R.fl (lev 0 + lev 1) / 2)) hrt
      change |R.fl (avgFl R (lev 0) (lev 1) - t) - (avgFl R (lev 0) (lev 1) - t)| ≤ u * |avgFl R (lev 0) (lev 1) - t| at s
      have g := avgFl_ge R (hrep 0 (by omega)) (incr_le hinc (show 0 ≤ 1 by omega) (by omega))
      rw [abs_of_nonneg (by linarith : 0 ≤ avgFl R (lev 0) (lev 1) - t)] at s
      have s' : u * (avgFl R (lev 0) (lev 1) - t) ≤ u * ps := mul_le_mul_of_nonneg_left (by linarith) hu0
      have lo : |avgFl R (lev 0) (lev 1) - lowerIface n lev ps 0| ≤ 19 / 8 * (u * ps) + 6 / 5 * η := by
        unfold lowerIface
        rw [if_pos (by omega)]
        rcases le_total ps ((lev 0 + lev (0 + 1)) / 2) with h | h
        · rw [min_eq_left h]
          obtain ⟨d1, d2⟩ := abs_le.mp d
          rw [zero_add] at h
          rw [abs_le]
          constructor <;> linarith
        · rw [min_eq_right h]; exact d
      have up : upperIface lev t 0 = t := by simp [upperIface]
      rw [up]
      obtain ⟨s1, s2⟩ := abs_le.mp s
      obtain ⟨l1, l2⟩ := abs_le.mp lo
      rw [abs_le]
      constructor <;> linarith
    · rw [if_neg h2] at hb
      by_cases h3 : k < e
      · rw [if_pos h3] at hb
        cases hb
        have i := interior_error A hu hinc hrep (show 1 ≤ k by omega) (show k + 1 < n by omega)
        have d := D (k + 1) (by omega) (by omega)
        have b1 := below (k + 1) (by omega) (by omega)
        rw [Nat.add_sub_cancel] at d b1
        have up : upperIface lev t k = (lev (k - 1) + lev k) / 2 := by unfold upperIface; rw [if_neg (by omega)]
        have lo : |(lev k + lev (k + 1)) / 2 - lowerIface n lev ps k| ≤ 19 / 8 * (u * ps) + 6 / 5 * η := by
          unfold lowerIface
          rw [if_pos (by omega)]
          rcases le_total ps ((lev k + lev (k + 1)) / 2) with h | h
          · rw [min_eq_left h]
            obtain ⟨d1, d2⟩ := abs_le.mp d
            rw [abs_le]
            constructor <;> linarith
          · rw [min_eq_right h, sub_self, abs_zero]; linarith
        have M0 : 0 ≤ (lev (k - 1) + lev k) / 2 := by
          have := incr_nonneg hinc ht0 ht (i := k - 1) (by omega)
          have := incr_nonneg hinc ht0 ht (i := k) (by omega)
          linarith
        have hM : (lev k + lev (k + 1)) / 2 - (lev (k - 1) + lev k) / 2 ≤ ps + (19 / 8 * (u * ps) + 6 / 5 * η) := by
          have := (abs_le.mp d).1
          linarith
        have uM := mul_le_mul_of_nonneg_left hM hu0
        have uu : u * (u * ps) ≤ 1 / 16 * (u * ps) := mul_le_mul_of_nonneg_right hu ups
        have ue : u * η ≤ 1 / 16 * η := mul_le_mul_of_nonneg_right hu he0
        rw [up]
        obtain ⟨i1, i2⟩ := abs_le.mp i
        obtain ⟨l1, l2⟩ := abs_le.mp lo
        rw [abs_le]
        constructor <;> nlinarith
      · rw [if_neg h3] at hb
        cases hb

theorem nanSum_succ (m : ℕ) (d : ℕ → XF K) (b : K) (h : d m = .fin b) : nanSum (column (m + 1) d) = nanSum (column m d) + b := by
  have hstep : column (m + 1) d = column m d ++ [d m] := by simp [column, List.range_succ]
  rw [hstep, h]
  simp [nanSum, XF.toFin?]

theorem nanSum_rest (m n : ℕ) (hmn : m ≤ n) (d : ℕ → XF K) (h : ∀ k, m ≤ k → k < n → d k = .nan) : nanSum (column n d) = nanSum (column m d) := by
  induction n with
  | zero => rw [Nat.le_zero.mp hmn]
  | succ n ih =>
    rcases Nat.lt_or_eq_of_le hmn with h' | h'
    · have hstep : column (n + 1) d = column n d ++ [d n] := by simp [column, List.range_succ]
      have e1 : nanSum (column (n + 1) d) = nanSum (column n d) := by
        rw [hstep, h n (by omega) (by omega)]
        simp [nanSum, List.filterMap_cons, XF.toFin?]
      rw [e1]
      exact ih (by omega) (fun k h1 h2 => h k h1 (by omega))
    · rw [h']

include A hu hinc ht0 ht hrep hen hlow in
/-- the layers add up to the depth of the atmosphere -/
theorem layer_sum (he1 : 1 ≤ e) (hrt : R.rep t) (hrps : R.rep ps) :
    |nanSum (column n (coreEntryFl R n lev ps t e)) - (ps - t)| ≤ 6 * (u * ps) + (n + 1) * η := by
  have hu0 := A.u_nonneg
  have he0 := A.eta_nonneg
  set d := coreEntryFl R n lev ps t e with hd
  have m0 : 0 ≤ avgFl R (lev (e - 1)) (lev e) := R.fl_nonneg (div_nonneg (R.fl_nonneg (add_nonneg (incr_nonneg hinc ht0 ht (by omega)) (incr_nonneg hinc ht0 ht (by omega)))) (by norm_num))
  have d0 : d 0 = .fin (R.fl (avgFl R (lev 0) (lev 1) - t)) := by
    rw [hd]; unfold coreEntryFl; rw [if_neg (by omega), if_pos rfl]
  have dk : ∀ k, 1 ≤ k → k < e → d k = .fin (R.fl (R.fl (lev (k + 1) - lev (k - 1)) / 2)) := by
    intro k h1 h2
    rw [hd]; unfold coreEntryFl; rw [if_neg (by omega), if_neg (by omega), if_pos h2]
  have de : d e = .fin (R.fl (ps - avgFl R (lev (e - 1)) (lev e))) := by
    rw [hd]; unfold coreEntryFl; rw [if_pos rfl, if_neg (by omega), avgFl_comm]
  have dr : ∀ k, e + 1 ≤ k → k < n → d k = .nan := by
    intro k h1 h2
    rw [hd]; unfold coreEntryFl; rw [if_neg (by omega), if_neg (by omega), if_neg (by omega)]
  have pre : ∀ m, m + 1 ≤ e → |nanSum (column (m + 1) d) - (avgFl R (lev 0) (lev 1) - (lev 0 + lev 1) / 2 + ((lev m + lev (m + 1)) / 2 - t))|
      ≤ u * (avgFl R (lev 0) (lev 1) - t) + 33 / 16 * (u * ((lev m + lev (m + 1)) / 2 - (lev 0 + lev 1) / 2)) + m * η := by
    intro m
    induction m with
    | zero =>
      intro _
      rw [nanSum_succ 0 d _ d0]
      have s := A.sub (R.rep_fl (R.fl (lev 0 + lev 1) / 2)) hrt
      change |R.fl (avgFl R (lev 0) (lev 1) - t) - (avgFl R (lev 0) (lev 1) - t)| ≤ u * |avgFl R (lev 0) (lev 1) - t| at s
      have g := avgFl_ge R (hrep 0 (by omega)) (incr_le hinc (show 0 ≤ 1 by omega) (by omega))
      rw [abs_of_nonneg (by linarith : 0 ≤ avgFl R (lev 0) (lev 1) - t)] at s
      have z : nanSum (column 0 d) = 0 := by simp [nanSum, column]
      rw [z, zero_add, zero_add, sub_self, mul_zero, mul_zero, add_zero, Nat.cast_zero, zero_mul, add_zero,
        show avgFl R (lev 0) (lev 1) - (lev 0 + lev 1) / 2 + ((lev 0 + lev 1) / 2 - t) = avgFl R (lev 0) (lev 1) - t by ring]
      exact s
    | succ m ih =>
      intro hm
      have ih := ih (by omega)
      rw [nanSum_succ (m + 1) d _ (dk (m + 1) (by omega) (by omega))]
      have i := interior_error A hu hinc hrep (show 1 ≤ m + 1 by omega) (show m + 1 + 1 < n by omega)
      rw [Nat.add_sub_cancel] at i ⊢
      obtain ⟨a1, a2⟩ := abs_le.mp ih
      obtain ⟨i1, i2⟩ := abs_le.mp i
      push_cast
      rw [abs_le]
      constructor <;> nlinarith
  obtain ⟨m, rfl⟩ : ∃ m, e = m + 1 := ⟨e - 1, by omega⟩
  have p := pre m (le_refl _)
  rw [nanSum_rest (m + 1 + 1) n (by omega) d dr, nanSum_succ (m + 1) d _ de]
  have s := A.sub hrps (R.rep_fl (R.fl (lev (m + 1 - 1) + lev (m + 1)) / 2))
  change |R.fl (ps - avgFl R (lev (m + 1 - 1)) (lev (m + 1))) - (ps - avgFl R (lev (m + 1 - 1)) (lev (m + 1)))| ≤ u * |ps - avgFl R (lev (m + 1 - 1)) (lev (m + 1))| at s
  rw [abs_of_nonneg (by linarith : 0 ≤ ps - avgFl R (lev (m + 1 - 1)) (lev (m + 1)))] at s
  have d1 := avgFl_error A hu (hrep 0 (by omega)) (hrep 1 (by omega)) (incr_nonneg hinc ht0 ht (by omega)) (incr_nonneg hinc ht0 ht (by omega))
  have d2 := avgFl_error A hu (hrep m (by omega)) (hrep (m + 1) (by omega)) (incr_nonneg hinc ht0 ht (by omega)) (incr_nonneg hinc ht0 ht (by omega))
  have g := avgFl_mono R (incr_le hinc (Nat.zero_le m) (by omega)) (incr_le hinc (show 1 ≤ m + 1 by omega) (by omega))
  rw [Nat.add_sub_cancel] at s hlow m0 ⊢
  set m1 := avgFl R (lev 0) (lev 1)
  set me := avgFl R (lev m) (lev (m + 1))
  set M1 := (lev 0 + lev 1) / 2
  set Me := (lev m + lev (m + 1)) / 2
  have Me0 : 0 ≤ Me := by
    have := incr_nonneg hinc ht0 ht (i := m) (by omega)
    have := incr_nonneg hinc ht0 ht (i := m + 1) (by omega)
    simp only [Me]; linarith
  have uMe : u * Me ≤ 1 / 16 * Me := mul_le_mul_of_nonneg_right hu Me0
  have hMe : Me ≤ 256 / 223 * (ps + η) := by
    have := (abs_le.mp d2).1
    linarith
  have uMe' : u * Me ≤ u * (256 / 223 * (ps + η)) := mul_le_mul_of_nonneg_left hMe hu0
  have ue : u * η ≤ 1 / 16 * η := mul_le_mul_of_nonneg_right hu he0
  have ug : u * m1 ≤ u * me := mul_le_mul_of_nonneg_left g hu0
  have ut : 0 ≤ u * t := mul_nonneg hu0 ht0
  have ups : 0 ≤ u * ps := mul_nonneg hu0 (by linarith)
  have hmn : ((m : K) + 2) * η ≤ n * η := by
    refine mul_le_mul_of_nonneg_right ?_ he0
    exact_mod_cast (by omega : m + 2 ≤ n)
  obtain ⟨p1, p2⟩ := abs_le.mp p
  obtain ⟨s1, s2⟩ := abs_le.mp s
  obtain ⟨a1, a2⟩ := abs_le.mp d1
  obtain ⟨b1, b2⟩ := abs_le.mp d2
  rw [abs_le]
  constructor <;> nlinarith

end column

end Verif.Lemmas
