import Verif.Model.DeltaInt
import Verif.Props.DeltaPressure
import Verif.Props.MultidimInt

/-
C191: delta_pressure of levels stored as integers.
-/

set_option linter.unusedSectionVars false

namespace Verif.Props
open Model Spec Lemmas
variable {K : Type} [Field K] [LinearOrder K] [IsStrictOrderedRing K]

theorem index_castMap (q : List ℤ) (i : ℤ) : Py.index (q.map (Int.cast : ℤ → K)) i = (Py.index q i).map (Int.cast : ℤ → K) := by
  unfold Py.index
  simp only [List.length_map]
  generalize (if i < 0 then i + (q.length : ℤ) else i) = j
  by_cases h : j < 0
  · simp only [if_pos h]
    rfl
  · simp only [if_neg h, List.getElem?_map]
    cases q[j.toNat]? <;> rfl

theorem slice_castMap (q : List ℤ) (a b : ℤ) : Py.slice (q.map (Int.cast : ℤ → K)) a b = (Py.slice q a b).map (Int.cast : ℤ → K) := by
  unfold Py.slice
  rw [List.length_map, List.map_drop, List.map_take]

theorem index_mem {q : List ℤ} {i x : ℤ} (h : Py.index q i = .ok x) : x ∈ q := by
  unfold Py.index at h
  simp only at h
  split_ifs at h
  · split at h
    · rename_i y hy
      cases h
      exact List.mem_of_getElem? hy
    · cases h
  · split at h
    · rename_i y hy
      cases h
      exact List.mem_of_getElem? hy
    · cases h

theorem zipWith_pair {α β γ : Type} (f g : α → β → γ) (l : List α) (m : List β)
    (h : ∀ (i : ℕ) a b, l[i]? = some a → m[i]? = some b → f a b = g a b) : List.zipWith f l m = List.zipWith g l m := by
  induction l generalizing m with
  | nil => rfl
  | cons x l ih =>
    cases m with
    | nil => rfl
    | cons y m =>
      rw [List.zipWith_cons_cons, List.zipWith_cons_cons, h 0 x y rfl rfl, ih m (fun i a b ha hb => h (i + 1) a b (by simpa using ha) (by simpa using hb))]

/-- all sums of two of the levels are numbers of the type -/
def SumsFit (F : IntFormat) (q : List ℤ) : Prop := ∀ a ∈ q, ∀ b ∈ q, F.fits (a + b) = true

theorem diff_fits (F : IntFormat) (hF : F.least ≤ 0) {a b : ℤ} (h : F.fits (a + a) = true) (hb : 0 ≤ b) (hba : b ≤ a) : F.fits (a - b) = true := by
  unfold IntFormat.fits at h ⊢
  rw [Bool.and_eq_true, decide_eq_true_eq, decide_eq_true_eq] at h ⊢
  omega

theorem least_nonpos (F : IntFormat) : F.least ≤ 0 := by
  unfold IntFormat.least
  split_ifs
  · have : (0 : ℤ) < 2 ^ (F.bits - 1) := by positivity
    omega
  · exact le_refl _

theorem sorted_int (F : IntFormat) (q : List ℤ) (h0 : ∀ a ∈ q, 0 ≤ a) (hq : q.Pairwise (· ≤ ·)) (hf : SumsFit F q) (ps : XF K) (ptop : K) :
    deltaSortedInt F q ps ptop = deltaSorted (q.map (Int.cast : ℤ → K)) ps ptop := by
  have hsum : ∀ a ∈ q, ∀ b ∈ q, ((F.reduce (a + b) : ℤ) : K) = (a : K) + b := by
    intro a ha b hb
    rw [reduce_of_fits F _ (hf a ha b hb), Int.cast_add]
  have hroll : Np.roll1 (q.map (Int.cast : ℤ → K)) = (Np.roll1 q).map (Int.cast : ℤ → K) := by
    unfold Np.roll1
    cases h : q.getLast? with
    | none => simp [h]
    | some x => simp [h, List.getLast?_map]
  have hmem : ∀ x ∈ Np.roll1 q, x ∈ q := by
    unfold Np.roll1
    cases h : q.getLast? with
    | none => simp
    | some x =>
      simp only
      intro y hy
      rcases List.mem_cons.mp hy with rfl | hy
      · exact List.mem_of_getLast? h
      · exact List.dropLast_subset _ hy
  have hmid : (midpointsInt F q : List K) = midpoints (q.map (Int.cast : ℤ → K)) := by
    unfold midpointsInt midpoints
    rw [hroll, List.zipWith_map]
    congr 1
    refine zipWith_pair _ _ _ _ fun i a b ha hb => ?_
    rw [hsum a (List.mem_of_getElem? ha) b (hmem b (List.mem_of_getElem? hb))]
  have hslice : ∀ s e : ℕ, List.zipWith (fun a b => XF.fin (((F.reduce (a - b) : ℤ) : K) / 2)) (Py.slice q ((s : Int) + 2) ((e : Int) + 1)) (Py.slice q (s : Int) (e : Int)) =
      List.zipWith (fun a b : K => XF.fin ((a - b) / 2)) (Py.slice (q.map (Int.cast : ℤ → K)) ((s : Int) + 2) ((e : Int) + 1))
        (Py.slice (q.map (Int.cast : ℤ → K)) (s : Int) (e : Int)) := by
    intro s e
    rw [slice_castMap, slice_castMap, List.zipWith_map]
    refine zipWith_pair _ _ _ _ fun i a b ha hb => ?_
    have c1 : Py.clampBound q.length ((s : ℤ) + 2) = min (s + 2) q.length := by unfold Py.clampBound; split_ifs <;> omega
    have c2 : Py.clampBound q.length (s : ℤ) = min s q.length := by unfold Py.clampBound; split_ifs <;> omega
    unfold Py.slice at ha hb
    rw [c1, List.getElem?_drop] at ha
    rw [c2, List.getElem?_drop] at hb
    have htake : ∀ (n i : ℕ) (x : ℤ), (q.take n)[i]? = some x → q[i]? = some x := by
      intro n i x h
      rw [List.getElem?_take] at h
      split_ifs at h
      exact h
    have ha' := htake _ _ _ ha
    have hb' := htake _ _ _ hb
    obtain ⟨la, ea⟩ := List.getElem?_eq_some_iff.mp ha'
    obtain ⟨lb, eb⟩ := List.getElem?_eq_some_iff.mp hb'
    have hle : b ≤ a := by
      rw [← ea, ← eb]
      exact List.pairwise_iff_getElem.mp hq _ _ lb la (by omega)
    have hma := List.mem_of_getElem? ha'
    have hmb := List.mem_of_getElem? hb'
    rw [reduce_of_fits F _ (diff_fits F (least_nonpos F) (hf a hma a hma) (h0 b hmb) hle), Int.cast_sub]
  unfold deltaSortedInt deltaSorted aboveGround
  simp only [hmid, List.length_map]
  cases h1 : Py.minNat (Np.nonzero ((midpoints (q.map (Int.cast : ℤ → K))).map (fun m => XF.lt (.fin m) ps))) with
  | error e => rfl
  | ok s =>
    cases h2 : Py.maxNat (Np.nonzero ((midpoints (q.map (Int.cast : ℤ → K))).map (fun m => XF.lt (.fin m) ps))) with
    | error e => rfl
    | ok e =>
      simp only [bind, Except.bind, index_castMap, hslice]
      cases h3 : Py.index q (s : ℤ) with
      | error e => rfl
      | ok qs =>
        cases h4 : Py.index q ((s : ℤ) + 1) with
        | error e => rfl
        | ok qs1 =>
          simp only [Except.map, hsum qs (index_mem h3) qs1 (index_mem h4)]
          cases h5 : Py.setIndex (List.replicate q.length (XF.nan : XF K)) (s : ℤ) (.fin (((qs : K) + qs1) / 2 - ptop)) with
          | error e => rfl
          | ok d =>
            simp only
            cases h6 : Py.setSlice d ((s : ℤ) + 1) (e : ℤ) (List.zipWith (fun a b : K => XF.fin ((a - b) / 2))
                (Py.slice (q.map (Int.cast : ℤ → K)) ((s : Int) + 2) ((e : Int) + 1)) (Py.slice (q.map (Int.cast : ℤ → K)) (s : Int) (e : Int))) with
            | error e => rfl
            | ok d' =>
              simp only
              cases h7 : Py.index q (e : ℤ) with
              | error e => rfl
              | ok qe =>
                cases h8 : Py.index q ((e : ℤ) - 1) with
                | error e => rfl
                | ok qe1 => simp only [hsum qe (index_mem h7) qe1 (index_mem h8)]

/-- `C191`: for non-negative levels in ascending or descending order such that the sum of any two of them is a number of their type, the result is
that for the same levels given as floating-point numbers.
Missing: levels whose sums do not fit, see the counterexample. -/
theorem C191_partial (F : IntFormat) (p : List ℤ) (h0 : ∀ a ∈ p, 0 ≤ a) (hp : p.Pairwise (· < ·) ∨ p.Pairwise (· > ·)) (hf : SumsFit F p) (ps : XF K)
    (ptop : Option K) : deltaPressureInt F p ps ptop = deltaPressure (p.map (Int.cast : ℤ → K)) ps ptop := by
  unfold deltaPressureInt deltaPressure
  cases ht : resolveTop (p.map (Int.cast : ℤ → K)) ptop with
  | error e => rfl
  | ok t =>
    simp only [bind, Except.bind]
    unfold deltaPressure1DInt deltaPressure1D
    by_cases c1 : t < 0
    · simp only [if_pos c1]
      rfl
    · simp only [if_neg c1]
      by_cases c2 : XF.lt ps (.fin t) = true
      · simp only [if_pos c2]
        rfl
      · simp only [if_neg c2, index_castMap]
        cases h1 : Py.index p 1 with
        | error e => rfl
        | ok x1 =>
          cases h2 : Py.index p 0 with
          | error e => rfl
          | ok x0 =>
            simp only [bind, Except.bind, pure, Except.pure, Except.map, Int.cast_lt]
            rcases hp with hp | hp
            · have hs := sorted_int F p h0 (hp.imp le_of_lt) hf ps t
              have : ¬ x1 < x0 := by
                match p, hp, h1, h2 with
                | a :: b :: l, hp, h1, h2 =>
                  simp only [Py.index] at h1 h2
                  cases h1; cases h2
                  have := (List.pairwise_cons.mp hp).1 x1 (by simp)
                  omega
              simp only [if_neg this, hs]
            · have hs := sorted_int F p.reverse (fun a ha => h0 a (List.mem_reverse.mp ha))
                (List.pairwise_reverse.mpr (hp.imp fun h => le_of_lt h)) (fun a ha b hb => hf a (List.mem_reverse.mp ha) b (List.mem_reverse.mp hb)) ps t
              have : x1 < x0 := by
                match p, hp, h1, h2 with
                | a :: b :: l, hp, h1, h2 =>
                  simp only [Py.index] at h1 h2
                  cases h1; cases h2
                  have := (List.pairwise_cons.mp hp).1 x1 (by simp)
                  omega
              simp only [if_pos this, hs, List.map_reverse]

/-- `C191`: 32 and 64 bit types, signed or not, are wide enough for all levels up to a thousand million pascals -/
theorem C191_wide (signed : Bool) (bits : ℕ) (hb : 32 ≤ bits) (p : List ℤ) (h0 : ∀ a ∈ p, 0 ≤ a ∧ a ≤ 10 ^ 9)
    (hp : p.Pairwise (· < ·) ∨ p.Pairwise (· > ·)) (ps : XF K) (ptop : Option K) :
    deltaPressureInt ⟨signed, bits⟩ p ps ptop = deltaPressure (p.map (Int.cast : ℤ → K)) ps ptop := by
  refine C191_partial _ p (fun a ha => (h0 a ha).1) hp (fun a ha b hb' => ?_) ps ptop
  obtain ⟨a0, a1⟩ := h0 a ha
  obtain ⟨b0, b1⟩ := h0 b hb'
  obtain ⟨k, rfl⟩ : ∃ k, bits = k + 32 := ⟨bits - 32, by omega⟩
  have hk : (1 : ℤ) ≤ 2 ^ k := one_le_pow₀ (by norm_num)
  unfold IntFormat.fits IntFormat.least
  rw [Bool.and_eq_true, decide_eq_true_eq, decide_eq_true_eq]
  cases signed
  · simp only [Bool.false_eq_true, if_false]
    rw [pow_add]
    constructor
    · omega
    · nlinarith
  · simp only [if_true]
    rw [show k + 32 - 1 = k + 31 by omega, pow_add, pow_add]
    constructor
    · nlinarith
    · nlinarith

/-- three levels above 500 hPa in pascals, stored as 16 bit unsigned integers, over a surface at 600 hPa: the layers do not add up to the pressure between
the top and the surface -/
theorem C191_counterexample :
    deltaPressureInt ⟨false, 16⟩ [30000, 40000, 50000] (.fin (60000 : ℚ)) none = .ok [.fin (-27768), .fin 10000, .fin 47768] ∧
    deltaPressure [30000, 40000, 50000] (.fin (60000 : ℚ)) none = .ok [.fin 5000, .fin 10000, .fin 15000] := by
  constructor <;> decide +kernel

-- the hypotheses are met: levels in hPa stored as 16 bit integers
example : deltaPressureInt ⟨true, 16⟩ [1000, 850, 500] (.fin (990 : ℚ)) none = .ok [.fin 65, .fin 250, .fin 175] := by
  rw [C191_partial ⟨true, 16⟩ [1000, 850, 500] (by decide) (Or.inr (by decide)) (by unfold SumsFit; decide)]
  decide +kernel

end Verif.Props
