import Verif.Spec.Regular
import Verif.Lemmas.Climatology2
import Mathlib.Data.List.Nodup

/-
The check for evenly spaced or monthly data in terms of `Spec/Regular.lean`.
-/

set_option linter.unusedSectionVars false

namespace Verif.Lemmas
open Model Spec
variable {K : Type _} [Field K] [LinearOrder K] [IsStrictOrderedRing K]

theorem chain_range (M : List ℤ) (a z : ℤ) (ha : M.head? = some a) (hz : M.getLast? = some z) (h : M.IsChain (fun x y => y = x + 1)) :
    M = periodRange a z := by
  induction M generalizing a with
  | nil => cases ha
  | cons x t ih =>
    simp only [List.head?_cons, Option.some.injEq] at ha
    subst ha
    cases t with
    | nil =>
      simp only [List.getLast?_singleton, Option.some.injEq] at hz
      subst hz
      unfold periodRange
      rw [show x - x + 1 = 1 by ring]
      simp
    | cons y t =>
      rw [List.isChain_cons_cons] at h
      obtain ⟨h1, h2⟩ := h
      rw [List.getLast?_cons_cons] at hz
      have := ih y rfl hz h2
      have hle : y ≤ z := by
        have hl := congrArg List.length this
        rw [periodRange_length] at hl
        simp only [List.length_cons] at hl
        omega
      rw [this, h1]
      unfold periodRange
      rw [show (z - x + 1).toNat = (z - (x + 1) + 1).toNat + 1 by omega, List.range_succ_eq_map]
      simp only [List.map_cons, List.map_map]
      congr 1
      · simp
      · refine List.map_congr_left fun i _ => ?_
        simp only [Function.comp_apply]
        push_cast
        ring

theorem range_chain (a z : ℤ) : (periodRange a z).IsChain (fun x y => y = x + 1) := by
  rw [List.isChain_iff_getElem]
  intro i h
  have h0 := List.getElem?_eq_getElem (Nat.lt_of_succ_lt h)
  have h1 := List.getElem?_eq_getElem h
  rw [periodRange_length] at h
  rw [periodRange_getElem? a z _ (by omega), Option.some.injEq] at h0 h1
  rw [← h0, ← h1]
  push_cast
  ring

theorem count_filter (per : ℤ → ℤ) (l : List (Entry K)) (b : ℤ) :
    (l.filter (fun e => decide (per e.key = b))).length = (l.map (fun e => per e.key)).count b := by
  rw [← List.countP_eq_length_filter, List.count, List.countP_map]
  refine List.countP_congr fun x _ => ?_
  simp [Function.comp]

theorem uniform_iff (cal : Cal) (infer : InferFreq) (s : Series K) :
    checkUniform cal infer s = .ok () ↔ Regular cal infer s := by
  unfold checkUniform Regular
  cases hi : infer (s.samples.map (·.key)) with
  | error e => simp [bind, Except.bind]
  | ok b =>
    cases b with
    | true => simp [bind, Except.bind, pure, Except.pure]
    | false =>
      simp only [bind, Except.bind, Bool.false_eq_true, if_false, Except.ok.injEq, false_or, true_and]
      unfold resample OncePerMonth
      by_cases hne : s.samples = []
      · simp [hne, throw, throwThe, MonadExceptOf.throw]
      · by_cases hs : s.samples.Pairwise (fun a b => a.key ≤ b.key)
        · rw [if_neg (by simp [hne, hs])]
          simp only [pure, Except.pure]
          obtain ⟨a, ha⟩ : ∃ a, s.samples.head? = some a := by
            cases hh : s.samples.head? with
            | none => exact absurd (List.head?_eq_none_iff.mp hh) hne
            | some a => exact ⟨a, rfl⟩
          obtain ⟨z, hz⟩ : ∃ z, s.samples.getLast? = some z := by
            cases hh : s.samples.getLast? with
            | none => exact absurd (List.getLast?_eq_none_iff.mp hh) hne
            | some z => exact ⟨z, rfl⟩
          unfold bins
          rw [ha, hz]
          simp only [List.all_map, Function.comp_def]
          simp only [count_filter cal.monthOf]
          have hch : s.samples.IsChain (fun a b => cal.monthOf b.key = cal.monthOf a.key + 1) ↔
              (s.samples.map (fun e => cal.monthOf e.key)).IsChain (fun x y => y = x + 1) := by
            rw [List.isChain_map]
          rw [hch]
          have hMa : (s.samples.map (fun e => cal.monthOf e.key)).head? = some (cal.monthOf a.key) := by rw [List.head?_map, ha]; rfl
          have hMz : (s.samples.map (fun e => cal.monthOf e.key)).getLast? = some (cal.monthOf z.key) := by rw [List.getLast?_map, hz]; rfl
          have hMs : (s.samples.map (fun e => cal.monthOf e.key)).Pairwise (· ≤ ·) := by
            rw [List.pairwise_map]
            exact hs.imp (fun h => monthOf_mono cal h)
          generalize s.samples.map (fun e => cal.monthOf e.key) = M at *
          generalize cal.monthOf a.key = a' at *
          generalize cal.monthOf z.key = z' at *
          have hin : ∀ x ∈ M, a' ≤ x ∧ x ≤ z' := fun x hx => head_last_bounds (fun x : ℤ => x) M hMs a' z' hMa hMz x hx
          have hall : (periodRange a' z').all (fun b => decide (M.count b = 1)) = true ↔ M.IsChain (fun x y => y = x + 1) := by
            rw [List.all_eq_true]
            constructor
            · intro h
              have hnd : M.Nodup := by
                rw [List.nodup_iff_count_le_one]
                intro x
                by_cases hx : x ∈ M
                · have := h x ((mem_periodRange _ _ _).mpr (hin x hx))
                  simp only [decide_eq_true_eq] at this
                  omega
                · rw [List.count_eq_zero_of_not_mem hx]; omega
              have hlt : M.Pairwise (· < ·) := hMs.and hnd |>.imp (fun h => lt_of_le_of_ne h.1 h.2)
              rw [sorted_ext hlt (periodRange_sorted a' z') fun x => ?_]
              · exact range_chain _ _
              · rw [mem_periodRange]
                refine ⟨fun hx => hin x hx, fun hx => ?_⟩
                have := h x ((mem_periodRange _ _ _).mpr hx)
                simp only [decide_eq_true_eq] at this
                exact List.count_pos_iff.mp (by omega)
            · intro h x hx
              have hM := chain_range M a' z' hMa hMz h
              simp only [decide_eq_true_eq]
              rw [hM]
              exact List.count_eq_one_of_mem ((periodRange_sorted a' z').imp (fun h => ne_of_lt h)) hx
          by_cases hA : (periodRange a' z').all (fun b => decide (M.count b = 1)) = true
          · rw [if_pos hA]
            simp only [true_iff]
            exact ⟨hne, hall.mp hA⟩
          · rw [if_neg hA]
            have hA' := fun h => hA (hall.mpr h)
            exact ⟨fun h => (by cases h), fun h => absurd h.2 hA'⟩
        · rw [if_pos (by simp [hs])]
          simp only [throw, throwThe, MonadExceptOf.throw, reduceCtorEq, false_iff]
          rintro ⟨-, h⟩
          refine hs ?_
          have ht : s.samples.IsChain (fun a b => a.key ≤ b.key ∧ cal.monthOf a.key < cal.monthOf b.key) := by
            refine h.imp fun a b hab => ?_
            refine ⟨?_, by omega⟩
            by_contra hc
            have := monthOf_mono cal (le_of_lt (not_le.mp hc))
            omega
          exact (List.isChain_iff_pairwise.mp (ht.imp fun a b h => h.1))

theorem uniform_error (cal : Cal) (infer : InferFreq) (s : Series K) (e : PyErr) (h : infer (s.samples.map (·.key)) = .error e) :
    checkUniform cal infer s = .error e := by
  unfold checkUniform
  rw [h]
  rfl

theorem uniform_reject (cal : Cal) (infer : InferFreq) (s : Series K) (h : infer (s.samples.map (·.key)) = .ok false) (hno : ¬ OncePerMonth cal s) :
    checkUniform cal infer s = .error .valueError := by
  have hn : checkUniform cal infer s ≠ .ok () := by
    rw [Ne, uniform_iff, Regular, h]
    simp [hno]
  revert hn
  unfold checkUniform resample
  rw [h]
  simp only [bind, Except.bind, Bool.false_eq_true, if_false]
  split_ifs with h1 h2
  · intro _; rfl
  · simp only [pure, Except.pure]
    split_ifs
    · intro hn; exact absurd rfl hn
    · intro _; rfl

end Verif.Lemmas
