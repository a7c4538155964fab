import Verif.Model.WarnFilters
import Mathlib.Data.List.Basic
import Mathlib.Tactic.ByContra

/-
C172: computing the blocks of `interp_hybrid_to_pressure` leaves the warning filters of the process as they were, and no block prints an
out-of-bounds warning, whatever the order in which the threads of the dask scheduler make their steps.
-/

namespace Verif.Props
open Verif.Model

variable {F : Type} [DecidableEq F]

/-- What stays true under every schedule: the list in force and the lists remembered exist, and every list is the original one or the
original one with `ig` moved to the front. -/
structure WarnInv (ig : F) (f : List F) (s : WarnState F × List Phase) : Prop where
  cur : s.1.cur < s.1.lists.length
  saved : ∀ p ∈ s.2, ∀ k, (p = .entered k ∨ p = .filtered k ∨ ∃ q, p = .interpolated k q) → k < s.1.lists.length
  lists : ∀ l ∈ s.1.lists, l = f ∨ l = addFilter ig f

theorem inForce_of_lt (w : WarnState F) (h : w.cur < w.lists.length) : w.inForce ∈ w.lists := by
  unfold WarnState.inForce
  rw [List.getD_eq_getElem?_getD, List.getElem?_eq_getElem h]
  exact List.getElem_mem h

theorem addFilter_of (ig : F) (f l : List F) (h : l = f ∨ l = addFilter ig f) : addFilter ig l = addFilter ig f := by
  rcases h with rfl | rfl
  · rfl
  · simp [addFilter]

theorem warnTick_inv (ig : F) (f : List F) (s : WarnState F × List Phase) (h : WarnInv ig f s) (i : Nat) : WarnInv ig f (warnTick ig s i) := by
  unfold warnTick
  cases hp : s.2[i]? with
  | none => exact h
  | some p =>
    have hmem : p ∈ s.2 := List.mem_of_getElem? hp
    have hset : ∀ q, ∀ x ∈ s.2.set i q, x = q ∨ x ∈ s.2 := fun q x hx => by
      rcases List.mem_or_eq_of_mem_set hx with h1 | h1
      · exact Or.inr h1
      · exact Or.inl h1
    have hf := h.lists _ (inForce_of_lt s.1 h.cur)
    cases p with
    | start =>
      refine ⟨by simp [warnStep], ?_, ?_⟩
      · intro x hx k hk
        simp only [warnStep, List.length_append, List.length_cons, List.length_nil] at hx ⊢
        rcases hset _ x hx with rfl | h1
        · rcases hk with hk | hk | ⟨q, hk⟩
          · injection hk with hk; have := h.cur; omega
          · exact absurd hk (by simp)
          · exact absurd hk (by simp)
        · have := h.saved x h1 k hk; omega
      · intro l hl
        simp only [warnStep, List.mem_append, List.mem_singleton] at hl
        rcases hl with hl | rfl
        · exact h.lists l hl
        · exact hf
    | entered k0 =>
      refine ⟨by simpa [warnStep] using h.cur, ?_, ?_⟩
      · intro x hx k hk
        simp only [warnStep, List.length_set] at hx ⊢
        rcases hset _ x hx with rfl | h1
        · rcases hk with hk | hk | ⟨q, hk⟩
          · exact absurd hk (by simp)
          · injection hk with hk; subst hk; exact h.saved _ hmem _ (Or.inl rfl)
          · exact absurd hk (by simp)
        · exact h.saved x h1 k hk
      · intro l hl
        simp only [warnStep] at hl
        rcases List.mem_or_eq_of_mem_set hl with h1 | h1
        · exact h.lists l h1
        · right; rw [h1]; exact addFilter_of ig f _ hf
    | filtered k0 =>
      refine ⟨h.cur, ?_, h.lists⟩
      intro x hx k hk
      simp only [warnStep] at hx ⊢
      rcases hset _ x hx with rfl | h1
      · rcases hk with hk | hk | ⟨q, hk⟩
        · exact absurd hk (by simp)
        · exact absurd hk (by simp)
        · injection hk with hk; subst hk; exact h.saved _ hmem _ (Or.inr (Or.inl rfl))
      · exact h.saved x h1 k hk
    | interpolated k0 q0 =>
      refine ⟨h.saved _ hmem _ (Or.inr (Or.inr ⟨_, rfl⟩)), ?_, h.lists⟩
      intro x hx k hk
      simp only [warnStep] at hx ⊢
      rcases hset _ x hx with rfl | h1
      · rcases hk with hk | hk | ⟨q, hk⟩ <;> exact absurd hk (by simp)
      · exact h.saved x h1 k hk
    | done q0 =>
      refine ⟨h.cur, ?_, h.lists⟩
      intro x hx k hk
      simp only [warnStep] at hx ⊢
      rcases hset _ x hx with rfl | h1
      · rcases hk with hk | hk | ⟨q, hk⟩ <;> exact absurd hk (by simp)
      · exact h.saved x h1 k hk

theorem warnRun_inv (ig : F) (f : List F) (sched : List Nat) :
    ∀ s : WarnState F × List Phase, WarnInv ig f s → WarnInv ig f (warnRun ig s sched) := by
  induction sched with
  | nil => intro s h; exact h
  | cons i is ih => intro s h; exact ih _ (warnTick_inv ig f s h i)

theorem warnInit_inv (ig : F) (f : List F) (n : Nat) : WarnInv ig f (warnInit f n) := by
  refine ⟨by simp [warnInit], ?_, ?_⟩
  · intro p hp k hk
    have : p = .start := List.eq_of_mem_replicate hp
    subst this
    rcases hk with hk | hk | ⟨q, hk⟩ <;> exact absurd hk (by simp)
  · intro l hl
    left
    simpa [warnInit] using hl

/-- **C172** (partial). Under every schedule, at every moment, the filters in force are those of the caller, possibly with the `ignore` filter
put in front; no filter of the caller is ever lost or reordered. Missing: that they are exactly the caller's again in the end, which is
false (`C172_counterexample`) unless the blocks run one after the other (`C172_serial`). -/
theorem C172_schedules_partial (ig : F) (f : List F) (n : Nat) (sched : List Nat) :
    ((warnRun ig (warnInit f n) sched).1.inForce = f ∨ (warnRun ig (warnInit f n) sched).1.inForce = ig :: f.erase ig) ∧
      (ig ∉ f → (warnRun ig (warnInit f n) sched).1.inForce.filter (· ≠ ig) = f) := by
  have h := warnRun_inv ig f sched _ (warnInit_inv ig f n)
  have h1 := h.lists _ (inForce_of_lt _ h.cur)
  refine ⟨h1, fun hig => ?_⟩
  have hne : f.filter (· ≠ ig) = f := List.filter_eq_self.mpr (fun x hx => by
    simp only [ne_eq, decide_not, Bool.not_eq_eq_eq_not, Bool.not_true, decide_eq_false_iff_not]
    rintro rfl
    exact hig hx)
  rcases h1 with h1 | h1
  · rw [h1, hne]
  · rw [h1, addFilter, List.erase_of_not_mem hig]
    simpa using hne

/-- **C172**: a caller who has put the same filter first is safe under every schedule: the filters in force never change and every block that
has finished ran with it. -/
theorem C172_already_ignored (ig : F) (f : List F) (n : Nat) (sched : List Nat) (hf : f.head? = some ig) :
    (warnRun ig (warnInit f n) sched).1.inForce = f ∧ ∀ q, Phase.done q ∈ (warnRun ig (warnInit f n) sched).2 → q = true := by
  obtain ⟨t, rfl⟩ : ∃ t, f = ig :: t := by
    cases f with
    | nil => simp at hf
    | cons a t => simp at hf; exact ⟨t, by rw [hf]⟩
  have hall : ∀ s : WarnState F × List Phase, WarnInv ig (ig :: t) s → s.1.inForce = ig :: t := fun s h => by
    rcases h.lists _ (inForce_of_lt _ h.cur) with h1 | h1
    · exact h1
    · rw [h1]; simp [addFilter]
  refine ⟨hall _ (warnRun_inv ig _ sched _ (warnInit_inv ig _ n)), ?_⟩
  -- flags recorded so far are `true`
  have key : ∀ (sched : List Nat) (s : WarnState F × List Phase), WarnInv ig (ig :: t) s →
      (∀ p ∈ s.2, (∀ k q, p = .interpolated k q → q = true) ∧ (∀ q, p = .done q → q = true)) →
      ∀ p ∈ (warnRun ig s sched).2, (∀ k q, p = .interpolated k q → q = true) ∧ (∀ q, p = .done q → q = true) := by
    intro sched
    induction sched with
    | nil => intro s _ h; exact h
    | cons i is ih =>
      intro s hi h
      apply ih _ (warnTick_inv ig _ s hi i)
      unfold warnTick
      cases hp : s.2[i]? with
      | none => exact h
      | some p0 =>
        have hmem : p0 ∈ s.2 := List.mem_of_getElem? hp
        intro p hpm
        dsimp only at hpm
        rcases List.mem_or_eq_of_mem_set hpm with h1 | h1
        · exact h p h1
        · subst h1
          cases p0 with
          | start => exact ⟨fun k q hk => by simp [warnStep] at hk, fun q hk => by simp [warnStep] at hk⟩
          | entered k0 => exact ⟨fun k q hk => by simp [warnStep] at hk, fun q hk => by simp [warnStep] at hk⟩
          | filtered k0 =>
            refine ⟨fun k q hk => ?_, fun q hk => by simp [warnStep] at hk⟩
            simp only [warnStep, hall s hi, Phase.interpolated.injEq] at hk
            rw [← hk.2]
            simp
          | interpolated k0 q0 =>
            refine ⟨fun k q hk => by simp [warnStep] at hk, fun q hk => ?_⟩
            simp only [warnStep, Phase.done.injEq] at hk
            rw [← hk]
            exact (h _ hmem).1 k0 q0 rfl
          | done q0 =>
            refine ⟨fun k q hk => by simp [warnStep] at hk, fun q hk => ?_⟩
            simp only [warnStep, Phase.done.injEq] at hk
            rw [← hk]
            exact (h _ hmem).2 q0 rfl
  intro q hq
  refine (key sched _ (warnInit_inv ig _ n) ?_ _ hq).2 q rfl
  intro p hpm
  have : p = .start := List.eq_of_mem_replicate hpm
  subst this
  exact ⟨fun k q hk => by simp at hk, fun q hk => by simp at hk⟩

/-- four steps of one thread from its start -/
theorem warnRun_block (ig : F) (s : WarnState F × List Phase) (i : Nat) (hi : s.2[i]? = some .start) (hc : s.1.cur < s.1.lists.length) :
    warnRun ig s (List.replicate 4 i) =
      (⟨s.1.lists ++ [addFilter ig s.1.inForce], s.1.cur⟩, s.2.set i (.done true)) := by
  obtain ⟨w, ps⟩ := s
  have hlen : i < ps.length := by
    by_contra h
    simp only at hi
    rw [List.getElem?_eq_none (by omega)] at hi
    exact absurd hi (by simp)
  have e : ∀ p q : Phase, (ps.set i p).set i q = ps.set i q := fun p q => by rw [List.set_set]
  have g : ∀ p : Phase, (ps.set i p)[i]? = some p := fun p => by rw [List.getElem?_set_self hlen]
  have hl : (⟨w.lists ++ [w.inForce], w.lists.length⟩ : WarnState F).inForce = w.inForce := by
    simp [WarnState.inForce]
  have hset : (w.lists ++ [w.inForce]).set w.lists.length (addFilter ig w.inForce) = w.lists ++ [addFilter ig w.inForce] := by
    rw [List.set_append_right _ _ (Nat.le_refl _)]
    simp
  have hl2 : (⟨w.lists ++ [addFilter ig w.inForce], w.lists.length⟩ : WarnState F).inForce = addFilter ig w.inForce := by
    simp [WarnState.inForce]
  simp only at hi hc
  simp only [warnRun, List.replicate, List.foldl, warnTick, hi, warnStep, g, e, hl, hset, hl2]
  simp [addFilter]

/-- **C172**: when the blocks run one after the other, in whatever order, the caller's own filter list is back in force at the end, with its
content unchanged, and every block ran without printing a warning. -/
theorem C172_serial (ig : F) (f : List F) (n : Nat) (order : List Nat) (hn : order.Nodup) (hlt : ∀ i ∈ order, i < n) :
    let s := warnRun ig (warnInit f n) (order.flatMap (List.replicate 4))
    s.1.cur = 0 ∧ s.1.inForce = f ∧ ∀ i ∈ order, s.2[i]? = some (.done true) := by
  have key : ∀ (order : List Nat) (s : WarnState F × List Phase), order.Nodup → (∀ i ∈ order, s.2[i]? = some .start) → s.1.cur = 0 →
      s.1.lists[0]? = some f →
      let s' := warnRun ig s (order.flatMap (List.replicate 4))
      s'.1.cur = 0 ∧ s'.1.lists[0]? = some f ∧ (∀ i ∈ order, s'.2[i]? = some (.done true)) ∧ ∀ i, i ∉ order → s'.2[i]? = s.2[i]? := by
    intro order
    induction order with
    | nil => intro s _ _ h1 h2; exact ⟨h1, h2, by simp, fun i _ => rfl⟩
    | cons i is ih =>
      intro s hnd hst h1 h2
      have hlen : 0 < s.1.lists.length := by
        by_contra h
        rw [List.getElem?_eq_none (by omega)] at h2
        exact absurd h2 (by simp)
      have hb := warnRun_block ig s i (hst i (by simp)) (by omega)
      have hrun : warnRun ig s ((i :: is).flatMap (List.replicate 4)) =
          warnRun ig (warnRun ig s (List.replicate 4 i)) (is.flatMap (List.replicate 4)) := by
        rw [List.flatMap_cons]
        unfold warnRun
        rw [List.foldl_append]
      have hi : i ∉ is := (List.nodup_cons.mp hnd).1
      have hil : i < s.2.length := by
        by_contra h
        have := hst i (by simp)
        rw [List.getElem?_eq_none (by omega)] at this
        exact absurd this (by simp)
      have := ih (warnRun ig s (List.replicate 4 i)) (List.nodup_cons.mp hnd).2
        (by
          intro j hj
          rw [hb]
          have hji : i ≠ j := fun h => hi (h ▸ hj)
          simp only [List.getElem?_set_ne hji]
          exact hst j (by simp [hj]))
        (by rw [hb]; exact h1)
        (by
          rw [hb]
          simp only
          rw [List.getElem?_append_left hlen]
          exact h2)
      dsimp only at this ⊢
      rw [hrun]
      refine ⟨this.1, this.2.1, ?_, ?_⟩
      · intro j hj
        rcases List.mem_cons.mp hj with rfl | hj
        · rw [this.2.2.2 j hi, hb]
          simp only [List.getElem?_set_self hil]
        · exact this.2.2.1 j hj
      · intro j hj
        rw [List.mem_cons, not_or] at hj
        rw [this.2.2.2 j hj.2, hb]
        simp only [List.getElem?_set_ne (fun h => hj.1 h.symm)]
  have := key order (warnInit f n) hn (fun i hi => by simp [warnInit, hlt i hi]) rfl rfl
  dsimp only at this ⊢
  refine ⟨this.1, ?_, this.2.2.1⟩
  unfold WarnState.inForce
  rw [this.1, List.getD_eq_getElem?_getD, this.2.1]
  rfl

example : let s := warnRun 9 (warnInit [1, 2] 3) ([2, 0, 1].flatMap (List.replicate 4))
    s.1.inForce = [1, 2] ∧ s.2 = [.done true, .done true, .done true] := by decide

/-- **C172** is false for two blocks on two threads. The first leaves while the second is inside: afterwards the process ignores out-of-bounds
warnings for good. In another order the second block runs without the filter and prints its warnings. -/
theorem C172_counterexample :
    (let s := warnRun 9 (warnInit [1, 2] 2) [0, 0, 1, 0, 0, 1, 1, 1]
     s.2 = [.done true, .done true] ∧ s.1.inForce = [9, 1, 2]) ∧
    (let s := warnRun 9 (warnInit [1, 2] 2) [0, 0, 1, 1, 0, 0, 1, 1]
     s.2 = [.done true, .done false] ∧ s.1.inForce = [9, 1, 2]) := by
  decide

end Verif.Props
