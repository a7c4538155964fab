import Verif.Model.Nmse
import Verif.Spec.Stats
import Mathlib.Tactic.FieldSimp
import Mathlib.Tactic.Ring
import Mathlib.Tactic.Linarith
import Mathlib.Tactic.Positivity

set_option linter.unusedSectionVars false

namespace Verif.Lemmas
open Model Spec
variable {K : Type _} [Field K] [LinearOrder K] [IsStrictOrderedRing K]

theorem zipWith_maps {α β γ δ : Type _} (f : β → γ → δ) (g : α → β) (h : α → γ) (l : List α) :
    List.zipWith f (l.map g) (l.map h) = l.map (fun x => f (g x) (h x)) := by
  induction l with
  | nil => rfl
  | cons a l ih => simp [ih]

/-- the masked cells -/
def maskTriples (ws : List K) (o m : List (Option K)) : List (K × K × K) :=
  (List.zip ws (List.zip o m)).map (fun x => (maskWeight x.1 x.2.1 x.2.2,
    maskValue (maskWeight x.1 x.2.1 x.2.2) x.2.1, maskValue (maskWeight x.1 x.2.1 x.2.2) x.2.2))

theorem maskVar_eq (ws : List K) (o m : List (Option K)) (ho : o.length = ws.length) (hm : m.length = ws.length) :
    maskVar ws o m = ((maskTriples ws o m).map (·.1), (maskTriples ws o m).map (·.2.1), (maskTriples ws o m).map (·.2.2)) := by
  unfold maskVar maskTriples
  induction ws generalizing o m with
  | nil =>
    cases o <;> cases m <;> simp_all
  | cons w ws ih =>
    cases o with
    | nil => simp at ho
    | cons a o =>
      cases m with
      | nil => simp at hm
      | cons b m =>
        have := ih o m (by simpa using ho) (by simpa using hm)
        simp only [Prod.mk.injEq] at this ⊢
        obtain ⟨h1, h2, h3⟩ := this
        simp only [List.zip_cons_cons, List.zipWith_cons_cons, List.map_cons] at h1 h2 h3 ⊢
        rw [h1] at h2 h3 ⊢
        rw [h2, h3]
        exact ⟨rfl, rfl, rfl⟩

theorem nmseSlice_triples (T : List (K × K × K)) :
    nmseSlice (T.map (·.1)) (T.map (·.2.1)) (T.map (·.2.2)) =
      if (T.map (·.1)).sum = 0 then .nan else
        .fin (wMean T (·.1) (fun x => (x.2.2 - x.2.1) ^ 2)) / .fin (wMean T (·.1) (fun x => (x.2.1 - wMean T (·.1) (·.2.1)) ^ 2)) := by
  unfold nmseSlice weightedMean
  by_cases h : (T.map (·.1)).sum = 0
  · simp only [h, if_true]
  · simp only [h, if_false, zipWith_maps, List.map_map]
    unfold wMean
    congr 3 <;> simp only [Function.comp_def, zipWith_maps, sq]

theorem masked_sum (ws : List K) (o m : List (Option K)) (f : K → K → K) :
    ((maskTriples ws o m).map (fun x => x.1 * f x.2.1 x.2.2)).sum = ((validCells ws o m).map (fun x => x.1 * f x.2.1 x.2.2)).sum := by
  unfold maskTriples validCells
  generalize List.zip ws (List.zip o m) = l
  induction l with
  | nil => rfl
  | cons x l ih =>
    obtain ⟨w, a, b⟩ := x
    rw [List.map_cons, List.map_cons, List.sum_cons, ih, List.filterMap_cons]
    cases a with
    | none => simp [maskWeight]
    | some a =>
      cases b with
      | none => simp [maskWeight]
      | some b =>
        simp only [maskWeight, maskValue, Option.isSome_some, and_self, if_true, Option.getD_some, List.map_cons, List.sum_cons]
        by_cases hw : w = 0
        · simp [hw]
        · simp [hw]

theorem masked_wMean (ws : List K) (o m : List (Option K)) (f : K → K → K) :
    wMean (maskTriples ws o m) (·.1) (fun x => f x.2.1 x.2.2) = wMean (validCells ws o m) (·.1) (fun x => f x.2.1 x.2.2) := by
  unfold wMean
  rw [masked_sum ws o m f]
  congr 1
  have := masked_sum ws o m (fun _ _ => 1)
  simpa using this

theorem nmseSlice_valid (ws : List K) (o m : List (Option K)) (ho : o.length = ws.length) (hm : m.length = ws.length) :
    nmseSlice (maskVar ws o m).1 (maskVar ws o m).2.1 (maskVar ws o m).2.2 =
      if ((validCells ws o m).map (·.1)).sum = 0 then .nan else
        .fin (wMean (validCells ws o m) (·.1) (fun x => (x.2.2 - x.2.1) ^ 2)) /
          .fin (wMean (validCells ws o m) (·.1) (fun x => (x.2.1 - wMean (validCells ws o m) (·.1) (·.2.1)) ^ 2)) := by
  rw [maskVar_eq ws o m ho hm, nmseSlice_triples]
  have h1 := masked_sum ws o m (fun _ _ => 1)
  simp only [mul_one] at h1
  have h2 := masked_wMean ws o m (fun o m => (m - o) ^ 2)
  have h3 := masked_wMean ws o m (fun o m => o)
  rw [h3]
  have h4 := masked_wMean ws o m (fun a b => (a - wMean (validCells ws o m) (·.1) (·.2.1)) ^ 2)
  rw [h1, h2, h4]

section means
variable {α : Type _}

theorem wMean_sq_nonneg (l : List α) (w g : α → K) (hw : ∀ x ∈ l, 0 ≤ w x) : 0 ≤ wMean l w (fun x => g x ^ 2) := by
  unfold wMean
  apply div_nonneg
  · apply List.sum_nonneg
    intro y hy
    obtain ⟨x, hx, rfl⟩ := List.mem_map.mp hy
    exact mul_nonneg (hw x hx) (sq_nonneg _)
  · apply List.sum_nonneg
    intro y hy
    obtain ⟨x, hx, rfl⟩ := List.mem_map.mp hy
    exact hw x hx

theorem sum_zero_iff (l : List α) (f : α → K) (hf : ∀ x ∈ l, 0 ≤ f x) : (l.map f).sum = 0 ↔ ∀ x ∈ l, f x = 0 := by
  induction l with
  | nil => simp
  | cons a l ih =>
    have h1 : 0 ≤ f a := hf a (by simp)
    have h2 : 0 ≤ (l.map f).sum := List.sum_nonneg (by
      intro y hy
      obtain ⟨x, hx, rfl⟩ := List.mem_map.mp hy
      exact hf x (by simp [hx]))
    rw [List.map_cons, List.sum_cons]
    have ih' := ih (fun x hx => hf x (by simp [hx]))
    constructor
    · intro h
      have ha : f a = 0 := by linarith
      have hl : (l.map f).sum = 0 := by linarith
      intro x hx
      rcases List.mem_cons.mp hx with rfl | hx
      · exact ha
      · exact ih'.mp hl x hx
    · intro h
      rw [h a (by simp), ih'.mpr (fun x hx => h x (by simp [hx])), add_zero]

theorem wMean_sq_zero (l : List α) (w g : α → K) (hw : ∀ x ∈ l, 0 ≤ w x) (hW : (l.map w).sum ≠ 0) :
    wMean l w (fun x => g x ^ 2) = 0 ↔ ∀ x ∈ l, w x ≠ 0 → g x = 0 := by
  unfold wMean
  rw [div_eq_zero_iff, or_iff_left hW, sum_zero_iff l _ (fun x hx => mul_nonneg (hw x hx) (sq_nonneg _))]
  constructor
  · intro h x hx hne
    rcases mul_eq_zero.mp (h x hx) with h | h
    · exact absurd h hne
    · exact pow_eq_zero_iff (two_ne_zero) |>.mp h
  · intro h x hx
    by_cases hne : w x = 0
    · rw [hne, zero_mul]
    · rw [h x hx hne]; ring

theorem wMean_affine (l : List α) (w g : α → K) (hW : (l.map w).sum ≠ 0) (a b : K) :
    wMean l w (fun x => a * g x + b) = a * wMean l w g + b := by
  unfold wMean
  have : (l.map (fun x => w x * (a * g x + b))).sum = a * (l.map (fun x => w x * g x)).sum + b * (l.map w).sum := by
    clear hW
    induction l with
    | nil => simp
    | cons y l ih => simp only [List.map_cons, List.sum_cons, ih]; ring
  rw [this]
  field_simp

theorem wMean_congr (l : List α) (w g h : α → K) (hgh : ∀ x ∈ l, w x ≠ 0 → g x = h x) : wMean l w g = wMean l w h := by
  unfold wMean
  congr 2
  refine List.map_congr_left fun x hx => ?_
  by_cases hw : w x = 0
  · simp [hw]
  · rw [hgh x hx hw]

theorem wMean_mul (l : List α) (w g : α → K) (a : K) : wMean l w (fun x => a * g x) = a * wMean l w g := by
  unfold wMean
  rw [← mul_div_assoc]
  congr 1
  rw [← List.sum_map_mul_left]
  congr 1
  refine List.map_congr_left fun x _ => by ring

theorem wMean_weights (l : List α) (w g : α → K) (a : K) (ha : a ≠ 0) : wMean l (fun x => a * w x) g = wMean l w g := by
  unfold wMean
  have h1 : (l.map (fun x => a * w x * g x)).sum = a * (l.map (fun x => w x * g x)).sum := by
    rw [← List.sum_map_mul_left]
    congr 1
    refine List.map_congr_left fun x _ => by ring
  rw [h1, List.sum_map_mul_left, mul_div_mul_left _ _ ha]

end means

/-- the checks of a call that do not look at the values -/
structure GridOk (obs mod : GeoInput K) (lats : List K) : Prop where
  kind : obs.kind = mod.kind ∧ obs.kind ≠ .other
  coords : obs.coords ⊆ mod.coords ∧ mod.coords ⊆ obs.coords
  found : obs.found = true ∧ mod.found = true
  evenLat : evenSpacing obs.lat = .ok true
  evenLon : evenSpacing obs.lon = .ok true
  single : obs.manyLat = false ∧ obs.manyLon = false
  labels : indexLabels obs.lat = indexLabels mod.lat ∧ indexLabels obs.lon = indexLabels mod.lon
  cells : cellLats obs.lat obs.lon = some lats
  lengths : ∀ v ∈ obs.vars ++ mod.vars, v.2.length = lats.length

theorem nmse_ok (wt : K → K) (obs mod : GeoInput K) (out : NmseOut K) (h : nmseWith wt obs mod = .ok out) : ∃ lats, GridOk obs mod lats := by
  unfold nmseWith at h
  by_cases h1 : obs.kind = .other ∨ mod.kind = .other
  · simp only [if_pos h1] at h; cases h
  by_cases h2 : obs.kind ≠ mod.kind
  · simp only [if_neg h1, if_pos h2] at h; cases h
  by_cases h3 : obs.coords ⊆ mod.coords ∧ mod.coords ⊆ obs.coords
  swap
  · simp only [if_neg h1, if_neg h2, if_pos h3] at h; cases h
  by_cases h4 : obs.found = true ∧ mod.found = true
  swap
  · simp only [if_neg h1, if_neg h2, if_neg (not_not.mpr h3), if_pos h4] at h; cases h
  by_cases m1 : obs.manyLat = true
  · simp only [if_neg h1, if_neg h2, if_neg (not_not.mpr h3), if_neg (not_not.mpr h4), if_pos m1] at h; cases h
  simp only [if_neg h1, if_neg h2, if_neg (not_not.mpr h3), if_neg (not_not.mpr h4), if_neg m1, pure_bind] at h
  cases ha : evenSpacing obs.lat with
  | error e => rw [ha] at h; cases h
  | ok a =>
    rw [ha] at h
    by_cases m2 : obs.manyLon = true
    · simp only [if_pos m2] at h; cases h
    cases hb : evenSpacing obs.lon with
    | error e => simp only [if_neg m2, hb] at h; cases h
    | ok b =>
      simp only [if_neg m2, hb] at h
      simp only [bind, Except.bind, pure, Except.pure, throw, throwThe, MonadExceptOf.throw] at h
      split at h
      · cases h
      rename_i h5
      split at h
      · cases h
      rename_i h6
      split at h
      · cases h
      rename_i h7
      cases hl : cellLats obs.lat obs.lon with
      | none => simp only [hl] at h; cases h
      | some lats =>
        simp only [hl] at h
        split at h
        · cases h
        rename_i h8
        push Not at h1 h2 h5 h7
        refine ⟨lats, ⟨h2, h1.1⟩, h3, h4, by rw [ha, h5.1], by rw [hb, h5.2], ⟨by simpa using m1, by simpa using m2⟩, h7, hl, ?_⟩
        rw [not_not, List.all_eq_true] at h8
        intro v hv
        simpa using h8 v hv

theorem nmse_run (wt : K → K) (obs mod : GeoInput K) (lats : List K) (h : GridOk obs mod lats) :
    nmseWith wt obs mod = (match obs.kind with
    | .dataArray =>
      match obs.vars, mod.vars with
      | [o], [m] => .ok (.one (nmseSlice (maskVar (lats.map wt) o.2 m.2).1 (maskVar (lats.map wt) o.2 m.2).2.1 (maskVar (lats.map wt) o.2 m.2).2.2))
      | _, _ => .error .notImplemented
    | _ =>
      if obs.vars.map (·.1) ≠ mod.vars.map (·.1) then .error .valueError
      else
        .ok (.table ((List.zipWith (fun o m => (o.1, maskVar (lats.map wt) o.2 m.2)) obs.vars mod.vars).map (fun v => (v.1,
          (List.zipWith (fun o m => (o.1, maskVar (lats.map wt) o.2 m.2)) obs.vars mod.vars).map (fun u => (u.1, nmseSlice u.2.1 v.2.2.1 v.2.2.2))))))) := by
  have hlen : (obs.vars ++ mod.vars).all (fun v => decide (v.2.length = (lats.map wt).length)) = true := by
    rw [List.all_eq_true]
    intro v hv
    rw [decide_eq_true_iff, List.length_map]
    exact h.lengths v hv
  have hk := h.kind.2
  have hk' : mod.kind ≠ .other := by rw [← h.kind.1]; exact hk
  unfold nmseWith
  simp only [hk, hk', or_self, if_false, h.kind.1, ne_eq, not_true_eq_false, h.coords, and_self, h.found, h.evenLat, h.evenLon, h.single,
    h.labels, h.cells, hlen]
  simp only [bind, Except.bind, pure, Except.pure, throw, throwThe, MonadExceptOf.throw]
  cases obs.kind <;> rfl

/-- what a successful call on DataArrays has computed -/
theorem nmse_one_iff (wt : K → K) (obs mod : GeoInput K) (r : XF K) :
    nmseWith wt obs mod = .ok (.one r) ↔ ∃ lats no nm o m, GridOk obs mod lats ∧ obs.kind = .dataArray ∧ obs.vars = [(no, o)] ∧
      mod.vars = [(nm, m)] ∧
      r = nmseSlice (maskVar (lats.map wt) o m).1 (maskVar (lats.map wt) o m).2.1 (maskVar (lats.map wt) o m).2.2 := by
  constructor
  · intro h
    obtain ⟨lats, hg⟩ := nmse_ok wt obs mod _ h
    rw [nmse_run wt obs mod lats hg] at h
    cases hk : obs.kind with
    | other => exact absurd hk hg.kind.2
    | dataset => simp only [hk] at h; split at h <;> cases h
    | dataArray =>
      simp only [hk] at h
      cases ho : obs.vars with
      | nil => simp only [ho] at h; cases h
      | cons x xs =>
        cases xs with
        | cons _ _ => simp only [ho] at h; cases h
        | nil =>
          cases hm : mod.vars with
          | nil => simp only [ho, hm] at h; cases h
          | cons y ys =>
            cases ys with
            | cons _ _ => simp only [ho, hm] at h; cases h
            | nil =>
              simp only [ho, hm] at h
              injection h with h
              injection h with h
              exact ⟨lats, x.1, y.1, x.2, y.2, hg, rfl, rfl, rfl, h.symm⟩
  · rintro ⟨lats, no, nm, o, m, hg, hk, ho, hm, rfl⟩
    rw [nmse_run wt obs mod lats hg]
    simp only [hk, ho, hm]

end Verif.Lemmas
