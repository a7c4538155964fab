import Verif.Lemmas.ClimRel

/-
`climate_anomaly` on related data and with related arithmetic (see `Lemmas/ClimRel`).
-/

set_option linter.unusedSectionVars false

namespace Verif.Lemmas
open Model Spec
variable {K : Type _} [Field K] [LinearOrder K] [IsStrictOrderedRing K]

theorem rel_minusGroup {ρ0 ρ ρ' : K → K → Prop} {sub sub' : K → K → K} (hsub : ∀ x x' y y', ρ0 x x' → ρ y y' → ρ' (sub x y) (sub' x' y')) {l l' : List (Entry K)}
    (h : List.Forall₂ (EntryRel ρ0) l l') {ref ref' : ℤ → ℕ → Option K} (hr : ∀ t c, OptRel ρ (ref t c) (ref' t c)) :
    List.Forall₂ (EntryRel ρ') (minusGroupBy sub l ref) (minusGroupBy sub' l' ref') := by
  unfold minusGroupBy
  rw [List.forall₂_map_left_iff, List.forall₂_map_right_iff]
  refine h.imp (fun e e' he => ⟨he.1, fun c => ?_⟩)
  have h1 := he.2 c
  have h2 := hr e.key c
  rw [he.1] at h2 ⊢
  revert h1 h2
  dsimp only
  generalize e.val c = v
  generalize e'.val c = v'
  generalize ref e'.key c = w
  generalize ref' e'.key c = w'
  intro h1 h2
  cases v <;> cases v' <;> cases w <;> cases w' <;> first | exact trivial | exact h1.elim | exact h2.elim | exact hsub _ _ _ _ h1 h2

theorem rel_groupSum {ρ ρ' : K → K → Prop} {sum sum' : List K → K} {L : ℕ} (hsum : ∀ l l', l.length ≤ L → List.Forall₂ ρ l l' → ρ' (sum l) (sum' l'))
    (f : ℤ → ℤ) {l l' : List (Entry K)} (h : List.Forall₂ (EntryRel ρ) l l') (hL : ∀ t, (l'.filter (fun e => f e.key = f t)).length ≤ L) (t : ℤ) (c : ℕ) :
    OptRel ρ' (groupSumBy sum f l t c) (groupSumBy sum' f l' t c) := by
  unfold groupSumBy
  have hf := rel_filter h (fun e => decide (f e.key = f t)) (fun a b hab => by simp only [hab.1])
  dsimp only
  by_cases hn : l.filter (fun e => decide (f e.key = f t)) = []
  · rw [if_pos hn, if_pos ((rel_nil hf).mp hn)]; exact trivial
  · rw [if_neg hn, if_neg (fun h => hn ((rel_nil hf).mpr h))]
    refine hsum _ _ ((List.length_filterMap_le _ _).trans ?_) (rel_vals hf c)
    rw [hf.length_eq]; exact hL t

theorem rel_find {ρ : K → K → Prop} {l l' : List (String × (ℕ → Option K))} (h : List.Forall₂ (fun a b => a.1 = b.1 ∧ ∀ c, OptRel ρ (a.2 c) (b.2 c)) l l')
    (n : String) (c : ℕ) : OptRel ρ (((l.find? (fun x => x.1 = n)).map (·.2 c)).join) (((l'.find? (fun x => x.1 = n)).map (·.2 c)).join) := by
  induction h with
  | nil => exact trivial
  | @cons a b l l' h _ ih =>
    rw [List.find?_cons, List.find?_cons, h.1]
    by_cases hn : b.1 = n
    · simp only [hn, decide_true]
      simpa using h.2 c
    · simp only [hn, decide_false]
      exact ih

/-- no more than `L` averages are labelled with the group of a sample -/
def GroupsUpTo (L : ℕ) (f : ℤ → ℤ) (clim : List (Entry K)) : Prop := ∀ t, (clim.filter (fun e => f e.key = f t)).length ≤ L

theorem OutRel_bind {α β : Type} {ρ : α → α → Prop} {ρ' : β → β → Prop} {x y : Except PyErr α} {f g : α → Except PyErr β} (h : OutRel ρ x y)
    (hf : ∀ a b, x = .ok a → y = .ok b → ρ a b → OutRel ρ' (f a) (g b)) : OutRel ρ' (x >>= f) (y >>= g) := by
  cases x with
  | error e => cases y with
    | error e' => exact h
    | ok b => exact h.elim
  | ok a => cases y with
    | error e' => exact h.elim
    | ok b => exact hf a b rfl rfl h

/-- `climate_anomaly` with two arithmetics on related data whose averages are related -/
theorem rel_anomaly {K : Type} [Field K] [LinearOrder K] [IsStrictOrderedRing K] {A A' : ClimArith K} {ρ0 ρ ρ3 ρ4 : K → K → Prop} {L : ℕ} {sum sum' : List K → K} {sub sub' : K → K → K}
    (hsum : ∀ l l', l.length ≤ L → List.Forall₂ ρ l l' → ρ3 (sum l) (sum' l')) (hρ : ∀ x y, ρ x y → ρ3 x y)
    (hsub : ∀ x x' y y', ρ0 x x' → ρ3 y y' → ρ4 (sub x y) (sub' x' y')) (cal : Cal) (infer : InferFreq) (freq : String) {s s' : Series K}
    (h : SeriesRel ρ0 s s')
    (hc : freq ≠ "year" → OutRel (ClimRel ρ) (climatologyAverageBy A cal infer freq [] s) (climatologyAverageBy A' cal infer freq [] s'))
    (hy : freq = "year" → OutRel (List.Forall₂ (EntryRel ρ)) (calendarAverageBy A cal infer "year" s) (calendarAverageBy A' cal infer "year" s'))
    (hday : freq = "day" → ∀ l, climatologyAverageBy A' cal infer "day" [] s' = .ok (.times l) → GroupsUpTo L (stampKey cal .day) l)
    (hmonth : freq = "month" → ∀ l, climatologyAverageBy A' cal infer "month" [] s' = .ok (.times l) → GroupsUpTo L (stampKey cal .month) l)
    (hyear : freq = "year" → ∀ l, calendarAverageBy A' cal infer "year" s' = .ok l → GroupsUpTo L (fun t => cal.year t % 100) l) :
    OutRel (List.Forall₂ (EntryRel ρ4)) (climateAnomalyBy A sum sub cal infer freq s) (climateAnomalyBy A' sum' sub' cal infer freq s') := by
  unfold climateAnomalyBy
  rw [h.isTime]
  by_cases hi : s'.isTime = true
  swap
  · simp only [if_pos hi]; rfl
  simp only [hi, not_true_eq_false, if_false]
  by_cases h1 : freq = "day"
  · subst h1
    refine OutRel_bind (hc (by decide)) (fun a b ha hb hab => ?_)
    cases a <;> cases b
    · exact rel_minusGroup hsub h.samples (rel_groupSum hsum _ hab (hday rfl _ hb))
    · exact hab.elim
    · exact hab.elim
    · rfl
  by_cases h2 : freq = "month"
  · subst h2
    refine OutRel_bind (hc (by decide)) (fun a b ha hb hab => ?_)
    cases a <;> cases b
    · exact rel_minusGroup hsub h.samples (rel_groupSum hsum _ hab (hmonth rfl _ hb))
    · exact hab.elim
    · exact hab.elim
    · rfl
  by_cases h3 : freq = "season"
  · subst h3
    refine OutRel_bind (hc (by decide)) (fun a b ha hb hab => ?_)
    cases a <;> cases b
    · rfl
    · exact hab.elim
    · exact hab.elim
    · exact rel_minusGroup hsub h.samples (fun t c => OptRel_mono hρ (rel_find hab _ c))
  by_cases h4 : freq = "year"
  · subst h4
    exact OutRel_bind (hy rfl) (fun a b ha hb hab => rel_minusGroup hsub h.samples (rel_groupSum hsum _ hab (hyear rfl _ hb)))
  split
  · exact absurd rfl h1
  · exact absurd rfl h2
  · exact absurd rfl h3
  · exact absurd rfl h4
  · rfl

end Verif.Lemmas
