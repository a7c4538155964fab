import Verif.Props.ClimConvex
import Mathlib.Data.Real.Basic
import Mathlib.Tactic.FinCases

/-
Property C222: averages do not amplify errors.
-/

set_option linter.unusedSectionVars false

namespace Verif.Spec
open Model

/-- cells `c` and `c'` hold values that differ by at most `ε`, or are both missing -/
def HoldsClose (ε : ℝ) (c c' : ℕ) (e : Entry ℝ) : Prop :=
  (e.val c = none ∧ e.val c' = none) ∨ ∃ x y, e.val c = some x ∧ e.val c' = some y ∧ |x - y| ≤ ε

end Verif.Spec

namespace Verif.Props
open Model Lemmas Spec

namespace MeanError

/-- pairs of values that differ by at most `ε` -/
def close (ε : ℝ) : Set (Fin 2 → ℝ) := {x | |x 0 - x 1| ≤ ε}

theorem close_convex (ε : ℝ) : Convex ℝ (close ε) := by
  intro x hx y hy a b ha hb hab
  have hx' := abs_le.mp (show |x 0 - x 1| ≤ ε from hx)
  have hy' := abs_le.mp (show |y 0 - y 1| ≤ ε from hy)
  show |(a • x + b • y) 0 - (a • x + b • y) 1| ≤ ε
  simp only [Pi.add_apply, Pi.smul_apply, smul_eq_mul]
  obtain rfl : b = 1 - a := by linarith
  rw [abs_le]
  constructor
  · nlinarith [mul_le_mul_of_nonneg_left hx'.1 ha, mul_le_mul_of_nonneg_left hy'.1 hb]
  · nlinarith [mul_le_mul_of_nonneg_left hx'.2 ha, mul_le_mul_of_nonneg_left hy'.2 hb]

theorem together_of (ε : ℝ) (c c' : ℕ) (e : Entry ℝ) (h : HoldsClose ε c c' e) : Together ![c, c'] (close ε) e.val := by
  rcases h with ⟨h1, h2⟩ | ⟨x, y, h1, h2, h3⟩
  · refine Or.inl fun i => ?_
    fin_cases i
    · exact h1
    · exact h2
  · refine Or.inr ⟨![x, y], h3, fun i => ?_⟩
    fin_cases i
    · exact h1
    · exact h2

theorem of_together (ε : ℝ) (c c' : ℕ) (o : Entry ℝ) (h : Together ![c, c'] (close ε) o.val) : HoldsClose ε c c' o := by
  rcases h with h | ⟨x, hx, h⟩
  · exact Or.inl ⟨h 0, h 1⟩
  · exact Or.inr ⟨x 0, x 1, h 0, h 1, hx⟩

end MeanError

open MeanError

/-- **C222**, `calendar_average`: if two fields differ by at most `ε` at every time, so do their averages. -/
theorem C222_calendar (cal : Cal) (infer : InferFreq) (freq : String) (s : Series ℝ) (c c' : ℕ) (hc : c < s.ncell) (hc' : c' < s.ncell) (ε : ℝ)
    (h : ∀ e ∈ s.samples, HoldsClose ε c c' e) (out : List (Entry ℝ)) (ho : calendarAverage cal infer freq s = .ok out) : ∀ o ∈ out, HoldsClose ε c c' o := by
  refine fun o hm => of_together ε c c' o (C133_calendar cal infer freq s ![c, c'] (fun i => ?_) (close ε) (close_convex ε)
    (fun e he => together_of ε c c' e (h e he)) out ho o hm)
  fin_cases i
  · exact hc
  · exact hc'

/-- **C222**, `climatology_average` by hour, day or month. -/
theorem C222_climatology (cal : Cal) (infer : InferFreq) (freq : String) (p : Period) (hf : GroupFreq freq p) (custom : List String) (s : Series ℝ)
    (c c' : ℕ) (ε : ℝ) (h : ∀ e ∈ s.samples, HoldsClose ε c c' e) (out : ClimOut ℝ) (ho : climatologyAverage cal infer freq custom s = .ok out) :
    ∃ l, out = .times l ∧ ∀ o ∈ l, HoldsClose ε c c' o := by
  obtain ⟨l, hl, hv⟩ := C133_climatology cal infer freq p hf custom s ![c, c'] (close ε) (close_convex ε) (fun e he => together_of ε c c' e (h e he)) out ho
  exact ⟨l, hl, fun o hm => of_together ε c c' o (hv o hm)⟩

/-- **C222**, seasonal climatologies: every season of which the record has a month without gaps. -/
theorem C222_season (cal : Cal) (infer : InferFreq) (custom : List String) (s : Series ℝ) (c c' : ℕ) (hc : c < s.ncell) (hc' : c' < s.ncell) (ε : ℝ)
    (h : ∀ e ∈ s.samples, HoldsClose ε c c' e) (out : ClimOut ℝ) (ho : climatologyAverage cal infer "season" custom s = .ok out) :
    ∃ l, out = .seasons l ∧ ∀ x ∈ l, ∀ months, seasonMonths x.1 = some months → (∃ k, FullMonth cal s k ∧ Cal.monthNo k ∈ months) →
      HoldsClose ε c c' ⟨0, x.2⟩ := by
  obtain ⟨l, hl, hv⟩ := C133_season cal infer custom s ![c, c'] (fun i => by fin_cases i; exacts [hc, hc']) (close ε) (close_convex ε)
    (fun e he => together_of ε c c' e (h e he)) out ho
  refine ⟨l, hl, fun x hx months hm hk => ?_⟩
  obtain ⟨v, hv, hv'⟩ := hv x hx months hm (Or.inr hk)
  exact of_together ε c c' ⟨0, x.2⟩ (Or.inr ⟨v, hv, hv'⟩)

/-- **C222**, `month_to_season`. -/
theorem C222_month_to_season (cal : Cal) (season : String) (s : Series ℝ) (c c' : ℕ) (ε : ℝ) (h : ∀ e ∈ s.samples, HoldsClose ε c c' e) (out : List (Entry ℝ))
    (ho : monthToSeason cal season s = .ok out) : ∀ o ∈ out, HoldsClose ε c c' o :=
  fun o hm => of_together ε c c' o (C133_month_to_season cal season s ![c, c'] (close ε) (close_convex ε) (fun e he => together_of ε c c' e (h e he)) out ho o hm)

/-- two days of a field and of a copy with errors of at most 1/2 -/
noncomputable def closeDays : Series ℝ :=
  ⟨2, [⟨0, fun q => if q = 0 then some 3 else some 3.5⟩, ⟨86400, fun q => if q = 0 then some 4 else some 3.75⟩], true⟩

example (out : List (Entry ℝ)) (ho : calendarAverage Cal.days360 (fun _ => .ok true) "month" closeDays = .ok out) : ∀ o ∈ out, HoldsClose 0.5 0 1 o := by
  refine C222_calendar Cal.days360 (fun _ => .ok true) "month" closeDays 0 1 (by simp only [closeDays]; decide) (by simp only [closeDays]; decide) 0.5
    (fun e he => ?_) out ho
  simp only [closeDays, List.mem_cons, List.not_mem_nil, or_false] at he
  rcases he with rfl | rfl
  · exact Or.inr ⟨3, 3.5, by simp, by simp, by rw [abs_le]; norm_num⟩
  · exact Or.inr ⟨4, 3.75, by simp, by simp, by rw [abs_le]; norm_num⟩

end Verif.Props
