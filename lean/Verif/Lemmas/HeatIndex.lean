import Verif.Model.HeatIndex
import Verif.Spec.HeatIndex

set_option linter.unusedSectionVars false
namespace Verif.Lemmas
open Model XF Spec
noncomputable section

theorem nwsEqn_fin (alt : Bool) (t rh : ℝ) : nwsEqn (hiCoeffs alt) (fin t) (fin rh) = fin (hiRegression alt t rh) := by
  unfold nwsEqn
  simp only [fin_mul, fin_add]
  congr 1
  cases alt
  · simp [hiCoeffs, hiRegression, hiRothfusz]
    ring
  · simp [hiCoeffs, hiRegression, hiAlternate]
    ring

/-- what the code computes at a finite point: the adjustments are applied whichever formula was used -/
def hiCode (alt : Bool) (t rh : ℝ) : ℝ :=
  if t < 40 then t
  else (if hiSimple t rh < hiThreshold alt then hiSimple t rh else hiRegression alt t rh)
    - hiAdjLow t rh + hiAdjHigh t rh

theorem heatIndexPoint_fin (alt : Bool) (t rh : ℝ) : heatIndexPoint alt (fin t) (fin rh) = fin (hiCode alt t rh) := by
  have hcrit : (40:ℝ) < hiCrit alt := by unfold hiCrit; split_ifs <;> norm_num
  have hthr : hiThreshold alt = hiCrit alt := rfl
  unfold heatIndexPoint
  simp only [nwsEqn_fin, fin_mul, fin_add, fin_sub, abs_fin, lt_fin, le_fin]
  rw [fin_div _ _ (by norm_num), fin_div _ _ (by norm_num), fin_div _ _ (by norm_num), fin_div _ _ (by norm_num),
    fin_div _ _ (by norm_num), sqrt_fin (by positivity)]
  have hs : (61 + (t - 68) * 1.2 + rh * 0.094 + t) / 2 = hiSimple t rh := rfl
  rw [hs]
  unfold hiCode hiAdjLow hiAdjHigh
  rw [hthr]
  by_cases h40 : t < 40
  · have h1 : ¬ hiCrit alt ≤ t := by linarith
    have h2 : ¬ (80:ℝ) ≤ t := by linarith
    simp [sel, h40, h1, h2]
  · by_cases hc : hiSimple t rh < hiCrit alt
    · have hc' : ¬ hiCrit alt ≤ hiSimple t rh := by linarith
      by_cases hA : rh ≤ 13 ∧ 80 ≤ t ∧ t ≤ 112
      · have hB : ¬ (85 < rh) := by linarith [hA.1]
        have habs : |(17:ℝ) - (|t - 95|)| = 17 - |t - 95| := by
          apply abs_of_nonneg
          have : |t - 95| ≤ 17 := abs_le.mpr ⟨by linarith [hA.2.1], by linarith [hA.2.2]⟩
          linarith
        simp [sel, h40, hc, hc', hA, hB, habs]
      · by_cases hB : 85 < rh ∧ 80 ≤ t ∧ t ≤ 87
        · have hA1 : ¬ rh ≤ 13 := by linarith [hB.1]
          simp [sel, h40, hc, hc', hB, hA1]
        · have hA' : (rh ≤ 13 → 80 ≤ t → ¬ t ≤ 112) := fun a b c => hA ⟨a, b, c⟩
          have hB' : (85 < rh → 80 ≤ t → ¬ t ≤ 87) := fun a b c => hB ⟨a, b, c⟩
          simp only [sel, h40, hc', hA, hB, decide_false, decide_eq_true_eq, if_false, Bool.and_eq_true, hc, if_true]
          simp [hc']
    · have hc' : hiCrit alt ≤ hiSimple t rh := by linarith
      by_cases hA : rh ≤ 13 ∧ 80 ≤ t ∧ t ≤ 112
      · have hB : ¬ (85 < rh) := by linarith [hA.1]
        have habs : |(17:ℝ) - (|t - 95|)| = 17 - |t - 95| := by
          apply abs_of_nonneg
          have : |t - 95| ≤ 17 := abs_le.mpr ⟨by linarith [hA.2.1], by linarith [hA.2.2]⟩
          linarith
        simp [sel, h40, hc, hc', hA, hB, habs]
      · by_cases hB : 85 < rh ∧ 80 ≤ t ∧ t ≤ 87
        · have hA1 : ¬ rh ≤ 13 := by linarith [hB.1]
          simp [sel, h40, hc, hc', hB, hA1]
        · simp only [sel, h40, hc', hA, hB, decide_false, decide_true, decide_eq_true_eq, if_false, if_true,
            Bool.and_eq_true, hc]
          simp [hc]

/-- where the code and the documentation differ -/
theorem hiCode_eq_iff (alt : Bool) (t rh : ℝ) (h0 : 0 ≤ rh) :
    hiCode alt t rh = hiDocumented alt t rh ↔ ¬ (alt = false ∧ 80 ≤ t ∧ rh < 13 ∧ hiSimple t rh < 79) := by
  unfold hiCode hiDocumented
  by_cases h40 : t < 40
  · have : ¬ (80:ℝ) ≤ t := by linarith
    simp [h40, this]
  by_cases hc : hiSimple t rh < hiThreshold alt
  · simp only [h40, hc, if_true, if_false]
    have hB : hiAdjHigh t rh = 0 := by
      unfold hiAdjHigh
      rw [if_neg]
      rintro ⟨h1, h2, -⟩
      unfold hiSimple hiThreshold at hc
      split_ifs at hc <;> linarith
    rw [hB]
    cases alt with
    | true =>
      have : hiAdjLow t rh = 0 := by
        unfold hiAdjLow
        rw [if_neg]
        rintro ⟨h1, h2, -⟩
        unfold hiSimple hiThreshold at hc
        norm_num at hc
        linarith
      simp [this]
    | false =>
      have hc79 : hiSimple t rh < 79 := by simpa [hiThreshold] using hc
      simp only [hc79, and_true, true_and, add_zero, sub_eq_self]
      unfold hiAdjLow
      have ht : t < 82 := by unfold hiSimple at hc79; linarith
      by_cases h80 : 80 ≤ t
      · have h112 : t ≤ 112 := by linarith
        rcases lt_trichotomy rh 13 with h | h | h
        · simp only [h.le, h80, h112, and_self, if_true, h, not_true_eq_false, iff_false]
          have : |t - 95| = 95 - t := by rw [abs_of_neg (by linarith)]; ring
          rw [this]
          have : 0 < Real.sqrt ((17 - (95 - t)) / 17) := Real.sqrt_pos.mpr (by apply div_pos <;> linarith)
          have h3 : 0 < (13 - rh) / 4 := by linarith
          positivity
        · subst h
          simp
        · have h1 : ¬ rh ≤ 13 := by linarith
          have h2 : ¬ rh < 13 := by linarith
          simp [h1, h2]
      · simp [h80]
  · simp only [h40, hc, if_false]
    simp only [true_iff]
    rintro ⟨rfl, -, -, h⟩
    exact hc (by simpa [hiThreshold] using h)

/-! ### reductions -/

theorem sel_lt_min {a b c : XF ℝ} (ha : a.isNaN = false) (hb : b.isNaN = false) :
    lt (sel (lt b a) b a) c = (lt a c || lt b c) := by
  rcases a with x | _ | _ | _ <;> rcases b with y | _ | _ | _ <;> try simp_all [XF.isNaN]
  · by_cases h : y < x
    · rcases c with z | _ | _ | _ <;> simp [sel, XF.lt, h]
      intro h2; linarith
    · rcases c with z | _ | _ | _ <;> simp [sel, XF.lt, h]
      intro h2; linarith
  all_goals (rcases c with z | _ | _ | _ <;> simp [sel, XF.lt])

theorem sel_lt_max {a b c : XF ℝ} (ha : a.isNaN = false) (hb : b.isNaN = false) :
    lt c (sel (lt a b) b a) = (lt c a || lt c b) := by
  rcases a with x | _ | _ | _ <;> rcases b with y | _ | _ | _ <;> try simp_all [XF.isNaN]
  · by_cases h : x < y
    · rcases c with z | _ | _ | _ <;> simp [sel, XF.lt, h]
      intro h2; linarith
    · rcases c with z | _ | _ | _ <;> simp [sel, XF.lt, h]
      intro h2; linarith
  all_goals (rcases c with z | _ | _ | _ <;> simp [sel, XF.lt])

theorem foldl_min_lt (l : List (XF ℝ)) (a c : XF ℝ) (ha : a.isNaN = false) (hl : ∀ x ∈ l, x.isNaN = false) :
    lt (l.foldl (fun a b => sel (lt b a) b a) a) c = (lt a c || l.any (fun x => lt x c)) := by
  induction l generalizing a with
  | nil => simp
  | cons b l ih =>
    have hb := hl b (List.mem_cons_self ..)
    rw [List.foldl_cons, ih _ (by unfold sel; split_ifs <;> assumption) (fun x hx => hl x (List.mem_cons_of_mem _ hx)),
      sel_lt_min ha hb, List.any_cons, Bool.or_assoc]

theorem foldl_max_lt (l : List (XF ℝ)) (a c : XF ℝ) (ha : a.isNaN = false) (hl : ∀ x ∈ l, x.isNaN = false) :
    lt c (l.foldl (fun a b => sel (lt a b) b a) a) = (lt c a || l.any (fun x => lt c x)) := by
  induction l generalizing a with
  | nil => simp
  | cons b l ih =>
    have hb := hl b (List.mem_cons_self ..)
    rw [List.foldl_cons, ih _ (by unfold sel; split_ifs <;> assumption) (fun x hx => hl x (List.mem_cons_of_mem _ hx)),
      sel_lt_max ha hb, List.any_cons, Bool.or_assoc]

theorem reduceMin_lt (skip : Bool) (l : List (XF ℝ)) (c : XF ℝ) (h : skip = true ∨ ∀ x ∈ l, x.isNaN = false) :
    lt (reduceMin skip l) c = l.any (fun x => lt x c) := by
  have main : ∀ l' : List (XF ℝ), (∀ x ∈ l', x.isNaN = false) →
      lt (if l'.any XF.isNaN then nan else match l' with
        | [] => nan
        | x :: xs => xs.foldl (fun a b => sel (lt b a) b a) x) c = l'.any (fun x => lt x c) := by
    intro l' hl'
    have : l'.any XF.isNaN = false := by
      rw [List.any_eq_false]
      intro x hx
      simp [hl' x hx]
    rw [this]
    cases l' with
    | nil => simp
    | cons x xs =>
      simp only [Bool.false_eq_true, if_false]
      rw [foldl_min_lt xs x c (hl' x (List.mem_cons_self ..)) (fun y hy => hl' y (List.mem_cons_of_mem _ hy)),
        List.any_cons]
  unfold reduceMin
  cases skip with
  | false =>
    simp only [Bool.false_eq_true, if_false, false_or] at h ⊢
    exact main l h
  | true =>
    simp only [if_true]
    refine (main (l.filter (fun x => !x.isNaN)) ?_).trans ?_
    · intro x hx
      simpa using (List.mem_filter.mp hx).2
    · rw [List.any_filter]
      congr 1
      funext x
      cases x <;> simp [XF.isNaN]

theorem reduceMax_lt (skip : Bool) (l : List (XF ℝ)) (c : XF ℝ) (h : skip = true ∨ ∀ x ∈ l, x.isNaN = false) :
    lt c (reduceMax skip l) = l.any (fun x => lt c x) := by
  have main : ∀ l' : List (XF ℝ), (∀ x ∈ l', x.isNaN = false) →
      lt c (if l'.any XF.isNaN then nan else match l' with
        | [] => nan
        | x :: xs => xs.foldl (fun a b => sel (lt a b) b a) x) = l'.any (fun x => lt c x) := by
    intro l' hl'
    have : l'.any XF.isNaN = false := by
      rw [List.any_eq_false]
      intro x hx
      simp [hl' x hx]
    rw [this]
    cases l' with
    | nil => simp
    | cons x xs =>
      simp only [Bool.false_eq_true, if_false]
      rw [foldl_max_lt xs x c (hl' x (List.mem_cons_self ..)) (fun y hy => hl' y (List.mem_cons_of_mem _ hy)),
        List.any_cons]
  unfold reduceMax
  cases skip with
  | false =>
    simp only [Bool.false_eq_true, if_false, false_or] at h ⊢
    exact main l h
  | true =>
    simp only [if_true]
    refine (main (l.filter (fun x => !x.isNaN)) ?_).trans ?_
    · intro x hx
      simpa using (List.mem_filter.mp hx).2
    · rw [List.any_filter]
      congr 1
      funext x
      cases x <;> simp [XF.isNaN]

end
end Verif.Lemmas
