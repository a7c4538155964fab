import Verif.Props.PearsonThree

/-
Property C221: pearson_r is 1 or -1 exactly for pairs on a line.
-/

set_option linter.unusedSectionVars false

namespace Verif.Spec

/-- the pairs of values lie on the line with slope `k` and offset `d` -/
def OnLine (k d : ℝ) (a b : List (Option ℝ)) : Prop := ∀ (i : ℕ) (x y : ℝ), a[i]? = some (some x) → b[i]? = some (some y) → y = k * x + d

end Verif.Spec

namespace Verif.Props
open Model Spec Lemmas

namespace PearsonLine

theorem mem_valid (ws : List ℝ) (a b : List (Option ℝ)) (i : ℕ) (w x y : ℝ) (hw : ws[i]? = some w) (ha : a[i]? = some (some x)) (hb : b[i]? = some (some y)) :
    (w, x, y) ∈ validCells ws a b := by
  unfold validCells
  refine List.mem_filterMap.mpr ⟨(w, some x, some y), ?_, rfl⟩
  refine List.mem_of_getElem? (i := i) ?_
  rw [List.getElem?_zip_eq_some]
  exact ⟨hw, List.getElem?_zip_eq_some.mpr ⟨ha, hb⟩⟩

theorem positive (ws : List ℝ) (h : ∀ w ∈ ws, 0 < w) (a b : List (Option ℝ)) : ∀ z ∈ validCells ws a b, 0 < z.1 := by
  intro z hz
  unfold validCells at hz
  obtain ⟨⟨w, c, d⟩, hm, e⟩ := List.mem_filterMap.mp hz
  have hw := h w (List.of_mem_zip hm).1
  cases c <;> cases d <;> simp at e
  rw [← e]
  exact hw

theorem on_line (V : List (ℝ × ℝ × ℝ)) (hw : ∀ x ∈ V, 0 < x.1) (ha : Varies V (·.2.1)) (hb : Varies V (·.2.2)) (h : correlation V ^ 2 = 1) :
    ∃ k d : ℝ, k ≠ 0 ∧ 0 < k * correlation V ∧ ∀ z ∈ V, z.2.2 = k * z.2.1 + d := by
  have sa := PearsonThree.spread_pos hw _ ha
  have sb := PearsonThree.spread_pos hw _ hb
  unfold correlation at h ⊢
  generalize wMean V (·.1) (·.2.1) = p at *
  generalize wMean V (·.1) (·.2.2) = q at *
  set A := (V.map (fun x => x.1 * (x.2.1 - p) ^ 2)).sum with hA
  set B := (V.map (fun x => x.1 * (x.2.2 - q) ^ 2)).sum with hB
  set C := (V.map (fun x => x.1 * (x.2.1 - p) * (x.2.2 - q))).sum with hC
  have hAB : 0 < A * B := mul_pos sa sb
  have hs := Real.sqrt_pos.mpr hAB
  have hC2 : C ^ 2 = A * B := by
    rw [div_pow, Real.sq_sqrt hAB.le, div_eq_one_iff_eq hAB.ne'] at h
    exact h
  have hC0 : C ≠ 0 := by
    intro h0
    rw [h0] at hC2
    norm_num at hC2
    rcases hC2 with h1 | h1
    · exact sa.ne h1.symm
    · exact sb.ne h1.symm
  have hz : (V.map (fun x => x.1 * (A * (x.2.2 - q) - C * (x.2.1 - p)) ^ 2)).sum = 0 := by
    have : (fun x : ℝ × ℝ × ℝ => x.1 * (A * (x.2.2 - q) - C * (x.2.1 - p)) ^ 2) =
        fun x => A ^ 2 * (x.1 * (x.2.2 - q) ^ 2) + (-(2 * A * C)) * (x.1 * (x.2.1 - p) * (x.2.2 - q)) + C ^ 2 * (x.1 * (x.2.1 - p) ^ 2) + 0 * x.1 := by
      funext x; ring
    rw [this, PearsonThree.sum_lin, ← hA, ← hB, ← hC]
    linear_combination (-A) * hC2
  rw [sum_zero_iff V _ (fun x hx => mul_nonneg (hw x hx).le (sq_nonneg _))] at hz
  refine ⟨C / A, q - C / A * p, div_ne_zero hC0 sa.ne', ?_, fun z hm => ?_⟩
  · have : C / A * (C / Real.sqrt (A * B)) = C ^ 2 / (A * Real.sqrt (A * B)) := by rw [div_mul_div_comm, sq]
    rw [this, hC2]
    positivity
  · rcases mul_eq_zero.mp (hz z hm) with h0 | h0
    · exact absurd h0 (hw z hm).ne'
    · have h1 := pow_eq_zero_iff (two_ne_zero) |>.mp h0
      have : A * z.2.2 = A * (C / A * z.2.1 + (q - C / A * p)) := by
        have e : A * (C / A) = C := mul_div_cancel₀ C sa.ne'
        linear_combination h1 + (p - z.2.1) * e
      exact mul_left_cancel₀ sa.ne' this

end PearsonLine

open PearsonLine

/-- **C221**. A coefficient of 1 or -1 means that the pairs of values lie on a rising or a falling line. -/
theorem C221_line {X : Type} (xs : StatArg X → StatArg X → Option (List (XF ℝ)) → Bool → Except PyErr X) (ws : List ℝ) (w : Option (List (XF ℝ)))
    (hw : WeightsArg ws w) (a b : List (Option ℝ)) (ha : a.length = ws.length) (hb : b.length = ws.length) (hne : ws ≠ []) (skipna : Bool)
    (hs : skipna = true ∨ (none ∉ a ∧ none ∉ b)) :
    (pearsonR xs (.array (a.map toX)) (.array (b.map toX)) w skipna = .ok (some (.number (.fin 1))) → ∃ k d, 0 < k ∧ OnLine k d a b) ∧
    (pearsonR xs (.array (a.map toX)) (.array (b.map toX)) w skipna = .ok (some (.number (.fin (-1)))) → ∃ k d, k < 0 ∧ OnLine k d a b) := by
  obtain ⟨r, hr, hp⟩ := C64_value xs ws w hw a b ha hb hne skipna hs
  have hpos := positive ws hw.pos a b
  have key : ∀ t : ℝ, t ^ 2 = 1 → pearsonR xs (.array (a.map toX)) (.array (b.map toX)) w skipna = .ok (some (.number (.fin t))) →
      ∃ k d, 0 < k * t ∧ OnLine k d a b := by
    intro t ht h
    rw [hr] at h
    injection h with h; injection h with h; injection h with h
    subst h
    obtain ⟨va, vb, e⟩ := PearsonThree.varies_of hp
    rw [e] at ht ⊢
    obtain ⟨k, d, -, hk, hz⟩ := on_line _ hpos va vb ht
    refine ⟨k, d, hk, fun i x y hx hy => ?_⟩
    have hi : i < ws.length := by
      have := (List.getElem?_eq_some_iff.mp hx).1
      omega
    exact hz (ws[i], x, y) (mem_valid ws a b i _ x y (List.getElem?_eq_getElem hi) hx hy)
  refine ⟨fun h => ?_, fun h => ?_⟩
  · obtain ⟨k, d, hk, hl⟩ := key 1 (by norm_num) h
    exact ⟨k, d, by linarith, hl⟩
  · obtain ⟨k, d, hk, hl⟩ := key (-1) (by norm_num) h
    exact ⟨k, d, by linarith, hl⟩

/-- the falling line of two series with missing values -/
example : ∃ k d : ℝ, k < 0 ∧ OnLine k d [some 0, some 1, none, none, some 0, some 1] [none, none, some 0, some 1, some 1, some 0] :=
  (C221_line (X := Unit) (fun _ _ _ _ => .error .valueError) (List.replicate 6 1) none (.absent 6) _ _ rfl rfl (by simp) true (Or.inl rfl)).2
    (C219_missing_counterexample (X := Unit) (fun _ _ _ _ => .error .valueError)).2.2

end Verif.Props
