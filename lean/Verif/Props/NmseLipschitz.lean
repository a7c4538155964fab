import Verif.Props.Skill

/-
Property C220: small changes of the model change nmse by small amounts.
-/

set_option linter.unusedSectionVars false

namespace Verif.Spec

/-- two fields that are missing in the same cells and differ by at most `ε` elsewhere -/
def CellsWithin (ε : ℝ) (m m' : List (Option ℝ)) : Prop :=
  List.Forall₂ (fun x y => (x = none ∧ y = none) ∨ ∃ p q : ℝ, x = some p ∧ y = some q ∧ |p - q| ≤ ε) m m'

/-- the standard deviation of the observations over the cells in which both fields have a value, weighted like in the definition of nmse -/
noncomputable def spreadOf (l : List (ℝ × ℝ × ℝ)) : ℝ := Real.sqrt (wMean l (·.1) (fun x => (x.2.1 - wMean l (·.1) (·.2.1)) ^ 2))

end Verif.Spec

namespace Verif.Props
open Model Spec Lemmas

namespace NmseLipschitz

theorem cells (ε : ℝ) (ws : List ℝ) : ∀ (o m m' : List (Option ℝ)), CellsWithin ε m m' →
    ∃ L : List (ℝ × ℝ × ℝ × ℝ), (∀ z ∈ L, z.1 ∈ ws ∧ |z.2.2.1 - z.2.2.2| ≤ ε) ∧ validCells ws o m = L.map (fun z => (z.1, z.2.1, z.2.2.1)) ∧
      validCells ws o m' = L.map (fun z => (z.1, z.2.1, z.2.2.2)) := by
  induction ws with
  | nil => intro o m m' _; exact ⟨[], by simp, by simp [validCells], by simp [validCells]⟩
  | cons w ws ih =>
    intro o m m' h
    cases o with
    | nil => exact ⟨[], by simp, by simp [validCells], by simp [validCells]⟩
    | cons a o =>
      cases h with
      | nil => exact ⟨[], by simp, by simp [validCells], by simp [validCells]⟩
      | @cons x y m m' hxy h =>
        obtain ⟨L, h0, h1, h2⟩ := ih o m m' h
        have hL : ∀ z ∈ L, z.1 ∈ w :: ws ∧ |z.2.2.1 - z.2.2.2| ≤ ε := fun z hz => ⟨List.mem_cons_of_mem _ (h0 z hz).1, (h0 z hz).2⟩
        have hcons : ∀ (x y : Option ℝ) (p q : List (Option ℝ)), validCells (w :: ws) (x :: p) (y :: q) =
            (match x, y with | some o, some m => [(w, o, m)] | _, _ => []) ++ validCells ws p q := by
          intro x y p q
          cases x <;> cases y <;> simp [validCells]
        rw [hcons, hcons, h1, h2]
        rcases hxy with ⟨rfl, rfl⟩ | ⟨p, q, rfl, rfl, hpq⟩
        · exact ⟨L, hL, by cases a <;> rfl, by cases a <;> rfl⟩
        · cases a with
          | none => exact ⟨L, hL, rfl, rfl⟩
          | some a =>
            refine ⟨(w, a, p, q) :: L, fun z hz => ?_, rfl, rfl⟩
            rcases List.mem_cons.mp hz with rfl | hz
            · exact ⟨by simp, hpq⟩
            · exact hL z hz

/-- the root of a weighted sum of squares is a norm -/
theorem minkowski {α : Type} (l : List α) (w f g : α → ℝ) (hw : ∀ z ∈ l, 0 ≤ w z) :
    Real.sqrt ((l.map (fun z => w z * f z ^ 2)).sum) ≤
      Real.sqrt ((l.map (fun z => w z * g z ^ 2)).sum) + Real.sqrt ((l.map (fun z => w z * (f z - g z) ^ 2)).sum) := by
  have nonneg : ∀ h : α → ℝ, 0 ≤ (l.map (fun z => w z * h z ^ 2)).sum := by
    intro h
    refine List.sum_nonneg fun y hy => ?_
    obtain ⟨z, hz, rfl⟩ := List.mem_map.mp hy
    exact mul_nonneg (hw z hz) (sq_nonneg _)
  have hc := cauchy_list l w g (fun z => f z - g z) hw
  have e : (l.map (fun z => w z * f z ^ 2)).sum =
      (l.map (fun z => w z * g z ^ 2)).sum + 2 * (l.map (fun z => w z * g z * (f z - g z))).sum + (l.map (fun z => w z * (f z - g z) ^ 2)).sum := by
    clear hc nonneg hw
    induction l with
    | nil => simp
    | cons z l ih => simp only [List.map_cons, List.sum_cons, ih]; ring
  have hG := nonneg g
  have hD := nonneg (fun z => f z - g z)
  rw [e]
  generalize (l.map (fun z => w z * g z ^ 2)).sum = G at *
  generalize (l.map (fun z => w z * (f z - g z) ^ 2)).sum = D at *
  generalize (l.map (fun z => w z * g z * (f z - g z))).sum = C at *
  refine Real.sqrt_le_iff.mpr ⟨by positivity, ?_⟩
  have h1 : C ≤ Real.sqrt G * Real.sqrt D := by
    rw [← Real.sqrt_mul hG]
    exact Real.le_sqrt_of_sq_le hc
  nlinarith [Real.sq_sqrt hG, Real.sq_sqrt hD]

theorem root_change (L : List (ℝ × ℝ × ℝ × ℝ)) (hw : ∀ z ∈ L, 0 ≤ z.1) (ε : ℝ) (hε : 0 ≤ ε) (h : ∀ z ∈ L, |z.2.2.1 - z.2.2.2| ≤ ε) :
    Real.sqrt ((L.map (fun z => z.1 * (z.2.2.1 - z.2.1) ^ 2)).sum) ≤
      Real.sqrt ((L.map (fun z => z.1 * (z.2.2.2 - z.2.1) ^ 2)).sum) + ε * Real.sqrt ((L.map (·.1)).sum) := by
  refine (minkowski L (·.1) (fun z => z.2.2.1 - z.2.1) (fun z => z.2.2.2 - z.2.1) hw).trans (add_le_add_right ?_ _)
  have : (L.map (fun z => z.1 * ((z.2.2.1 - z.2.1) - (z.2.2.2 - z.2.1)) ^ 2)).sum ≤ ε ^ 2 * (L.map (·.1)).sum := by
    induction L with
    | nil => simp
    | cons z L ih =>
      have hz := h z (by simp)
      have h1 := mul_le_mul_of_nonneg_left (sq_le_sq' (by linarith [(abs_le.mp hz).1]) (abs_le.mp hz).2) (hw z (by simp))
      have h2 := ih (fun y hy => hw y (by simp [hy])) (fun y hy => h y (by simp [hy]))
      simp only [List.map_cons, List.sum_cons]
      have e : (z.2.2.1 - z.2.1) - (z.2.2.2 - z.2.1) = z.2.2.1 - z.2.2.2 := by ring
      rw [e]
      nlinarith
  refine (Real.sqrt_le_sqrt this).trans ?_
  rw [Real.sqrt_mul (sq_nonneg ε), Real.sqrt_sq hε]

end NmseLipschitz

open NmseLipschitz

/-- **C220**. If two model fields differ by at most `ε` in every cell, the roots of their nmse differ by at most `ε` over the standard deviation of the observations. -/
theorem C220_change (obs mod mod' : GeoInput ℝ) (no nm nm' : String) (o m m' : List (Option ℝ)) (lats : List ℝ)
    (ho : obs.vars = [(no, o)]) (hm : mod.vars = [(nm, m)]) (hm' : mod'.vars = [(nm', m')]) (hl : cellLats obs.lat obs.lon = some lats)
    (hlat : ∀ φ ∈ lats, |φ| ≤ 90) (ε : ℝ) (hε : 0 ≤ ε) (hc : CellsWithin ε m m') (x x' : ℝ) (h : nmse obs mod = .ok (.one (.fin x))) (h' : nmse obs mod' = .ok (.one (.fin x'))) :
    |Real.sqrt x - Real.sqrt x'| ≤ ε / spreadOf (validCells (lats.map cosDeg) o m) := by
  have hv := C61_value obs mod no nm o m lats ho hm hl x h
  have hv' := C61_value obs mod' no nm' o m' lats ho hm' hl x' h'
  obtain ⟨L, hL, l1, l2⟩ := cells ε (lats.map cosDeg) o m m' hc
  have hw : ∀ z ∈ L, 0 ≤ z.1 := by
    intro z hz
    obtain ⟨φ, hφ, e⟩ := List.mem_map.mp (hL z hz).1
    rw [← e]
    exact cosDeg_nonneg φ (hlat φ hφ)
  have r1 := root_change L hw ε hε fun z hz => (hL z hz).2
  have r2 := root_change (L.map fun z => (z.1, z.2.1, z.2.2.2, z.2.2.1)) (fun z hz => by obtain ⟨y, hy, rfl⟩ := List.mem_map.mp hz; exact hw y hy) ε hε
    (fun z hz => by obtain ⟨y, hy, rfl⟩ := List.mem_map.mp hz; rw [abs_sub_comm]; exact (hL y hy).2)
  rw [l1] at hv ⊢
  rw [l2] at hv'
  unfold nmseOf wMean at hv hv'
  unfold spreadOf wMean
  simp only [List.map_map, Function.comp_def] at *
  have nW : 0 ≤ (L.map (fun z => z.1)).sum := List.sum_nonneg fun y hy => by obtain ⟨z, hz, rfl⟩ := List.mem_map.mp hy; exact hw z hz
  have nV : ∀ c : ℝ, 0 ≤ (L.map (fun z => z.1 * (z.2.1 - c) ^ 2)).sum := fun c =>
    List.sum_nonneg fun y hy => by obtain ⟨z, hz, rfl⟩ := List.mem_map.mp hy; exact mul_nonneg (hw z hz) (sq_nonneg _)
  have nV' := div_nonneg (nV ((L.map (fun z => z.1 * z.2.1)).sum / (L.map (fun z => z.1)).sum)) nW
  clear nV
  generalize (L.map (fun z => z.1 * (z.2.2.1 - z.2.1) ^ 2)).sum = A at *
  generalize (L.map (fun z => z.1 * (z.2.2.2 - z.2.1) ^ 2)).sum = B at *
  generalize (L.map (fun z => z.1)).sum = W at *
  generalize (L.map (fun z => z.1 * (z.2.1 - (L.map (fun z => z.1 * z.2.1)).sum / W) ^ 2)).sum / W = V at *
  rw [hv, hv', Real.sqrt_div' _ nV', Real.sqrt_div' _ nV', Real.sqrt_div' _ nW, Real.sqrt_div' _ nW, ← sub_div, ← sub_div, abs_div, abs_div,
    abs_of_nonneg (Real.sqrt_nonneg V), abs_of_nonneg (Real.sqrt_nonneg W)]
  refine div_le_div_of_nonneg_right ?_ (Real.sqrt_nonneg V)
  refine div_le_of_le_mul₀ (Real.sqrt_nonneg W) hε ?_
  rw [abs_le]
  constructor <;> linarith

/-- a model field and the same field with errors of at most 1/10 -/
example : ∃ x x', nmse (exField [some 1, some 2, none, some 5]) (exField [some 1, some 3, some 4, none]) = .ok (.one (.fin x)) ∧
    nmse (exField [some 1, some 2, none, some 5]) (exField [some 1.1, some 2.9, some 4, none]) = .ok (.one (.fin x')) ∧
    |Real.sqrt x - Real.sqrt x'| ≤ 0.1 / spreadOf (validCells ([0, 0, 60, 60].map cosDeg) [some 1, some 2, none, some 5] [some 1, some 3, some 4, none]) := by
  have hf : ∀ a b c : ℝ, ∃ x, nmse (exField [some 1, some 2, none, some 5]) (exField [some a, some b, some c, none]) = .ok (.one (.fin x)) := by
    intro a b c
    obtain ⟨r, hr⟩ := exField_ok [some 1, some 2, none, some 5] [some a, some b, some c, none] rfl rfl
    obtain ⟨x, rfl⟩ := (C61_finite _ _ "t" "t" _ _ [0, 0, 60, 60] rfl rfl rfl ex_lats r hr).mpr
      ⟨0, 1, 0, 0, 1, a, 2, b, ⟨rfl, rfl, rfl⟩, ⟨rfl, rfl, rfl⟩, by norm_num, by norm_num, by norm_num⟩
    exact ⟨x, hr⟩
  obtain ⟨x, hx⟩ := hf 1 3 4
  obtain ⟨x', hx'⟩ := hf 1.1 2.9 4
  refine ⟨x, x', hx, hx', ?_⟩
  refine C220_change (exField [some 1, some 2, none, some 5]) (exField [some 1, some 3, some 4, none]) (exField [some 1.1, some 2.9, some 4, none]) "t" "t" "t" _ _ _
    [0, 0, 60, 60] rfl rfl rfl rfl ex_lats 0.1 (by norm_num) ?_ x x' hx hx'
  refine .cons (Or.inr ⟨1, 1.1, rfl, rfl, ?_⟩) (.cons (Or.inr ⟨3, 2.9, rfl, rfl, ?_⟩) (.cons (Or.inr ⟨4, 4, rfl, rfl, ?_⟩) (.cons (Or.inl ⟨rfl, rfl⟩) .nil)))
  all_goals rw [abs_le]; norm_num

end Verif.Props
