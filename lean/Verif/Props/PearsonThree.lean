import Verif.Props.Pearson
import Mathlib.Tactic.FieldSimp
import Mathlib.Tactic.Linarith

/-
Property C219: the correlations of three series fit together.
-/

set_option linter.unusedSectionVars false

namespace Verif.Props
open Model Spec Lemmas

namespace PearsonThree

/-- the cells in which the three series have values -/
theorem common_cells (ws : List ℝ) : ∀ (a b c : List (Option ℝ)), a.length = ws.length → b.length = ws.length → c.length = ws.length →
    a.map Option.isSome = b.map Option.isSome → b.map Option.isSome = c.map Option.isSome →
    ∃ L : List (ℝ × ℝ × ℝ × ℝ), (∀ z ∈ L, z.1 ∈ ws) ∧ validCells ws a b = L.map (fun z => (z.1, z.2.1, z.2.2.1)) ∧
      validCells ws b c = L.map (fun z => (z.1, z.2.2.1, z.2.2.2)) ∧ validCells ws a c = L.map (fun z => (z.1, z.2.1, z.2.2.2)) := by
  induction ws with
  | nil => intro a b c _ _ _ _ _; exact ⟨[], by simp, by simp [validCells], by simp [validCells], by simp [validCells]⟩
  | cons w ws ih =>
    intro a b c ha hb hc hab hbc
    obtain ⟨x, a, rfl⟩ : ∃ c l, a = c :: l := List.exists_cons_of_length_eq_add_one ha
    obtain ⟨y, b, rfl⟩ : ∃ c l, b = c :: l := List.exists_cons_of_length_eq_add_one hb
    obtain ⟨u, c, rfl⟩ : ∃ v l, c = v :: l := List.exists_cons_of_length_eq_add_one hc
    simp only [List.map_cons, List.cons.injEq] at hab hbc
    obtain ⟨L, h0, h1, h2, h3⟩ := ih a b c (by simpa using ha) (by simpa using hb) (by simpa using hc) hab.2 hbc.2
    have hcons : ∀ (x y : Option ℝ) (p q : List (Option ℝ)), validCells (w :: ws) (x :: p) (y :: q) =
        (match x, y with | some o, some m => [(w, o, m)] | _, _ => []) ++ validCells ws p q := by
      intro x y p q
      cases x <;> cases y <;> simp [validCells]
    rw [hcons, hcons, hcons, h1, h2, h3]
    cases x with
    | none =>
      cases y with
      | some y => simp at hab
      | none =>
        cases u with
        | some u => simp at hbc
        | none => exact ⟨L, fun z hz => List.mem_cons_of_mem _ (h0 z hz), rfl, rfl, rfl⟩
    | some x =>
      cases y with
      | none => simp at hab
      | some y =>
        cases u with
        | none => simp at hbc
        | some u =>
          refine ⟨(w, x, y, u) :: L, fun z hz => ?_, rfl, rfl, rfl⟩
          rcases List.mem_cons.mp hz with rfl | hz
          · simp
          · exact List.mem_cons_of_mem _ (h0 z hz)

theorem sum_lin {α : Type} (l : List α) (s t u v : ℝ) (f g h k : α → ℝ) :
    (l.map (fun z => s * f z + t * g z + u * h z + v * k z)).sum = s * (l.map f).sum + t * (l.map g).sum + u * (l.map h).sum + v * (l.map k).sum := by
  induction l with
  | nil => simp
  | cons z l ih => simp only [List.map_cons, List.sum_cons, ih]; ring

/-- the Gram determinant, in the form of an inequality between sums -/
theorem gram {α : Type} (l : List α) (w x y u : α → ℝ) (hw : ∀ z ∈ l, 0 ≤ w z) (hy : 0 < (l.map (fun z => w z * y z ^ 2)).sum) :
    ((l.map (fun z => w z * y z ^ 2)).sum * (l.map (fun z => w z * x z * u z)).sum - (l.map (fun z => w z * x z * y z)).sum * (l.map (fun z => w z * y z * u z)).sum) ^ 2 ≤
      ((l.map (fun z => w z * y z ^ 2)).sum * (l.map (fun z => w z * x z ^ 2)).sum - (l.map (fun z => w z * x z * y z)).sum ^ 2) *
      ((l.map (fun z => w z * y z ^ 2)).sum * (l.map (fun z => w z * u z ^ 2)).sum - (l.map (fun z => w z * y z * u z)).sum ^ 2) := by
  set Y := (l.map (fun z => w z * y z ^ 2)).sum with hY
  set A := (l.map (fun z => w z * x z * y z)).sum with hA
  set B := (l.map (fun z => w z * y z * u z)).sum with hB
  have hc := cauchy_list l w (fun z => Y * x z - A * y z) (fun z => Y * u z - B * y z) hw
  have e1 : (l.map (fun z => w z * (Y * x z - A * y z) * (Y * u z - B * y z))).sum = Y * (Y * (l.map (fun z => w z * x z * u z)).sum - A * B) := by
    have : (fun z => w z * (Y * x z - A * y z) * (Y * u z - B * y z)) =
        fun z => Y ^ 2 * (w z * x z * u z) + (-(Y * B)) * (w z * x z * y z) + (-(A * Y)) * (w z * y z * u z) + (A * B) * (w z * y z ^ 2) := by
      funext z; ring
    rw [this, sum_lin, ← hA, ← hB, ← hY]
    ring
  have e2 : (l.map (fun z => w z * (Y * x z - A * y z) ^ 2)).sum = Y * (Y * (l.map (fun z => w z * x z ^ 2)).sum - A ^ 2) := by
    have : (fun z => w z * (Y * x z - A * y z) ^ 2) =
        fun z => Y ^ 2 * (w z * x z ^ 2) + (-(2 * Y * A)) * (w z * x z * y z) + 0 * (w z * x z ^ 2) + (A ^ 2) * (w z * y z ^ 2) := by
      funext z; ring
    rw [this, sum_lin, ← hA, ← hY]
    ring
  have e3 : (l.map (fun z => w z * (Y * u z - B * y z) ^ 2)).sum = Y * (Y * (l.map (fun z => w z * u z ^ 2)).sum - B ^ 2) := by
    have : (fun z => w z * (Y * u z - B * y z) ^ 2) =
        fun z => Y ^ 2 * (w z * u z ^ 2) + (-(2 * Y * B)) * (w z * y z * u z) + 0 * (w z * u z ^ 2) + (B ^ 2) * (w z * y z ^ 2) := by
      funext z; ring
    rw [this, sum_lin, ← hB, ← hY]
    ring
  rw [e1, e2, e3] at hc
  refine le_of_mul_le_mul_left ?_ (show 0 < Y ^ 2 by positivity)
  nlinarith [hc]

/-- from sums to coefficients -/
theorem normalised {X Y U A B D : ℝ} (hX : 0 < X) (hY : 0 < Y) (hU : 0 < U) (h : (Y * D - A * B) ^ 2 ≤ (Y * X - A ^ 2) * (Y * U - B ^ 2)) :
    (D / Real.sqrt (X * U) - A / Real.sqrt (X * Y) * (B / Real.sqrt (Y * U))) ^ 2 ≤ (1 - (A / Real.sqrt (X * Y)) ^ 2) * (1 - (B / Real.sqrt (Y * U)) ^ 2) := by
  have sX := Real.sqrt_pos.mpr hX
  have sY := Real.sqrt_pos.mpr hY
  have sU := Real.sqrt_pos.mpr hU
  rw [Real.sqrt_mul hX.le, Real.sqrt_mul hX.le, Real.sqrt_mul hY.le]
  have qX := Real.sq_sqrt hX.le
  have qY := Real.sq_sqrt hY.le
  have qU := Real.sq_sqrt hU.le
  generalize Real.sqrt X = p at *
  generalize Real.sqrt Y = q at *
  generalize Real.sqrt U = s at *
  subst qX qY qU
  have e1 : (D / (p * s) - A / (p * q) * (B / (q * s))) ^ 2 = (q ^ 2 * D - A * B) ^ 2 / (p ^ 2 * q ^ 4 * s ^ 2) := by
    field_simp
  have e2 : (1 - (A / (p * q)) ^ 2) * (1 - (B / (q * s)) ^ 2) = (q ^ 2 * p ^ 2 - A ^ 2) * (q ^ 2 * s ^ 2 - B ^ 2) / (p ^ 2 * q ^ 4 * s ^ 2) := by
    field_simp
  rw [e1, e2]
  exact div_le_div_of_nonneg_right h (by positivity)

theorem varies_of {V : List (ℝ × ℝ × ℝ)} {r : ℝ} (h : IsPearson V (.fin r)) : Varies V (·.2.1) ∧ Varies V (·.2.2) ∧ r = correlation V := by
  by_cases hv : Varies V (·.2.1) ∧ Varies V (·.2.2)
  · exact ⟨hv.1, hv.2, XF.fin.inj (h.1 hv)⟩
  · exact absurd (h.2 hv) (by simp)

theorem spread_pos {V : List (ℝ × ℝ × ℝ)} (hw : ∀ x ∈ V, 0 < x.1) (f : ℝ × ℝ × ℝ → ℝ) (h : Varies V f) :
    0 < (V.map (fun x => x.1 * (f x - wMean V (·.1) f) ^ 2)).sum := by
  refine lt_of_le_of_ne (List.sum_nonneg ?_) fun h0 => (spread_zero V hw f).mp h0.symm h
  intro y hy
  obtain ⟨x, hx, rfl⟩ := List.mem_map.mp hy
  exact mul_nonneg (hw x hx).le (sq_nonneg _)

end PearsonThree

open PearsonThree

/-- **C219**. Three series with the same missing cells: the correlation of the first and the last is confined by the other two. -/
theorem C219_three {X : Type} (xs : StatArg X → StatArg X → Option (List (XF ℝ)) → Bool → Except PyErr X) (ws : List ℝ) (w : Option (List (XF ℝ)))
    (hw : WeightsArg ws w) (a b c : List (Option ℝ)) (ha : a.length = ws.length) (hb : b.length = ws.length) (hc : c.length = ws.length) (hne : ws ≠ [])
    (skipna : Bool) (hs : skipna = true ∨ (none ∉ a ∧ none ∉ b ∧ none ∉ c))
    (hab : a.map Option.isSome = b.map Option.isSome) (hbc : b.map Option.isSome = c.map Option.isSome) (rab rbc rac : ℝ)
    (h1 : pearsonR xs (.array (a.map toX)) (.array (b.map toX)) w skipna = .ok (some (.number (.fin rab))))
    (h2 : pearsonR xs (.array (b.map toX)) (.array (c.map toX)) w skipna = .ok (some (.number (.fin rbc))))
    (h3 : pearsonR xs (.array (a.map toX)) (.array (c.map toX)) w skipna = .ok (some (.number (.fin rac)))) :
    (rac - rab * rbc) ^ 2 ≤ (1 - rab ^ 2) * (1 - rbc ^ 2) := by
  obtain ⟨r1, e1, p1⟩ := C64_value xs ws w hw a b ha hb hne skipna (hs.imp_right fun h => ⟨h.1, h.2.1⟩)
  obtain ⟨r2, e2, p2⟩ := C64_value xs ws w hw b c hb hc hne skipna (hs.imp_right fun h => ⟨h.2.1, h.2.2⟩)
  obtain ⟨r3, e3, p3⟩ := C64_value xs ws w hw a c ha hc hne skipna (hs.imp_right fun h => ⟨h.1, h.2.2⟩)
  rw [h1] at e1
  rw [h2] at e2
  rw [h3] at e3
  injection e1 with e1; injection e1 with e1; injection e1 with e1
  injection e2 with e2; injection e2 with e2; injection e2 with e2
  injection e3 with e3; injection e3 with e3; injection e3 with e3
  subst e1 e2 e3
  obtain ⟨L, hL, l1, l2, l3⟩ := common_cells ws a b c ha hb hc hab hbc
  have hpos : ∀ z ∈ L, 0 < z.1 := fun z hz => hw.pos _ (hL z hz)
  rw [l1] at p1
  rw [l2] at p2
  rw [l3] at p3
  obtain ⟨va, vb, q1⟩ := varies_of p1
  obtain ⟨-, vc, q2⟩ := varies_of p2
  obtain ⟨-, -, q3⟩ := varies_of p3
  have sa := spread_pos (fun v hv => by obtain ⟨z, hz, rfl⟩ := List.mem_map.mp hv; exact hpos z hz) _ va
  have sb := spread_pos (fun v hv => by obtain ⟨z, hz, rfl⟩ := List.mem_map.mp hv; exact hpos z hz) _ vb
  have sc := spread_pos (fun v hv => by obtain ⟨z, hz, rfl⟩ := List.mem_map.mp hv; exact hpos z hz) _ vc
  rw [q1, q2, q3]
  unfold correlation
  unfold wMean at *
  simp only [List.map_map, Function.comp_def] at *
  have hg := gram L (·.1) (fun z => z.2.1 - (L.map (fun x => x.1 * x.2.1)).sum / (L.map (·.1)).sum)
    (fun z => z.2.2.1 - (L.map (fun x => x.1 * x.2.2.1)).sum / (L.map (·.1)).sum) (fun z => z.2.2.2 - (L.map (fun x => x.1 * x.2.2.2)).sum / (L.map (·.1)).sum)
    (fun z hz => (hpos z hz).le) sb
  exact normalised sa sb sc hg

/-- **C219**, consequence: a series correlates with another exactly as any series perfectly correlated with it does. -/
theorem C219_perfect {X : Type} (xs : StatArg X → StatArg X → Option (List (XF ℝ)) → Bool → Except PyErr X) (ws : List ℝ) (w : Option (List (XF ℝ)))
    (hw : WeightsArg ws w) (a b c : List (Option ℝ)) (ha : a.length = ws.length) (hb : b.length = ws.length) (hc : c.length = ws.length) (hne : ws ≠ [])
    (skipna : Bool) (hs : skipna = true ∨ (none ∉ a ∧ none ∉ b ∧ none ∉ c))
    (hab : a.map Option.isSome = b.map Option.isSome) (hbc : b.map Option.isSome = c.map Option.isSome) (rbc rac : ℝ)
    (h1 : pearsonR xs (.array (a.map toX)) (.array (b.map toX)) w skipna = .ok (some (.number (.fin 1))))
    (h2 : pearsonR xs (.array (b.map toX)) (.array (c.map toX)) w skipna = .ok (some (.number (.fin rbc))))
    (h3 : pearsonR xs (.array (a.map toX)) (.array (c.map toX)) w skipna = .ok (some (.number (.fin rac)))) : rac = rbc := by
  have := C219_three xs ws w hw a b c ha hb hc hne skipna hs hab hbc 1 rbc rac h1 h2 h3
  have h0 : (rac - rbc) ^ 2 ≤ 0 := by simpa using this
  have := pow_eq_zero_iff (two_ne_zero) |>.mp (le_antisymm h0 (sq_nonneg _))
  linarith

/-- three series with a missing sample in common -/
example {X : Type} (xs : StatArg X → StatArg X → Option (List (XF ℝ)) → Bool → Except PyErr X) : ∃ rab rbc rac : ℝ,
    pearsonR xs (.array ([some 0, some 1, some 3, none].map toX)) (.array ([some 2, some 1, some 5, none].map toX)) none true = .ok (some (.number (.fin rab))) ∧
    pearsonR xs (.array ([some 2, some 1, some 5, none].map toX)) (.array ([some 1, some 0, some 0, none].map toX)) none true = .ok (some (.number (.fin rbc))) ∧
    pearsonR xs (.array ([some 0, some 1, some 3, none].map toX)) (.array ([some 1, some 0, some 0, none].map toX)) none true = .ok (some (.number (.fin rac))) ∧
    (rac - rab * rbc) ^ 2 ≤ (1 - rab ^ 2) * (1 - rbc ^ 2) := by
  have key : ∀ x y z x' y' z' : ℝ, x ≠ y → x' ≠ y' → ∃ r,
      pearsonR xs (.array ([some x, some y, some z, none].map toX)) (.array ([some x', some y', some z', none].map toX)) none true = .ok (some (.number (.fin r))) := by
    intro x y z x' y' z' h h'
    obtain ⟨r, hr, hp⟩ := C64_value xs (List.replicate 4 1) none (.absent 4) [some x, some y, some z, none] [some x', some y', some z', none] rfl rfl (by simp) true
      (Or.inl rfl)
    have hv : validCells (List.replicate 4 1) [some x, some y, some z, none] [some x', some y', some z', none] = [(1, x, x'), (1, y, y'), (1, z, z')] := by
      simp [validCells, List.replicate]
    rw [hv] at hp
    exact ⟨_, by rw [hr, hp.1 ⟨⟨(1, x, x'), by simp, (1, y, y'), by simp, h⟩, ⟨(1, x, x'), by simp, (1, y, y'), by simp, h'⟩⟩]⟩
  obtain ⟨rab, h1⟩ := key 0 1 3 2 1 5 (by norm_num) (by norm_num)
  obtain ⟨rbc, h2⟩ := key 2 1 5 1 0 0 (by norm_num) (by norm_num)
  obtain ⟨rac, h3⟩ := key 0 1 3 1 0 0 (by norm_num) (by norm_num)
  exact ⟨rab, rbc, rac, h1, h2, h3, C219_three xs (List.replicate 4 1) none (.absent 4) [some 0, some 1, some 3, none]
    [some 2, some 1, some 5, none] [some 1, some 0, some 0, none] rfl rfl rfl (by simp) true (Or.inl rfl) rfl rfl _ _ _ h1 h2 h3⟩

/-- **C219**, what does not hold: with different missing cells each coefficient describes other samples, and three series can have the coefficients 1, 1 and -1. -/
theorem C219_missing_counterexample {X : Type} (xs : StatArg X → StatArg X → Option (List (XF ℝ)) → Bool → Except PyErr X) :
    pearsonR xs (.array ([some 0, some 1, none, none, some 0, some 1].map toX)) (.array ([some 0, some 1, some 0, some 1, none, none].map toX)) none true =
      .ok (some (.number (.fin 1))) ∧
    pearsonR xs (.array ([some 0, some 1, some 0, some 1, none, none].map toX)) (.array ([none, none, some 0, some 1, some 1, some 0].map toX)) none true =
      .ok (some (.number (.fin 1))) ∧
    pearsonR xs (.array ([some 0, some 1, none, none, some 0, some 1].map toX)) (.array ([none, none, some 0, some 1, some 1, some 0].map toX)) none true =
      .ok (some (.number (.fin (-1)))) := by
  have key : ∀ (a b : List (Option ℝ)) (x y : ℝ), a.length = 6 → b.length = 6 → validCells (List.replicate 6 1) a b = [(1, 0, x), (1, 1, y)] → (x ≠ y) →
      pearsonR xs (.array (a.map toX)) (.array (b.map toX)) none true = .ok (some (.number (.fin (correlation [(1, 0, x), (1, 1, y)])))) := by
    intro a b x y ha hb hv hxy
    obtain ⟨r, hr, hp⟩ := C64_value xs (List.replicate 6 1) none (.absent 6) a b (by simpa using ha) (by simpa using hb) (by simp) true (Or.inl rfl)
    rw [hv] at hp
    rw [hr, hp.1 ⟨⟨(1, 0, x), by simp, (1, 1, y), by simp, show (0 : ℝ) ≠ 1 by norm_num⟩, ⟨(1, 0, x), by simp, (1, 1, y), by simp, hxy⟩⟩]
  have q : Real.sqrt 4 = 2 := by rw [show (4 : ℝ) = 2 * 2 by norm_num]; exact Real.sqrt_mul_self (by norm_num)
  refine ⟨?_, ?_, ?_⟩
  · rw [key _ _ 0 1 rfl rfl (by simp [validCells, List.replicate]) (by norm_num)]
    have : correlation [(1, 0, 0), (1, 1, 1)] = 1 := by
      unfold correlation wMean
      norm_num [q]
    rw [this]
  · rw [key _ _ 0 1 rfl rfl (by simp [validCells, List.replicate]) (by norm_num)]
    have : correlation [(1, 0, 0), (1, 1, 1)] = 1 := by
      unfold correlation wMean
      norm_num [q]
    rw [this]
  · rw [key _ _ 1 0 rfl rfl (by simp [validCells, List.replicate]) (by norm_num)]
    have : correlation [(1, 0, 1), (1, 1, 0)] = -1 := by
      unfold correlation wMean
      norm_num [q]
    rw [this]

end Verif.Props
