import Verif.Lemmas.FloatCorrCall
import Verif.Props.FloatPearson
import Verif.Props.FloatDewtemp

/-
C183: accuracy of pearson_r in floating-point arithmetic.
-/

set_option linter.unusedSectionVars false
namespace Verif.Props
open Model Spec Lemmas

/-! ### The order of summation -/

/-- how many additions a summand goes through at most -/
def depth {α : Type} : SumTree α → ℕ
  | .leaf _ => 0
  | .node l r => max (depth l) (depth r) + 1

theorem depth_lt {α : Type} (t : SumTree α) : depth t + 1 ≤ t.list.length := by
  induction t with
  | leaf x => simp [depth, SumTree.list]
  | node l r ihl ihr =>
    simp only [depth, SumTree.list, List.length_append]
    omega

/-- the function adds up `N` numbers in some order in which no number goes through more than `h` additions: `h = N - 1` covers every order, and
pairwise summation has `h` near the logarithm of `N` -/
def AddsWithin (R : Rounding ℝ) (sum : List ℝ → ℝ) (N h : ℕ) : Prop :=
  ∀ l : List ℝ, l.length = N → ∃ t : SumTree ℝ, t.list.Perm l ∧ sum l = t.sumFl R ∧ depth t ≤ h

theorem addsUp_within {R : Rounding ℝ} {sum : List ℝ → ℝ} (h : AddsUp R sum) (N : ℕ) (hN : N ≠ 0) : AddsWithin R sum N (N - 1) := by
  intro l hl
  obtain ⟨t, h1, h2⟩ := h.2 l (by rintro rfl; exact hN hl.symm)
  refine ⟨t, h1, h2, ?_⟩
  have := depth_lt t
  have := h1.length_eq
  omega

theorem sumFl_error_depth {R : Rounding ℝ} {u η : ℝ} (A : R.Accurate u η) (t : SumTree ℝ) (h : ∀ a ∈ t.list, R.rep a) :
    |t.sumFl R - t.list.sum| ≤ ((1 + u) ^ depth t - 1) * (t.list.map (|·|)).sum := by
  induction t with
  | leaf x => simp [SumTree.list, SumTree.sumFl, depth]
  | node l r ihl ihr =>
    have hl : ∀ a ∈ l.list, R.rep a := fun a ha => h a (by simp [SumTree.list, ha])
    have hr : ∀ a ∈ r.list, R.rep a := fun a ha => h a (by simp [SumTree.list, ha])
    have ihl := ihl hl
    have ihr := ihr hr
    have e := A.add _ _ (sumFl_rep R l hl) (sumFl_rep R r hr)
    have hu0 := A.u_nonneg
    have one : (1 : ℝ) ≤ 1 + u := by linarith
    simp only [SumTree.sumFl, SumTree.list, List.sum_append, List.map_append, depth]
    have al := abs_sum_le l.list
    have ar := abs_sum_le r.list
    have al0 : 0 ≤ (l.list.map (|·|)).sum := (abs_nonneg _).trans al
    have ar0 : 0 ≤ (r.list.map (|·|)).sum := (abs_nonneg _).trans ar
    have gl : (1 + u) ^ depth l ≤ (1 + u) ^ max (depth l) (depth r) := pow_le_pow_right₀ one (le_max_left _ _)
    have gr : (1 + u) ^ depth r ≤ (1 + u) ^ max (depth l) (depth r) := pow_le_pow_right₀ one (le_max_right _ _)
    have gl := mul_le_mul_of_nonneg_right gl al0
    have gr := mul_le_mul_of_nonneg_right gr ar0
    rw [pow_succ]
    generalize (1 + u) ^ depth l = Gl at *
    generalize (1 + u) ^ depth r = Gr at *
    generalize (1 + u) ^ max (depth l) (depth r) = G at *
    generalize l.sumFl R = sl at *
    generalize r.sumFl R = sr at *
    generalize l.list.sum = Sl at *
    generalize r.list.sum = Sr at *
    generalize (l.list.map (|·|)).sum = Al at *
    generalize (r.list.map (|·|)).sum = Ar at *
    have b1 : |sl + sr| ≤ G * Al + G * Ar := by
      have e : sl + sr = (sl - Sl) + (sr - Sr) + (Sl + Sr) := by ring
      rw [e]
      have := abs_add_le ((sl - Sl) + (sr - Sr)) (Sl + Sr)
      have := abs_add_le (sl - Sl) (sr - Sr)
      have := abs_add_le Sl Sr
      linarith
    have b2 : u * |sl + sr| ≤ u * (G * Al + G * Ar) := mul_le_mul_of_nonneg_left b1 hu0
    have b3 : |R.fl (sl + sr) - (Sl + Sr)| ≤ |R.fl (sl + sr) - (sl + sr)| + |sl - Sl| + |sr - Sr| := by
      have e : R.fl (sl + sr) - (Sl + Sr) = (R.fl (sl + sr) - (sl + sr)) + (sl - Sl) + (sr - Sr) := by ring
      rw [e]
      have := abs_add_le ((R.fl (sl + sr) - (sl + sr)) + (sl - Sl)) (sr - Sr)
      have := abs_add_le (R.fl (sl + sr) - (sl + sr)) (sl - Sl)
      linarith
    linarith

theorem AddsWithin.sums {R : Rounding ℝ} {sum : List ℝ → ℝ} {u η : ℝ} (A : R.Accurate u η) {N h : ℕ} (hs : AddsWithin R sum N h) :
    SumsWithin R sum N ((1 + u) ^ h - 1) := by
  intro l hl hr
  obtain ⟨t, h1, h2, h3⟩ := hs l hl
  have := sumFl_error_depth A t (fun a ha => hr a (h1.mem_iff.mp ha))
  rw [h2, ← h1.sum_eq, ← (h1.map (|·|)).sum_eq]
  refine this.trans (mul_le_mul_of_nonneg_right ?_ ((abs_nonneg _).trans (abs_sum_le t.list)))
  have := pow_le_pow_right₀ (by linarith [A.u_nonneg] : (1 : ℝ) ≤ 1 + u) h3
  linarith

theorem pow_small {u : ℝ} (u0 : 0 ≤ u) (h : ℕ) (hu : h * u ≤ 1 / 20) : (1 + u) ^ h - 1 ≤ 106 / 100 * (h * u) := by
  have key : ∀ k : ℕ, k ≤ h → (1 + u) ^ k ≤ 1 + 106 / 100 * (k * u) := by
    intro k
    induction k with
    | zero => intro _; simp
    | succ k ih =>
      intro hk
      have := ih (by omega)
      have hk' : (k : ℝ) + 1 ≤ h := by exact_mod_cast hk
      have h1 : ((k : ℝ) + 1) * u ≤ 1 / 20 := (mul_le_mul_of_nonneg_right hk' u0).trans hu
      rw [pow_succ]
      push_cast
      have k0 : 0 ≤ (k : ℝ) * u := by positivity
      calc (1 + u) ^ k * (1 + u) ≤ (1 + 106 / 100 * (k * u)) * (1 + u) := mul_le_mul_of_nonneg_right this (by linarith)
        _ ≤ _ := by nlinarith
  linarith [key h le_rfl]

/-! ### C183 -/

section
variable {X : Type} (xs : StatArg X → StatArg X → Option (List (XF ℝ)) → Bool → Except PyErr X)

/-- the general form: the sums have a relative error of `γ` -/
theorem corr_call {R : Rounding ℝ} {u η γ : ℝ} (P : Precise R u η) (g0 : 0 ≤ γ) (g1 : γ ≤ 1 / 10) (ws : List ℝ) (w : Option (List (XF ℝ)))
    (hw : WeightsArg ws w) (a b : List (Option ℝ)) (ha : a.length = ws.length) (hb : b.length = ws.length) (skipna : Bool)
    (hskip : skipna = true ∨ (none ∉ a ∧ none ∉ b)) (sum : List ℝ → ℝ) (hs : SumsWithin R sum ws.length γ) (A B s : ℝ)
    (hrw : ∀ x ∈ ws, R.rep x) (hA : ∀ x, some x ∈ a → R.rep x ∧ |x| ≤ A) (hB : ∀ x, some x ∈ b → R.rep x ∧ |x| ≤ B)
    (I : InRange u η ws.length A B s) (sa : s ^ 2 ≤ scatter (validCells ws a b) (·.2.1)) (sb : s ^ 2 ≤ scatter (validCells ws a b) (·.2.2)) :
    ∃ r r', pearsonR xs (.array (a.map toX)) (.array (b.map toX)) w skipna = .ok (some (.number (.fin r))) ∧
      pearsonRFl R sum xs (.array (a.map toX)) (.array (b.map toX)) w skipna = .ok (some (.number (.fin r'))) ∧
      |r' - r| ≤ 5 / 2 * (γ + 10 * u) +
        14 * (γ + 2 * u) ^ 2 * ((A / spread (validCells ws a b) (·.2.1)) ^ 2 + (B / spread (validCells ws a b) (·.2.2)) ^ 2) := by
  have u0 := P.acc.u_nonneg
  have e0 := P.acc.eta_nonneg
  obtain ⟨h1, h2, h3⟩ := maps_zip ws a b ha hb
  rw [validCells_cellVal] at *
  have hTl : (List.zip ws (List.zip a b)).length = ws.length := by simp [ha, hb]
  rw [← hTl] at hs I
  have hmem : ∀ x ∈ List.zip ws (List.zip a b), x.1 ∈ ws ∧ x.2.1 ∈ a ∧ x.2.2 ∈ b := fun x hx =>
    ⟨(List.of_mem_zip hx).1, (List.of_mem_zip (List.of_mem_zip hx).2).1, (List.of_mem_zip (List.of_mem_zip hx).2).2⟩
  generalize List.zip ws (List.zip a b) = T at *
  have hall : skipna = true ∨ ∀ x ∈ T, (cellVal x).isSome = true := by
    refine hskip.imp_right fun ⟨hna, hnb⟩ x hx => ?_
    obtain ⟨-, ho, hm⟩ := hmem x hx
    obtain ⟨w, o, m⟩ := x
    cases o with
    | none => exact absurd ho hna
    | some o => cases m with
      | none => exact absurd hm hnb
      | some m => rfl
  have hcell : ∀ y ∈ T.filterMap cellVal, y.1 ∈ ws ∧ some y.2.1 ∈ a ∧ some y.2.2 ∈ b := by
    intro y hy
    obtain ⟨x, hx, hv⟩ := List.mem_filterMap.mp hy
    obtain ⟨m1, m2, m3⟩ := hmem x hx
    obtain ⟨w, o, m⟩ := x
    cases o with
    | none => simp [cellVal] at hv
    | some o => cases m with
      | none => simp [cellVal] at hv
      | some m =>
        simp only [cellVal, Option.some.injEq] at hv
        subst hv
        exact ⟨m1, m2, m3⟩
  have hwp := hw.pos
  have hpos : ∀ y ∈ T.filterMap cellVal, 0 < y.1 := fun y hy => hw.pos _ (hcell y hy).1
  have hw0 : ∀ y ∈ T.filterMap cellVal, 0 ≤ y.1 := fun y hy => (hpos y hy).le
  have s2 : 0 < s ^ 2 := pow_pos I.s_pos 2
  have hne : T.filterMap cellVal ≠ [] := by
    intro h
    rw [h] at sa
    unfold scatter at sa
    rw [List.map_nil, List.sum_nil] at sa
    linarith
  obtain ⟨y0, hy0⟩ := List.exists_mem_of_ne_nil _ hne
  have hW : 0 < ((T.filterMap cellVal).map (·.1)).sum := by
    refine lt_of_le_of_ne (sum_map_nonneg _ _ hw0) fun h => ?_
    have := (sum_zero_iff (T.filterMap cellVal) (·.1) hw0).mp h.symm y0 hy0
    exact (hpos y0 hy0).ne' this
  have A0 : 0 ≤ A := (abs_nonneg _).trans (hA _ (hcell y0 hy0).2.1).2
  have B0 : 0 ≤ B := (abs_nonneg _).trans (hB _ (hcell y0 hy0).2.2).2
  have hA' : ∀ y ∈ T.filterMap cellVal, |y.2.1| ≤ A := fun y hy => (hA _ (hcell y hy).2.1).2
  have hB' : ∀ y ∈ T.filterMap cellVal, |y.2.2| ≤ B := fun y hy => (hB _ (hcell y hy).2.2).2
  have hrep : ∀ y ∈ T.filterMap cellVal, R.rep y.2.1 ∧ R.rep y.2.2 := fun y hy => ⟨(hA _ (hcell y hy).2.1).1, (hB _ (hcell y hy).2.2).1⟩
  have sa' : s ^ 2 ≤ mom (T.filterMap cellVal) (·.2.1) (·.2.1) (wMean (T.filterMap cellVal) (·.1) (·.2.1)) (wMean (T.filterMap cellVal) (·.1) (·.2.1)) := by
    rw [mom_sq]
    exact sa
  have sb' : s ^ 2 ≤ mom (T.filterMap cellVal) (·.2.2) (·.2.2) (wMean (T.filterMap cellVal) (·.1) (·.2.2)) (wMean (T.filterMap cellVal) (·.1) (·.2.2)) := by
    rw [mom_sq]
    exact sb
  have terms : ∀ C : ℝ, 0 ≤ C → C ≤ A ∨ C ≤ B → s ^ 2 ≤ ((T.filterMap cellVal).map (·.1)).sum * C ^ 2 →
      3 * (T.length * η) ≤ u * (((T.filterMap cellVal).map (·.1)).sum * C) := by
    intro C C0 hC h
    have hCp : 0 < C := by
      rcases C0.lt_or_eq with h0 | h0
      · exact h0
      · rw [← h0] at h
        rw [zero_pow two_ne_zero, mul_zero] at h
        linarith
    have h4 := I.terms
    have h5 : 3 * C ≤ 3 * A + 3 * B + 2 := by rcases hC with h | h <;> linarith
    have h6 := mul_le_mul_of_nonneg_left h5 (by positivity : 0 ≤ T.length * η)
    have h7 := mul_le_mul_of_nonneg_left h u0
    have h8 : 3 * (T.length * η) * C ≤ u * (((T.filterMap cellVal).map (·.1)).sum * C) * C := by
      calc _ = T.length * η * (3 * C) := by ring
        _ ≤ _ := h6
        _ ≤ _ := h4
        _ ≤ _ := h7
        _ = _ := by ring
    exact le_of_mul_le_mul_right h8 hCp
  have tA := terms A A0 (Or.inl le_rfl) (sa'.trans (mom_bound _ hw0 hW.ne' _ A hA'))
  have tB := terms B B0 (Or.inr le_rfl) (sb'.trans (mom_bound _ hw0 hW.ne' _ B hB'))
  have hexact : pearsonR xs (.array (a.map toX)) (.array (b.map toX)) w skipna = .ok (some (.number (.fin (correlation (T.filterMap cellVal))))) := by
    have hc : pearsonCore (a.map toX) (b.map toX) w skipna = .ok (corrX (T.filterMap cellVal)) := by
      rw [← h1, ← h2]
      cases hw with
      | given _ _ =>
        rw [← h3]
        exact core_some T (fun x hx => hwp _ (hmem x hx).1) (by rintro rfl; exact hne rfl) skipna hall
      | absent n =>
        refine core_none T (fun x hx => ?_) (by rintro rfl; exact hne rfl) skipna hall
        exact List.eq_of_mem_replicate (hmem x hx).1
    have hcx := (corrX_eq (T.filterMap cellVal) hw0 (by
      apply ne_of_gt
      exact mul_pos (s2.trans_le sa) (s2.trans_le sb))).1
    simp only [pearsonR, StatArg.isDataArray, Bool.false_eq_true, not_false_eq_true, and_self, if_true, npRavel, bind, Except.bind, hc, hcx, Except.map,
      swallowValueError]
  have hcomp : ∃ r', pearsonCoreFl R sum (a.map toX) (b.map toX) w skipna = .ok (.fin r') ∧ |r' - correlation (T.filterMap cellVal)| ≤
      5 / 2 * (γ + 10 * u) + 14 * (γ + 2 * u) ^ 2 *
        ((A / spread (T.filterMap cellVal) (·.2.1)) ^ 2 + (B / spread (T.filterMap cellVal) (·.2.2)) ^ 2) := by
    rw [← h1, ← h2]
    cases hw with
    | given _ _ =>
      rw [← h3]
      have m1 := wMeanFl_error P g0 g1 cellVal T sum hs hw0 (·.2.1) (fun y hy => hrw _ (hcell y hy).1) hA' A0 hW I.left tA
      have m2 := wMeanFl_error P g0 g1 cellVal T sum hs hw0 (·.2.2) (fun y hy => hrw _ (hcell y hy).1) hB' B0 hW I.right tB
      obtain ⟨r', hr', hd⟩ := corr_core P g0 g1 cellVal T sum hs hw0 hrep hA' hB' I hne hW sa' sb' _ _ (R.rep_fl _) (R.rep_fl _) m1.1 m2.1
        (fun w d f => R.fl (R.fl (w * d) * f)) (fun _ _ _ => R.rep_fl _) (fun y hy d f d' f' M k1 k2 k3 => corrTerm P (hw0 y hy) k1 k2 k3)
      refine ⟨r', ?_, hd⟩
      rw [coreFl_some R sum T skipna hall, tailFl_weights R sum skipna cellVal T hall hne m1.2]
      exact congrArg Except.ok hr'
    | absent n =>
      have hone : ∀ y ∈ T.filterMap cellVal, y.1 = 1 := fun y hy => List.eq_of_mem_replicate (hcell y hy).1
      have m1 := meanCellsFl_error P g0 g1 cellVal T sum hs hw0 (·.2.1) hone (fun y hy => (hrep y hy).1) hA' A0 hne I.left
      have m2 := meanCellsFl_error P g0 g1 cellVal T sum hs hw0 (·.2.2) hone (fun y hy => (hrep y hy).2) hB' B0 hne I.right
      obtain ⟨r', hr', hd⟩ := corr_core P g0 g1 cellVal T sum hs hw0 hrep hA' hB' I hne hW sa' sb' _ _ (R.rep_fl _) (R.rep_fl _) m1 m2
        (fun _ d f => R.fl (d * f)) (fun _ _ _ => R.rep_fl _) (fun y hy d f d' f' M k1 k2 k3 => by
          rw [hone y hy, one_mul]
          exact corrTerm_one P k1 k2 k3)
      refine ⟨r', ?_, hd⟩
      rw [coreFl_none R sum T skipna hall, tailFl_unweighted R sum skipna cellVal T hall hne]
      exact congrArg Except.ok hr'
  obtain ⟨r', hr', hd⟩ := hcomp
  refine ⟨_, r', hexact, ?_, hd⟩
  simp only [pearsonRFl, StatArg.isDataArray, Bool.false_eq_true, not_false_eq_true, and_self, if_true, npRavel, bind, Except.bind, hr', Except.map,
    swallowValueError]

/-- **C183**: the coefficient computed in floating-point arithmetic, with sums in which no summand goes through more than `h` additions, differs from the
exact one by at most `3 (h + 9)` unit roundoffs and a term of second order in `u` times the ratio of the largest value to the standard deviation. -/
theorem C183_accuracy {R : Rounding ℝ} {u η : ℝ} (P : Precise R u η) (ws : List ℝ) (w : Option (List (XF ℝ))) (hw : WeightsArg ws w) (a b : List (Option ℝ))
    (ha : a.length = ws.length) (hb : b.length = ws.length) (skipna : Bool) (hskip : skipna = true ∨ (none ∉ a ∧ none ∉ b)) (sum : List ℝ → ℝ) (h : ℕ)
    (hs : AddsWithin R sum ws.length h) (hu : h * u ≤ 1 / 20) (A B s : ℝ) (hrw : ∀ x ∈ ws, R.rep x) (hA : ∀ x, some x ∈ a → R.rep x ∧ |x| ≤ A)
    (hB : ∀ x, some x ∈ b → R.rep x ∧ |x| ≤ B) (I : InRange u η ws.length A B s) (sa : s ^ 2 ≤ scatter (validCells ws a b) (·.2.1))
    (sb : s ^ 2 ≤ scatter (validCells ws a b) (·.2.2)) :
    ∃ r r', pearsonR xs (.array (a.map toX)) (.array (b.map toX)) w skipna = .ok (some (.number (.fin r))) ∧
      pearsonRFl R sum xs (.array (a.map toX)) (.array (b.map toX)) w skipna = .ok (some (.number (.fin r'))) ∧
      |r' - r| ≤ 3 * (h + 9) * u +
        16 * ((h + 2) * u) ^ 2 * ((A / spread (validCells ws a b) (·.2.1)) ^ 2 + (B / spread (validCells ws a b) (·.2.2)) ^ 2) := by
  have u0 := P.acc.u_nonneg
  have g := pow_small u0 h hu
  have g0 : 0 ≤ (1 + u) ^ h - 1 := by
    have := one_le_pow₀ (n := h) (by linarith : (1 : ℝ) ≤ 1 + u)
    linarith
  have hu0 : 0 ≤ (h : ℝ) * u := by positivity
  obtain ⟨r, r', h1, h2, h3⟩ := corr_call xs P g0 (by linarith) ws w hw a b ha hb skipna hskip sum (hs.sums P.acc) A B s hrw hA hB I sa sb
  refine ⟨r, r', h1, h2, h3.trans ?_⟩
  set γ := (1 + u) ^ h - 1
  have k0 : 0 ≤ (A / spread (validCells ws a b) (·.2.1)) ^ 2 + (B / spread (validCells ws a b) (·.2.2)) ^ 2 := by positivity
  have k1 : 14 * (γ + 2 * u) ^ 2 ≤ 16 * ((h + 2) * u) ^ 2 := by
    have : γ + 2 * u ≤ 106 / 100 * ((h + 2) * u) := by linarith
    have := pow_le_pow_left₀ (by linarith) this 2
    nlinarith [sq_nonneg ((h + 2) * u)]
  have := mul_le_mul_of_nonneg_right k1 k0
  linarith

/-- for every order of summation -/
theorem C183_any_order {R : Rounding ℝ} {u η : ℝ} (P : Precise R u η) (ws : List ℝ) (w : Option (List (XF ℝ))) (hw : WeightsArg ws w) (a b : List (Option ℝ))
    (ha : a.length = ws.length) (hb : b.length = ws.length) (skipna : Bool) (hskip : skipna = true ∨ (none ∉ a ∧ none ∉ b)) (sum : List ℝ → ℝ)
    (hs : AddsUp R sum) (hu : ws.length * u ≤ 1 / 20) (A B s : ℝ) (hrw : ∀ x ∈ ws, R.rep x) (hA : ∀ x, some x ∈ a → R.rep x ∧ |x| ≤ A)
    (hB : ∀ x, some x ∈ b → R.rep x ∧ |x| ≤ B) (I : InRange u η ws.length A B s) (sa : s ^ 2 ≤ scatter (validCells ws a b) (·.2.1))
    (sb : s ^ 2 ≤ scatter (validCells ws a b) (·.2.2)) :
    ∃ r r', pearsonR xs (.array (a.map toX)) (.array (b.map toX)) w skipna = .ok (some (.number (.fin r))) ∧
      pearsonRFl R sum xs (.array (a.map toX)) (.array (b.map toX)) w skipna = .ok (some (.number (.fin r'))) ∧
      |r' - r| ≤ 3 * (ws.length + 8) * u +
        16 * ((ws.length + 1) * u) ^ 2 * ((A / spread (validCells ws a b) (·.2.1)) ^ 2 + (B / spread (validCells ws a b) (·.2.2)) ^ 2) := by
  have u0 := P.acc.u_nonneg
  have hN : ws.length ≠ 0 := by
    intro h
    have hv : validCells ws a b = [] := by
      rw [List.length_eq_zero_iff.mp h]
      rfl
    rw [hv] at sa
    have := pow_pos I.s_pos 2
    unfold scatter at sa
    rw [List.map_nil, List.sum_nil] at sa
    linarith
  have hc : ((ws.length - 1 : ℕ) : ℝ) = ws.length - 1 := by
    rw [Nat.cast_sub (by omega)]
    norm_num
  have := C183_accuracy xs P ws w hw a b ha hb skipna hskip sum (ws.length - 1) (addsUp_within hs _ hN) (by rw [hc]; linarith) A B s hrw hA hB I sa sb
  rw [hc] at this
  obtain ⟨r, r', h1, h2, h3⟩ := this
  refine ⟨r, r', h1, h2, h3.trans (le_of_eq ?_)⟩
  ring

theorem inRange_double {N : ℕ} (hN : N ≤ 10 ^ 6) {A B : ℝ} (hA : (2 : ℝ) ^ (-500 : ℤ) ≤ A ∧ A ≤ 2 ^ (100 : ℤ)) (hB : (2 : ℝ) ^ (-500 : ℤ) ≤ B ∧ B ≤ 2 ^ (100 : ℤ)) :
    InRange (2 ^ (-53 : ℤ)) (2 ^ (-1075 : ℤ)) N A B (2 ^ (-200 : ℤ)) := by
  have p53 := two_zpow_pos (K := ℝ) (-53)
  have low : ∀ C : ℝ, (2 : ℝ) ^ (-500 : ℤ) ≤ C → (2 : ℝ) ^ (-1075 : ℤ) ≤ 2 ^ (-53 : ℤ) * C := by
    intro C hC
    refine le_trans ?_ (mul_le_mul_of_nonneg_left hC p53.le)
    rw [← zpow_add₀ (by norm_num)]
    exact two_zpow_mono (by norm_num)
  refine ⟨two_zpow_pos _, low A hA.1, low B hB.1, ?_, ?_⟩
  · rw [← zpow_natCast, ← zpow_mul, ← zpow_add₀ (by norm_num), le_div_iff₀ (by norm_num)]
    calc (2 : ℝ) ^ (-1075 : ℤ) * 2 = 2 ^ (-1075 : ℤ) * 2 ^ (1 : ℤ) := by norm_num
      _ = 2 ^ (-1074 : ℤ) := by rw [← zpow_add₀ (by norm_num)]; norm_num
      _ ≤ _ := two_zpow_mono (by norm_num)
  · have hN' : (N : ℝ) ≤ 2 ^ (20 : ℤ) := by
      have : (N : ℝ) ≤ 10 ^ 6 := by exact_mod_cast hN
      refine this.trans (by norm_num)
    have h1 : 3 * A + 3 * B + 2 ≤ (2 : ℝ) ^ (103 : ℤ) := by
      have e : (2 : ℝ) ^ (103 : ℤ) = 8 * 2 ^ (100 : ℤ) := by
        rw [show (103 : ℤ) = 3 + 100 by norm_num, zpow_add₀ (by norm_num)]
        norm_num
      have : (1 : ℝ) ≤ 2 ^ (100 : ℤ) := one_le_zpow₀ (by norm_num) (by norm_num)
      rw [e]
      linarith [hA.2, hB.2]
    have A0 : 0 ≤ A := (two_zpow_pos _).le.trans hA.1
    have B0 : 0 ≤ B := (two_zpow_pos _).le.trans hB.1
    calc (N : ℝ) * 2 ^ (-1075 : ℤ) * (3 * A + 3 * B + 2) ≤ 2 ^ (20 : ℤ) * 2 ^ (-1075 : ℤ) * 2 ^ (103 : ℤ) :=
          mul_le_mul (mul_le_mul_of_nonneg_right hN' (two_zpow_pos _).le) h1 (by positivity) (by positivity)
      _ = 2 ^ (-952 : ℤ) := by rw [← zpow_add₀ (by norm_num), ← zpow_add₀ (by norm_num)]; norm_num
      _ ≤ 2 ^ (-453 : ℤ) := two_zpow_mono (by norm_num)
      _ = _ := by rw [← zpow_natCast, ← zpow_mul, ← zpow_add₀ (by norm_num)]; norm_num

/-- **C183** in double precision, for up to a million values added up in any order -/
theorem C183_double (ws : List ℝ) (w : Option (List (XF ℝ))) (hw : WeightsArg ws w) (a b : List (Option ℝ)) (hN : ws.length ≤ 10 ^ 6)
    (ha : a.length = ws.length) (hb : b.length = ws.length) (skipna : Bool) (hskip : skipna = true ∨ (none ∉ a ∧ none ∉ b)) (sum : List ℝ → ℝ)
    (hs : AddsUp float64 sum) (A B : ℝ) (hrw : ∀ x ∈ ws, (float64 : Rounding ℝ).rep x) (hA : ∀ x, some x ∈ a → (float64 : Rounding ℝ).rep x ∧ |x| ≤ A)
    (hB : ∀ x, some x ∈ b → (float64 : Rounding ℝ).rep x ∧ |x| ≤ B) (rA : (2 : ℝ) ^ (-500 : ℤ) ≤ A ∧ A ≤ 2 ^ (100 : ℤ))
    (rB : (2 : ℝ) ^ (-500 : ℤ) ≤ B ∧ B ≤ 2 ^ (100 : ℤ)) (sa : (2 : ℝ) ^ (-400 : ℤ) ≤ scatter (validCells ws a b) (·.2.1))
    (sb : (2 : ℝ) ^ (-400 : ℤ) ≤ scatter (validCells ws a b) (·.2.2)) :
    ∃ r r', pearsonR xs (.array (a.map toX)) (.array (b.map toX)) w skipna = .ok (some (.number (.fin r))) ∧
      pearsonRFl float64 sum xs (.array (a.map toX)) (.array (b.map toX)) w skipna = .ok (some (.number (.fin r'))) ∧
      |r' - r| ≤ 34e-11 + 2e-19 * ((A / spread (validCells ws a b) (·.2.1)) ^ 2 + (B / spread (validCells ws a b) (·.2.2)) ^ 2) := by
  have hN' : (ws.length : ℝ) ≤ 10 ^ 6 := by exact_mod_cast hN
  have e : ((2 : ℝ) ^ (-200 : ℤ)) ^ 2 = 2 ^ (-400 : ℤ) := by
    rw [← zpow_natCast, ← zpow_mul]
    norm_num
  obtain ⟨r, r', h1, h2, h3⟩ := C183_any_order xs precise_float64 ws w hw a b ha hb skipna hskip sum hs (by norm_num [zpow_neg]; linarith) A B _ hrw hA hB
    (inRange_double hN rA rB) (by rw [e]; exact sa) (by rw [e]; exact sb)
  refine ⟨r, r', h1, h2, h3.trans (add_le_add ?_ (mul_le_mul_of_nonneg_right ?_ (by positivity)))⟩
  · norm_num [zpow_neg]
    linarith
  · have n0 : (0 : ℝ) ≤ ws.length := Nat.cast_nonneg _
    have : ((ws.length : ℝ) + 1) * 2 ^ (-53 : ℤ) ≤ 1111e-13 := by
      norm_num [zpow_neg]
      linarith
    have := pow_le_pow_left₀ (by positivity) this 2
    refine (mul_le_mul_of_nonneg_left this (by norm_num)).trans ?_
    norm_num

theorem inRange_single {N : ℕ} (hN : N ≤ 10 ^ 9) {A B : ℝ} (hA : (2 : ℝ) ^ (-60 : ℤ) ≤ A ∧ A ≤ 2 ^ (30 : ℤ)) (hB : (2 : ℝ) ^ (-60 : ℤ) ≤ B ∧ B ≤ 2 ^ (30 : ℤ)) :
    InRange (2 ^ (-24 : ℤ)) (2 ^ (-150 : ℤ)) N A B (2 ^ (-25 : ℤ)) := by
  have low : ∀ C : ℝ, (2 : ℝ) ^ (-60 : ℤ) ≤ C → (2 : ℝ) ^ (-150 : ℤ) ≤ 2 ^ (-24 : ℤ) * C := by
    intro C hC
    refine le_trans ?_ (mul_le_mul_of_nonneg_left hC (two_zpow_pos _).le)
    norm_num [zpow_neg]
  refine ⟨two_zpow_pos _, low A hA.1, low B hB.1, by norm_num [zpow_neg], ?_⟩
  have hN' : (N : ℝ) ≤ 2 ^ (30 : ℤ) := by
    have : (N : ℝ) ≤ 10 ^ 9 := by exact_mod_cast hN
    refine this.trans (by norm_num)
  have h1 : 3 * A + 3 * B + 2 ≤ (2 : ℝ) ^ (33 : ℤ) := by
    have h2 := hA.2
    have h3 := hB.2
    norm_num at h2 h3 ⊢
    linarith
  have A0 : 0 ≤ A := (two_zpow_pos _).le.trans hA.1
  have B0 : 0 ≤ B := (two_zpow_pos _).le.trans hB.1
  calc (N : ℝ) * 2 ^ (-150 : ℤ) * (3 * A + 3 * B + 2) ≤ 2 ^ (30 : ℤ) * 2 ^ (-150 : ℤ) * 2 ^ (33 : ℤ) :=
        mul_le_mul (mul_le_mul_of_nonneg_right hN' (two_zpow_pos _).le) h1 (by positivity) (by positivity)
    _ ≤ _ := by norm_num [zpow_neg]

/-- **C183** in single precision, for up to 10^9 values added up pairwise (no summand goes through more than 40 additions) -/
theorem C183_single (ws : List ℝ) (w : Option (List (XF ℝ))) (hw : WeightsArg ws w) (a b : List (Option ℝ)) (hN : ws.length ≤ 10 ^ 9)
    (ha : a.length = ws.length) (hb : b.length = ws.length) (skipna : Bool) (hskip : skipna = true ∨ (none ∉ a ∧ none ∉ b)) (sum : List ℝ → ℝ)
    (hs : AddsWithin float32 sum ws.length 40) (A B : ℝ) (hrw : ∀ x ∈ ws, (float32 : Rounding ℝ).rep x)
    (hA : ∀ x, some x ∈ a → (float32 : Rounding ℝ).rep x ∧ |x| ≤ A) (hB : ∀ x, some x ∈ b → (float32 : Rounding ℝ).rep x ∧ |x| ≤ B)
    (rA : (2 : ℝ) ^ (-60 : ℤ) ≤ A ∧ A ≤ 2 ^ (30 : ℤ)) (rB : (2 : ℝ) ^ (-60 : ℤ) ≤ B ∧ B ≤ 2 ^ (30 : ℤ))
    (sa : (2 : ℝ) ^ (-50 : ℤ) ≤ scatter (validCells ws a b) (·.2.1)) (sb : (2 : ℝ) ^ (-50 : ℤ) ≤ scatter (validCells ws a b) (·.2.2)) :
    ∃ r r', pearsonR xs (.array (a.map toX)) (.array (b.map toX)) w skipna = .ok (some (.number (.fin r))) ∧
      pearsonRFl float32 sum xs (.array (a.map toX)) (.array (b.map toX)) w skipna = .ok (some (.number (.fin r'))) ∧
      |r' - r| ≤ 9e-6 + 11e-11 * ((A / spread (validCells ws a b) (·.2.1)) ^ 2 + (B / spread (validCells ws a b) (·.2.2)) ^ 2) := by
  have e : ((2 : ℝ) ^ (-25 : ℤ)) ^ 2 = 2 ^ (-50 : ℤ) := by
    rw [← zpow_natCast, ← zpow_mul]
    norm_num
  obtain ⟨r, r', h1, h2, h3⟩ := C183_accuracy xs precise_float32 ws w hw a b ha hb skipna hskip sum 40 hs (by norm_num [zpow_neg]) A B _ hrw hA hB
    (inRange_single hN rA rB) (by rw [e]; exact sa) (by rw [e]; exact sb)
  refine ⟨r, r', h1, h2, h3.trans (add_le_add ?_ (mul_le_mul_of_nonneg_right ?_ (by positivity)))⟩
  · norm_num [zpow_neg]
  · norm_num [zpow_neg]

/-! ### a case that meets the hypotheses -/

/-- the series 300, missing, 301 and 1, 5, 3 in double precision -/
example : ∃ r r', pearsonR xs (.array [.fin 300, .nan, .fin 301]) (.array [.fin 1, .fin 5, .fin 3]) none true = .ok (some (.number (.fin r))) ∧
    pearsonRFl float64 (leftSum float64) xs (.array [.fin 300, .nan, .fin 301]) (.array [.fin 1, .fin 5, .fin 3]) none true = .ok (some (.number (.fin r'))) ∧
    |r' - r| ≤ 4e-10 := by
  have hv : validCells [1, 1, 1] [some (300 : ℝ), none, some 301] [some 1, some 5, some 3] = [(1, 300, 1), (1, 301, 3)] := rfl
  have h5 : (2 : ℝ) ^ (-400 : ℤ) ≤ 1 / 2 := (two_zpow_mono (by norm_num : (-400 : ℤ) ≤ -1)).trans (by norm_num)
  have h6 : (2 : ℝ) ^ (-500 : ℤ) ≤ 1 := zpow_le_one_of_nonpos₀ (by norm_num) (by norm_num)
  have h7 : (301 : ℝ) ≤ 2 ^ (100 : ℤ) := le_trans (by norm_num) (two_zpow_mono (by norm_num : (9 : ℤ) ≤ 100))
  have rep : ∀ n : ℕ, (n : ℤ) ≤ 2 ^ 53 → (float64 : Rounding ℝ).rep n := fun n hn => ⟨n, 0, by norm_num, by rwa [abs_of_nonneg (by positivity)], by simp⟩
  obtain ⟨r, r', h1, h2, h3⟩ := C183_double xs [1, 1, 1] none (WeightsArg.absent 3) [some 300, none, some 301] [some 1, some 5, some 3] (by norm_num) rfl rfl true
    (Or.inl rfl) _ (leftSum_addsUp _) 301 5 (fun x hx => by
      have : x = 1 := by simpa using hx
      rw [this]
      exact float64.rep_one)
    (fun x hx => by
      have : x = 300 ∨ x = 301 := by simpa using hx
      rcases this with rfl | rfl
      · exact ⟨by simpa using rep 300 (by norm_num), by norm_num⟩
      · exact ⟨by simpa using rep 301 (by norm_num), by norm_num⟩)
    (fun x hx => by
      have : x = 1 ∨ x = 5 ∨ x = 3 := by simpa using hx
      rcases this with rfl | rfl | rfl
      · exact ⟨float64.rep_one, by norm_num⟩
      · exact ⟨by simpa using rep 5 (by norm_num), by norm_num⟩
      · exact ⟨by simpa using rep 3 (by norm_num), by norm_num⟩)
    ⟨h6.trans (by norm_num), h7⟩ ⟨h6.trans (by norm_num), le_trans (by norm_num) h7⟩
    (by rw [hv]; refine h5.trans ?_; norm_num [scatter, wMean]) (by rw [hv]; refine h5.trans ?_; norm_num [scatter, wMean])
  refine ⟨r, r', h1, h2, h3.trans ?_⟩
  rw [hv, div_pow, div_pow]
  have s1 : spread [(1, 300, 1), (1, 301, 3)] (·.2.1) ^ 2 = 1 / 4 := by
    unfold spread
    rw [Real.sq_sqrt (by norm_num [wMean])]
    norm_num [wMean]
  have s2 : spread [(1, 300, 1), (1, 301, 3)] (·.2.2) ^ 2 = 1 := by
    unfold spread
    rw [Real.sq_sqrt (by norm_num [wMean])]
    norm_num [wMean]
  rw [s1, s2]
  norm_num

end

end Verif.Props
