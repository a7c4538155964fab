import Verif.Lemmas.ClimRel
import Verif.Props.FloatNmse

/-
C159: averages and climatologies in floating-point arithmetic.
-/

set_option linter.unusedSectionVars false
namespace Verif.Props
open Model Spec Lemmas

section
variable {K : Type _} [Field K] [LinearOrder K] [IsStrictOrderedRing K]

theorem weighted_exact (cal : Cal) (m : List (Entry K)) (D : K) (c : ℕ) :
    Model.nanSum c (m.map (fun e => (⟨e.key, fun c => (e.val c).map (fun x => x * ((cal.len e.key : K) / D))⟩ : Entry K))) =
      (exactArith : ClimArith K).wsum D (dayValues cal c m) := by
  unfold Model.nanSum dayValues exactArith
  simp only
  induction m with
  | nil => rfl
  | cons e m ih =>
    rw [List.map_cons, List.filterMap_cons, List.filterMap_cons]
    cases he : e.val c with
    | none => simpa [he] using ih
    | some v => simpa [he] using ih

theorem meanEach_exact (l : List (ℤ × List (Entry K))) : meanEachBy exactArith l = meanEach l := rfl

theorem weightedSums_exact (cal : Cal) (p : Period) (m : List (Entry K)) : weightedSumsBy exactArith cal p m = weightedSums cal p m := by
  unfold weightedSumsBy weightedSums
  simp only [weighted_exact]
end

variable {K : Type} [Field K] [LinearOrder K] [IsStrictOrderedRing K]

/-- the parametrised functions with exact arithmetic are the ones of `Model/Climatology` -/
theorem calendar_exact (cal : Cal) (infer : InferFreq) (freq : String) (s : Series K) :
    calendarAverageBy exactArith cal infer freq s = calendarAverage cal infer freq s := by
  unfold calendarAverageBy calendarAverage
  simp only [weightedSums_exact, meanEach_exact]
  rfl

theorem climatology_exact (cal : Cal) (infer : InferFreq) (freq : String) (custom : List String) (s : Series K) :
    climatologyAverageBy exactArith cal infer freq custom s = climatologyAverage cal infer freq custom s := by
  have h1 : ∀ months, seasonClimateBy exactArith cal s months = seasonClimate cal s months := by
    intro months
    unfold seasonClimateBy seasonClimate
    simp only [meanEach_exact, weighted_exact]
  unfold climatologyAverageBy climatologyAverage seasonClimatesBy seasonClimates
  simp only [h1]
  rfl

theorem monthToSeason_exact (cal : Cal) (season : String) (s : Series K) : monthToSeasonBy exactArith cal season s = monthToSeason cal season s := rfl

theorem floatArith_exact : floatArith Rounding.exact List.sum = (exactArith : ClimArith K) := rfl

/-- **C159** The rounded functions are the modelled ones with another arithmetic: without rounding they agree. -/
theorem C159_exact (cal : Cal) (infer : InferFreq) (freq season : String) (custom : List String) (s : Series K) :
    calendarAverageBy (floatArith Rounding.exact List.sum) cal infer freq s = calendarAverage cal infer freq s ∧
    climatologyAverageBy (floatArith Rounding.exact List.sum) cal infer freq custom s = climatologyAverage cal infer freq custom s ∧
    monthToSeasonBy (floatArith Rounding.exact List.sum) cal season s = monthToSeason cal season s := by
  rw [floatArith_exact]
  exact ⟨calendar_exact cal infer freq s, climatology_exact cal infer freq custom s, monthToSeason_exact cal season s⟩

/-! ### accuracy -/

theorem addsUp_error {R : Rounding K} {u η : K} (A : R.Accurate u η) {sum : List K → K} (hs : AddsUp R sum) (l : List K) (h : ∀ a ∈ l, R.rep a) :
    |sum l - l.sum| ≤ ((1 + u) ^ (l.length - 1) - 1) * (l.map (|·|)).sum := by
  by_cases hl : l = []
  · subst hl; simp [hs.1]
  · obtain ⟨t, hp, e⟩ := hs.2 l hl
    have := sumFl_error A t (fun a ha => h a (hp.mem_iff.mp ha))
    rw [hp.length_eq, hp.sum_eq, (hp.map (|·|)).sum_eq] at this
    rw [e]
    exact this

theorem addsUp_mean_error {R : Rounding K} {u η : K} (A : R.Accurate u η) {sum : List K → K} (hs : AddsUp R sum) (l : List K) (hl : l ≠ []) (X : K) (N : ℕ)
    (h : ∀ a ∈ l, R.rep a ∧ |a| ≤ X) (hN : l.length ≤ N) :
    |R.fl (sum l / l.length) - l.sum / l.length| ≤ ((1 + u) ^ N - 1) * X + η ∧ |l.sum / l.length| ≤ X := by
  obtain ⟨t, hp, e⟩ := hs.2 l hl
  have h1 := meanFl_error A t (fun a ha => (h a (hp.mem_iff.mp ha)).1)
  rw [SumTree.meanFl, ← e, hp.length_eq, hp.sum_eq, (hp.map (|·|)).sum_eq] at h1
  have hpos : (0 : K) < l.length := by exact_mod_cast List.length_pos_iff.mpr hl
  have h2 : (l.map (|·|)).sum / l.length ≤ X := by
    rw [div_le_iff₀ hpos]
    have := List.sum_le_card_nsmul (l.map (|·|)) X (fun x hx => by obtain ⟨a, ha, rfl⟩ := List.mem_map.mp hx; exact (h a ha).2)
    rw [List.length_map, nsmul_eq_mul, mul_comm] at this
    exact this
  have hX : 0 ≤ X := by
    obtain ⟨a, ha⟩ := List.exists_mem_of_ne_nil l hl
    exact (abs_nonneg a).trans (h a ha).2
  have hu := A.u_nonneg
  refine ⟨h1.trans (by
    have h3 : (1 + u) ^ l.length ≤ (1 + u) ^ N := pow_le_pow_right₀ (by linarith) hN
    have h4 : (1 : K) ≤ (1 + u) ^ l.length := one_le_pow₀ (by linarith)
    have h5 := mul_le_mul (show (1 + u) ^ l.length - 1 ≤ (1 + u) ^ N - 1 by linarith) h2 (div_nonneg (List.sum_nonneg (by simp)) hpos.le) (by linarith)
    linarith), ?_⟩
  rw [abs_div, abs_of_pos hpos]
  exact (div_le_div_of_nonneg_right (abs_sum_le l) hpos.le).trans h2

/-- one term of a weighted sum -/
theorem term_error {R : Rounding K} {u η : K} (A : R.Accurate u η) (x y w X e : K) (hy : |y| ≤ X) (hxy : |x - y| ≤ e) (hw : 0 ≤ w) :
    |R.fl (x * R.fl w) - y * w| ≤ w * ((2 * u + u ^ 2) * (X + e) + e) + η * (1 + (1 + u) * (X + e)) := by
  have hu := A.u_nonneg
  have hη := A.eta_nonneg
  have h1 := A.err (x * R.fl w)
  have h2 := A.err w
  rw [abs_of_nonneg hw] at h2
  have hx : |x| ≤ X + e := by
    have : |x| ≤ |x - y| + |y| := by simpa using abs_add_le (x - y) y
    linarith
  have hXe : 0 ≤ X + e := (abs_nonneg _).trans hx
  have hw' : |R.fl w| ≤ (1 + u) * w + η := by
    have : |R.fl w| ≤ |R.fl w - w| + |w| := by simpa using abs_add_le (R.fl w - w) w
    rw [abs_of_nonneg hw] at this
    linarith
  have a1 : |x * R.fl w| ≤ (X + e) * ((1 + u) * w + η) := by
    rw [abs_mul]
    exact mul_le_mul hx hw' (abs_nonneg _) hXe
  have a2 : |x * R.fl w - x * w| ≤ (X + e) * (u * w + η) := by
    rw [← mul_sub, abs_mul]
    exact mul_le_mul hx h2 (abs_nonneg _) hXe
  have a3 : |x * w - y * w| ≤ e * w := by
    rw [← sub_mul, abs_mul, abs_of_nonneg hw]
    exact mul_le_mul_of_nonneg_right hxy hw
  have t1 := abs_sub_le (R.fl (x * R.fl w)) (x * R.fl w) (y * w)
  have t2 := abs_sub_le (x * R.fl w) (x * w) (y * w)
  have t3 := mul_le_mul_of_nonneg_left a1 hu
  have : w * ((2 * u + u ^ 2) * (X + e) + e) + η * (1 + (1 + u) * (X + e)) =
      u * ((X + e) * ((1 + u) * w + η)) + η + (X + e) * (u * w + η) + e * w := by ring
  rw [this]
  linarith

/-- sums of the terms -/
theorem terms_error {R : Rounding K} {u η : K} (A : R.Accurate u η) (X e D : K) (hD : 0 < D) (l l' : List (K × K)) (hpos : ∀ x ∈ l, 0 < x.2)
    (h : List.Forall₂ (fun x y => (|x.1 - y.1| ≤ e ∧ |y.1| ≤ X) ∧ x.2 = y.2) l l') :
    |(l.map (fun x => R.fl (x.1 * R.fl (x.2 / D)))).sum - (l'.map (fun x => x.1 * (x.2 / D))).sum| ≤
        (l.map (·.2)).sum / D * ((2 * u + u ^ 2) * (X + e) + e) + l.length * (η * (1 + (1 + u) * (X + e))) ∧
      ((l.map (fun x => R.fl (x.1 * R.fl (x.2 / D)))).map (|·|)).sum ≤
        (l.map (·.2)).sum / D * (X + ((2 * u + u ^ 2) * (X + e) + e)) + l.length * (η * (1 + (1 + u) * (X + e))) := by
  induction h with
  | nil => simp
  | @cons x y l l' h _ ih =>
    obtain ⟨i1, i2⟩ := ih (fun x hx => hpos x (by simp [hx]))
    have hw : 0 ≤ x.2 / D := (div_pos (hpos x (by simp)) hD).le
    have ht := term_error A x.1 y.1 (x.2 / D) X e h.1.2 h.1.1 hw
    have hy : |y.1 * (x.2 / D)| ≤ X * (x.2 / D) := by
      rw [abs_mul, abs_of_nonneg hw]
      exact mul_le_mul_of_nonneg_right h.1.2 hw
    simp only [List.map_cons, List.sum_cons, List.length_cons, Nat.cast_add, Nat.cast_one] at i1 i2 ⊢
    rw [← h.2]
    generalize R.fl (x.1 * R.fl (x.2 / D)) = p at *
    generalize (2 * u + u ^ 2) * (X + e) + e = B at *
    generalize η * (1 + (1 + u) * (X + e)) = C at *
    rw [add_div, add_mul, add_mul]
    constructor
    · have := abs_add_le (p - y.1 * (x.2 / D)) ((l.map (fun x => R.fl (x.1 * R.fl (x.2 / D)))).sum - (l'.map (fun x => x.1 * (x.2 / D))).sum)
      rw [show p - y.1 * (x.2 / D) + ((l.map (fun x => R.fl (x.1 * R.fl (x.2 / D)))).sum - (l'.map (fun x => x.1 * (x.2 / D))).sum) =
        p + (l.map (fun x => R.fl (x.1 * R.fl (x.2 / D)))).sum - (y.1 * (x.2 / D) + (l'.map (fun x => x.1 * (x.2 / D))).sum) by ring] at this
      linarith
    · have hp : |p| ≤ |p - y.1 * (x.2 / D)| + |y.1 * (x.2 / D)| := by simpa using abs_add_le (p - y.1 * (x.2 / D)) (y.1 * (x.2 / D))
      rw [add_mul] at *
      linarith

/-- the bound for a weighted sum of up to `M` means of up to `N` numbers of absolute value up to `X` -/
def climBound (u η : K) (N M : ℕ) (X : K) : K :=
  (1 + u) ^ M * ((1 + u) ^ 2 * ((1 + u) ^ N * X + η) + M * (η * (1 + (1 + u) * ((1 + u) ^ N * X + η)))) - X

theorem float_arith_rel {R : Rounding K} {u η : K} (A : R.Accurate u η) {sum : List K → K} (hs : AddsUp R sum) (N M : ℕ) (X : K) (hX : 0 ≤ X) :
    ArithRel (floatArith R sum) exactArith N M (fun x y => x = y ∧ R.rep x ∧ |x| ≤ X) (fun x y => |x - y| ≤ (1 + u) ^ N * X + η - X ∧ |y| ≤ X)
      (fun x y => |x - y| ≤ climBound u η N M X) := by
  have hu := A.u_nonneg
  have hη := A.eta_nonneg
  have hN1 : (1 : K) ≤ (1 + u) ^ N := one_le_pow₀ (by linarith)
  have hM1 : (1 : K) ≤ (1 + u) ^ M := one_le_pow₀ (by linarith)
  have hX' : X ≤ (1 + u) ^ N * X + η := by nlinarith
  constructor
  · intro l l' hl hN h
    have e : l = l' := by
      clear hl hN
      induction h with
      | nil => rfl
      | cons h _ ih => rw [h.1, ih]
    subst e
    have hall : ∀ a ∈ l, R.rep a ∧ |a| ≤ X := by
      clear hl hN
      intro a ha
      obtain ⟨i, hi⟩ := List.mem_iff_getElem?.mp ha
      have := (List.forall₂_iff_get.mp h).2 i (by rw [List.getElem?_eq_some_iff] at hi; exact hi.1) (by rw [List.getElem?_eq_some_iff] at hi; exact hi.1)
      rw [List.getElem?_eq_some_iff] at hi
      obtain ⟨hlt, rfl⟩ := hi
      exact this.2
    have := addsUp_mean_error A hs l hl X N hall hN
    refine ⟨le_trans this.1 (by linarith), this.2⟩
  · intro D l l' hM hpos hD h
    change |sum (l.map (fun x => R.fl (x.1 * R.fl (x.2 / D)))) - (l'.map (fun x => x.1 * (x.2 / D))).sum| ≤ _
    have hE : 0 ≤ climBound u η N M X := by
      unfold climBound
      have h1 : 0 ≤ (M : K) * (η * (1 + (1 + u) * ((1 + u) ^ N * X + η))) :=
        mul_nonneg (Nat.cast_nonneg _) (mul_nonneg hη (by positivity))
      have h2 : X ≤ (1 + u) ^ 2 * ((1 + u) ^ N * X + η) := by nlinarith [sq_nonneg u]
      nlinarith
    by_cases hnil : l = []
    · subst hnil
      cases h
      simpa [hs.1] using hE
    have hDpos : 0 < D := by
      refine lt_of_lt_of_le ?_ hD
      cases l with
      | nil => exact absurd rfl hnil
      | cons a t =>
        rw [List.map_cons, List.sum_cons]
        have h1 := hpos a (by simp)
        have h2 : 0 ≤ (t.map (·.2)).sum := List.sum_nonneg (fun y hy => by
          obtain ⟨b, hb, rfl⟩ := List.mem_map.mp hy
          exact (hpos b (by simp [hb])).le)
        linarith
    obtain ⟨b1, b2⟩ := terms_error A X ((1 + u) ^ N * X + η - X) D hDpos l l' hpos h
    have b3 := addsUp_error A hs (l.map (fun x => R.fl (x.1 * R.fl (x.2 / D)))) (fun a ha => by
      obtain ⟨x, -, rfl⟩ := List.mem_map.mp ha; exact R.rep_fl _)
    rw [List.length_map] at b3
    have hS : (l.map (·.2)).sum / D ≤ 1 := (div_le_one hDpos).mpr hD
    have hG : (1 + u) ^ (l.length - 1) ≤ (1 + u) ^ M := pow_le_pow_right₀ (by linarith) (by omega)
    have hG1 : (1 : K) ≤ (1 + u) ^ (l.length - 1) := one_le_pow₀ (by linarith)
    have hk : (l.length : K) ≤ M := by exact_mod_cast hM
    rw [show X + ((1 + u) ^ N * X + η - X) = (1 + u) ^ N * X + η by ring] at b1 b2
    unfold climBound
    generalize (1 + u) ^ N * X + η = X' at *
    have hX0 : 0 ≤ X' := hX.trans hX'
    have hC : 0 ≤ η * (1 + (1 + u) * X') := mul_nonneg hη (by positivity)
    generalize η * (1 + (1 + u) * X') = C at *
    have hB : 0 ≤ (2 * u + u ^ 2) * X' + (X' - X) := by
      have : 0 ≤ (2 * u + u ^ 2) * X' := by positivity
      linarith
    have eB : (1 + u) ^ 2 * X' = X + ((2 * u + u ^ 2) * X' + (X' - X)) := by ring
    rw [eB]
    generalize (2 * u + u ^ 2) * X' + (X' - X) = B at *
    generalize (l.map (·.2)).sum / D = S at *
    generalize (l.map (fun x => R.fl (x.1 * R.fl (x.2 / D)))) = ps at *
    generalize (l'.map (fun x => x.1 * (x.2 / D))).sum = q at *
    have c1 : S * B ≤ B := by nlinarith
    have c2 : S * (X + B) ≤ X + B := by nlinarith
    have c3 : (l.length : K) * C ≤ M * C := mul_le_mul_of_nonneg_right hk hC
    have c4 : (ps.map (|·|)).sum ≤ X + B + M * C := by linarith
    have c5 : 0 ≤ (ps.map (|·|)).sum := List.sum_nonneg (by simp)
    have c6 := mul_le_mul (show (1 + u) ^ (l.length - 1) - 1 ≤ (1 + u) ^ M - 1 by linarith) c4 c5 (by linarith)
    have t := abs_sub_le (sum ps) ps.sum q
    have : (1 + u) ^ M * (X + B + M * C) - X = B + M * C + ((1 + u) ^ M - 1) * (X + B + M * C) := by ring
    rw [this]
    linarith

theorem climBound_float64 {u η : K} (hu : 0 ≤ u) (hη : 0 ≤ η) (hη1 : η ≤ 1 / 4) (N M : ℕ) (hM : 1 ≤ M) (hs : 2 * ((N + M + 2 : ℕ) : K) * u ≤ 1) (X : K) (hX : 0 ≤ X) :
    climBound u η N M X ≤ 2 * (N + M + 2) * u * X + 6 * M * η * (1 + X) := by
  have hp : ∀ k : ℕ, k ≤ N + M + 2 → (1 + u) ^ k ≤ 2 := by
    intro k hk
    have h1 : (1 + u) ^ k ≤ (1 + u) ^ (N + M + 2) := pow_le_pow_right₀ (by linarith) hk
    have h2 := pow_le_linear hu (N + M + 2) hs
    linarith
  have hmain := pow_le_linear hu (N + M + 2) hs
  have e : climBound u η N M X = ((1 + u) ^ (N + M + 2) - 1) * X + (1 + u) ^ (M + 2) * η + M * η * ((1 + u) ^ M + (1 + u) ^ (M + N + 1) * X + (1 + u) ^ (M + 1) * η) := by
    unfold climBound; ring
  rw [e]
  push_cast at hmain
  have a1 : ((1 + u) ^ (N + M + 2) - 1) * X ≤ 2 * (N + M + 2) * u * X := mul_le_mul_of_nonneg_right (by linarith) hX
  have a2 := mul_le_mul_of_nonneg_right (hp (M + 2) (by omega)) hη
  have b1 := hp M (by omega)
  have b2 := mul_le_mul_of_nonneg_right (hp (M + N + 1) (by omega)) hX
  have b3 := mul_le_mul_of_nonneg_right (hp (M + 1) (by omega)) hη
  have hMη : 0 ≤ (M : K) * η := mul_nonneg (Nat.cast_nonneg _) hη
  have a3 := mul_le_mul_of_nonneg_left (show (1 + u) ^ M + (1 + u) ^ (M + N + 1) * X + (1 + u) ^ (M + 1) * η ≤ 4 + 2 * X by linarith) hMη
  have hM1 : (1 : K) ≤ M := by exact_mod_cast hM
  have a4 : η ≤ M * η := by nlinarith
  have a5 : 0 ≤ (M : K) * η * X := mul_nonneg hMη hX
  nlinarith

/-- every value of the data can be stored, and is at most `X` in absolute value -/
def StoredUpTo (R : Rounding K) (X : K) (s : Series K) : Prop := ∀ e ∈ s.samples, ∀ c x, e.val c = some x → R.rep x ∧ |x| ≤ X

/-- two versions of a result: the same labels and missing values -/
def SameLabels (a b : Except PyErr (List (Entry K))) : Prop := OutRel (List.Forall₂ (EntryRel (fun _ _ => True))) a b

theorem entries_self {ρ : K → K → Prop} (l : List (Entry K)) (h : ∀ e ∈ l, ∀ c x, e.val c = some x → ρ x x) : List.Forall₂ (EntryRel ρ) l l := by
  rw [List.forall₂_same]
  intro e he
  refine ⟨rfl, fun c => ?_⟩
  cases hv : e.val c with
  | none => exact trivial
  | some x => exact h e he c x hv

theorem series_self {ρ : K → K → Prop} (s : Series K) (h : ∀ e ∈ s.samples, ∀ c x, e.val c = some x → ρ x x) : SeriesRel ρ s s :=
  ⟨rfl, rfl, entries_self _ h⟩

theorem trivial_rel (A A' : ClimArith K) (N M : ℕ) : ArithRel A A' N M (fun _ _ => True) (fun _ _ => True) (fun _ _ => True) :=
  ⟨fun _ _ _ _ _ => trivial, fun _ _ _ _ _ _ _ => trivial⟩

theorem months_bounded (cal : Cal) (A : ClimArith K) (s : Series K) (k0 : ℤ) (M : ℕ) (h : ∀ e ∈ s.samples, k0 ≤ cal.monthOf e.key ∧ cal.monthOf e.key < k0 + M)
    (months : List ℤ) : (dropna s.ncell (meanEachBy A (bins cal.monthOf (s.samples.filter (fun e => cal.month e.key ∈ months))))).length ≤ M := by
  unfold dropna
  refine (List.length_filter_le _ _).trans ?_
  unfold meanEachBy
  rw [List.length_map]
  unfold bins
  split
  · rename_i a z ha hz
    rw [List.length_map, periodRange_length]
    have h1 := h a (List.mem_filter.mp (List.mem_of_head? ha)).1
    have h2 := h z (List.mem_filter.mp (List.mem_of_getLast? hz)).1
    omega
  · simp

theorem months_exist (cal : Cal) (l : List (Entry K)) : ∃ (k0 : ℤ) (M : ℕ), ∀ e ∈ l, k0 ≤ cal.monthOf e.key ∧ cal.monthOf e.key < k0 + M := by
  induction l with
  | nil => exact ⟨0, 0, by simp⟩
  | cons a l ih =>
    obtain ⟨k0, M, h⟩ := ih
    refine ⟨min k0 (cal.monthOf a.key), ((max (k0 + M) (cal.monthOf a.key + 1)) - min k0 (cal.monthOf a.key)).toNat, ?_⟩
    intro e he
    rcases List.mem_cons.mp he with rfl | he
    · omega
    · have := h e he
      omega

/-- **C159** Rounding never changes which calls succeed, which periods are returned, how they are labelled and which values are missing. -/
theorem C159_labels (R : Rounding K) (sum : List K → K) (cal : Cal) (infer : InferFreq) (freq season : String) (custom : List String) (s : Series K) :
    SameLabels (calendarAverageBy (floatArith R sum) cal infer freq s) (calendarAverage cal infer freq s) ∧
    OutRel (ClimRel (fun _ _ => True)) (climatologyAverageBy (floatArith R sum) cal infer freq custom s) (climatologyAverage cal infer freq custom s) ∧
    SameLabels (monthToSeasonBy (floatArith R sum) cal season s) (monthToSeason cal season s) := by
  rw [← calendar_exact, ← climatology_exact, ← monthToSeason_exact]
  have hs : SeriesRel (fun _ _ => True) s s := series_self s (fun _ _ _ _ _ => trivial)
  obtain ⟨k0, M, hM⟩ := months_exist cal s.samples
  refine ⟨?_, ?_, ?_⟩
  · exact rel_calendar (trivial_rel _ _ s.samples.length 12) cal infer freq hs (fun _ _ _ => List.length_filter_le _ _) _ (fun _ _ h => h) (fun _ _ h => h)
  · exact rel_climatology (trivial_rel _ _ s.samples.length M) cal infer freq custom hs (fun _ _ _ _ => List.length_filter_le _ _) (fun _ => List.length_filter_le _ _)
      (months_bounded cal _ s k0 M hM) _ (fun _ _ h => h) (fun _ _ h => h)
  · exact rel_monthToSeason (trivial_rel _ _ s.samples.length 0) cal season hs (fun _ _ => List.length_filter_le _ _)

/-- the order of the additions depends on the number of values only, not on the values: larger values never add up to less -/
def KeepsOrder (sum : List K → K) : Prop := ∀ l l', List.Forall₂ (· ≤ ·) l l' → sum l ≤ sum l'

theorem order_rel (R : Rounding K) (sum : List K → K) (hm : KeepsOrder sum) (N M : ℕ) :
    ArithRel (floatArith R sum) (floatArith R sum) N M (· ≤ ·) (· ≤ ·) (· ≤ ·) := by
  constructor
  · intro l l' _ _ h
    change R.fl (sum l / l.length) ≤ R.fl (sum l' / l'.length)
    rw [h.length_eq]
    exact R.mono _ _ (div_le_div_of_nonneg_right (hm _ _ h) (Nat.cast_nonneg _))
  · intro D l l' hlen hpos hD h
    change sum _ ≤ sum _
    refine hm _ _ ?_
    by_cases hnil : l = []
    · subst hnil; cases h; exact .nil
    have hD0 : 0 ≤ D := le_trans (List.sum_nonneg (fun y hy => by obtain ⟨b, hb, rfl⟩ := List.mem_map.mp hy; exact (hpos b hb).le)) hD
    rw [List.forall₂_map_left_iff, List.forall₂_map_right_iff]
    have : List.Forall₂ (fun x y : K × K => (x.1 ≤ y.1 ∧ x.2 = y.2) ∧ 0 < x.2) l l' := by
      clear hD hnil hlen
      induction h with
      | nil => exact .nil
      | @cons a b l l' h _ ih => exact .cons ⟨h, hpos a (by simp)⟩ (ih (fun x hx => hpos x (by simp [hx])))
    refine this.imp (fun x y h => ?_)
    rw [← h.1.2]
    exact R.mono _ _ (mul_le_mul_of_nonneg_right h.1.1 (R.fl_nonneg (div_nonneg h.2.le hD0)))

/-- **C159** Also in floating-point arithmetic larger data never have a smaller average: if `s'` has the time stamps and missing values of `s` and nowhere
a smaller value, then the averages of `s'` are nowhere smaller. In particular data that are nowhere negative have no negative average. -/
theorem C159_order (R : Rounding K) (sum : List K → K) (hm : KeepsOrder sum) (cal : Cal) (infer : InferFreq) (freq season : String) (custom : List String)
    (s s' : Series K) (hs : SeriesRel (· ≤ ·) s s') :
    OutRel (List.Forall₂ (EntryRel (· ≤ ·))) (calendarAverageBy (floatArith R sum) cal infer freq s) (calendarAverageBy (floatArith R sum) cal infer freq s') ∧
    OutRel (ClimRel (· ≤ ·)) (climatologyAverageBy (floatArith R sum) cal infer freq custom s) (climatologyAverageBy (floatArith R sum) cal infer freq custom s') ∧
    OutRel (List.Forall₂ (EntryRel (· ≤ ·))) (monthToSeasonBy (floatArith R sum) cal season s) (monthToSeasonBy (floatArith R sum) cal season s') := by
  obtain ⟨k0, M, hM⟩ := months_exist cal s.samples
  refine ⟨?_, ?_, ?_⟩
  · exact rel_calendar (order_rel R sum hm s.samples.length 12) cal infer freq hs (fun _ _ _ => List.length_filter_le _ _) _ (fun _ _ h => h) (fun _ _ h => h)
  · exact rel_climatology (order_rel R sum hm s.samples.length M) cal infer freq custom hs (fun _ _ _ _ => List.length_filter_le _ _) (fun _ => List.length_filter_le _ _)
      (months_bounded cal _ s k0 M hM) _ (fun _ _ h => h) (fun _ _ h => h)
  · exact rel_monthToSeason (order_rel R sum hm s.samples.length 0) cal season hs (fun _ _ => List.length_filter_le _ _)

section float64
variable [FloorRing K]

/-- the bound in float64 for a mean of up to `N` numbers of absolute value up to `X` -/
def meanBound (N : ℕ) (X : K) : K := 2 * N * 2 ^ (-53 : ℤ) * X + 2 ^ (-1075 : ℤ)

/-- the bound in float64 for a weighted sum of up to `M` such means -/
def float64Bound (N M : ℕ) (X : K) : K := 2 * (N + M + 2) * 2 ^ (-53 : ℤ) * X + 6 * M * 2 ^ (-1075 : ℤ) * (1 + X)

theorem half_bits (n : ℕ) (hn : n ≤ 2 ^ 52) : 2 * (n : K) * 2 ^ (-53 : ℤ) ≤ 1 := by
  have h : (n : K) ≤ 2 ^ 52 := by exact_mod_cast hn
  have e : (2 : K) ^ (-53 : ℤ) = 1 / 2 ^ 53 := by rw [zpow_neg]; norm_num
  rw [e]
  have : (0 : K) < 1 / 2 ^ 53 := by positivity
  calc 2 * (n : K) * (1 / 2 ^ 53) ≤ 2 * 2 ^ 52 * (1 / 2 ^ 53) := by gcongr
    _ = 1 := by norm_num

theorem mean_bound (N : ℕ) (hN : N ≤ 2 ^ 52) (X : K) (hX : 0 ≤ X) :
    (1 + 2 ^ (-53 : ℤ)) ^ N * X + 2 ^ (-1075 : ℤ) - X ≤ meanBound N X := by
  unfold meanBound
  have hb := half_bits (K := K) N hN
  have hu : (0 : K) ≤ 2 ^ (-53 : ℤ) := by positivity
  generalize (2 : K) ^ (-53 : ℤ) = u at *
  generalize (2 : K) ^ (-1075 : ℤ) = η at *
  have h := mul_le_mul_of_nonneg_right (pow_le_linear hu N hb) hX
  linarith

theorem mean_le_weighted (N M : ℕ) (hM : 1 ≤ M) (X : K) (hX : 0 ≤ X) : meanBound N X ≤ float64Bound N M X := by
  unfold meanBound float64Bound
  have hu : (0 : K) ≤ 2 ^ (-53 : ℤ) := by positivity
  have hη : (0 : K) ≤ 2 ^ (-1075 : ℤ) := by positivity
  generalize (2 : K) ^ (-53 : ℤ) = u at *
  generalize (2 : K) ^ (-1075 : ℤ) = η at *
  have hM1 : (1 : K) ≤ M := by exact_mod_cast hM
  have h1 : 0 ≤ (M + 2) * (u * X) := by positivity
  have h2 : η ≤ M * η := by nlinarith
  have h3 : 0 ≤ (M : K) * η * X := by positivity
  have h4 : 0 ≤ (M : K) * η := by positivity
  nlinarith

theorem weighted_bound (N M : ℕ) (hM : 1 ≤ M) (hNM : N + M + 2 ≤ 2 ^ 52) (X : K) (hX : 0 ≤ X) :
    climBound (2 ^ (-53 : ℤ)) (2 ^ (-1075 : ℤ)) N M X ≤ float64Bound N M X := by
  refine climBound_float64 (by positivity) (by positivity) ?_ N M hM (half_bits _ hNM) X hX
  calc (2 : K) ^ (-1075 : ℤ) ≤ 2 ^ (-2 : ℤ) := zpow_le_zpow_right₀ (by norm_num) (by norm_num)
    _ = 1 / 4 := by rw [zpow_neg]; norm_num

/-- the numbers of two results differ by at most `b` -/
def Within (b : K) (x y : K) : Prop := |x - y| ≤ b

theorem stored_rel {R : Rounding K} {X : K} {s : Series K} (h : StoredUpTo R X s) : SeriesRel (fun x y => x = y ∧ R.rep x ∧ |x| ≤ X) s s :=
  series_self s (fun e he c x hx => ⟨rfl, h e he c x hx⟩)

/-- **C159** `calendar_average` in float64: with data of absolute value up to `X` of which no more than `N` fall into one averaging period (for the
seasonal and yearly averages: into one month) every number returned is within `2 (N + 14) 2^-53 X` of the exact average, up to the smallest number. -/
theorem C159_calendar_accuracy (sum : List K → K) (hsum : AddsUp float64 sum) (cal : Cal) (infer : InferFreq) (freq : String) (s : Series K)
    (N : ℕ) (hN : N + 14 ≤ 2 ^ 52) (X : K) (hX : 0 ≤ X) (hst : StoredUpTo float64 X s)
    (hcount : ∀ p b, calendarPeriod freq = .ok p → (s.samples.filter (fun e => periodOf cal (if p = .season ∨ p = .year then .month else p) e.key = b)).length ≤ N) :
    OutRel (List.Forall₂ (EntryRel (Within (2 * (N + 14) * 2 ^ (-53 : ℤ) * X + 72 * 2 ^ (-1075 : ℤ) * (1 + X)))))
      (calendarAverageBy (floatArith float64 sum) cal infer freq s) (calendarAverage cal infer freq s) := by
  rw [← calendar_exact]
  have e : 2 * ((N : K) + 14) * 2 ^ (-53 : ℤ) * X + 72 * 2 ^ (-1075 : ℤ) * (1 + X) = float64Bound N 12 X := by
    unfold float64Bound
    generalize (2 : K) ^ (-53 : ℤ) = u
    generalize (2 : K) ^ (-1075 : ℤ) = η
    push_cast
    ring
  rw [e]
  exact rel_calendar (float_arith_rel float64_accurate hsum N 12 X hX) cal infer freq (stored_rel hst) hcount _
    (fun x y h => (h.1.trans (mean_bound N (by omega) X hX)).trans (mean_le_weighted N 12 (by norm_num) X hX))
    (fun x y h => h.trans (weighted_bound N 12 (by norm_num) (by omega) X hX))

/-- **C159** `climatology_average` in float64, for a record spanning `M` months no more than `N` of whose samples are averaged at a time. -/
theorem C159_climatology_accuracy (sum : List K → K) (hsum : AddsUp float64 sum) (cal : Cal) (infer : InferFreq) (freq : String) (custom : List String)
    (s : Series K) (N M : ℕ) (hM : 1 ≤ M) (hNM : N + M + 2 ≤ 2 ^ 52) (X : K) (hX : 0 ≤ X) (hst : StoredUpTo float64 X s)
    (hcount : ∀ p b, climatologyPeriod freq = .ok p → p ≠ .season → (s.samples.filter (fun e => stampKey cal p e.key = b)).length ≤ N)
    (hmonth : ∀ b, (s.samples.filter (fun e => cal.monthOf e.key = b)).length ≤ N)
    (k0 : ℤ) (hspan : ∀ e ∈ s.samples, k0 ≤ cal.monthOf e.key ∧ cal.monthOf e.key < k0 + M) :
    OutRel (ClimRel (Within (2 * (N + M + 2) * 2 ^ (-53 : ℤ) * X + 6 * M * 2 ^ (-1075 : ℤ) * (1 + X))))
      (climatologyAverageBy (floatArith float64 sum) cal infer freq custom s) (climatologyAverage cal infer freq custom s) := by
  rw [← climatology_exact]
  exact rel_climatology (float_arith_rel float64_accurate hsum N M X hX) cal infer freq custom (stored_rel hst) hcount hmonth
    (months_bounded cal _ s k0 M hspan) _
    (fun x y h => (h.1.trans (mean_bound N (by omega) X hX)).trans (mean_le_weighted N M hM X hX))
    (fun x y h => h.trans (weighted_bound N M hM hNM X hX))

/-- **C159** `month_to_season` in float64. -/
theorem C159_season_accuracy (sum : List K → K) (hsum : AddsUp float64 sum) (cal : Cal) (season : String) (s : Series K)
    (N : ℕ) (hN : N ≤ 2 ^ 52) (X : K) (hX : 0 ≤ X) (hst : StoredUpTo float64 X s)
    (hcount : ∀ a b, (s.samples.filter (fun e => quarterOf a (cal.monthOf e.key) = b)).length ≤ N) :
    OutRel (List.Forall₂ (EntryRel (Within (2 * N * 2 ^ (-53 : ℤ) * X + 2 ^ (-1075 : ℤ)))))
      (monthToSeasonBy (floatArith float64 sum) cal season s) (monthToSeason cal season s) := by
  rw [← monthToSeason_exact]
  have h := rel_monthToSeason (float_arith_rel float64_accurate hsum N 0 X hX) cal season (stored_rel hst) hcount
  revert h
  generalize monthToSeasonBy (floatArith float64 sum) cal season s = a
  generalize monthToSeasonBy exactArith cal season s = b
  intro h
  cases a with
  | error e => cases b with
    | error e' => exact h
    | ok b => exact h
  | ok a => cases b with
    | error e' => exact h
    | ok b =>
      refine List.Forall₂.imp (fun x y hxy => ⟨hxy.1, fun c => ?_⟩) h
      have := hxy.2 c
      revert this
      generalize x.val c = v
      generalize y.val c = w
      intro this
      cases v with
      | none => cases w with
        | none => exact this
        | some w => exact this
      | some v => cases w with
        | none => exact this
        | some w => exact this.1.trans (mean_bound N hN X hX)

end float64

theorem keepsOrder_leftSum (R : Rounding K) : KeepsOrder (leftSum R) := by
  intro l l' h
  cases h with
  | nil => exact le_refl _
  | @cons a b l l' h ht =>
    change l.foldl (fun a y => R.fl (a + y)) a ≤ l'.foldl (fun a y => R.fl (a + y)) b
    induction ht generalizing a b with
    | nil => exact h
    | cons h' _ ih => exact ih (R.mono _ _ (add_le_add h h'))

/-- every value that is not missing is `c` -/
def ConstantSeries (c : K) (s : Series K) : Prop := ∀ e ∈ s.samples, ∀ i x, e.val i = some x → x = c

/-- every value of a result that is not missing is `c` -/
def AllEqual (c : K) (l : List (Entry K)) : Prop := ∀ e ∈ l, ∀ i, e.val i = none ∨ e.val i = some c

theorem tree_constant (R : Rounding K) (c : K) (N : ℕ) (hrep : ∀ k : ℕ, k ≤ N → R.rep (k * c)) (t : SumTree K) (ht : ∀ x ∈ t.list, x = c)
    (hN : t.list.length ≤ N) : t.sumFl R = t.list.length * c := by
  induction t with
  | leaf x => simp only [SumTree.list, List.mem_singleton, forall_eq] at ht; simp [SumTree.sumFl, SumTree.list, ht]
  | node a b iha ihb =>
    simp only [SumTree.list, List.length_append, List.mem_append] at ht hN ⊢
    rw [SumTree.sumFl, iha (fun x hx => ht x (.inl hx)) (by omega), ihb (fun x hx => ht x (.inr hx)) (by omega), ← add_mul, ← Nat.cast_add]
    exact R.fl_of_rep _ (hrep _ hN)

theorem constant_rel (R : Rounding K) (sum : List K → K) (hs : AddsUp R sum) (c : K) (N M : ℕ) (hrep : ∀ k : ℕ, k ≤ N → R.rep (k * c)) :
    ArithRel (floatArith R sum) (floatArith R sum) N M (fun x y => x = c ∧ y = c) (fun x y => x = c ∧ y = c) (fun _ _ => True) := by
  have key : ∀ l : List K, l ≠ [] → l.length ≤ N → (∀ x ∈ l, x = c) → R.fl (sum l / l.length) = c := by
    intro l hl hN h
    obtain ⟨t, ht, e⟩ := hs.2 l hl
    have hlen : (l.length : K) ≠ 0 := by rw [Nat.cast_ne_zero]; exact fun h0 => hl (List.length_eq_zero_iff.mp h0)
    rw [e, tree_constant R c N hrep t (fun x hx => h x (ht.mem_iff.mp hx)) (ht.length_eq ▸ hN), ht.length_eq, mul_div_cancel_left₀ _ hlen]
    have h1 : 1 ≤ N := le_trans (List.length_pos_iff.mpr hl) hN
    simpa using R.fl_of_rep _ (hrep 1 h1)
  constructor
  · intro l l' hl hN h
    have hl' : l' ≠ [] := fun h0 => hl (by subst h0; cases h; rfl)
    have h2 : l'.length ≤ N := h.length_eq ▸ hN
    refine ⟨key l hl hN ?_, key l' hl' h2 ?_⟩
    · clear hl hN hl' h2
      induction h with
      | nil => simp
      | cons h _ ih => intro x hx; rcases List.mem_cons.mp hx with rfl | hx; exacts [h.1, ih x hx]
    · clear hl hN hl' h2
      induction h with
      | nil => simp
      | cons h _ ih => intro x hx; rcases List.mem_cons.mp hx with rfl | hx; exacts [h.2, ih x hx]
  · exact fun _ _ _ _ _ _ _ => trivial

theorem rel_allEqual {c : K} {l l' : List (Entry K)} (h : List.Forall₂ (EntryRel (fun x y => x = c ∧ y = c)) l l') : AllEqual c l := by
  induction h with
  | nil => simp [AllEqual]
  | @cons a b l l' h _ ih =>
    intro e he i
    rcases List.mem_cons.mp he with rfl | he
    · have := h.2 i
      revert this
      generalize e.val i = v
      generalize b.val i = w
      intro this
      cases v with
      | none => exact .inl rfl
      | some v => cases w with
        | none => exact this.elim
        | some w => exact .inr (by rw [this.1])
    · exact ih e he i

/-- **C160** Hourly, daily and monthly averages and climatologies, and the result of `month_to_season`, of a constant are that constant, in
floating-point arithmetic too, if the multiples of the constant up to the number of samples averaged can be stored. (Full property: also for every
other constant and for seasonal and yearly averages; that is false, see `C160_counterexample`.) -/
theorem C160_constant_partial (R : Rounding K) (sum : List K → K) (hsum : AddsUp R sum) (cal : Cal) (infer : InferFreq) (freq season : String)
    (custom : List String) (s : Series K) (c : K) (hc : ConstantSeries c s) (hrep : ∀ k : ℕ, k ≤ s.samples.length → R.rep (k * c)) :
    (∀ l, calendarPeriod freq ≠ .ok .season → calendarPeriod freq ≠ .ok .year → calendarAverageBy (floatArith R sum) cal infer freq s = .ok l → AllEqual c l) ∧
    (∀ l, climatologyPeriod freq ≠ .ok .season → climatologyAverageBy (floatArith R sum) cal infer freq custom s = .ok (.times l) → AllEqual c l) ∧
    (∀ l, monthToSeasonBy (floatArith R sum) cal season s = .ok l → AllEqual c l) := by
  have hs : SeriesRel (fun x y => x = c ∧ y = c) s s := series_self s (fun e he i x hx => ⟨hc e he i x hx, hc e he i x hx⟩)
  obtain ⟨k0, M, hM⟩ := months_exist cal s.samples
  refine ⟨?_, ?_, ?_⟩
  · intro l h1 h2 hl
    have := rel_calendarP (constant_rel R sum hsum c s.samples.length 12 hrep) cal infer freq hs (fun _ _ _ => List.length_filter_le _ _) (fun x y => x = c ∧ y = c)
      (fun _ _ _ _ _ h => h) (fun p hp h => by rcases h with rfl | rfl; exacts [absurd hp h1, absurd hp h2])
    rw [hl] at this
    exact rel_allEqual this
  · intro l hp hl
    have := rel_climatologyP (constant_rel R sum hsum c s.samples.length M hrep) cal infer freq custom hs (fun _ _ _ _ => List.length_filter_le _ _) (fun _ => List.length_filter_le _ _)
      (months_bounded cal _ s k0 M hM) (fun x y => x = c ∧ y = c) (fun _ _ _ _ _ h => h) (fun h => absurd h hp)
    rw [hl] at this
    exact rel_allEqual this
  · intro l hl
    have := rel_monthToSeason (constant_rel R sum hsum c s.samples.length 0 hrep) cal season hs (fun _ _ => List.length_filter_le _ _)
    rw [hl] at this
    exact rel_allEqual this

section examples

/-- a year of monthly data of one grid cell with the same value every month, in a calendar without leap days -/
def constantYear (x : ℚ) : Series ℚ := ⟨1, (List.range 12).map (fun i : ℕ => ⟨Cal.noleap.monthStart (24240 + i), fun _ => some x⟩), true⟩

/-- the numbers in the first cell of a result of `climatology_average` -/
def climNumbers : ClimOut ℚ → List (Option ℚ)
  | .seasons l => l.map (fun e => e.2 0)
  | .times l => l.map (fun e => e.val 0)

/-- the data are stored numbers up to 1 and no month has two of them -/
theorem constantYear_stored : StoredUpTo float64 1 (constantYear 1) := by
  intro e he c x hx
  simp only [constantYear, List.mem_map] at he
  obtain ⟨i, -, rfl⟩ := he
  simp only [Option.some.injEq] at hx
  subst hx
  exact ⟨float64.rep_one, by norm_num⟩

/-- **C160** The full property is false: the yearly average of the number 1 in all twelve months is 1 - 2^-53, below all of the data, and the JJA
average of the stored number nearest to 0.1 is 0.10000000000000002, above all of the data. -/
theorem C160_counterexample :
    ((calendarAverageBy (floatArith float64 (leftSum float64)) Cal.noleap (fun _ => .ok true) "year" (constantYear 1)).toOption.map
      (fun l => l.map (fun e => e.val 0)) = some [some (1 - 1 / 2 ^ 53)]) ∧
    ((monthToSeasonBy (floatArith float64 (leftSum float64)) Cal.noleap "JJA" (constantYear (3602879701896397 / 2 ^ 55))).toOption.map
      (fun l => l.map (fun e => e.val 0)) = some [some (3602879701896397 / 2 ^ 55 + 1 / 2 ^ 56)]) ∧
    (float64.fl (1 / 10 : ℚ) = 3602879701896397 / 2 ^ 55) := by
  decide +kernel

-- the bound of `C159_calendar_accuracy` holds of that average: 52 rounding errors are allowed, there is one
example : OutRel (List.Forall₂ (EntryRel (Within (2 * (((12 : ℕ) : ℚ) + 14) * 2 ^ (-53 : ℤ) * 1 + 72 * 2 ^ (-1075 : ℤ) * (1 + 1)))))
    (calendarAverageBy (floatArith float64 (leftSum float64)) Cal.noleap (fun _ => .ok true) "year" (constantYear 1))
    (calendarAverage Cal.noleap (fun _ => .ok true) "year" (constantYear 1)) :=
  C159_calendar_accuracy (leftSum float64) (leftSum_addsUp float64) Cal.noleap _ "year" (constantYear 1) 12 (by norm_num) 1 (by norm_num) constantYear_stored
    (fun _ _ _ => List.length_filter_le _ (constantYear 1).samples)

-- the data average to numbers, not to errors
example : (climatologyAverageBy (floatArith float64 (leftSum float64)) Cal.noleap (fun _ => .ok true) "season" [] (constantYear 1)).toOption.map climNumbers =
    some [some 1, some 1, some 1, some 1] ∧
    (climatologyAverageBy (floatArith float64 (leftSum float64)) Cal.noleap (fun _ => .ok true) "month" [] (constantYear 1)).toOption.map climNumbers =
    some (List.replicate 12 (some 1)) := by
  decide +kernel

-- `C160_constant_partial` applies to the constant 1 ...
example (l : List (Entry ℚ)) (h : calendarAverageBy (floatArith float64 (leftSum float64)) Cal.noleap (fun _ => .ok true) "month" (constantYear 1) = .ok l) :
    AllEqual 1 l :=
  (C160_constant_partial float64 (leftSum float64) (leftSum_addsUp float64) Cal.noleap _ "month" "JJA" [] (constantYear 1) 1
    (fun e he i x hx => by
      simp only [constantYear, List.mem_map] at he
      obtain ⟨i, -, rfl⟩ := he
      simpa using hx.symm)
    (fun k hk => by
      have hk : k ≤ 12 := hk
      have : ∀ k : Fin 13, (float64 : Rounding ℚ).fl (k.1 * 1) = k.1 * 1 := by decide +kernel
      have h := this ⟨k, by omega⟩
      rw [← h]
      exact float64.rep_fl _)).1 l (by decide +kernel) (by decide +kernel) h

-- ... and `C159_order` to this pair of records
example : OutRel (List.Forall₂ (EntryRel (· ≤ ·)))
    (calendarAverageBy (floatArith float64 (leftSum float64)) Cal.noleap (fun _ => .ok true) "year" (constantYear 1))
    (calendarAverageBy (floatArith float64 (leftSum float64)) Cal.noleap (fun _ => .ok true) "year" (constantYear 2)) :=
  (C159_order float64 (leftSum float64) (keepsOrder_leftSum float64) Cal.noleap (fun _ => .ok true) "year" "JJA" [] (constantYear 1) (constantYear 2) (by
    refine ⟨rfl, rfl, ?_⟩
    unfold constantYear
    rw [List.forall₂_map_left_iff, List.forall₂_map_right_iff, List.forall₂_same]
    exact fun i _ => ⟨rfl, fun _ => show (1 : ℚ) ≤ 2 by norm_num⟩)).1

end examples

end Verif.Props
