import Verif.Lemmas.Gradient
import Verif.Props.Wgs84

namespace Verif.Props
open Model.Gradient Spec.Gradient Lemmas.Gradient

/-- data of the given type with the finite values `f i j`, without coordinates of its own -/
def field (k : DataKind) (r c : ℕ) (f : ℕ → ℕ → ℝ) : Data := ⟨k, none, none, grid r c (fun i j => .fin (f i j))⟩

/-- the call succeeds and returns two arrays with the values `x i j` and `y i j` -/
def Gives (res : Except PyErr (List Result)) (r c : ℕ) (x y : ℕ → ℕ → ℝ) : Prop :=
  ∃ a b : Result, res = .ok [a, b] ∧ a.val.shape = [r, c] ∧ b.val.shape = [r, c] ∧
    ∀ i j, i < r → j < c → a.val.get [i, j] = .fin (x i j) ∧ b.val.get [i, j] = .fin (y i j)

/-- the coordinates are such that no neighbours coincide along a column or along a row -/
def Spaced (r c : ℕ) (lon lat : ℕ → ℕ → ℝ) : Prop :=
  ∀ i j, i < r → j < c → arcLat (lat (upper r i) j) ≠ arcLat (lat (lower i) j) ∧
    arcLon (lon i (upper c j)) (lat i (upper c j)) ≠ arcLon (lon i (lower j)) (lat i (lower j))

theorem lower_lt_upper {n i : ℕ} (hn : 2 ≤ n) (hi : i < n) : lower i < upper n i := by simp only [lower, upper]; omega

/-- Latitudes in [-90,90] strictly increasing or decreasing down the rows, and longitudes along the columns, are spaced. -/
theorem spaced_of_monotone {r c : ℕ} (hr : 2 ≤ r) (hc : 2 ≤ c) (lon lat : ℕ → ℝ) (hl : ∀ i < r, -90 ≤ lat i ∧ lat i ≤ 90)
    (hla : (∀ i i', i < i' → i' < r → lat i < lat i') ∨ ∀ i i', i < i' → i' < r → lat i' < lat i)
    (hlo : (∀ j j', j < j' → j' < c → lon j < lon j') ∨ ∀ j j', j < j' → j' < c → lon j' < lon j) :
    Spaced r c (fun _ j => lon j) (fun i _ => lat i) := by
  intro i j hi hj
  have hu := upper_lt hi
  have hd := lower_lt hi
  have hlt := lower_lt_upper hr hi
  have hlt' := lower_lt_upper hc hj
  constructor
  · rcases hla with h | h
    · exact (C74_arc_strictly_increasing (hl _ hd) (hl _ hu) (h _ _ hlt hu)).ne'
    · exact (C74_arc_strictly_increasing (hl _ hu) (hl _ hd) (h _ _ hlt hu)).ne
  · have hm := (C74_arc_longitude (lat i)).2 (hl i hi)
    rcases hlo with h | h
    · exact (hm (h _ _ hlt' (upper_lt hj))).ne'
    · exact (hm (h _ _ hlt' (upper_lt hj))).ne

theorem quotient_eq {n : ℕ} (hn : 2 ≤ n) (f x : ℕ → ℝ) {i : ℕ} (hi : i < n) (hx : x (upper n i) ≠ x (lower i)) :
    diffAt halfX n (fun v => XF.fin (f v)) i / XF.fin (diffAt halfR n x i) = XF.fin (quotient n f x i) := by
  have h1 : x (upper n i) - x (lower i) ≠ 0 := sub_ne_zero.mpr hx
  rw [diffAt_fin, diffAt_real hn f hi, diffAt_real hn x hi, XF.fin_div _ _ (mul_ne_zero (factor_ne n i) h1), quotient,
    mul_div_mul_left _ _ (factor_ne n i)]

/-! ### C75 -/

/-- The two results are the difference quotients of the data by the arc lengths between the neighbours, along the columns (latitude) and along the rows
(longitude). -/
theorem C75_difference_quotients (k : DataKind) (hk : k ≠ .dataset) {r c : ℕ} (hr : 2 ≤ r) (hc : 2 ≤ c) (f lon lat : ℕ → ℕ → ℝ) (hs : Spaced r c lon lat) :
    Gives (gradient (field k r c f) (some (grid r c lon)) (some (grid r c lat))) r c
      (fun i j => quotient r (fun v => f v j) (fun v => arcLat (lat v j)) i)
      (fun i j => quotient c (fun v => f i v) (fun v => arcLon (lon i v) (lat i v)) j) := by
  obtain ⟨a, b, h, ha, hb, _, _, hv⟩ := gradient_2d (field k r c f) hk hr hc rfl (grid r c lon) (grid r c lat) rfl rfl
  refine ⟨a, b, h, ha, hb, ?_⟩
  intro i j hi hj
  obtain ⟨h1, h2⟩ := hv i j hi hj
  obtain ⟨s1, s2⟩ := hs i j hi hj
  constructor
  · rw [h1]
    exact quotient_eq hr (fun v => f v j) (fun v => arcLat (lat v j)) hi s1
  · rw [h2]
    exact quotient_eq hc (fun v => f i v) (fun v => arcLon (lon i v) (lat i v)) hj s2

/-- linear in the data -/
theorem C75_linear (k : DataKind) (hk : k ≠ .dataset) {r c : ℕ} (hr : 2 ≤ r) (hc : 2 ≤ c) (f g lon lat : ℕ → ℕ → ℝ) (hs : Spaced r c lon lat) (s t : ℝ) :
    ∃ fx fy gx gy, Gives (gradient (field k r c f) (some (grid r c lon)) (some (grid r c lat))) r c fx fy ∧
      Gives (gradient (field k r c g) (some (grid r c lon)) (some (grid r c lat))) r c gx gy ∧
      Gives (gradient (field k r c (fun i j => s * f i j + t * g i j)) (some (grid r c lon)) (some (grid r c lat))) r c
        (fun i j => s * fx i j + t * gx i j) (fun i j => s * fy i j + t * gy i j) := by
  refine ⟨_, _, _, _, C75_difference_quotients k hk hr hc f lon lat hs, C75_difference_quotients k hk hr hc g lon lat hs, ?_⟩
  have h := C75_difference_quotients k hk hr hc (fun i j => s * f i j + t * g i j) lon lat hs
  have e1 : ∀ i j, quotient r (fun v => s * f v j + t * g v j) (fun v => arcLat (lat v j)) i
      = s * quotient r (fun v => f v j) (fun v => arcLat (lat v j)) i + t * quotient r (fun v => g v j) (fun v => arcLat (lat v j)) i := by
    intro i j; simp only [quotient]; ring
  have e2 : ∀ i j, quotient c (fun v => s * f i v + t * g i v) (fun v => arcLon (lon i v) (lat i v)) j
      = s * quotient c (fun v => f i v) (fun v => arcLon (lon i v) (lat i v)) j + t * quotient c (fun v => g i v) (fun v => arcLon (lon i v) (lat i v)) j := by
    intro i j; simp only [quotient]; ring
  simp only [e1, e2] at h
  exact h

/-- zero for constant data -/
theorem C75_constant (k : DataKind) (hk : k ≠ .dataset) {r c : ℕ} (hr : 2 ≤ r) (hc : 2 ≤ c) (lon lat : ℕ → ℕ → ℝ) (hs : Spaced r c lon lat) (s : ℝ) :
    Gives (gradient (field k r c (fun _ _ => s)) (some (grid r c lon)) (some (grid r c lat))) r c (fun _ _ => 0) (fun _ _ => 0) := by
  have h := C75_difference_quotients k hk hr hc (fun _ _ => s) lon lat hs
  simpa only [quotient, sub_self, zero_div] using h

/-- exactly one in the matching direction for data equal to the latitude arc length; zero in the other direction if the latitude is the same along a row -/
theorem C75_arc_latitude (k : DataKind) (hk : k ≠ .dataset) {r c : ℕ} (hr : 2 ≤ r) (hc : 2 ≤ c) (lon lat : ℕ → ℕ → ℝ) (hs : Spaced r c lon lat) :
    ∃ y, Gives (gradient (field k r c (fun i j => arcLat (lat i j))) (some (grid r c lon)) (some (grid r c lat))) r c (fun _ _ => 1) y ∧
      ((∀ i j j', lat i j = lat i j') → ∀ i j, y i j = 0) := by
  obtain ⟨a, b, h1, h2, h3, h4⟩ := C75_difference_quotients k hk hr hc (fun i j => arcLat (lat i j)) lon lat hs
  refine ⟨_, ⟨a, b, h1, h2, h3, fun i j hi hj => ⟨?_, (h4 i j hi hj).2⟩⟩, ?_⟩
  · rw [(h4 i j hi hj).1]
    simp only [quotient]
    rw [div_self (sub_ne_zero.mpr (hs i j hi hj).1)]
  · intro hl i j
    simp only [quotient]
    rw [hl i (upper c j) (lower j), sub_self, zero_div]

/-- exactly one in the matching direction for data equal to the longitude arc length -/
theorem C75_arc_longitude (k : DataKind) (hk : k ≠ .dataset) {r c : ℕ} (hr : 2 ≤ r) (hc : 2 ≤ c) (lon lat : ℕ → ℕ → ℝ) (hs : Spaced r c lon lat) :
    ∃ x, Gives (gradient (field k r c (fun i j => arcLon (lon i j) (lat i j))) (some (grid r c lon)) (some (grid r c lat))) r c x (fun _ _ => 1) := by
  obtain ⟨a, b, h1, h2, h3, h4⟩ := C75_difference_quotients k hk hr hc (fun i j => arcLon (lon i j) (lat i j)) lon lat hs
  refine ⟨_, a, b, h1, h2, h3, fun i j hi hj => ⟨(h4 i j hi hj).1, ?_⟩⟩
  rw [(h4 i j hi hj).2]
  simp only [quotient]
  rw [div_self (sub_ne_zero.mpr (hs i j hi hj).2)]

theorem upper_flip {n i : ℕ} (hn : 2 ≤ n) (hi : i < n) : n - 1 - upper n i = lower (n - 1 - i) := by simp only [lower, upper]; omega
theorem lower_flip {n i : ℕ} (hn : 2 ≤ n) (hi : i < n) : n - 1 - lower i = upper n (n - 1 - i) := by simp only [lower, upper]; omega

theorem quotient_flip {n : ℕ} (hn : 2 ≤ n) (f x : ℕ → ℝ) {i : ℕ} (hi : i < n) :
    quotient n (fun v => f (n - 1 - v)) (fun v => x (n - 1 - v)) i = quotient n f x (n - 1 - i) := by
  simp only [quotient, upper_flip hn hi, lower_flip hn hi]
  rw [← neg_sub (f (upper n (n - 1 - i))), ← neg_sub (x (upper n (n - 1 - i))), neg_div_neg_eq]

theorem spaced_flip_rows {r c : ℕ} (hr : 2 ≤ r) {lon lat : ℕ → ℕ → ℝ} (hs : Spaced r c lon lat) :
    Spaced r c (fun i j => lon (r - 1 - i) j) (fun i j => lat (r - 1 - i) j) := by
  intro i j hi hj
  obtain ⟨h1, h2⟩ := hs (r - 1 - i) j (by omega) hj
  simp only [upper_flip hr hi, lower_flip hr hi]
  exact ⟨h1.symm, h2⟩

theorem spaced_flip_cols {r c : ℕ} (hc : 2 ≤ c) {lon lat : ℕ → ℕ → ℝ} (hs : Spaced r c lon lat) :
    Spaced r c (fun i j => lon i (c - 1 - j)) (fun i j => lat i (c - 1 - j)) := by
  intro i j hi hj
  obtain ⟨h1, h2⟩ := hs i (c - 1 - j) hi (by omega)
  simp only [upper_flip hc hj, lower_flip hc hj]
  exact ⟨h1, h2.symm⟩

/-- Reversing the rows of data and coordinates reverses the rows of the results and changes nothing else. -/
theorem C75_reverse_rows (k : DataKind) (hk : k ≠ .dataset) {r c : ℕ} (hr : 2 ≤ r) (hc : 2 ≤ c) (f lon lat : ℕ → ℕ → ℝ) (hs : Spaced r c lon lat) :
    ∃ x y, Gives (gradient (field k r c f) (some (grid r c lon)) (some (grid r c lat))) r c x y ∧
      Gives (gradient (field k r c (fun i j => f (r - 1 - i) j)) (some (grid r c (fun i j => lon (r - 1 - i) j)))
        (some (grid r c (fun i j => lat (r - 1 - i) j)))) r c (fun i j => x (r - 1 - i) j) (fun i j => y (r - 1 - i) j) := by
  refine ⟨_, _, C75_difference_quotients k hk hr hc f lon lat hs, ?_⟩
  obtain ⟨a, b, h1, h2, h3, h4⟩ := C75_difference_quotients k hk hr hc (fun i j => f (r - 1 - i) j) _ _ (spaced_flip_rows hr hs)
  refine ⟨a, b, h1, h2, h3, fun i j hi hj => ⟨?_, (h4 i j hi hj).2⟩⟩
  rw [(h4 i j hi hj).1]
  exact congrArg XF.fin (quotient_flip hr (fun v => f v j) (fun v => arcLat (lat v j)) hi)

/-- Reversing the columns of data and coordinates reverses the columns of the results and changes nothing else. -/
theorem C75_reverse_columns (k : DataKind) (hk : k ≠ .dataset) {r c : ℕ} (hr : 2 ≤ r) (hc : 2 ≤ c) (f lon lat : ℕ → ℕ → ℝ) (hs : Spaced r c lon lat) :
    ∃ x y, Gives (gradient (field k r c f) (some (grid r c lon)) (some (grid r c lat))) r c x y ∧
      Gives (gradient (field k r c (fun i j => f i (c - 1 - j))) (some (grid r c (fun i j => lon i (c - 1 - j))))
        (some (grid r c (fun i j => lat i (c - 1 - j))))) r c (fun i j => x i (c - 1 - j)) (fun i j => y i (c - 1 - j)) := by
  refine ⟨_, _, C75_difference_quotients k hk hr hc f lon lat hs, ?_⟩
  obtain ⟨a, b, h1, h2, h3, h4⟩ := C75_difference_quotients k hk hr hc (fun i j => f i (c - 1 - j)) _ _ (spaced_flip_cols hc hs)
  refine ⟨a, b, h1, h2, h3, fun i j hi hj => ⟨(h4 i j hi hj).1, ?_⟩⟩
  rw [(h4 i j hi hj).2]
  exact congrArg XF.fin (quotient_flip hc (fun v => f i v) (fun v => arcLon (lon i v) (lat i v)) hj)

/-- a grid from 30 S to 30 N and from 0 E to 20 E, rows from north to south, meets the hypotheses -/
example : Spaced 3 3 (fun _ j => 10 * (j : ℝ)) (fun i _ => 30 - 30 * (i : ℝ)) := by
  apply spaced_of_monotone (by norm_num) (by norm_num) (fun j => 10 * (j : ℝ)) (fun i => 30 - 30 * (i : ℝ))
  · intro i hi
    have : (i : ℝ) ≤ 2 := by exact_mod_cast Nat.lt_succ_iff.mp hi
    constructor <;> nlinarith [Nat.cast_nonneg (α := ℝ) i]
  · right
    intro i i' h _
    have : (i : ℝ) < i' := by exact_mod_cast h
    linarith
  · left
    intro i i' h _
    have : (i : ℝ) < i' := by exact_mod_cast h
    linarith

end Verif.Props
