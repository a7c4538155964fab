import Verif.Props.FloatGrid

/-
Property C192: `interp_multidim` with `cyclic=True` across the gap between the last and the first longitude, in floating-point arithmetic.
-/

set_option linter.unusedSectionVars false
namespace Verif.Props
open Model Spec Lemmas
variable {K : Type _} [Field K] [LinearOrder K] [IsStrictOrderedRing K]

/-- the degrees between the last longitude and the first one of the next turn -/
def lonGap (n : ℕ) (x : ℕ → K) : K := x 0 + 360 - x (n - 1)

/-- how far across the gap, as a fraction: for a longitude beyond the last one or, one turn back, before the first one -/
def gapFrac (n : ℕ) (x : ℕ → K) (q : K) : K := if x (n - 1) < q then (q - x (n - 1)) / lonGap n x else (q + 360 - x (n - 1)) / lonGap n x

/-- the longitude lies in the gap: beyond the last longitude, or before the first one -/
def InGap (n : ℕ) (x : ℕ → K) (q : K) : Prop := (x (n - 1) < q ∧ q ≤ x 0 + 360) ∨ (x (n - 1) - 360 ≤ q ∧ q < x 0)

theorem inc_le {n : ℕ} {x : ℕ → K} (h : IncAxis n x) (i j : ℕ) (hij : i ≤ j) (hj : j < n) : x i ≤ x j := by
  rcases eq_or_lt_of_le hij with rfl | hl
  · exact le_refl _
  · exact (h i j hl hj).le

/-- longitudes with a point before and a point after -/
theorem extendedLon_incr (n : ℕ) (hn : 1 ≤ n) (x : ℕ → K) (h : IncAxis n x) (a b : K) (ha : a < x 0) (hb : x (n - 1) < b) :
    IncAxis (n + 2) (extendedLon n x a b) := by
  intro i j hij hj
  unfold extendedLon
  have hab := inc_le h 0 (n - 1) (by omega) (by omega)
  rcases Nat.eq_zero_or_pos i with rfl | hi
  · rw [if_pos rfl, if_neg (by omega)]
    split_ifs with hjn
    · linarith
    · have := inc_le h 0 (j - 1) (by omega) (by omega); linarith
  · rw [if_neg (by omega), if_neg (by omega), if_neg (by omega)]
    split_ifs with hjn
    · have := inc_le h (i - 1) (n - 1) (by omega) (by omega); linarith
    · exact h (i - 1) (j - 1) (by omega) (by omega)

/-- with `cyclic=True` the call is the plain call on the padded grid -/
theorem cyclic_as_plain (R : Rounding K) (g : GeoGrid K) (y x : ℕ → K) (h : OnAxes g y x) (h2d : g.lead = 0)
    (hinc : IncAxis (g.nlon + 2) (extendedLon g.nlon x (R.fl (x (g.nlon - 1) - 360)) (R.fl (x 0 + 360)))) :
    ∃ g' : GeoGrid K, g'.nlat = g.nlat ∧ g'.nlon = g.nlon + 2 ∧ (∀ t r c, g'.get t r c = g.get t r (paddedCol g.nlon c)) ∧
      OnAxes g' y (extendedLon g.nlon x (R.fl (x (g.nlon - 1) - 360)) (R.fl (x 0 + 360))) ∧
      ∀ latOut lonOut missing m fill, ∃ out out', interpMultidimFl R (.xr g) latOut lonOut true missing m fill = .ok (.dataArray, out) ∧
        interpMultidimFl R (.xr g') latOut lonOut false missing m fill = .ok (.dataArray, out') ∧
        ∀ t i j p q, latOut[i]? = some p → lonOut[j]? = some q → out.get t i j = out'.get t i j := by
  set xe := extendedLon g.nlon x (R.fl (x (g.nlon - 1) - 360)) (R.fl (x 0 + 360)) with hxe
  have hax : OnAxes ({ g with lon := column (g.nlon + 2) xe, nlon := g.nlon + 2, get := fun t r c => g.get t r (paddedCol g.nlon c) } : GeoGrid K) y xe :=
    ⟨h.lat, rfl, h.incLat, hinc, h.twoLat, by simp⟩
  refine ⟨{ g with lon := column (g.nlon + 2) xe, nlon := g.nlon + 2, get := fun t r c => g.get t r (paddedCol g.nlon c) }, rfl, rfl,
    fun _ _ _ => rfl, hax, fun latOut lonOut missing m fill => ?_⟩
  obtain ⟨out, h1, h2⟩ := cyclicFl_eq R g y x h h2d latOut lonOut missing m fill
  obtain ⟨out', h1', h2'⟩ := plainFl_eq R _ y xe hax latOut lonOut missing m fill
  refine ⟨out, out', h1, h1', fun t i j p q hp hq => ?_⟩
  rw [h2 t i j p q hp hq, h2' t i j p q hp hq]

/-- a longitude strictly between two neighbours lies in no other cell -/
theorem inCell_unique {n : ℕ} {x : ℕ → K} (h : IncAxis n x) {q : K} {k l : ℕ} (hk : InCell n x q k) (hl : InCell n x q l)
    (h1 : x k < q ∨ k = 0) (h2 : q < x (k + 1) ∨ k + 2 = n) : l = k := by
  obtain ⟨a1, a2, a3⟩ := hk
  obtain ⟨b1, b2, b3⟩ := hl
  rcases lt_trichotomy l k with hlt | rfl | hgt
  · rcases h1 with h1 | h1
    · have := inc_le h (l + 1) k (by omega) (by omega); linarith
    · omega
  · rfl
  · rcases h2 with h2 | h2
    · have := inc_le h (k + 1) l (by omega) (by omega); linarith
    · omega

theorem frac_shift {z w d e : K} (hw : 0 < w) (hd : 0 < w + d) (hz : 0 ≤ z) (hz1 : z ≤ w + d) (he : |d| ≤ e) : |z / (w + d) - z / w| ≤ e / w := by
  have e1 : z / (w + d) - z / w = -(z / (w + d) * (d / w)) := by field_simp; ring
  rw [e1, abs_neg, abs_mul, abs_div d w, abs_of_pos hw, abs_of_nonneg (div_nonneg hz hd.le)]
  have e2 : z / (w + d) ≤ 1 := by rw [div_le_one hd]; exact hz1
  have e3 : 0 ≤ |d| / w := div_nonneg (abs_nonneg _) hw.le
  calc z / (w + d) * (|d| / w) ≤ 1 * (|d| / w) := mul_le_mul_of_nonneg_right e2 e3
    _ = |d| / w := one_mul _
    _ ≤ e / w := by gcongr

theorem bilinear_shift {a b c d s t t' M e : K} (hs0 : 0 ≤ s) (hs1 : s ≤ 1) (ha : |a| ≤ M) (hb : |b| ≤ M) (hc : |c| ≤ M) (hd : |d| ≤ M) (he : |t - t'| ≤ e) :
    |bilinear a b c d s t - bilinear a b c d s t'| ≤ 2 * M * e := by
  have e1 : bilinear a b c d s t - bilinear a b c d s t' = (t - t') * ((1 - s) * (b - a) + s * (d - c)) := by unfold bilinear; ring
  have m1 : |b - a| ≤ 2 * M := by have := abs_sub b a; linarith
  have m2 : |d - c| ≤ 2 * M := by have := abs_sub d c; linarith
  have m := convex_abs hs0 hs1 m1 m2
  rw [e1, abs_mul]
  have e0 : 0 ≤ e := (abs_nonneg _).trans he
  calc |t - t'| * |(1 - s) * (b - a) + s * (d - c)| ≤ e * (2 * M) := mul_le_mul he m (abs_nonneg _) e0
    _ = 2 * M * e := by ring

/-- the seam in any arithmetic whose padded longitudes are off by at most `e`, less than the gap -/
theorem seam_error {R : Rounding K} {u η : K} (A : R.Accurate u η) (hu : u ≤ 1 / 256) (g : GeoGrid K) (y x : ℕ → K) (h : OnAxes g y x)
    (hs : Stored R g y x) (h2d : g.lead = 0) (e : K) (he : e < lonGap g.nlon x) (ha : |R.fl (x (g.nlon - 1) - 360) - (x (g.nlon - 1) - 360)| ≤ e)
    (hb : |R.fl (x 0 + 360) - (x 0 + 360)| ≤ e) (latOut lonOut : List K) (missing : Option (XF K)) (fill : Option (XF K)) :
    ∃ out, interpMultidimFl R (.xr g) latOut lonOut true missing .linear fill = .ok (.dataArray, out) ∧
      ∀ t i j p q, latOut[i]? = some p → lonOut[j]? = some q → R.rep p → R.rep q → InGap g.nlon x q → ∀ (v w : ℕ → K) (M : K),
        (∀ k a, InCell g.nlat y p k → (a = k ∨ a = k + 1) →
          (IsNumber missing (g.get t a (g.nlon - 1)) (v a) ∧ R.rep (v a) ∧ |v a| ≤ M) ∧ (IsNumber missing (g.get t a 0) (w a) ∧ R.rep (w a) ∧ |w a| ≤ M)) →
        ∀ k, InCell g.nlat y p k → ∃ b, out.get t i j = .fin b ∧
          |b - bilinear (v k) (w k) (v (k + 1)) (w (k + 1)) (frac y p k) (gapFrac g.nlon x q)|
            ≤ 64 * u * M + 8 * η * ((y (g.nlat - 1) - y 0) + (720 + 2 * e) + 1) + 2 * M * (e / lonGap g.nlon x) := by
  have hn := h.posLon
  have hη := A.eta_nonneg
  set n := g.nlon with hndef
  set xa := R.fl (x (n - 1) - 360) with hxa
  set xb := R.fl (x 0 + 360) with hxb
  have e0 : 0 ≤ e := (abs_nonneg _).trans ha
  have hw : 0 < lonGap n x := lt_of_le_of_lt e0 he
  have ha' := abs_le.mp ha
  have hb' := abs_le.mp hb
  have h0n := inc_le h.incLon 0 (n - 1) (by omega) (by omega)
  have hg : lonGap n x = x 0 + 360 - x (n - 1) := rfl
  have hinc : IncAxis (n + 2) (extendedLon n x xa xb) := extendedLon_incr n hn x h.incLon xa xb (by linarith) (by linarith)
  obtain ⟨g', e1, e2, e3, hax, hall⟩ := cyclic_as_plain R g y x h h2d hinc
  have hst : Stored R g' y (extendedLon n x xa xb) := by
    refine ⟨fun k hk => hs.lat k (e1 ▸ hk), fun k hk => ?_⟩
    rw [e2] at hk
    unfold extendedLon
    split_ifs with h1 h2
    · exact R.rep_fl _
    · exact R.rep_fl _
    · exact hs.lon _ (by omega)
  obtain ⟨out, out', h1, h1', h2⟩ := hall latOut lonOut missing .linear fill
  obtain ⟨out2, h3, h4⟩ := grid_error A hu g' y _ hax hst latOut lonOut missing fill
  have ho : out2 = out' := by rw [h1'] at h3; injection h3 with h3; injection h3 with _ h3; exact h3.symm
  subst ho
  rw [e1, e2] at h4
  refine ⟨out, h1, fun t i j p q hp hq hrp hrq hgap v w M hv k hk => ?_⟩
  have x0 : extendedLon n x xa xb 0 = xa := by simp [extendedLon]
  have x1 : extendedLon n x xa xb 1 = x 0 := by
    unfold extendedLon
    rw [if_neg (by omega), if_neg (by omega)]
  have xn : extendedLon n x xa xb n = x (n - 1) := by simp [extendedLon, show ¬ n = 0 by omega]
  have xn1 : extendedLon n x xa xb (n + 1) = xb := by simp [extendedLon]
  have c0 : paddedCol n 0 = n - 1 := by simp [paddedCol]
  have c1 : paddedCol n 1 = 0 := by
    unfold paddedCol
    rw [if_neg (by omega)]
    split_ifs <;> rfl
  have cn : paddedCol n n = n - 1 := by simp [paddedCol, show ¬ n = 0 by omega]
  have cn1 : paddedCol n (n + 1) = 0 := by simp [paddedCol]
  have hM : 0 ≤ M := (abs_nonneg _).trans (hv k k hk (Or.inl rfl)).1.2.2
  obtain ⟨s0, s1⟩ := frac_range _ _ h.incLat p k hk
  -- the cell of the padded grid
  have key : ∃ l, InCell (n + 2) (extendedLon n x xa xb) q l ∧ (∀ l', InCell (n + 2) (extendedLon n x xa xb) q l' → l' = l) ∧
      paddedCol n l = n - 1 ∧ paddedCol n (l + 1) = 0 ∧ |frac (extendedLon n x xa xb) q l - gapFrac n x q| ≤ e / lonGap n x := by
    rcases hgap with ⟨q1, q2⟩ | ⟨q1, q2⟩
    · have q3 : q ≤ xb := by
        have := R.mono _ _ q2
        rwa [R.fl_of_rep _ hrq] at this
      have hc : InCell (n + 2) (extendedLon n x xa xb) q n := ⟨by omega, by rw [xn]; exact q1.le, by rw [xn1]; exact q3⟩
      refine ⟨n, hc, fun l' hl' => inCell_unique hinc hc hl' (Or.inl (by rw [xn]; exact q1)) (Or.inr rfl), cn, cn1, ?_⟩
      unfold frac gapFrac
      rw [xn, xn1, if_pos q1]
      have := frac_shift (z := q - x (n - 1)) (w := lonGap n x) (d := xb - (x 0 + 360)) hw (by linarith) (by linarith) (by linarith) hb
      rwa [show lonGap n x + (xb - (x 0 + 360)) = xb - x (n - 1) by rw [hg]; ring] at this
    · have q3 : xa ≤ q := by
        have := R.mono _ _ q1
        rwa [R.fl_of_rep _ hrq] at this
      have hc : InCell (n + 2) (extendedLon n x xa xb) q 0 := ⟨by omega, by rw [x0]; exact q3, by rw [x1]; exact q2.le⟩
      refine ⟨0, hc, fun l' hl' => inCell_unique hinc hc hl' (Or.inr rfl) (Or.inl (by rw [x1]; exact q2)), c0, c1, ?_⟩
      unfold frac gapFrac
      rw [zero_add, x0, x1, if_neg (by linarith)]
      have := frac_shift (z := x 0 - q) (w := lonGap n x) (e := e) (d := -(xa - (x (n - 1) - 360))) hw (by linarith) (by linarith) (by linarith) (by rw [abs_neg]; exact ha)
      rw [show lonGap n x + -(xa - (x (n - 1) - 360)) = x 0 - xa by rw [hg]; ring] at this
      have hne : x 0 - xa ≠ 0 := by linarith
      have t1 : (q - xa) / (x 0 - xa) = 1 - (x 0 - q) / (x 0 - xa) := by field_simp; ring
      have t2 : (q + 360 - x (n - 1)) / lonGap n x = 1 - (x 0 - q) / lonGap n x := by
        have := hw.ne'
        field_simp
        rw [hg]; ring
      rw [t1, t2]
      rw [show 1 - (x 0 - q) / (x 0 - xa) - (1 - (x 0 - q) / lonGap n x) = -((x 0 - q) / (x 0 - xa) - (x 0 - q) / lonGap n x) by ring, abs_neg]
      exact this
  obtain ⟨l, hl, hun, d1, d2, hfr⟩ := key
  obtain ⟨b, b1, b2⟩ := h4 t i j p q hp hq hrp hrq (fun a c => if c = l then v a else w a) M (by
    intro k' l' a c hk' hl' hac hcc
    have := hun l' hl'
    subst this
    obtain ⟨z1, z2⟩ := hv k' a hk' hac
    rw [e3]
    rcases hcc with rfl | rfl
    · rw [d1]; simpa using z1
    · rw [d2]; simpa using z2) k l hk hl
  refine ⟨b, by rw [h2 t i j p q hp hq]; exact b1, ?_⟩
  simp only [if_true, if_neg (Nat.succ_ne_self l)] at b2
  have sh := bilinear_shift s0 s1 (hv k k hk (Or.inl rfl)).1.2.2 (hv k k hk (Or.inl rfl)).2.2.2 (hv k (k + 1) hk (Or.inr rfl)).1.2.2
    (hv k (k + 1) hk (Or.inr rfl)).2.2.2 hfr
  have tri := abs_sub_le b (bilinear (v k) (w k) (v (k + 1)) (w (k + 1)) (frac y p k) (frac (extendedLon n x xa xb) q l))
    (bilinear (v k) (w k) (v (k + 1)) (w (k + 1)) (frac y p k) (gapFrac n x q))
  have span : extendedLon n x xa xb (n + 2 - 1) - extendedLon n x xa xb 0 ≤ 720 + 2 * e := by
    rw [show n + 2 - 1 = n + 1 by omega, xn1, x0]; linarith
  have := mul_le_mul_of_nonneg_left (add_le_add_left (add_le_add_right span (y (g.nlat - 1) - y 0)) 1) (mul_nonneg (by norm_num : (0 : K) ≤ 8) hη)
  linarith

/-- **C192** float64, longitudes between -360 and 360 with a gap of at least `2^-42` degrees: with `cyclic=True` every longitude in the gap, ends
included, gets a number where the four values at the corners are numbers (at most `M`), and it differs from bilinear interpolation across the
gap in exact arithmetic by at most `(2^-47 + 2^-42 / lonGap) M`, up to underflow. Missing from the full property: narrower gaps, see the
counterexample. -/
theorem C192_partial [FloorRing K] (g : GeoGrid K) (y x : ℕ → K) (h : OnAxes g y x) (hs : Stored float64 g y x) (h2d : g.lead = 0)
    (hrange : ∀ k < g.nlon, |x k| ≤ 360) (hgap : 2 ^ (-42 : ℤ) ≤ lonGap g.nlon x) (latOut lonOut : List K) (missing : Option (XF K)) (fill : Option (XF K)) :
    ∃ out, interpMultidimFl float64 (.xr g) latOut lonOut true missing .linear fill = .ok (.dataArray, out) ∧
      ∀ t i j p q, latOut[i]? = some p → lonOut[j]? = some q → (float64 : Rounding K).rep p → (float64 : Rounding K).rep q → InGap g.nlon x q →
        ∀ (v w : ℕ → K) (M : K),
        (∀ k a, InCell g.nlat y p k → (a = k ∨ a = k + 1) →
          (IsNumber missing (g.get t a (g.nlon - 1)) (v a) ∧ (float64 : Rounding K).rep (v a) ∧ |v a| ≤ M) ∧
          (IsNumber missing (g.get t a 0) (w a) ∧ (float64 : Rounding K).rep (w a) ∧ |w a| ≤ M)) →
        ∀ k, InCell g.nlat y p k → ∃ b, out.get t i j = .fin b ∧
          |b - bilinear (v k) (w k) (v (k + 1)) (w (k + 1)) (frac y p k) (gapFrac g.nlon x q)|
            ≤ (2 ^ (-47 : ℤ) + 2 ^ (-42 : ℤ) / lonGap g.nlon x) * M + 2 ^ (-1072 : ℤ) * ((y (g.nlat - 1) - y 0) + 722) := by
  have A := float64_accurate (K := K)
  have hn := h.posLon
  have fe : ∀ z : K, |z| ≤ 720 → |(float64 : Rounding K).fl z - z| ≤ 2 ^ (-43 : ℤ) := by
    intro z hz
    have := A.err z
    have t : (2 : K) ^ (-53 : ℤ) * |z| ≤ 2 ^ (-53 : ℤ) * 720 := mul_le_mul_of_nonneg_left hz (by positivity)
    have t2 : (2 : K) ^ (-1075 : ℤ) ≤ 2 ^ (-53 : ℤ) := zpow_le_zpow_right₀ (by norm_num) (by norm_num)
    have t3 : (2 : K) ^ (-43 : ℤ) = 1024 * 2 ^ (-53 : ℤ) := by norm_num
    have t4 : (0 : K) < 2 ^ (-53 : ℤ) := by positivity
    linarith
  have b0 := abs_le.mp (hrange 0 (by omega))
  have bn := abs_le.mp (hrange (g.nlon - 1) (by omega))
  have e43 : (2 : K) ^ (-42 : ℤ) = 2 * 2 ^ (-43 : ℤ) := by norm_num
  have p43 : (0 : K) < 2 ^ (-43 : ℤ) := by positivity
  obtain ⟨out, h1, h2⟩ := seam_error A (by norm_num) g y x h hs h2d (2 ^ (-43 : ℤ)) (by linarith)
    (fe _ (abs_le.mpr ⟨by linarith, by linarith⟩)) (fe _ (abs_le.mpr ⟨by linarith, by linarith⟩)) latOut lonOut missing fill
  refine ⟨out, h1, fun t i j p q hp hq hrp hrq hg v w M hv k hk => ?_⟩
  obtain ⟨b, b1, b2⟩ := h2 t i j p q hp hq hrp hrq hg v w M hv k hk
  refine ⟨b, b1, b2.trans ?_⟩
  have q1 : 64 * (2 : K) ^ (-53 : ℤ) = 2 ^ (-47 : ℤ) := by norm_num
  have q2 : 8 * (2 : K) ^ (-1075 : ℤ) = 2 ^ (-1072 : ℤ) := by
    rw [show (8 : K) = 2 ^ (3 : ℤ) by norm_num, ← zpow_add₀ (by norm_num)]; norm_num
  have q3 : 2 * M * (2 ^ (-43 : ℤ) / lonGap g.nlon x) = 2 ^ (-42 : ℤ) / lonGap g.nlon x * M := by rw [e43]; ring
  rw [q1, q2, q3]
  have q4 : (2 : K) ^ (-43 : ℤ) ≤ 1 / 2 := by norm_num
  have q5 : (0 : K) ≤ 2 ^ (-1072 : ℤ) := by positivity
  have := mul_le_mul_of_nonneg_left (show (y (g.nlat - 1) - y 0) + (720 + 2 * 2 ^ (-43 : ℤ)) + 1 ≤ (y (g.nlat - 1) - y 0) + 722 by
    generalize (2 : K) ^ (-43 : ℤ) = z at q4 ⊢; linarith) q5
  linarith

/-- the value at the first grid longitude, -300, of data whose last longitude is the float just below 60 -/
def narrowGrid : GeoGrid ℚ :=
  { lead := 0, nlat := 2, nlon := 3, get := fun _ _ j => .fin j, lat := [0, 10], lon := [-300, -120, 60 - 1 / 2 ^ 47] }

/-- **C192** is violated by the code for a gap narrower than the rounding errors: -300, -120 and the float64 number just below 60 are three distinct
longitudes that span less than 360 degrees, but the padded longitude `60 - 2^-47 - 360` is rounded to -300. At the grid point -300, with no value
missing, the result of `cyclic=True` is NaN; `cyclic=False` gives the value. -/
theorem C192_counterexample : OnAxes narrowGrid (fun i => 10 * (i : ℚ)) (fun j => narrowGrid.lon.getD j 0) ∧
    (∀ k < 3, (float64 : Rounding ℚ).rep (narrowGrid.lon.getD k 0)) ∧ 0 < lonGap 3 (fun j => narrowGrid.lon.getD j 0) ∧
    cellOf (interpMultidimFl float64 (.xr narrowGrid) [0] [-300] true none .linear (some .nan)) 0 0 = some .nan ∧
    cellOf (interpMultidimFl float64 (.xr narrowGrid) [0] [-300] false none .linear (some .nan)) 0 0 = some (.fin 0) := by
  refine ⟨⟨by decide +kernel, by decide +kernel, ?_, ?_, by decide +kernel, by decide +kernel⟩, ?_, by decide +kernel, by decide +kernel, by decide +kernel⟩
  · intro i j hij _
    have : (i : ℚ) < j := by exact_mod_cast hij
    show 10 * (i : ℚ) < 10 * j
    linarith
  · intro i j hij hj
    have hj : j < 3 := hj
    have : (i = 0 ∧ j = 1) ∨ (i = 0 ∧ j = 2) ∨ (i = 1 ∧ j = 2) := by omega
    rcases this with ⟨rfl, rfl⟩ | ⟨rfl, rfl⟩ | ⟨rfl, rfl⟩ <;> decide +kernel
  · intro k hk
    have : k = 0 ∨ k = 1 ∨ k = 2 := by omega
    rcases this with rfl | rfl | rfl
    · exact ⟨-300, 0, by norm_num, by norm_num, by rw [show narrowGrid.lon.getD 0 0 = -300 by decide +kernel]; norm_num⟩
    · exact ⟨-120, 0, by norm_num, by norm_num, by rw [show narrowGrid.lon.getD 1 0 = -120 by decide +kernel]; norm_num⟩
    · exact ⟨60 * 2 ^ 47 - 1, -47, by norm_num, by norm_num, by rw [show narrowGrid.lon.getD 2 0 = 60 - 1 / 2 ^ 47 by decide +kernel]; norm_num⟩

/-- the hypotheses are met: longitudes from -180 to 60 in steps of 120 -/
example : 2 ^ (-42 : ℤ) ≤ lonGap 3 (fun j => -180 + 120 * (j : ℚ)) := by
  unfold lonGap
  norm_num

example : InGap 3 (fun j => -180 + 120 * (j : ℚ)) 175 ∧ InGap 3 (fun j => -180 + 120 * (j : ℚ)) (-185) := by
  unfold InGap
  norm_num

-- halfway across the gap from 60 to 180, between 6 and 0
example : cellOf (interpMultidimFl float64 (.xr { sampleGrid with lon := [-180, -60, 60] }) [0] [120] true none .linear (some .nan)) 0 0 = some (.fin 3) := by
  decide +kernel

end Verif.Props
