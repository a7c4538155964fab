import Verif.Props.FilterField
import Verif.Props.MeanGradient

/-
Property C205: filtering in time and the gradient can be taken in either order.
-/

set_option linter.unusedSectionVars false
namespace Verif.Props
open Model Spec Lemmas Spec.Gradient Model.Gradient Lemmas.Gradient Verif.Props.Gradient FilterField

/-- one field of an array whose last two dimensions are latitude and longitude -/
def fieldOf (w : Tensor ℝ) (t : List ℕ) (i j : ℕ) : ℝ := w.get (t ++ [i, j])

/-- `gx` and `gy` are the two components of the gradient of every field of `data` -/
def EveryGradient (k : DataKind) (ls : List ℕ) (r c : ℕ) (lon lat : ℕ → ℕ → ℝ) (data gx gy : Tensor ℝ) : Prop :=
  data.shape = ls ++ [r, c] ∧ gx.shape = ls ++ [r, c] ∧ gy.shape = ls ++ [r, c] ∧ ∀ t, Tensor.InBounds ls t →
    Gives (gradient (field k r c (fieldOf data t)) (some (grid r c lon)) (some (grid r c lat))) r c (fieldOf gx t) (fieldOf gy t)

namespace FilterGradient

/-- the filter of a difference quotient is the difference quotient of the filtered values -/
theorem sum_quotient {ι : Type} (S : Finset ι) (H a b : ι → ℝ) (w : ℝ) :
    ∑ s ∈ S, H s * ((a s - b s) / w) = (∑ s ∈ S, H s * a s - ∑ s ∈ S, H s * b s) / w := by
  rw [← Finset.sum_sub_distrib, Finset.sum_div]
  exact Finset.sum_congr rfl fun s _ => by ring

end FilterGradient
open FilterGradient

/-- **C205.** The gradient of the filtered data is the filtered gradient: if `gx` and `gy` are the components of the gradient
of every field of `data`, then filtering `data`, `gx` and `gy` along the same axis gives a field and the components of its
gradient. For every filter, every leading shape and axis, and all coordinates whose neighbours are distinct. -/
theorem C205_either_order (fl : Flags) (f cl ch : ℝ) (hf : 0 < f) (h1 : 0 ≤ cl) (h2 : 0 ≤ ch) (ls : List ℕ) (k : ℕ) (hk : k < ls.length)
    (hk0 : ls.getD k 0 ≠ 0) (h00 : ls.getD 0 0 ≠ 0) (ax : ℤ) (hax : ax = k ∨ ax = (k : ℤ) - (ls.length + 2)) (kind : DataKind) (hkind : kind ≠ .dataset)
    {r c : ℕ} (hr : 2 ≤ r) (hc : 2 ≤ c) (lon lat : ℕ → ℕ → ℝ) (hsp : Spaced r c lon lat) (data gx gy : Tensor ℝ)
    (hg : EveryGradient kind ls r c lon lat data gx gy) :
    ∃ data' gx' gy', fourierFilterNd fl f cl ch ax data = .ok data' ∧ fourierFilterNd fl f cl ch ax gx = .ok gx' ∧
      fourierFilterNd fl f cl ch ax gy = .ok gy' ∧ EveryGradient kind ls r c lon lat data' gx' gy' := by
  obtain ⟨n, hkn⟩ : ∃ n, ls.getD k 0 = n := ⟨_, rfl⟩
  have : NeZero n := ⟨hkn ▸ hk0⟩
  obtain ⟨hd, hgx, hgy, hg⟩ := hg
  obtain ⟨d', d1, d2, d3⟩ := filter_lines fl f cl ch hf ls k hk n hkn h00 ax hax r c data hd
  obtain ⟨x', x1, x2, x3⟩ := filter_lines fl f cl ch hf ls k hk n hkn h00 ax hax r c gx hgx
  obtain ⟨y', y1, y2, y3⟩ := filter_lines fl f cl ch hf ls k hk n hkn h00 ax hax r c gy hgy
  refine ⟨d', x', y', d1, x1, y1, d2.trans hd, x2.trans hgx, y2.trans hgy, fun t ht => ?_⟩
  obtain ⟨H, hH⟩ := kernel (n := n) fl (f * n / (ls.getD 0 0 : ℕ)) cl ch
    (div_pos (mul_pos hf (by exact_mod_cast Nat.pos_of_ne_zero (NeZero.ne n))) (by exact_mod_cast Nat.pos_of_ne_zero h00)) h1 h2 (t.getD k 0 : ℕ)
  have hs : ∀ s : ZMod n, Tensor.InBounds ls (t.set k s.val) := fun s => inBounds_set ht k s.val (by rw [hkn]; exact ZMod.val_lt s)
  have hq : ∀ (s : ZMod n) (i j : ℕ), i < r → j < c →
      gx.get (t.set k s.val ++ [i, j]) = quotient r (fun v => fieldOf data (t.set k s.val) v j) (fun v => arcLat (lat v j)) i ∧
      gy.get (t.set k s.val ++ [i, j]) = quotient c (fun v => fieldOf data (t.set k s.val) i v) (fun v => arcLon (lon i v) (lat i v)) j :=
    fun s i j hi hj => gives_unique (hg _ (hs s)) (C75_difference_quotients kind hkind hr hc (fieldOf data (t.set k s.val)) lon lat hsp) i j hi hj
  obtain ⟨a, b, e, ha, hb, hv⟩ := C75_difference_quotients kind hkind hr hc (fieldOf d' t) lon lat hsp
  refine ⟨a, b, e, ha, hb, fun i j hi hj => ?_⟩
  obtain ⟨v1, v2⟩ := hv i j hi hj
  rw [v1, v2]
  constructor
  · congr 1
    rw [fieldOf, x3 t i j ht hi hj, hH]
    simp only [quotient, (hq _ i j hi hj).1, fieldOf]
    rw [sum_quotient, d3 t _ j ht (Verif.Props.Gradient.upper_lt hr) hj, d3 t _ j ht (Verif.Props.Gradient.lower_lt hi) hj, hH, hH]
  · congr 1
    rw [fieldOf, y3 t i j ht hi hj, hH]
    simp only [quotient, (hq _ i j hi hj).2, fieldOf]
    rw [sum_quotient, d3 t i _ ht hi (Verif.Props.Gradient.upper_lt hc), d3 t i _ ht hi (Verif.Props.Gradient.lower_lt hj), hH, hH]

/-- **C205.** On such a grid every array has gradients of all its fields, so that `C205_either_order` applies to it. -/
theorem C205_exists (ls : List ℕ) (kind : DataKind) (hkind : kind ≠ .dataset) {r c : ℕ} (hr : 2 ≤ r) (hc : 2 ≤ c) (lon lat : ℕ → ℕ → ℝ)
    (hsp : Spaced r c lon lat) (data : Tensor ℝ) (hd : data.shape = ls ++ [r, c]) : ∃ gx gy, EveryGradient kind ls r c lon lat data gx gy := by
  let cut : (List ℕ → ℕ → ℕ → ℝ) → Tensor ℝ := fun g => ⟨ls ++ [r, c], fun i => g (i.take ls.length) (i.getD ls.length 0) (i.getD (ls.length + 1) 0)⟩
  have hcut : ∀ g t, Tensor.InBounds ls t → fieldOf (cut g) t = g t := by
    intro g t ht
    funext i j
    have hl : t.length = ls.length := List.Forall₂.length_eq ht
    show g ((t ++ [i, j]).take ls.length) ((t ++ [i, j]).getD ls.length 0) ((t ++ [i, j]).getD (ls.length + 1) 0) = _
    rw [← hl]
    have e1 : (t ++ [i, j]).take t.length = t := by simp
    have e2 : (t ++ [i, j]).getD t.length 0 = i := by simp [List.getD_eq_getElem?_getD]
    have e3 : (t ++ [i, j]).getD (t.length + 1) 0 = j := by simp [List.getD_eq_getElem?_getD]
    rw [e1, e2, e3]
  refine ⟨cut fun t i j => quotient r (fun v => fieldOf data t v j) (fun v => arcLat (lat v j)) i,
    cut fun t i j => quotient c (fun v => fieldOf data t i v) (fun v => arcLon (lon i v) (lat i v)) j, hd, rfl, rfl, fun t ht => ?_⟩
  have ex := hcut (fun t i j => quotient r (fun v => fieldOf data t v j) (fun v => arcLat (lat v j)) i) t ht
  have ey := hcut (fun t i j => quotient c (fun v => fieldOf data t i v) (fun v => arcLon (lon i v) (lat i v)) j) t ht
  rw [ex, ey]
  exact C75_difference_quotients kind hkind hr hc (fieldOf data t) lon lat hsp

/-- twelve times on the grid of 3 by 3 points, high-pass filtered along the second of two leading dimensions -/
example (data : Tensor ℝ) (hd : data.shape = [2, 12] ++ [3, 3]) : ∃ gx gy data' gx' gy',
    EveryGradient .numpy [2, 12] 3 3 (fun _ j => 10 * (j : ℝ)) (fun i _ => 30 - 30 * (i : ℝ)) data gx gy ∧
    fourierFilterNd { highPass := true } 12 0 3 1 data = .ok data' ∧ fourierFilterNd { highPass := true } 12 0 3 1 gx = .ok gx' ∧
    fourierFilterNd { highPass := true } 12 0 3 1 gy = .ok gy' ∧
    EveryGradient .numpy [2, 12] 3 3 (fun _ j => 10 * (j : ℝ)) (fun i _ => 30 - 30 * (i : ℝ)) data' gx' gy' := by
  obtain ⟨gx, gy, h⟩ := C205_exists [2, 12] .numpy (by simp) (by norm_num) (by norm_num) _ _ three_by_three data hd
  obtain ⟨a, b, c, h1, h2, h3, h4⟩ := C205_either_order { highPass := true } 12 0 3 (by norm_num) le_rfl (by norm_num) [2, 12] 1 (by simp) (by simp) (by simp) 1 (Or.inl rfl)
    .numpy (by simp) (by norm_num) (by norm_num) _ _ three_by_three data gx gy h
  exact ⟨gx, gy, a, b, c, h, h1, h2, h3, h4⟩

end Verif.Props
