import Verif.Spec.Interp
import Verif.Lemmas.HybridCall

/-
Lemmas on the specification of interpolation in a column: the value does not depend on the choice of the two neighbouring
levels, and what that means for several columns interpolated at the same place.
-/

set_option linter.unusedSectionVars false
namespace Verif.Lemmas
open Spec
variable {K : Type _} [Field K] [LinearOrder K] [IsStrictOrderedRing K]

/-- two pairs of neighbouring levels around the same coordinate -/
theorem bracket_cases (n : ℕ) (p : ℕ → K) (hd : Distinct n p) (x : K) (i j k l : ℕ) (h : Bracket n p x i j) (h' : Bracket n p x k l) :
    (i = k ∧ j = l) ∨ (j = k ∧ x = p j) ∨ (i = l ∧ x = p i) := by
  obtain ⟨h1, h2, h3, h4, h5, h6⟩ := h
  obtain ⟨g1, g2, g3, g4, g5, g6⟩ := h'
  rcases lt_trichotomy (p i) (p k) with hlt | heq | hgt
  · right; left
    have hjk : p j ≤ p k := not_lt.mp fun hh => h6 k g1 ⟨hlt, hh⟩
    have : p j = p k := le_antisymm hjk (g4.trans h5)
    exact ⟨hd j h2 k g1 this, le_antisymm h5 (hjk.trans g4)⟩
  · left
    have hik := hd i h1 k g1 heq
    refine ⟨hik, ?_⟩
    subst hik
    rcases lt_trichotomy (p j) (p l) with a | a | a
    · exact absurd ⟨h3, a⟩ (g6 j h2)
    · exact hd j h2 l g2 a
    · exact absurd ⟨g3, a⟩ (h6 l g2)
  · right; right
    have hli : p l ≤ p i := not_lt.mp fun hh => g6 i h1 ⟨hgt, hh⟩
    have : p i = p l := le_antisymm (h4.trans g5) hli
    exact ⟨hd i h1 l g2 this, le_antisymm (g5.trans hli) h4⟩

/-- the number on the line through two levels -/
def line (p f : ℕ → K) (x : K) (i j : ℕ) : K := f i + (f j - f i) * ((x - p i) / (p j - p i))

theorem line_left (p f : ℕ → K) (i j : ℕ) : line p f (p i) i j = f i := by simp [line]

theorem line_right (p f : ℕ → K) (i j : ℕ) (h : p i < p j) : line p f (p j) i j = f j := by
  have : p j - p i ≠ 0 := (sub_pos.mpr h).ne'
  simp [line, div_self this]

theorem line_bracket (n : ℕ) (p f : ℕ → K) (hd : Distinct n p) (x : K) (i j k l : ℕ) (h : Bracket n p x i j) (h' : Bracket n p x k l) :
    line p f x i j = line p f x k l := by
  rcases bracket_cases n p hd x i j k l h h' with ⟨rfl, rfl⟩ | ⟨rfl, rfl⟩ | ⟨rfl, rfl⟩
  · rfl
  · rw [line_right p f i j h.2.2.1, line_left]
  · rw [line_left, line_right p f k i h'.2.2.1]

theorem bracket_inside (n : ℕ) (p : ℕ → K) (x : K) (i j : ℕ) (h : Bracket n p x i j) : ¬ Outside n p x := by
  rintro (ho | ho)
  · exact absurd (ho i h.1) (not_lt.mpr h.2.2.2.1)
  · exact absurd (ho j h.2.1) (not_lt.mpr h.2.2.2.2.1)

/-- the value of a column without missing values, with any two neighbouring levels -/
theorem interpAt_line (n : ℕ) (p : ℕ → K) (hd : Distinct n p) (v : ℕ → XF K) (f : ℕ → K) (hv : ∀ k < n, v k = .fin (f k)) (x : K) (y : XF K)
    (h : InterpAt n p v x y) (i j : ℕ) (hb : Bracket n p x i j) : y = .fin (line p f x i j) := by
  rcases h with ⟨ho, -⟩ | ⟨-, k, l, hb', hy⟩
  · exact absurd ho (bracket_inside n p x i j hb)
  · rw [line_bracket n p f hd x i j k l hb hb', hy, hv k hb'.1, hv l hb'.2.1]
    simp [lineValue, line]

/-- inside the column there are two neighbouring levels -/
theorem interpAt_bracket (n : ℕ) (p : ℕ → K) (v : ℕ → XF K) (x : K) (y : XF K) (h : InterpAt n p v x y) (ho : ¬ Outside n p x) :
    ∃ i j, Bracket n p x i j := by
  rcases h with ⟨ho', -⟩ | ⟨-, i, j, hb, -⟩
  · exact absurd ho' ho
  · exact ⟨i, j, hb⟩

theorem interpAt_outside (n : ℕ) (p : ℕ → K) (v : ℕ → XF K) (x : K) (y : XF K) (h : InterpAt n p v x y) (ho : Outside n p x) : y = .nan := by
  rcases h with ⟨-, hy⟩ | ⟨ho', -⟩
  · exact hy
  · exact absurd ho ho'

/-- a profile that is linear in the coordinate is reproduced -/
theorem interpAt_linear (n : ℕ) (p : ℕ → K) (v : ℕ → XF K) (c d : K) (hv : ∀ k < n, v k = .fin (c + d * p k)) (x : K) (y : XF K)
    (h : InterpAt n p v x y) (ho : ¬ Outside n p x) : y = .fin (c + d * x) := by
  rcases h with ⟨ho', -⟩ | ⟨-, k, l, hb, hy⟩
  · exact absurd ho' ho
  · have hne : p l - p k ≠ 0 := (sub_pos.mpr hb.2.2.1).ne'
    rw [hy, hv k hb.1, hv l hb.2.1]
    simp only [lineValue, XF.fin_add, XF.fin_sub, XF.fin_mul]
    congr 1
    field_simp
    ring

/-- combinations of columns -/
theorem interpAt_combine (n : ℕ) (p : ℕ → K) (hd : Distinct n p) (u v w : ℕ → XF K) (f g : ℕ → K) (c d : K)
    (hu : ∀ k < n, u k = .fin (f k)) (hv : ∀ k < n, v k = .fin (g k)) (hw : ∀ k < n, w k = .fin (c * f k + d * g k)) (x : K)
    (y y' z : XF K) (h1 : InterpAt n p u x y) (h2 : InterpAt n p v x y') (h3 : InterpAt n p w x z) :
    z = .fin c * y + .fin d * y' := by
  by_cases ho : Outside n p x
  · rw [interpAt_outside n p u x y h1 ho, interpAt_outside n p w x z h3 ho]
    simp
  · obtain ⟨i, j, hb⟩ := interpAt_bracket n p u x y h1 ho
    rw [interpAt_line n p hd u f hu x y h1 i j hb, interpAt_line n p hd v g hv x y' h2 i j hb,
      interpAt_line n p hd w (fun k => c * f k + d * g k) hw x z h3 i j hb]
    simp only [XF.fin_add, XF.fin_mul]
    congr 1
    simp only [line]
    ring

/-- larger columns give larger values -/
theorem interpAt_mono (n : ℕ) (p : ℕ → K) (hd : Distinct n p) (u v : ℕ → XF K) (f g : ℕ → K)
    (hu : ∀ k < n, u k = .fin (f k)) (hv : ∀ k < n, v k = .fin (g k)) (hle : ∀ k < n, f k ≤ g k) (x : K)
    (y y' : XF K) (h1 : InterpAt n p u x y) (h2 : InterpAt n p v x y') (ho : ¬ Outside n p x) :
    ∃ a b, y = .fin a ∧ y' = .fin b ∧ a ≤ b := by
  obtain ⟨i, j, hb⟩ := interpAt_bracket n p u x y h1 ho
  refine ⟨_, _, interpAt_line n p hd u f hu x y h1 i j hb, interpAt_line n p hd v g hv x y' h2 i j hb, ?_⟩
  have hpos : 0 < p j - p i := sub_pos.mpr hb.2.2.1
  have t0 : 0 ≤ (x - p i) / (p j - p i) := div_nonneg (sub_nonneg.mpr hb.2.2.2.1) hpos.le
  have t1 : (x - p i) / (p j - p i) ≤ 1 := by rw [div_le_one hpos]; linarith [hb.2.2.2.2.1]
  simp only [line]
  generalize (x - p i) / (p j - p i) = t at t0 t1 ⊢
  have a1 := mul_le_mul_of_nonneg_left (hle i hb.1) (sub_nonneg.mpr t1)
  have a2 := mul_le_mul_of_nonneg_left (hle j hb.2.1) t0
  nlinarith

theorem distinct_transform (g : K → K) (S : Set K) (hg : StrictMonoOn g S) (n : ℕ) (p : ℕ → K) (hp : ∀ k < n, p k ∈ S) (h : Distinct n p) :
    Distinct n (fun k => g (p k)) :=
  fun i hi j hj hij => h i hi j hj (hg.injOn (hp i hi) (hp j hj) hij)

end Verif.Lemmas
