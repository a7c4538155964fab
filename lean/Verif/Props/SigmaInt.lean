import Verif.Model.SigmaInt
import Verif.Props.Sigma

/-
C123: integer data in `interp_sigma_to_hybrid`.
-/

set_option linter.unusedSectionVars false

namespace Verif.Props
open Model Spec Lemmas

section
variable {K : Type _} [Field K] [LinearOrder K] [IsStrictOrderedRing K] [FloorRing K]

/-- `z` is `x` without its decimals -/
def IsTruncated (x : K) (z : ℤ) : Prop := |(z : K)| ≤ |x| ∧ |x| < |(z : K)| + 1 ∧ 0 ≤ x * z

theorem truncated_iff (x : K) (z : ℤ) : IsTruncated x z ↔ z = if 0 ≤ x then ⌊x⌋ else ⌈x⌉ := by
  unfold IsTruncated
  constructor
  · rintro ⟨h1, h2, h3⟩
    split_ifs with hx
    · rw [abs_of_nonneg hx] at h1 h2
      have hz : (0 : K) ≤ z := by
        by_contra hc
        push Not at hc
        have hx0 : x = 0 := by
          by_contra hne
          have : 0 < x := lt_of_le_of_ne hx (Ne.symm hne)
          nlinarith
        rw [hx0] at h1
        have := abs_pos.mpr (ne_of_lt hc)
        linarith
      rw [abs_of_nonneg hz] at h1 h2
      exact (Int.floor_eq_iff.mpr ⟨h1, h2⟩).symm
    · push Not at hx
      rw [abs_of_neg hx] at h1 h2
      have hz : (z : K) ≤ 0 := by
        by_contra hc
        push Not at hc
        nlinarith
      rw [abs_of_nonpos hz] at h1 h2
      exact (Int.ceil_eq_iff.mpr ⟨by linarith, by linarith⟩).symm
  · rintro rfl
    split_ifs with hx
    · have h0 : (0 : K) ≤ (⌊x⌋ : ℤ) := by exact_mod_cast Int.floor_nonneg.mpr hx
      rw [abs_of_nonneg hx, abs_of_nonneg h0]
      exact ⟨Int.floor_le x, Int.lt_floor_add_one x, mul_nonneg hx h0⟩
    · push Not at hx
      have h0 : ((⌈x⌉ : ℤ) : K) ≤ 0 := by
        have : ⌈x⌉ ≤ 0 := Int.ceil_le.mpr (by simpa using hx.le)
        exact_mod_cast this
      rw [abs_of_neg hx, abs_of_nonpos h0]
      refine ⟨by linarith [Int.le_ceil x], by linarith [Int.ceil_lt_add_one x], mul_nonneg_of_nonpos_of_nonpos hx.le h0⟩

/-- **C123**, exactly: integer data give the result of the same numbers stored as floats, in every respect except that the decimals are
cut off; where the float result is missing the stored integer is arbitrary. Calls fail alike. -/
theorem C123_exact (lg : K → K) (levDim cf : Option String) (method : String) (p0 : K) (sig : List K) (data : LArr ℤ) (ps hyam hybm : LArr K) :
    (∀ e, interpSigmaToHybridInt lg levDim cf method p0 sig data ps hyam hybm = .error e ↔
      interpSigmaToHybrid lg levDim cf method p0 sig (data.map (fun z : ℤ => .fin (z : K))) ps hyam hybm = .error e) ∧
    ∀ out hlev, interpSigmaToHybridInt lg levDim cf method p0 sig data ps hyam hybm = .ok (out, hlev) →
      ∃ flt, interpSigmaToHybrid lg levDim cf method p0 sig (data.map (fun z : ℤ => .fin (z : K))) ps hyam hybm = .ok (flt, hlev) ∧
        out.dims = flt.dims ∧ out.size = flt.size ∧
        ∀ i x, flt.get i = .fin x → ∃ z, out.get i = some z ∧ IsTruncated x z := by
  unfold interpSigmaToHybridInt
  cases h : interpSigmaToHybrid lg levDim cf method p0 sig (data.map (fun z : ℤ => .fin (z : K))) ps hyam hybm with
  | error e => exact ⟨fun e' => by simp [bind, Except.bind], fun out hlev h' => by cases h'⟩
  | ok r =>
    refine ⟨fun e => ⟨fun h' => (by cases h'), fun h' => (by cases h')⟩, fun out hlev h' => ?_⟩
    simp only [bind, Except.bind, pure, Except.pure, Except.ok.injEq, Prod.mk.injEq] at h'
    obtain ⟨rfl, rfl⟩ := h'
    refine ⟨r.1, rfl, rfl, rfl, fun i x hx => ⟨if 0 ≤ x then ⌊x⌋ else ⌈x⌉, ?_, (truncated_iff x _).mpr rfl⟩⟩
    simp only [LArr.map, hx, toIntType]

/-- **C123** (partial): a point whose interpolated value is a whole number is right. Missing: every other value, which is truncated. -/
theorem C123_whole_partial (lg : K → K) (levDim cf : Option String) (method : String) (p0 : K) (sig : List K) (data : LArr ℤ) (ps hyam hybm : LArr K)
    (flt : LArr (XF K)) (hlev : List K)
    (h : interpSigmaToHybrid lg levDim cf method p0 sig (data.map (fun z : ℤ => .fin (z : K))) ps hyam hybm = .ok (flt, hlev)) :
    ∃ out, interpSigmaToHybridInt lg levDim cf method p0 sig data ps hyam hybm = .ok (out, hlev) ∧ out.dims = flt.dims ∧
      ∀ i x, flt.get i = .fin x → ((∃ z : ℤ, out.get i = some z ∧ (z : K) = x) ↔ ∃ z : ℤ, (z : K) = x) := by
  refine ⟨flt.map toIntType, ?_, rfl, fun i x hx => ?_⟩
  · unfold interpSigmaToHybridInt
    rw [h]
    rfl
  · constructor
    · rintro ⟨z, -, hz⟩; exact ⟨z, hz⟩
    · rintro ⟨z, rfl⟩
      refine ⟨z, ?_, rfl⟩
      simp only [LArr.map, hx, toIntType]
      split_ifs <;> simp

end

/-- values 0 and 1 on the sigma levels 0 and 1, one column -/
def intColumn : LArr ℤ := ⟨["lat", "lev"], fun d => if d = "lev" then 2 else 1, fun i => i "lev"⟩
def onePs : LArr ℚ := ⟨["lat"], fun _ => 1, fun _ => 100000⟩

/-- **C123** is false: halfway between integer data 0 and 1 the result is 0, the same numbers as floats give 1/2. -/
theorem C123_counterexample :
    (interpSigmaToHybridInt id (some "lev") none "linear" 100000 [0, 1] intColumn onePs (vec "hyb" 1 (fun _ => 0)) (vec "hyb" 1 (fun _ => (1 / 2 : ℚ)))).toOption.map
      (fun r => r.1.get (fun _ => 0)) = some (some 0) ∧
    (interpSigmaToHybrid id (some "lev") none "linear" 100000 [0, 1] (intColumn.map (fun z : ℤ => .fin (z : ℚ))) onePs (vec "hyb" 1 (fun _ => 0))
      (vec "hyb" 1 (fun _ => (1 / 2 : ℚ)))).toOption.map (fun r => r.1.get (fun _ => 0)) = some (.fin (1 / 2)) := by
  constructor <;> decide +kernel

example : IsTruncated (-(7 / 2) : ℚ) (-3) ∧ ¬ IsTruncated (-(7 / 2) : ℚ) (-4) := by
  constructor
  · rw [truncated_iff]; decide +kernel
  · rw [truncated_iff]; decide +kernel

end Verif.Props
