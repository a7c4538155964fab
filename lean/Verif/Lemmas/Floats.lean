import Verif.Model.Floats
import Verif.Lemmas.Interp1d

set_option linter.unusedSectionVars false
namespace Verif.Lemmas
open Model Spec
variable {K : Type _} [Field K] [LinearOrder K] [IsStrictOrderedRing K]

/-! ### interpolation -/

/-- the exact formula of metpy -/
def lineExact (xb xa : K) (vb va : XF K) (x : K) : XF K := vb + (va - vb) * (.fin (x - xb) / .fin (xa - xb))

theorem interpPoint_eq (xp : List K) (v : List (XF K)) (x : K) : interpPoint xp v x = interpPointBy lineExact xp v x := rfl

theorem roundXF_exact (y : XF K) : roundXF Rounding.exact y = y := by cases y <;> rfl

theorem lineFl_exact (xb xa : K) (vb va : XF K) (x : K) : lineFl Rounding.exact xb xa vb va x = lineExact xb xa vb va x := by
  unfold lineFl lineExact
  simp only [roundXF_exact]
  rfl

theorem interpolate1dFl_exact (x xp : List K) (v : List (XF K)) : interpolate1dFl Rounding.exact x xp v = interpolate1d x xp v := by
  have : interpPointBy (lineFl (Rounding.exact : Rounding K)) = interpPoint := by
    funext xp v x
    rw [interpPoint_eq]
    congr 1
    funext a b c d e
    exact lineFl_exact a b c d e
  unfold interpolate1dFl interpolate1d
  rw [this]

/-- one requested coordinate on a strictly increasing column of at least two levels, for any formula -/
theorem interpPointBy_spec (line : K → K → XF K → XF K → K → XF K) (n : ℕ) (hn : 2 ≤ n) (q : ℕ → K) (w : ℕ → XF K)
    (hq : ∀ i j, i < j → j < n → q i < q j) (x : K) :
    ∃ y, interpPointBy line (column n q) (column n w) x = .ok y ∧
      ((Outside n q x ∧ y = .nan) ∨
       (¬ Outside n q x ∧ ∃ i, i + 1 < n ∧ q i ≤ x ∧ x ≤ q (i + 1) ∧ y = line (q i) (q (i + 1)) (w i) (w (i + 1)) x ∧
         (0 < i → q i < x))) := by
  have hlen : (column n q).length = n := by simp [column]
  obtain ⟨h1, h2, h3⟩ := takeWhile_length_spec (fun a => decide (a < x)) (column n q)
  rw [hlen] at h3
  set m := searchLeft (column n q) x with hm
  have hm' : ((column n q).takeWhile (fun a => decide (a < x))).length = m := rfl
  rw [hm'] at h1 h2 h3
  have low : ∀ k, k < m → q k < x := by
    intro k hk
    have := h1 k (q k) (column_getElem? _ _ _ (by omega)) hk
    simpa using this
  have high : m < n → x ≤ q m := by
    intro h
    have := h2 (q m) (column_getElem? _ _ _ h)
    simpa using this
  have run : ∀ i, i + 1 < n → (if m = 0 then (1 : Int) else if m = n then (n : Int) - 1 else m) = ((i + 1 : ℕ) : Int) →
      interpPointBy line (column n q) (column n w) x
        = .ok (if m = n ∨ x < q i then .nan else line (q i) (q (i + 1)) (w i) (w (i + 1)) x) := by
    intro i hi h
    have e1 : ((i + 1 : ℕ) : Int) - 1 = (i : Int) := by push_cast; ring
    unfold interpPointBy
    simp only [hlen, ← hm]
    rw [h, e1, index_column n q _ hi, index_column n q i (by omega), index_column n w _ hi, index_column n w i (by omega)]
    simp only [bind, Except.bind, pure, Except.pure]
    split <;> rfl
  by_cases m0 : m = 0
  · refine ⟨_, run 0 (by omega) (by simp [m0]), ?_⟩
    have hx : x ≤ q 0 := by rw [← m0]; exact high (by omega)
    by_cases hx0 : x < q 0
    · left
      refine ⟨Or.inl (fun k hk => ?_), by simp [hx0]⟩
      rcases Nat.eq_zero_or_pos k with rfl | hk0
      · exact hx0
      · exact hx0.trans (hq 0 k hk0 hk)
    · right
      have hxe : x = q 0 := le_antisymm hx (not_lt.mp hx0)
      refine ⟨?_, 0, by omega, hxe.ge, by rw [hxe]; exact (hq 0 1 (by omega) (by omega)).le, ?_, by omega⟩
      · rintro (h | h)
        · exact hx0 (h 0 (by omega))
        · have := h 0 (by omega)
          rw [hxe] at this
          exact lt_irrefl _ this
      · have : m ≠ n := by omega
        simp [this, hx0]
  · by_cases mn : m = n
    · refine ⟨_, run (n - 2) (by omega) (by rw [if_neg m0, if_pos mn]; omega), Or.inl ⟨Or.inr (fun k hk => low k (by omega)), by simp [mn]⟩⟩
    · refine ⟨_, run (m - 1) (by omega) (by rw [if_neg m0, if_neg mn]; omega), Or.inr ⟨?_, m - 1, by omega, (low (m - 1) (by omega)).le, ?_, ?_, fun _ => low (m - 1) (by omega)⟩⟩
      · rintro (h | h)
        · exact lt_asymm (h (m - 1) (by omega)) (low (m - 1) (by omega))
        · exact absurd (high (by omega)) (not_le.mpr (h m (by omega)))
      · have := high (by omega)
        rwa [Nat.sub_add_cancel (by omega)]
      · have b := low (m - 1) (by omega)
        have : ¬ (m = n ∨ x < q (m - 1)) := by
          rintro (h | h)
          · exact mn h
          · exact lt_asymm h b
        rw [if_neg this]

/-- `y` is the interpolated value at `x` by some formula: missing outside the column, else from two neighbouring levels around `x`, the lower
of which is below `x` unless `x` is the lowest level -/
def InterpBy (line : K → K → XF K → XF K → K → XF K) (n : ℕ) (p : ℕ → K) (v : ℕ → XF K) (x : K) (y : XF K) : Prop :=
  (Outside n p x ∧ y = .nan) ∨
  (¬ Outside n p x ∧ ∃ i j, Bracket n p x i j ∧ y = line (p i) (p j) (v i) (v j) x ∧ (p i < x ∨ ∀ k < n, x ≤ p k))

theorem interpPointBy_interp (line : K → K → XF K → XF K → K → XF K) (n : ℕ) (hn : 2 ≤ n) (p : ℕ → K) (v : ℕ → XF K)
    (hd : Distinct n p) (x : K) :
    ∃ y, interpPointBy line ((sortPairs (column n p) (column n v)).map (·.1)) ((sortPairs (column n p) (column n v)).map (·.2)) x
      = .ok y ∧ InterpBy line n p v x y := by
  obtain ⟨σ, s1, s2, s3, s4, s5⟩ := sortPairs_column n p v hd
  rw [s4, s5]
  obtain ⟨y, hy, h⟩ := interpPointBy_spec line n hn (fun i => p (σ i)) (fun i => v (σ i)) s3 x
  refine ⟨y, hy, ?_⟩
  have hout : Outside n (fun i => p (σ i)) x ↔ Outside n p x := by
    constructor
    · rintro (h | h)
      · refine Or.inl (fun k hk => ?_)
        obtain ⟨i, hi, rfl⟩ := s2 k hk
        exact h i hi
      · refine Or.inr (fun k hk => ?_)
        obtain ⟨i, hi, rfl⟩ := s2 k hk
        exact h i hi
    · rintro (h | h)
      · exact Or.inl (fun k hk => h _ (s1 k hk))
      · exact Or.inr (fun k hk => h _ (s1 k hk))
  rcases h with ⟨h, rfl⟩ | ⟨h, i, hi, ha, hb, hy', hlow⟩
  · exact Or.inl ⟨hout.mp h, rfl⟩
  · refine Or.inr ⟨fun h' => h (hout.mpr h'), σ i, σ (i + 1), ⟨s1 i (by omega), s1 _ hi, s3 i (i + 1) (by omega) hi, ha, hb, ?_⟩, hy', ?_⟩
    · intro k hk ⟨h1, h2⟩
      obtain ⟨j, hj, rfl⟩ := s2 k hk
      rcases lt_trichotomy j i with h | h | h
      · exact lt_asymm (s3 j i h (by omega)) h1
      · subst h; exact lt_irrefl _ h1
      · rcases Nat.lt_or_ge (i + 1) j with h' | h'
        · exact lt_asymm (s3 (i + 1) j h' hj) h2
        · have : j = i + 1 := by omega
          subst this
          exact lt_irrefl _ h2
    · rcases Nat.eq_zero_or_pos i with h0 | h0
      · rcases ha.lt_or_eq with hlt | heq
        · exact Or.inl hlt
        · refine Or.inr (fun k hk => ?_)
          obtain ⟨j, hj, rfl⟩ := s2 k hk
          subst h0
          rcases Nat.eq_zero_or_pos j with h | h
          · subst h; exact heq.ge
          · exact (heq ▸ (s3 0 j h hj).le)
      · exact Or.inl (hlow h0)

theorem interpolate1dFl_spec (R : Rounding K) (n : ℕ) (hn : 2 ≤ n) (p : ℕ → K) (v : ℕ → XF K) (hd : Distinct n p) (x : List K) (hx : x ≠ [])
    (hs : Sorted x) :
    ∃ y, interpolate1dFl R x (column n p) (column n v) = .ok y ∧ List.Forall₂ (InterpBy (lineFl R) n p v) x y := by
  have total : ∀ l : List K, ∃ r, l.mapM (interpPointBy (lineFl R) ((sortPairs (column n p) (column n v)).map (·.1))
      ((sortPairs (column n p) (column n v)).map (·.2))) = .ok r ∧ List.Forall₂ (InterpBy (lineFl R) n p v) l r := by
    intro l
    induction l with
    | nil => exact ⟨[], rfl, List.Forall₂.nil⟩
    | cons a l ih =>
      obtain ⟨r, hr, hf⟩ := ih
      obtain ⟨y, hy, hi⟩ := interpPointBy_interp (lineFl R) n hn p v hd a
      exact ⟨y :: r, by simp [List.mapM_cons, hr, hy, bind, Except.bind, pure, Except.pure], List.Forall₂.cons hi hf⟩
  have hlen : (column n p).length = (column n v).length := by simp [column]
  obtain ⟨f, hf⟩ : ∃ f : ℕ → K, x = column x.length f := @list_eq_column K ⟨0⟩ x
  have hxl : 1 ≤ x.length := List.length_pos_of_ne_nil hx
  have i0 : Py.index x 0 = .ok (f 0) := by rw [hf]; exact index_first _ hxl f
  have i1 : Py.index x (-1) = .ok (f (x.length - 1)) := by
    conv_lhs => rw [hf]
    exact index_last _ hxl f
  have hemp : x.isEmpty = false := by simpa using hx
  have hfi : ∀ i (h : i < x.length), x[i] = f i := by
    intro i h
    have : x[i]? = some (f i) := by
      conv_lhs => rw [hf]
      exact column_getElem? _ _ _ h
    rw [List.getElem?_eq_getElem h] at this
    exact Option.some.inj this
  have run : ∀ r, (x.insertionSort (· ≤ ·)).mapM (interpPointBy (lineFl R) ((sortPairs (column n p) (column n v)).map (·.1))
      ((sortPairs (column n p) (column n v)).map (·.2))) = .ok r →
      interpolate1dFl R x (column n p) (column n v) = .ok (if f (x.length - 1) < f 0 then r.reverse else r) := by
    intro r hr
    unfold interpolate1dFl
    simp [hlen, hemp, hr, i0, i1, bind, Except.bind, pure, Except.pure]
  rcases hs with hs | hs
  · obtain ⟨r, hr, hfr⟩ := total x
    have hsort : x.insertionSort (· ≤ ·) = x := hs.insertionSort_eq
    rw [← hsort] at hr
    refine ⟨_, run r hr, ?_⟩
    have : ¬ f (x.length - 1) < f 0 := by
      rcases Nat.eq_or_lt_of_le hxl with h | h
      · rw [← h]; simp
      · have := List.pairwise_iff_getElem.mp hs 0 (x.length - 1) (by omega) (by omega) (by omega)
        rw [hfi, hfi] at this
        exact not_lt.mpr this
    rw [if_neg this]
    exact hfr
  · have hsort : x.insertionSort (· ≤ ·) = x.reverse := by
      refine List.Perm.eq_of_pairwise' (r := (· ≤ ·)) (List.pairwise_insertionSort _ _) (List.pairwise_reverse.mpr hs) ?_
      exact (List.perm_insertionSort _ _).trans (List.reverse_perm x).symm
    obtain ⟨r, hr, hfr⟩ := total x.reverse
    rw [← hsort] at hr
    refine ⟨_, run r hr, ?_⟩
    split
    · have := List.rel_reverse hfr
      rwa [List.reverse_reverse] at this
    · rename_i hlt
      -- first = last in a decreasing list: all requested values are equal
      have hall : ∀ i (h : i < x.length), x[i] = f 0 := by
        intro i h
        have hge : f (x.length - 1) = f 0 := by
          apply le_antisymm
          · rcases Nat.eq_or_lt_of_le hxl with h | h
            · rw [← h]
            · have := List.pairwise_iff_getElem.mp hs 0 (x.length - 1) (by omega) (by omega) (by omega)
              rw [hfi, hfi] at this
              exact this
          · exact not_lt.mp hlt
        rw [hfi]
        apply le_antisymm
        · rcases Nat.eq_zero_or_pos i with rfl | hi
          · exact le_refl _
          · have := List.pairwise_iff_getElem.mp hs 0 i (by omega) h hi
            rw [hfi, hfi] at this
            exact this
        · rw [← hge]
          rcases Nat.lt_or_ge i (x.length - 1) with hi | hi
          · have := List.pairwise_iff_getElem.mp hs i (x.length - 1) h (by omega) hi
            rw [hfi, hfi] at this
            exact this
          · have : i = x.length - 1 := by omega
            rw [this]
      have hrev : x.reverse = x := by
        apply List.ext_getElem
        · simp
        · intro i h1 h2
          rw [List.getElem_reverse, hall, hall]
      rw [hrev] at hfr
      exact hfr

end Verif.Lemmas
