import Verif.Model.Interp1d
import Verif.Spec.Interp
import Verif.Spec.Layers
import Verif.Lemmas.DeltaPressure
import Verif.Lemmas.DeltaPressure2
import Verif.Lemmas.Psi

set_option linter.unusedSectionVars false
namespace Verif.Lemmas
open Model Spec
variable {K : Type _} [Field K] [LinearOrder K] [IsStrictOrderedRing K]

theorem takeWhile_length_spec {α : Type _} (q : α → Bool) (l : List α) :
    (∀ k a, l[k]? = some a → k < (l.takeWhile q).length → q a = true) ∧
    (∀ a, l[(l.takeWhile q).length]? = some a → q a = false) ∧ (l.takeWhile q).length ≤ l.length := by
  induction l with
  | nil => simp
  | cons b l ih =>
    by_cases hb : q b = true
    · simp only [List.takeWhile_cons, hb, if_true, List.length_cons]
      refine ⟨?_, ?_, by omega⟩
      · intro k a h1 h2
        cases k with
        | zero => simp at h1; rwa [← h1]
        | succ k => exact ih.1 k a (by simpa using h1) (by omega)
      · intro a h
        exact ih.2.1 a (by simpa using h)
    · simp [List.takeWhile_cons, hb]

/-- the sorted column is again a column of pairs, strictly increasing, containing every level -/
theorem sortPairs_column (n : ℕ) (p : ℕ → K) (v : ℕ → XF K) (hd : Distinct n p) :
    ∃ σ : ℕ → ℕ, (∀ i < n, σ i < n) ∧ (∀ k < n, ∃ i < n, σ i = k) ∧ (∀ i j, i < j → j < n → p (σ i) < p (σ j)) ∧
      (sortPairs (column n p) (column n v)).map (·.1) = column n (fun i => p (σ i)) ∧
      (sortPairs (column n p) (column n v)).map (·.2) = column n (fun i => v (σ i)) := by
  have hz : (column n p).zip (column n v) = (List.range n).map (fun k => (p k, v k)) := by
    simp [column, List.zip, List.zipWith_map, List.zipWith_self]
  -- sort the level numbers instead
  let r : ℕ → ℕ → Prop := fun a b => p a ≤ p b
  haveI : DecidableRel r := fun a b => inferInstanceAs (Decidable (p a ≤ p b))
  haveI : Std.Total r := ⟨fun a b => le_total (p a) (p b)⟩
  haveI : IsTrans ℕ r := ⟨fun a b c => le_trans⟩
  let l := (List.range n).insertionSort r
  have hperm : l.Perm (List.range n) := List.perm_insertionSort r _
  have hsort : l.Pairwise r := List.pairwise_insertionSort r _
  have hlen : l.length = n := by rw [hperm.length_eq, List.length_range]
  have hs : sortPairs (column n p) (column n v) = l.map (fun k => (p k, v k)) := by
    unfold sortPairs
    rw [hz]
    exact (List.map_insertionSort r (fun a b : K × XF K => a.1 ≤ b.1) (fun k => (p k, v k)) (List.range n)
      (fun a _ b _ => Iff.rfl)).symm
  have hnd : l.Nodup := hperm.nodup_iff.mpr List.nodup_range
  refine ⟨fun i => l.getD i 0, ?_, ?_, ?_, ?_, ?_⟩
  · intro i hi
    have hi' : i < l.length := by omega
    have : l[i] ∈ List.range n := hperm.mem_iff.mp (List.getElem_mem hi')
    simpa [List.getD_eq_getElem?_getD, hi'] using this
  · intro k hk
    have : k ∈ l := hperm.mem_iff.mpr (List.mem_range.mpr hk)
    obtain ⟨i, hi, rfl⟩ := List.getElem_of_mem this
    exact ⟨i, by omega, by simp [List.getD_eq_getElem?_getD, hi]⟩
  · intro i j hij hj
    have hi' : i < l.length := by omega
    have hj' : j < l.length := by omega
    have h1 : r l[i] l[j] := List.pairwise_iff_getElem.mp hsort i j hi' hj' hij
    have h2 : l[i] ≠ l[j] := fun h => by
      have := (List.Nodup.getElem_inj_iff hnd).mp h
      omega
    have m1 : l[i] < n := by simpa using hperm.mem_iff.mp (List.getElem_mem hi')
    have m2 : l[j] < n := by simpa using hperm.mem_iff.mp (List.getElem_mem hj')
    simp only [List.getD_eq_getElem?_getD, hi', hj', List.getElem?_eq_getElem, Option.getD_some]
    exact lt_of_le_of_ne h1 (fun h => h2 (hd _ m1 _ m2 h))
  · rw [hs]
    apply List.ext_getElem
    · simp [column, hlen]
    · intro i h1 h2
      have hi' : i < l.length := by simpa using h1
      simp [column, List.getD_eq_getElem?_getD, hi']
  · rw [hs]
    apply List.ext_getElem
    · simp [column, hlen]
    · intro i h1 h2
      have hi' : i < l.length := by simpa using h1
      simp [column, List.getD_eq_getElem?_getD, hi']

theorem index_column {α : Type _} (n : ℕ) (f : ℕ → α) (i : ℕ) (h : i < n) : Py.index (column n f) (i : Int) = .ok (f i) := by
  rw [Py.index_nat _ _ (by simpa [column] using h)]
  simp [column]

/-- one requested coordinate on a strictly increasing column of at least two levels -/
theorem interpPoint_spec (n : ℕ) (hn : 2 ≤ n) (q : ℕ → K) (w : ℕ → XF K) (hq : ∀ i j, i < j → j < n → q i < q j) (x : K) :
    ∃ y, interpPoint (column n q) (column n w) x = .ok y ∧
      ((Outside n q x ∧ y = .nan) ∨
       (¬ Outside n q x ∧ ∃ i, i + 1 < n ∧ q i ≤ x ∧ x ≤ q (i + 1) ∧ y = lineValue (q i) (q (i + 1)) (w i) (w (i + 1)) x ∧
         (0 < i → q i < x))) := by
  have hlen : (column n q).length = n := by simp [column]
  obtain ⟨h1, h2, h3⟩ := takeWhile_length_spec (fun a => decide (a < x)) (column n q)
  rw [hlen] at h3
  set m := searchLeft (column n q) x with hm
  have hm' : ((column n q).takeWhile (fun a => decide (a < x))).length = m := rfl
  rw [hm'] at h1 h2 h3
  have low : ∀ k, k < m → q k < x := by
    intro k hk
    have := h1 k (q k) (column_getElem? _ _ _ (by omega)) hk
    simpa using this
  have high : m < n → x ≤ q m := by
    intro h
    have := h2 (q m) (column_getElem? _ _ _ h)
    simpa using this
  have line : ∀ i, i + 1 < n → ∀ (m2 : Int), m2 = ((i + 1 : ℕ) : Int) →
      (do
        let xa ← Py.index (column n q) m2
        let xb ← Py.index (column n q) (m2 - 1)
        let va ← Py.index (column n w) m2
        let vb ← Py.index (column n w) (m2 - 1)
        if m = n ∨ x < xb then return .nan
        else return (vb + (va - vb) * (.fin (x - xb) / .fin (xa - xb))) : Except PyErr (XF K))
      = .ok (if m = n ∨ x < q i then .nan else lineValue (q i) (q (i + 1)) (w i) (w (i + 1)) x) := by
    intro i hi m2 hm2
    have e1 : m2 - 1 = (i : Int) := by rw [hm2]; push_cast; ring
    rw [e1, hm2, index_column n q _ hi, index_column n q i (by omega), index_column n w _ hi, index_column n w i (by omega)]
    have hne : q (i + 1) - q i ≠ 0 := sub_ne_zero.mpr (hq i (i + 1) (by omega) hi).ne'
    simp only [bind, Except.bind, pure, Except.pure, XF.fin_div _ _ hne]
    split <;> rfl
  have unfoldP : ∀ (m2 : Int), (if m = 0 then (1 : Int) else if m = n then (n : Int) - 1 else m) = m2 →
      interpPoint (column n q) (column n w) x = (do
        let xa ← Py.index (column n q) m2
        let xb ← Py.index (column n q) (m2 - 1)
        let va ← Py.index (column n w) m2
        let vb ← Py.index (column n w) (m2 - 1)
        if m = n ∨ x < xb then return .nan
        else return (vb + (va - vb) * (.fin (x - xb) / .fin (xa - xb))) : Except PyErr (XF K)) := by
    intro m2 h
    subst h
    unfold interpPoint
    simp only [hlen, ← hm]
  by_cases m0 : m = 0
  · refine ⟨_, (unfoldP 1 (by simp [m0])).trans (line 0 (by omega) 1 (by norm_num)), ?_⟩
    have hx : x ≤ q 0 := by rw [← m0]; exact high (by omega)
    by_cases hx0 : x < q 0
    · left
      refine ⟨Or.inl (fun k hk => ?_), by simp [hx0]⟩
      rcases Nat.eq_zero_or_pos k with rfl | hk0
      · exact hx0
      · exact hx0.trans (hq 0 k hk0 hk)
    · right
      have hxe : x = q 0 := le_antisymm hx (not_lt.mp hx0)
      refine ⟨?_, 0, by omega, hxe.ge, by rw [hxe]; exact (hq 0 1 (by omega) (by omega)).le, ?_, by omega⟩
      · rintro (h | h)
        · exact hx0 (h 0 (by omega))
        · have := h 0 (by omega)
          rw [hxe] at this
          exact lt_irrefl _ this
      · have : m ≠ n := by omega
        simp [this, hx0]
  · by_cases mn : m = n
    · have e : ((n : Int) - 1) = ((n - 2 + 1 : ℕ) : Int) := by omega
      refine ⟨_, (unfoldP ((n : Int) - 1) (by rw [if_neg m0, if_pos mn])).trans (line (n - 2) (by omega) _ e), Or.inl ⟨Or.inr (fun k hk => low k (by omega)), by simp [mn]⟩⟩
    · have e : ((m : ℕ) : Int) = ((m - 1 + 1 : ℕ) : Int) := by omega
      refine ⟨_, (unfoldP m (by rw [if_neg m0, if_neg mn])).trans (line (m - 1) (by omega) _ e), Or.inr ⟨?_, m - 1, by omega, (low (m - 1) (by omega)).le, ?_, ?_, fun _ => low (m - 1) (by omega)⟩⟩
      · rintro (h | h)
        · have a := h (m - 1) (by omega)
          have b := low (m - 1) (by omega)
          exact lt_asymm a b
        · have a := h m (by omega)
          exact absurd (high (by omega)) (not_le.mpr a)
      · have := high (by omega)
        rwa [Nat.sub_add_cancel (by omega)]
      · have b := low (m - 1) (by omega)
        have : ¬ (m = n ∨ x < q (m - 1)) := by
          rintro (h | h)
          · exact mn h
          · exact lt_asymm h b
        rw [if_neg this]

/-- one requested coordinate on any column with distinct coordinates -/
theorem interpPoint_interpAt (n : ℕ) (hn : 2 ≤ n) (p : ℕ → K) (v : ℕ → XF K) (hd : Distinct n p) (x : K) :
    ∃ y, interpPoint ((sortPairs (column n p) (column n v)).map (·.1)) ((sortPairs (column n p) (column n v)).map (·.2)) x
      = .ok y ∧ InterpAt n p v x y := by
  obtain ⟨σ, s1, s2, s3, s4, s5⟩ := sortPairs_column n p v hd
  rw [s4, s5]
  obtain ⟨y, hy, h⟩ := interpPoint_spec n hn (fun i => p (σ i)) (fun i => v (σ i)) s3 x
  refine ⟨y, hy, ?_⟩
  have hout : Outside n (fun i => p (σ i)) x ↔ Outside n p x := by
    constructor
    · rintro (h | h)
      · refine Or.inl (fun k hk => ?_)
        obtain ⟨i, hi, rfl⟩ := s2 k hk
        exact h i hi
      · refine Or.inr (fun k hk => ?_)
        obtain ⟨i, hi, rfl⟩ := s2 k hk
        exact h i hi
    · rintro (h | h)
      · exact Or.inl (fun k hk => h _ (s1 k hk))
      · exact Or.inr (fun k hk => h _ (s1 k hk))
  rcases h with ⟨h, rfl⟩ | ⟨h, i, hi, ha, hb, hy', -⟩
  · exact Or.inl ⟨hout.mp h, rfl⟩
  · refine Or.inr ⟨fun h' => h (hout.mpr h'), σ i, σ (i + 1), ⟨s1 i (by omega), s1 _ hi, s3 i (i + 1) (by omega) hi, ha, hb, ?_⟩, hy'⟩
    intro k hk ⟨h1, h2⟩
    obtain ⟨j, hj, rfl⟩ := s2 k hk
    rcases lt_trichotomy j i with h | h | h
    · exact lt_asymm (s3 j i h (by omega)) h1
    · subst h; exact lt_irrefl _ h1
    · rcases Nat.lt_or_ge (i + 1) j with h' | h'
      · exact lt_asymm (s3 (i + 1) j h' hj) h2
      · have : j = i + 1 := by omega
        subst this
        exact lt_irrefl _ h2

/-- interpolation of a whole list of requested coordinates, given in increasing or decreasing order -/
theorem interpolate1d_spec (n : ℕ) (hn : 2 ≤ n) (p : ℕ → K) (v : ℕ → XF K) (hd : Distinct n p) (x : List K) (hx : x ≠ [])
    (hs : Sorted x) :
    ∃ y, interpolate1d x (column n p) (column n v) = .ok y ∧ List.Forall₂ (InterpAt n p v) x y := by
  have total : ∀ l : List K, ∃ r, l.mapM (interpPoint ((sortPairs (column n p) (column n v)).map (·.1))
      ((sortPairs (column n p) (column n v)).map (·.2))) = .ok r ∧ List.Forall₂ (InterpAt n p v) l r := by
    intro l
    induction l with
    | nil => exact ⟨[], rfl, List.Forall₂.nil⟩
    | cons a l ih =>
      obtain ⟨r, hr, hf⟩ := ih
      obtain ⟨y, hy, hi⟩ := interpPoint_interpAt n hn p v hd a
      exact ⟨y :: r, by simp [List.mapM_cons, hr, hy, bind, Except.bind, pure, Except.pure], List.Forall₂.cons hi hf⟩
  have hlen : (column n p).length = (column n v).length := by simp [column]
  obtain ⟨f, hf⟩ : ∃ f : ℕ → K, x = column x.length f := @list_eq_column K ⟨0⟩ x
  have hxl : 1 ≤ x.length := List.length_pos_of_ne_nil hx
  have i0 : Py.index x 0 = .ok (f 0) := by rw [hf]; exact index_first _ hxl f
  have i1 : Py.index x (-1) = .ok (f (x.length - 1)) := by
    conv_lhs => rw [hf]
    exact index_last _ hxl f
  have hemp : x.isEmpty = false := by simpa using hx
  have hfi : ∀ i (h : i < x.length), x[i] = f i := by
    intro i h
    have : x[i]? = some (f i) := by
      conv_lhs => rw [hf]
      exact column_getElem? _ _ _ h
    rw [List.getElem?_eq_getElem h] at this
    exact Option.some.inj this
  have run : ∀ r, (x.insertionSort (· ≤ ·)).mapM (interpPoint ((sortPairs (column n p) (column n v)).map (·.1))
      ((sortPairs (column n p) (column n v)).map (·.2))) = .ok r →
      interpolate1d x (column n p) (column n v) = .ok (if f (x.length - 1) < f 0 then r.reverse else r) := by
    intro r hr
    unfold interpolate1d
    simp [hlen, hemp, hr, i0, i1, bind, Except.bind, pure, Except.pure]
  rcases hs with hs | hs
  · obtain ⟨r, hr, hfr⟩ := total x
    have hsort : x.insertionSort (· ≤ ·) = x := hs.insertionSort_eq
    rw [← hsort] at hr
    refine ⟨_, run r hr, ?_⟩
    have : ¬ f (x.length - 1) < f 0 := by
      rcases Nat.eq_or_lt_of_le hxl with h | h
      · rw [← h]; simp
      · have := List.pairwise_iff_getElem.mp hs 0 (x.length - 1) (by omega) (by omega) (by omega)
        rw [hfi, hfi] at this
        exact not_lt.mpr this
    rw [if_neg this]
    exact hfr
  · have hsort : x.insertionSort (· ≤ ·) = x.reverse := by
      refine List.Perm.eq_of_pairwise' (r := (· ≤ ·)) (List.pairwise_insertionSort _ _) (List.pairwise_reverse.mpr hs) ?_
      exact (List.perm_insertionSort _ _).trans (List.reverse_perm x).symm
    obtain ⟨r, hr, hfr⟩ := total x.reverse
    rw [← hsort] at hr
    refine ⟨_, run r hr, ?_⟩
    split
    · have := List.rel_reverse hfr
      rwa [List.reverse_reverse] at this
    · rename_i hlt
      -- first = last in a decreasing list: all requested values are equal
      have hall : ∀ i (h : i < x.length), x[i] = f 0 := by
        intro i h
        have hge : f (x.length - 1) = f 0 := by
          apply le_antisymm
          · rcases Nat.eq_or_lt_of_le hxl with h | h
            · rw [← h]
            · have := List.pairwise_iff_getElem.mp hs 0 (x.length - 1) (by omega) (by omega) (by omega)
              rw [hfi, hfi] at this
              exact this
          · exact not_lt.mp hlt
        rw [hfi]
        apply le_antisymm
        · rcases Nat.eq_zero_or_pos i with rfl | hi
          · exact le_refl _
          · have := List.pairwise_iff_getElem.mp hs 0 i (by omega) h hi
            rw [hfi, hfi] at this
            exact this
        · rw [← hge]
          rcases Nat.lt_or_ge i (x.length - 1) with hi | hi
          · have := List.pairwise_iff_getElem.mp hs i (x.length - 1) h (by omega) hi
            rw [hfi, hfi] at this
            exact this
          · have : i = x.length - 1 := by omega
            rw [this]
      have hrev : x.reverse = x := by
        apply List.ext_getElem
        · simp
        · intro i h1 h2
          rw [List.getElem_reverse, hall, hall]
      rw [hrev] at hfr
      exact hfr

end Verif.Lemmas
