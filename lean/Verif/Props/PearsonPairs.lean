import Verif.Props.Pearson
import Mathlib.Algebra.BigOperators.Finsupp.Basic

/-
Property C217: pearson_r depends only on how much weight each pair of values has.
-/

set_option linter.unusedSectionVars false

namespace Verif.Spec

/-- the total weight of the samples with the values `x` and `y` -/
noncomputable def pairWeight (ws : List ℝ) (a b : List (Option ℝ)) (x y : ℝ) : ℝ :=
  ((List.zip ws (List.zip a b)).map (fun z => if z.2 = (some x, some y) then z.1 else 0)).sum

/-- each element of the list, as many times in a row as the number at its place says -/
def repeated {α : Type} (ns : List ℕ) (l : List α) : List α := (List.zip ns l).flatMap (fun z => List.replicate z.1 z.2)

end Verif.Spec

namespace Verif.Props
open Model Spec Lemmas

namespace PearsonPairs

/-- the weight of each pair -/
noncomputable def weightOf (V : List (ℝ × ℝ × ℝ)) : (ℝ × ℝ) →₀ ℝ := (V.map (fun z => Finsupp.single z.2 z.1)).sum

theorem weightOf_cons (z : ℝ × ℝ × ℝ) (V : List (ℝ × ℝ × ℝ)) : weightOf (z :: V) = Finsupp.single z.2 z.1 + weightOf V := by
  simp [weightOf]

theorem weightOf_eq (ws : List ℝ) : ∀ (a b : List (Option ℝ)) (x y : ℝ), weightOf (validCells ws a b) (x, y) = pairWeight ws a b x y := by
  induction ws with
  | nil => intro a b x y; simp [weightOf, validCells, pairWeight]
  | cons w ws ih =>
    intro a b x y
    cases a with
    | nil => simp [weightOf, validCells, pairWeight]
    | cons a as =>
      cases b with
      | nil => simp [weightOf, validCells, pairWeight]
      | cons b bs =>
        have e : pairWeight (w :: ws) (a :: as) (b :: bs) x y = (if (a, b) = (some x, some y) then w else 0) + pairWeight ws as bs x y := by
          simp [pairWeight]
        rw [e, ← ih as bs x y]
        cases a with
        | none => simp [validCells]
        | some a =>
          cases b with
          | none => simp [validCells]
          | some b =>
            have e2 : validCells (w :: ws) (some a :: as) (some b :: bs) = (w, a, b) :: validCells ws as bs := by simp [validCells]
            rw [e2, weightOf_cons, Finsupp.add_apply, Finsupp.single_apply]
            congr 1
            simp

theorem sum_weightOf (f : ℝ × ℝ → ℝ) (V : List (ℝ × ℝ × ℝ)) : (V.map (fun z => z.1 * f z.2)).sum = (weightOf V).sum (fun p w => w * f p) := by
  induction V with
  | nil => simp [weightOf]
  | cons z V ih =>
    rw [weightOf_cons, Finsupp.sum_add_index' (fun p => by simp) (fun p w w' => by ring), Finsupp.sum_single_index (by simp), ← ih]
    simp

theorem sum_congr_weight {V V' : List (ℝ × ℝ × ℝ)} (h : weightOf V = weightOf V') (f : ℝ × ℝ → ℝ) :
    (V.map (fun z => z.1 * f z.2)).sum = (V'.map (fun z => z.1 * f z.2)).sum := by
  rw [sum_weightOf, sum_weightOf, h]

theorem weightOf_pos (V : List (ℝ × ℝ × ℝ)) (hw : ∀ z ∈ V, 0 < z.1) (p : ℝ × ℝ) : 0 ≤ weightOf V p ∧ (0 < weightOf V p ↔ ∃ z ∈ V, z.2 = p) := by
  induction V with
  | nil => simp [weightOf]
  | cons z V ih =>
    obtain ⟨h1, h2⟩ := ih (fun y hy => hw y (List.mem_cons_of_mem _ hy))
    have hz := hw z (by simp)
    rw [weightOf_cons, Finsupp.add_apply, Finsupp.single_apply]
    by_cases h : z.2 = p
    · rw [if_pos h]
      refine ⟨by linarith, fun _ => ⟨z, by simp, h⟩, fun _ => by linarith⟩
    · rw [if_neg h, zero_add]
      refine ⟨h1, h2.trans ⟨fun ⟨y, hy, e⟩ => ⟨y, List.mem_cons_of_mem _ hy, e⟩, fun ⟨y, hy, e⟩ => ?_⟩⟩
      rcases List.mem_cons.mp hy with rfl | hy
      · exact absurd e h
      · exact ⟨y, hy, e⟩

theorem varies_congr {V V' : List (ℝ × ℝ × ℝ)} (h : weightOf V = weightOf V') (hw : ∀ z ∈ V, 0 < z.1) (hw' : ∀ z ∈ V', 0 < z.1) (f : ℝ × ℝ → ℝ) :
    Varies V (fun z => f z.2) → Varies V' (fun z => f z.2) := by
  have key : ∀ z ∈ V, ∃ z' ∈ V', z'.2 = z.2 := by
    intro z hz
    have := ((weightOf_pos V hw z.2).2).mpr ⟨z, hz, rfl⟩
    rw [h] at this
    exact ((weightOf_pos V' hw' z.2).2).mp this
  rintro ⟨x, hx, y, hy, hne⟩
  obtain ⟨x', hx', ex⟩ := key x hx
  obtain ⟨y', hy', ey⟩ := key y hy
  refine ⟨x', hx', y', hy', ?_⟩
  show f x'.2 ≠ f y'.2
  rw [ex, ey]
  exact hne

theorem correlation_congr {V V' : List (ℝ × ℝ × ℝ)} (h : weightOf V = weightOf V') : correlation V = correlation V' := by
  have hm : ∀ f : ℝ × ℝ → ℝ, wMean V (·.1) (fun z => f z.2) = wMean V' (·.1) (fun z => f z.2) := by
    intro f
    unfold wMean
    have h1 := sum_congr_weight h (fun _ => 1)
    simp only [mul_one] at h1
    rw [sum_congr_weight h f, h1]
  have ha := hm Prod.fst
  have hb := hm Prod.snd
  unfold correlation
  rw [ha, hb]
  have e1 := sum_congr_weight h (fun p => (p.1 - wMean V' (·.1) (·.2.1)) * (p.2 - wMean V' (·.1) (·.2.2)))
  have e2 := sum_congr_weight h (fun p => (p.1 - wMean V' (·.1) (·.2.1)) ^ 2)
  have e3 := sum_congr_weight h (fun p => (p.2 - wMean V' (·.1) (·.2.2)) ^ 2)
  simp only [← mul_assoc] at e1
  rw [e1, e2, e3]

theorem valid_pos (ws : List ℝ) (h : ∀ w ∈ ws, 0 < w) (a b : List (Option ℝ)) : ∀ z ∈ validCells ws a b, 0 < z.1 := by
  intro z hz
  unfold validCells at hz
  obtain ⟨⟨w, c, d⟩, hm, e⟩ := List.mem_filterMap.mp hz
  have hw := h w (List.of_mem_zip hm).1
  cases c <;> cases d <;> simp at e
  rw [← e]
  exact hw

end PearsonPairs

open PearsonPairs

/-- **C217**. Two calls in which every pair of values has the same total weight give the same result: pairs with a missing value, the order of the samples, and
whether a pair comes once with its weight or several times with parts of it, do not matter. -/
theorem C217_pairs {X : Type} (xs : StatArg X → StatArg X → Option (List (XF ℝ)) → Bool → Except PyErr X)
    (ws : List ℝ) (w : Option (List (XF ℝ))) (hw : WeightsArg ws w) (a b : List (Option ℝ)) (ha : a.length = ws.length) (hb : b.length = ws.length) (hne : ws ≠ [])
    (skipna : Bool) (hs : skipna = true ∨ (none ∉ a ∧ none ∉ b))
    (ws' : List ℝ) (w' : Option (List (XF ℝ))) (hw' : WeightsArg ws' w') (a' b' : List (Option ℝ)) (ha' : a'.length = ws'.length) (hb' : b'.length = ws'.length)
    (hne' : ws' ≠ []) (skipna' : Bool) (hs' : skipna' = true ∨ (none ∉ a' ∧ none ∉ b'))
    (h : ∀ x y, pairWeight ws' a' b' x y = pairWeight ws a b x y) :
    pearsonR xs (.array (a'.map toX)) (.array (b'.map toX)) w' skipna' = pearsonR xs (.array (a.map toX)) (.array (b.map toX)) w skipna := by
  obtain ⟨r, hr, hp⟩ := C64_value xs ws w hw a b ha hb hne skipna hs
  obtain ⟨r', hr', hp'⟩ := C64_value xs ws' w' hw' a' b' ha' hb' hne' skipna' hs'
  have hV : weightOf (validCells ws a b) = weightOf (validCells ws' a' b') := by
    ext ⟨x, y⟩
    rw [weightOf_eq, weightOf_eq, h]
  have p1 := valid_pos ws hw.pos a b
  have p2 := valid_pos ws' hw'.pos a' b'
  have v1 : Varies (validCells ws a b) (·.2.1) ↔ Varies (validCells ws' a' b') (·.2.1) :=
    ⟨varies_congr hV p1 p2 Prod.fst, varies_congr hV.symm p2 p1 Prod.fst⟩
  have v2 : Varies (validCells ws a b) (·.2.2) ↔ Varies (validCells ws' a' b') (·.2.2) :=
    ⟨varies_congr hV p1 p2 Prod.snd, varies_congr hV.symm p2 p1 Prod.snd⟩
  have : IsPearson (validCells ws' a' b') r := by
    unfold IsPearson at hp ⊢
    rw [← v1, ← v2, ← correlation_congr hV]
    exact hp
  rw [hr, hr', this.unique hp']

/-- **C217**, the samples in another order. -/
theorem C217_order {X : Type} (xs : StatArg X → StatArg X → Option (List (XF ℝ)) → Bool → Except PyErr X)
    (ws : List ℝ) (w : Option (List (XF ℝ))) (hw : WeightsArg ws w) (a b : List (Option ℝ)) (ha : a.length = ws.length) (hb : b.length = ws.length) (hne : ws ≠ [])
    (skipna : Bool) (hs : skipna = true ∨ (none ∉ a ∧ none ∉ b))
    (ws' : List ℝ) (w' : Option (List (XF ℝ))) (hw' : WeightsArg ws' w') (a' b' : List (Option ℝ)) (ha' : a'.length = ws'.length) (hb' : b'.length = ws'.length)
    (h : (List.zip ws' (List.zip a' b')).Perm (List.zip ws (List.zip a b))) :
    pearsonR xs (.array (a'.map toX)) (.array (b'.map toX)) w' skipna = pearsonR xs (.array (a.map toX)) (.array (b.map toX)) w skipna := by
  have hlen : ws'.length = ws.length := by
    have := h.length_eq
    simpa [ha, hb, ha', hb'] using this
  have hmem : (none ∉ a ∧ none ∉ b) → none ∉ a' ∧ none ∉ b' := by
    rintro ⟨h1, h2⟩
    constructor
    · intro hm
      obtain ⟨i, hi, e⟩ := List.getElem_of_mem hm
      have hz : (ws'[i]'(by omega), a'[i], b'[i]'(by omega)) ∈ List.zip ws' (List.zip a' b') := by
        rw [List.mem_iff_getElem]
        exact ⟨i, by simp; omega, by simp⟩
      have := (List.of_mem_zip (List.of_mem_zip (h.mem_iff.mp hz)).2).1
      rw [e] at this
      exact h1 this
    · intro hm
      obtain ⟨i, hi, e⟩ := List.getElem_of_mem hm
      have hz : (ws'[i]'(by omega), a'[i]'(by omega), b'[i]) ∈ List.zip ws' (List.zip a' b') := by
        rw [List.mem_iff_getElem]
        exact ⟨i, by simp; omega, by simp⟩
      have := (List.of_mem_zip (List.of_mem_zip (h.mem_iff.mp hz)).2).2
      rw [e] at this
      exact h2 this
  refine C217_pairs xs ws w hw a b ha hb hne skipna hs ws' w' hw' a' b' ha' hb' ?_ skipna (hs.imp_right hmem) fun x y => ?_
  · intro h0
    rw [h0] at hlen
    exact hne (List.length_eq_zero_iff.mp hlen.symm)
  · exact (h.map _).sum_eq

theorem repeated_cons {α : Type} (n : ℕ) (ns : List ℕ) (x : α) (l : List α) : repeated (n :: ns) (x :: l) = List.replicate n x ++ repeated ns l := rfl

theorem repeated_mem {α : Type} (ns : List ℕ) (l : List α) (x : α) (h : x ∈ repeated ns l) : x ∈ l := by
  unfold repeated at h
  obtain ⟨z, hz, hx⟩ := List.mem_flatMap.mp h
  rw [(List.mem_replicate.mp hx).2]
  exact (List.of_mem_zip hz).2

theorem repeated_weight (ns : List ℕ) : ∀ (a b : List (Option ℝ)) (x y : ℝ), a.length = ns.length → b.length = ns.length →
    (repeated ns a).length = ns.sum ∧ (repeated ns b).length = ns.sum ∧
    pairWeight (List.replicate ns.sum 1) (repeated ns a) (repeated ns b) x y = pairWeight (ns.map (fun n : ℕ => (n : ℝ))) a b x y := by
  induction ns with
  | nil => intro a b x y _ _; simp [repeated, pairWeight]
  | cons n ns ih =>
    intro a b x y ha hb
    obtain ⟨a, as, rfl⟩ : ∃ c l, a = c :: l := List.exists_cons_of_length_eq_add_one ha
    obtain ⟨b, bs, rfl⟩ : ∃ c l, b = c :: l := List.exists_cons_of_length_eq_add_one hb
    obtain ⟨h1, h2, h3⟩ := ih as bs x y (by simpa using ha) (by simpa using hb)
    refine ⟨by simp [repeated_cons, h1], by simp [repeated_cons, h2], ?_⟩
    rw [repeated_cons, repeated_cons, List.sum_cons, List.replicate_add]
    unfold pairWeight at h3 ⊢
    rw [List.zip_append (by simp), List.zip_append (by simp), List.map_append, List.sum_append, h3]
    simp only [List.map_cons, List.zip_cons_cons, List.sum_cons]
    congr 1
    rw [List.zip_replicate', List.zip_replicate', List.map_replicate, List.sum_replicate]
    split_ifs <;> simp

/-- **C217**, weights that are whole numbers: the weighted result is the unweighted result with each pair repeated as often as its weight says. -/
theorem C217_repeated {X : Type} (xs : StatArg X → StatArg X → Option (List (XF ℝ)) → Bool → Except PyErr X) (ns : List ℕ) (hn : ∀ n ∈ ns, 0 < n) (hne : ns ≠ [])
    (a b : List (Option ℝ)) (ha : a.length = ns.length) (hb : b.length = ns.length) (skipna : Bool) (hs : skipna = true ∨ (none ∉ a ∧ none ∉ b)) :
    pearsonR xs (.array ((repeated ns a).map toX)) (.array ((repeated ns b).map toX)) none skipna =
      pearsonR xs (.array (a.map toX)) (.array (b.map toX)) (some (ns.map (fun n : ℕ => .fin (n : ℝ)))) skipna := by
  have hpos : 0 < ns.sum := by
    obtain ⟨n, ns', rfl⟩ := List.exists_cons_of_ne_nil hne
    have := hn n (by simp)
    simp only [List.sum_cons]
    omega
  have e : (ns.map (fun n : ℕ => (XF.fin (n : ℝ) : XF ℝ))) = (ns.map (fun n : ℕ => (n : ℝ))).map .fin := by rw [List.map_map]; rfl
  rw [e]
  refine C217_pairs xs (ns.map (fun n : ℕ => (n : ℝ))) _ (.given _ ?_) a b (by simpa using ha) (by simpa using hb) (by simpa using hne) skipna hs
    (List.replicate ns.sum 1) none (.absent _) (repeated ns a) (repeated ns b) ?_ ?_ ?_ skipna ?_ fun x y => (repeated_weight ns a b x y ha hb).2.2
  · intro w hw
    obtain ⟨n, hm, rfl⟩ := List.mem_map.mp hw
    exact_mod_cast hn n hm
  · rw [(repeated_weight ns a b 0 0 ha hb).1, List.length_replicate]
  · rw [(repeated_weight ns a b 0 0 ha hb).2.1, List.length_replicate]
  · intro h
    have := congrArg List.length h
    simp at this
    omega
  · exact hs.imp_right fun ⟨h1, h2⟩ => ⟨fun h => h1 (repeated_mem _ _ _ h), fun h => h2 (repeated_mem _ _ _ h)⟩

/-- a pair with weight 2 is a pair that comes twice -/
example {X : Type} (xs : StatArg X → StatArg X → Option (List (XF ℝ)) → Bool → Except PyErr X) :
    pearsonR xs (.array ([some 1, some 1, some 2, none].map toX)) (.array ([some 3, some 3, some 5, some 4].map toX)) none true =
      pearsonR xs (.array ([some 1, some 2, none].map toX)) (.array ([some 3, some 5, some 4].map toX)) (some [.fin ((2 : ℕ) : ℝ), .fin ((1 : ℕ) : ℝ), .fin ((1 : ℕ) : ℝ)]) true :=
  C217_repeated xs [2, 1, 1] (by simp) (by simp) [some 1, some 2, none] [some 3, some 5, some 4] rfl rfl true (Or.inl rfl)

end Verif.Props
