import Verif.Props.DeltaPressure

/-
Property C151: delta_pressure, how the layers lie around their levels and how they change with the surface pressure.
-/

set_option linter.unusedSectionVars false
namespace Verif.Props
open Model Spec Lemmas
variable {K : Type _} [Field K] [LinearOrder K] [IsStrictOrderedRing K]

theorem column_take {A : Type _} (n k : ℕ) (hk : k ≤ n) (f : ℕ → A) : (column n f).take k = column k f := by
  unfold column
  rw [← List.map_take, List.take_range, min_eq_left hk]

theorem upperIface_le_lev (n : ℕ) (lev : ℕ → K) (hinc : Increasing n lev) (t : K) (ht : t ≤ lev 0) (k : ℕ) (hk : k < n) : upperIface lev t k ≤ lev k := by
  unfold upperIface
  split_ifs with h
  · rw [h]; exact ht
  · have := hinc (k - 1) k (by omega) hk; linarith

/-- C151, levels inside their layers: stacking the layers returned from the column top downwards, each level above the ground lies in its own layer: not above what the
layers before it fill, not below what they fill together with its own layer. -/
theorem C151_level_in_layer (n : ℕ) (hn : 2 ≤ n) (lev : ℕ → K) (hinc : Increasing n lev) (ps : K) (ptop : Option K) (h0 : 0 ≤ ptop.getD (lev 0))
    (ht : ptop.getD (lev 0) ≤ lev 0) (hps : (lev 0 + lev 1) / 2 < ps) :
    ∃ d, deltaPressure (column n lev) (.fin ps) ptop = .ok d ∧ d.length = n ∧
      ∀ k, k < n → lev k ≤ ps → ptop.getD (lev 0) + nanSum (d.take k) ≤ lev k ∧ lev k ≤ ptop.getD (lev 0) + nanSum (d.take (k + 1)) := by
  have h01 : lev 0 < lev 1 := hinc 0 1 (by omega) (by omega)
  refine ⟨_, deltaPressure_incr n hn lev hinc ps ptop h0 ht hps, by simp [column], fun k hk hkps => ?_⟩
  set t := ptop.getD (lev 0) with htdef
  rw [column_take n k hk.le, column_take n (k + 1) hk]
  have hup := upperIface_le_lev n lev hinc t ht k hk
  refine ⟨?_, ?_⟩
  · rw [nanSum_prefix n lev hinc ps t ht (by linarith) k hk]
    have := min_le_right ps (upperIface lev t k)
    linarith
  · rcases Nat.lt_or_ge (k + 1) n with h | h
    · rw [nanSum_prefix n lev hinc ps t ht (by linarith) (k + 1) h]
      have h2 : lev k ≤ upperIface lev t (k + 1) := by
        unfold upperIface
        rw [if_neg (by omega)]
        have := hinc k (k + 1) (by omega) h
        simp only [Nat.add_sub_cancel]
        linarith
      have := le_min hkps h2
      linarith
    · have : k + 1 = n := by omega
      rw [this, nanSum_all n (by omega) lev hinc ps t ht (by linarith)]
      linarith

/-- C151, change with the surface pressure: raising the surface pressure leaves the layers that end above the old surface as they are, shrinks none, makes none missing,
and thickens none by more than the surface pressure was raised. -/
theorem C151_surface_raised (n : ℕ) (hn : 2 ≤ n) (lev : ℕ → K) (hinc : Increasing n lev) (ps ps' : K) (ptop : Option K) (h0 : 0 ≤ ptop.getD (lev 0))
    (ht : ptop.getD (lev 0) ≤ lev 0) (hps : (lev 0 + lev 1) / 2 < ps) (hle : ps ≤ ps') :
    ∃ d d', deltaPressure (column n lev) (.fin ps) ptop = .ok d ∧ deltaPressure (column n lev) (.fin ps') ptop = .ok d' ∧ d.length = n ∧ d'.length = n ∧
      ∀ k, k < n →
        (k + 1 < n → (lev k + lev (k + 1)) / 2 ≤ ps → d'[k]? = d[k]?) ∧
        (∀ x, d[k]? = some (XF.fin x) → ∃ x', d'[k]? = some (XF.fin x') ∧ x ≤ x' ∧ x' ≤ x + (ps' - ps)) ∧
        (d[k]? = some .nan → d'[k]? = some .nan ∨ ∃ x', d'[k]? = some (XF.fin x') ∧ 0 < x' ∧ x' ≤ ps' - ps) := by
  have h01 : lev 0 < lev 1 := hinc 0 1 (by omega) (by omega)
  refine ⟨_, _, deltaPressure_incr n hn lev hinc ps ptop h0 ht hps, deltaPressure_incr n hn lev hinc ps' ptop h0 ht (hps.trans_le hle), by simp [column],
    by simp [column], fun k hk => ?_⟩
  set t := ptop.getD (lev 0) with htdef
  have hget : ∀ q, (column n (thickness n lev q t))[k]? = some (thickness n lev q t k) := by
    intro q
    unfold column
    rw [List.getElem?_map, List.getElem?_range hk]
    rfl
  have hlow : ∀ q, k + 1 < n → lowerIface n lev q k = min q ((lev k + lev (k + 1)) / 2) := fun q h => by unfold lowerIface; rw [if_pos h]
  have hmono : lowerIface n lev ps k ≤ lowerIface n lev ps' k := by
    unfold lowerIface
    split_ifs
    · exact min_le_min_right _ hle
    · exact hle
  have hlip : lowerIface n lev ps' k ≤ lowerIface n lev ps k + (ps' - ps) := by
    unfold lowerIface
    split_ifs
    · rcases min_cases ps ((lev k + lev (k + 1)) / 2) with ⟨h, _⟩ | ⟨h, _⟩ <;> rw [h]
      · have := min_le_left ps' ((lev k + lev (k + 1)) / 2); linarith
      · have := min_le_right ps' ((lev k + lev (k + 1)) / 2); linarith
    · linarith
  have hbelow : lowerIface n lev ps' k ≤ ps' := by
    unfold lowerIface
    split_ifs
    · exact min_le_left _ _
    · exact le_refl _
  rw [hget, hget]
  refine ⟨fun hk1 hmid => ?_, fun x hx => ?_, fun hx => ?_⟩
  · have hkk := hinc k (k + 1) (by omega) hk1
    have hup := upperIface_le_lev n lev hinc t ht k hk
    unfold thickness
    rw [if_neg (by linarith), if_neg (by linarith), hlow _ hk1, hlow _ hk1, min_eq_right hmid, min_eq_right (hmid.trans hle)]
  · unfold thickness at hx ⊢
    split_ifs at hx with hc
    · cases hx
    · injection hx with hx
      injection hx with hx
      rw [if_neg (by linarith)]
      exact ⟨_, rfl, by linarith, by linarith⟩
  · unfold thickness at hx ⊢
    split_ifs at hx with hc
    · split_ifs with hc'
      · exact Or.inl rfl
      · refine Or.inr ⟨_, rfl, ?_, by linarith⟩
        have hup := upperIface_le_lev n lev hinc t ht k hk
        have hlt : upperIface lev t k < ps' := not_le.mp hc'
        have : upperIface lev t k < lowerIface n lev ps' k := by
          unfold lowerIface
          split_ifs with h
          · refine lt_min hlt ?_
            have := hinc k (k + 1) (by omega) h
            linarith
          · exact hlt
        linarith
    · cases hx

/-- the hypotheses are met: 100, 200, 300, 400 hPa, surface at 260 and at 380 hPa: the two upper layers stay, the third gets complete, the fourth appears -/
example : Increasing 4 exLev ∧ (exLev 0 + exLev 1) / 2 < 260 ∧ (260 : ℚ) ≤ 380 ∧
    deltaPressure (column 4 exLev) (.fin 260) (some 50) = .ok [.fin 100, .fin 100, .fin 10, .nan] ∧
    deltaPressure (column 4 exLev) (.fin 380) (some 50) = .ok [.fin 100, .fin 100, .fin 100, .fin 30] :=
  ⟨exLev_incr 4, by norm_num [exLev], by norm_num, by decide +kernel, by decide +kernel⟩

end Verif.Props
