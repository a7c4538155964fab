import Verif.Spec.LabelAt
import Verif.Lemmas.HybridAlign

/-
Arithmetic on labelled arrays, point by point.
-/

set_option linter.unusedSectionVars false
namespace Verif.Lemmas
open Verif Model Spec
variable {K : Type} [Field K] [LinearOrder K] [IsStrictOrderedRing K]

/-- labels that differ are intersected, in the order of the left operand -/
theorem joinLabels_filter (la lb : List K) (ha : la.Nodup) (hb : lb.Nodup) :
    joinLabels la.length lb.length (some la) (some lb) =
      .ok ((la.filter (fun l => decide (l ∈ lb))).map (fun l => (la.idxOf l, lb.idxOf l)), some (la.filter (fun l => decide (l ∈ lb)))) := by
  unfold joinLabels
  by_cases h : la = lb
  · subst h
    have hf : la.filter (fun l => decide (l ∈ la)) = la := by
      rw [List.filter_eq_self]; intro l hl; simpa using hl
    simp only [if_true, hf]
    congr 2
    apply List.ext_getElem
    · simp
    · intro k h1 h2
      have hk : k < la.length := by simpa using h1
      simp [ha.idxOf_getElem k hk]
  · simp [h, ha, hb]

variable {α β γ : Type}

/-- what `zip` does along one dimension of labelled arrays -/
structure JoinSpec (a : IArr K α) (b : IArr K β) (d : String) (lj : List K) : Prop where
  joined : IArr.joined a b d = some lj
  length : (IArr.pairs a b d).length = lj.length
  nodup : lj.Nodup
  left : d ∈ a.arr.dims → ∀ la, a.index d = some la → ∀ k μ, lj[k]? = some μ → la[((IArr.pairs a b d).getD k (0, 0)).1]? = some μ
  right : d ∈ b.arr.dims → ∀ lb, b.index d = some lb → ∀ k μ, lj[k]? = some μ → lb[((IArr.pairs a b d).getD k (0, 0)).2]? = some μ
  mem : ∀ μ, (d ∈ a.arr.dims → ∀ la, a.index d = some la → μ ∈ la) → (d ∈ b.arr.dims → ∀ lb, b.index d = some lb → μ ∈ lb) → μ ∈ lj

theorem join_spec (a : IArr K α) (b : IArr K β) (ha : Labelled a) (hb : Labelled b) (d : String)
    (hd : d ∈ a.arr.dims ∨ d ∈ b.arr.dims) : ∃ lj, JoinSpec a b d lj := by
  by_cases h1 : d ∈ a.arr.dims
  · obtain ⟨la, ea, na, sa⟩ := ha.labels d h1
    by_cases h2 : d ∈ b.arr.dims
    · obtain ⟨lb, eb, nb, sb⟩ := hb.labels d h2
      have hj := joinLabels_filter la lb na nb
      rw [sa, sb, ← ea, ← eb] at hj
      obtain ⟨p1, p2⟩ := pairs_both a b d h1 h2 _ _ hj
      have hval : ∀ k μ, (la.filter (fun l => decide (l ∈ lb)))[k]? = some μ →
          (IArr.pairs a b d).getD k (0, 0) = (la.idxOf μ, lb.idxOf μ) ∧ μ ∈ la ∧ μ ∈ lb := by
        intro k μ hk
        have hm := List.mem_of_getElem? hk
        rw [List.mem_filter] at hm
        refine ⟨?_, hm.1, by simpa using hm.2⟩
        rw [p1]
        simp [List.getD, List.getElem?_map, hk]
      refine ⟨la.filter (fun l => decide (l ∈ lb)), p2, by rw [p1]; simp, na.filter _, ?_, ?_, ?_⟩
      · intro _ l el k μ hk
        obtain rfl : la = l := by rw [ea] at el; injection el
        obtain ⟨e, m1, -⟩ := hval k μ hk
        rw [e]
        simp [m1]
      · intro _ l el k μ hk
        obtain rfl : lb = l := by rw [eb] at el; injection el
        obtain ⟨e, -, m2⟩ := hval k μ hk
        rw [e]
        simp [m2]
      · intro μ m1 m2
        rw [List.mem_filter]
        exact ⟨m1 h1 la ea, by simpa using m2 h2 lb eb⟩
    · obtain ⟨p1, p2⟩ := pairs_left a b d h1 h2
      refine ⟨la, by rw [p2, ea], by rw [p1]; simp [sa], na, ?_, fun h => absurd h h2, fun μ m1 _ => m1 h1 la ea⟩
      intro _ l el k μ hk
      obtain rfl : la = l := by rw [ea] at el; injection el
      have hkl : k < a.arr.size d := by
        rw [← sa]; exact (List.getElem?_eq_some_iff.mp hk).1
      rw [p1, diag_getD _ _ hkl]
      exact hk
  · have h2 : d ∈ b.arr.dims := hd.resolve_left h1
    obtain ⟨lb, eb, nb, sb⟩ := hb.labels d h2
    obtain ⟨p1, p2⟩ := pairs_right a b d h1
    refine ⟨lb, by rw [p2, eb], by rw [p1]; simp [sb], nb, fun h => absurd h h1, ?_, fun μ _ m2 => m2 h2 lb eb⟩
    intro _ l el k μ hk
    obtain rfl : lb = l := by rw [eb] at el; injection el
    have hkl : k < b.arr.size d := by
      rw [← sb]; exact (List.getElem?_eq_some_iff.mp hk).1
    rw [p1, diag_getD _ _ hkl]
    exact hk

theorem nodup_pos {l : List K} (h : l.Nodup) {i j : ℕ} {μ : K} (hi : l[i]? = some μ) (hj : l[j]? = some μ) : i = j := by
  obtain ⟨h1, e1⟩ := List.getElem?_eq_some_iff.mp hi
  obtain ⟨h2, e2⟩ := List.getElem?_eq_some_iff.mp hj
  exact (h.getElem_inj_iff).mp (e1.trans e2.symm)

/-- arithmetic on labelled arrays is arithmetic at every labelled point the two have in common -/
theorem izip_at (f : α → β → γ) (a : IArr K α) (b : IArr K β) (ha : Labelled a) (hb : Labelled b) :
    ∃ r, IArr.zip f a b = .ok r ∧ Labelled r ∧ r.arr.dims = a.arr.dims ++ b.arr.dims.filter (fun d => !a.arr.dims.contains d) ∧
      (∀ d, d ∈ r.arr.dims ↔ d ∈ a.arr.dims ∨ d ∈ b.arr.dims) ∧
      (∀ d ∈ a.arr.dims, ∀ la, a.index d = some la → d ∈ b.arr.dims → ∀ lb, b.index d = some lb → r.index d = some (la.filter (fun l => decide (l ∈ lb)))) ∧
      (∀ d ∈ a.arr.dims, d ∉ b.arr.dims → r.index d = a.index d) ∧
      ∀ pt v, At r pt v ↔ ∃ x y, At a pt x ∧ At b pt y ∧ v = f x y := by
  have hz := izip_ok f a b (by
    intro d h1 h2
    obtain ⟨la, ea, na, sa⟩ := ha.labels d h1
    obtain ⟨lb, eb, nb, sb⟩ := hb.labels d h2
    have hj := joinLabels_filter la lb na nb
    rw [sa, sb, ← ea, ← eb] at hj
    exact ⟨_, hj⟩)
  have hdims : ∀ d, d ∈ a.arr.dims ++ b.arr.dims.filter (fun d => !a.arr.dims.contains d) ↔ d ∈ a.arr.dims ∨ d ∈ b.arr.dims := by
    intro d
    simp only [List.mem_append, List.mem_filter]
    by_cases h : d ∈ a.arr.dims <;> simp [h]
  refine ⟨_, hz, ⟨?_, ?_⟩, rfl, hdims, ?_, ?_, ?_⟩
  · intro i j hij
    show f _ _ = f _ _
    congr 1
    · apply ha.wf
      intro d hd
      rw [hij d ((hdims d).mpr (Or.inl hd))]
    · apply hb.wf
      intro d hd
      rw [hij d ((hdims d).mpr (Or.inr hd))]
  · intro d hd
    obtain ⟨lj, hj⟩ := join_spec a b ha hb d ((hdims d).mp hd)
    exact ⟨lj, hj.joined, hj.nodup, hj.length.symm⟩
  · intro d hd la ea hd' lb eb
    obtain ⟨la', ea', na, sa⟩ := ha.labels d hd
    obtain ⟨lb', eb', nb, sb⟩ := hb.labels d hd'
    obtain rfl : la' = la := by rw [ea] at ea'; injection ea' with h; exact h.symm
    obtain rfl : lb' = lb := by rw [eb] at eb'; injection eb' with h; exact h.symm
    have hj := joinLabels_filter la' lb' na nb
    rw [sa, sb, ← ea, ← eb] at hj
    exact (pairs_both a b d hd hd' _ _ hj).2
  · intro d hd hd'
    exact (pairs_left a b d hd hd').2
  · intro pt v
    constructor
    · rintro ⟨i, hi, rfl⟩
      refine ⟨_, _, ⟨_, ?_, rfl⟩, ⟨_, ?_, rfl⟩, rfl⟩
      · intro d hd
        obtain ⟨lj, hj⟩ := join_spec a b ha hb d (Or.inl hd)
        obtain ⟨l, el, hl⟩ := hi d ((hdims d).mpr (Or.inl hd))
        obtain rfl : lj = l := by
          have : IArr.joined a b d = some l := el
          rw [hj.joined] at this; injection this
        obtain ⟨la, ea, -, -⟩ := ha.labels d hd
        exact ⟨la, ea, hj.left hd la ea _ _ hl⟩
      · intro d hd
        obtain ⟨lj, hj⟩ := join_spec a b ha hb d (Or.inr hd)
        obtain ⟨l, el, hl⟩ := hi d ((hdims d).mpr (Or.inr hd))
        obtain rfl : lj = l := by
          have : IArr.joined a b d = some l := el
          rw [hj.joined] at this; injection this
        obtain ⟨lb, eb, -, -⟩ := hb.labels d hd
        exact ⟨lb, eb, hj.right hd lb eb _ _ hl⟩
    · rintro ⟨x, y, ⟨ia, hia, rfl⟩, ⟨ib, hib, rfl⟩, rfl⟩
      have hk : ∀ d, ∃ k : ℕ, (d ∈ a.arr.dims ∨ d ∈ b.arr.dims) → ∃ lj : List K, JoinSpec a b d lj ∧ lj[k]? = some (pt d) := by
        intro d
        by_cases hd : d ∈ a.arr.dims ∨ d ∈ b.arr.dims
        · obtain ⟨lj, hj⟩ := join_spec a b ha hb d hd
          have hm : pt d ∈ lj := by
            apply hj.mem
            · intro h1 la ea
              obtain ⟨l, el, hl⟩ := hia d h1
              obtain rfl : la = l := by rw [ea] at el; injection el
              exact List.mem_of_getElem? hl
            · intro h1 lb eb
              obtain ⟨l, el, hl⟩ := hib d h1
              obtain rfl : lb = l := by rw [eb] at el; injection el
              exact List.mem_of_getElem? hl
          obtain ⟨k, hk⟩ := List.mem_iff_getElem?.mp hm
          exact ⟨k, fun _ => ⟨lj, hj, hk⟩⟩
        · exact ⟨0, fun h => absurd h hd⟩
      choose i hi using hk
      refine ⟨i, ?_, ?_⟩
      · intro d hd
        obtain ⟨lj, hj, hk⟩ := hi d ((hdims d).mp hd)
        exact ⟨lj, hj.joined, hk⟩
      · show f _ _ = f _ _
        congr 1
        · apply ha.wf
          intro d hd
          obtain ⟨lj, hj, hk⟩ := hi d (Or.inl hd)
          obtain ⟨la, ea, na, -⟩ := ha.labels d hd
          obtain ⟨l, el, hl⟩ := hia d hd
          obtain rfl : la = l := by rw [ea] at el; injection el
          exact nodup_pos na (hj.left hd la ea _ _ hk) hl
        · apply hb.wf
          intro d hd
          obtain ⟨lj, hj, hk⟩ := hi d (Or.inr hd)
          obtain ⟨lb, eb, nb, -⟩ := hb.labels d hd
          obtain ⟨l, el, hl⟩ := hib d hd
          obtain rfl : lb = l := by rw [eb] at el; injection el
          exact nodup_pos nb (hj.right hd lb eb _ _ hk) hl

theorem labelled_map (f : α → β) (a : IArr K α) (ha : Labelled a) : Labelled (a.map f) where
  wf := by
    intro i j h
    show f _ = f _
    rw [ha.wf i j h]
  labels := ha.labels

theorem at_map (f : α → β) (a : IArr K α) (pt : String → K) (v : β) : At (a.map f) pt v ↔ ∃ x, At a pt x ∧ v = f x := by
  constructor
  · rintro ⟨i, hi, rfl⟩
    exact ⟨_, ⟨i, hi, rfl⟩, rfl⟩
  · rintro ⟨x, ⟨i, hi, rfl⟩, rfl⟩
    exact ⟨i, hi, rfl⟩

/-- at most one value at a labelled point -/
theorem at_unique (a : IArr K α) (ha : Labelled a) (pt : String → K) (v w : α) (h1 : At a pt v) (h2 : At a pt w) : v = w := by
  obtain ⟨i, hi, rfl⟩ := h1
  obtain ⟨j, hj, rfl⟩ := h2
  apply ha.wf
  intro d hd
  obtain ⟨la, ea, na, -⟩ := ha.labels d hd
  obtain ⟨l, el, hl⟩ := hi d hd
  obtain ⟨l', el', hl'⟩ := hj d hd
  obtain rfl : la = l := by rw [ea] at el; injection el
  obtain rfl : la = l' := by rw [ea] at el'; injection el'
  exact nodup_pos na hl hl'

end Verif.Lemmas
