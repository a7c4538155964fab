import Verif.Lemmas.DeltaPressure

set_option linter.unusedSectionVars false

namespace Verif.Lemmas
open Verif.Model Verif.Spec
variable {K : Type _} [Field K] [LinearOrder K] [IsStrictOrderedRing K]

/-- `_delta_pressure1D` for non-negative levels: success exactly when the checks pass and `0 < ps`. -/
theorem deltaPressure1D_outcome (n : ℕ) (hn : 2 ≤ n) (lev : ℕ → K) (hl : ∀ i, i < n → 0 ≤ lev i) (ps : XF K) (t : K) :
    (t < 0 ∨ XF.lt ps (.fin t) = true ∨ XF.lt (.fin 0) ps = false →
      deltaPressure1D (column n lev) ps t = .error .valueError) ∧
    (¬ (t < 0 ∨ XF.lt ps (.fin t) = true ∨ XF.lt (.fin 0) ps = false) →
      ∃ d, deltaPressure1D (column n lev) ps t = .ok d ∧ d.length = n) := by
  rw [deltaPressure1D_column n hn]
  have hl' : ∀ i, i < n → 0 ≤ (fun k => lev (n - 1 - k)) i := fun i hi => hl _ (by omega)
  constructor
  · rintro h
    by_cases hc : t < 0 ∨ XF.lt ps (.fin t) = true
    · rw [if_pos hc]
    · rw [if_neg hc]
      have h0 : XF.lt (.fin 0) ps = false := by tauto
      rw [deltaSorted_nonpos n _ hl' ps t h0, deltaSorted_nonpos n _ hl ps t h0]
      split <;> rfl
  · intro h
    push Not at h
    obtain ⟨h1, h2, h3⟩ := h
    rw [if_neg (by rintro (h | h); exacts [absurd h (not_lt.2 h1), h2 h])]
    have h3 : XF.lt (.fin 0) ps = true := by simpa using h3
    obtain ⟨e, -, -, -, he⟩ := deltaSorted_pos n hn lev ps t h3
    obtain ⟨e', -, -, -, he'⟩ := deltaSorted_pos n hn (fun k => lev (n - 1 - k)) ps t h3
    rw [he, he']
    split
    · exact ⟨_, rfl, by simp⟩
    · exact ⟨_, rfl, by simp⟩

theorem deltaPressure1D_length (p : List K) (hp : 2 ≤ p.length) (hl : ∀ x ∈ p, 0 ≤ x) (ps : XF K) (t : K)
    (d : List (XF K)) (h : deltaPressure1D p ps t = .ok d) : d.length = p.length := by
  obtain ⟨lev, hlev⟩ := @list_eq_column K ⟨0⟩ p
  have hl' : ∀ i, i < p.length → 0 ≤ lev i := by
    intro i hi; apply hl; rw [hlev]; simp only [column, List.mem_map, List.mem_range]; exact ⟨i, hi, rfl⟩
  have := deltaPressure1D_outcome p.length hp lev hl' ps t
  rw [← hlev] at this
  by_cases hc : t < 0 ∨ XF.lt ps (.fin t) = true ∨ XF.lt (.fin 0) ps = false
  · rw [this.1 hc] at h; cases h
  · obtain ⟨d', h1, h2⟩ := this.2 hc
    rw [h1] at h; cases h; exact h2

theorem deltaPressure1D_ok_top (p : List K) (ps : XF K) (t : K) (d : List (XF K))
    (h : deltaPressure1D p ps t = .ok d) : 0 ≤ t := by
  by_contra hc
  simp [deltaPressure1D, not_le.1 hc, bind, Except.bind, throw, throwThe, MonadExceptOf.throw] at h

/-! ### scaling -/

theorem lt_scale (c : K) (hc : 0 < c) (a b : XF K) : XF.lt (scale c a) (scale c b) = XF.lt a b := by
  cases a <;> cases b <;> simp [scale, XF.lt, hc]

theorem scale_sub (c : K) (a : XF K) (b : K) : scale c (a - .fin b) = scale c a - .fin (c * b) := by
  cases a with
  | fin x => simp [scale]; ring
  | _ => rfl

theorem mid_scale (c : K) (q : ℕ → K) (i : ℕ) : mid (fun k => c * q k) i = c * mid q i := by
  unfold mid; split <;> ring

theorem aboveGround_scale (c : K) (hc : 0 < c) (n : ℕ) (q : ℕ → K) (ps : XF K) :
    aboveGround (column n (fun k => c * q k)) (scale c ps) = aboveGround (column n q) ps := by
  unfold aboveGround
  rw [midpoints_column, midpoints_column]
  congr 1
  simp only [column, List.map_map]
  apply List.map_congr_left
  intro i _
  simp only [Function.comp]
  rw [mid_scale]
  exact lt_scale c hc (.fin (mid q i)) ps

theorem coreEntry_scale (c : K) (n : ℕ) (q : ℕ → K) (ps : XF K) (t : K) (e k : ℕ) :
    coreEntry n (fun k => c * q k) (scale c ps) (c * t) e k = scale c (coreEntry n q ps t e k) := by
  unfold coreEntry
  split
  · rw [scale_sub]; congr 2; ring
  · split
    · simp [scale]; ring
    · split
      · simp [scale]; ring
      · rfl

theorem deltaSorted_scale (c : K) (hc : 0 < c) (n : ℕ) (hn : 2 ≤ n) (q : ℕ → K) (hq : ∀ i, i < n → 0 ≤ q i)
    (ps : XF K) (t : K) :
    deltaSorted (column n (fun k => c * q k)) (scale c ps) (c * t)
      = (deltaSorted (column n q) ps t).map (List.map (scale c)) := by
  have hq' : ∀ i, i < n → 0 ≤ c * q i := fun i hi => mul_nonneg (le_of_lt hc) (hq i hi)
  have hz : XF.lt (.fin 0) (scale c ps) = XF.lt (.fin 0) ps := by
    have := lt_scale c hc (.fin 0) ps
    simpa [scale] using this
  by_cases h : XF.lt (.fin 0) ps = true
  · obtain ⟨e, h1, h2, h3, h4⟩ := deltaSorted_pos n hn q ps t h
    obtain ⟨e', h1', h2', h3', h4'⟩ := deltaSorted_pos n hn (fun k => c * q k) (scale c ps) (c * t) (by rw [hz]; exact h)
    have hmid : ∀ i, XF.lt (.fin (mid (fun k => c * q k) i)) (scale c ps) = XF.lt (.fin (mid q i)) ps := by
      intro i; rw [mid_scale]; exact lt_scale c hc (.fin (mid q i)) ps
    have hee : e' = e := by
      apply le_antisymm
      · exact h3 e' h1' (by rw [← hmid]; exact h2')
      · exact h3' e h1 (by rw [hmid]; exact h2)
    rw [h4, h4', hee]
    simp only [Except.map, column, List.map_map]
    congr 1
    apply List.map_congr_left
    intro k _
    exact coreEntry_scale c n q ps t e k
  · have h : XF.lt (.fin 0) ps = false := by simpa using h
    rw [deltaSorted_nonpos n q hq ps t h, deltaSorted_nonpos n _ hq' (scale c ps) (c * t) (by rw [hz]; exact h)]
    rfl

theorem npMin_scale (c : K) (hc : 0 < c) (p : List K) : npMin (p.map (c * ·)) = (npMin p).map (c * ·) := by
  by_cases hp : p = []
  · subst hp; rfl
  · obtain ⟨m, h1, h2, h3⟩ := npMin_spec p hp
    rw [h1]; apply npMin_eq
    · exact List.mem_map.2 ⟨m, h2, rfl⟩
    · intro x hx; obtain ⟨y, hy, rfl⟩ := List.mem_map.1 hx
      exact mul_le_mul_of_nonneg_left (h3 y hy) (le_of_lt hc)

theorem resolveTop_scale (c : K) (hc : 0 < c) (p : List K) (t : Option K) :
    resolveTop (p.map (c * ·)) (t.map (c * ·)) = (resolveTop p t).map (c * ·) := by
  unfold resolveTop
  rw [npMin_scale c hc]
  cases npMin p with
  | error e => rfl
  | ok m =>
    cases t with
    | none => rfl
    | some t =>
      simp only [bind, Except.bind, Except.map, Option.map, gt_iff_lt, mul_lt_mul_iff_right₀ hc]
      split <;> rfl

theorem resolveTop_le (p : List K) (t : Option K) (s : K) (h : resolveTop p t = .ok s) : ∀ x ∈ p, s ≤ x := by
  intro x hx
  have hp : p ≠ [] := by intro hp; simp [hp] at hx
  obtain ⟨m, h1, h2, h3⟩ := npMin_spec p hp
  cases t with
  | none => rw [resolveTop_none _ _ h1] at h; cases h; exact h3 x hx
  | some t =>
    rw [resolveTop_some _ _ _ h1] at h
    split at h
    · cases h
    · cases h; rename_i hh; exact le_trans (not_lt.1 hh) (h3 x hx)

/-- scaling of `_delta_pressure1D` when `t` is a lower bound of the levels -/
theorem deltaPressure1D_scale (c : K) (hc : 0 < c) (p : List K) (ps : XF K) (t : K) (ht : ∀ x ∈ p, t ≤ x) :
    deltaPressure1D (p.map (c * ·)) (scale c ps) (c * t)
      = (deltaPressure1D p ps t).map (List.map (scale c)) := by
  have hct : c * t < 0 ↔ t < 0 := by
    constructor
    · intro h; by_contra hh; exact absurd h (not_lt.2 (mul_nonneg (le_of_lt hc) (not_lt.1 hh)))
    · intro h; exact mul_neg_of_pos_of_neg hc h
  have hps : XF.lt (scale c ps) (.fin (c * t)) = XF.lt ps (.fin t) := lt_scale c hc ps (.fin t)
  by_cases hn : 2 ≤ p.length
  · obtain ⟨lev, hlev⟩ := @list_eq_column K ⟨0⟩ p
    generalize hN : p.length = n at *
    have hcol : p.map (c * ·) = column n (fun k => c * lev k) := by
      rw [hlev]; simp [column]
    rw [hcol, deltaPressure1D_column n hn]
    simp only [hct, hps]
    rw [hlev, deltaPressure1D_column n hn]
    by_cases hchk : t < 0 ∨ XF.lt ps (.fin t) = true
    · rw [if_pos hchk, if_pos hchk]; rfl
    · rw [if_neg hchk, if_neg hchk]
      have ht0 : 0 ≤ t := by
        by_contra hh; exact hchk (Or.inl (not_le.1 hh))
      have hpos : ∀ i, i < n → 0 ≤ lev i := by
        intro i hi
        refine le_trans ht0 (ht _ ?_)
        rw [hlev]; simp only [column, List.mem_map, List.mem_range]; exact ⟨i, hi, rfl⟩
      rw [deltaSorted_scale c hc n hn lev hpos,
        deltaSorted_scale c hc n hn (fun k => lev (n - 1 - k)) (fun i hi => hpos _ (by omega))]
      simp only [mul_lt_mul_iff_right₀ hc]
      split
      · cases deltaSorted (column n fun k => lev (n - 1 - k)) ps t with
        | error e => rfl
        | ok d => simp [Except.map]
      · rfl
  · unfold deltaPressure1D
    rw [hps]
    by_cases h1 : t < 0
    · simp [h1, hct, bind, Except.bind, throw, throwThe, MonadExceptOf.throw, Except.map]
    · by_cases h2 : XF.lt ps (.fin t) = true
      · simp [h1, h2, hct, bind, Except.bind, throw, throwThe, MonadExceptOf.throw, Except.map]
      · have e1 : Py.index (p.map (c * ·)) 1 = .error .indexError := Py.index_oob _ 1 (by simp; omega)
        have e2 : Py.index p 1 = .error .indexError := Py.index_oob _ 1 (by omega)
        simp [h1, h2, hct, e1, e2, bind, Except.bind, Except.map]

/-! ### row-major bookkeeping -/

theorem flatten_uniform_getElem? {α : Type _} (rows : List (List α)) (n : ℕ) (h : ∀ r ∈ rows, r.length = n)
    (i k : ℕ) (hk : k < n) : rows.flatten[i * n + k]? = (rows[i]?).bind (fun r => r[k]?) := by
  induction rows generalizing i with
  | nil => simp
  | cons r rs ih =>
    have hr : r.length = n := h r (by simp)
    have ih := ih (fun r hr => h r (by simp [hr]))
    cases i with
    | zero =>
      simp only [List.flatten_cons, Nat.zero_mul, Nat.zero_add, List.getElem?_cons_zero, Option.bind_some]
      rw [List.getElem?_append_left (by omega)]
    | succ i =>
      rw [List.flatten_cons, List.getElem?_append_right (by rw [hr, Nat.succ_mul]; omega)]
      have : (i + 1) * n + k - r.length = i * n + k := by rw [hr, Nat.succ_mul]; omega
      rw [this, ih]
      simp

theorem flatten_uniform_length {α : Type _} (rows : List (List α)) (n : ℕ) (h : ∀ r ∈ rows, r.length = n) :
    rows.flatten.length = rows.length * n := by
  induction rows with
  | nil => simp
  | cons r rs ih =>
    have ih := ih (fun r hr => h r (by simp [hr]))
    have hr : r.length = n := h r (by simp)
    simp only [List.flatten_cons, List.length_append, List.length_cons, ih, hr, Nat.succ_mul]
    omega

theorem offset_snoc (shape idx : List ℕ) (n k : ℕ) (h : ValidIndex shape idx) :
    offset (shape ++ [n]) (idx ++ [k]) = offset shape idx * n + k := by
  induction shape generalizing idx with
  | nil =>
    cases idx with
    | nil => simp [offset]
    | cons i is => simp [ValidIndex] at h
  | cons s ss ih =>
    cases idx with
    | nil => simp [ValidIndex] at h
    | cons i is =>
      have := ih is h.2
      simp only [List.cons_append, offset, this, List.prod_append, List.prod_cons, List.prod_nil]
      ring

theorem offset_lt (shape idx : List ℕ) (h : ValidIndex shape idx) : offset shape idx < shape.prod := by
  induction shape generalizing idx with
  | nil => cases idx with
    | nil => simp [offset]
    | cons i is => simp [ValidIndex] at h
  | cons s ss ih =>
    cases idx with
    | nil => simp [ValidIndex] at h
    | cons i is =>
      obtain ⟨h1, h2⟩ := h
      have := ih is h2
      simp only [offset, List.prod_cons]
      calc i * ss.prod + offset ss is < i * ss.prod + ss.prod := by omega
        _ = (i + 1) * ss.prod := by ring
        _ ≤ s * ss.prod := Nat.mul_le_mul_right _ h1

theorem mapM_ok_iff {ε α β : Type _} (f : α → Except ε β) (l : List α) (r : List β) :
    l.mapM f = .ok r ↔ List.Forall₂ (fun a b => f a = .ok b) l r := by
  induction l generalizing r with
  | nil =>
    simp only [List.mapM_nil, pure, Except.pure]
    constructor
    · intro h; cases h; exact .nil
    · intro h; cases h; rfl
  | cons a l ih =>
    simp only [List.mapM_cons, bind, Except.bind, pure, Except.pure]
    constructor
    · intro h
      cases hf : f a with
      | error e => simp [hf] at h
      | ok b =>
        simp only [hf] at h
        cases hl : l.mapM f with
        | error e => simp [hl] at h
        | ok bs =>
          simp only [hl] at h; cases h
          exact .cons hf ((ih bs).1 hl)
    · intro h
      cases h with
      | cons h1 h2 => rw [h1]; simp only; rw [(ih _).2 h2]

theorem mapM_error_iff {ε α β : Type _} (f : α → Except ε β) (l : List α) :
    (∃ e, l.mapM f = .error e) ↔ ∃ a ∈ l, ∃ e, f a = .error e := by
  induction l with
  | nil => simp [pure, Except.pure]
  | cons a l ih =>
    simp only [List.mapM_cons, bind, Except.bind, pure, Except.pure, List.mem_cons, exists_eq_or_imp]
    rw [← ih]
    cases f a with
    | error e => simp
    | ok b => cases l.mapM f with
      | error e => simp
      | ok bs => simp

end Verif.Lemmas
