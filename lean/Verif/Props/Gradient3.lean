import Verif.Props.Gradient2

namespace Verif.Props
open Verif.Model Verif.Model.Gradient Verif.Spec

/-- C76: 2-D coordinates with a single row or a single column are rejected, whatever the data (they are not broadcast against larger data). -/
theorem C76_single_row_rejected (data : Data) {r c : ℕ} (h : r < 2 ∨ c < 2) (lon lat : Tensor ℝ) (hlo : lon.shape = [r, c]) (hla : lat.shape = [r, c]) :
    gradient data (some lon) (some lat) = .error .valueError := by
  obtain ⟨slo, lon⟩ := lon
  obtain ⟨sla, lat⟩ := lat
  simp only at hlo hla
  subst hlo hla
  simp only [gradient, chooseCoords, to2d, Tensor.zip, Tensor.map, npGradientAxis, Option.isNone_some, Bool.or_self,
      Bool.false_eq_true, if_false, bind, Except.bind, List.length_cons, List.length_nil, Tensor.bshape_self,
      List.getElem?_cons_zero, List.getElem?_cons_succ]
  by_cases hr : r < 2
  · simp [hr]
  · have hc : c < 2 := by omega
    simp [hr, hc]

/-- C76: 1-D coordinates with a single latitude or a single longitude are rejected. -/
theorem C76_single_value_rejected (data : Data) {nlon nlat : ℕ} (h : nlat < 2 ∨ nlon < 2) (lon lat : List ℕ → ℝ) :
    gradient data (some ⟨[nlon], lon⟩) (some ⟨[nlat], lat⟩) = .error .valueError := by
  rw [C76_one_dimensional_is_mesh]
  exact C76_single_row_rejected data h _ _ rfl rfl

example : gradient ⟨.numpy, none, none, ⟨[4, 3], fun _ => .fin 0⟩⟩ (some ⟨[3], fun i => (i.getD 0 0 : ℝ)⟩) (some ⟨[1], fun _ => 45⟩) = .error .valueError :=
  C76_single_value_rejected _ (Or.inl (by norm_num)) _ _

/-- C76: numpy or DataArray data with an axis of fewer than two values are rejected with a ValueError, also when the coordinates are not too small. -/
theorem C76_small_data_rejected (data : Data) (hk : data.kind = .numpy ∨ data.kind = .dataArray) {r c : ℕ} (hr : 2 ≤ r) (hc : 2 ≤ c)
    (hs : ∃ n ∈ data.val.shape, n < 2) (lon lat : Tensor ℝ) (hlo : lon.shape = [r, c]) (hla : lat.shape = [r, c]) :
    gradient data (some lon) (some lat) = .error .valueError := by
  obtain ⟨slo, lon⟩ := lon
  obtain ⟨sla, lat⟩ := lat
  obtain ⟨kind, la, lo, val⟩ := data
  simp only at hlo hla hk hs
  subst hlo hla
  have hany : val.shape.any (fun n => decide (n < 2)) = true := by
    obtain ⟨n, hn, h2⟩ := hs
    exact List.any_eq_true.mpr ⟨n, hn, by simpa using h2⟩
  have h0 : ¬ r < 2 := by omega
  have h1 : ¬ c < 2 := by omega
  have hg : npGradientFirstTwo val = .error .valueError := by unfold npGradientFirstTwo; rw [if_pos hany]
  rcases hk with rfl | rfl <;>
    simp [gradient, chooseCoords, to2d, Tensor.zip, Tensor.map, npGradientAxis, hg, Option.isNone_some,
      bind, Except.bind, Tensor.bshape_self, h0, h1]

example : gradient ⟨.numpy, none, none, ⟨[1, 3], fun _ => .fin 0⟩⟩ (some ⟨[2, 3], fun _ => 0⟩) (some ⟨[2, 3], fun _ => 0⟩) = .error .valueError :=
  C76_small_data_rejected _ (.inl rfl) (by norm_num : 2 ≤ 2) (by norm_num : 2 ≤ 3) ⟨1, by simp, by norm_num⟩ _ _ rfl rfl

/-- broadcasting with a two-dimensional result: each operand has at most two dimensions; where both extents exceed 1 they agree with the result -/
theorem bshape_pair {s t : List ℕ} {a b : ℕ} (h : Tensor.bshape s t = some [a, b]) (hs : ∀ n ∈ s, 2 ≤ n) (h2 : 2 ≤ s.length) : s = [a, b] := by
  unfold Tensor.bshape at h
  obtain ⟨r, hr, hrev⟩ := Option.map_eq_some_iff.mp h
  have hr2 : r = [b, a] := by rw [← List.reverse_reverse r, hrev]; rfl
  subst hr2
  have hdim : ∀ x y d, 2 ≤ x → Tensor.bdim x y = some d → d = x := by
    intro x y d hx hd
    unfold Tensor.bdim at hd
    split at hd
    · simpa using hd.symm
    · split at hd
      · omega
      · split at hd
        · simpa using hd.symm
        · cases hd
  have hs' : ∀ n ∈ s.reverse, 2 ≤ n := fun n hn => hs n (List.mem_reverse.mp hn)
  have hl : 2 ≤ s.reverse.length := by simpa using h2
  have key : s.reverse = [b, a] := by
    generalize s.reverse = u at hr hs' hl
    match u, hl with
    | x :: y :: rest, _ =>
      have hx : 2 ≤ x := hs' x (by simp)
      have hy : 2 ≤ y := hs' y (by simp)
      match h1 : t.reverse with
      | [] => rw [h1] at hr; simpa [Tensor.bshapeRev] using hr
      | p :: q =>
        rw [h1] at hr
        simp only [Tensor.bshapeRev] at hr
        split at hr
        · rename_i d r e1 e2
          injection hr with hr
          injection hr with hd hr
          have : d = x := hdim _ _ _ hx e1
          subst hr
          match q with
          | [] =>
            simp [Tensor.bshapeRev] at e2
            obtain ⟨rfl, rfl⟩ := e2
            rw [← this, hd]
          | p' :: q' =>
            simp only [Tensor.bshapeRev] at e2
            split at e2
            · rename_i d' r' e3 e4
              injection e2 with e2
              injection e2 with hd' hr'
              have h' : d' = y := hdim _ _ _ hy e3
              subst hr'
              have hrest : rest = [] := by
                match rest, q' with
                | [], _ => rfl
                | z :: rest, [] => simp [Tensor.bshapeRev] at e4
                | z :: rest, w :: q' =>
                  simp only [Tensor.bshapeRev] at e4
                  split at e4
                  · cases e4
                  · cases e4
              rw [hrest, ← this, ← h', hd, hd']
            · cases e2
        · cases hr
  have := congrArg List.reverse key
  simpa using this

/-- C76: for a DataArray, two-dimensional coordinates must have equal shapes, and the data (unless one-dimensional) must have the same shape: no result is
returned on a grid that is not the one of the data. -/
theorem C76_dataarray_shapes (data : Data) (hk : data.kind = .dataArray) (lon lat : Tensor ℝ) (h2 : lat.shape.length = 2) (l : List Result)
    (h : gradient data (some lon) (some lat) = .ok l) : lon.shape = lat.shape ∧ (data.val.shape = lat.shape ∨ data.val.shape.length = 1) := by
  obtain ⟨kind, la, lo, val⟩ := data
  simp only at hk
  subst hk
  have hto : to2d (some lon) (some lat) = .ok (lon, lat) ∨ ∃ e, to2d (some lon) (some lat) = .error e := by
    unfold to2d
    simp only
    by_cases h1 : lon.shape.length = 1
    · right; rw [if_pos h1, if_neg (by omega)]; exact ⟨_, rfl⟩
    · rw [if_neg h1]
      by_cases h3 : lon.shape.length = 2
      · left; rw [if_pos h3, if_pos h2]
      · right; rw [if_neg h3]; exact ⟨_, rfl⟩
  rcases hto with hto | ⟨e, hto⟩
  swap
  · simp [gradient, chooseCoords, hto, bind, Except.bind] at h
  simp only [gradient, chooseCoords, hto, bind, Except.bind, Option.isNone_some, Bool.or_self, Bool.false_eq_true, if_false] at h
  split at h
  · cases h
  rename_i loc1 hloc1
  split at h
  · cases h
  rename_i d0 hd0
  split at h
  · cases h
  rename_i d1 hd1
  simp only [reduceCtorEq, if_false] at h
  split at h
  · cases h
  rename_i g hg
  split at h
  · cases h
  rename_i a0 ha0
  split at h
  · cases h
  rename_i a1 ha1
  split at h
  · cases h
  rename_i r0 hr0
  unfold wrap at hr0
  simp only at hr0
  split at hr0
  swap
  · cases hr0
  rename_i hw
  refine ⟨by rw [hw.2.1, hw.2.2], ?_⟩
  by_cases hl : val.shape.length = 1
  · exact .inr hl
  left
  unfold npGradientFirstTwo at hg
  split at hg
  · cases hg
  rename_i hany
  have hall : ∀ n ∈ val.shape, 2 ≤ n := by
    intro n hn
    by_contra hlt
    exact hany (List.any_eq_true.mpr ⟨n, hn, by simpa using hlt⟩)
  have hshape : g.1.shape = val.shape ∧ 2 ≤ val.shape.length := by
    split at hg
    · cases hg
    · rename_i hv; rw [hv] at hl; simp at hl
    · rename_i hne hne'
      simp only [bind, Except.bind] at hg
      split at hg
      · cases hg
      rename_i g0 hg0
      split at hg
      · cases hg
      rename_i g1 hg1
      injection hg with hg
      subst hg
      refine ⟨?_, ?_⟩
      · unfold npGradientAxis at hg0
        split at hg0
        · cases hg0
        · split at hg0
          · cases hg0
          · injection hg0 with hg0; rw [← hg0]
      · match hv : val.shape with
        | [] => exact absurd hv hne
        | [n] => exact absurd hv (hne' n)
        | _ :: _ :: _ => simp
  have ha : a0.shape = val.shape := by
    unfold Tensor.zip at ha0
    split at ha0
    · cases ha0
    rename_i s hs
    injection ha0 with ha0
    have hs' : a0.shape = s := by rw [← ha0]
    have hlen := hw.1
    rw [hs'] at hlen
    match s, hlen with
    | [a, b], _ =>
      rw [hs', hshape.1] at *
      exact (bshape_pair hs hall hshape.2).symm
  rw [hw.2.2, ha]

example : gradient ⟨.dataArray, none, none, ⟨[2, 2], fun _ => .fin 0⟩⟩ (some ⟨[2, 2], fun i => (i.getD 1 0 : ℝ)⟩) (some ⟨[2, 2], fun i => (i.getD 0 0 : ℝ)⟩) ≠ .error .valueError := by
  obtain ⟨a, b, h⟩ := C104_two_dimensional_partial ⟨.dataArray, none, none, ⟨[2, 2], fun _ => .fin 0⟩⟩ (by simp) (le_refl 2) (le_refl 2) rfl
    ⟨[2, 2], fun i => (i.getD 1 0 : ℝ)⟩ ⟨[2, 2], fun i => (i.getD 0 0 : ℝ)⟩ rfl rfl
  rw [h]
  simp

/-- C104: one-dimensional data, of whatever length, are not rejected either: the results are two-dimensional, on the grid of the coordinates, and both
come from the first few values only. -/
theorem C104_one_dimensional_counterexample (k : DataKind) (hk : k = .numpy ∨ k = .dataArray) {n r c : ℕ} (hn : 3 ≤ n) (hr : 2 ≤ r) (hc : 2 ≤ c) (f g : List ℕ → XF ℝ)
    (hfg : f [0] = g [0] ∧ f [1] = g [1] ∧ f [2] = g [2]) (lon lat : Tensor ℝ) (hlo : lon.shape = [r, c]) (hla : lat.shape = [r, c]) :
    ∃ a b, gradient ⟨k, none, none, ⟨[n], f⟩⟩ (some lon) (some lat) = .ok [a, b] ∧ a.val.shape = [r, c] ∧ b.val.shape = [r, c] ∧
      gradient ⟨k, none, none, ⟨[n], g⟩⟩ (some lon) (some lat) = .ok [a, b] := by
  obtain ⟨slo, lon⟩ := lon
  obtain ⟨sla, lat⟩ := lat
  simp only at hlo hla
  subst hlo hla
  have h0 : ¬ r < 2 := by omega
  have h1 : ¬ c < 2 := by omega
  have hb : Tensor.bshape [] [r, c] = some [r, c] := by simp [Tensor.bshape, Tensor.bshapeRev]
  have hg : ∀ f : List ℕ → XF ℝ, npGradientFirstTwo ⟨[n], f⟩ = .ok (⟨[], fun _ => f [1] - f [0]⟩, ⟨[], fun _ => if 1 = n - 1 then f [n - 1] - f [n - 2] else halfX (f [2] - f [0])⟩) := by
    intro f
    unfold npGradientFirstTwo
    rw [if_neg (by simp; omega)]
    simp [diffAt]
  have hne : ¬ 1 = n - 1 := by omega
  have he : ∀ k, gradient ⟨k, none, none, ⟨[n], f⟩⟩ (some ⟨[r, c], lon⟩) (some ⟨[r, c], lat⟩) = gradient ⟨k, none, none, ⟨[n], g⟩⟩ (some ⟨[r, c], lon⟩) (some ⟨[r, c], lat⟩) := by
    intro k
    simp only [gradient, chooseCoords, hg, hfg.1, hfg.2.1, hfg.2.2, if_neg hne]
  rcases hk with rfl | rfl
  · have : ∃ u v, gradient ⟨.numpy, none, none, ⟨[n], f⟩⟩ (some ⟨[r, c], lon⟩) (some ⟨[r, c], lat⟩) = .ok [.numpy ⟨[r, c], u⟩, .numpy ⟨[r, c], v⟩] := by
      simp [gradient, chooseCoords, to2d, Tensor.zip, Tensor.map, npGradientAxis, hg, Option.isNone_some, bind, Except.bind, Tensor.bshape_self, h0, h1, hb, wrap, pure, Except.pure]
    obtain ⟨u, v, h⟩ := this
    exact ⟨_, _, h, rfl, rfl, he _ ▸ h⟩
  · have : ∃ u v, gradient ⟨.dataArray, none, none, ⟨[n], f⟩⟩ (some ⟨[r, c], lon⟩) (some ⟨[r, c], lat⟩) =
        .ok [.dataArray ⟨[r, c], u⟩ ⟨[r, c], lon⟩ ⟨[r, c], lat⟩, .dataArray ⟨[r, c], v⟩ ⟨[r, c], lon⟩ ⟨[r, c], lat⟩] := by
      simp [gradient, chooseCoords, to2d, Tensor.zip, Tensor.map, npGradientAxis, hg, Option.isNone_some, bind, Except.bind, Tensor.bshape_self, h0, h1, hb, wrap, pure, Except.pure]
    obtain ⟨u, v, h⟩ := this
    exact ⟨_, _, h, rfl, rfl, he _ ▸ h⟩

/-- C104: what is returned for three-dimensional numpy data (t, lat, lon): the differences along the first axis over the latitudinal distances, and the
differences along latitude over the longitudinal distances. A three-dimensional DataArray is rejected. -/
theorem C104_three_dimensional {t r c : ℕ} (ht : 2 ≤ t) (hr : 2 ≤ r) (hc : 2 ≤ c) (f : List ℕ → XF ℝ) (lon lat : Tensor ℝ) (hlo : lon.shape = [r, c]) (hla : lat.shape = [r, c]) :
    (∃ a b, gradient ⟨.numpy, none, none, ⟨[t, r, c], f⟩⟩ (some lon) (some lat) = .ok [.numpy a, .numpy b] ∧ a.shape = [t, r, c] ∧ b.shape = [t, r, c] ∧
      ∀ k i j, a.get [k, i, j] = diffAt halfX t (fun v => f [v, i, j]) k / .fin (diffAt halfR r (fun v => arcLat (lat.get [v, j])) i) ∧
        b.get [k, i, j] = diffAt halfX r (fun v => f [k, v, j]) i / .fin (diffAt halfR c (fun v => arcLon (lon.get [i, v]) (lat.get [i, v])) j)) ∧
    gradient ⟨.dataArray, none, none, ⟨[t, r, c], f⟩⟩ (some lon) (some lat) = .error .valueError := by
  obtain ⟨slo, lon⟩ := lon
  obtain ⟨sla, lat⟩ := lat
  simp only at hlo hla
  subst hlo hla
  have ht' : ¬ t < 2 := by omega
  have h0 : ¬ r < 2 := by omega
  have h1 : ¬ c < 2 := by omega
  have t1 : ¬ t = 1 := by omega
  have r1 : ¬ r = 1 := by omega
  have c1 : ¬ c = 1 := by omega
  have hb : Tensor.bshape [t, r, c] [r, c] = some [t, r, c] := by simp [Tensor.bshape, Tensor.bshapeRev, Tensor.bdim]
  have hi3 : ∀ k i j, Tensor.bidx [t, r, c] [k, i, j] = [k, i, j] := by intro k i j; simp [Tensor.bidx, t1, r1, c1]
  have hi2 : ∀ k i j, Tensor.bidx [r, c] [k, i, j] = [i, j] := by intro k i j; simp [Tensor.bidx, r1, c1]
  have hi2' : ∀ i j, Tensor.bidx [r, c] [i, j] = [i, j] := by intro i j; simp [Tensor.bidx, r1, c1]
  have hg : npGradientFirstTwo ⟨[t, r, c], f⟩ =
      .ok (⟨[t, r, c], fun i => diffAt halfX t (fun v => f (i.set 0 v)) (i.getD 0 0)⟩, ⟨[t, r, c], fun i => diffAt halfX r (fun v => f (i.set 1 v)) (i.getD 1 0)⟩) := by
    unfold npGradientFirstTwo
    rw [if_neg (by simp; omega)]
    simp [npGradientAxis, ht', h0, bind, Except.bind, pure, Except.pure]
  constructor
  · simp [gradient, chooseCoords, to2d, Tensor.zip, Tensor.map, npGradientAxis, hg, Option.isNone_some, bind, Except.bind, Tensor.bshape_self, h0, h1, hb, wrap,
      pure, Except.pure, hi3, hi2, hi2']
  · simp [gradient, chooseCoords, to2d, Tensor.zip, Tensor.map, npGradientAxis, hg, Option.isNone_some, bind, Except.bind, Tensor.bshape_self, h0, h1, hb, wrap]

end Verif.Props
