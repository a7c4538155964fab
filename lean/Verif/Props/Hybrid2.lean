import Verif.Props.Hybrid

/-
C09 for surface pressures of every rank (numpy).
-/

set_option linter.unusedSectionVars false

namespace Verif.Props
open Model Lemmas
variable {K : Type _} [Field K] [LinearOrder K] [IsStrictOrderedRing K]

theorem bdim_one_left (x : ℕ) : Tensor.bdim 1 x = some x := by
  unfold Tensor.bdim
  split_ifs <;> simp_all

theorem bdim_self (x : ℕ) : Tensor.bdim x x = some x := by simp [Tensor.bdim]

theorem bshapeRev_length (a b c : List ℕ) (h : Tensor.bshapeRev a b = some c) : c.length = max a.length b.length := by
  induction a generalizing b c with
  | nil =>
    simp only [Tensor.bshapeRev, Option.some.injEq] at h
    subst h
    simp
  | cons x a ih =>
    cases b with
    | nil =>
      simp only [Tensor.bshapeRev, Option.some.injEq] at h
      subst h
      simp
    | cons y b =>
      simp only [Tensor.bshapeRev] at h
      split at h
      · rename_i d r h1 h2
        injection h with h
        subst h
        simp only [List.length_cons, ih b r h2]
        omega
      · cases h

theorem bshape_length (a b c : List ℕ) (h : Tensor.bshape a b = some c) : c.length = max a.length b.length := by
  unfold Tensor.bshape at h
  obtain ⟨r, hr, rfl⟩ := Option.map_eq_some_iff.mp h
  rw [List.length_reverse, bshapeRev_length _ _ _ hr, List.length_reverse, List.length_reverse]

theorem zip_ok {α β γ : Type _} (f : α → β → γ) (a : Tensor α) (b : Tensor β) (r : Tensor γ) (h : Tensor.zip f a b = .ok r) :
    Tensor.bshape a.shape b.shape = some r.shape ∧ ∀ i, r.get i = f (a.get (Tensor.bidx a.shape i)) (b.get (Tensor.bidx b.shape i)) := by
  unfold Tensor.zip at h
  cases hs : Tensor.bshape a.shape b.shape with
  | none => rw [hs] at h; cases h
  | some s =>
    rw [hs] at h
    injection h with h
    subst h
    exact ⟨rfl, fun _ => rfl⟩

/-- the two broadcast operations of the numpy path, for 1-D coefficients -/
theorem pressureNp_eq (psfc hya hyb : Tensor K) (p0 : K) (n : ℕ) (ha : hya.shape = [n]) (hb : hyb.shape = [n]) :
    pressureNp psfc hya hyb p0 =
      (do let b ← Tensor.zip (fun x y => x * y) ⟨[n, 1, 1], fun i => hyb.get (i.take 1 ++ i.drop 3)⟩ psfc
          Tensor.zip (fun x y => x + y) ⟨[n, 1, 1], fun i => hya.get (i.take 1 ++ i.drop 3) * p0⟩ b) := by
  unfold pressureNp expandDims12
  simp only [ha, hb, ne_eq, not_true_eq_false, if_false, List.length_singleton, lt_irrefl]
  rfl

/-- `C09`, the shape: the result is `(nlev,) + psfc.shape` for surface pressure of rank 2 and for no other rank; the result always has
rank 3 or the rank of the surface pressure -/
theorem C09_rank_exact (psfc hya hyb : Tensor K) (p0 : K) (n : ℕ) (ha : hya.shape = [n]) (hb : hyb.shape = [n]) :
    ((∃ r, pressureNp psfc hya hyb p0 = .ok r ∧ r.shape = n :: psfc.shape) ↔ psfc.shape.length = 2) ∧
    ∀ r, pressureNp psfc hya hyb p0 = .ok r → r.shape.length = max 3 psfc.shape.length := by
  have hlen : ∀ r, pressureNp psfc hya hyb p0 = .ok r → r.shape.length = max 3 psfc.shape.length := by
    intro r hr
    rw [pressureNp_eq psfc hya hyb p0 n ha hb] at hr
    simp only [bind, Except.bind] at hr
    split at hr
    · cases hr
    · rename_i b hb'
      have h1 := bshape_length _ _ _ (zip_ok _ _ _ _ hb').1
      have h2 := bshape_length _ _ _ (zip_ok _ _ _ _ hr).1
      simp only [List.length_cons, List.length_nil] at h1 h2
      omega
  refine ⟨⟨?_, ?_⟩, hlen⟩
  · rintro ⟨r, hr, hs⟩
    have := hlen r hr
    rw [hs, List.length_cons] at this
    omega
  · intro h2
    obtain ⟨ny, nx, hp⟩ := List.length_eq_two.mp h2
    obtain ⟨r, h, hs, -⟩ := pressureNp_grid psfc hya hyb p0 n ny nx hp ha hb
    exact ⟨r, h, by rw [hs, hp]⟩

/-- `C09` for rank 1 (a line of points): an axis of length 1 appears between the levels and the points; the values are right -/
theorem C09_rank1 (psfc hya hyb : Tensor K) (p0 : K) (n m : ℕ) (hp : psfc.shape = [m]) (ha : hya.shape = [n]) (hb : hyb.shape = [n]) :
    ∃ r, pressureNp psfc hya hyb p0 = .ok r ∧ r.shape = [n, 1, m] ∧
      ∀ k x, k < n → x < m → r.get [k, 0, x] = hya.get [k] * p0 + hyb.get [k] * psfc.get [x] := by
  have hs : Tensor.bshape [n, 1, 1] [m] = some [n, 1, m] := by simp [Tensor.bshape, Tensor.bshapeRev, bdim_one_left]
  have hs' : Tensor.bshape [n, 1, 1] [n, 1, m] = some [n, 1, m] := by simp [Tensor.bshape, Tensor.bshapeRev, bdim_one_left, bdim_self]
  rw [pressureNp_eq psfc hya hyb p0 n ha hb]
  simp only [Tensor.zip, hp, hs, hs', bind, Except.bind]
  refine ⟨_, rfl, rfl, ?_⟩
  intro k x hk hx
  have h1 : Tensor.bidx [n, 1, 1] [k, 0, x] = [k, 0, 0] := by
    simp only [Tensor.bidx, List.length_cons, List.length_nil, Nat.sub_self, List.drop_zero, List.zipWith_cons_cons, List.zipWith_nil_right, if_true]
    congr 1
    split <;> omega
  have h2 : Tensor.bidx [n, 1, m] [k, 0, x] = [k, 0, x] := by
    simp only [Tensor.bidx, List.length_cons, List.length_nil, Nat.sub_self, List.drop_zero, List.zipWith_cons_cons, List.zipWith_nil_right]
    congr 1
    · split <;> omega
    · congr 2
      split <;> omega
  have h3 : Tensor.bidx [m] [k, 0, x] = [x] := by
    simp only [Tensor.bidx, List.length_cons, List.length_nil, Nat.reduceAdd, Nat.reduceSub, List.drop_succ_cons, List.drop_zero,
      List.zipWith_cons_cons, List.zipWith_nil_right]
    congr 1
    split <;> omega
  simp only [h1, h2, h3, List.take_succ_cons, List.take_zero, List.drop_succ_cons, List.drop_nil, List.append_nil]

example : ∃ r, pressureNp (⟨[5], fun i => (i.headD 0 : ℚ)⟩ : Tensor ℚ) ⟨[2], fun _ => 1⟩ ⟨[2], fun _ => 1⟩ 1 = .ok r ∧ r.shape = [2, 1, 5] := by
  obtain ⟨r, h1, h2, -⟩ := C09_rank1 (⟨[5], fun i => (i.headD 0 : ℚ)⟩ : Tensor ℚ) ⟨[2], fun _ => 1⟩ ⟨[2], fun _ => 1⟩ 1 2 5 rfl rfl rfl
  exact ⟨r, h1, h2⟩

/-- `C09` for rank 3 and more, shape `(…, d, ny, nx)`: the levels are matched with the third axis from the end. The call fails with
ValueError unless that axis has length `nlev` or 1 (or there is a single level) … -/
theorem C09_rank3_error (psfc hya hyb : Tensor K) (p0 : K) (n d ny nx : ℕ) (pre : List ℕ) (hp : psfc.shape = pre ++ [d, ny, nx])
    (ha : hya.shape = [n]) (hb : hyb.shape = [n]) (hd : d ≠ n ∧ d ≠ 1 ∧ n ≠ 1) : pressureNp psfc hya hyb p0 = .error .valueError := by
  have hs : Tensor.bshape [n, 1, 1] (pre ++ [d, ny, nx]) = none := by
    simp [Tensor.bshape, Tensor.bshapeRev, Tensor.bdim, hd.2.1, hd.2.2, Ne.symm hd.1]
  rw [pressureNp_eq psfc hya hyb p0 n ha hb]
  simp only [Tensor.zip, hp, hs, bind, Except.bind]

/-- … and if it has length `nlev`, level `k` is only combined with position `k` of that axis. -/
theorem C09_rank3_paired (psfc hya hyb : Tensor K) (p0 : K) (n ny nx : ℕ) (pre : List ℕ) (hp : psfc.shape = pre ++ [n, ny, nx])
    (ha : hya.shape = [n]) (hb : hyb.shape = [n]) :
    ∃ r, pressureNp psfc hya hyb p0 = .ok r ∧ r.shape = psfc.shape ∧
      ∀ (j : List ℕ) (k y x : ℕ), Tensor.InBounds psfc.shape (j ++ [k, y, x]) →
        r.get (j ++ [k, y, x]) = hya.get [k] * p0 + hyb.get [k] * psfc.get (j ++ [k, y, x]) := by
  have hs : Tensor.bshape [n, 1, 1] (pre ++ [n, ny, nx]) = some (pre ++ [n, ny, nx]) := by
    simp [Tensor.bshape, Tensor.bshapeRev, bdim_one_left, bdim_self]
  rw [pressureNp_eq psfc hya hyb p0 n ha hb]
  simp only [Tensor.zip, hp, hs, bind, Except.bind]
  refine ⟨_, rfl, rfl, ?_⟩
  intro j k y x hin
  have hb' := Tensor.bidx_of_inBounds hin
  have hk : k < n := by
    have hlen := hin.length_eq
    simp only [List.length_append, List.length_cons, List.length_nil] at hlen
    have hj : j.length = pre.length := by omega
    have h := (List.forall₂_iff_get.mp hin).2 pre.length (by simp; omega) (by simp)
    simp only [List.get_eq_getElem] at h
    rw [List.getElem_append_right (by omega), List.getElem_append_right (by omega)] at h
    simpa [hj] using h
  have h1 : Tensor.bidx [n, 1, 1] (j ++ [k, y, x]) = [k, 0, 0] := by
    simp only [Tensor.bidx, List.length_append, List.length_cons, List.length_nil, Nat.reduceAdd, Nat.add_sub_cancel, List.drop_left,
      List.zipWith_cons_cons, List.zipWith_nil_right, if_true]
    congr 1
    split <;> omega
  simp only [hb', h1, List.take_succ_cons, List.take_zero, List.drop_succ_cons, List.drop_nil, List.append_nil]

/-- surface pressure with 2 ensemble members, 3 times and a 2 × 2 grid: with 3 levels level `k` is paired with time `k`, with 4 levels the call fails -/
example : (∃ r, pressureNp (⟨[2, 3, 2, 2], fun i => (i.headD 0 : ℚ)⟩ : Tensor ℚ) ⟨[3], fun _ => 1⟩ ⟨[3], fun _ => 1⟩ 1 = .ok r ∧ r.shape = [2, 3, 2, 2]) ∧
    pressureNp (⟨[2, 3, 2, 2], fun i => (i.headD 0 : ℚ)⟩ : Tensor ℚ) ⟨[4], fun _ => 1⟩ ⟨[4], fun _ => 1⟩ 1 = .error .valueError := by
  refine ⟨?_, C09_rank3_error _ _ _ 1 4 3 2 2 [2] rfl rfl rfl (by decide)⟩
  obtain ⟨r, h1, h2, -⟩ := C09_rank3_paired (⟨[2, 3, 2, 2], fun i => (i.headD 0 : ℚ)⟩ : Tensor ℚ) ⟨[3], fun _ => 1⟩ ⟨[3], fun _ => 1⟩ 1 3 2 2 [2] rfl rfl rfl
  exact ⟨r, h1, h2⟩

end Verif.Props
