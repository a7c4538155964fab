import Verif.Props.MeanPsi
import Verif.Props.HybridCall

/-
Property C202: hybrid pressures and layers of an averaged surface pressure.
-/

set_option linter.unusedSectionVars false

namespace Verif.Props
open Model Spec Lemmas
variable {K : Type} [Field K] [LinearOrder K] [IsStrictOrderedRing K]

/-- an average in time whose values lie in every convex set that contains the values averaged -/
structure PlainMean (A : Series K → Except PyErr (List (Entry K))) : Prop extends TimeMean A where
  conv : ∀ {ι : Type} [Nonempty ι] (s : Series K) (cells : ι → ℕ), (∀ i, cells i < s.ncell) → ∀ C : Set (ι → K), Convex K C →
    (∀ e ∈ s.samples, Together cells C e.val) → ∀ out, A s = .ok out → ∀ o ∈ out, Together cells C o.val

theorem calendar_plain (cal : Cal) (infer : InferFreq) (freq : String) : PlainMean (K := K) (calendarAverage cal infer freq) where
  toTimeMean := calendar_timeMean cal infer freq
  conv := fun {_ _} s cells hc C hC h out ho => C133_calendar cal infer freq s cells hc C hC h out ho

theorem monthToSeason_plain (cal : Cal) (season : String) : PlainMean (K := K) (monthToSeason cal season) where
  toTimeMean := monthToSeason_timeMean cal season
  conv := fun {_ _} s cells _ C hC h out ho => C133_month_to_season cal season s cells C hC h out ho

theorem climatology_plain (cal : Cal) (infer : InferFreq) (freq : String) (p : Period) (hf : GroupFreq freq p) (custom : List String) :
    PlainMean (K := K) (fun s => (climatologyAverage cal infer freq custom s).map climSteps) where
  toTimeMean := climatology_timeMean cal infer freq custom
  conv := fun {_ _} s cells _ C hC h out ho o hmem => by
    cases hq : climatologyAverage cal infer freq custom s with
    | error e =>
      simp only [hq, Except.map] at ho
      cases ho
    | ok q =>
      simp only [hq, Except.map] at ho
      injection ho with ho
      subst ho
      obtain ⟨l, rfl, hv⟩ := C133_climatology cal infer freq p hf custom s cells C hC h _ hq
      exact hv o hmem

/-- as `mean_linear`, for convex relations -/
theorem mean_convex {A : Series K → Except PyErr (List (Entry K))} (hA : PlainMean A) (s s' : Series K) (hn : 0 < s.ncell) (hn' : 0 < s'.ncell)
    (hg : NoGaps s) (hg' : NoGaps s') (hk : s'.samples.map (·.key) = s.samples.map (·.key)) (ht : s'.isTime = s.isTime) :
    (∀ e, A s = .error e → A s' = .error e) ∧ ∀ out, A s = .ok out → ∃ out', A s' = .ok out' ∧ out'.map (·.key) = out.map (·.key) ∧
      ∀ {ι : Type} (cells : ι → ℕ) (c' : ℕ), (∀ i, cells i < s.ncell) → c' < s'.ncell → ∀ C : Set (Option ι → K), Convex K C →
        (∀ (i : ℕ) (e e' : Entry K), s.samples[i]? = some e → s'.samples[i]? = some e' →
          ∃ v ∈ C, (∀ k : ι, e.val (cells k) = some (v (some k))) ∧ e'.val c' = some (v none)) →
        ∀ (i : ℕ) (o o' : Entry K), out[i]? = some o → out'[i]? = some o' →
          ((∀ k, o.val (cells k) = none) ∧ o'.val c' = none) ∨ ∃ v ∈ C, (∀ k : ι, o.val (cells k) = some (v (some k))) ∧ o'.val c' = some (v none) := by
  have hB : 0 < (bothFields s s').ncell := by simp only [bothFields]; omega
  have hgB := both_noGaps s s' hg hg'
  have e1 := hA.sel (bothFields s s') s.ncell (fstCell s.ncell s'.ncell) hB hn hgB
    (fun c hc => by simp only [fstCell, if_pos hc, bothFields]; omega)
  have e2 := hA.sel (bothFields s s') s'.ncell (sndCell s.ncell s'.ncell) hB hn' hgB
    (fun c hc => by simp only [sndCell, if_pos hc, bothFields]; omega)
  rw [select_fst s s' hk] at e1
  rw [select_snd s s' hk ht] at e2
  cases hq : A (bothFields s s') with
  | error e =>
    rw [hq] at e1 e2
    rw [e1, e2]
    exact ⟨fun _ h => h, fun _ h => (nomatch h)⟩
  | ok q =>
    rw [hq] at e1 e2
    rw [e1, e2]
    refine ⟨fun _ h => (nomatch h), fun out ho => ?_⟩
    injection ho with ho
    subst ho
    refine ⟨_, rfl, by simp only [List.map_map]; rfl, fun {ι} cells c' hc hc' C hC hv i o o' hi hi' => ?_⟩
    simp only [List.getElem?_map, Option.map_eq_some_iff] at hi hi'
    obtain ⟨b, hb, rfl⟩ := hi
    obtain ⟨b', hb', rfl⟩ := hi'
    rw [hb] at hb'
    obtain rfl := Option.some.inj hb'
    have hT := hA.conv (bothFields s s') (fun k : Option ι => k.elim (sndCell s.ncell s'.ncell c') (fun k => fstCell s.ncell s'.ncell (cells k)))
      (fun k => by
        cases k with
        | none => simp only [Option.elim, sndCell, if_pos hc', bothFields]; omega
        | some k => simp only [Option.elim, fstCell, if_pos (hc k), bothFields]; have := hc k; omega)
      C hC (fun e he => by
        obtain ⟨i, hi⟩ := List.mem_iff_getElem?.mp he
        simp only [bothFields, List.getElem?_zipWith] at hi
        cases h1 : s.samples[i]? with
        | none => rw [h1] at hi; simp at hi
        | some a =>
          cases h2 : s'.samples[i]? with
          | none => rw [h1, h2] at hi; simp at hi
          | some d =>
            rw [h1, h2] at hi
            obtain rfl := Option.some.inj hi
            obtain ⟨v, hvC, hv1, hv2⟩ := hv i a d h1 h2
            refine Or.inr ⟨v, hvC, fun k => ?_⟩
            cases k with
            | none => simp only [Option.elim, bothVal_snd]; exact hv2
            | some k => simp only [Option.elim, bothVal_fst]; exact hv1 k)
      q hq b (List.mem_of_getElem? hb)
    rcases hT with hT | ⟨v, hvC, hT⟩
    · exact Or.inl ⟨fun k => hT (some k), hT none⟩
    · exact Or.inr ⟨v, hvC, fun k => hT (some k), hT none⟩

/-- Fields computed from the data of each time step cell by cell, by convex relations that are the same at all times: the relations hold between the
averages. -/
theorem cellwise_mean {A : Series K → Except PyErr (List (Entry K))} (hA : PlainMean A) {m m' : ℕ} (hm : 0 < m) (hm' : 0 < m') (s s' : Series K)
    (hn : s.ncell = m) (hn' : s'.ncell = m') (hk : s'.samples.map (·.key) = s.samples.map (·.key)) (ht : s'.isTime = s.isTime)
    (src : ℕ → ℕ) (hsrc : ∀ q < m', src q < m) (R : ℕ → Set (K × K)) (hR : ∀ q < m', Convex K (R q))
    (hs : ∀ (t : ℕ) (e e' : Entry K), s.samples[t]? = some e → s'.samples[t]? = some e' →
      ∃ f g, CellsHold m e f ∧ CellsHold m' e' g ∧ ∀ q < m', (f (src q), g q) ∈ R q) :
    (∀ e, A s = .error e → A s' = .error e) ∧ ∀ out, A s = .ok out → ∃ out', A s' = .ok out' ∧ out'.map (·.key) = out.map (·.key) ∧
      ∀ (t : ℕ) (o o' : Entry K), out[t]? = some o → out'[t]? = some o' → (CellsMissing m o ∧ CellsMissing m' o') ∨
        ∃ f g, CellsHold m o f ∧ CellsHold m' o' g ∧ ∀ q < m', (f (src q), g q) ∈ R q := by
  have hlen : s'.samples.length = s.samples.length := by simpa using congrArg List.length hk
  have hg : NoGaps s := by
    intro e he q hq
    obtain ⟨t, ht⟩ := List.mem_iff_getElem?.mp he
    obtain ⟨hl, -⟩ := List.getElem?_eq_some_iff.mp ht
    obtain ⟨f, g, hf, -, -⟩ := hs t e _ ht (List.getElem?_eq_getElem (hlen ▸ hl))
    exact ⟨_, hf q (hn ▸ hq)⟩
  have hg' : NoGaps s' := by
    intro e' he' q hq
    obtain ⟨t, ht'⟩ := List.mem_iff_getElem?.mp he'
    obtain ⟨hl, -⟩ := List.getElem?_eq_some_iff.mp ht'
    obtain ⟨f, g, -, hf, -⟩ := hs t _ e' (List.getElem?_eq_getElem (hlen ▸ hl)) ht'
    exact ⟨_, hf q (hn' ▸ hq)⟩
  obtain ⟨herr, hok⟩ := mean_convex hA s s' (by omega) (by omega) hg hg' hk ht
  refine ⟨herr, fun out hout => ?_⟩
  obtain ⟨out', o1, o2, o3⟩ := hok out hout
  refine ⟨out', o1, o2, fun t o o' h1 h2 => ?_⟩
  have key : ∀ q (hq : q < m'), ((∀ p : Fin m, o.val p = none) ∧ o'.val q = none) ∨
      ∃ v : Option (Fin m) → K, (v (some ⟨src q, hsrc q hq⟩), v none) ∈ R q ∧ (∀ p : Fin m, o.val p = some (v (some p))) ∧ o'.val q = some (v none) := by
    intro q hq
    refine o3 (fun p : Fin m => (p : ℕ)) q (fun p => by rw [hn]; exact p.2) (by rw [hn']; exact hq)
      {v | (v (some ⟨src q, hsrc q hq⟩), v none) ∈ R q} ?_ (fun t e e' he he' => ?_) t o o' h1 h2
    · intro v hv u hu a b ha hb hab
      exact hR q hq hv hu ha hb hab
    · obtain ⟨f, g, hf, hg1, hv⟩ := hs t e e' he he'
      exact ⟨fun x => x.elim (g q) (fun p => f p), hv q hq, fun p => hf _ p.2, hg1 q hq⟩
  rcases Classical.em (∃ p : Fin m, o.val p = none) with ⟨p0, hp0⟩ | hno
  · refine Or.inl ⟨fun q hq => ?_, fun q hq => ?_⟩
    · rcases key 0 hm' with ⟨h, -⟩ | ⟨v, -, h, -⟩
      · exact h ⟨q, hq⟩
      · rw [h p0] at hp0
        cases hp0
    · rcases key q hq with ⟨-, h⟩ | ⟨v, -, h, -⟩
      · exact h
      · rw [h p0] at hp0
        cases hp0
  · right
    have hsome : ∀ p : Fin m, ∃ v, o.val p = some v := fun p => by
      cases h : o.val p with
      | none => exact absurd ⟨p, h⟩ hno
      | some v => exact ⟨v, rfl⟩
    choose v hv using hsome
    have key' : ∀ q : Fin m', ∃ y, o'.val q = some y ∧ (v ⟨src q, hsrc q q.2⟩, y) ∈ R q := by
      intro q
      rcases key q q.2 with ⟨h, -⟩ | ⟨u, hu, h, h'⟩
      · have := h ⟨0, hm⟩
        rw [hv] at this
        cases this
      · refine ⟨_, h', ?_⟩
        rw [Option.some.inj ((hv _).symm.trans (h ⟨src q, hsrc q q.2⟩))]
        exact hu
    choose w hw1 hw2 using key'
    refine ⟨padZero v, padZero w, fun q hq => ?_, fun q hq => ?_, fun q hq => ?_⟩
    · rw [padZero_at v q hq]
      exact hv ⟨q, hq⟩
    · rw [padZero_at w q hq]
      exact hw1 ⟨q, hq⟩
    · rw [padZero_at v _ (hsrc q hq), padZero_at w q hq]
      exact hw2 ⟨q, hq⟩

/-- the surface pressures of one time step as a numpy array of `ny` by `nx` points -/
def psField (ny nx : ℕ) (f : ℕ → K) : Tensor K :=
  ⟨[ny, nx], fun i => match i with
    | [y, x] => f (y * nx + x)
    | _ => 0⟩

/-- `ep` holds the pressures that `pressure_at_hybrid_levels` gives for the surface pressures held by `e`, level after level -/
def StepPressures (hya hyb : Tensor K) (p0 : K) (n ny nx : ℕ) (e ep : Entry K) : Prop :=
  ∃ f r, CellsHold (ny * nx) e f ∧ pressureAtHybridLevels (.np (psField ny nx f)) (.np hya) (.np hyb) p0 = .ok (.np r) ∧
    ∀ k < n, ∀ y < ny, ∀ x < nx, ep.val (k * (ny * nx) + (y * nx + x)) = some (r.get [k, y, x])

/-- `ep` holds the layers that `delta_pressure_hybrid` gives for the surface pressures held by `e` -/
def StepLayers (hya hyb : Tensor K) (tp0 : PyType) (p0 : K) (n ny nx : ℕ) (e ep : Entry K) : Prop :=
  ∃ f r, CellsHold (ny * nx) e f ∧ deltaPressureHybrid (.np (psField ny nx f)) (.np hya) (.np hyb) tp0 p0 = .ok (.np r) ∧
    ∀ k < n - 1, ∀ y < ny, ∀ x < nx, ep.val (k * (ny * nx) + (y * nx + x)) = some (r.get [k, y, x])

/-- the pressures increase from level to level, at every point of a time step -/
def Downward (hya hyb : Tensor K) (p0 : K) (n m : ℕ) (e : Entry K) : Prop :=
  ∀ q < m, ∀ x, e.val q = some x → ∀ k, k + 1 < n → hya.get [k] * p0 + hyb.get [k] * x ≤ hya.get [k + 1] * p0 + hyb.get [k + 1] * x

/-- What holds between the surface pressures and the results at every time step also holds between their averages. -/
def HybridEitherOrder (A : Series K → Except PyErr (List (Entry K))) (m m' : ℕ) (Step : Entry K → Entry K → Prop) (s sp : Series K) : Prop :=
  (∀ err, A s = .error err → A sp = .error err) ∧
  ∀ out, A s = .ok out → ∃ outp, A sp = .ok outp ∧ outp.map (·.key) = out.map (·.key) ∧
    ∀ (t : ℕ) (o op : Entry K), out[t]? = some o → outp[t]? = some op → (CellsMissing m o ∧ CellsMissing m' op) ∨ Step o op

theorem cube_cell {n m q : ℕ} (hm : 0 < m) (h : q < n * m) : q / m < n ∧ q % m < m ∧ q / m * m + q % m = q := Gradient.rows_of_cell h

theorem cube_at {m k c : ℕ} (hc : c < m) : (k * m + c) / m = k ∧ (k * m + c) % m = c := by
  constructor
  · rw [Nat.add_comm, Nat.add_mul_div_right _ _ (by omega), Nat.div_eq_of_lt hc, Nat.zero_add]
  · rw [Nat.add_comm, Nat.add_mul_mod_self_right, Nat.mod_eq_of_lt hc]

section
variable (hya hyb : Tensor K) (p0 : K) (n ny nx : ℕ) (hn : 2 ≤ n) (hy : 0 < ny) (hx : 0 < nx) (ha : hya.shape = [n]) (hb : hyb.shape = [n])
include hn hy hx ha hb

theorem pressures_call (f : ℕ → K) : ∃ r, pressureAtHybridLevels (.np (psField ny nx f)) (.np hya) (.np hyb) p0 = .ok (.np r) ∧
    ∀ k < n, ∀ y < ny, ∀ x < nx, r.get [k, y, x] = hya.get [k] * p0 + hyb.get [k] * f (y * nx + x) := by
  obtain ⟨n', r, h1, h2, -, h3⟩ := (C08_call_numpy (psField ny nx f) hya hyb p0 ny nx rfl (by rw [ha]; simp)).2 (by rw [ha, hb]; simp)
  rw [ha] at h1
  obtain rfl : n = n' := by simpa using h1
  exact ⟨r, h2, fun k hk y hy x hx => h3 k y x hk hy hx⟩

theorem pressures_either_order {A : Series K → Except PyErr (List (Entry K))} (hA : PlainMean A) (s sp : Series K) (hc : s.ncell = ny * nx)
    (hc' : sp.ncell = n * (ny * nx)) (hk : sp.samples.map (·.key) = s.samples.map (·.key)) (ht : sp.isTime = s.isTime)
    (hs : ∀ (t : ℕ) (e ep : Entry K), s.samples[t]? = some e → sp.samples[t]? = some ep → StepPressures hya hyb p0 n ny nx e ep) :
    HybridEitherOrder A (ny * nx) (n * (ny * nx)) (StepPressures hya hyb p0 n ny nx) s sp := by
  have hm : 0 < ny * nx := Nat.mul_pos hy hx
  obtain ⟨herr, hok⟩ := cellwise_mean hA hm (Nat.mul_pos (by omega) hm) s sp hc hc' hk ht (fun q => q % (ny * nx)) (fun q _ => Nat.mod_lt _ hm)
    (fun q => {z | z.2 = hya.get [q / (ny * nx)] * p0 + hyb.get [q / (ny * nx)] * z.1}) (fun q _ => by
      intro z hz w hw a b h1 h2 hab
      simp only [Set.mem_ofPred_eq, Prod.fst_add, Prod.snd_add, Prod.smul_fst, Prod.smul_snd, smul_eq_mul] at *
      rw [hz, hw]
      linear_combination (hya.get [q / (ny * nx)] * p0) * hab)
    (fun t e ep he hep => by
      obtain ⟨f, r, h1, h2, h3⟩ := hs t e ep he hep
      obtain ⟨r', g1, g2⟩ := pressures_call hya hyb p0 n ny nx hn hy hx ha hb f
      rw [h2] at g1
      cases g1
      have hv : ∀ q < n * (ny * nx), ep.val q = some (hya.get [q / (ny * nx)] * p0 + hyb.get [q / (ny * nx)] * f (q % (ny * nx))) := by
        intro q hq
        obtain ⟨a1, a2, a3⟩ := cube_cell hm hq
        obtain ⟨b1, b2, b3⟩ := Gradient.rows_of_cell a2
        have := h3 _ a1 _ b1 _ b2
        rw [g2 _ a1 _ b1 _ b2, b3, a3] at this
        exact this
      exact ⟨f, fun q => hya.get [q / (ny * nx)] * p0 + hyb.get [q / (ny * nx)] * f (q % (ny * nx)), h1, hv, fun q _ => rfl⟩)
  refine ⟨herr, fun out hout => ?_⟩
  obtain ⟨outp, o1, o2, o3⟩ := hok out hout
  refine ⟨outp, o1, o2, fun t o op h1 h2 => ?_⟩
  rcases o3 t o op h1 h2 with h | ⟨f, g, f1, f2, f3⟩
  · exact Or.inl h
  · obtain ⟨r, g1, g2⟩ := pressures_call hya hyb p0 n ny nx hn hy hx ha hb f
    refine Or.inr ⟨f, r, f1, g1, fun k hk y hy x hx => ?_⟩
    have hcell := Gradient.rows_cell hy hx
    have hq := Gradient.rows_cell hk hcell
    obtain ⟨q1, q2⟩ := cube_at (k := k) hcell
    have := f3 _ hq
    simp only [Set.mem_ofPred_eq, q1, q2] at this
    rw [f2 _ hq, this, g2 k hk y hy x hx]

theorem layers_either_order {A : Series K → Except PyErr (List (Entry K))} (hA : PlainMean A) (tp0 : PyType) (htp : tp0 = .float ∨ tp0 = .int) (s sp : Series K)
    (hc : s.ncell = ny * nx) (hc' : sp.ncell = (n - 1) * (ny * nx)) (hk : sp.samples.map (·.key) = s.samples.map (·.key)) (ht : sp.isTime = s.isTime)
    (hd : ∀ e ∈ s.samples, Downward hya hyb p0 n (ny * nx) e)
    (hs : ∀ (t : ℕ) (e ep : Entry K), s.samples[t]? = some e → sp.samples[t]? = some ep → StepLayers hya hyb tp0 p0 n ny nx e ep) :
    HybridEitherOrder A (ny * nx) ((n - 1) * (ny * nx)) (StepLayers hya hyb tp0 p0 n ny nx) s sp := by
  have hm : 0 < ny * nx := Nat.mul_pos hy hx
  let d : ℕ → K → K := fun k x => (hya.get [k + 1] * p0 + hyb.get [k + 1] * x) - (hya.get [k] * p0 + hyb.get [k] * x)
  have call : ∀ f : ℕ → K, ∃ r, deltaPressureHybrid (.np (psField ny nx f)) (.np hya) (.np hyb) tp0 p0 = .ok (.np r) ∧
      ∀ k < n - 1, ∀ y < ny, ∀ x < nx, r.get [k, y, x] = |d k (f (y * nx + x))| := by
    intro f
    obtain ⟨r, r1, -, r3⟩ := C120_numpy (psField ny nx f) n ny nx rfl hya hyb ha hb tp0 p0 htp
    exact ⟨r, r1, fun k hk y hy x hx => r3 k y x hk hy hx⟩
  obtain ⟨herr, hok⟩ := cellwise_mean hA hm (Nat.mul_pos (by omega) hm) s sp hc hc' hk ht (fun q => q % (ny * nx)) (fun q _ => Nat.mod_lt _ hm)
    (fun q => {z | 0 ≤ d (q / (ny * nx)) z.1 ∧ z.2 = d (q / (ny * nx)) z.1}) (fun q _ => by
      intro z hz w hw a b h1 h2 hab
      have e1 : d (q / (ny * nx)) (a * z.1 + b * w.1) = a * d (q / (ny * nx)) z.1 + b * d (q / (ny * nx)) w.1 := by
        simp only [d]
        linear_combination (hya.get [q / (ny * nx)] * p0 - hya.get [q / (ny * nx) + 1] * p0) * hab
      simp only [Set.mem_ofPred_eq, Prod.fst_add, Prod.snd_add, Prod.smul_fst, Prod.smul_snd, smul_eq_mul] at *
      rw [e1, hz.2, hw.2]
      exact ⟨add_nonneg (mul_nonneg h1 hz.1) (mul_nonneg h2 hw.1), rfl⟩)
    (fun t e ep he hep => by
      obtain ⟨f, r, h1, h2, h3⟩ := hs t e ep he hep
      obtain ⟨r', g1, g2⟩ := call f
      rw [h2] at g1
      cases g1
      have hpos : ∀ q < (n - 1) * (ny * nx), 0 ≤ d (q / (ny * nx)) (f (q % (ny * nx))) := by
        intro q hq
        obtain ⟨a1, a2, a3⟩ := cube_cell hm hq
        have := hd e (List.mem_of_getElem? he) _ a2 _ (h1 _ a2) (q / (ny * nx)) (by omega)
        simp only [d]
        linarith
      have hv : ∀ q < (n - 1) * (ny * nx), ep.val q = some (d (q / (ny * nx)) (f (q % (ny * nx)))) := by
        intro q hq
        have hp := hpos q hq
        obtain ⟨a1, a2, a3⟩ := cube_cell hm hq
        obtain ⟨b1, b2, b3⟩ := Gradient.rows_of_cell a2
        have := h3 _ a1 _ b1 _ b2
        rw [g2 _ a1 _ b1 _ b2, b3, a3, abs_of_nonneg hp] at this
        exact this
      exact ⟨f, fun q => d (q / (ny * nx)) (f (q % (ny * nx))), h1, hv, fun q hq => ⟨hpos q hq, rfl⟩⟩)
  refine ⟨herr, fun out hout => ?_⟩
  obtain ⟨outp, o1, o2, o3⟩ := hok out hout
  refine ⟨outp, o1, o2, fun t o op h1 h2 => ?_⟩
  rcases o3 t o op h1 h2 with h | ⟨f, g, f1, f2, f3⟩
  · exact Or.inl h
  · obtain ⟨r, g1, g2⟩ := call f
    refine Or.inr ⟨f, r, f1, g1, fun k hk y hy x hx => ?_⟩
    have hcell := Gradient.rows_cell hy hx
    have hq := Gradient.rows_cell hk hcell
    obtain ⟨q1, q2⟩ := cube_at (k := k) hcell
    have := f3 _ hq
    simp only [Set.mem_ofPred_eq, q1, q2] at this
    rw [f2 _ hq, this.2, g2 k hk y hy x hx, abs_of_nonneg this.1]

/-! ### C202 -/

section
variable (s sp : Series K) (hc : s.ncell = ny * nx) (hc' : sp.ncell = n * (ny * nx)) (hk : sp.samples.map (·.key) = s.samples.map (·.key)) (ht : sp.isTime = s.isTime)
    (hs : ∀ (t : ℕ) (e ep : Entry K), s.samples[t]? = some e → sp.samples[t]? = some ep → StepPressures hya hyb p0 n ny nx e ep)
include hc hc' hk ht hs

/-- **C202**, pressures, `calendar_average`. -/
theorem C202_pressures_calendar (cal : Cal) (infer : InferFreq) (freq : String) :
    HybridEitherOrder (calendarAverage cal infer freq) (ny * nx) (n * (ny * nx)) (StepPressures hya hyb p0 n ny nx) s sp :=
  pressures_either_order hya hyb p0 n ny nx hn hy hx ha hb (calendar_plain cal infer freq) s sp hc hc' hk ht hs

/-- **C202**, pressures, `climatology_average` by hour, day or month. -/
theorem C202_pressures_climatology (cal : Cal) (infer : InferFreq) (freq : String) (p : Period) (hf : GroupFreq freq p) (custom : List String) :
    HybridEitherOrder (fun s => (climatologyAverage cal infer freq custom s).map climSteps) (ny * nx) (n * (ny * nx)) (StepPressures hya hyb p0 n ny nx) s sp :=
  pressures_either_order hya hyb p0 n ny nx hn hy hx ha hb (climatology_plain cal infer freq p hf custom) s sp hc hc' hk ht hs

/-- **C202**, pressures, `month_to_season`. -/
theorem C202_pressures_month_to_season (cal : Cal) (season : String) :
    HybridEitherOrder (monthToSeason cal season) (ny * nx) (n * (ny * nx)) (StepPressures hya hyb p0 n ny nx) s sp :=
  pressures_either_order hya hyb p0 n ny nx hn hy hx ha hb (monthToSeason_plain cal season) s sp hc hc' hk ht hs

end

section
variable (tp0 : PyType) (htp : tp0 = .float ∨ tp0 = .int) (s sp : Series K)
    (hc : s.ncell = ny * nx) (hc' : sp.ncell = (n - 1) * (ny * nx)) (hk : sp.samples.map (·.key) = s.samples.map (·.key)) (ht : sp.isTime = s.isTime)
    (hd : ∀ e ∈ s.samples, Downward hya hyb p0 n (ny * nx) e)
    (hs : ∀ (t : ℕ) (e ep : Entry K), s.samples[t]? = some e → sp.samples[t]? = some ep → StepLayers hya hyb tp0 p0 n ny nx e ep)
include htp hc hc' hk ht hd hs

/-- **C202**, layers, `calendar_average`. -/
theorem C202_layers_calendar (cal : Cal) (infer : InferFreq) (freq : String) :
    HybridEitherOrder (calendarAverage cal infer freq) (ny * nx) ((n - 1) * (ny * nx)) (StepLayers hya hyb tp0 p0 n ny nx) s sp :=
  layers_either_order hya hyb p0 n ny nx hn hy hx ha hb (calendar_plain cal infer freq) tp0 htp s sp hc hc' hk ht hd hs

/-- **C202**, layers, `climatology_average` by hour, day or month. -/
theorem C202_layers_climatology (cal : Cal) (infer : InferFreq) (freq : String) (p : Period) (hf : GroupFreq freq p) (custom : List String) :
    HybridEitherOrder (fun s => (climatologyAverage cal infer freq custom s).map climSteps) (ny * nx) ((n - 1) * (ny * nx)) (StepLayers hya hyb tp0 p0 n ny nx) s sp :=
  layers_either_order hya hyb p0 n ny nx hn hy hx ha hb (climatology_plain cal infer freq p hf custom) tp0 htp s sp hc hc' hk ht hd hs

/-- **C202**, layers, `month_to_season`. -/
theorem C202_layers_month_to_season (cal : Cal) (season : String) :
    HybridEitherOrder (monthToSeason cal season) (ny * nx) ((n - 1) * (ny * nx)) (StepLayers hya hyb tp0 p0 n ny nx) s sp :=
  layers_either_order hya hyb p0 n ny nx hn hy hx ha hb (monthToSeason_plain cal season) tp0 htp s sp hc hc' hk ht hd hs

end
end

/-! ### cases -/

/-- one value on each of two days of a month -/
def twoValues (x y : ℚ) : Series ℚ := ⟨1, [⟨0, fun _ => some x⟩, ⟨86400, fun _ => some y⟩], true⟩

/-- two levels: the pressure 1 and the surface -/
def oneAndSurface : Tensor ℚ × Tensor ℚ := (⟨[2], fun i => if i = [0] then 1 else 0⟩, ⟨[2], fun i => if i = [0] then 0 else 1⟩)

theorem twoValues_at {x y : ℚ} {t : ℕ} {e : Entry ℚ} (h : (twoValues x y).samples[t]? = some e) :
    (t = 0 ∧ ∀ q, e.val q = some x) ∨ (t = 1 ∧ ∀ q, e.val q = some y) := by
  simp only [twoValues] at h
  rcases t with _ | _ | t
  · rw [List.getElem?_cons_zero] at h
    exact Or.inl ⟨rfl, fun q => by rw [← Option.some.inj h]⟩
  · rw [List.getElem?_cons_succ, List.getElem?_cons_zero] at h
    exact Or.inr ⟨rfl, fun q => by rw [← Option.some.inj h]⟩
  · rw [List.getElem?_cons_succ, List.getElem?_cons_succ, List.getElem?_nil] at h
    cases h

/-- a step with surface pressure `x` has one layer, between the pressures 1 and `x` -/
theorem oneLayer {e ep : Entry ℚ} {x : ℚ} (h1 : ∀ q, e.val q = some x) (h2 : ∀ q, ep.val q = some |x - 1|) :
    StepLayers oneAndSurface.1 oneAndSurface.2 .float 1 2 1 1 e ep := by
  obtain ⟨r, r1, -, r3⟩ := C120_numpy (psField 1 1 (fun _ => x)) 2 1 1 rfl oneAndSurface.1 oneAndSurface.2 rfl rfl .float 1 (.inl rfl)
  refine ⟨fun _ => x, r, fun q _ => h1 q, r1, fun k hk y hy z hz => ?_⟩
  rw [h2, r3 k y z hk hy hz]
  obtain rfl : k = 0 := by omega
  congr 1
  simp [levelPressure, oneAndSurface, psField, show y = 0 by omega, show z = 0 by omega]

theorem twoLayers_steps (x y : ℚ) (t : ℕ) (e ep : Entry ℚ) (h : (twoValues x y).samples[t]? = some e)
    (h' : (twoValues |x - 1| |y - 1|).samples[t]? = some ep) : StepLayers oneAndSurface.1 oneAndSurface.2 .float 1 2 1 1 e ep := by
  rcases twoValues_at h with ⟨t0, a⟩ | ⟨t0, a⟩
  · rcases twoValues_at h' with ⟨-, b⟩ | ⟨t1, -⟩
    · exact oneLayer a b
    · omega
  · rcases twoValues_at h' with ⟨t1, -⟩ | ⟨-, b⟩
    · omega
    · exact oneLayer a b

/-- surface pressures 2 and 4: the layers 1 and 3 have the mean 2, the layer of the mean 3 -/
example : HybridEitherOrder (calendarAverage Cal.days360 (fun _ => .ok true) "month") 1 1 (StepLayers oneAndSurface.1 oneAndSurface.2 .float 1 2 1 1)
    (twoValues 2 4) (twoValues |2 - 1| |4 - 1|) := by
  refine C202_layers_calendar oneAndSurface.1 oneAndSurface.2 1 2 1 1 le_rfl one_pos one_pos rfl rfl .float (.inl rfl) (twoValues 2 4) (twoValues |2 - 1| |4 - 1|)
    rfl rfl (by simp only [twoValues, List.map_cons, List.map_nil]) rfl ?_ (twoLayers_steps 2 4) Cal.days360 (fun _ => .ok true) "month"
  intro e he q _ x hx k hk
  obtain rfl : k = 0 := by omega
  simp only [twoValues, List.mem_cons, List.not_mem_nil, or_false] at he
  have : 1 ≤ x := by
    rcases he with rfl | rfl
    · rw [← Option.some.inj hx]; norm_num
    · rw [← Option.some.inj hx]; norm_num
  simp [oneAndSurface, this]

/-- C202 needs layers that are never turned over: with the surface at 0 and 2, above and below the level 1, the layers 1 and 1 have the mean 1, but the mean
surface pressure gives a layer of thickness 0. -/
theorem C202_order_matters : ¬ HybridEitherOrder (calendarAverage Cal.days360 (fun _ => .ok true) "month") 1 1
    (StepLayers oneAndSurface.1 oneAndSurface.2 .float 1 2 1 1) (twoValues 0 2) (twoValues |0 - 1| |2 - 1|) := by
  rintro ⟨-, h⟩
  have a1 : ((calendarAverage Cal.days360 (fun _ => .ok true) "month" (twoValues 0 2)).map (List.map (fun e => e.val 0))) = .ok [some 1] := by decide +kernel
  have a2 : ((calendarAverage Cal.days360 (fun _ => .ok true) "month" (twoValues |0 - 1| |2 - 1|)).map (List.map (fun e => e.val 0))) = .ok [some 1] := by
    decide +kernel
  cases hq : calendarAverage Cal.days360 (fun _ => .ok true) "month" (twoValues 0 2) with
  | error e => rw [hq] at a1; cases a1
  | ok out =>
    obtain ⟨outp, o1, -, o3⟩ := h out hq
    rw [hq] at a1
    rw [o1] at a2
    have b1 := Except.ok.inj a1
    have b2 := Except.ok.inj a2
    obtain ⟨o, rfl, c1⟩ := List.map_eq_singleton_iff.mp b1
    obtain ⟨op, rfl, c2⟩ := List.map_eq_singleton_iff.mp b2
    rcases o3 0 o op rfl rfl with ⟨m1, -⟩ | ⟨f, r, f1, f2, f3⟩
    · rw [m1 0 one_pos] at c1
      cases c1
    · obtain ⟨r', r1, -, r3⟩ := C120_numpy (psField 1 1 f) 2 1 1 rfl oneAndSurface.1 oneAndSurface.2 rfl rfl .float 1 (.inl rfl)
      rw [f2] at r1
      cases r1
      have e0 : f 0 = 1 := Option.some.inj ((f1 0 one_pos).symm.trans c1)
      have e1 := f3 0 (by decide) 0 one_pos 0 one_pos
      rw [r3 0 0 0 (by decide) one_pos one_pos] at e1
      have e2 := Option.some.inj (e1.symm.trans c2)
      simp [levelPressure, oneAndSurface, psField, e0] at e2

end Verif.Props
