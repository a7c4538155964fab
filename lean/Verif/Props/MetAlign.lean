import Verif.Spec.LabelAt
import Verif.Model.MetAlign
import Verif.Lemmas.LabelAt
import Verif.Lemmas.RelhumIce

/-
C186: labels of the arguments of dewtemp, relhum, relhum_ice, relhum_water and heat_index.
-/

namespace Verif.Props
open Verif Model Spec Lemmas XF

/-- `out` has a value at exactly the points all of `t`, `w`, `p` have in common, computed from the three values there -/
def PointWise3 (f : XF ℝ → XF ℝ → XF ℝ → XF ℝ) (t w p out : IArr ℝ (XF ℝ)) : Prop :=
  ∀ pt v, At out pt v ↔ ∃ x y z, At t pt x ∧ At w pt y ∧ At p pt z ∧ v = f x y z

/-- the same for two arguments -/
def PointWise2 (f : XF ℝ → XF ℝ → XF ℝ) (t rh out : IArr ℝ (XF ℝ)) : Prop :=
  ∀ pt v, At out pt v ↔ ∃ x y, At t pt x ∧ At rh pt y ∧ v = f x y

/-- **C186, dewtemp.** Whatever labels temperature and relative humidity carry, and in whatever order: the result has a value at exactly the
labelled points both have, and that value is computed from the temperature and the humidity there. -/
theorem C186_dewtemp (t rh : IArr ℝ (XF ℝ)) (ht : Labelled t) (hr : Labelled rh) :
    ∃ out, dewtempIdx t rh = .ok out ∧ Labelled out ∧ PointWise2 dewtempPoint t rh out := by
  obtain ⟨r, e, hl, -, -, -, -, hat⟩ := izip_at dewtempPoint t rh ht hr
  exact ⟨r, e, hl, hat⟩

/-- **C186, relhum.** The same for temperature, mixing ratio and pressure. -/
theorem C186_relhum (t w p : IArr ℝ (XF ℝ)) (ht : Labelled t) (hw : Labelled w) (hp : Labelled p) :
    ∃ out, relhumTableIdx t w p = .ok out ∧ Labelled out ∧ PointWise3 (fun x y z => relhumOfEs (relhumEsD x) y z) t w p out := by
  obtain ⟨q, e1, l1, -, -, -, -, a1⟩ := izip_at Prod.mk p (t.map relhumEsD) hp (labelled_map _ t ht)
  obtain ⟨r, e2, l2, -, -, -, -, a2⟩ := izip_at (fun w (q : XF ℝ × XF ℝ) => relhumOfEs q.2 w q.1) w q hw l1
  refine ⟨r, ?_, l2, ?_⟩
  · unfold relhumTableIdx
    simp only [e1, bind, Except.bind]
    exact e2
  · intro pt v
    rw [a2]
    constructor
    · rintro ⟨y, q', hy, hq, rfl⟩
      obtain ⟨z, e, hz, he, rfl⟩ := (a1 pt q').mp hq
      obtain ⟨x, hx, rfl⟩ := (at_map _ _ _ _).mp he
      exact ⟨x, y, z, hx, hy, hz, rfl⟩
    · rintro ⟨x, y, z, hx, hy, hz, rfl⟩
      exact ⟨y, (z, relhumEsD x), hy, (a1 pt _).mpr ⟨z, _, hz, (at_map _ _ _ _).mpr ⟨x, hx, rfl⟩, rfl⟩, rfl⟩

/-- the humidity of `relhum_ice` and `relhum_water` at one point, from the saturation vapour pressure `est` -/
noncomputable def rhOf (est : XF ℝ → XF ℝ) (x y z : XF ℝ) : XF ℝ := fin 100 * (y / qst (est x) z)

theorem ratio_at (est : XF ℝ → XF ℝ) (t w p : IArr ℝ (XF ℝ)) (ht : Labelled t) (hw : Labelled w) (hp : Labelled p) :
    ∃ r, relhumRatioIdx est t w p = .ok r ∧ Labelled r ∧ PointWise3 (rhOf est) t w p r ∧
      (∃ l, r.arr.dims = w.arr.dims ++ l ∧ ∀ d ∈ l, d ∉ w.arr.dims) ∧ (∀ d ∈ t.arr.dims, d ∈ r.arr.dims) ∧ (∀ d ∈ p.arr.dims, d ∈ r.arr.dims) ∧
      (∀ d, d ∈ r.arr.dims → d ∈ w.arr.dims ∨ d ∈ t.arr.dims ∨ d ∈ p.arr.dims) ∧
      (∀ d ∈ w.arr.dims, d ∈ t.arr.dims → ∀ lw, w.index d = some lw → ∃ s : ℝ → Bool, r.index d = some (lw.filter s) ∧
        (d ∈ p.arr.dims → (∀ lt, t.index d = some lt → ∀ x ∈ lw, x ∈ lt) → (∀ lp, p.index d = some lp → ∀ x ∈ lw, x ∈ lp) →
          ∀ x ∈ lw, s x = true)) := by
  obtain ⟨den, e1, l1, -, m1, i1, n1, a1⟩ := izip_at (fun p e => (p * fin 0.01) - fin 0.378 * e) p (t.map est) hp (labelled_map _ t ht)
  obtain ⟨q, e2, l2, -, m2, i2, n2, a2⟩ := izip_at (fun e d => (fin 0.622 * e) / d) (t.map est) den (labelled_map _ t ht) l1
  obtain ⟨r, e3, l3, d3, m3, i3, n3, a3⟩ := izip_at (fun w q => fin 100 * (w / q)) w q hw l2
  have hte : (t.map est).arr.dims = t.arr.dims := rfl
  refine ⟨r, ?_, l3, ?_, ⟨_, d3, by
    intro d h
    simpa using (List.mem_filter.mp h).2⟩, ?_, ?_, ?_, ?_⟩
  · unfold relhumRatioIdx
    simp only [e1, e2, bind, Except.bind]
    exact e3
  · intro pt v
    rw [a3]
    constructor
    · rintro ⟨y, q', hy, hq, rfl⟩
      obtain ⟨e, d, he, hd, rfl⟩ := (a2 pt q').mp hq
      obtain ⟨z, e', hz, he', rfl⟩ := (a1 pt d).mp hd
      obtain rfl := at_unique _ (labelled_map _ t ht) _ _ _ he he'
      obtain ⟨x, hx, rfl⟩ := (at_map _ _ _ _).mp he
      exact ⟨x, y, z, hx, hy, hz, rfl⟩
    · rintro ⟨x, y, z, hx, hy, hz, rfl⟩
      have he := (at_map est t pt _).mpr ⟨x, hx, rfl⟩
      exact ⟨y, _, hy, (a2 pt _).mpr ⟨_, _, he, (a1 pt _).mpr ⟨z, _, hz, he, rfl⟩, rfl⟩, rfl⟩
  · intro d hd
    exact (m3 d).mpr (Or.inr ((m2 d).mpr (Or.inl hd)))
  · intro d hd
    exact (m3 d).mpr (Or.inr ((m2 d).mpr (Or.inr ((m1 d).mpr (Or.inl hd)))))
  · intro d hd
    rcases (m3 d).mp hd with h | h
    · exact Or.inl h
    · rcases (m2 d).mp h with h | h
      · exact Or.inr (Or.inl h)
      · rcases (m1 d).mp h with h | h
        · exact Or.inr (Or.inr h)
        · exact Or.inr (Or.inl h)
  · intro d hdw hdt lw hlw
    have hdd : d ∈ den.arr.dims := (m1 d).mpr (Or.inr hdt)
    have hq : d ∈ q.arr.dims := (m2 d).mpr (Or.inl hdt)
    obtain ⟨lt, et, -, -⟩ := ht.labels d hdt
    obtain ⟨ld, ed, -, -⟩ := l1.labels d hdd
    obtain ⟨lq, eq, -, -⟩ := l2.labels d hq
    refine ⟨fun x => decide (x ∈ lq), i3 d hdw lw hlw hq lq eq, ?_⟩
    intro hdp ct cp x hx
    obtain ⟨lp, ep, -, -⟩ := hp.labels d hdp
    have h1 := i1 d hdp lp ep hdt lt et
    have h2 := i2 d hdt lt et hdd ld ed
    rw [ed] at h1
    rw [eq] at h2
    injection h1 with h1
    injection h2 with h2
    have hxd : x ∈ ld := by
      rw [h1, List.mem_filter]
      exact ⟨cp lp ep x hx, by simpa using ct lt et x hx⟩
    have : x ∈ lq := by
      rw [h2, List.mem_filter]
      exact ⟨ct lt et x hx, by simpa using hxd⟩
    simpa using this

theorem idxOf_getD (l : List String) (d : String) (h : d ∈ l) : l.getD (l.idxOf d) "" = d := by
  have := List.idxOf_lt_length_of_mem h
  rw [List.getD_eq_getElem?_getD, List.getElem?_eq_getElem this]
  simp

/-- the arrays `a` and `b` hold the same values at the same labelled points -/
theorem at_congr {α : Type} (a b : IArr ℝ α) (hd : a.arr.dims = b.arr.dims) (hi : ∀ d ∈ a.arr.dims, a.index d = b.index d)
    (hg : ∀ i, a.arr.get i = b.arr.get i) (pt : String → ℝ) (v : α) : At a pt v ↔ At b pt v := by
  constructor
  · rintro ⟨i, h, rfl⟩
    refine ⟨i, ?_, (hg i).symm⟩
    intro d hdb
    rw [← hi d (hd ▸ hdb)]
    exact h d (hd ▸ hdb)
  · rintro ⟨i, h, rfl⟩
    refine ⟨i, ?_, hg i⟩
    intro d hda
    rw [hi d hda]
    exact h d (hd ▸ hda)

/-- **C186, relhum_ice and relhum_water, exact.** If temperature and mixing ratio list the same dimensions in the same order and the call
succeeds, every value is computed from temperature, mixing ratio and pressure at one and the same point. But the values come out in the order
of the labels of the mixing ratio, and are labelled like the temperature. -/
theorem C186_ice_exact (est : XF ℝ → XF ℝ) (t w p : IArr ℝ (XF ℝ)) (ht : Labelled t) (hw : Labelled w) (hp : Labelled p)
    (hd : w.arr.dims = t.arr.dims) (out : IArr ℝ (XF ℝ)) (hok : relhumIdx est t w p = .ok out) :
    out.arr.dims = t.arr.dims ∧ out.index = t.index ∧ PointWise3 (rhOf est) t w p ⟨out.arr, w.index⟩ := by
  obtain ⟨r, er, lr, ar, ⟨l, dr, -⟩, -, -, -, ir⟩ := ratio_at est t w p ht hw hp
  unfold relhumIdx at hok
  simp only [er, bind, Except.bind, pure, Except.pure] at hok
  split at hok
  · cases hok
  rename_i hs
  push Not at hs
  split at hok
  · cases hok
  rename_i o ho
  unfold relabel at ho
  split at ho
  · cases ho
  rename_i hsh
  push Not at hsh
  cases ho
  cases hok
  have hlen : r.arr.dims.length = t.arr.dims.length := by
    have := congrArg List.length hsh
    simpa [LArr.shape] using this
  have hl : l = [] := by
    rw [dr, hd] at hlen
    simpa using hlen
  have hrd : r.arr.dims = t.arr.dims := by rw [dr, hl, hd]; simp
  have hsz : ∀ d ∈ t.arr.dims, r.arr.size d = t.arr.size d := by
    have : r.arr.dims.map r.arr.size = t.arr.dims.map t.arr.size := hsh
    rw [hrd] at this
    intro d h
    exact List.map_inj_left.mp this d h
  have hsw : ∀ d ∈ t.arr.dims, t.arr.size d = w.arr.size d := by
    have : t.arr.dims.map t.arr.size = w.arr.dims.map w.arr.size := hs.1
    rw [hd] at this
    intro d h
    exact List.map_inj_left.mp this d h
  refine ⟨rfl, rfl, ?_⟩
  intro pt v
  rw [← ar]
  apply at_congr
  · exact hrd.symm
  · intro d hdt
    obtain ⟨lw, ew, -, sw⟩ := hw.labels d (hd ▸ hdt)
    obtain ⟨s, es, -⟩ := ir d (hd ▸ hdt) hdt lw ew
    obtain ⟨lr', er', -, sr⟩ := lr.labels d (hrd ▸ hdt)
    rw [es] at er'
    injection er' with er'
    rw [es]
    show w.index d = _
    rw [ew]
    congr 1
    symm
    have h1 : (lw.filter s).length = lw.length := by
      rw [er', sr, hsz d hdt, hsw d hdt, sw]
    exact List.Sublist.eq_of_length List.filter_sublist h1
  · intro i
    apply lr.wf
    intro d hdr
    simp only [hrd]
    rw [idxOf_getD _ _ (hrd ▸ hdr)]

/-- **C186, relhum_ice and relhum_water, no error.** With the same dimensions in the same order and, along every dimension, the same labels in
any order, the call succeeds. -/
theorem C186_ice_ok (est : XF ℝ → XF ℝ) (t w p : IArr ℝ (XF ℝ)) (ht : Labelled t) (hw : Labelled w) (hp : Labelled p)
    (hd : w.arr.dims = t.arr.dims) (hdp : p.arr.dims = t.arr.dims)
    (hlw : ∀ d ∈ t.arr.dims, ∀ a b, t.index d = some a → w.index d = some b → b.Perm a)
    (hlp : ∀ d ∈ t.arr.dims, ∀ a b, t.index d = some a → p.index d = some b → b.Perm a) :
    ∃ out, relhumIdx est t w p = .ok out := by
  obtain ⟨r, er, lr, ar, ⟨l, dr, dl⟩, -, -, mr, ir⟩ := ratio_at est t w p ht hw hp
  have hl : l = [] := by
    apply List.eq_nil_iff_forall_not_mem.mpr
    intro d hm
    rcases mr d (by rw [dr]; simp [hm]) with h | h | h
    · exact dl d hm h
    · exact dl d hm (hd ▸ h)
    · exact dl d hm (by rw [hd, ← hdp]; exact h)
  have hrd : r.arr.dims = t.arr.dims := by rw [dr, hl, hd]; simp
  have hsw : ∀ d ∈ t.arr.dims, w.arr.size d = t.arr.size d := by
    intro d h
    obtain ⟨lt, et, -, st⟩ := ht.labels d h
    obtain ⟨lw, ew, -, sw⟩ := hw.labels d (hd ▸ h)
    rw [← st, ← sw, (hlw d h lt lw et ew).length_eq]
  have hsp : ∀ d ∈ t.arr.dims, p.arr.size d = t.arr.size d := by
    intro d h
    obtain ⟨lt, et, -, st⟩ := ht.labels d h
    obtain ⟨lp, ep, -, sp⟩ := hp.labels d (hdp ▸ h)
    rw [← st, ← sp, (hlp d h lt lp et ep).length_eq]
  have hsr : ∀ d ∈ t.arr.dims, r.arr.size d = t.arr.size d := by
    intro d h
    obtain ⟨lt, et, -, st⟩ := ht.labels d h
    obtain ⟨lw, ew, -, sw⟩ := hw.labels d (hd ▸ h)
    obtain ⟨lr', er', -, sr⟩ := lr.labels d (hrd ▸ h)
    obtain ⟨s, es, hs⟩ := ir d (hd ▸ h) h lw ew
    have hf : lw.filter s = lw := by
      rw [List.filter_eq_self]
      apply hs (hdp ▸ h)
      · intro lt' et' x hx
        exact (hlw d h lt' lw et' ew).mem_iff.mp hx
      · intro lp ep x hx
        exact (hlp d h lt lp et ep).mem_iff.mpr ((hlw d h lt lw et ew).mem_iff.mp hx)
    rw [es, hf] at er'
    injection er' with er'
    rw [← sr, ← er', sw, hsw d h]
  have e1 : t.arr.shape = w.arr.shape := by
    unfold LArr.shape
    rw [hd]
    exact List.map_congr_left (fun d h => (hsw d h).symm)
  have e2 : t.arr.shape = p.arr.shape := by
    unfold LArr.shape
    rw [hdp]
    exact List.map_congr_left (fun d h => (hsp d h).symm)
  have e3 : r.arr.shape = t.arr.dims.map t.arr.size := by
    unfold LArr.shape
    rw [hrd]
    exact List.map_congr_left hsr
  unfold relhumIdx
  simp only [er, bind, Except.bind, pure, Except.pure]
  rw [if_neg (by rw [← e1, ← e2]; simp)]
  simp [relabel, e3]

/-- **C186, relhum_ice and relhum_water** (partial). If the mixing ratio carries the labels of the temperature in the same order, the call
succeeds and every labelled point gets the value of that point, whatever the order of the labels of the pressure. Missing: a mixing ratio
whose labels are in another order (`C186_ice_counterexample`). -/
theorem C186_ice_partial (t w p : IArr ℝ (XF ℝ)) (ht : Labelled t) (hw : Labelled w) (hp : Labelled p)
    (hd : w.arr.dims = t.arr.dims) (hdp : p.arr.dims = t.arr.dims) (hlw : ∀ d ∈ t.arr.dims, w.index d = t.index d)
    (hlp : ∀ d ∈ t.arr.dims, ∀ a b, t.index d = some a → p.index d = some b → b.Perm a) :
    (∃ out, relhumIceIdx t w p = .ok out ∧ PointWise3 relhumIcePoint t w p out) ∧
    (∃ out, relhumWaterIdx t w p = .ok out ∧ PointWise3 relhumWaterPoint t w p out) := by
  have key : ∀ est, ∃ out, relhumIdx est t w p = .ok out ∧ PointWise3 (rhOf est) t w p out := by
    intro est
    obtain ⟨out, hok⟩ := C186_ice_ok est t w p ht hw hp hd hdp (by
      intro d h a b ha hb
      rw [hlw d h, ha] at hb
      injection hb with hb
      rw [hb]) hlp
    obtain ⟨h1, h2, h3⟩ := C186_ice_exact est t w p ht hw hp hd out hok
    refine ⟨out, hok, ?_⟩
    intro pt v
    rw [← h3 pt v]
    apply at_congr
    · rfl
    · intro d h
      rw [h1] at h
      rw [h2]
      exact (hlw d h).symm
    · intro i; rfl
  exact ⟨key estIce, key estWater⟩

/-- one dimension, `lat`, with two labels -/
noncomputable def latArr (l : List ℝ) (v : ℕ → ℝ) : IArr ℝ (XF ℝ) := ⟨⟨["lat"], fun _ => 2, fun i => fin (v (i "lat"))⟩, fun _ => some l⟩

theorem latArr_labelled (l : List ℝ) (hl : l.length = 2) (hn : l.Nodup) (v : ℕ → ℝ) : Labelled (latArr l v) where
  wf := by
    intro i j h
    simp only [latArr]
    rw [h "lat" (by simp [latArr])]
  labels := by
    intro d _
    exact ⟨l, rfl, hn, hl⟩

theorem latArr_at (l : List ℝ) (v : ℕ → ℝ) (k : ℕ) (x : ℝ) (h : l[k]? = some x) : At (latArr l v) (fun _ => x) (fin (v k)) :=
  ⟨fun _ => k, fun d _ => ⟨l, rfl, h⟩, rfl⟩

/-- **C186 counterexample.** The mixing ratio lists the two latitudes from north to south, temperature and pressure from south to north. Nothing
is reported. At latitude 0 the mixing ratio is zero, and so is the humidity; the result says it is positive there. -/
theorem C186_ice_counterexample :
    ∃ t w p out : IArr ℝ (XF ℝ), Labelled t ∧ Labelled w ∧ Labelled p ∧ relhumIceIdx t w p = .ok out ∧
      At w (fun _ => 0) (fin 0) ∧ ¬ PointWise3 relhumIcePoint t w p out ∧
      ∃ h, 0 < h ∧ At out (fun _ => 0) (fin h) := by
  have n1 : ([0, 10] : List ℝ).Nodup := by simp
  have n2 : ([10, 0] : List ℝ).Nodup := by simp
  have ht := latArr_labelled [0, 10] rfl n1 (fun _ => 273.15)
  have hw := latArr_labelled [10, 0] rfl n2 (fun k => if k = 0 then 0.001 else 0)
  have hp := latArr_labelled [0, 10] rfl n1 (fun _ => 100000)
  obtain ⟨out, hok⟩ := C186_ice_ok estIce _ _ _ ht hw hp rfl rfl (by
      intro d _ a b ha hb
      cases ha; cases hb
      exact List.Perm.swap 0 10 []) (by
      intro d _ a b ha hb
      cases ha; cases hb
      exact List.Perm.refl _)
  obtain ⟨h1, h2, h3⟩ := C186_ice_exact estIce _ _ _ ht hw hp rfl out hok
  have hv : rhOf estIce (fin 273.15) (fin 0.001) (fin 100000) = fin (100 * (0.001 * (100000 * 0.01 - 0.378 * 6.1128) / (0.622 * 6.1128))) := by
    unfold rhOf
    rw [estIce_fin (by norm_num), rh_of_est (magnusIce_pos _)]
    have h1 : magnusIce (273.15 - 273.15) = 6.1128 := by unfold magnusIce; norm_num
    rw [h1]
  have hout : At out (fun _ => 0) (fin (100 * (0.001 * (100000 * 0.01 - 0.378 * 6.1128) / (0.622 * 6.1128)))) := by
    have a1 := latArr_at [0, 10] (fun _ => 273.15) 1 10 rfl
    have a2 := latArr_at [10, 0] (fun k => if k = 0 then 0.001 else 0) 0 10 rfl
    have a3 := latArr_at [0, 10] (fun _ => 100000) 1 10 rfl
    obtain ⟨i, hi, hg⟩ := (h3 (fun _ => 10) _).mpr ⟨_, _, _, a1, a2, a3, rfl⟩
    obtain ⟨l, hl, hl'⟩ := hi "lat" (by show "lat" ∈ out.arr.dims; rw [h1]; simp [latArr])
    cases hl
    have hi0 : i "lat" = 0 := by
      rcases hk : i "lat" with _ | _ | k
      · rfl
      · rw [hk] at hl'; norm_num at hl'
      · rw [hk] at hl'; simp at hl'
    refine ⟨i, ?_, ?_⟩
    · intro d hd
      rw [h1] at hd
      have : d = "lat" := by simpa [latArr] using hd
      subst this
      rw [h2]
      exact ⟨_, rfl, by rw [hi0]; rfl⟩
    · show out.arr.get i = _
      rw [← hv]
      simpa using hg
  have hw0 : At (latArr [10, 0] (fun k => if k = 0 then 0.001 else 0)) (fun _ => 0) (fin 0) := by
    have := latArr_at [10, 0] (fun k => if k = 0 then 0.001 else 0) 1 0 rfl
    simpa using this
  refine ⟨_, _, _, out, ht, hw, hp, hok, hw0, ?_, _, by norm_num, hout⟩
  intro hpw
  obtain ⟨x, y, z, hx, hy, hz, he⟩ := (hpw _ _).mp hout
  obtain rfl := at_unique _ hw _ _ _ hy hw0
  obtain rfl := at_unique _ ht _ _ _ hx (latArr_at [0, 10] (fun _ => 273.15) 0 0 rfl)
  obtain rfl := at_unique _ hp _ _ _ hz (latArr_at [0, 10] (fun _ => 100000) 0 0 rfl)
  unfold relhumIcePoint at he
  rw [estIce_fin (by norm_num), rh_of_est (magnusIce_pos _)] at he
  injection he with he
  norm_num at he

/-- **C186, heat_index.** A call that succeeds computes every value from temperature and humidity at one and the same labelled point, and with the
same dimensions it succeeds only if the labels agree, so that no point is lost. -/
theorem C186_heat_index (alt : Bool) (t rh : IArr ℝ (XF ℝ)) (ht : Labelled t) (hr : Labelled rh) (out : IArr ℝ (XF ℝ))
    (hok : heatIndexIdx alt t rh = .ok out) :
    PointWise2 (heatIndexPoint alt) t rh out ∧ (t.arr.dims = rh.arr.dims → ∀ d ∈ t.arr.dims, t.index d = rh.index d) := by
  obtain ⟨h, e1, l1, d1, m1, i1, n1, a1⟩ := izip_at (fun t (_ : XF ℝ) => t) t rh ht hr
  obtain ⟨c, e2, l2, d2, m2, i2, n2, a2⟩ := izip_at (fun rh (_ : XF ℝ) => rh) rh t hr ht
  obtain ⟨r, e3, l3, -, -, -, -, a3⟩ := izip_at (fun rh t => heatIndexPoint alt t rh) rh t hr ht
  unfold heatIndexIdx at hok
  simp only [e1, e2, e3, bind, Except.bind] at hok
  split at hok
  · cases hok
  rename_i hs
  push Not at hs
  split at hok
  · cases hok
  rename_i hx1
  split at hok
  · cases hok
  rename_i hx2
  cases hok
  refine ⟨?_, ?_⟩
  · intro pt v
    rw [a3]
    constructor
    · rintro ⟨y, x, hy, hx, rfl⟩
      exact ⟨x, y, hx, hy, rfl⟩
    · rintro ⟨x, y, hx, hy, rfl⟩
      exact ⟨y, x, hy, hx, rfl⟩
  · intro hd d hdt
    have hdr : d ∈ rh.arr.dims := hd ▸ hdt
    obtain ⟨lt, et, -, st⟩ := ht.labels d hdt
    obtain ⟨lr, er, nr, sr⟩ := hr.labels d hdr
    have hh := i1 d hdt lt et hdr lr er
    have hc := i2 d hdr lr er hdt lt et
    simp only [exactAll, Bool.not_eq_true', Bool.not_eq_false, List.all_eq_true, Bool.or_eq_true] at hx1 hx2
    have k1 : exactOk (t.index d) (h.index d) = true := by
      rcases hx1 d hdt with k | k
      · simp [(m1 d).mpr (Or.inl hdt)] at k
      · exact k
    have k2 : exactOk (c.index d) (h.index d) = true := by
      rcases hx2 d ((m2 d).mpr (Or.inl hdr)) with k | k
      · simp [(m1 d).mpr (Or.inl hdt)] at k
      · exact k
    rw [et, hh] at k1
    rw [hc, hh] at k2
    simp only [exactOk, decide_eq_true_eq] at k1 k2
    have hlen : lt.length = lr.length := by
      rw [st, sr]
      have : t.arr.dims.map t.arr.size = rh.arr.dims.map rh.arr.size := hs
      rw [← hd] at this
      exact List.map_inj_left.mp this d hdt
    rw [et, er]
    congr 1
    rw [← k1] at k2
    have : lr.filter (fun l => decide (l ∈ lt)) = lr := by
      apply List.Sublist.eq_of_length List.filter_sublist
      rw [k2, hlen]
    rw [← k2, this]

/-- **C186, heat_index, no error.** Equal dimensions, sizes and labels: the call succeeds. -/
theorem C186_heat_index_ok (alt : Bool) (t rh : IArr ℝ (XF ℝ)) (ht : Labelled t) (hr : Labelled rh) (hd : t.arr.dims = rh.arr.dims)
    (hi : ∀ d ∈ t.arr.dims, t.index d = rh.index d) : ∃ out, heatIndexIdx alt t rh = .ok out := by
  obtain ⟨h, e1, l1, d1, m1, i1, n1, a1⟩ := izip_at (fun t (_ : XF ℝ) => t) t rh ht hr
  obtain ⟨c, e2, l2, d2, m2, i2, n2, a2⟩ := izip_at (fun rh (_ : XF ℝ) => rh) rh t hr ht
  obtain ⟨r, e3, l3, -, -, -, -, a3⟩ := izip_at (fun rh t => heatIndexPoint alt t rh) rh t hr ht
  have self : ∀ l : List ℝ, l.filter (fun x => decide (x ∈ l)) = l := by
    intro l
    rw [List.filter_eq_self]
    intro x hx
    simpa using hx
  have hh : ∀ d ∈ t.arr.dims, h.index d = t.index d ∧ c.index d = t.index d := by
    intro d hdt
    obtain ⟨lt, et, -, st⟩ := ht.labels d hdt
    have er : rh.index d = some lt := by rw [← hi d hdt, et]
    have hdr : d ∈ rh.arr.dims := hd ▸ hdt
    rw [i1 d hdt lt et hdr lt er, i2 d hdr lt er hdt lt et, self, et]
    exact ⟨rfl, rfl⟩
  have hs : t.arr.shape = rh.arr.shape := by
    unfold LArr.shape
    rw [← hd]
    apply List.map_congr_left
    intro d hdt
    obtain ⟨lt, et, -, st⟩ := ht.labels d hdt
    obtain ⟨lr, er, -, sr⟩ := hr.labels d (hd ▸ hdt)
    rw [hi d hdt, er] at et
    injection et with et
    rw [← st, ← sr, et]
  have hself : ∀ x : Option (List ℝ), exactOk x x = true := by
    intro x
    cases x <;> simp [exactOk]
  have x1 : exactAll t h = true := by
    simp only [exactAll, List.all_eq_true, Bool.or_eq_true]
    intro d hdt
    rw [(hh d hdt).1]
    exact Or.inr (hself _)
  have x2 : exactAll c h = true := by
    simp only [exactAll, List.all_eq_true, Bool.or_eq_true]
    intro d hdc
    have hdt : d ∈ t.arr.dims := by
      rcases (m2 d).mp hdc with k | k
      · exact hd ▸ k
      · exact k
    rw [(hh d hdt).1, (hh d hdt).2]
    exact Or.inr (hself _)
  refine ⟨r, ?_⟩
  unfold heatIndexIdx
  simp only [e1, e2, e3, bind, Except.bind, x1, x2, hs]
  simp

-- labels that overlap in part and stand in different orders
example : ∃ out, dewtempIdx (latArr [0, 10] (fun _ => 290)) (latArr [20, 10] (fun _ => 50)) = .ok out ∧
    At out (fun _ => 10) (dewtempPoint (fin 290) (fin 50)) := by
  have ht := latArr_labelled [0, 10] rfl (by simp) (fun _ => 290)
  have hr := latArr_labelled [20, 10] rfl (by norm_num) (fun _ => 50)
  obtain ⟨out, e, -, h⟩ := C186_dewtemp _ _ ht hr
  exact ⟨out, e, (h _ _).mpr ⟨_, _, latArr_at _ _ 1 10 rfl, latArr_at _ _ 1 10 rfl, rfl⟩⟩

example : ∃ out, relhumIceIdx (latArr [0, 10] (fun _ => 260)) (latArr [0, 10] (fun _ => 0.001)) (latArr [10, 0] (fun k => 80000 + k)) = .ok out ∧
    At out (fun _ => 0) (relhumIcePoint (fin 260) (fin 0.001) (fin 80001)) := by
  have ht := latArr_labelled [0, 10] rfl (by simp) (fun _ => 260)
  have hw := latArr_labelled [0, 10] rfl (by simp) (fun _ => 0.001)
  have hp := latArr_labelled [10, 0] rfl (by simp) (fun k => 80000 + k)
  obtain ⟨⟨out, e, h⟩, -⟩ := C186_ice_partial _ _ _ ht hw hp rfl rfl (fun _ _ => rfl) (by
    intro d _ a b ha hb
    cases ha; cases hb
    exact List.Perm.swap 0 10 [])
  have a3 := latArr_at [10, 0] (fun k => 80000 + k) 1 0 rfl
  have e3 : (80000 + ((1 : ℕ) : ℝ)) = 80001 := by norm_num
  rw [e3] at a3
  exact ⟨out, e, (h _ _).mpr ⟨_, _, _, latArr_at _ _ 0 0 rfl, latArr_at _ _ 0 0 rfl, a3, rfl⟩⟩

example : ∃ out, heatIndexIdx false (latArr [0, 10] (fun _ => 90)) (latArr [0, 10] (fun _ => 50)) = .ok out :=
  C186_heat_index_ok false _ _ (latArr_labelled _ rfl (by simp) _) (latArr_labelled _ rfl (by simp) _) rfl (fun _ _ => rfl)

end Verif.Props
