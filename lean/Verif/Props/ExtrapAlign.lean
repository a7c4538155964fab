import Verif.Lemmas.ExtrapAlign
import Verif.Spec.ExtrapAlign
import Verif.Props.HybridInterp2
import Verif.Props.HybridAlign

/-
Property C188: temperature and geopotential extrapolated below the lowest level use the bottom temperature, the surface pressure and the surface
geopotential of the same labelled point.
-/

set_option linter.unusedSectionVars false
namespace Verif.Props
open Verif Model Spec Lemmas XF

/-- the arrays of the call: all dimensions labelled; the hybrid coefficients have the level dimension, `ps` does not; `plev` is a new name -/
structure ExtrapCall (lev : String) (x : List ℝ) (data : XArr) (ps hyam hybm : IArr ℝ ℝ) (tBot phi : XArr) : Prop where
  dataOk : Labelled data
  psOk : Labelled ps
  hyamOk : Labelled hyam
  hybmOk : Labelled hybm
  tBotOk : Labelled tBot
  phiOk : Labelled phi
  hyamDims : hyam.arr.dims = [lev]
  hybmDims : hybm.arr.dims = [lev]
  levNew : lev ∉ ps.arr.dims
  plevNew : "plev" ∉ data.arr.dims
  levels : 0 < data.arr.size lev
  asked : x.Nodup

theorem argmax_list (l : List ℝ) (h : l ≠ []) : ∃ μ, l[argmax l]? = some μ ∧ ∀ y ∈ l, y ≤ μ := by
  cases l with
  | nil => exact absurd rfl h
  | cons y ys =>
    have := argmaxFrom_spec ys 1 0 y [y] rfl rfl (by simp)
    simpa [argmax] using this

/-- the pressures of the levels, by labels -/
theorem pressure_at (lev : String) (p0 : ℝ) (ps hyam hybm : IArr ℝ ℝ) (h1 : Labelled ps) (h2 : Labelled hyam) (h3 : Labelled hybm)
    (d2 : hyam.arr.dims = [lev]) (d3 : hybm.arr.dims = [lev]) (hlev : lev ∉ ps.arr.dims) (P : IArr ℝ ℝ) (h : pressureIdx ps hyam hybm p0 = .ok P) :
    Labelled P ∧ (∀ d, d ∈ P.arr.dims ↔ d = lev ∨ d ∈ ps.arr.dims) ∧ (∀ d ∈ ps.arr.dims, P.index d = ps.index d) ∧
      (∀ la lb, hyam.index lev = some la → hybm.index lev = some lb → P.index lev = some (la.filter (fun l => decide (l ∈ lb)))) ∧
      ∀ pt v, At P pt v ↔ ∃ a b s, At hyam pt a ∧ At hybm pt b ∧ At ps pt s ∧ v = a * p0 + b * s := by
  unfold pressureIdx at h
  simp only [bind, Except.bind, pure, Except.pure] at h
  split at h
  · cases h
  rw [if_neg (by rw [d2, d3]; simp)] at h
  obtain ⟨q, e1, l1, -, m1, i1, j1, a1⟩ := izip_at (fun x y : ℝ => x * y) hybm ps h3 h1
  obtain ⟨r, e2, l2, -, m2, i2, j2, a2⟩ := izip_at (fun x y : ℝ => x + y) (hyam.map (fun x => x * p0)) q (labelled_map _ _ h2) l1
  simp only [e1, e2] at h
  cases h
  have hd2 : (hyam.map (fun x => x * p0)).arr.dims = [lev] := d2
  have hps : ∀ d ∈ ps.arr.dims, d ≠ lev := fun d hd hE => hlev (hE ▸ hd)
  refine ⟨l2, ?_, ?_, ?_, ?_⟩
  · intro d
    rw [m2, m1, hd2, d3]
    simp only [List.mem_singleton]
    tauto
  · intro d hd
    rw [izip_index_right _ _ _ _ e2 d (by rw [hd2]; simpa using hps d hd), izip_index_right _ _ _ _ e1 d (by rw [d3]; simpa using hps d hd)]
  · intro la lb ea eb
    refine i2 lev (by rw [hd2]; simp) la ea ((m1 lev).mpr (Or.inl (by rw [d3]; simp))) lb ?_
    rw [j1 lev (by rw [d3]; simp) hlev, eb]
  · intro pt v
    rw [a2]
    constructor
    · rintro ⟨x, y, hx, hy, rfl⟩
      obtain ⟨a, ha, rfl⟩ := (at_map _ _ _ _).mp hx
      obtain ⟨b, s, hb, hs, rfl⟩ := (a1 _ _).mp hy
      exact ⟨a, b, s, ha, hb, hs, rfl⟩
    · rintro ⟨a, b, s, ha, hb, hs, rfl⟩
      exact ⟨_, _, (at_map (fun x : ℝ => x * p0) _ _ _).mpr ⟨a, ha, rfl⟩, (a1 _ _).mpr ⟨b, s, hb, hs, rfl⟩, rfl⟩

theorem mem_outDims (dims : List String) (lev d : String) (hp : "plev" ∉ dims) (hl : lev ∈ dims) :
    d ∈ outDims dims lev ↔ d = "plev" ∨ (d ∈ dims ∧ d ≠ lev) := by
  unfold outDims
  rw [List.mem_map]
  constructor
  · rintro ⟨e, he, rfl⟩
    split_ifs with h
    · exact Or.inl rfl
    · exact Or.inr ⟨he, h⟩
  · rintro (rfl | ⟨h1, h2⟩)
    · exact ⟨lev, hl, by simp⟩
    · exact ⟨d, h1, by simp [h2]⟩

theorem line_congr {α : Type} (a : LArr α) (h : a.WF) (lev : String) (i j : String → ℕ) (hij : ∀ d ∈ a.dims, d ≠ lev → i d = j d) :
    a.line lev i = a.line lev j := by
  unfold LArr.line
  apply List.map_congr_left
  intro k _
  apply h
  intro d hd
  by_cases hE : d = lev
  · subst hE; simp
  · simp [Function.update_of_ne hE, hij d hd hE]

/-- the interpolated array before extrapolation -/
theorem interp_labelled (g : ℝ → ℝ) (lev : String) (p0 : ℝ) (x : List ℝ) (data : XArr) (ps hyam hybm : IArr ℝ ℝ) (hdat : Labelled data) (P : IArr ℝ ℝ)
    (hP : pressureIdx ps hyam hybm p0 = .ok P) (hPl : Labelled P) (hplev : "plev" ∉ data.arr.dims) (hx : x.Nodup) (out : XArr)
    (h : interpHybridIdx g lev p0 x false data ps hyam hybm = .ok out) :
    lev ∈ data.arr.dims ∧ P.arr.dims.Perm data.arr.dims ∧ (∀ d ∈ data.arr.dims, P.arr.size d = data.arr.size d) ∧
      (∀ d, d ∈ out.arr.dims ↔ d = "plev" ∨ (d ∈ data.arr.dims ∧ d ≠ lev)) ∧
      Labelled out ∧ out.index "plev" = some x ∧ ∀ d ∈ data.arr.dims, d ≠ lev → out.index d = data.index d := by
  unfold interpHybridIdx at h
  simp only [hP, bind, Except.bind, pure, Except.pure, throw, throwThe, MonadExceptOf.throw, Bool.false_eq_true, if_false] at h
  split_ifs at h with c1 c2 c3
  cases hi : interpAlong g lev x P.arr data.arr with
  | error e => simp [hi] at h
  | ok o =>
    simp only [hi] at h
    cases h
    obtain ⟨ll, el, nl, sl⟩ := hdat.labels lev c1
    have hm := mem_outDims data.arr.dims lev
    unfold interpAlong at hi
    simp only [bind, Except.bind, pure, Except.pure, throw, throwThe, MonadExceptOf.throw] at hi
    split_ifs at hi with c4
    split at hi
    · cases hi
    cases hi
    have hne : ∀ d ∈ data.arr.dims, d ≠ "plev" := fun d hd hE => hplev (hE ▸ hd)
    refine ⟨c1, c2, c3, fun d => hm d hplev c1, ⟨?_, ?_⟩, by simp [el], ?_⟩
    · intro i j hij
      have hij' : ∀ d ∈ data.arr.dims, d ≠ lev → i d = j d := fun d hd hn => hij d ((hm d hplev c1).mpr (Or.inr ⟨hd, hn⟩))
      have e1 := line_congr data.arr hdat.wf lev i j hij'
      have e2 := line_congr P.arr hPl.wf lev i j (fun d hd hn => hij' d (c2.mem_iff.mp hd) hn)
      have e3 : i "plev" = j "plev" := hij "plev" ((hm _ hplev c1).mpr (Or.inl rfl))
      simp only [e1, e2, e3]
    · intro d hd
      rcases (hm d hplev c1).mp hd with rfl | ⟨h1, h2⟩
      · exact ⟨x, by simp [el], hx, by simp⟩
      · obtain ⟨l, e, n, s⟩ := hdat.labels d h1
        exact ⟨l, by simp [hne d h1, h2, e], n, by simp [hne d h1, s]⟩
    · intro d hd hn
      simp [hne d hd, hn]

/-- the coordinate `output.plev` as an array -/
theorem plev_at (x : List ℝ) (hx : x.Nodup) (idx : String → Option (List ℝ)) (hi : idx "plev" = some x) (pl : XArr)
    (h : pl = ⟨⟨["plev"], fun _ => x.length, fun i => .fin (x.getD (i "plev") 0)⟩, idx⟩) :
    Labelled pl ∧ ∀ pt v, At pl pt v ↔ pt "plev" ∈ x ∧ v = .fin (pt "plev") := by
  subst h
  refine ⟨⟨?_, ?_⟩, ?_⟩
  · intro i j hij
    simp [hij "plev" (by simp)]
  · intro d hd
    obtain rfl : d = "plev" := by simpa using hd
    exact ⟨x, hi, hx, rfl⟩
  · intro pt v
    constructor
    · rintro ⟨i, h, rfl⟩
      obtain ⟨l, e, hl⟩ := h "plev" (by simp)
      have e' : idx "plev" = some l := e
      rw [hi] at e'
      cases e'
      exact ⟨List.mem_of_getElem? hl, by simp [hl]⟩
    · rintro ⟨h1, rfl⟩
      obtain ⟨k, hk⟩ := List.getElem?_of_mem h1
      refine ⟨fun _ => k, ?_, by simp [hk]⟩
      intro d hd
      obtain rfl : d = "plev" := by simpa using hd
      exact ⟨x, hi, hk⟩

/-- one level of an array, chosen by its label -/
theorem isel_at (lev : String) (P : IArr ℝ ℝ) (h : Labelled P) (hl : lev ∈ P.arr.dims) (l : List ℝ) (e : P.index lev = some l) (k : ℕ) (μ : ℝ)
    (hk : l[k]? = some μ) (r : XArr)
    (hr : r = ⟨⟨P.arr.dims.filter (fun d => d ≠ lev), P.arr.size, fun i => .fin (P.arr.get (Function.update i lev k))⟩, P.index⟩) :
    Labelled r ∧ ∀ pt v, At r pt v ↔ ∃ p, At P (Function.update pt lev μ) p ∧ v = .fin p := by
  subst hr
  have hm : ∀ d, d ∈ P.arr.dims.filter (fun d => d ≠ lev) ↔ d ∈ P.arr.dims ∧ d ≠ lev := fun d => by simp
  refine ⟨⟨?_, ?_⟩, ?_⟩
  · intro i j hij
    show XF.fin _ = XF.fin _
    congr 1
    apply h.wf
    intro d hd
    by_cases hE : d = lev
    · subst hE; simp
    · simp [Function.update_of_ne hE, hij d ((hm d).mpr ⟨hd, hE⟩)]
  · intro d hd
    exact h.labels d ((hm d).mp hd).1
  · intro pt v
    constructor
    · rintro ⟨i, hi, rfl⟩
      refine ⟨_, ⟨Function.update i lev k, ?_, rfl⟩, rfl⟩
      intro d hd
      by_cases hE : d = lev
      · subst hE
        exact ⟨l, e, by simpa using hk⟩
      · obtain ⟨m, em, hm'⟩ := hi d ((hm d).mpr ⟨hd, hE⟩)
        exact ⟨m, em, by simpa [Function.update_of_ne hE] using hm'⟩
    · rintro ⟨p, ⟨i, hi, rfl⟩, rfl⟩
      have hik : i lev = k := by
        obtain ⟨m, em, hm'⟩ := hi lev hl
        rw [e] at em
        cases em
        obtain ⟨m, em, nm, -⟩ := h.labels lev hl
        rw [e] at em
        cases em
        exact nodup_pos nm hm' (by simpa using hk)
      refine ⟨i, ?_, ?_⟩
      · intro d hd
        obtain ⟨hd1, hE⟩ := (hm d).mp hd
        obtain ⟨m, em, hm'⟩ := hi d hd1
        exact ⟨m, em, by simpa [Function.update_of_ne hE] using hm'⟩
      · show XF.fin (P.arr.get (Function.update i lev k)) = .fin _
        rw [← hik, Function.update_eq_self]

theorem at_update {α : Type} (a : IArr ℝ α) (lev : String) (h : lev ∉ a.arr.dims) (pt : String → ℝ) (μ : ℝ) (v : α) :
    At a (Function.update pt lev μ) v ↔ At a pt v := by
  have hne : ∀ d ∈ a.arr.dims, d ≠ lev := fun d hd hE => h (hE ▸ hd)
  constructor
  · rintro ⟨i, hi, rfl⟩
    refine ⟨i, fun d hd => ?_, rfl⟩
    obtain ⟨l, e, hl⟩ := hi d hd
    exact ⟨l, e, by simpa [Function.update_of_ne (hne d hd)] using hl⟩
  · rintro ⟨i, hi, rfl⟩
    refine ⟨i, fun d hd => ?_, rfl⟩
    obtain ⟨l, e, hl⟩ := hi d hd
    exact ⟨l, e, by simpa [Function.update_of_ne (hne d hd)] using hl⟩

/-- the pressure of the lowest level as an array -/
theorem lowest_at (lev : String) (p0 : ℝ) (ps hyam hybm : IArr ℝ ℝ) (h1 : Labelled ps) (h2 : Labelled hyam) (h3 : Labelled hybm)
    (d2 : hyam.arr.dims = [lev]) (d3 : hybm.arr.dims = [lev]) (hlev : lev ∉ ps.arr.dims) (P : IArr ℝ ℝ) (h : pressureIdx ps hyam hybm p0 = .ok P)
    (hpos : 0 < P.arr.size lev) (r : XArr)
    (hr : r = ⟨⟨P.arr.dims.filter (fun d => d ≠ lev), P.arr.size,
      fun i => .fin (P.arr.get (Function.update i lev (argmax ((P.index lev).getD (virtualIndex (P.arr.size lev))))))⟩, P.index⟩) :
    Labelled r ∧ ∀ pt v, At r pt v ↔ ∃ p, LowestPressure lev p0 ps hyam hybm pt p ∧ v = .fin p := by
  obtain ⟨lP, mP, iP, jP, aP⟩ := pressure_at lev p0 ps hyam hybm h1 h2 h3 d2 d3 hlev P h
  obtain ⟨la, ea, -, -⟩ := h2.labels lev (by rw [d2]; simp)
  obtain ⟨lb, eb, -, -⟩ := h3.labels lev (by rw [d3]; simp)
  have eP := jP la lb ea eb
  have hl : lev ∈ P.arr.dims := (mP lev).mpr (Or.inl rfl)
  obtain ⟨l, el, -, sl⟩ := lP.labels lev hl
  have hll : l = la.filter (fun l => decide (l ∈ lb)) := by rw [eP] at el; injection el with el; exact el.symm
  have hne : l ≠ [] := by
    rintro rfl
    simp at sl
    omega
  obtain ⟨μ, hμ, hmax⟩ := argmax_list l hne
  rw [el, Option.getD_some] at hr
  obtain ⟨hL, hA⟩ := isel_at lev P lP hl l el (argmax l) μ hμ r hr
  refine ⟨hL, fun pt v => ?_⟩
  have hμm : μ ∈ l := List.mem_of_getElem? hμ
  have hmem : ∀ y, y ∈ l ↔ y ∈ la ∧ y ∈ lb := by
    intro y
    rw [hll, List.mem_filter]
    simp
  rw [hA]
  constructor
  · rintro ⟨p, hp, rfl⟩
    obtain ⟨a, b, s, ha, hb, hs, rfl⟩ := (aP _ _).mp hp
    exact ⟨_, ⟨la, lb, μ, a, b, s, ea, eb, ((hmem μ).mp hμm).1, ((hmem μ).mp hμm).2, fun y h1 h2 => hmax y ((hmem y).mpr ⟨h1, h2⟩), ha, hb,
      (at_update ps lev hlev pt μ s).mp hs, rfl⟩, rfl⟩
  · rintro ⟨p, ⟨la', lb', ν, a, b, s, ea', eb', m1, m2, hmx, ha, hb, hs, rfl⟩, rfl⟩
    rw [ea] at ea'
    rw [eb] at eb'
    cases ea'
    cases eb'
    obtain rfl : ν = μ := le_antisymm (hmax ν ((hmem ν).mpr ⟨m1, m2⟩)) (hmx μ ((hmem μ).mp hμm).1 ((hmem μ).mp hμm).2)
    exact ⟨_, (aP _ _).mpr ⟨a, b, s, ha, hb, (at_update ps lev hlev pt ν s).mpr hs, rfl⟩, rfl⟩

theorem below_at (v : Below) (tBot lev pSfc ps phi : XArr) (h1 : Labelled tBot) (h2 : Labelled lev) (h3 : Labelled pSfc) (h4 : Labelled ps) (h5 : Labelled phi)
    (r : XArr) (h : v.array tBot lev pSfc ps phi = .ok r) :
    Labelled r ∧ ∀ pt y, At r pt y ↔ ∃ t l p s f, At tBot pt t ∧ At lev pt l ∧ At pSfc pt p ∧ At ps pt s ∧ At phi pt f ∧ y = formulaBelow v t l p s f := by
  cases v with
  | temperature => exact temp_at tBot lev pSfc ps phi h1 h2 h3 h4 h5 r h
  | geopotential => exact geo_at tBot lev pSfc ps phi h1 h2 h3 h4 h5 r h

/-- **C188.** If the call with extrapolation of temperature or geopotential succeeds, it keeps every label of the interpolated field. At every labelled
point the value is the interpolated one where the requested pressure is at most the pressure of the lowest level, and else the formula applied to
the bottom temperature, surface pressure and surface geopotential that carry these same labels. -/
theorem C188_extrapolated (v : Below) (g : ℝ → ℝ) (lev : String) (p0 : ℝ) (x : List ℝ) (data : XArr) (ps hyam hybm : IArr ℝ ℝ) (tBot phi : XArr)
    (hc : ExtrapCall lev x data ps hyam hybm tBot phi) (out : XArr) (h : interpHybridExtrapIdx v g lev p0 x data ps hyam hybm tBot phi = .ok out) :
    ∃ out0, interpHybridIdx g lev p0 x false data ps hyam hybm = .ok out0 ∧ Labelled out ∧
      (∀ d ∈ out0.arr.dims, d ∈ out.arr.dims ∧ out.index d = out0.index d) ∧
      ∀ pt y, At out pt y ↔ ∃ o t s f p, At out0 pt o ∧ At tBot pt t ∧ At ps pt s ∧ At phi pt f ∧ LowestPressure lev p0 ps hyam hybm pt p ∧
        y = if pt "plev" ≤ p then o else formulaBelow v t (.fin (pt "plev")) (.fin p) (.fin s) f := by
  unfold interpHybridExtrapIdx at h
  simp only [bind, Except.bind] at h
  cases h0 : interpHybridIdx g lev p0 x false data ps hyam hybm with
  | error e => simp [h0] at h
  | ok out0 =>
  cases hP : pressureIdx ps hyam hybm p0 with
  | error e => simp [h0, hP] at h
  | ok P =>
  simp only [h0, hP] at h
  obtain ⟨lP, mP, iP, jP, aP⟩ := pressure_at lev p0 ps hyam hybm hc.psOk hc.hyamOk hc.hybmOk hc.hyamDims hc.hybmDims hc.levNew P hP
  obtain ⟨c1, c2, c3, mo, lo, ixo, ido⟩ := interp_labelled g lev p0 x data ps hyam hybm hc.dataOk P hP lP hc.plevNew hc.asked out0 h0
  obtain ⟨ll, el, nl, sl⟩ := hc.dataOk.labels lev c1
  rw [el] at h
  simp only [Option.isSome_some, if_true] at h
  obtain ⟨lpl, apl⟩ := plev_at x hc.asked out0.index ixo _ rfl
  have hpos : 0 < P.arr.size lev := by
    rw [c3 lev c1]
    exact hc.levels
  obtain ⟨lsf, asf⟩ := lowest_at lev p0 ps hyam hybm hc.psOk hc.hyamOk hc.hybmOk hc.hyamDims hc.hybmDims hc.levNew P hP hpos _ rfl
  unfold remapExtrapIdx at h
  obtain ⟨c, ec, lc, -, -, -, -, ac⟩ := izip_at (fun l p : XF ℝ => XF.le l p) _ _ lpl lsf
  simp only [ec, bind, Except.bind] at h
  split at h
  · cases h
  rename_i e he
  obtain ⟨le, ae⟩ := below_at v tBot _ _ _ phi hc.tBotOk lpl lsf (labelled_map XF.fin ps hc.psOk) hc.phiOk e he
  split at h
  · cases h
  rename_i q hq
  obtain ⟨lq, mq, iq, -, aq⟩ := zexact_at _ _ _ lo lc _ hq
  obtain ⟨lr, mr, ir, -, ar⟩ := zexact_at _ _ _ lq le _ h
  refine ⟨out0, rfl, lr, ?_, ?_⟩
  · intro d hd
    have hdq := (mq d).mpr (Or.inl hd)
    exact ⟨(mr d).mpr (Or.inl hdq), by rw [ir d hdq, iq d hd]⟩
  · intro pt y
    rw [ar]
    constructor
    · rintro ⟨⟨o, b⟩, z, hob, hz, rfl⟩
      obtain ⟨o', b', ho, hb, hE⟩ := (aq pt _).mp hob
      cases hE
      obtain ⟨t, l, p, s, f, ht, hl, hp, hs, hf, rfl⟩ := (ae pt z).mp hz
      obtain ⟨s, hs', rfl⟩ := (at_map _ _ _ _).mp hs
      obtain ⟨l1, p1, hl1, hp1, rfl⟩ := (ac pt b).mp hb
      obtain rfl := at_unique _ lpl pt _ _ hl hl1
      obtain rfl := at_unique _ lsf pt _ _ hp hp1
      obtain ⟨-, rfl⟩ := (apl pt _).mp hl
      obtain ⟨p, hlow, rfl⟩ := (asf pt _).mp hp
      refine ⟨o, t, s, f, p, ho, ht, hs', hf, hlow, ?_⟩
      by_cases hle : pt "plev" ≤ p
      · simp [XF.sel, XF.le, hle]
      · simp [XF.sel, XF.le, hle]
    · rintro ⟨o, t, s, f, p, ho, ht, hs, hf, hlow, rfl⟩
      have hx : pt "plev" ∈ x := by
        obtain ⟨i, hi, -⟩ := ho
        obtain ⟨l, e, hl⟩ := hi "plev" ((mo _).mpr (Or.inl rfl))
        rw [ixo] at e
        cases e
        exact List.mem_of_getElem? hl
      have kl := (apl pt _).mpr ⟨hx, rfl⟩
      have kp := (asf pt _).mpr ⟨p, hlow, rfl⟩
      have ks := (at_map XF.fin ps pt _).mpr ⟨s, hs, rfl⟩
      have ke := (ae pt _).mpr ⟨t, _, _, _, f, ht, kl, kp, ks, hf, rfl⟩
      have kc := (ac pt _).mpr ⟨_, _, kl, kp, rfl⟩
      refine ⟨(o, _), _, (aq pt _).mpr ⟨o, _, ho, kc, rfl⟩, ke, ?_⟩
      by_cases hle : pt "plev" ≤ p
      · simp [XF.sel, XF.le, hle]
      · simp [XF.sel, XF.le, hle]

/-- labels at which an array has a value -/
theorem at_label {α : Type} (a : IArr ℝ α) (pt : String → ℝ) (v : α) (h : At a pt v) (d : String) (hd : d ∈ a.arr.dims) (l : List ℝ) (e : a.index d = some l) :
    pt d ∈ l := by
  obtain ⟨i, hi, -⟩ := h
  obtain ⟨m, em, hm⟩ := hi d hd
  rw [e] at em
  cases em
  exact List.mem_of_getElem? hm

/-- a labelled array that has a value somewhere has one at every label -/
theorem at_move {α : Type} (a : IArr ℝ α) (pt : String → ℝ) (v : α) (h : At a pt v) (d : String) (l : List ℝ) (e : a.index d = some l) (μ : ℝ) (hμ : μ ∈ l) :
    ∃ w, At a (Function.update pt d μ) w := by
  obtain ⟨i, hi, -⟩ := h
  obtain ⟨k, hk⟩ := List.getElem?_of_mem hμ
  refine ⟨_, Function.update i d k, ?_, rfl⟩
  intro e' he'
  by_cases hE : e' = d
  · subst hE
    exact ⟨l, e, by simpa using hk⟩
  · obtain ⟨m, em, hm⟩ := hi e' he'
    exact ⟨m, em, by simpa [Function.update_of_ne hE] using hm⟩

/-- **C188, missing labels.** If the call succeeds and returns any value, every label of `data` along a dimension it shares with `t_bot`, `ps` or
`phi_sfc` is a label of that array too: a label that one of them lacks is an error, not a value made up or a point left out. -/
theorem C188_no_missing (v : Below) (g : ℝ → ℝ) (lev : String) (p0 : ℝ) (x : List ℝ) (data : XArr) (ps hyam hybm : IArr ℝ ℝ) (tBot phi : XArr)
    (hc : ExtrapCall lev x data ps hyam hybm tBot phi) (out : XArr) (h : interpHybridExtrapIdx v g lev p0 x data ps hyam hybm tBot phi = .ok out)
    (pt : String → ℝ) (y : XF ℝ) (hy : At out pt y) (d : String) (hd : d ∈ data.arr.dims) (hl : d ≠ lev) (l : List ℝ) (e : data.index d = some l) (μ : ℝ)
    (hμ : μ ∈ l) :
    (d ∈ tBot.arr.dims → ∀ m, tBot.index d = some m → μ ∈ m) ∧ (d ∈ ps.arr.dims → ∀ m, ps.index d = some m → μ ∈ m) ∧
      (d ∈ phi.arr.dims → ∀ m, phi.index d = some m → μ ∈ m) := by
  obtain ⟨out0, h0, -, hk, hA⟩ := C188_extrapolated v g lev p0 x data ps hyam hybm tBot phi hc out h
  cases hP : pressureIdx ps hyam hybm p0 with
  | error e' =>
    unfold interpHybridIdx at h0
    simp only [hP, bind, Except.bind, throw, throwThe, MonadExceptOf.throw] at h0
    split_ifs at h0
  | ok P =>
  have lP := (pressure_at lev p0 ps hyam hybm hc.psOk hc.hyamOk hc.hybmOk hc.hyamDims hc.hybmDims hc.levNew P hP).1
  obtain ⟨-, -, -, mo, -, -, ido⟩ := interp_labelled g lev p0 x data ps hyam hybm hc.dataOk P hP lP hc.plevNew hc.asked out0 h0
  have hdo : d ∈ out0.arr.dims := (mo d).mpr (Or.inr ⟨hd, hl⟩)
  obtain ⟨w, hw⟩ := at_move out pt y hy d l (by rw [(hk d hdo).2, ido d hd hl, e]) μ hμ
  obtain ⟨o, t, s, f, p, -, ht, hs, hf, -⟩ := (hA _ _).mp hw
  have hup : Function.update pt d μ d = μ := by simp
  exact ⟨fun h1 m h2 => hup ▸ at_label _ _ _ ht d h1 m h2, fun h1 m h2 => hup ▸ at_label _ _ _ hs d h1 m h2,
    fun h1 m h2 => hup ▸ at_label _ _ _ hf d h1 m h2⟩

theorem below_follows (v : Below) (S : String → Option (List ℝ)) (tBot lev pSfc ps phi : XArr) (h1 : Follows S tBot) (h2 : Follows S lev) (h3 : Follows S pSfc)
    (h4 : Follows S ps) (h5 : Follows S phi) : ∃ r, v.array tBot lev pSfc ps phi = .ok r ∧ Follows S r := by
  cases v with
  | temperature => exact temp_follows S tBot lev pSfc ps phi h1 h2 h3 h4 h5
  | geopotential => exact geo_follows S tBot lev pSfc ps phi h1 h2 h3 h4 h5

/-- **C188, success.** If `ps`, `t_bot` and `phi_sfc` list the labels of `data` in the same order, the call succeeds whenever the one without
extrapolation does. -/
theorem C188_succeeds (v : Below) (g : ℝ → ℝ) (lev : String) (p0 : ℝ) (x : List ℝ) (data : XArr) (ps hyam hybm : IArr ℝ ℝ) (tBot phi : XArr)
    (hc : ExtrapCall lev x data ps hyam hybm tBot phi) (hps : ∀ d ∈ ps.arr.dims, ps.index d = data.index d)
    (ht : ∀ d ∈ tBot.arr.dims, d ∈ ps.arr.dims ∧ tBot.index d = data.index d) (hf : ∀ d ∈ phi.arr.dims, d ∈ ps.arr.dims ∧ phi.index d = data.index d)
    (out0 : XArr) (h0 : interpHybridIdx g lev p0 x false data ps hyam hybm = .ok out0) :
    ∃ out, interpHybridExtrapIdx v g lev p0 x data ps hyam hybm tBot phi = .ok out := by
  cases hP : pressureIdx ps hyam hybm p0 with
  | error e' =>
    unfold interpHybridIdx at h0
    simp only [hP, bind, Except.bind, throw, throwThe, MonadExceptOf.throw] at h0
    split_ifs at h0
  | ok P =>
  obtain ⟨lP, mP, iP, jP, aP⟩ := pressure_at lev p0 ps hyam hybm hc.psOk hc.hyamOk hc.hybmOk hc.hyamDims hc.hybmDims hc.levNew P hP
  obtain ⟨c1, c2, c3, mo, lo, ixo, ido⟩ := interp_labelled g lev p0 x data ps hyam hybm hc.dataOk P hP lP hc.plevNew hc.asked out0 h0
  obtain ⟨ll, el, nl, sl⟩ := hc.dataOk.labels lev c1
  have hpd : ∀ d ∈ ps.arr.dims, d ≠ "plev" := fun d hd hE => hc.plevNew (hE ▸ c2.mem_iff.mp ((mP d).mpr (Or.inr hd)))
  have hS : ∀ d ∈ ps.arr.dims, (if d = "plev" then some x else data.index d) = data.index d := fun d hd => by simp [hpd d hd]
  obtain ⟨lpl, -⟩ := plev_at x hc.asked out0.index ixo _ rfl
  obtain ⟨lsf, -⟩ := lowest_at lev p0 ps hyam hybm hc.psOk hc.hyamOk hc.hybmOk hc.hyamDims hc.hybmDims hc.levNew P hP (by rw [c3 lev c1]; exact hc.levels) _ rfl
  have Fp : Follows (fun d => if d = "plev" then some x else data.index d) _ := ⟨lpl, by
    intro d hd
    obtain rfl : d = "plev" := by simpa using hd
    simpa using ixo⟩
  have Fs : Follows (fun d => if d = "plev" then some x else data.index d) _ := ⟨lsf, by
    intro d hd
    obtain ⟨h1, h2⟩ : d ∈ P.arr.dims ∧ d ≠ lev := by simpa using hd
    have h3 := ((mP d).mp h1).resolve_left h2
    rw [hS d h3, ← hps d h3]
    exact iP d h3⟩
  have Fps : Follows (fun d => if d = "plev" then some x else data.index d) (ps.map XF.fin) := follows_map _ _ _ ⟨hc.psOk, fun d hd => by rw [hS d hd, hps d hd]⟩
  have Ft : Follows (fun d => if d = "plev" then some x else data.index d) tBot := ⟨hc.tBotOk, fun d hd => by rw [hS d (ht d hd).1, (ht d hd).2]⟩
  have Ff : Follows (fun d => if d = "plev" then some x else data.index d) phi := ⟨hc.phiOk, fun d hd => by rw [hS d (hf d hd).1, (hf d hd).2]⟩
  have Fo : Follows (fun d => if d = "plev" then some x else data.index d) out0 := ⟨lo, by
    intro d hd
    rcases (mo d).mp hd with rfl | ⟨h1, h2⟩
    · simpa using ixo
    · have : d ≠ "plev" := fun hE => hc.plevNew (hE ▸ h1)
      simp [this, ido d h1 h2]⟩
  obtain ⟨c, ec, Fc⟩ := izip_follows _ (fun l p : XF ℝ => XF.le l p) _ _ Fp Fs
  obtain ⟨e, ee, Fe⟩ := below_follows v _ _ _ _ _ _ Ft Fp Fs Fps Ff
  obtain ⟨q, eq, Fq⟩ := zexact_follows _ Prod.mk _ _ Fo Fc
  obtain ⟨out, eo, -⟩ := zexact_follows _ (fun (p : XF ℝ × Bool) (e : XF ℝ) => XF.sel p.2 p.1 e) _ _ Fq Fe
  refine ⟨out, ?_⟩
  unfold interpHybridExtrapIdx
  simp only [h0, hP, bind, Except.bind, el, Option.isSome_some, if_true]
  unfold remapExtrapIdx
  simp only [ec, ee, eq, bind, Except.bind]
  exact eo

/-! ### a case -/

/-- an array over two latitudes -/
def exLat {α : Type} (lats : List ℝ) (a b : α) : IArr ℝ α :=
  ⟨⟨["lat"], fun _ => 2, fun i => if i "lat" = 0 then a else b⟩, fun d => if d = "lat" then some lats else none⟩

/-- two levels and two latitudes -/
def exData (lats : List ℝ) : XArr :=
  ⟨⟨["lev", "lat"], fun _ => 2, fun i => .fin (if i "lat" = 0 then 250 else 260)⟩,
    fun d => if d = "lat" then some lats else if d = "lev" then some [1, 2] else none⟩

def exCoef (c : ℕ → ℝ) : IArr ℝ ℝ := ⟨vec "lev" 2 c, fun _ => some [1, 2]⟩

theorem exLat_labelled {α : Type} (u w : ℝ) (h : u ≠ w) (a b : α) : Labelled (exLat [u, w] a b) where
  wf := by
    intro i j hij
    simp [exLat, hij "lat" (by simp [exLat])]
  labels := by
    intro d hd
    obtain rfl : d = "lat" := by simpa [exLat] using hd
    exact ⟨[u, w], by simp [exLat], by simp [h], rfl⟩

/-- non-vacuity: bottom temperatures and surface geopotentials labelled with the latitudes of the data -/
theorem exCall (u w : ℝ) (h : u ≠ w) (t1 t2 f1 f2 : XF ℝ) : ExtrapCall "lev" [600, 1100] (exData [0, 10]) (exLat [0, 10] 1000 600)
    (exCoef (fun _ => 0)) (exCoef (fun k => if k = 0 then 1 / 2 else 1)) (exLat [u, w] t1 t2) (exLat [0, 10] f1 f2) where
  dataOk := {
    wf := by
      intro i j hij
      simp [exData, hij "lat" (by simp [exData])]
    labels := by
      intro d hd
      have : d = "lev" ∨ d = "lat" := by simpa [exData] using hd
      rcases this with rfl | rfl
      · exact ⟨[1, 2], by simp [exData], by norm_num, rfl⟩
      · exact ⟨[0, 10], by simp [exData], by norm_num, rfl⟩ }
  psOk := exLat_labelled 0 10 (by norm_num) _ _
  hyamOk := ⟨by intro i j hij; simp [exCoef, vec], by
    intro d hd
    exact ⟨[1, 2], rfl, by norm_num, rfl⟩⟩
  hybmOk := ⟨by intro i j hij; simp [exCoef, vec, hij "lev" (by simp [exCoef, vec])], by
    intro d hd
    exact ⟨[1, 2], rfl, by norm_num, rfl⟩⟩
  tBotOk := exLat_labelled u w h _ _
  phiOk := exLat_labelled 0 10 (by norm_num) _ _
  hyamDims := rfl
  hybmDims := rfl
  levNew := by simp [exLat]
  plevNew := by simp [exData]
  levels := by simp [exData]
  asked := by norm_num

theorem ex_out0 : ∃ out0, interpHybridIdx id "lev" 100000 [600, 1100] false (exData [0, 10]) (exLat [0, 10] 1000 600)
    (exCoef (fun _ => 0)) (exCoef (fun k => if k = 0 then 1 / 2 else 1)) = .ok out0 := by
  obtain ⟨out, ho, -⟩ := C185_by_position id Set.univ "lev" 2 (fun _ => (0 : ℝ)) (fun k => if k = 0 then 1 / 2 else 1) (fun _ => some [1, 2])
    (fun _ => some [1, 2]) rfl 100000 [600, 1100] (exLat [0, 10] 1000 600) (exData [0, 10])
    { two := le_refl _
      levNew := by simp [exLat]
      plevNew := by simp [exLat]
      perm := List.Perm.refl _
      sizeLev := rfl
      sizes := fun d _ => ⟨rfl, by simp [exLat]⟩
      wf := (exLat_labelled 0 10 (by norm_num) _ _).wf }
    { mono := strictMono_id.strictMonoOn _
      asked := by simp
      sorted := Or.inl (by simp; norm_num)
      askedIn := fun _ _ => trivial
      distinct := by
        intro i _ j hj k hk h
        have hp : (exLat [0, 10] (1000 : ℝ) 600).arr.get i ≠ 0 := by
          simp only [exLat]; split_ifs <;> norm_num
        simp only [Spec.levelPressure, zero_mul, zero_add] at h
        have := mul_right_cancel₀ hp h
        have hj' : j = 0 ∨ j = 1 := by omega
        have hk' : k = 0 ∨ k = 1 := by omega
        rcases hj' with rfl | rfl <;> rcases hk' with rfl | rfl <;> first | rfl | (exfalso; revert this; norm_num)
      levelsIn := fun _ _ _ _ => trivial }
  exact ⟨out, ho⟩

/-- the call succeeds with labels that agree -/
example : ∃ out, interpHybridExtrapIdx .temperature id "lev" 100000 [600, 1100] (exData [0, 10]) (exLat [0, 10] 1000 600) (exCoef (fun _ => 0))
    (exCoef (fun k => if k = 0 then 1 / 2 else 1)) (exLat [0, 10] (.fin 280) (.fin 290)) (exLat [0, 10] (.fin 100) (.fin 200)) = .ok out := by
  obtain ⟨out0, h0⟩ := ex_out0
  refine C188_succeeds _ _ _ _ _ _ _ _ _ _ _ (exCall 0 10 (by norm_num) _ _ _ _) ?_ ?_ ?_ out0 h0
  · intro d hd
    obtain rfl : d = "lat" := by simpa [exLat] using hd
    simp [exLat, exData]
  · intro d hd
    obtain rfl : d = "lat" := by simpa [exLat] using hd
    simp [exLat, exData]
  · intro d hd
    obtain rfl : d = "lat" := by simpa [exLat] using hd
    simp [exLat, exData]

/-- a bottom temperature for latitudes 0 and 20 does not serve data at latitudes 0 and 10 -/
example (out : XArr) (h : interpHybridExtrapIdx .geopotential id "lev" 100000 [600, 1100] (exData [0, 10]) (exLat [0, 10] 1000 600) (exCoef (fun _ => 0))
    (exCoef (fun k => if k = 0 then 1 / 2 else 1)) (exLat [0, 20] (.fin 280) (.fin 290)) (exLat [0, 10] (.fin 100) (.fin 200)) = .ok out)
    (pt : String → ℝ) (y : XF ℝ) : ¬ At out pt y := by
  intro hy
  have := (C188_no_missing _ _ _ _ _ _ _ _ _ _ _ (exCall 0 20 (by norm_num) _ _ _ _) out h pt y hy "lat" (by simp [exData]) (by decide) [0, 10]
    (by simp [exData]) 10 (by simp)).1 (by simp [exLat]) [0, 20] (by simp [exLat])
  norm_num at this

end Verif.Props
