import Verif.Model.ExtrapAlign
import Verif.Lemmas.LabelAt
import Verif.Lemmas.NmseDims

/-
The extrapolation formulas on labelled arrays, point by point.
-/

set_option linter.unusedSectionVars false
namespace Verif.Lemmas
open Verif Model Spec XF

section
variable {K : Type} [Field K] [LinearOrder K] [IsStrictOrderedRing K] {α β γ : Type}

/-- `where` with exact join on labelled arrays, point by point -/
theorem zexact_at (f : α → β → γ) (a : IArr K α) (b : IArr K β) (ha : Labelled a) (hb : Labelled b) (r : IArr K γ) (h : zipExact f a b = .ok r) :
    Labelled r ∧ (∀ d, d ∈ r.arr.dims ↔ d ∈ a.arr.dims ∨ d ∈ b.arr.dims) ∧ (∀ d ∈ a.arr.dims, r.index d = a.index d) ∧
      (∀ d ∈ b.arr.dims, r.index d = b.index d) ∧
      ∀ pt v, At r pt v ↔ ∃ x y, At a pt x ∧ At b pt y ∧ v = f x y := by
  obtain ⟨hex, -, -, -⟩ := zipExact_ok f a b r h
  unfold zipExact at h
  split at h
  swap
  · cases h
  cases h
  have hdims : ∀ d, d ∈ a.arr.dims ++ b.arr.dims.filter (fun d => !a.arr.dims.contains d) ↔ d ∈ a.arr.dims ∨ d ∈ b.arr.dims :=
    mem_joinedDims _ _
  have hia : ∀ d ∈ a.arr.dims, (if a.arr.dims.contains d then (a.index d).orElse (fun _ => if b.arr.dims.contains d then b.index d else none) else b.index d) =
      a.index d := by
    intro d hd
    obtain ⟨l, e, -, -⟩ := ha.labels d hd
    simp [hd, e]
  have hib : ∀ d ∈ b.arr.dims, (if a.arr.dims.contains d then (a.index d).orElse (fun _ => if b.arr.dims.contains d then b.index d else none) else b.index d) =
      b.index d := by
    intro d hd
    by_cases hda : d ∈ a.arr.dims
    · rw [hia d hda]
      obtain ⟨la, ea, -, -⟩ := ha.labels d hda
      obtain ⟨lb, eb, -, -⟩ := hb.labels d hd
      rw [ea, eb, (hex d hda hd).2 la lb ea eb]
    · simp [hda]
  refine ⟨⟨?_, ?_⟩, hdims, hia, hib, ?_⟩
  · intro i j hij
    show f _ _ = f _ _
    congr 1
    · exact ha.wf i j (fun d hd => hij d ((hdims d).mpr (Or.inl hd)))
    · exact hb.wf i j (fun d hd => hij d ((hdims d).mpr (Or.inr hd)))
  · intro d hd
    by_cases hda : d ∈ a.arr.dims
    · obtain ⟨l, e, n, s⟩ := ha.labels d hda
      exact ⟨l, (hia d hda).trans e, n, by simp [hda, s]⟩
    · have hdb := ((hdims d).mp hd).resolve_left hda
      obtain ⟨l, e, n, s⟩ := hb.labels d hdb
      exact ⟨l, (hib d hdb).trans e, n, by simp [hda, s]⟩
  · intro pt v
    constructor
    · rintro ⟨i, hi, rfl⟩
      refine ⟨_, _, ⟨i, ?_, rfl⟩, ⟨i, ?_, rfl⟩, rfl⟩
      · intro d hd
        obtain ⟨l, e, hl⟩ := hi d ((hdims d).mpr (Or.inl hd))
        exact ⟨l, (hia d hd).symm.trans e, hl⟩
      · intro d hd
        obtain ⟨l, e, hl⟩ := hi d ((hdims d).mpr (Or.inr hd))
        exact ⟨l, (hib d hd).symm.trans e, hl⟩
    · rintro ⟨x, y, ⟨ia, hia', rfl⟩, ⟨ib, hib', rfl⟩, rfl⟩
      refine ⟨fun d => if d ∈ a.arr.dims then ia d else ib d, ?_, ?_⟩
      · intro d hd
        by_cases hda : d ∈ a.arr.dims
        · obtain ⟨l, e, hl⟩ := hia' d hda
          exact ⟨l, (hia d hda).trans e, by simpa [hda] using hl⟩
        · have hdb := ((hdims d).mp hd).resolve_left hda
          obtain ⟨l, e, hl⟩ := hib' d hdb
          exact ⟨l, (hib d hdb).trans e, by simpa [hda] using hl⟩
      · show f _ _ = f _ _
        congr 1
        · apply ha.wf
          intro d hd
          simp [hd]
        · apply hb.wf
          intro d hd
          by_cases hda : d ∈ a.arr.dims
          · simp only [hda, if_true]
            obtain ⟨la, ea, hla⟩ := hia' d hda
            obtain ⟨lb, eb, hlb⟩ := hib' d hd
            obtain rfl := (hex d hda hd).2 la lb ea eb
            obtain ⟨l, e, n, -⟩ := ha.labels d hda
            obtain rfl : l = la := by rw [e] at ea; injection ea
            exact nodup_pos n hla hlb
          · simp [hda]

theorem where3_at (f : Bool → α → α → α) (c : IArr K Bool) (x y : IArr K α) (hc : Labelled c) (hx : Labelled x) (hy : Labelled y) (r : IArr K α)
    (h : where3 f c x y = .ok r) : Labelled r ∧ ∀ pt v, At r pt v ↔ ∃ a b d, At c pt a ∧ At x pt b ∧ At y pt d ∧ v = f a b d := by
  unfold where3 at h
  simp only [bind, Except.bind] at h
  split at h
  · cases h
  rename_i p hp
  obtain ⟨l1, -, -, -, a1⟩ := zexact_at _ _ _ hc hx _ hp
  obtain ⟨l2, -, -, -, a2⟩ := zexact_at _ _ _ l1 hy _ h
  refine ⟨l2, ?_⟩
  intro pt v
  rw [a2]
  constructor
  · rintro ⟨q, d, hq, hd, rfl⟩
    obtain ⟨a, b, ha, hb, rfl⟩ := (a1 pt q).mp hq
    exact ⟨a, b, d, ha, hb, hd, rfl⟩
  · rintro ⟨a, b, d, ha, hb, hd, rfl⟩
    exact ⟨(a, b), d, (a1 pt _).mpr ⟨a, b, ha, hb, rfl⟩, hd, rfl⟩

/-- there is a value at the point -/
def Has (a : IArr K α) (pt : String → K) : Prop := ∃ v, At a pt v

end

/-- what an array computed from the five inputs holds: `F` of their values, and only at points all of `S` have -/
structure Computes (tBot lev pSfc ps phi : XArr) {α : Type} (r : IArr ℝ α) (F : XF ℝ → XF ℝ → XF ℝ → XF ℝ → XF ℝ → α) : Prop where
  lab : Labelled r
  val : ∀ pt t l p s f, At tBot pt t → At lev pt l → At pSfc pt p → At ps pt s → At phi pt f → At r pt (F t l p s f)

theorem tStar_at (tBot lev pSfc ps phi : XArr) (h1 : Labelled tBot) (h3 : Labelled pSfc) (h4 : Labelled ps) :
    ∃ r, tStarIdx tBot pSfc ps = .ok r ∧ Computes tBot lev pSfc ps phi r (fun t _ p s _ => tStar t p s) ∧
      ∀ pt v, At r pt v → Has tBot pt ∧ Has pSfc pt ∧ Has ps pt := by
  obtain ⟨q, e1, l1, -, -, -, -, a1⟩ := izip_at (fun ps p : XF ℝ => ps / p) ps pSfc h4 h3
  obtain ⟨r, e2, l2, -, -, -, -, a2⟩ := izip_at (fun t r : XF ℝ => t * (.fin 1 + .fin alphaLapse * (r - .fin 1))) tBot q h1 l1
  refine ⟨r, ?_, ⟨l2, ?_⟩, ?_⟩
  · unfold tStarIdx
    simp only [e1, bind, Except.bind]
    exact e2
  · intro pt t l p s f ht _ hp hs _
    exact (a2 pt _).mpr ⟨t, _, ht, (a1 pt _).mpr ⟨s, p, hs, hp, rfl⟩, rfl⟩
  · intro pt v hv
    obtain ⟨t, q', ht, hq, -⟩ := (a2 pt v).mp hv
    obtain ⟨s, p, hs, hp, -⟩ := (a1 pt q').mp hq
    exact ⟨⟨t, ht⟩, ⟨p, hp⟩, ⟨s, hs⟩⟩

/-- the points of `_temp_extrapolate` and their values -/
theorem temp_at (tBot lev pSfc ps phi : XArr) (h1 : Labelled tBot) (h2 : Labelled lev) (h3 : Labelled pSfc) (h4 : Labelled ps) (h5 : Labelled phi)
    (r : XArr) (h : tempExtrapolateIdx tBot lev pSfc ps phi = .ok r) :
    Labelled r ∧ ∀ pt v, At r pt v ↔ ∃ t l p s f, At tBot pt t ∧ At lev pt l ∧ At pSfc pt p ∧ At ps pt s ∧ At phi pt f ∧ v = tempExtrapolate t l p s f := by
  obtain ⟨tstar, e1, c1, s1⟩ := tStar_at tBot lev pSfc ps phi h1 h3 h4
  have lh := labelled_map (fun phi : XF ℝ => phi * .fin gInv) phi h5
  obtain ⟨t0, e2, l2, -, -, -, -, a2⟩ := izip_at (fun t h : XF ℝ => t + .fin 0.0065 * h) tstar _ c1.lab lh
  have lp := labelled_map (npMinimum (.fin 298)) t0 l2
  obtain ⟨a, e3, l3, -, -, -, -, a3⟩ := izip_at (fun h t0 : XF ℝ => (.fin 2500 - h) * t0) _ t0 lh l2
  obtain ⟨b, e4, l4, -, -, -, -, a4⟩ := izip_at (fun h tp : XF ℝ => (h - .fin 2000) * tp) _ _ lh lp
  obtain ⟨ab, e5, l5, -, -, -, -, a5⟩ := izip_at (fun a b : XF ℝ => .fin 0.002 * (a + b)) a b l3 l4
  unfold tempExtrapolateIdx at h
  simp only [e1, e2, e3, e4, e5, bind, Except.bind] at h
  split at h
  · cases h
  rename_i tp1 e6
  obtain ⟨l6, -, -, -, a6⟩ := zexact_at _ _ _ lh l5 _ e6
  split at h
  · cases h
  rename_i tp e7
  obtain ⟨l7, a7⟩ := where3_at _ _ _ _ (labelled_map _ _ lh) lp l6 _ e7
  obtain ⟨lg, e8, l8, -, -, -, -, a8⟩ := izip_at (fun lev ps : XF ℝ => XF.log (lev / ps)) lev ps h2 h4
  obtain ⟨q1, e9, l9, -, -, -, -, a9⟩ := izip_at (fun tp ts : XF ℝ => .fin Rd * (tp - ts)) tp tstar l7 c1.lab
  obtain ⟨q2, e10, l10, -, -, -, -, a10⟩ := izip_at (fun q phi : XF ℝ => q / phi) q1 phi l9 h5
  obtain ⟨q3, e11, l11, -, -, -, -, a11⟩ := izip_at (fun q l : XF ℝ => q * l) q2 lg l10 l8
  obtain ⟨c, e13, l13, -, -, -, -, a13⟩ := izip_at (fun tp ts : XF ℝ => XF.lt tp ts) tp tstar l7 c1.lab
  simp only [e8, e9, e10, e11, e13] at h
  split at h
  · cases h
  rename_i al1 e12
  obtain ⟨l12, a12⟩ := where3_at _ _ _ _ (labelled_map _ _ lh) (labelled_map _ _ l8) l11 _ e12
  split at h
  · cases h
  rename_i al e14
  obtain ⟨l14, -, -, -, a14⟩ := zexact_at _ _ _ l13 l12 _ e14
  obtain ⟨r', e15, l15, -, -, -, -, a15⟩ := izip_at (fun tstar alnp : XF ℝ => tstar * (.fin 1 + alnp + .fin 0.5 * (alnp * alnp) + .fin (1 / 6) * (alnp * alnp * alnp)))
    tstar al c1.lab l14
  rw [e15] at h
  cases h
  have hval : ∀ pt t l p s f, At tBot pt t → At lev pt l → At pSfc pt p → At ps pt s → At phi pt f → At r pt (tempExtrapolate t l p s f) := by
    intro pt t l p s f ht hl hp hs hf
    have k1 := c1.val pt t l p s f ht hl hp hs hf
    have kh := (at_map (fun phi : XF ℝ => phi * .fin gInv) phi pt _).mpr ⟨f, hf, rfl⟩
    have k2 := (a2 pt _).mpr ⟨_, _, k1, kh, rfl⟩
    have kp := (at_map (npMinimum (.fin 298)) t0 pt _).mpr ⟨_, k2, rfl⟩
    have k3 := (a3 pt _).mpr ⟨_, _, kh, k2, rfl⟩
    have k4 := (a4 pt _).mpr ⟨_, _, kh, kp, rfl⟩
    have k5 := (a5 pt _).mpr ⟨_, _, k3, k4, rfl⟩
    have k6 := (a6 pt _).mpr ⟨_, _, kh, k5, rfl⟩
    have k7 := (a7 pt _).mpr ⟨_, _, _, (at_map _ _ pt _).mpr ⟨_, kh, rfl⟩, kp, k6, rfl⟩
    have k8 := (a8 pt _).mpr ⟨_, _, hl, hs, rfl⟩
    have k9 := (a9 pt _).mpr ⟨_, _, k7, k1, rfl⟩
    have k10 := (a10 pt _).mpr ⟨_, _, k9, hf, rfl⟩
    have k11 := (a11 pt _).mpr ⟨_, _, k10, k8, rfl⟩
    have k12 := (a12 pt _).mpr ⟨_, _, _, (at_map _ _ pt _).mpr ⟨_, kh, rfl⟩, (at_map _ _ pt _).mpr ⟨_, k8, rfl⟩, k11, rfl⟩
    have k13 := (a13 pt _).mpr ⟨_, _, k7, k1, rfl⟩
    have k14 := (a14 pt _).mpr ⟨_, _, k13, k12, rfl⟩
    exact (a15 pt _).mpr ⟨_, _, k1, k14, rfl⟩
  refine ⟨l15, ?_⟩
  intro pt v
  constructor
  · intro hv
    obtain ⟨ts, al', hts, hal, -⟩ := (a15 pt v).mp hv
    obtain ⟨⟨t, ht⟩, ⟨p, hp⟩, ⟨s, hs⟩⟩ := s1 pt _ hts
    obtain ⟨c', al1', -, hal1, -⟩ := (a14 pt _).mp hal
    obtain ⟨x1, x2, x3, hx1, hx2, -, -⟩ := (a12 pt _).mp hal1
    obtain ⟨y, hy, -⟩ := (at_map _ _ pt _).mp hx1
    obtain ⟨f, hf, -⟩ := (at_map _ _ pt _).mp hy
    obtain ⟨y2, hy2, -⟩ := (at_map _ _ pt _).mp hx2
    obtain ⟨l, s', hl, -, -⟩ := (a8 pt _).mp hy2
    exact ⟨t, l, p, s, f, ht, hl, hp, hs, hf, at_unique _ l15 pt _ _ hv (hval pt t l p s f ht hl hp hs hf)⟩
  · rintro ⟨t, l, p, s, f, ht, hl, hp, hs, hf, rfl⟩
    exact hval pt t l p s f ht hl hp hs hf

/-- the points of `_geo_height_extrapolate` and their values -/
theorem geo_at (tBot lev pSfc ps phi : XArr) (h1 : Labelled tBot) (h2 : Labelled lev) (h3 : Labelled pSfc) (h4 : Labelled ps) (h5 : Labelled phi)
    (r : XArr) (h : geoHeightExtrapolateIdx tBot lev pSfc ps phi = .ok r) :
    Labelled r ∧ ∀ pt v, At r pt v ↔ ∃ t l p s f, At tBot pt t ∧ At lev pt l ∧ At pSfc pt p ∧ At ps pt s ∧ At phi pt f ∧ v = geoHeightExtrapolate t l p s f := by
  obtain ⟨tstar, e1, c1, s1⟩ := tStar_at tBot lev pSfc ps phi h1 h3 h4
  have lh := labelled_map (fun phi : XF ℝ => phi * .fin gInv) phi h5
  obtain ⟨t0, e2, l2, -, -, -, -, a2⟩ := izip_at (fun t h : XF ℝ => t + .fin 0.0065 * h) tstar _ c1.lab lh
  obtain ⟨d1, e3, l3, -, -, -, -, a3⟩ := izip_at (fun ts t0 : XF ℝ => XF.le ts (.fin 290.5) && XF.lt (.fin 290.5) t0) tstar t0 c1.lab l2
  obtain ⟨v1, e4, l4, -, -, -, -, a4⟩ := izip_at (fun phi ts : XF ℝ => .fin Rd / phi * (.fin 290.5 - ts)) phi tstar h5 c1.lab
  obtain ⟨d2, e6, l6, -, -, -, -, a6⟩ := izip_at (fun ts t0 : XF ℝ => XF.lt (.fin 290.5) ts && XF.lt (.fin 290.5) t0) tstar t0 c1.lab l2
  obtain ⟨lg, e9, l9, -, -, -, -, a9⟩ := izip_at (fun lev ps : XF ℝ => XF.log (lev / ps)) lev ps h2 h4
  unfold geoHeightExtrapolateIdx at h
  simp only [e1, e2, e3, e4, e6, e9, bind, Except.bind] at h
  split at h
  · cases h
  rename_i al1 e5
  obtain ⟨l5, -, -, -, a5⟩ := zexact_at _ _ _ l3 l4 _ e5
  split at h
  · cases h
  rename_i al e7
  obtain ⟨l7, -, -, -, a7⟩ := zexact_at _ _ _ l6 l5 _ e7
  split at h
  · cases h
  rename_i ts2 e8
  obtain ⟨l8, -, -, -, a8⟩ := zexact_at _ _ _ l6 c1.lab _ e8
  have lt3 := labelled_map (fun ts : XF ℝ => XF.sel (XF.lt ts (.fin 255)) (.fin 0.5 * (ts + .fin 255)) ts) ts2 l8
  obtain ⟨an, e10, l10, -, -, -, -, a10⟩ := izip_at (fun a l : XF ℝ => a * l) al lg l7 l9
  obtain ⟨q1, e11, l11, -, -, -, -, a11⟩ := izip_at (fun ts l : XF ℝ => .fin Rd * ts * .fin gInv * l) _ lg lt3 l9
  obtain ⟨q2, e12, l12, -, -, -, -, a12⟩ := izip_at (fun s alnp : XF ℝ => s * (.fin 1 + .fin 0.5 * alnp + .fin (1 / 6) * (alnp * alnp))) q1 an l11 l10
  obtain ⟨r', e13, l13, -, -, -, -, a13⟩ := izip_at (fun h s : XF ℝ => h - s) _ q2 lh l12
  simp only [e10, e11, e12, e13] at h
  cases h
  have hval : ∀ pt t l p s f, At tBot pt t → At lev pt l → At pSfc pt p → At ps pt s → At phi pt f → At r pt (geoHeightExtrapolate t l p s f) := by
    intro pt t l p s f ht hl hp hs hf
    have k1 := c1.val pt t l p s f ht hl hp hs hf
    have kh := (at_map (fun phi : XF ℝ => phi * .fin gInv) phi pt _).mpr ⟨f, hf, rfl⟩
    have k2 := (a2 pt _).mpr ⟨_, _, k1, kh, rfl⟩
    have k3 := (a3 pt _).mpr ⟨_, _, k1, k2, rfl⟩
    have k4 := (a4 pt _).mpr ⟨_, _, hf, k1, rfl⟩
    have k5 := (a5 pt _).mpr ⟨_, _, k3, k4, rfl⟩
    have k6 := (a6 pt _).mpr ⟨_, _, k1, k2, rfl⟩
    have k7 := (a7 pt _).mpr ⟨_, _, k6, k5, rfl⟩
    have k8 := (a8 pt _).mpr ⟨_, _, k6, k1, rfl⟩
    have kt := (at_map (fun ts : XF ℝ => XF.sel (XF.lt ts (.fin 255)) (.fin 0.5 * (ts + .fin 255)) ts) ts2 pt _).mpr ⟨_, k8, rfl⟩
    have k9 := (a9 pt _).mpr ⟨_, _, hl, hs, rfl⟩
    have k10 := (a10 pt _).mpr ⟨_, _, k7, k9, rfl⟩
    have k11 := (a11 pt _).mpr ⟨_, _, kt, k9, rfl⟩
    have k12 := (a12 pt _).mpr ⟨_, _, k11, k10, rfl⟩
    exact (a13 pt _).mpr ⟨_, _, kh, k12, rfl⟩
  refine ⟨l13, ?_⟩
  intro pt v
  constructor
  · intro hv
    obtain ⟨hh, s', hhh, hs', -⟩ := (a13 pt v).mp hv
    obtain ⟨f, hf, -⟩ := (at_map _ _ pt _).mp hhh
    obtain ⟨x1, x2, hx1, hx2, -⟩ := (a12 pt _).mp hs'
    obtain ⟨y1, y2, hy1, hy2, -⟩ := (a11 pt _).mp hx1
    obtain ⟨z, hz, -⟩ := (at_map _ _ pt _).mp hy1
    obtain ⟨u1, u2, -, hu2, -⟩ := (a8 pt _).mp hz
    obtain ⟨⟨t, ht⟩, ⟨p, hp⟩, ⟨s, hs⟩⟩ := s1 pt _ hu2
    obtain ⟨l, w, hl, -, -⟩ := (a9 pt _).mp hy2
    exact ⟨t, l, p, s, f, ht, hl, hp, hs, hf, at_unique _ l13 pt _ _ hv (hval pt t l p s f ht hl hp hs hf)⟩
  · rintro ⟨t, l, p, s, f, ht, hl, hp, hs, hf, rfl⟩
    exact hval pt t l p s f ht hl hp hs hf

/-! ### arrays whose labels agree -/

section
variable {K : Type} [Field K] [LinearOrder K] [IsStrictOrderedRing K] {α β γ : Type}

/-- `a` is labelled, and its labels are those of `S` -/
structure Follows (S : String → Option (List K)) (a : IArr K α) : Prop where
  lab : Labelled a
  idx : ∀ d ∈ a.arr.dims, a.index d = S d

theorem izip_index_right (f : α → β → γ) (a : IArr K α) (b : IArr K β) (r : IArr K γ) (h : IArr.zip f a b = .ok r) (d : String) (hd : d ∉ a.arr.dims) :
    r.index d = b.index d := by
  unfold IArr.zip at h
  simp only [bind, Except.bind] at h
  split at h
  · cases h
  cases h
  simp [IArr.joined, IArr.joinDim, hd]

theorem follows_map (S : String → Option (List K)) (f : α → β) (a : IArr K α) (h : Follows S a) : Follows S (a.map f) :=
  ⟨labelled_map f a h.lab, h.idx⟩

theorem izip_follows (S : String → Option (List K)) (f : α → β → γ) (a : IArr K α) (b : IArr K β) (ha : Follows S a) (hb : Follows S b) :
    ∃ r, IArr.zip f a b = .ok r ∧ Follows S r := by
  obtain ⟨r, e, l, -, m, i1, i2, -⟩ := izip_at f a b ha.lab hb.lab
  refine ⟨r, e, l, ?_⟩
  intro d hd
  by_cases hda : d ∈ a.arr.dims
  · by_cases hdb : d ∈ b.arr.dims
    · obtain ⟨la, ea, -, -⟩ := ha.lab.labels d hda
      have eb : b.index d = some la := by rw [hb.idx d hdb, ← ha.idx d hda, ea]
      rw [i1 d hda la ea hdb la eb, ← ha.idx d hda, ea]
      congr 1
      exact List.filter_eq_self.mpr (fun x hx => by simpa using hx)
    · rw [i2 d hda hdb, ha.idx d hda]
  · rw [izip_index_right f a b r e d hda, hb.idx d (((m d).mp hd).resolve_left hda)]

theorem zexact_follows (S : String → Option (List K)) (f : α → β → γ) (a : IArr K α) (b : IArr K β) (ha : Follows S a) (hb : Follows S b) :
    ∃ r, zipExact f a b = .ok r ∧ Follows S r := by
  have hc : a.arr.dims.all (fun d => !b.arr.dims.contains d || (exactOk (a.index d) (b.index d) && a.arr.size d == b.arr.size d)) = true := by
    rw [List.all_eq_true]
    intro d hda
    by_cases hdb : d ∈ b.arr.dims
    · obtain ⟨la, ea, -, sa⟩ := ha.lab.labels d hda
      obtain ⟨lb, eb, -, sb⟩ := hb.lab.labels d hdb
      have : la = lb := by
        rw [ha.idx d hda] at ea
        rw [hb.idx d hdb, ea] at eb
        injection eb
      subst this
      simp [ea, eb, exactOk, ← sa, ← sb]
    · simp [hdb]
  obtain ⟨r, hr⟩ : ∃ r, zipExact f a b = .ok r := by
    unfold zipExact
    rw [if_pos hc]
    exact ⟨_, rfl⟩
  obtain ⟨l, m, i1, i2, -⟩ := zexact_at f a b ha.lab hb.lab r hr
  refine ⟨r, hr, l, ?_⟩
  intro d hd
  rcases (m d).mp hd with h | h
  · rw [i1 d h, ha.idx d h]
  · rw [i2 d h, hb.idx d h]

theorem where3_follows (S : String → Option (List K)) (f : Bool → α → α → α) (c : IArr K Bool) (x y : IArr K α) (hc : Follows S c) (hx : Follows S x)
    (hy : Follows S y) : ∃ r, where3 f c x y = .ok r ∧ Follows S r := by
  obtain ⟨p, e1, f1⟩ := zexact_follows S Prod.mk c x hc hx
  obtain ⟨r, e2, f2⟩ := zexact_follows S (fun p y => f p.1 p.2 y) p y f1 hy
  refine ⟨r, ?_, f2⟩
  unfold where3
  simp only [e1, bind, Except.bind]
  exact e2

end

theorem tStar_follows (S : String → Option (List ℝ)) (tBot pSfc ps : XArr) (h1 : Follows S tBot) (h3 : Follows S pSfc) (h4 : Follows S ps) :
    ∃ r, tStarIdx tBot pSfc ps = .ok r ∧ Follows S r := by
  obtain ⟨q, e1, f1⟩ := izip_follows S (fun ps p : XF ℝ => ps / p) ps pSfc h4 h3
  obtain ⟨r, e2, f2⟩ := izip_follows S (fun t r : XF ℝ => t * (.fin 1 + .fin alphaLapse * (r - .fin 1))) tBot q h1 f1
  refine ⟨r, ?_, f2⟩
  unfold tStarIdx
  simp only [e1, bind, Except.bind]
  exact e2

/-- with labels that agree `_temp_extrapolate` succeeds -/
theorem temp_follows (S : String → Option (List ℝ)) (tBot lev pSfc ps phi : XArr) (h1 : Follows S tBot) (h2 : Follows S lev) (h3 : Follows S pSfc)
    (h4 : Follows S ps) (h5 : Follows S phi) : ∃ r, tempExtrapolateIdx tBot lev pSfc ps phi = .ok r ∧ Follows S r := by
  obtain ⟨tstar, e1, c1⟩ := tStar_follows S tBot pSfc ps h1 h3 h4
  have lh := follows_map S (fun phi : XF ℝ => phi * .fin gInv) phi h5
  obtain ⟨t0, e2, l2⟩ := izip_follows S (fun t h : XF ℝ => t + .fin 0.0065 * h) tstar _ c1 lh
  have lp := follows_map S (npMinimum (.fin 298)) t0 l2
  obtain ⟨a, e3, l3⟩ := izip_follows S (fun h t0 : XF ℝ => (.fin 2500 - h) * t0) _ t0 lh l2
  obtain ⟨b, e4, l4⟩ := izip_follows S (fun h tp : XF ℝ => (h - .fin 2000) * tp) _ _ lh lp
  obtain ⟨ab, e5, l5⟩ := izip_follows S (fun a b : XF ℝ => .fin 0.002 * (a + b)) a b l3 l4
  obtain ⟨tp1, e6, l6⟩ := zexact_follows S (fun h ab : XF ℝ => XF.sel (XF.le (.fin 2000) h && XF.le h (.fin 2500)) ab .nan) _ ab lh l5
  obtain ⟨tp, e7, l7⟩ := where3_follows S XF.sel _ _ tp1 (follows_map S (fun h : XF ℝ => XF.lt (.fin 2500) h) _ lh) lp l6
  obtain ⟨lg, e8, l8⟩ := izip_follows S (fun lev ps : XF ℝ => XF.log (lev / ps)) lev ps h2 h4
  obtain ⟨q1, e9, l9⟩ := izip_follows S (fun tp ts : XF ℝ => .fin Rd * (tp - ts)) tp tstar l7 c1
  obtain ⟨q2, e10, l10⟩ := izip_follows S (fun q phi : XF ℝ => q / phi) q1 phi l9 h5
  obtain ⟨q3, e11, l11⟩ := izip_follows S (fun q l : XF ℝ => q * l) q2 lg l10 l8
  obtain ⟨al1, e12, l12⟩ := where3_follows S XF.sel _ _ q3 (follows_map S (fun h : XF ℝ => XF.lt h (.fin 2000)) _ lh)
    (follows_map S (fun l : XF ℝ => .fin alphaLapse * l) _ l8) l11
  obtain ⟨c, e13, l13⟩ := izip_follows S (fun tp ts : XF ℝ => XF.lt tp ts) tp tstar l7 c1
  obtain ⟨al, e14, l14⟩ := zexact_follows S (fun (c : Bool) (a : XF ℝ) => XF.sel c (.fin 0) a) c al1 l13 l12
  obtain ⟨r, e15, l15⟩ := izip_follows S (fun tstar alnp : XF ℝ => tstar * (.fin 1 + alnp + .fin 0.5 * (alnp * alnp) + .fin (1 / 6) * (alnp * alnp * alnp)))
    tstar al c1 l14
  refine ⟨r, ?_, l15⟩
  unfold tempExtrapolateIdx
  simp only [e1, e2, e3, e4, e5, e6, e7, e8, e9, e10, e11, e12, e13, e14, bind, Except.bind]
  exact e15

/-- with labels that agree `_geo_height_extrapolate` succeeds -/
theorem geo_follows (S : String → Option (List ℝ)) (tBot lev pSfc ps phi : XArr) (h1 : Follows S tBot) (h2 : Follows S lev) (h3 : Follows S pSfc)
    (h4 : Follows S ps) (h5 : Follows S phi) : ∃ r, geoHeightExtrapolateIdx tBot lev pSfc ps phi = .ok r ∧ Follows S r := by
  obtain ⟨tstar, e1, c1⟩ := tStar_follows S tBot pSfc ps h1 h3 h4
  have lh := follows_map S (fun phi : XF ℝ => phi * .fin gInv) phi h5
  obtain ⟨t0, e2, l2⟩ := izip_follows S (fun t h : XF ℝ => t + .fin 0.0065 * h) tstar _ c1 lh
  obtain ⟨d1, e3, l3⟩ := izip_follows S (fun ts t0 : XF ℝ => XF.le ts (.fin 290.5) && XF.lt (.fin 290.5) t0) tstar t0 c1 l2
  obtain ⟨v1, e4, l4⟩ := izip_follows S (fun phi ts : XF ℝ => .fin Rd / phi * (.fin 290.5 - ts)) phi tstar h5 c1
  obtain ⟨al1, e5, l5⟩ := zexact_follows S (fun (c : Bool) (v : XF ℝ) => XF.sel c v (.fin alphaLapse)) d1 v1 l3 l4
  obtain ⟨d2, e6, l6⟩ := izip_follows S (fun ts t0 : XF ℝ => XF.lt (.fin 290.5) ts && XF.lt (.fin 290.5) t0) tstar t0 c1 l2
  obtain ⟨al, e7, l7⟩ := zexact_follows S (fun (c : Bool) (a : XF ℝ) => XF.sel c (.fin 0) a) d2 al1 l6 l5
  obtain ⟨ts2, e8, l8⟩ := zexact_follows S (fun (c : Bool) (ts : XF ℝ) => XF.sel c (.fin 0.5 * (.fin 290.5 + ts)) ts) d2 tstar l6 c1
  have lt3 := follows_map S (fun ts : XF ℝ => XF.sel (XF.lt ts (.fin 255)) (.fin 0.5 * (ts + .fin 255)) ts) ts2 l8
  obtain ⟨lg, e9, l9⟩ := izip_follows S (fun lev ps : XF ℝ => XF.log (lev / ps)) lev ps h2 h4
  obtain ⟨an, e10, l10⟩ := izip_follows S (fun a l : XF ℝ => a * l) al lg l7 l9
  obtain ⟨q1, e11, l11⟩ := izip_follows S (fun ts l : XF ℝ => .fin Rd * ts * .fin gInv * l) _ lg lt3 l9
  obtain ⟨q2, e12, l12⟩ := izip_follows S (fun s alnp : XF ℝ => s * (.fin 1 + .fin 0.5 * alnp + .fin (1 / 6) * (alnp * alnp))) q1 an l11 l10
  obtain ⟨r, e13, l13⟩ := izip_follows S (fun h s : XF ℝ => h - s) _ q2 lh l12
  refine ⟨r, ?_, l13⟩
  unfold geoHeightExtrapolateIdx
  simp only [e1, e2, e3, e4, e5, e6, e7, e8, e9, e10, e11, e12, bind, Except.bind]
  exact e13

end Verif.Lemmas
