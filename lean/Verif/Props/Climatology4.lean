import Verif.Props.Climatology3
import Verif.Lemmas.Climatology3

/-
C40: hourly, daily and monthly climatologies.
-/

set_option linter.unusedSectionVars false

namespace Verif.Props
open Model Spec Lemmas
variable {K : Type _} [Field K] [LinearOrder K] [IsStrictOrderedRing K]

/-- the frequencies of `climatology_average` other than seasons -/
def GroupFreq (freq : String) (p : Period) : Prop :=
  (freq = "hour" ∧ p = .hour) ∨ (freq = "day" ∧ p = .day) ∨ (freq = "month" ∧ p = .month)

theorem GroupFreq.simple {freq : String} {p : Period} (h : GroupFreq freq p) : simple p := by
  rcases h with ⟨-, h⟩ | ⟨-, h⟩ | ⟨-, h⟩
  · exact Or.inl h
  · exact Or.inr (Or.inl h)
  · exact Or.inr (Or.inr h)

theorem climatology_group (cal : Cal) (infer : InferFreq) (freq : String) (p : Period) (hf : GroupFreq freq p) (custom : List String) (s : Series K)
    (hi : s.isTime = true) (hu : checkUniform cal infer s = .ok ()) :
    climatologyAverage cal infer freq custom s = (groupClimate cal p s).map .times := by
  have key : ∀ freq p, climatologyPeriod freq = .ok p → p ≠ .season →
      climatologyAverage cal infer freq custom s = (groupClimate cal p s).map .times := by
    intro freq p h hne
    unfold climatologyAverage
    simp only [h, bind, Except.bind, hi, hu, not_true_eq_false, if_false, if_neg hne]
    cases groupClimate cal p s <;> rfl
  rcases hf with ⟨rfl, rfl⟩ | ⟨rfl, rfl⟩ | ⟨rfl, rfl⟩ <;> exact key _ _ rfl (by decide)

theorem climatology_group_ok (cal : Cal) (infer : InferFreq) (freq : String) (p : Period) (hf : GroupFreq freq p) (custom : List String) (s : Series K)
    (out : ClimOut K) (h : climatologyAverage cal infer freq custom s = .ok out) :
    s.isTime = true ∧ checkUniform cal infer s = .ok () ∧ ∃ l, out = .times l ∧ groupClimate cal p s = .ok l := by
  have key : ∀ freq p, climatologyPeriod freq = .ok p → p ≠ .season → climatologyAverage cal infer freq custom s = .ok out →
      s.isTime = true ∧ checkUniform cal infer s = .ok () ∧ ∃ l, out = .times l ∧ groupClimate cal p s = .ok l := by
    intro freq p hp hne h
    unfold climatologyAverage at h
    simp only [hp, bind, Except.bind, if_neg hne] at h
    cases hi : s.isTime with
    | false => simp [hi, throw, throwThe, MonadExceptOf.throw] at h
    | true =>
      simp only [hi, not_true_eq_false, if_false] at h
      cases hu : checkUniform cal infer s with
      | error e => rw [hu] at h; cases h
      | ok u =>
        rw [hu] at h
        cases hg : groupClimate cal p s with
        | error e => rw [hg] at h; cases h
        | ok l =>
          rw [hg] at h
          injection h with h
          exact ⟨rfl, rfl, l, h.symm, rfl⟩
  rcases hf with ⟨rfl, rfl⟩ | ⟨rfl, rfl⟩ | ⟨rfl, rfl⟩ <;> exact key _ _ rfl (by decide) h

/-- the label with a given key -/
def decodeKey (p : Period) (k : ℤ) : ℤ × ℤ × ℤ :=
  match p with
  | .hour => (k / 10000, k / 100 % 100, k % 100)
  | .day => (k / 100, k % 100, 0)
  | _ => (k, 0, 0)

theorem decode_stamp (cal : Cal) (p : Period) (hp : simple p) (t : ℤ) : decodeKey p (stampKey cal p t) = stamp cal p t := by
  have a := month_range cal t
  obtain ⟨c1, c2, c3⟩ := day_range cal t
  have e := hour_range t
  rcases hp with rfl | rfl | rfl <;> simp only [decodeKey, stampKey, stamp, Prod.mk.injEq, and_true] <;> omega

theorem groupValue_eq (cal : Cal) (p : Period) (hp : simple p) (l : List (Entry K)) (t : ℤ) (c : ℕ) :
    groupValue (stampKey cal p) l (stampKey cal p t) c = mean (valuesIn l (fun t' => stamp cal p t' = stamp cal p t) c) := by
  unfold groupValue nanMean mean valuesIn
  have : l.filter (fun e => decide (stampKey cal p e.key = stampKey cal p t)) = l.filter (fun e => decide (stamp cal p e.key = stamp cal p t)) :=
    List.filter_congr fun e _ => by
      rw [Bool.eq_iff_iff, decide_eq_true_iff, decide_eq_true_iff]
      exact stampKey_eq cal p hp _ _
  rw [this]

/-- the periods of year `y` with the labels of the data -/
theorem period_map (cal : Cal) (p : Period) (hp : simple p) (l : List (Entry K)) (y : ℤ)
    (hvalid : ∀ e ∈ l, ∃ t, cal.year t = y ∧ stamp cal p t = stamp cal p e.key) :
    ∃ per : ℤ → ℤ, (∀ k ∈ sortedKeys (stampKey cal p) l, keyPeriod cal p y k = .ok (per k)) ∧
      (∀ k ∈ sortedKeys (stampKey cal p) l, cal.year (periodStart cal p (per k)) = y ∧ stampKey cal p (periodStart cal p (per k)) = k ∧
        periodOf cal p (periodStart cal p (per k)) = per k) ∧
      ∀ k ∈ sortedKeys (stampKey cal p) l, ∀ k' ∈ sortedKeys (stampKey cal p) l, k < k' → per k < per k' := by
  have hmem := mem_sortedKeys (stampKey cal p) l
  generalize sortedKeys (stampKey cal p) l = keys at *
  have hper : ∀ k ∈ keys, ∃ b, keyPeriod cal p y k = .ok b := by
    intro k hk
    obtain ⟨e, he, rfl⟩ := (hmem k).mp hk
    obtain ⟨t, ht, hst⟩ := hvalid e he
    rw [← (stampKey_eq cal p hp t e.key).mpr hst]
    exact ⟨_, keyPeriod_valid cal p hp t y ht⟩
  let per : ℤ → ℤ := fun k => match keyPeriod cal p y k with | .ok b => b | .error _ => 0
  have hperk : ∀ k ∈ keys, keyPeriod cal p y k = .ok (per k) := by
    intro k hk
    obtain ⟨b, hb⟩ := hper k hk
    simp only [per, hb]
  have hback : ∀ k ∈ keys, cal.year (periodStart cal p (per k)) = y ∧ stampKey cal p (periodStart cal p (per k)) = k ∧
      periodOf cal p (periodStart cal p (per k)) = per k := by
    intro k hk
    obtain ⟨e, he, rfl⟩ := (hmem k).mp hk
    exact keyPeriod_back cal p hp e.key y _ (hperk _ hk)
  refine ⟨per, hperk, hback, ?_⟩
  intro k hk k' hk' hlt
  obtain ⟨a1, a2, a3⟩ := hback k hk
  obtain ⟨c1, c2, c3⟩ := hback k' hk'
  rw [← a2, ← c2, stampKey_mono cal p hp _ _ (by rw [a1, c1]), a3, c3] at hlt
  exact hlt

/-- C40: if `climatology_average` with 'hour', 'day' or 'month' returns, there is one entry per calendar label that occurs in the data,
in calendar order, and its value in each cell is the mean of all samples with that label. If every label exists in the median year,
each entry is stamped with the centre of the period of the median year with its label. -/
theorem C40_groups_partial (cal : Cal) (infer : InferFreq) (freq : String) (p : Period) (hf : GroupFreq freq p) (custom : List String) (s : Series K)
    (out : ClimOut K) (h : climatologyAverage cal infer freq custom s = .ok out) :
    ∃ (l : List (Entry K)) (st : List (ℤ × ℤ × ℤ)), out = .times l ∧ l.length = st.length ∧ st.Pairwise before ∧
      (∀ x, x ∈ st ↔ ∃ e ∈ s.samples, stamp cal p e.key = x) ∧
      (∀ (i : ℕ) (o : Entry K) (x : ℤ × ℤ × ℤ), l[i]? = some o → st[i]? = some x → ∀ c, o.val c = mean (valuesIn s.samples (fun t => stamp cal p t = x) c)) ∧
      ((∀ e ∈ s.samples, ∃ t, cal.year t = medianYear cal s.samples ∧ stamp cal p t = stamp cal p e.key) →
        ∀ (i : ℕ) (o : Entry K) (x : ℤ × ℤ × ℤ), l[i]? = some o → st[i]? = some x → ∃ b, o.key = (periodStart cal p b + periodStart cal p (b + 1)) / 2 ∧
          cal.year (periodStart cal p b) = medianYear cal s.samples ∧ stamp cal p (periodStart cal p b) = x ∧
          cal.year o.key = medianYear cal s.samples ∧ stamp cal p o.key = x) := by
  have hp := hf.simple
  obtain ⟨-, -, l, hout, hg⟩ := climatology_group_ok cal infer freq p hf custom s out h
  obtain ⟨a, z, b0, b1, ha, hz, hy, h0, h1, hlen, hl⟩ := groupClimate_ok cal p s l hg
  have hsort := sortedKeys_sorted (stampKey cal p) s.samples
  have hmem := mem_sortedKeys (stampKey cal p) s.samples
  have hpermap := period_map cal p hp s.samples (medianYear cal s.samples)
  generalize sortedKeys (stampKey cal p) s.samples = keys at *
  refine ⟨l, keys.map (decodeKey p), hout, ?_, ?_, ?_, ?_, ?_⟩
  · rw [hl, List.length_zipWith, hlen, Nat.min_self, List.length_map]
  · rw [List.pairwise_map]
    refine hsort.imp_of_mem ?_
    intro x y hx hy hxy
    obtain ⟨e, -, rfl⟩ := (hmem x).mp hx
    obtain ⟨e', -, rfl⟩ := (hmem y).mp hy
    rw [decode_stamp cal p hp, decode_stamp cal p hp, ← stampKey_lt cal p hp]
    exact hxy
  · intro x
    rw [List.mem_map]
    constructor
    · rintro ⟨k, hk, rfl⟩
      obtain ⟨e, he, rfl⟩ := (hmem k).mp hk
      exact ⟨e, he, (decode_stamp cal p hp _).symm⟩
    · rintro ⟨e, he, rfl⟩
      exact ⟨_, (hmem _).mpr ⟨e, he, rfl⟩, decode_stamp cal p hp _⟩
  · intro i o x ho hx c
    rw [List.getElem?_map, Option.map_eq_some_iff] at hx
    obtain ⟨k, hk, rfl⟩ := hx
    rw [hl, List.getElem?_zipWith, hk] at ho
    cases hb : (periodRange b0 b1)[i]? with
    | none => rw [hb] at ho; simp at ho
    | some b =>
      rw [hb] at ho
      simp only [Option.some.injEq] at ho
      subst ho
      obtain ⟨e, -, rfl⟩ := (hmem k).mp (List.mem_of_getElem? hk)
      simp only
      rw [groupValue_eq cal p hp, decode_stamp cal p hp]
  · intro hvalid i o x ho hx
    rw [List.getElem?_map, Option.map_eq_some_iff] at hx
    obtain ⟨k, hk, rfl⟩ := hx
    set y := medianYear cal s.samples with hydef
    obtain ⟨per, hperk, hback, hmono⟩ := hpermap hvalid
    have hka : a ∈ keys := List.mem_of_mem_head? ha
    have hkz : z ∈ keys := List.mem_of_getLast? hz
    have hpa : per a = b0 := by
      have := hperk a hka
      rw [h0] at this
      injection this with this
      exact this.symm
    have hpz : per z = b1 := by
      have := hperk z hkz
      rw [h1] at this
      injection this with this
      exact this.symm
    have hrange : keys.map per = periodRange b0 b1 := by
      refine range_of_length _ _ _ ?_ ?_ ?_
      · rw [List.pairwise_map]
        exact hsort.imp_of_mem (fun hx hy hxy => hmono _ hx _ hy hxy)
      · intro x hx
        rw [List.mem_map] at hx
        obtain ⟨k, hk, rfl⟩ := hx
        have hb := head_last_bounds (fun x : ℤ => x) keys (hsort.imp le_of_lt) a z ha hz k hk
        rw [← hpa, ← hpz]
        constructor
        · rcases eq_or_lt_of_le hb.1 with e | e
          · rw [e]
          · exact (hmono a hka k hk e).le
        · rcases eq_or_lt_of_le hb.2 with e | e
          · rw [e]
          · exact (hmono k hk z hkz e).le
      · rw [List.length_map, hlen]
    have hi : (periodRange b0 b1)[i]? = some (per k) := by
      rw [← hrange, List.getElem?_map, hk]
      rfl
    rw [hl, List.getElem?_zipWith, hk, hi] at ho
    simp only [Option.some.injEq] at ho
    subst ho
    have hkm := List.mem_of_getElem? hk
    obtain ⟨a1, a2, a3⟩ := hback k hkm
    obtain ⟨e, he, hek⟩ := (hmem k).mp hkm
    have hst : stamp cal p (periodStart cal p (per k)) = decodeKey p k := by
      rw [show decodeKey p k = stamp cal p e.key by rw [← hek, decode_stamp cal p hp], ← stampKey_eq cal p hp, a2, hek]
    have hcen := center_same cal p hp (per k) a3
    exact ⟨per k, rfl, a1, hst, by rw [← a1]; exact hcen.1, by rw [← hst]; exact hcen.2⟩

theorem nanMean_perm (c : ℕ) (g g' : List (Entry K)) (h : g.Perm g') : nanMean c g = nanMean c g' := by
  have hp := h.filterMap (fun e => e.val c)
  unfold nanMean
  rw [hp.sum_eq, hp.length_eq]
  by_cases hg : g.filterMap (fun e => e.val c) = []
  · have hg' : g'.filterMap (fun e => e.val c) = [] := by rw [hg] at hp; exact hp.nil_eq.symm
    rw [if_pos hg, if_pos hg']
  · have hg' : g'.filterMap (fun e => e.val c) ≠ [] := by
      intro h0
      rw [h0] at hp
      exact hg hp.eq_nil
    rw [if_neg hg, if_neg hg']

/-- C40: the order of the samples does not matter: two calls on the same samples in different order that both return give the same
result. -/
theorem C40_order (cal : Cal) (infer : InferFreq) (freq : String) (p : Period) (hf : GroupFreq freq p) (custom : List String) (s s' : Series K)
    (hperm : s.samples.Perm s'.samples) (out out' : ClimOut K) (h : climatologyAverage cal infer freq custom s = .ok out)
    (h' : climatologyAverage cal infer freq custom s' = .ok out') : out = out' := by
  obtain ⟨-, -, l, hout, hg⟩ := climatology_group_ok cal infer freq p hf custom s out h
  obtain ⟨-, -, l', hout', hg'⟩ := climatology_group_ok cal infer freq p hf custom s' out' h'
  obtain ⟨a, z, b0, b1, ha, hz, -, h0, h1, -, hl⟩ := groupClimate_ok cal p s l hg
  obtain ⟨a', z', b0', b1', ha', hz', -, h0', h1', -, hl'⟩ := groupClimate_ok cal p s' l' hg'
  have hkeys : sortedKeys (stampKey cal p) s.samples = sortedKeys (stampKey cal p) s'.samples := by
    refine sorted_ext (sortedKeys_sorted _ _) (sortedKeys_sorted _ _) fun x => ?_
    rw [mem_sortedKeys, mem_sortedKeys]
    constructor
    · rintro ⟨e, he, hx⟩; exact ⟨e, hperm.mem_iff.mp he, hx⟩
    · rintro ⟨e, he, hx⟩; exact ⟨e, hperm.mem_iff.mpr he, hx⟩
  have hmed : medianYear cal s.samples = medianYear cal s'.samples := by
    unfold medianYear median2
    have : (s.samples.map (fun e => cal.year e.key)).insertionSort (· ≤ ·) = (s'.samples.map (fun e => cal.year e.key)).insertionSort (· ≤ ·) :=
      List.Perm.eq_of_pairwise (le := (· ≤ ·)) (fun a b _ _ h1 h2 => le_antisymm h1 h2) (List.pairwise_insertionSort _ _) (List.pairwise_insertionSort _ _)
        ((List.perm_insertionSort _ _).trans ((hperm.map _).trans (List.perm_insertionSort _ _).symm))
    rw [this]
  rw [hkeys, ha'] at ha
  rw [hkeys, hz'] at hz
  injection ha with ha
  injection hz with hz
  subst ha hz
  rw [hmed, h0'] at h0
  rw [hmed, h1'] at h1
  injection h0 with h0
  injection h1 with h1
  subst h0 h1
  have hval : ∀ k c, groupValue (stampKey cal p) s.samples k c = groupValue (stampKey cal p) s'.samples k c := fun k c =>
    nanMean_perm c _ _ (hperm.filter _)
  rw [hout, hout', hl, hl', hkeys]
  simp only [hval]

/-- C40: when the call returns at all. If every label of the data exists in the median year (1000 to 99999), the call succeeds exactly if
no label between the first and the last label is missing; otherwise it raises ValueError. -/
theorem C40_succeeds (cal : Cal) (infer : InferFreq) (freq : String) (p : Period) (hf : GroupFreq freq p) (custom : List String) (s : Series K)
    (hi : s.isTime = true) (hr : Regular cal infer s) (hne : s.samples ≠ [])
    (hy : 1000 ≤ medianYear cal s.samples ∧ medianYear cal s.samples ≤ 99999)
    (hvalid : ∀ e ∈ s.samples, ∃ t, cal.year t = medianYear cal s.samples ∧ stamp cal p t = stamp cal p e.key) :
    ((∃ out, climatologyAverage cal infer freq custom s = .ok out) ↔
      ∀ t, cal.year t = medianYear cal s.samples → (∃ e ∈ s.samples, ¬ before (stamp cal p t) (stamp cal p e.key)) →
        (∃ e ∈ s.samples, ¬ before (stamp cal p e.key) (stamp cal p t)) → ∃ e ∈ s.samples, stamp cal p e.key = stamp cal p t) ∧
    ((∃ out, climatologyAverage cal infer freq custom s = .ok out) ∨ climatologyAverage cal infer freq custom s = .error .valueError) := by
  have hu := (uniform_iff cal infer s).mpr hr
  have hp := hf.simple
  rw [climatology_group cal infer freq p hf custom s hi hu]
  obtain ⟨a, ha⟩ : ∃ a, (sortedKeys (stampKey cal p) s.samples).head? = some a := by
    cases hh : (sortedKeys (stampKey cal p) s.samples).head? with
    | none => exact absurd (List.head?_eq_none_iff.mp hh) (sortedKeys_nil _ _ hne)
    | some a => exact ⟨a, rfl⟩
  obtain ⟨z, hz⟩ : ∃ z, (sortedKeys (stampKey cal p) s.samples).getLast? = some z := by
    cases hh : (sortedKeys (stampKey cal p) s.samples).getLast? with
    | none => exact absurd (List.getLast?_eq_none_iff.mp hh) (sortedKeys_nil _ _ hne)
    | some z => exact ⟨z, rfl⟩
  rw [groupClimate_eq cal p s a z ha hz, if_neg (not_not.mpr hy)]
  obtain ⟨per, hperk, hback, hmono⟩ := period_map cal p hp s.samples (medianYear cal s.samples) hvalid
  have hsort := sortedKeys_sorted (stampKey cal p) s.samples
  have hmem := mem_sortedKeys (stampKey cal p) s.samples
  generalize sortedKeys (stampKey cal p) s.samples = keys at *
  have hka : a ∈ keys := List.mem_of_mem_head? ha
  have hkz : z ∈ keys := List.mem_of_getLast? hz
  rw [hperk a hka, hperk z hkz]
  simp only [Except.bind]
  have hsort' : (keys.map per).Pairwise (· < ·) := by
    rw [List.pairwise_map]
    exact hsort.imp_of_mem (fun hx hy hxy => hmono _ hx _ hy hxy)
  have hle : ∀ k ∈ keys, ∀ k' ∈ keys, k ≤ k' → per k ≤ per k' := by
    intro k hk k' hk' h
    rcases eq_or_lt_of_le h with e | e
    · rw [e]
    · exact (hmono k hk k' hk' e).le
  have hbound : ∀ k ∈ keys, a ≤ k ∧ k ≤ z := fun k hk => head_last_bounds (fun x : ℤ => x) keys (hsort.imp le_of_lt) a z ha hz k hk
  have hwithin : ∀ x ∈ keys.map per, per a ≤ x ∧ x ≤ per z := by
    intro x hx
    rw [List.mem_map] at hx
    obtain ⟨k, hk, rfl⟩ := hx
    exact ⟨hle a hka k hk (hbound k hk).1, hle k hk z hkz (hbound k hk).2⟩
  -- a label of the median year lies between two labels of the data iff its period does
  have key : (periodRange (per a) (per z)).length = keys.length ↔
      ∀ t, cal.year t = medianYear cal s.samples → (∃ e ∈ s.samples, ¬ before (stamp cal p t) (stamp cal p e.key)) →
        (∃ e ∈ s.samples, ¬ before (stamp cal p e.key) (stamp cal p t)) → ∃ e ∈ s.samples, stamp cal p e.key = stamp cal p t := by
    constructor
    · intro hlen t ht hge hle'
      have hr := range_of_length (keys.map per) (per a) (per z) hsort' hwithin (by rw [List.length_map, hlen])
      obtain ⟨e, he, hee⟩ := hge
      obtain ⟨e', he', hee'⟩ := hle'
      rw [← stampKey_lt cal p hp, not_lt] at hee hee'
      have b1 := (hbound _ ((hmem _).mpr ⟨e, he, rfl⟩)).1
      have b2 := (hbound _ ((hmem _).mpr ⟨e', he', rfl⟩)).2
      obtain ⟨a1, a2, a3⟩ := hback a hka
      obtain ⟨z1, z2, z3⟩ := hback z hkz
      have c1 : per a ≤ periodOf cal p t := by
        rw [← a3, ← not_lt, ← stampKey_mono cal p hp _ _ (by rw [a1, ht]), a2]
        omega
      have c2 : periodOf cal p t ≤ per z := by
        rw [← z3, ← not_lt, ← stampKey_mono cal p hp _ _ (by rw [z1, ht]), z2]
        omega
      have : periodOf cal p t ∈ keys.map per := by rw [hr, mem_periodRange]; exact ⟨c1, c2⟩
      rw [List.mem_map] at this
      obtain ⟨k, hk, hkt⟩ := this
      obtain ⟨k1, k2, k3⟩ := hback k hk
      have hkey : stampKey cal p t = k := by
        rw [← k2]
        apply le_antisymm
        · rw [← not_lt, stampKey_mono cal p hp _ _ (by rw [k1, ht]), k3, hkt]
          exact lt_irrefl _
        · rw [← not_lt, stampKey_mono cal p hp _ _ (by rw [k1, ht]), k3, hkt]
          exact lt_irrefl _
      obtain ⟨e2, he2, hek⟩ := (hmem k).mp hk
      exact ⟨e2, he2, (stampKey_eq cal p hp _ _).mp (by rw [hek, hkey])⟩
    · intro hgap
      have hr : keys.map per = periodRange (per a) (per z) := by
        refine sorted_ext hsort' (periodRange_sorted _ _) fun b => ?_
        rw [mem_periodRange]
        refine ⟨hwithin b, fun hb => ?_⟩
        obtain ⟨a1, a2, a3⟩ := hback a hka
        obtain ⟨z1, z2, z3⟩ := hback z hkz
        obtain ⟨b1, b2⟩ := period_between cal p hp (per a) (per z) b _ a1 z1 a3 z3 hb.1 hb.2
        obtain ⟨ea, hea, heak⟩ := (hmem a).mp hka
        obtain ⟨ez, hez, hezk⟩ := (hmem z).mp hkz
        obtain ⟨e, he, hest⟩ := hgap (periodStart cal p b) b1
          ⟨ea, hea, by rw [← stampKey_lt cal p hp, not_lt, heak, ← a2, ← not_lt, stampKey_mono cal p hp _ _ (by rw [a1, b1]), a3, b2]; omega⟩
          ⟨ez, hez, by rw [← stampKey_lt cal p hp, not_lt, hezk, ← z2, ← not_lt, stampKey_mono cal p hp _ _ (by rw [z1, b1]), z3, b2]; omega⟩
        have hk : stampKey cal p e.key ∈ keys := (hmem _).mpr ⟨e, he, rfl⟩
        refine List.mem_map.mpr ⟨_, hk, ?_⟩
        have h1 := hperk _ hk
        rw [(stampKey_eq cal p hp _ _).mpr hest, keyPeriod_valid cal p hp _ _ b1, b2] at h1
        injection h1 with h1
        rw [(stampKey_eq cal p hp _ _).mpr hest]
        exact h1.symm
      rw [← hr, List.length_map]
  unfold centerBounds
  rw [List.length_map]
  by_cases hlen : (periodRange (per a) (per z)).length = keys.length
  · rw [if_pos hlen]
    exact ⟨⟨fun _ => key.mp hlen, fun _ => ⟨_, rfl⟩⟩, Or.inl ⟨_, rfl⟩⟩
  · rw [if_neg hlen]
    refine ⟨⟨?_, fun h => absurd (key.mpr h) hlen⟩, Or.inr rfl⟩
    rintro ⟨out, ho⟩
    cases ho

/-- monthly data from November to February -/
def winterMonths : Series ℚ := ⟨1, (List.range 4).map (fun i : ℕ => ⟨Cal.noleap.monthStart (24010 + i), fun _ => some i⟩), true⟩

/-- C40 is false of the code as stated: the call raises ValueError when a calendar label between the first and the last label does not
occur in the data, as for monthly data from November to February, or for 6-hourly data with `freq="hour"`. -/
theorem C40_counterexample :
    (climatologyAverage Cal.noleap (fun _ => .ok true) "month" [] winterMonths).toOption.isNone ∧
    (climatologyAverage Cal.noleap (fun _ => .ok true) "hour" []
      (⟨1, (List.range 4).map (fun i : ℕ => ⟨Cal.noleap.monthStart 24000 + 21600 * i, fun _ => some i⟩), true⟩ : Series ℚ)).toOption.isNone := by
  constructor <;> decide +kernel

/-- two years of monthly data, starting in March: labels January to December of the median year -/
def twoYears : Series ℚ := ⟨1, (List.range 24).map (fun i : ℕ => ⟨Cal.noleap.monthStart (24002 + i), fun _ => some i⟩), true⟩

def timesAt {K : Type _} (c : ℕ) : ClimOut K → List (ℤ × Option K)
  | .times l => l.map (fun e => (e.key, e.val c))
  | .seasons _ => []

example : (climatologyAverage Cal.noleap (fun _ => .ok true) "month" [] twoYears).toOption.map (fun o => (timesAt 0 o).map (·.2)) =
    some [some 16, some 17, some 6, some 7, some 8, some 9, some 10, some 11, some 12, some 13, some 14, some 15] := by decide +kernel

end Verif.Props
