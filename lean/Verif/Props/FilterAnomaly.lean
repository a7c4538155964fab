import Verif.Props.FilterField
import Verif.Props.Fourier3
import Verif.Props.MeanField
import Verif.Props.ClimCycle
import Verif.Props.Regular

/-
Property C208: filtering in time and removing the seasonal cycle can be done in either order if the record is a whole number of years
of the same length.
-/

set_option linter.unusedSectionVars false
namespace Verif.Props
open Model Spec Lemmas

/-- a record of `T` samples without gaps: `key i` is the time of sample `i`, `z i c` its value in cell `c` -/
noncomputable def gaplessRecord (T ncell : ℕ) (key : ℕ → ℤ) (z : ZMod T → ℕ → ℝ) : Series ℝ :=
  ⟨ncell, (List.range T).map fun i => ⟨key i, fun c => some (z i c)⟩, true⟩

/-- the record has these times and values, in every cell -/
def HasValues (T ncell : ℕ) (key : ℕ → ℤ) (z : ZMod T → ℕ → ℝ) (out : List (Entry ℝ)) : Prop :=
  out.length = T ∧ ∀ i < T, ∃ o, out[i]? = some o ∧ o.key = key i ∧ ∀ c < ncell, o.val c = some (z i c)

/-- every `P` samples the seasonal cycle starts again -/
def CycleLength (cal : Cal) (freq : String) (T P : ℕ) (key : ℕ → ℤ) : Prop :=
  P ∣ T ∧ ∀ i < T, ∀ j < T, SameGroup cal freq (key i) (key j) ↔ i % P = j % P

namespace FilterAnomaly

/-- the place of a sample in the cycle -/
noncomputable def phase {T P : ℕ} (hd : P ∣ T) : ZMod T →+* ZMod P := ZMod.castHom hd (ZMod P)

theorem phase_iff {T P : ℕ} (hd : P ∣ T) (i j : ℕ) : phase hd (i : ZMod T) = phase hd (j : ZMod T) ↔ i % P = j % P := by
  rw [map_natCast, map_natCast]
  exact ZMod.natCast_eq_natCast_iff' i j P

/-- sums over the samples at the same place of the cycle -/
theorem sum_group {T P : ℕ} [NeZero T] (hd : P ∣ T) (t : ZMod T) (x : ZMod T → ℝ) :
    ∑ u with phase hd u = phase hd t, x u = ∑ h with phase hd h = 0, x (t + h) := by
  refine Finset.sum_nbij' (fun u => u - t) (fun h => t + h) ?_ ?_ ?_ ?_ ?_
  · intro u hu
    simp only [Finset.mem_filter, Finset.mem_univ, true_and] at hu ⊢
    rw [map_sub, hu, sub_self]
  · intro h hh
    simp only [Finset.mem_filter, Finset.mem_univ, true_and] at hh ⊢
    rw [map_add, hh, add_zero]
  · intro u _; ring
  · intro h _; ring
  · intro u _; congr 1; ring

/-- a list of samples chosen by their place in the cycle -/
theorem sum_list {T P : ℕ} [NeZero T] (hd : P ∣ T) (i : ℕ) (p : ℕ → Prop) [DecidablePred p] (hp : ∀ j < T, p j ↔ i % P = j % P) (x : ZMod T → ℝ) :
    (((List.range T).filter (fun j => decide (p j))).map fun j : ℕ => x (j : ZMod T)).sum = ∑ h with phase hd h = 0, x ((i : ZMod T) + h) := by
  rw [← sum_group]
  have e : (((List.range T).filter (fun j => decide (p j))).map fun j : ℕ => x (j : ZMod T)).sum = ∑ j ∈ Finset.range T with p j, x (j : ZMod T) := rfl
  rw [e]
  refine Finset.sum_nbij' (fun j => (j : ZMod T)) ZMod.val ?_ ?_ ?_ ?_ ?_
  · intro j hj
    simp only [Finset.mem_filter, Finset.mem_univ, true_and, Finset.mem_range] at hj ⊢
    exact (phase_iff hd j i).mpr ((hp j hj.1).mp hj.2).symm
  · intro u hu
    simp only [Finset.mem_filter, Finset.mem_univ, true_and, Finset.mem_range] at hu ⊢
    refine ⟨ZMod.val_lt u, (hp _ (ZMod.val_lt u)).mpr ?_⟩
    have := (phase_iff hd u.val i).mp (by rw [ZMod.natCast_zmod_val]; exact hu)
    exact this.symm
  · intro j hj
    simp only [Finset.mem_filter, Finset.mem_range] at hj
    exact ZMod.val_cast_of_lt hj.1
  · intro u _; exact ZMod.natCast_zmod_val u
  · intro j _; rfl

/-- the average over the samples at the same place of the cycle -/
noncomputable def cycleMean {T P : ℕ} [NeZero T] (hd : P ∣ T) (x : ZMod T → ℝ) (t : ZMod T) : ℝ :=
  (∑ h with phase hd h = 0, x (t + h)) / ∑ h : ZMod T with phase hd h = 0, (1 : ℝ)

/-- the average of a group of the record -/
theorem mean_group {T P : ℕ} [NeZero T] (hd : P ∣ T) (ncell : ℕ) (key : ℕ → ℤ) (z : ZMod T → ℕ → ℝ) (c i : ℕ) (hi : i < T) (p : ℤ → Prop) [DecidablePred p]
    (hp : ∀ j < T, p (key j) ↔ i % P = j % P) :
    mean (valuesIn (gaplessRecord T ncell key z).samples p c) = some (cycleMean hd (fun s => z s c) i) := by
  have e : valuesIn (gaplessRecord T ncell key z).samples p c = ((List.range T).filter (fun j => decide (p (key j)))).map fun j : ℕ => z (j : ZMod T) c := by
    unfold valuesIn gaplessRecord
    simp only [List.filter_map, List.filterMap_map]
    rw [← List.filterMap_eq_map]
    rfl
  have hne : ((List.range T).filter (fun j => decide (p (key j)))).map (fun j : ℕ => z (j : ZMod T) c) ≠ [] := by
    refine List.ne_nil_of_mem (List.mem_map.mpr ⟨i, List.mem_filter.mpr ⟨List.mem_range.mpr hi, ?_⟩, rfl⟩)
    exact decide_eq_true ((hp i hi).mpr rfl)
  have h1 := sum_list hd i (fun j => p (key j)) hp (fun s => z s c)
  have h2 := sum_list hd i (fun j => p (key j)) hp (fun _ => 1)
  rw [e]
  unfold mean
  rw [if_neg hne]
  unfold cycleMean
  rw [h1, ← h2]
  simp

/-- the average over a cycle is filtered like the samples -/
theorem filter_cycleMean {T P : ℕ} [NeZero T] (hd : P ∣ T) (fl : Flags) (f cl ch : ℝ) (hf : 0 < f) (h1 : 0 ≤ cl) (h2 : 0 ≤ ch) (x : ZMod T → ℝ) (t : ZMod T) :
    fourierFilter fl f cl ch (fun s => x s - cycleMean hd x s) t = fourierFilter fl f cl ch x t - cycleMean hd (fourierFilter fl f cl ch x) t := by
  obtain ⟨H, hH⟩ := FilterField.kernel fl f cl ch hf h1 h2 t
  have e : ∀ h : ZMod T, fourierFilter fl f cl ch x (t + h) = ∑ s, H s * x (s + h) := by
    intro h
    rw [← hH]
    exact (congrFun (C132_shift fl f cl ch hf h1 h2 x h) t).symm
  unfold cycleMean
  simp only [e]
  rw [hH, hH, Finset.sum_comm, Finset.sum_div, ← Finset.sum_sub_distrib]
  refine Finset.sum_congr rfl fun s _ => ?_
  rw [← Finset.mul_sum]
  ring

/-- what the anomalies of a record are -/
theorem anomaly_cycle {T P : ℕ} [NeZero T] (cal : Cal) (infer : InferFreq) (freq : String) (hfq : freq = "month" ∨ freq = "day") (ncell : ℕ) (hn : 0 < ncell)
    (key : ℕ → ℤ) (hc : CycleLength cal freq T P key) (z : ZMod T → ℕ → ℝ) (hg : OwnGroup cal freq (gaplessRecord T ncell key z)) (out : List (Entry ℝ))
    (h : climateAnomaly cal infer freq (gaplessRecord T ncell key z) = .ok out) :
    HasValues T ncell key (fun t c => z t c - cycleMean hc.1 (fun s => z s c) t) out := by
  obtain ⟨hl, hv⟩ := anomaly_ref cal infer freq (gaplessRecord T ncell key z) hn hg out h
  have hlen : (gaplessRecord T ncell key z).samples.length = T := by simp [gaplessRecord]
  refine ⟨hl.trans hlen, fun i hi => ?_⟩
  have hio : i < out.length := by rw [hl, hlen]; exact hi
  have hs : (gaplessRecord T ncell key z).samples[i]? = some ⟨key i, fun c => some (z i c)⟩ := by
    simp [gaplessRecord, hi]
  obtain ⟨hk, hval⟩ := hv i _ _ hs (List.getElem?_eq_getElem hio)
  refine ⟨_, List.getElem?_eq_getElem hio, hk, fun c hcc => ?_⟩
  obtain ⟨v, hr, ho⟩ := (hval c hcc).2 _ rfl
  rw [ho]
  have hq := fun j hj => hc.2 i hi j hj
  congr 2
  rcases hr with ⟨rfl, hm⟩ | ⟨rfl, hm⟩ | ⟨rfl, -⟩ | ⟨rfl, -⟩
  · rw [mean_group hc.1 ncell key z c i hi _ (fun j hj => by
      rw [← hq j hj]
      simp [SameGroup, eq_comm])] at hm
    exact (Option.some.inj hm).symm
  · rw [mean_group hc.1 ncell key z c i hi _ (fun j hj => by
      rw [← hq j hj]
      simp [SameGroup, eq_comm])] at hm
    exact (Option.some.inj hm).symm
  · rcases hfq with h0 | h0 <;> exact absurd h0 (by decide)
  · rcases hfq with h0 | h0 <;> exact absurd h0 (by decide)

theorem noGaps_record (T ncell : ℕ) (key : ℕ → ℤ) (z : ZMod T → ℕ → ℝ) : NoGaps (gaplessRecord T ncell key z) := by
  intro e he c _
  obtain ⟨i, -, rfl⟩ := List.mem_map.mp he
  exact ⟨_, rfl⟩

theorem ownGroup_congr (cal : Cal) (freq : String) (hfq : freq = "month" ∨ freq = "day") (T ncell : ℕ) (key : ℕ → ℤ) (z z' : ZMod T → ℕ → ℝ)
    (h : OwnGroup cal freq (gaplessRecord T ncell key z)) : OwnGroup cal freq (gaplessRecord T ncell key z') := by
  rcases h with rfl | ⟨rfl, h⟩ | ⟨rfl, -⟩ | ⟨rfl, -⟩
  · exact Or.inl rfl
  · refine Or.inr (Or.inl ⟨rfl, fun e he => ?_⟩)
    obtain ⟨i, hi, rfl⟩ := List.mem_map.mp he
    have := h _ (List.mem_map.mpr ⟨i, hi, rfl⟩)
    have em : medianYear cal (gaplessRecord T ncell key z').samples = medianYear cal (gaplessRecord T ncell key z).samples := by
      simp only [medianYear, gaplessRecord, List.map_map, Function.comp_def]
    rw [em]
    exact this
  · rcases hfq with h0 | h0 <;> exact absurd h0 (by decide)
  · rcases hfq with h0 | h0 <;> exact absurd h0 (by decide)

end FilterAnomaly
open FilterAnomaly

/-- **C208.** If the record is a whole number of cycles, the anomalies of the filtered record are the filtered anomalies, in every cell;
the call fails for the filtered record exactly as for the record. For daily and monthly anomalies, every filter, calendar and record
without gaps. -/
theorem C208_either_order (fl : Flags) (f cl ch : ℝ) (hf : 0 < f) (h1 : 0 ≤ cl) (h2 : 0 ≤ ch) (cal : Cal) (infer : InferFreq) (freq : String)
    (hfq : freq = "month" ∨ freq = "day") (T P ncell : ℕ) [NeZero T] (hn : 0 < ncell) (key : ℕ → ℤ) (hc : CycleLength cal freq T P key)
    (z : ZMod T → ℕ → ℝ) (hg : OwnGroup cal freq (gaplessRecord T ncell key z)) :
    (∀ e, climateAnomaly cal infer freq (gaplessRecord T ncell key z) = .error e →
      climateAnomaly cal infer freq (gaplessRecord T ncell key fun t c => fourierFilter fl f cl ch (fun s => z s c) t) = .error e) ∧
    ∀ out, climateAnomaly cal infer freq (gaplessRecord T ncell key z) = .ok out → ∃ a out', HasValues T ncell key a out ∧
      climateAnomaly cal infer freq (gaplessRecord T ncell key fun t c => fourierFilter fl f cl ch (fun s => z s c) t) = .ok out' ∧
      HasValues T ncell key (fun t c => fourierFilter fl f cl ch (fun s => a s c) t) out' := by
  have hm := mean_relation (anomaly_timeMean cal infer freq) (gaplessRecord T ncell key z)
    (gaplessRecord T ncell key fun t c => fourierFilter fl f cl ch (fun s => z s c) t) hn hn (noGaps_record T ncell key z) (noGaps_record T ncell key _)
    (by simp [gaplessRecord, Function.comp_def]) rfl
  refine ⟨hm.1, fun out ho => ?_⟩
  obtain ⟨out', ho', -⟩ := hm.2 out ho
  refine ⟨_, out', anomaly_cycle cal infer freq hfq ncell hn key hc z hg out ho, ho', ?_⟩
  have := anomaly_cycle cal infer freq hfq ncell hn key hc _ (ownGroup_congr cal freq hfq T ncell key z _ hg) out' ho'
  simp only [filter_cycleMean hc.1 fl f cl ch hf h1 h2]
  exact this

/-- **C208.** A record with one sample in each month of `Y` years repeats its months every twelve samples, in every calendar. -/
theorem C208_months (cal : Cal) (Y : ℕ) (k : ℤ) (key : ℕ → ℤ) (hk : ∀ i < 12 * Y, cal.monthOf (key i) = k + i) :
    CycleLength cal "month" (12 * Y) 12 key := by
  refine ⟨Nat.dvd_mul_right 12 Y, fun i hi j hj => ?_⟩
  have e : SameGroup cal "month" (key i) (key j) ↔ cal.month (key i) = cal.month (key j) := by simp [SameGroup]
  rw [e]
  unfold Cal.month Cal.monthNo
  rw [hk i hi, hk j hj]
  omega

/-- three years of monthly means in any calendar, two cells: the anomalies exist, and filtering them is the same as filtering first -/
example (cal : Cal) (z : ZMod 36 → ℕ → ℝ) : ∃ a out out',
    climateAnomaly cal (fun _ => .ok true) "month" (gaplessRecord 36 2 (fun i => cal.monthStart (24000 + i)) z) = .ok out ∧
    HasValues 36 2 (fun i => cal.monthStart (24000 + i)) a out ∧
    climateAnomaly cal (fun _ => .ok true) "month" (gaplessRecord 36 2 (fun i => cal.monthStart (24000 + i))
      fun t c => fourierFilter { lowPass := true } 12 2 0 (fun s => z s c) t) = .ok out' ∧
    HasValues 36 2 (fun i => cal.monthStart (24000 + i)) (fun t c => fourierFilter { lowPass := true } 12 2 0 (fun s => a s c) t) out' := by
  have : NeZero 36 := ⟨by norm_num⟩
  have hk : ∀ i : ℕ, cal.monthOf (cal.monthStart (24000 + i)) = 24000 + i := fun i => monthOf_unique cal le_rfl (cal.pos _)
  obtain ⟨l, hl, -⟩ := C122_accepted cal (fun _ => .ok true) [] (gaplessRecord 36 2 (fun i => cal.monthStart (24000 + i)) z) rfl (Or.inl rfl) 2001 (by
      have e : (gaplessRecord 36 2 (fun i => cal.monthStart (24000 + i)) z).samples.map (fun e => cal.year e.key)
          = (List.range 36).map fun i : ℕ => (24000 + (i : ℤ)) / 12 := by
        simp only [gaplessRecord, List.map_map, Function.comp_def, Cal.year, hk]
      unfold IsMedianYear
      rw [e]
      exact ⟨2001, 2001, by unfold AtRank; decide +kernel, by unfold AtRank; decide +kernel, by norm_num, by norm_num⟩) (by norm_num) (by norm_num) (by
      intro m m1 m2
      refine ⟨⟨cal.monthStart (24000 + ((m - 1).toNat : ℕ)), fun c => some (z ((m - 1).toNat : ℕ) c)⟩, ?_, ?_⟩
      · exact List.mem_map.mpr ⟨(m - 1).toNat, List.mem_range.mpr (by omega), rfl⟩
      · unfold Cal.month Cal.monthNo
        rw [hk]
        omega)
  have hok : ∃ out, climateAnomaly cal (fun _ => .ok true) "month" (gaplessRecord 36 2 (fun i => cal.monthStart (24000 + i)) z) = .ok out := by
    refine ⟨minusGroup (gaplessRecord 36 2 (fun i => cal.monthStart (24000 + i)) z).samples (groupSum (stampKey cal .month) l), ?_⟩
    unfold climateAnomaly
    rw [hl]
    rfl
  obtain ⟨out, hout⟩ := hok
  obtain ⟨a, out', ha, ho, ha'⟩ := (C208_either_order { lowPass := true } 12 2 0 (by norm_num) (by norm_num) le_rfl cal (fun _ => .ok true) "month"
    (Or.inl rfl) 36 12 2 (by norm_num) _ (C208_months cal 3 24000 _ fun i _ => hk i) z (Or.inl rfl)).2 out hout
  exact ⟨a, out, out', hout, ha, ho, ha'⟩

end Verif.Props
