import Mathlib.Algebra.Order.Group.Int
import Mathlib.Data.Int.LeastGreatest

/-
Calendars. Time stamps are whole seconds since an arbitrary midnight (`ℤ`); months are numbered consecutively,
month `k` being month `k % 12 + 1` of year `k / 12` (floor division). A calendar is any division of time into
months made of whole days; `cftime`'s noleap, all_leap, 360_day, julian and (proleptic) Gregorian calendars are
instances. Trusted: cftime/pandas calendars are of this form. Not modelled: sub-second resolution, the gap of the
mixed Julian/Gregorian calendar in October 1582.
-/

namespace Verif

/-- A calendar: where each month starts, and which month a time stamp is in. -/
structure Cal where
  /-- first second of month `k` -/
  monthStart : ℤ → ℤ
  /-- number of the month containing a time stamp -/
  monthOf : ℤ → ℤ
  /-- months start at midnight -/
  wholeDays : ∀ k, 86400 ∣ monthStart k
  /-- months are not empty -/
  pos : ∀ k, monthStart k < monthStart (k + 1)
  /-- months have at most 31 days -/
  short : ∀ k, monthStart (k + 1) ≤ monthStart k + 31 * 86400
  /-- `monthOf` is right -/
  inMonth : ∀ t, monthStart (monthOf t) ≤ t ∧ t < monthStart (monthOf t + 1)

namespace Cal

/-- `dt.days_in_month` of month `k` -/
def len (cal : Cal) (k : ℤ) : ℤ := (cal.monthStart (k + 1) - cal.monthStart k) / 86400

/-- `dt.month` of month number `k`: 1 to 12 -/
def monthNo (k : ℤ) : ℤ := k % 12 + 1

/-- `dt.year` -/
def year (cal : Cal) (t : ℤ) : ℤ := cal.monthOf t / 12

/-- `dt.month` -/
def month (cal : Cal) (t : ℤ) : ℤ := monthNo (cal.monthOf t)

/-- `dt.day` -/
def day (cal : Cal) (t : ℤ) : ℤ := (t - cal.monthStart (cal.monthOf t)) / 86400 + 1

/-- `dt.hour` -/
def hour (t : ℤ) : ℤ := t % 86400 / 3600

/-- days before month `m` (0 to 11) of a 365-day year -/
def cum365 (m : ℤ) : ℤ :=
  if m ≤ 0 then 0 else if m = 1 then 31 else if m = 2 then 59 else if m = 3 then 90 else if m = 4 then 120 else if m = 5 then 151
  else if m = 6 then 181 else if m = 7 then 212 else if m = 8 then 243 else if m = 9 then 273 else if m = 10 then 304 else 334

/-- month (0 to 11) of day `d` (0 to 364) of a 365-day year -/
def month365 (d : ℤ) : ℤ :=
  if d < 31 then 0 else if d < 59 then 1 else if d < 90 then 2 else if d < 120 then 3 else if d < 151 then 4 else if d < 181 then 5
  else if d < 212 then 6 else if d < 243 then 7 else if d < 273 then 8 else if d < 304 then 9 else if d < 334 then 10 else 11

theorem cum365_step (m : ℤ) (h0 : 0 ≤ m) (h1 : m < 11) : cum365 m < cum365 (m + 1) := by
  have : m = 0 ∨ m = 1 ∨ m = 2 ∨ m = 3 ∨ m = 4 ∨ m = 5 ∨ m = 6 ∨ m = 7 ∨ m = 8 ∨ m = 9 ∨ m = 10 := by omega
  rcases this with rfl | rfl | rfl | rfl | rfl | rfl | rfl | rfl | rfl | rfl | rfl <;> decide

theorem cum365_short (m : ℤ) (h0 : 0 ≤ m) (h1 : m < 11) : cum365 (m + 1) ≤ cum365 m + 31 := by
  have : m = 0 ∨ m = 1 ∨ m = 2 ∨ m = 3 ∨ m = 4 ∨ m = 5 ∨ m = 6 ∨ m = 7 ∨ m = 8 ∨ m = 9 ∨ m = 10 := by omega
  rcases this with rfl | rfl | rfl | rfl | rfl | rfl | rfl | rfl | rfl | rfl | rfl <;> decide

/-- February has at most 30 days, January at most 31: room for a leap day -/
theorem cum365_feb (m : ℤ) (h0 : 0 ≤ m) (h1 : m < 11) (h : m ≤ 1) (h2 : 2 ≤ m + 1) : cum365 (m + 1) + 1 ≤ cum365 m + 31 := by
  have : m = 1 := by omega
  subst this
  decide

theorem month365_spec (d : ℤ) (h0 : 0 ≤ d) (h1 : d < 365) :
    0 ≤ month365 d ∧ month365 d ≤ 11 ∧ cum365 (month365 d) ≤ d ∧
      (month365 d = 11 ∨ d < cum365 (month365 d + 1)) := by
  have key : ∀ n : Fin 365, 0 ≤ month365 (n : ℕ) ∧ month365 (n : ℕ) ≤ 11 ∧ cum365 (month365 (n : ℕ)) ≤ (n : ℕ) ∧
      (month365 (n : ℕ) = 11 ∨ ((n : ℕ) : ℤ) < cum365 (month365 (n : ℕ) + 1)) := by decide +kernel
  have := key ⟨d.toNat, by omega⟩
  rwa [show (((⟨d.toNat, by omega⟩ : Fin 365) : ℕ) : ℤ) = d from Int.toNat_of_nonneg h0] at this

/-- the 365-day calendar (`noleap`) -/
def noleap : Cal where
  monthStart k := 86400 * (365 * (k / 12) + cum365 (k % 12))
  monthOf t := 12 * (t / 86400 / 365) + month365 (t / 86400 % 365)
  wholeDays k := ⟨_, rfl⟩
  pos k := by
    have h1 : 0 ≤ k % 12 := Int.emod_nonneg _ (by decide)
    have h2 : k % 12 < 12 := Int.emod_lt_of_pos _ (by decide)
    by_cases h : k % 12 = 11
    · have e1 : (k + 1) / 12 = k / 12 + 1 := by omega
      have e2 : (k + 1) % 12 = 0 := by omega
      rw [e1, e2, h, show cum365 0 = 0 by decide, show cum365 11 = 334 by decide]
      omega
    · have e1 : (k + 1) / 12 = k / 12 := by omega
      have e2 : (k + 1) % 12 = k % 12 + 1 := by omega
      have := cum365_step (k % 12) h1 (by omega)
      rw [e1, e2]
      omega
  short k := by
    have h1 : 0 ≤ k % 12 := Int.emod_nonneg _ (by decide)
    have h2 : k % 12 < 12 := Int.emod_lt_of_pos _ (by decide)
    by_cases h : k % 12 = 11
    · have e1 : (k + 1) / 12 = k / 12 + 1 := by omega
      have e2 : (k + 1) % 12 = 0 := by omega
      rw [e1, e2, h, show cum365 0 = 0 by decide, show cum365 11 = 334 by decide]
      omega
    · have e1 : (k + 1) / 12 = k / 12 := by omega
      have e2 : (k + 1) % 12 = k % 12 + 1 := by omega
      have := cum365_short (k % 12) h1 (by omega)
      rw [e1, e2]
      omega
  inMonth t := by
    have hd := Int.emod_nonneg (t / 86400) (b := 365) (by decide)
    have hd2 := Int.emod_lt_of_pos (t / 86400) (b := 365) (by decide)
    obtain ⟨m0, m1, m2, m3⟩ := month365_spec _ hd hd2
    have ht : 86400 * (365 * (t / 86400 / 365) + t / 86400 % 365) ≤ t ∧ t < 86400 * (365 * (t / 86400 / 365) + t / 86400 % 365 + 1) := by omega
    revert m0 m1 m2 m3 ht hd hd2
    generalize t / 86400 / 365 = y
    generalize t / 86400 % 365 = d
    intro hd hd2 m0 m1 m2 m3 ht
    generalize month365 d = m at *
    have e1 : (12 * y + m) / 12 = y := by omega
    have e2 : (12 * y + m) % 12 = m := by omega
    rw [e1, e2]
    rcases m3 with h | h
    · have e3 : (12 * y + m + 1) / 12 = y + 1 := by omega
      have e4 : (12 * y + m + 1) % 12 = 0 := by omega
      rw [e3, e4, show cum365 0 = 0 by decide]
      omega
    · by_cases h11 : m = 11
      · have e3 : (12 * y + m + 1) / 12 = y + 1 := by omega
        have e4 : (12 * y + m + 1) % 12 = 0 := by omega
        rw [e3, e4, show cum365 0 = 0 by decide]
        omega
      · have e3 : (12 * y + m + 1) / 12 = y := by omega
        have e4 : (12 * y + m + 1) % 12 = m + 1 := by omega
        rw [e3, e4]
        omega

/-- the 360-day calendar: twelve months of 30 days -/
def days360 : Cal where
  monthStart k := 86400 * (30 * k)
  monthOf t := t / 86400 / 30
  wholeDays k := ⟨_, rfl⟩
  pos k := by omega
  short k := by omega
  inMonth t := by omega

theorem starts_lower (ms : ℤ → ℤ) (h : ∀ k, ms k < ms (k + 1)) (n : ℕ) (k : ℤ) : ms k + n ≤ ms (k + n) := by
  induction n with
  | zero => simp
  | succ n ih =>
    have := h (k + n)
    have e : k + ((n + 1 : ℕ) : ℤ) = k + n + 1 := by push_cast; omega
    rw [e]
    omega

theorem starts_find (ms : ℤ → ℤ) (h : ∀ k, ms k < ms (k + 1)) (t : ℤ) : ∃ k, ms k ≤ t ∧ t < ms (k + 1) := by
  have hb : ∀ k, ms k ≤ t → k ≤ max 0 (t - ms 0) := by
    intro k hk
    by_contra hc
    have h0 : 0 < k := by omega
    have := starts_lower ms h k.toNat 0
    rw [zero_add, Int.toNat_of_nonneg h0.le] at this
    omega
  have hne : ∃ k, ms k ≤ t := by
    refine ⟨-(ms 0 - t).toNat, ?_⟩
    have := starts_lower ms h (ms 0 - t).toNat (-(ms 0 - t).toNat)
    rw [neg_add_cancel] at this
    omega
  obtain ⟨k, hk1, hk2⟩ := Int.exists_greatest_of_bdd ⟨_, hb⟩ hne
  refine ⟨k, hk1, ?_⟩
  by_contra hc
  have := hk2 (k + 1) (by omega)
  omega

/-- the calendar with given month starts -/
noncomputable def ofStarts (ms : ℤ → ℤ) (hd : ∀ k, 86400 ∣ ms k) (h : ∀ k, ms k < ms (k + 1))
    (hl : ∀ k, ms (k + 1) ≤ ms k + 31 * 86400) : Cal where
  monthStart := ms
  monthOf t := (starts_find ms h t).choose
  wholeDays := hd
  pos := h
  short := hl
  inMonth t := (starts_find ms h t).choose_spec

/-- Gregorian leap year -/
def leap (y : ℤ) : Prop := y % 4 = 0 ∧ (y % 100 ≠ 0 ∨ y % 400 = 0)

instance (y : ℤ) : Decidable (leap y) := by unfold leap; infer_instance

/-- days from the start of year 0 to the start of year `y` -/
def gregYear (y : ℤ) : ℤ := 365 * y + (y + 3) / 4 - (y + 99) / 100 + (y + 399) / 400

theorem gregYear_step (y : ℤ) : gregYear (y + 1) = gregYear y + 365 + if leap y then 1 else 0 := by
  unfold gregYear leap
  split_ifs <;> omega

/-- the proleptic Gregorian calendar -/
noncomputable def gregorian : Cal :=
  ofStarts (fun k => 86400 * (gregYear (k / 12) + cum365 (k % 12) + if 2 ≤ k % 12 ∧ leap (k / 12) then 1 else 0)) (fun k => ⟨_, rfl⟩) (by
    intro k
    have h1 : 0 ≤ k % 12 := Int.emod_nonneg _ (by decide)
    have h2 : k % 12 < 12 := Int.emod_lt_of_pos _ (by decide)
    by_cases h : k % 12 = 11
    · have e1 : (k + 1) / 12 = k / 12 + 1 := by omega
      have e2 : (k + 1) % 12 = 0 := by omega
      rw [e1, e2, h, gregYear_step, show cum365 0 = 0 by decide, show cum365 11 = 334 by decide]
      split_ifs <;> omega
    · have e1 : (k + 1) / 12 = k / 12 := by omega
      have e2 : (k + 1) % 12 = k % 12 + 1 := by omega
      have := cum365_step (k % 12) h1 (by omega)
      rw [e1, e2]
      by_cases hl : leap (k / 12)
      · simp only [hl, and_true]
        split_ifs <;> omega
      · simp only [hl, and_false, if_false]
        omega) (by
    intro k
    have h1 : 0 ≤ k % 12 := Int.emod_nonneg _ (by decide)
    have h2 : k % 12 < 12 := Int.emod_lt_of_pos _ (by decide)
    by_cases h : k % 12 = 11
    · have e1 : (k + 1) / 12 = k / 12 + 1 := by omega
      have e2 : (k + 1) % 12 = 0 := by omega
      rw [e1, e2, h, gregYear_step, show cum365 0 = 0 by decide, show cum365 11 = 334 by decide]
      by_cases hl : leap (k / 12)
      · simp only [hl, and_true, if_true]
        split_ifs <;> omega
      · simp only [hl, and_false, if_false]
        split_ifs <;> omega
    · have e1 : (k + 1) / 12 = k / 12 := by omega
      have e2 : (k + 1) % 12 = k % 12 + 1 := by omega
      have := cum365_short (k % 12) h1 (by omega)
      have hf := cum365_feb (k % 12) h1 (by omega)
      rw [e1, e2]
      by_cases hl : leap (k / 12)
      · simp only [hl, and_true]
        split_ifs <;> omega
      · simp only [hl, and_false, if_false]
        omega)

/-- the Julian calendar (a leap year every four years), computable -/
def julian : Cal where
  monthStart k := 86400 * (365 * (k / 12) + (k / 12 + 3) / 4 + cum365 (k % 12) + if 2 ≤ k % 12 ∧ k / 12 % 4 = 0 then 1 else 0)
  monthOf t :=
    let r := t / 86400 % 1461
    if r < 366 then 12 * (4 * (t / 86400 / 1461)) + (if r < 59 then month365 r else if r = 59 then 1 else month365 (r - 1))
    else 12 * (4 * (t / 86400 / 1461) + 1 + (r - 366) / 365) + month365 ((r - 366) % 365)
  wholeDays k := ⟨_, rfl⟩
  pos k := by
    have h1 : 0 ≤ k % 12 := Int.emod_nonneg _ (by decide)
    have h2 : k % 12 < 12 := Int.emod_lt_of_pos _ (by decide)
    by_cases h : k % 12 = 11
    · have e1 : (k + 1) / 12 = k / 12 + 1 := by omega
      have e2 : (k + 1) % 12 = 0 := by omega
      rw [e1, e2, h, show cum365 0 = 0 by decide, show cum365 11 = 334 by decide]
      split_ifs <;> omega
    · have e1 : (k + 1) / 12 = k / 12 := by omega
      have e2 : (k + 1) % 12 = k % 12 + 1 := by omega
      have := cum365_step (k % 12) h1 (by omega)
      rw [e1, e2]
      split_ifs <;> omega
  short k := by
    have h1 : 0 ≤ k % 12 := Int.emod_nonneg _ (by decide)
    have h2 : k % 12 < 12 := Int.emod_lt_of_pos _ (by decide)
    by_cases h : k % 12 = 11
    · have e1 : (k + 1) / 12 = k / 12 + 1 := by omega
      have e2 : (k + 1) % 12 = 0 := by omega
      rw [e1, e2, h, show cum365 0 = 0 by decide, show cum365 11 = 334 by decide]
      split_ifs <;> omega
    · have e1 : (k + 1) / 12 = k / 12 := by omega
      have e2 : (k + 1) % 12 = k % 12 + 1 := by omega
      have := cum365_short (k % 12) h1 (by omega)
      have hf := cum365_feb (k % 12) h1 (by omega)
      rw [e1, e2]
      split_ifs <;> omega
  inMonth t := by
    have main : ∀ y d m : ℤ, 0 ≤ m → m ≤ 11 → (cum365 m + (if 2 ≤ m ∧ y % 4 = 0 then 1 else 0) ≤ d) →
        (m = 11 ∧ d < 365 + (if y % 4 = 0 then 1 else 0) ∨ d < cum365 (m + 1) + (if 2 ≤ m + 1 ∧ y % 4 = 0 then 1 else 0)) →
        86400 * (365 * y + (y + 3) / 4 + d) ≤ t → t < 86400 * (365 * y + (y + 3) / 4 + d + 1) →
        86400 * (365 * ((12 * y + m) / 12) + ((12 * y + m) / 12 + 3) / 4 + cum365 ((12 * y + m) % 12) +
          if 2 ≤ (12 * y + m) % 12 ∧ (12 * y + m) / 12 % 4 = 0 then 1 else 0) ≤ t ∧
        t < 86400 * (365 * ((12 * y + m + 1) / 12) + ((12 * y + m + 1) / 12 + 3) / 4 + cum365 ((12 * y + m + 1) % 12) +
          if 2 ≤ (12 * y + m + 1) % 12 ∧ (12 * y + m + 1) / 12 % 4 = 0 then 1 else 0) := by
      intro y d m m0 m1 hlo hhi ht0 ht1
      have e1 : (12 * y + m) / 12 = y := by omega
      have e2 : (12 * y + m) % 12 = m := by omega
      rw [e1, e2]
      constructor
      · split_ifs at hlo ⊢ <;> omega
      · by_cases h11 : m = 11
        · have e3 : (12 * y + m + 1) / 12 = y + 1 := by omega
          have e4 : (12 * y + m + 1) % 12 = 0 := by omega
          rw [e3, e4, show cum365 0 = 0 by decide]
          subst h11
          have c12 : cum365 (11 + 1) = 334 := by decide
          rw [c12] at hhi
          split_ifs at hhi ⊢ <;> omega
        · have e3 : (12 * y + m + 1) / 12 = y := by omega
          have e4 : (12 * y + m + 1) % 12 = m + 1 := by omega
          rw [e3, e4]
          split_ifs at hhi ⊢ <;> omega
    have hr := Int.emod_nonneg (t / 86400) (b := 1461) (by decide)
    have hr2 := Int.emod_lt_of_pos (t / 86400) (b := 1461) (by decide)
    have hq : t / 86400 = 1461 * (t / 86400 / 1461) + t / 86400 % 1461 := by omega
    have ht : 86400 * (t / 86400) ≤ t ∧ t < 86400 * (t / 86400 + 1) := by omega
    generalize t / 86400 / 1461 = q at *
    generalize t / 86400 % 1461 = r at *
    generalize t / 86400 = D at *
    subst hq
    simp only
    by_cases h : r < 366
    · rw [if_pos h]
      have ey : (4 * q) % 4 = 0 := by omega
      have ey2 : 365 * (4 * q) + (4 * q + 3) / 4 = 1461 * q := by omega
      apply main (4 * q) r
      · split_ifs
        · exact (month365_spec r hr (by omega)).1
        · decide
        · exact (month365_spec (r - 1) (by omega) (by omega)).1
      · split_ifs
        · exact (month365_spec r hr (by omega)).2.1
        · decide
        · exact (month365_spec (r - 1) (by omega) (by omega)).2.1
      · rw [if_congr (and_iff_left ey) rfl rfl]
        by_cases ha : r < 59
        · rw [if_pos ha]
          have key : ∀ n : Fin 59, cum365 (month365 (n : ℕ)) + (if 2 ≤ month365 (n : ℕ) then 1 else 0) ≤ (n : ℕ) := by decide +kernel
          have := key ⟨r.toNat, by omega⟩
          rwa [show (((⟨r.toNat, by omega⟩ : Fin 59) : ℕ) : ℤ) = r from Int.toNat_of_nonneg hr] at this
        · by_cases hb : r = 59
          · subst hb
            decide
          · rw [if_neg ha, if_neg hb]
            obtain ⟨m0, m1, m2, m3⟩ := month365_spec (r - 1) (by omega) (by omega)
            split_ifs <;> omega
      · rw [if_pos ey, if_congr (and_iff_left ey) rfl rfl]
        by_cases ha : r < 59
        · rw [if_pos ha]
          have key : ∀ n : Fin 59, ((n : ℕ) : ℤ) < cum365 (month365 (n : ℕ) + 1) + (if 2 ≤ month365 (n : ℕ) + 1 then 1 else 0) := by decide +kernel
          have := key ⟨r.toNat, by omega⟩
          rw [show (((⟨r.toNat, by omega⟩ : Fin 59) : ℕ) : ℤ) = r from Int.toNat_of_nonneg hr] at this
          exact Or.inr this
        · by_cases hb : r = 59
          · subst hb
            right
            decide
          · rw [if_neg ha, if_neg hb]
            have key : ∀ n : Fin 365, (n : ℕ) < 59 ∨ 1 ≤ month365 (n : ℕ) ∧ (month365 (n : ℕ) = 11 ∨ ((n : ℕ) : ℤ) + 1 < cum365 (month365 (n : ℕ) + 1) + (if 2 ≤ month365 (n : ℕ) + 1 then 1 else 0)) := by decide +kernel
            have := key ⟨(r - 1).toNat, by omega⟩
            rw [show (((⟨(r - 1).toNat, by omega⟩ : Fin 365) : ℕ) : ℤ) = r - 1 from Int.toNat_of_nonneg (by omega)] at this
            simp only at this
            rcases this with hc | ⟨-, hc | hc⟩
            · omega
            · exact Or.inl ⟨hc, by omega⟩
            · exact Or.inr (by omega)
      · rw [ey2]; omega
      · rw [ey2]; omega
    · rw [if_neg h]
      have hx := Int.emod_nonneg (r - 366) (b := 365) (by decide)
      have hx2 := Int.emod_lt_of_pos (r - 366) (b := 365) (by decide)
      have hxy : r - 366 = 365 * ((r - 366) / 365) + (r - 366) % 365 := by omega
      have hy : 0 ≤ (r - 366) / 365 ∧ (r - 366) / 365 ≤ 2 := by omega
      generalize (r - 366) / 365 = y at *
      generalize (r - 366) % 365 = x at *
      have ey : ¬ (4 * q + 1 + y) % 4 = 0 := by omega
      have ey2 : 365 * (4 * q + 1 + y) + (4 * q + 1 + y + 3) / 4 = 1461 * q + 366 + 365 * y := by omega
      obtain ⟨m0, m1, m2, m3⟩ := month365_spec x hx hx2
      apply main (4 * q + 1 + y) x _ m0 m1
      · rw [if_neg (fun h => ey h.2)]
        omega
      · rw [if_neg ey, if_neg (fun h => ey h.2)]
        rcases m3 with m3 | m3
        · exact Or.inl ⟨m3, by omega⟩
        · exact Or.inr (by omega)
      · rw [ey2]; omega
      · rw [ey2]; omega

end Cal
end Verif
