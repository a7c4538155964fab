import Verif.Model.TimeKind

/-
Property theorems: the time coordinate used, and the type of the time stamps of a result.
-/

namespace Verif.Spec
open Model

/-- the time coordinate a call should use: the one named, or the one the metadata marks as time; it must hold time stamps -/
def IsTimeOf (coords : List (String × StampKind)) (cf name : Option String) (n : String) (k : StampKind) : Prop :=
  (name = some n ∧ n ≠ "" ∨ (name = none ∨ name = some "") ∧ cf = some n) ∧ coords.lookup n = some k ∧ k ≠ .other

end Verif.Spec

namespace Verif.Props
open Model Spec

theorem timeCoordinate_iff (coords : List (String × StampKind)) (cf name : Option String) (n : String) (k : StampKind) :
    timeCoordinate coords cf name = .ok (n, k) ↔ IsTimeOf coords cf name n k := by
  have key : ∀ m : String, (match coords.lookup m with
      | none => (throw PyErr.keyError : Except PyErr (String × StampKind))
      | some .other => throw PyErr.valueError
      | some k => pure (m, k)) = .ok (n, k) ↔ m = n ∧ coords.lookup n = some k ∧ k ≠ .other := by
    intro m
    constructor
    · intro h
      split at h
      · cases h
      · cases h
      · rename_i k' hne hk
        injection h with h
        injection h with h1 h2
        subst h1; subst h2
        exact ⟨rfl, hk, hne⟩
    · rintro ⟨rfl, h1, h2⟩
      rw [h1]
      cases k with
      | other => exact absurd rfl h2
      | datetime64 => rfl
      | cftime c => rfl
  unfold timeCoordinate IsTimeOf
  by_cases hn : name.getD "" ≠ ""
  · rw [if_pos hn]
    have hk := key (name.getD "")
    simp only [bind, Except.bind, pure, Except.pure] at hk ⊢
    refine Iff.trans hk ?_
    cases name with
    | none => exact absurd rfl hn
    | some x =>
      simp only [Option.getD_some] at hn ⊢
      constructor
      · rintro ⟨rfl, h⟩
        exact ⟨Or.inl ⟨rfl, hn⟩, h⟩
      · rintro ⟨h | h, h'⟩
        · injection h.1 with h1
          exact ⟨h1, h'⟩
        · rcases h.1 with h1 | h1
          · cases h1
          · injection h1 with h1
            exact absurd h1 hn
  · rw [if_neg hn]
    have hname : name = none ∨ name = some "" := by
      cases name with
      | none => exact Or.inl rfl
      | some x => exact Or.inr (by simpa using hn)
    have hno : ¬ (name = some n ∧ n ≠ "") := by
      rintro ⟨h1, h2⟩
      rcases hname with h | h
      · rw [h] at h1; cases h1
      · rw [h] at h1
        injection h1 with h1
        exact h2 h1.symm
    cases cf with
    | none =>
      simp only [bind, Except.bind, throw, throwThe, MonadExceptOf.throw]
      constructor
      · intro h; cases h
      · rintro ⟨h | h, -⟩
        · exact absurd h hno
        · cases h.2
    | some x =>
      have hk := key x
      simp only [bind, Except.bind, pure, Except.pure] at hk ⊢
      refine Iff.trans hk ?_
      constructor
      · rintro ⟨rfl, h⟩
        exact ⟨Or.inr ⟨hname, rfl⟩, h⟩
      · rintro ⟨h | h, h'⟩
        · exact absurd h hno
        · injection h.2 with h1
          exact ⟨h1, h'⟩

/-- C126, calendar_average, month_to_season and climate_anomaly: they succeed exactly if the named (or marked) coordinate holds time
stamps, and the result's time coordinate has its name and its type. -/
theorem C126_same_type (coords : List (String × StampKind)) (cf name : Option String) (n : String) (k : StampKind) :
    (calendarStamps coords cf name = .ok (n, k) ↔ IsTimeOf coords cf name n k) ∧
    (monthToSeasonStamps coords cf name = .ok (n, k) ↔ IsTimeOf coords cf name n k) ∧
    (anomalyStamps coords cf name = .ok (n, k) ↔ IsTimeOf coords cf name n k) := by
  refine ⟨?_, timeCoordinate_iff coords cf name n k, ?_⟩
  · rw [← timeCoordinate_iff]
    unfold calendarStamps
    cases h : timeCoordinate coords cf name with
    | error e => simp [bind, Except.bind]
    | ok r =>
      obtain ⟨n', k'⟩ := r
      have h2 := ((timeCoordinate_iff coords cf name n' k').mp h).2.2
      cases k' with
      | other => exact absurd rfl h2
      | datetime64 => exact Iff.rfl
      | cftime c => exact Iff.rfl
  · rw [← timeCoordinate_iff]
    unfold anomalyStamps
    cases h : timeCoordinate coords cf name with
    | error e => simp [bind, Except.bind]
    | ok r =>
      obtain ⟨n', k'⟩ := r
      have h2 := (timeCoordinate_iff coords cf name n' k').mp h
      simp only [bind, Except.bind]
      by_cases hn : n' = ""
      · -- the name found is the empty string: it was the marked coordinate, which is looked up again
        have h3 : timeCoordinate coords cf (some n') = .ok (n', k') := by
          rw [timeCoordinate_iff]
          rcases h2.1 with h4 | h4
          · exact absurd hn h4.2
          · exact ⟨Or.inr ⟨Or.inr (by rw [hn]), h4.2⟩, h2.2⟩
        rw [h3]
        exact Iff.rfl
      · have h3 : timeCoordinate coords cf (some n') = .ok (n', k') := by
          rw [timeCoordinate_iff]
          exact ⟨Or.inl ⟨rfl, hn⟩, h2.2⟩
        rw [h3]
        exact Iff.rfl

/-- C126, climatology_average by hour, day or month, as far as it holds: the name is kept, and so is the type if it is cftime. -/
theorem C126_climatology_partial (coords : List (String × StampKind)) (cf name : Option String) (n calendar : String)
    (h : IsTimeOf coords cf name n (.cftime calendar)) : climatologyStamps coords cf name = .ok (n, .cftime calendar) := by
  unfold climatologyStamps
  rw [(timeCoordinate_iff coords cf name n _).mpr h]
  rfl

/-- C126, what climatology_average does with datetime64 data: the result holds cftime objects of the proleptic Gregorian calendar. -/
theorem C126_climatology_datetime64 (coords : List (String × StampKind)) (cf name : Option String) (n : String)
    (h : IsTimeOf coords cf name n .datetime64) : climatologyStamps coords cf name = .ok (n, .cftime "proleptic_gregorian") := by
  unfold climatologyStamps
  rw [(timeCoordinate_iff coords cf name n _).mpr h]
  rfl

/-- C126 is false of climatology_average: datetime64 time stamps come back as cftime objects. -/
theorem C126_counterexample :
    ¬ (∀ (coords : List (String × StampKind)) (cf name : Option String) (n : String) (k : StampKind),
        IsTimeOf coords cf name n k → climatologyStamps coords cf name = .ok (n, k)) := by
  intro h
  have := h [("time", .datetime64)] (some "time") none "time" .datetime64 ⟨Or.inr ⟨Or.inl rfl, rfl⟩, rfl, by decide⟩
  cases this

/-- a named coordinate is used even if another one is marked as time -/
example : IsTimeOf [("time", .datetime64), ("init", .cftime "noleap")] (some "time") (some "init") "init" (.cftime "noleap") :=
  ⟨Or.inl ⟨rfl, by decide⟩, rfl, by decide⟩

/-- and an unmarked dataset without a name, or a coordinate of numbers, is rejected -/
example : calendarStamps [("time", .datetime64)] none none = .error .keyError ∧
    calendarStamps [("time", .other)] (some "time") none = .error .valueError := ⟨rfl, rfl⟩

end Verif.Props
