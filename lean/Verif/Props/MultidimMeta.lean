import Verif.Model.MultidimMeta

/-
C124: metadata of `interp_multidim`.
-/

namespace Verif.Props
open Verif.Model

/-- **C124** (partial). Without `cyclic` and `missing_val` a DataArray keeps everything: its name, attributes, dimensions, the attributes
of its coordinates and all other coordinates. Missing: calls with either argument (`C124_missing`, `C124_cyclic`, `C124_counterexample`). -/
theorem C124_plain_partial (m : GridMeta) (a b : Attrs) (ha : m.latAttrs = some a) (hb : m.lonAttrs = some b) :
    interpMultidimMeta false false m = .ok m := by
  obtain ⟨n, at', le, la, lo, x, y, o⟩ := m
  simp only at ha hb
  subst ha hb
  rfl

/-- **C124**: with `missing_val` the name and the attributes are lost, everything else is kept. -/
theorem C124_missing (m : GridMeta) (a b : Attrs) (ha : m.latAttrs = some a) (hb : m.lonAttrs = some b) :
    interpMultidimMeta false true m = .ok { m with name := none, attrs := noAttrs } := by
  obtain ⟨n, at', le, la, lo, x, y, o⟩ := m
  simp only at ha hb
  subst ha hb
  rfl

/-- **C124**: with `cyclic` nothing but the names of the two dimensions is kept. -/
theorem C124_cyclic (missing : Bool) (m : GridMeta) (h2d : m.lead = []) (a b : Attrs) (ha : m.latAttrs = some a) (hb : m.lonAttrs = some b) :
    interpMultidimMeta true missing m = .ok ⟨none, noAttrs, [], m.lat, m.lon, some noAttrs, some noAttrs, []⟩ := by
  obtain ⟨n, at', le, la, lo, x, y, o⟩ := m
  simp only at ha hb h2d
  subst ha hb h2d
  cases missing <;> rfl

/-- **C124**: metadata do not depend on the arguments exactly if there is nothing to lose. -/
theorem C124_exact (m : GridMeta) (h2d : m.lead = []) (a b : Attrs) (ha : m.latAttrs = some a) (hb : m.lonAttrs = some b) :
    (∀ cyclic missing, interpMultidimMeta cyclic missing m = .ok m) ↔
      m.name = none ∧ m.attrs = noAttrs ∧ a = noAttrs ∧ b = noAttrs ∧ m.others = [] := by
  have h1 := C124_plain_partial m a b ha hb
  have h2 := C124_missing m a b ha hb
  have h3 := fun missing => C124_cyclic missing m h2d a b ha hb
  obtain ⟨n, at', le, la, lo, x, y, o⟩ := m
  simp only at ha hb h2d
  subst ha hb h2d
  constructor
  · intro h
    have e := (h3 true).symm.trans (h true true)
    simp only [Except.ok.injEq, GridMeta.mk.injEq, Option.some.injEq, true_and] at e
    obtain ⟨e1, e2, e3, e4, e5⟩ := e
    exact ⟨e1.symm, e2.symm, e3.symm, e4.symm, e5.symm⟩
  · rintro ⟨rfl, rfl, rfl, rfl, h⟩ cyclic missing
    simp only at h
    subst h
    cases cyclic
    · cases missing
      · exact h1
      · exact h2
    · exact h3 missing

/-- **C124**: a numpy array becomes a DataArray with the dimensions `lat` and `lon`, one coordinate along each, and nothing else, whatever the
other arguments. -/
theorem C124_numpy (cyclic missing : Bool) :
    ∃ m, interpMultidimMeta cyclic missing numpyGridMeta = .ok m ∧ m.lead ++ [m.lat, m.lon] = ["lat", "lon"] ∧ m.name = none ∧ m.attrs = noAttrs ∧
      m.latAttrs = some noAttrs ∧ m.lonAttrs = some noAttrs ∧ m.others = [] := by
  cases cyclic <;> cases missing <;> exact ⟨numpyGridMeta, rfl, rfl, rfl, rfl, rfl, rfl, rfl⟩

/-- temperatures with units and a scalar time -/
def temperatureMeta : GridMeta :=
  ⟨some "T", fun k => if k = "units" then some "K" else none, [], "lat", "lon", some (fun k => if k = "units" then some "degrees_north" else none),
    some (fun k => if k = "units" then some "degrees_east" else none), [("time", noAttrs)]⟩

/-- **C124** is false: with `missing_val` the units of the data are lost, with `cyclic` also those of the coordinates, and the time. -/
theorem C124_counterexample :
    (interpMultidimMeta false true temperatureMeta).toOption.map (fun m => (m.attrs "units", m.latAttrs.map (fun f => f "units"))) =
      some (none, some (some "degrees_north")) ∧
    (interpMultidimMeta true false temperatureMeta).toOption.map (fun m => (m.attrs "units", m.latAttrs.map (fun f => f "units"), m.others.map (·.1))) =
      some (none, some none, []) ∧
    (interpMultidimMeta false false temperatureMeta).toOption.map (fun m => (m.attrs "units", m.latAttrs.map (fun f => f "units"), m.others.map (·.1))) =
      some (some "K", some (some "degrees_north"), ["time"]) := by
  refine ⟨?_, ?_, ?_⟩ <;> decide +kernel

end Verif.Props
