/-
Model of geocat/comp/deprecated.py. A call takes any positional and keyword arguments; its observable effect is the list of warnings and the returned value.
-/

namespace Verif.Model.Deprecated

/-- a Python value: `None` or an object -/
inductive Value (α : Type)
  | none
  | object (a : α)

/-- what a call does: the messages of the warnings it issues, and what it returns -/
structure Effect (α : Type) where
  warnings : List String
  result : Value α

variable {α : Type}

/-- deprecated.py 4-16: `grid_to_triple` -/
def gridToTriple (_args : List (Value α)) (_kwargs : List (String × Value α)) : Effect α :=
  ⟨["To use this function, install the geocat-f2py package and import as ``geocat.f2py.grid_to_triple``."], .none⟩

/-- deprecated.py 19-31: `linint1` -/
def linint1 (_args : List (Value α)) (_kwargs : List (String × Value α)) : Effect α :=
  ⟨["To use this function, install the geocat-f2py package and import as ``geocat.f2py.linint1``."], .none⟩

/-- deprecated.py 34-46: `linint2` -/
def linint2 (_args : List (Value α)) (_kwargs : List (String × Value α)) : Effect α :=
  ⟨["To use this function, install the geocat-f2py package and import as ``geocat.f2py.linint2``."], .none⟩

/-- deprecated.py 49-61: `linint2pts` -/
def linint2pts (_args : List (Value α)) (_kwargs : List (String × Value α)) : Effect α :=
  ⟨["To use this function, install the geocat-f2py package and import as ``geocat.f2py.linint2pts``."], .none⟩

/-- deprecated.py 64-76: `moc_globe_atl` -/
def mocGlobeAtl (_args : List (Value α)) (_kwargs : List (String × Value α)) : Effect α :=
  ⟨["To use this function, install the geocat-f2py package and import as ``geocat.f2py.moc_globe_atl``."], .none⟩

/-- deprecated.py 79-91: `rcm2points` -/
def rcm2points (_args : List (Value α)) (_kwargs : List (String × Value α)) : Effect α :=
  ⟨["To use this function, install the geocat-f2py package and import as ``geocat.f2py.rcm2points``."], .none⟩

/-- deprecated.py 94-106: `rcm2rgrid` -/
def rcm2rgrid (_args : List (Value α)) (_kwargs : List (String × Value α)) : Effect α :=
  ⟨["To use this function, install the geocat-f2py package and import as ``geocat.f2py.rcm2rgrid``."], .none⟩

/-- deprecated.py 109-121: `rgrid2rcm` -/
def rgrid2rcm (_args : List (Value α)) (_kwargs : List (String × Value α)) : Effect α :=
  ⟨["To use this function, install the geocat-f2py package and import as ``geocat.f2py.rgrid2rcm``."], .none⟩

/-- deprecated.py 124-136: `triple_to_grid` -/
def tripleToGrid (_args : List (Value α)) (_kwargs : List (String × Value α)) : Effect α :=
  ⟨["To use this function, install the geocat-f2py package and import as ``geocat.f2py.triple_to_grid``."], .none⟩

/-- the module's functions by name -/
def functions : List (String × (List (Value α) → List (String × Value α) → Effect α)) :=
  [("grid_to_triple", gridToTriple), ("linint1", linint1), ("linint2", linint2), ("linint2pts", linint2pts), ("moc_globe_atl", mocGlobeAtl), ("rcm2points", rcm2points), ("rcm2rgrid", rcm2rgrid), ("rgrid2rcm", rgrid2rcm), ("triple_to_grid", tripleToGrid)]

end Verif.Model.Deprecated
