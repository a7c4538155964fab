import Verif.Model.Deprecated

namespace Verif.Props
open Model.Deprecated

/-- the entry points listed in the property -/
def deprecatedNames : List String :=
  ["grid_to_triple", "linint1", "linint2", "linint2pts", "moc_globe_atl", "rcm2points", "rcm2rgrid", "rgrid2rcm", "triple_to_grid"]

/-- `s` contains the name of the replacement of the function `n` -/
def NamesReplacement (n s : String) : Prop := ∃ pre post : String, s = pre ++ ("geocat.f2py." ++ n ++ "``.") ++ post

/-- The deprecated functions are exactly the ones listed; each accepts any arguments, issues one warning naming its own replacement, and returns None. -/
theorem C77_deprecated (α : Type) : (functions (α := α)).map Prod.fst = deprecatedNames ∧
    ∀ p ∈ functions (α := α), ∀ args kwargs, ∃ w, (p.2 args kwargs).warnings = [w] ∧ NamesReplacement p.1 w ∧ (p.2 args kwargs).result = .none := by
  refine ⟨rfl, ?_⟩
  intro p hp args kwargs
  simp only [functions, List.mem_cons, List.not_mem_nil, or_false] at hp
  rcases hp with rfl | rfl | rfl | rfl | rfl | rfl | rfl | rfl | rfl
  all_goals
    refine ⟨_, rfl, ⟨"To use this function, install the geocat-f2py package and import as ``", "", ?_⟩, rfl⟩
    simp only
    decide

example : (functions (α := Nat)).length = 9 := rfl

end Verif.Props
