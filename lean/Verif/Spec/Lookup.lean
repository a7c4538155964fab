import Verif.Basic.PyStr

/-
What counts as a match in the variable lookup (no import of the model): a name or attribute equal to the requested
one up to the listed spellings.
-/

namespace Verif.Spec
open PyStr

/-- `s` is the requested name `r` as given, in lower case, upper case, capitalised, or with every `_`-separated word
capitalised -/
def IsSpelling (r s : Str) : Prop :=
  s = r ∨ s = lower r ∨ s = upper r ∨ s = capitalize r ∨ s = title '_' r

/-- spellings of a long name: additionally space-separated words capitalised and blanks/underscores exchanged -/
def IsLongSpelling (r s : Str) : Prop :=
  IsSpelling r s ∨ s = title ' ' r ∨ s = replace ' ' '_' r ∨ s = replace '_' ' ' r

end Verif.Spec
