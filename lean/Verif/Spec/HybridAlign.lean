import Verif.Spec.HybridInterp
import Verif.Spec.Sigma

/-
Specification for C185: which values belong together when arrays carry coordinate labels.
-/

namespace Verif.Spec
variable {K : Type} [Field K] [LinearOrder K]

/-- where in an array labelled `mine` the label is that stands at position `k` of an array labelled `theirs`; without labels on one side,
the same position -/
def placeOf (theirs mine : Option (List K)) (k : ℕ) : ℕ :=
  match theirs, mine with
  | some l, some m => m.idxOf (l.getD k 0)
  | _, _ => k

/-- the array `a` (labelled `mine`) read at the labels `theirs`: its value at position `i` is the one that carries the labels which
`theirs` has at position `i` -/
def readAt (theirs mine : String → Option (List K)) (a : LArr K) : LArr K :=
  ⟨a.dims, a.size, fun i => a.get (fun d => placeOf (theirs d) (mine d) (i d))⟩

/-- coefficients read at labels -/
def coefAt (theirs mine : Option (List K)) (a : ℕ → K) : ℕ → K := fun k => a (placeOf theirs mine k)

end Verif.Spec
