import Verif.Basic.Py
import Mathlib.Logic.Function.Basic

/-
Arrays with named dimensions (xarray.DataArray): dimension names in order, sizes, and values indexed by name.
Arithmetic lines up dimensions by name, as xarray does. Coordinate labels are not part of this structure: shared
dimensions are assumed to carry equal labels (xarray would otherwise intersect them).
-/

namespace Verif

structure LArr (α : Type _) where
  dims : List String
  size : String → Nat
  get : (String → Nat) → α

namespace LArr
variable {α β γ : Type _}

/-- the value depends only on the indices along the array's own dimensions -/
def WF (a : LArr α) : Prop := ∀ i j : String → Nat, (∀ d ∈ a.dims, i d = j d) → a.get i = a.get j

/-- `a.shape` -/
def shape (a : LArr α) : List Nat := a.dims.map a.size

/-- `i` is a valid index -/
def InBounds (a : LArr α) (i : String → Nat) : Prop := ∀ d ∈ a.dims, i d < a.size d

/-- elementwise operation; conflicting sizes of a shared dimension are a ValueError -/
def zip (f : α → β → γ) (a : LArr α) (b : LArr β) : Except PyErr (LArr γ) :=
  if a.dims.all (fun d => !b.dims.contains d || a.size d == b.size d) then
    .ok ⟨a.dims ++ b.dims.filter (fun d => !a.dims.contains d),
      fun d => if a.dims.contains d then a.size d else b.size d, fun i => f (a.get i) (b.get i)⟩
  else .error .valueError

def map (f : α → β) (a : LArr α) : LArr β := ⟨a.dims, a.size, fun i => f (a.get i)⟩

/-- new name of a dimension -/
def newName (r : List (String × String)) (d : String) : String :=
  match r.find? (fun e => e.1 == d) with
  | some e => e.2
  | none => d

/-- old name of a dimension -/
def oldName (r : List (String × String)) (d : String) : String :=
  match r.find? (fun e => e.2 == d) with
  | some e => e.1
  | none => d

/-- `a.rename({old: new, ...})`, for a renaming that is one-to-one on the dimensions -/
def rename (r : List (String × String)) (a : LArr α) : LArr α :=
  ⟨a.dims.map (newName r), fun d => a.size (oldName r d), fun i => a.get (fun d => i (newName r d))⟩

/-- the values along dimension `d` at the other indices of `i` -/
def line (a : LArr α) (d : String) (i : String → Nat) : List α :=
  (List.range (a.size d)).map (fun k => a.get (Function.update i d k))

/-- all indices over the given dimensions (0 elsewhere), row major -/
def indicesOf (size : String → Nat) : List String → List (String → Nat)
  | [] => [fun _ => 0]
  | d :: ds => (List.range (size d)).flatMap (fun k => (indicesOf size ds).map (fun i => Function.update i d k))

end LArr
end Verif
