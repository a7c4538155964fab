import Verif.Basic.Py
import Mathlib.Data.List.Forall2

/-
N-dimensional arrays as a shape and a function on multi-indices, with numpy's broadcasting rules, and Python
values tagged with their type. Only indices inside the shape are meaningful (`InBounds`).
Nothing here is specific to geocat-comp; it is numpy semantics (trusted, see DESIGN.md section 2).
-/

namespace Verif

/-- An N-D array. `get i` is only meaningful when `i` is in bounds of `shape`. -/
structure Tensor (α : Type _) where
  shape : List Nat
  get : List Nat → α

namespace Tensor
variable {α β γ δ : Type _}

/-- multi-index `i` is inside the shape `s` -/
def InBounds (s i : List Nat) : Prop := List.Forall₂ (· < ·) i s

/-- all multi-indices of a shape, in row-major order -/
def indices : List Nat → List (List Nat)
  | [] => [[]]
  | d :: ds => (List.range d).flatMap (fun k => (indices ds).map (k :: ·))

/-- the values in row-major order: `arr.ravel()` -/
def values (a : Tensor α) : List α := (indices a.shape).map a.get

/-- two arrays are equal as arrays: same shape and same values at every index in bounds -/
def Same (a b : Tensor α) : Prop := a.shape = b.shape ∧ ∀ i, InBounds a.shape i → a.get i = b.get i

/-- elementwise unary operation -/
def map (f : α → β) (a : Tensor α) : Tensor β := ⟨a.shape, fun i => f (a.get i)⟩

/-- numpy broadcasting of one dimension -/
def bdim (a b : Nat) : Option Nat :=
  if a = b then some a else if a = 1 then some b else if b = 1 then some a else none

/-- numpy broadcasting of two shapes, given last dimension first -/
def bshapeRev : List Nat → List Nat → Option (List Nat)
  | [], b => some b
  | a, [] => some a
  | x :: a, y :: b =>
    match bdim x y, bshapeRev a b with
    | some d, some r => some (d :: r)
    | _, _ => none

/-- numpy broadcasting of two shapes -/
def bshape (a b : List Nat) : Option (List Nat) := (bshapeRev a.reverse b.reverse).map List.reverse

/-- the index into an operand of shape `s` for index `i` of the broadcast result -/
def bidx (s i : List Nat) : List Nat :=
  List.zipWith (fun d k => if d = 1 then 0 else k) s (i.drop (i.length - s.length))

/-- elementwise binary operation with broadcasting; numpy raises `ValueError` for incompatible shapes -/
def zip (f : α → β → γ) (a : Tensor α) (b : Tensor β) : Except PyErr (Tensor γ) :=
  match bshape a.shape b.shape with
  | none => .error .valueError
  | some s => .ok ⟨s, fun i => f (a.get (bidx a.shape i)) (b.get (bidx b.shape i))⟩

/-- elementwise ternary operation with broadcasting -/
def zip3 (f : α → β → γ → δ) (a : Tensor α) (b : Tensor β) (c : Tensor γ) : Except PyErr (Tensor δ) :=
  match bshape a.shape b.shape with
  | none => .error .valueError
  | some s =>
    match bshape s c.shape with
    | none => .error .valueError
    | some s' => .ok ⟨s', fun i => f (a.get (bidx a.shape i)) (b.get (bidx b.shape i)) (c.get (bidx c.shape i))⟩

theorem bshapeRev_self (a : List Nat) : bshapeRev a a = some a := by
  induction a with
  | nil => rfl
  | cons x a ih => simp [bshapeRev, bdim, ih]

@[simp] theorem bshape_self (a : List Nat) : bshape a a = some a := by
  simp [bshape, bshapeRev_self]

theorem bidx_of_inBounds {s i : List Nat} (h : InBounds s i) : bidx s i = i := by
  have hl : i.length = s.length := h.length_eq
  unfold bidx
  rw [hl, Nat.sub_self, List.drop_zero]
  clear hl
  induction h with
  | nil => rfl
  | cons hab _ ih =>
    simp only [List.zipWith_cons_cons, ih]
    congr 1
    split
    · omega
    · rfl

theorem mem_indices {s i : List Nat} : i ∈ indices s ↔ InBounds s i := by
  induction s generalizing i with
  | nil => simp [indices, InBounds]
  | cons d ds ih =>
    simp only [indices, List.mem_flatMap, List.mem_range, List.mem_map, InBounds, ih]
    constructor
    · rintro ⟨k, hk, j, hj, rfl⟩
      exact List.Forall₂.cons hk hj
    · intro h
      cases h with
      | cons hk hj => exact ⟨_, hk, _, hj, rfl⟩

theorem mem_values {a : Tensor α} {x : α} : x ∈ a.values ↔ ∃ i, InBounds a.shape i ∧ a.get i = x := by
  simp [values, mem_indices]

theorem zip_same (f : α → β → γ) (a : Tensor α) (b : Tensor β) (h : a.shape = b.shape) :
    ∃ r, zip f a b = .ok r ∧ r.shape = a.shape ∧ ∀ i, InBounds a.shape i → r.get i = f (a.get i) (b.get i) := by
  refine ⟨⟨a.shape, fun i => f (a.get (bidx a.shape i)) (b.get (bidx b.shape i))⟩, ?_, rfl, ?_⟩
  · simp [zip, ← h]
  · intro i hi
    simp only [← h, bidx_of_inBounds hi]

theorem zip3_same (f : α → β → γ → δ) (a : Tensor α) (b : Tensor β) (c : Tensor γ) (h : a.shape = b.shape)
    (h' : a.shape = c.shape) :
    ∃ r, zip3 f a b c = .ok r ∧ r.shape = a.shape ∧
      ∀ i, InBounds a.shape i → r.get i = f (a.get i) (b.get i) (c.get i) := by
  refine ⟨⟨a.shape, fun i => f (a.get (bidx a.shape i)) (b.get (bidx b.shape i)) (c.get (bidx c.shape i))⟩, ?_, rfl, ?_⟩
  · simp [zip3, ← h, ← h']
  · intro i hi
    simp only [← h, ← h', bidx_of_inBounds hi]

end Tensor

/-- The Python types the public functions distinguish. `npScalar` is `np.float64`, a subclass of `float`,
which is what numpy arithmetic on 0-d arrays returns. -/
inductive PyType
  | list | tuple | float | int | npScalar | ndarray | dataArray
  deriving DecidableEq, Repr

/-- `isinstance(value of type a, b)` for these types. -/
def PyType.isInstance (a b : PyType) : Bool := a == b || (a == .npScalar && b == .float)

/-- A Python value: its type and its numeric content (what `np.asarray` sees). -/
structure Arg (α : Type _) where
  ty : PyType
  val : Tensor α

/-- scalars have empty shape, lists and tuples do not -/
def Arg.WF {α : Type _} (a : Arg α) : Prop :=
  match a.ty with
  | .float | .int | .npScalar => a.val.shape = []
  | .list | .tuple => a.val.shape ≠ []
  | .ndarray | .dataArray => True

/-- type of the result of numpy arithmetic on arrays of this shape: 0-d results decay to `np.float64` -/
def npResultType (shape : List Nat) : PyType := if shape = [] then .npScalar else .ndarray

/-- type of `arr.tolist()`: a Python float for a 0-d array, a list otherwise -/
def tolistType (shape : List Nat) : PyType := if shape = [] then .float else .list

end Verif
