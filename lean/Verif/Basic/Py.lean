/-
Python-level primitives used by the model: exceptions as values, list indexing and slicing with Python's
negative-index and clamping rules, `min`/`max` of a possibly empty sequence.
Nothing here is specific to geocat-comp; it is Python/numpy semantics (trusted, see DESIGN.md section 2).
-/

namespace Verif

/-- The exception classes raised by the modelled code (explicitly or by Python/numpy underneath). -/
inductive PyErr
  | typeError | valueError | indexError | keyError | attributeError | axisError | notImplemented | exception
  deriving DecidableEq, Repr

namespace Py

/-- `l[i]` for a Python list or 1-D numpy array: negative indices count from the end,
out-of-range raises `IndexError`. -/
def index {α : Type _} (l : List α) (i : Int) : Except PyErr α :=
  let j := if i < 0 then i + l.length else i
  if j < 0 then .error .indexError
  else match l[j.toNat]? with
    | some a => .ok a
    | none => .error .indexError

/-- Normalise one slice bound: add the length to a negative bound, clamp to `[0, n]`. -/
def clampBound (n : Nat) (i : Int) : Nat :=
  min (if i < 0 then i + n else i).toNat n

/-- `l[a:b]` (step 1). -/
def slice {α : Type _} (l : List α) (a b : Int) : List α :=
  (l.take (clampBound l.length b)).drop (clampBound l.length a)

/-- Slice positions `range(n)[a:b]` as a predicate: position `k` is touched by `[a:b]`. -/
def inSlice (n : Nat) (a b : Int) (k : Nat) : Bool :=
  clampBound n a ≤ k && k < clampBound n b

/-- numpy `l[a:b] = vs` for 1-D arrays: lengths must match (or `vs` has one element, which broadcasts). -/
def setSlice {α : Type _} (l : List α) (a b : Int) (vs : List α) : Except PyErr (List α) :=
  let lo := clampBound l.length a
  let hi := clampBound l.length b
  if vs.length = hi - lo then
    .ok (l.take lo ++ vs ++ l.drop (max lo hi))
  else match vs with
    | [v] => .ok (l.take lo ++ List.replicate (hi - lo) v ++ l.drop (max lo hi))
    | _ => .error .valueError

/-- numpy `l[i] = v`. -/
def setIndex {α : Type _} (l : List α) (i : Int) (v : α) : Except PyErr (List α) :=
  let j := if i < 0 then i + l.length else i
  if 0 ≤ j ∧ j < l.length then .ok (l.set j.toNat v) else .error .indexError

/-- Python `min(seq)` on a sequence of indices; `ValueError` when empty. -/
def minNat : List Nat → Except PyErr Nat
  | [] => .error .valueError
  | x :: xs => .ok (xs.foldl min x)

/-- Python `max(seq)` on a sequence of indices; `ValueError` when empty. -/
def maxNat : List Nat → Except PyErr Nat
  | [] => .error .valueError
  | x :: xs => .ok (xs.foldl max x)

end Py

/-- `np.roll(l, shift=1)` for a 1-D array. -/
def Np.roll1 {α : Type _} (l : List α) : List α :=
  match l.getLast? with
  | none => []
  | some a => a :: l.dropLast

/-- `np.nonzero(cond)` for a 1-D condition array. -/
def Np.nonzero (c : List Bool) : List Nat :=
  (List.range c.length).filter (fun i => c[i]? == some true)

end Verif
