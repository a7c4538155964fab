/-
The warning filters of the process while blocks of `interp_hybrid_to_pressure` run on several threads.

Source: /repo/geocat/comp/interpolation.py:163-170 (`_vertical_remap`), called once for each dask block at 712-723
when `xr.map_blocks` has not been used; dask's default scheduler for arrays runs blocks on a pool of threads of one process.

    with warnings.catch_warnings():
        warnings.filterwarnings("ignore", r"Interpolation point out of data bounds encountered")
        return func_interpolate(new_levels, xcoords, data, axis=interp_axis)

`warnings` (CPython's Lib/warnings.py): `warnings.filters` is one list object for the whole process.  `catch_warnings.__enter__` remembers
the list object in force and puts a copy of it in force; `filterwarnings` removes the filter from the list in force, if it is there, and
inserts it at the front, in place; `catch_warnings.__exit__` puts the remembered list object back.  (CPython 3.14 can keep filters per
context; the flag is off by default except in free-threaded builds.)

Each of the four operations is one step here; a schedule interleaves the steps of the threads in any way.
-/

namespace Verif.Model

variable {F : Type}

/-- all filter lists ever created, and which of them is `warnings.filters` -/
structure WarnState (F : Type) where
  lists : List (List F)
  cur : Nat

/-- the filters in force -/
def WarnState.inForce (w : WarnState F) : List F := w.lists.getD w.cur []

/-- where a thread is in interpolation.py:166-170; the flag tells whether the interpolation ran with the `ignore` filter first, so that it
printed no out-of-bounds warning -/
inductive Phase
  | start
  /-- inside the `with`, having remembered list `saved` -/
  | entered (saved : Nat)
  /-- after `filterwarnings` -/
  | filtered (saved : Nat)
  /-- after `func_interpolate` -/
  | interpolated (saved : Nat) (quiet : Bool)
  | done (quiet : Bool)
  deriving DecidableEq

/-- `filterwarnings("ignore", …)`: the filter `ig` goes to the front of the list in force -/
def addFilter [DecidableEq F] (ig : F) (l : List F) : List F := ig :: l.erase ig

/-- interpolation.py:166-170: the next step of a thread -/
def warnStep [DecidableEq F] (ig : F) (w : WarnState F) : Phase → WarnState F × Phase
  -- 166: `catch_warnings.__enter__`
  | .start => (⟨w.lists ++ [w.inForce], w.lists.length⟩, .entered w.cur)
  -- 167-169
  | .entered saved => (⟨w.lists.set w.cur (addFilter ig w.inForce), w.cur⟩, .filtered saved)
  -- 170
  | .filtered saved => (w, .interpolated saved (decide (w.inForce.head? = some ig)))
  -- leaving the `with`: `catch_warnings.__exit__`
  | .interpolated saved quiet => (⟨w.lists, saved⟩, .done quiet)
  | .done quiet => (w, .done quiet)

/-- one step of thread `i`; a number that is no thread does nothing -/
def warnTick [DecidableEq F] (ig : F) (s : WarnState F × List Phase) (i : Nat) : WarnState F × List Phase :=
  match s.2[i]? with
  | none => s
  | some p => ((warnStep ig s.1 p).1, s.2.set i (warnStep ig s.1 p).2)

/-- a schedule: the threads in the order in which they make their steps -/
def warnRun [DecidableEq F] (ig : F) (s : WarnState F × List Phase) (sched : List Nat) : WarnState F × List Phase :=
  sched.foldl (warnTick ig) s

/-- `n` blocks about to be computed in a process with the filters `f` -/
def warnInit (f : List F) (n : Nat) : WarnState F × List Phase := (⟨[f], 0⟩, List.replicate n .start)

end Verif.Model
