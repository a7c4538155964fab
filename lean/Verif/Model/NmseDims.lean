import Verif.Model.HybridAlign
import Verif.Model.Nmse

/-
Model of lines 111-143 of `nmse` of /repo/geocat/comp/stats.py for DataArrays with named dimensions and labels, in particular with dimensions
besides latitude and longitude. See Model/Nmse for the tests of lines 55-108 and for fields over latitude and longitude alone.
-/

namespace Verif.Model
variable {K : Type} [Field K] [LinearOrder K] {α β γ : Type}

/-- `x.where(cond, other)` with a replacement value: join="exact" along every shared dimension, no reordering -/
def zipExact (f : α → β → γ) (a : IArr K α) (b : IArr K β) : Except PyErr (IArr K γ) :=
  if a.arr.dims.all (fun d => !b.arr.dims.contains d || (exactOk (a.index d) (b.index d) && a.arr.size d == b.arr.size d)) then
    .ok ⟨⟨a.arr.dims ++ b.arr.dims.filter (fun d => !a.arr.dims.contains d),
      fun d => if a.arr.dims.contains d then a.arr.size d else b.arr.size d, fun i => f (a.arr.get i) (b.arr.get i)⟩,
      fun d => if a.arr.dims.contains d then (a.index d).orElse (fun _ => if b.arr.dims.contains d then b.index d else none) else b.index d⟩
  else .error .valueError

/-- xarray `weighted(ws).mean()` of the values of some cells, `none` is NaN: missing values and their weights are left out, NaN if the
remaining weights add up to 0 -/
def wmeanNa (ws : List K) (vs : List (Option K)) : Option K :=
  let sw := (List.zipWith (fun w v => if v.isSome then w else 0) ws vs).sum
  if sw = 0 then none else some ((List.zipWith (fun w v => w * v.getD 0) ws vs).sum / sw)

/-- the indices that agree with `i` outside the dimensions `sp` -/
def cellsAt (size : String → ℕ) (sp : List String) (i : String → ℕ) : List (String → ℕ) :=
  (LArr.indicesOf size sp).map (fun c d => if sp.contains d then c d else i d)

/-- `x.weighted(w).mean(dim=sp)` -/
def meanOver (sp : List String) (w : IArr K K) (x : IArr K (Option K)) : Except PyErr (IArr K (Option K)) := do
  let p ← IArr.zip Prod.mk x w
  return ⟨⟨p.arr.dims.filter (fun d => !sp.contains d), p.arr.size, fun i =>
    wmeanNa ((cellsAt p.arr.size sp i).map (fun c => (p.arr.get c).2)) ((cellsAt p.arr.size sp i).map (fun c => (p.arr.get c).1))⟩, p.index⟩

/-- a number, or NaN -/
def ofOpt : Option K → XF K
  | some x => .fin x
  | none => .nan

/-- stats.py:111-143. `lat` and `lon` are the coordinates found in `observed`; `wt` is `np.cos(np.deg2rad(·))`. -/
def nmseDims (wt : K → K) (lat lon : LArr K) (observed modeled : IArr K (Option K)) : Except PyErr (IArr K (XF K)) := do
  -- 114-116
  let sp := (lat.dims ++ lon.dims).dedup
  -- 119
  let w0 : IArr K K := ⟨lat.map wt, observed.index⟩
  -- 122
  let cond ← IArr.zip (fun (o m : Option K) => o.isSome && m.isSome) observed modeled
  let w ← zipExact (fun w c => if c then w else 0) w0 cond
  -- 123, 124
  let o ← zipExact (fun x w => maskValue w x) observed w
  let m ← zipExact (fun x w => maskValue w x) modeled w
  -- 133
  let ow ← meanOver sp w (o.map some)
  -- 136-137
  let num ← IArr.zip (fun m o => some ((m - o) * (m - o))) m o
  let num ← meanOver sp w num
  -- 140-141
  let den ← IArr.zip (fun o (ow : Option K) => ow.map (fun ow => (o - ow) * (o - ow))) o ow
  let den ← meanOver sp w den
  -- 143
  IArr.zip (fun n d => ofOpt n / ofOpt d) num den

end Verif.Model
