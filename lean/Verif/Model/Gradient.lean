import Verif.Basic.Tensor
import Verif.Basic.XF
import Mathlib.Analysis.SpecialFunctions.Trigonometric.Basic

/-
Model of geocat/comp/gradient.py. Coordinates are finite real numbers, data values may be NaN or infinite.
Simplifications: arithmetic is exact; DataArray coordinates are used positionally (two 2-D coordinate DataArrays with differently named or ordered
dimensions are not modelled); coordinates given as arguments are arrays (a Python list has no `shape`).
-/

namespace Verif.Model.Gradient

/-- gradient.py 8 -/
def d2r : ℝ := 1.74532925199432957692369e-02

/-- gradient.py 47-73: `_rad_lat_wgs84` -/
def radLat (lat : ℝ) : ℝ :=
  (
    8.05993093251779959604912e-107 * lat ^ 48
    - 1.26581811418535723456176e-102 * lat ^ 46
    - 9.10951565776720242021392e-98 * lat ^ 44
    + 7.49821836126201522491765e-93 * lat ^ 42
    - 2.27271626922827622448519e-88 * lat ^ 40
    - 2.71379394439952534826763e-84 * lat ^ 38
    + 6.14832871773468827219624e-79 * lat ^ 36
    - 2.84993185787053811467259e-74 * lat ^ 34
    + 3.04677525449067422497153e-70 * lat ^ 32
    + 4.32285294849656618043972e-65 * lat ^ 30
    - 3.09781963775152747156702e-60 * lat ^ 28
    + 8.20657704323096444142572e-56 * lat ^ 26
    + 2.18501284875664232841136e-51 * lat ^ 24
    - 3.14445926697498412770696e-46 * lat ^ 22
    + 1.33970531285992980064454e-41 * lat ^ 20
    - 3.64729257084431972115219e-38 * lat ^ 18
    - 3.19397401776292877914625e-32 * lat ^ 16
    + 2.09755935705627800528960e-27 * lat ^ 14
    - 3.93234660296994989005722e-23 * lat ^ 12
    - 4.67346944715944948938249e-18 * lat ^ 10
    + 5.23053397296821359502194e-13 * lat ^ 8
    - 2.61499198791487361911660e-08 * lat ^ 6
    + 6.57016735969856188450312e-04 * lat ^ 4
    - 6.50322744547926518806010e0 * lat ^ 2
    + 6378137.0
  )

/-- gradient.py 111-137: `_arc_lat_wgs84` -/
def arcLat (lat : ℝ) : ℝ :=
  (
    2.87086392358719396475614e-110 * lat ^ 49
    - 4.70057315402553703681995e-106 * lat ^ 47
    - 3.53313425533365879608994e-101 * lat ^ 45
    + 3.04345577761664668327703e-96 * lat ^ 43
    - 9.67472728333544072524681e-92 * lat ^ 41
    - 1.21447793719117046293341e-87 * lat ^ 39
    + 2.90023188160517270041180e-82 * lat ^ 37
    - 1.42116269649485608032749e-77 * lat ^ 35
    + 1.61140181088334593373753e-73 * lat ^ 33
    + 2.43380700099386902295507e-68 * lat ^ 31
    - 1.86438456247248912270599e-63 * lat ^ 29
    + 5.30488110085042076590693e-59 * lat ^ 27
    + 1.52542673636737189511924e-54 * lat ^ 25
    - 2.38613771319829866779682e-49 * lat ^ 23
    + 1.11344136742221455419521e-44 * lat ^ 21
    - 3.35038232340852202916191e-41 * lat ^ 19
    - 3.27913899018323295027126e-35 * lat ^ 17
    + 2.44062113577649370926265e-30 * lat ^ 15
    - 5.27941504241845042397655e-26 * lat ^ 13
    - 7.41522084948104995730556e-21 * lat ^ 11
    + 1.01433377184128234589268e-15 * lat ^ 9
    - 6.52003144319804471773524e-11 * lat ^ 7
    + 2.29342105667605006614878e-06 * lat ^ 5
    - 3.78342436432244021373642e-02 * lat ^ 3
    + 111319.490793273572647713 * lat
  )

/-- gradient.py 181: `_arc_lon_wgs84` -/
noncomputable def arcLon (lon lat : ℝ) : ℝ := radLat lat * Real.cos (lat * d2r) * lon * d2r

/-- `np.gradient` of `n` values (unit spacing, first-order edges) at position `i`; `half` divides by two -/
def diffAt {α : Type} [Sub α] (half : α → α) (n : ℕ) (f : ℕ → α) (i : ℕ) : α :=
  if i = 0 then f 1 - f 0 else if i = n - 1 then f (n - 1) - f (n - 2) else half (f (i + 1) - f (i - 1))

/-- `np.gradient(a, axis=k)` -/
def npGradientAxis {α : Type} [Sub α] (half : α → α) (k : ℕ) (a : Tensor α) : Except PyErr (Tensor α) :=
  match a.shape[k]? with
  | none => .error .axisError
  | some n => if n < 2 then .error .valueError else .ok ⟨a.shape, fun i => diffAt half n (fun v => a.get (i.set k v)) (i.getD k 0)⟩

noncomputable def halfR (x : ℝ) : ℝ := x / 2
noncomputable def halfX (x : XF ℝ) : XF ℝ := x / .fin 2

/-- `grad = np.gradient(data)`, `(grad[0], grad[1])`: every axis needs two values; without axes the result is empty; with one axis it is an array, whose
first two entries are taken -/
noncomputable def npGradientFirstTwo (data : Tensor (XF ℝ)) : Except PyErr (Tensor (XF ℝ) × Tensor (XF ℝ)) :=
  if data.shape.any (fun n => decide (n < 2)) then .error .valueError
  else match data.shape with
    | [] => .error .indexError
    | [n] => .ok (⟨[], fun _ => diffAt halfX n (fun v => data.get [v]) 0⟩, ⟨[], fun _ => diffAt halfX n (fun v => data.get [v]) 1⟩)
    | _ => do
      let g0 ← npGradientAxis halfX 0 data
      let g1 ← npGradientAxis halfX 1 data
      pure (g0, g1)

/-- type of the `data` argument -/
inductive DataKind
  | numpy | dataArray | dataset | other
  deriving DecidableEq

/-- the `data` argument: its type, the coordinates named `lat` and `lon` (of xarray objects), and its values -/
structure Data where
  kind : DataKind
  latCoord : Option (Tensor ℝ)
  lonCoord : Option (Tensor ℝ)
  val : Tensor (XF ℝ)

/-- one returned array: for DataArrays with their coordinates -/
inductive Result
  | numpy (val : Tensor (XF ℝ))
  | dataArray (val : Tensor (XF ℝ)) (lon lat : Tensor ℝ)

/-- the values of a returned array -/
def Result.val : Result → Tensor (XF ℝ)
  | .numpy v => v
  | .dataArray v _ _ => v

/-- gradient.py 215-233: where lon and lat are taken from -/
def chooseCoords (data : Data) (lon lat : Option (Tensor ℝ)) : Except PyErr (Option (Tensor ℝ) × Option (Tensor ℝ)) :=
  if lat.isNone || lon.isNone then
    match data.kind with
    | .dataArray | .dataset =>
      match data.latCoord, data.lonCoord with
      | some la, some lo => .ok (some lo, some la)
      | _, _ => .ok (lon, lat)
    | .numpy => .error .exception
    | .other => .error .exception
  else .ok (lon, lat)

/-- `np.meshgrid(lon, lat)` for 1-D arrays -/
def meshLon (lon lat : Tensor ℝ) : Tensor ℝ := ⟨[lat.shape.getD 0 0, lon.shape.getD 0 0], fun i => lon.get [i.getD 1 0]⟩
def meshLat (lon lat : Tensor ℝ) : Tensor ℝ := ⟨[lat.shape.getD 0 0, lon.shape.getD 0 0], fun i => lat.get [i.getD 0 0]⟩

/-- gradient.py 235-240: the 2-D coordinates; `.shape` of `None` is an `AttributeError`, evaluated left to right -/
def to2d (lon lat : Option (Tensor ℝ)) : Except PyErr (Tensor ℝ × Tensor ℝ) :=
  match lon with
  | none => .error .attributeError
  | some lo =>
    if lo.shape.length = 1 then
      match lat with
      | none => .error .attributeError
      | some la => if la.shape.length = 1 then .ok (meshLon lo la, meshLat lo la) else .error .valueError
    else if lo.shape.length = 2 then
      match lat with
      | none => .error .attributeError
      | some la => if la.shape.length = 2 then .ok (lo, la) else .error .valueError
    else .error .valueError

/-- gradient.py 253-269: wrapping in a DataArray with dims x, y and 2-D coordinates -/
def wrap (kind : DataKind) (v : Tensor (XF ℝ)) (lon lat : Tensor ℝ) : Except PyErr Result :=
  match kind with
  | .dataArray | .dataset =>
    if v.shape.length = 2 ∧ lon.shape = v.shape ∧ lat.shape = v.shape then .ok (.dataArray v lon lat) else .error .valueError
  | _ => .ok (.numpy v)

/-- gradient.py 184-271: `gradient`; numpy cannot convert a Dataset to an array (`TypeError` at line 248) -/
noncomputable def gradient (data : Data) (lon lat : Option (Tensor ℝ)) : Except PyErr (List Result) := do
  let c ← chooseCoords data lon lat
  let (lon2d, lat2d) ← to2d c.1 c.2
  -- 242-243
  let axis0loc := lat2d.map arcLat
  let axis1loc ← Tensor.zip arcLon lon2d lat2d
  -- 245-246
  let axis0dist ← npGradientAxis halfR 0 axis0loc
  let axis1dist ← npGradientAxis halfR 1 axis1loc
  -- 248
  if data.kind = .dataset then throw .typeError
  let grad ← npGradientFirstTwo data.val
  -- 250-251
  let axis0grad ← Tensor.zip (fun (g : XF ℝ) (d : ℝ) => g / .fin d) grad.1 axis0dist
  let axis1grad ← Tensor.zip (fun (g : XF ℝ) (d : ℝ) => g / .fin d) grad.2 axis1dist
  -- 253-271
  let r0 ← wrap data.kind axis0grad lon2d lat2d
  let r1 ← wrap data.kind axis1grad lon2d lat2d
  pure [r0, r1]

end Verif.Model.Gradient
